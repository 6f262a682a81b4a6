import Verif.Props.NovaStruct

/-!
# Property C87, continued: the forgery of C53 on limbs and structs
-/

set_option exponentiation.threshold 1600

namespace Kogarashi.Props

open Kogarashi Spec Curve Kogarashi.Field Limbs Groth16 Nova Tower

section
variable {P Q : FieldParams} [hvP : ValidWords P] [hvQ : ValidWords Q] {B : ZMod Q.m} {b : Words Q} [Module (ZMod P.m) (curve B).Point]

/-- **C87 is false of soundness on limbs.** Let `(i1, w1)` be any running pair with opened commitments and zero error vector, satisfied or not,
and let someone know one solution `(s, sw)` of the shape.  Because the challenge does not depend on the instance folded in, they can choose
that instance so that the verifier of the code folds it into an instance for which they hold a satisfying witness that opens the commitments. -/
theorem C87_forgery_refuted (hb : Words.hom b = B) {g : List (Aff (Words Q))} {G : List (curve B).Point} (hg : List.Forall₂ Stands g G)
    (cs : List (Words Q)) {S : Shape (Words P)} {i1 : RInst (Words P) (Aff (Words Q))} {I1 : RInst (ZMod P.m) (curve B).Point}
    (h1 : RInstHolds i1 I1) {w1 : List (Words P)} {s : Inst (Words P) (Aff (Words Q))} {sI : Inst (ZMod P.m) (curve B).Point}
    (hsI : InstHolds s sI) {sw : List (Words P)} (hs : wIsSat b S g s sw = some true) {T : Aff (Words Q)}
    (hT : Normal T (0 : (curve B).Point)) {r : Words P} (hr : wChallenge cs T i1 = some r) (h0 : r ≠ 0)
    (hx : i1.x.length = s.x.length) (hl : w1.length = sw.length) (hw : wCommit b g w1 = some i1.commitW)
    (he : Normal i1.commitE (0 : (curve B).Point)) :
    ∃ i2 i', ∃ w' : List (Words P), wVerify cs b T i1 i2 = some i' ∧ isSatRelaxed S i' ⟨w', List.replicate S.m 0⟩ = some true ∧
      wCommit b g w' = some i'.commitW ∧ wCommit b g (List.replicate S.m (0 : Words P)) = some i'.commitE := by
  subst hb
  have op : ∀ {m : List (Words P)} {c : Aff (Words Q)} {X : (curve (Words.hom b)).Point}, Normal c X →
      wCommit b g m = some c → commit G (m.map (Words.hom (P := P))) = X := by
    intro m c X hc hm
    obtain ⟨c', e1, e2⟩ := wCommit_normal hg m
    rw [hm] at e1; cases e1
    exact ((C87_normal_eq e2 hc).2.mpr rfl)
  have po : ∀ {m : List (Words P)} {c : Aff (Words Q)} {X : (curve (Words.hom b)).Point}, Normal c X →
      commit G (m.map (Words.hom (P := P))) = X → wCommit b g m = some c := by
    intro m c X hc hm
    obtain ⟨c', e1, e2⟩ := wCommit_normal hg m
    rw [hm] at e2
    rw [e1, C87_normal_unique e2 hc]
  have hs' : isSat (S.mapF Words.hom) G sI (sw.map Words.hom) = some true := by rw [← wIsSat_eq hsI hg]; exact hs
  have hc := hom_challenge hT h1 cs
  rw [hr] at hc
  have hr0 : (Words.hom r : ZMod P.m) ≠ 0 := (map_ne_zero Words.hom).mpr h0
  have hE : I1.commitE = 0 := (C87_normal_eq h1.commitE he).2.mpr rfl
  obtain ⟨I', v1, v2, v3, v4⟩ := C53_forgery_refuted (E := envOf (Words.hom b) (cs.map Words.hom)) (S := S.mapF Words.hom) (ck := G) (i1 := I1)
    (w1 := w1.map Words.hom) (s := sI) (sw := sw.map Words.hom) hs' hc.symm hr0
    (by rw [h1.x, hsI.x, List.length_map, List.length_map, hx]) (by rw [List.length_map, List.length_map, hl]) (op h1.commitW hw) hE
  obtain ⟨fw, hfw⟩ := List.map_surjective_iff.mpr (hom_surj (P := P)) (forgedX I1.u (Words.hom r) (w1.map Words.hom) (sw.map Words.hom))
  obtain ⟨fx, hfx⟩ := List.map_surjective_iff.mpr (hom_surj (P := P)) (forgedX I1.u (Words.hom r) I1.x sI.x)
  obtain ⟨w', hw'⟩ := List.map_surjective_iff.mpr (hom_surj (P := P)) (vecScale (sw.map Words.hom) (I1.u + Words.hom r))
  obtain ⟨c, c1, c2⟩ := wCommit_normal hg fw
  have h2 : InstHolds (P := P) (B := Words.hom b) ⟨c, fx⟩ ⟨commit G (forgedX I1.u (Words.hom r) (w1.map Words.hom) (sw.map Words.hom)),
      forgedX I1.u (Words.hom r) I1.x sI.x⟩ := ⟨by rw [← hfw]; exact c2, hfx.symm⟩
  have hf := wFold_holds h1 h2 r hT
  unfold Nova.verify at v1
  rw [← hc] at v1
  have v1 : I1.fold ⟨commit G (forgedX I1.u (Words.hom r) (w1.map Words.hom) (sw.map Words.hom)),
      forgedX I1.u (Words.hom r) I1.x sI.x⟩ (Words.hom r) 0 = some I' := v1
  rw [v1] at hf
  generalize ho : wFold b i1 ⟨c, fx⟩ r T = o at hf
  cases hf with
  | some hf =>
    rename_i i'
    have z : (List.replicate S.m (0 : Words P)).map Words.hom = List.replicate (S.mapF (Words.hom (P := P))).m (0 : ZMod P.m) := by
      rw [List.map_replicate, map_zero]; rfl
    refine ⟨⟨c, fx⟩, i', w', ?_, ?_, ?_, ?_⟩
    · unfold wVerify
      rw [hr, Option.bind_eq_bind, Option.bind_some]
      exact ho
    · rw [← isSatRelaxed_map Words.hom S i' I' _ hf.u hf.x]
      unfold RWit.mapF
      dsimp only
      rw [z, hw']
      exact v2
    · exact po hf.commitW (by rw [hw']; exact v3)
    · exact po hf.commitE (by rw [z]; exact v4)

end

theorem normal_identity {Q : FieldParams} [hvQ : ValidWords Q] {B : ZMod Q.m} : Normal (Aff.identity : Aff (Words Q)) (0 : (curve B).Point) := by
  show mapAff Words.hom (Aff.identity : Aff (Words Q)) = Aff.identity
  simp [mapAff, Aff.identity]

/-- The running pair `x = 1, w = (-1, 1)` with `u = 1` over the key `(G, G)` does not satisfy the shape of the product (`1 * -1 ≠ 1`), and without
round constants the challenge is not zero; whoever knows `2 * 2 = 4` chooses an instance that folds it into a satisfied one. -/
example : isSatRelaxed mulShape (⟨Aff.identity, Aff.identity, 1, [1]⟩ : RInst (Words frParams) (Aff (Words fqParams))) ⟨[-1, 1], [0]⟩ = some false ∧
    wCommit g1BW [novaGenW, novaGenW] [(-1 : Words frParams), 1] = some Aff.identity ∧
    ∃ i2 i', ∃ w' : List (Words frParams), wVerify [] g1BW Aff.identity ⟨Aff.identity, Aff.identity, 1, [1]⟩ i2 = some i' ∧
      isSatRelaxed mulShape i' ⟨w', [0]⟩ = some true ∧ wCommit g1BW [novaGenW, novaGenW] w' = some i'.commitW := by
  have hg : List.Forall₂ Stands [novaGenW, novaGenW] [g1Point, g1Point] := .cons novaGenW_stands (.cons novaGenW_stands .nil)
  obtain ⟨c1, a1, n1⟩ := C87_commit g1BW_hom hg [(-1 : Words frParams), 1]
  obtain ⟨c2, a2, n2⟩ := C87_commit g1BW_hom hg [(1 + 1 : Words frParams), 1 + 1 + (1 + 1)]
  have e1 : c1 = Aff.identity := by
    refine C87_normal_unique n1 ?_
    simp only [List.zipWith_cons_cons, List.zipWith_nil_left, List.sum_cons, List.sum_nil, map_neg, map_one, neg_smul, one_smul, add_zero,
      neg_add_cancel]
    exact normal_identity
  have r1 : RInstHolds (⟨Aff.identity, Aff.identity, 1, [1]⟩ : RInst (Words frParams) (Aff (Words fqParams)))
      ⟨(0 : (curve g1B).Point), (0 : (curve g1B).Point), Words.hom 1, [1].map Words.hom⟩ := ⟨normal_identity, normal_identity, rfl, rfl⟩
  have ch : (wChallenge [] Aff.identity (⟨Aff.identity, Aff.identity, 1, [1]⟩ : RInst (Words frParams) (Aff (Words fqParams)))).map
      (fun r => decide (r = 0)) = some false := by decide +kernel
  obtain ⟨r, hr, h0⟩ := Option.map_eq_some_iff.mp ch
  have hs : wIsSat g1BW mulShape [novaGenW, novaGenW] ⟨c2, [1 + 1]⟩ [1 + 1, 1 + 1 + (1 + 1)] = some true := by
    have pa : Matrix.prod mulShape.a mulShape.m 2 [(1 : Words frParams), 1 + 1, 1 + 1, 1 + 1 + (1 + 1)] = some [1 + 1] := by decide +kernel
    have pb : Matrix.prod mulShape.b mulShape.m 2 [(1 : Words frParams), 1 + 1, 1 + 1, 1 + 1 + (1 + 1)] = some [1 + 1] := by decide +kernel
    have pc : Matrix.prod mulShape.c mulShape.m 2 [(1 : Words frParams), 1 + 1, 1 + 1, 1 + 1 + (1 + 1)] = some [1 + 1 + (1 + 1)] := by
      decide +kernel
    have pz : zipVec (· * ·) [(1 + 1 : Words frParams)] [1 + 1] = some [1 + 1 + (1 + 1)] := by decide +kernel
    have pe : c2.eq c2 = true := ((C87_normal_eq n2 n2).1.mpr rfl)
    unfold wIsSat
    simp only [List.length_cons, List.length_nil, List.cons_append, List.nil_append, Option.bind_eq_bind]
    rw [pa, pb, pc]
    simp only [Option.bind_some]
    rw [pz, a2]
    simp only [Option.bind_some, pe]
    decide +kernel
  obtain ⟨i2, i', w', h1, h2, h3, -⟩ := C87_forgery_refuted g1BW_hom hg [] r1 (w1 := [-1, 1]) (S := mulShape) (s := ⟨c2, [1 + 1]⟩)
    (sI := ⟨_, [1 + 1].map Words.hom⟩) ⟨n2, rfl⟩ hs normal_identity hr (of_decide_eq_false h0) rfl rfl (by rw [a1, e1]) normal_identity
  exact ⟨by decide +kernel, by rw [a1, e1], i2, i', w', h1, h2, h3⟩

end Kogarashi.Props
