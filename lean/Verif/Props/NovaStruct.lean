import Verif.Nova.StructProof
import Verif.Props.Folding
import Verif.Props.Ivc
import Verif.Props.CurveLimb

/-!
# Properties C87, C88: folding and recursive verification on limbs and structs

The theorems on C50–C63 speak of residues and of an abstract group.  Here the functions run on limb arrays and affine
structs.  `Normal a X`: the struct `a` is the one the code computes for the point `X`.  `Stands a X`: it stands for `X` (a
struct flagged as the identity may carry any coordinates).  `InstHolds`, `RInstHolds`, `ProofHolds` say the same of instances
and proofs (`Spec/NovaStruct.lean`).
-/

set_option exponentiation.threshold 1600

namespace Kogarashi.Props

open Kogarashi Spec Curve Kogarashi.Field Limbs Groth16 Nova Tower

section
variable {P Q : FieldParams} [hvP : ValidWords P] [hvQ : ValidWords Q] {B : ZMod Q.m} {b : Words Q}

/-- The struct for a point is unique. -/
theorem C87_normal_unique {a a' : Aff (Words Q)} {X : (curve B).Point} (h : Normal a X) (h' : Normal a' X) : a = a' :=
  mapAff_inj (h.trans h'.symm)

/-- Structs the code computes are equal exactly when `PartialEq` says so, exactly when the points are equal. -/
theorem C87_normal_eq {a a' : Aff (Words Q)} {X X' : (curve B).Point} (h : Normal a X) (h' : Normal a' X') :
    (a.eq a' = true ↔ X = X') ∧ (X = X' ↔ a = a') := by
  refine ⟨?_, fun e => C87_normal_unique h (e ▸ h'), fun e => ?_⟩
  · rw [← mapAff_eq Words.hom]
    have s : Stands a X := by unfold Stands; rw [h]; exact affOf_rep X
    have s' : Stands a' X' := by unfold Stands; rw [h']; exact affOf_rep X'
    exact affEq_iff s s'
  · subst e
    have e : affOf X = affOf X' := h.symm.trans h'
    cases X with
    | zero =>
      cases X' with
      | zero => rfl
      | some x y hn => cases congrArg Aff.inf e
    | some x y hn =>
      cases X' with
      | zero => cases congrArg Aff.inf e
      | some x' y' hn' =>
        have h1 : x = x' := congrArg Aff.x e
        have h2 : y = y' := congrArg Aff.y e
        subst h1 h2
        rfl

variable [Module (ZMod P.m) (curve B).Point]

/-- **C87, commitments.** `PedersenCommitment::commit` on limbs returns the struct of `Σ mᵢ • Gᵢ` (over the shorter of the two
lists), whatever structs stand for the generators. -/
theorem C87_commit (hb : Words.hom b = B) {g : List (Aff (Words Q))} {G : List (curve B).Point} (hg : List.Forall₂ Stands g G)
    (m : List (Words P)) :
    ∃ c, wCommit b g m = some c ∧ Normal c (List.zipWith (fun k X => (Words.hom k : ZMod P.m) • X) m G).sum := by
  subst hb
  obtain ⟨c, h1, h2⟩ := wCommit_normal hg m
  refine ⟨c, h1, ?_⟩
  have key : ∀ (m : List (Words P)) (G : List (curve (Words.hom b)).Point) (s : (curve (Words.hom b)).Point),
      ((m.map Words.hom).zip G).foldl (fun sum ve => sum + ve.1 • ve.2) s =
        s + (List.zipWith (fun k X => (Words.hom k : ZMod P.m) • X) m G).sum := by
    intro m
    induction m with
    | nil => intro G s; simp
    | cons k m ih =>
      intro G s
      cases G with
      | nil => simp
      | cons X G =>
        rw [List.map_cons, List.zip_cons_cons, List.foldl_cons, ih, List.zipWith_cons_cons, List.sum_cons, add_assoc]
  have e : commit G (m.map (Words.hom (P := P))) = _ := key m G 0
  rw [e, zero_add] at h2
  exact h2

/-- **C87, verifier.** On instances with equally many public inputs `Verifier::verify` on limbs does not panic; with `r` the
challenge it computes, it returns `(C₁ + r·C₂, E₁ + r·T, u + r, x₁ + r·x₂)`. -/
theorem C87_verifier (hb : Words.hom b = B) {i1 : RInst (Words P) (Aff (Words Q))} {I1 : RInst (ZMod P.m) (curve B).Point}
    (h1 : RInstHolds i1 I1) {i2 : Inst (Words P) (Aff (Words Q))} {I2 : Inst (ZMod P.m) (curve B).Point} (h2 : InstHolds i2 I2)
    {T : Aff (Words Q)} {T' : (curve B).Point} (hT : Normal T T') (cs : List (Words Q)) (hx : i1.x.length = i2.x.length) :
    ∃ r o, wChallenge cs T i1 = some r ∧ wVerify cs b T i1 i2 = some o ∧
      Normal o.commitW (I1.commitW + (Words.hom r : ZMod P.m) • I2.commitW) ∧
      Normal o.commitE (I1.commitE + (Words.hom r : ZMod P.m) • T') ∧ o.u = i1.u + r ∧
      o.x = List.zipWith (fun x y => x + r * y) i1.x i2.x := by
  subst hb
  obtain ⟨R, hR⟩ := challenge_isSome (words_m_le (P := P)) (envOf (Words.hom b) (cs.map Words.hom)) T' I1
  have hc := hom_challenge hT h1 cs
  rw [hR] at hc
  obtain ⟨r, hr, rfl⟩ := Option.map_eq_some_iff.mp hc
  have hf := wFold_holds h1 h2 r hT
  have hx' : I1.x.length = I2.x.length := by rw [h1.x, h2.x, List.length_map, List.length_map, hx]
  rw [RInst.fold_eq hx'] at hf
  generalize ho : wFold b i1 i2 r T = o at hf
  cases hf with
  | some hf =>
    rename_i o
    refine ⟨r, o, hr, ?_, hf.commitW, hf.commitE, ?_, ?_⟩
    · unfold wVerify
      rw [hr, Option.bind_eq_bind, Option.bind_some]
      exact ho
    · unfold wFold at ho
      simp only [Option.bind_eq_bind, Option.bind_eq_some_iff, Option.some.injEq] at ho
      obtain ⟨e, -, w, -, x, -, rfl⟩ := ho
      rfl
    · unfold wFold at ho
      simp only [Option.bind_eq_bind, Option.bind_eq_some_iff, Option.some.injEq] at ho
      obtain ⟨e, -, w, -, x, hz, rfl⟩ := ho
      obtain ⟨-, rfl⟩ := zipVec_some hz
      dsimp only
      rw [vecScale, List.zipWith_map_right]
      refine congrArg (fun f => List.zipWith f i1.x i2.x) ?_
      funext x y
      rw [mul_comm]

/-- **C87, prover.** On limbs, a satisfying relaxed pair and a satisfying plain pair of equal lengths fold without a panic into a
satisfying relaxed pair, and the verifier recomputes the very structs of the prover's instance. -/
theorem C87_prover (hb : Words.hom b = B) {i1 : RInst (Words P) (Aff (Words Q))} {I1 : RInst (ZMod P.m) (curve B).Point}
    (h1 : RInstHolds i1 I1) {i2 : Inst (Words P) (Aff (Words Q))} {I2 : Inst (ZMod P.m) (curve B).Point} (h2 : InstHolds i2 I2)
    {g : List (Aff (Words Q))} {G : List (curve B).Point} (hg : List.Forall₂ Stands g G) (cs : List (Words Q))
    {S : Shape (Words P)} {w1 : RWit (Words P)} {w2 : List (Words P)}
    (s1 : isSatRelaxed S i1 w1 = some true) (s2 : wIsSat b S g i2 w2 = some true)
    (hx : i1.x.length = i2.x.length) (hw : w1.w.length = w2.length) :
    ∃ i' w' T, wProve cs b S g i1 w1 i2 w2 = some (i', w', T) ∧ isSatRelaxed S i' w' = some true ∧
      wVerify cs b T i1 i2 = some i' ∧ (∃ I', RInstHolds (B := B) i' I') ∧ i'.x.length = i1.x.length ∧ w'.w.length = w1.w.length := by
  subst hb
  have s1' : isSatRelaxed (S.mapF Words.hom) I1 (w1.mapF Words.hom) = some true := by
    rw [isSatRelaxed_map Words.hom S i1 I1 w1 h1.u h1.x]; exact s1
  have s2' : isSat (S.mapF Words.hom) G I2 (w2.map Words.hom) = some true := by rw [← wIsSat_eq h2 hg]; exact s2
  obtain ⟨I', W', T', e1, e2, e3, e4⟩ := C50_prove (words_m_le (P := P)) (envOf (Words.hom b) (cs.map Words.hom)) s1' s2'
    (by rw [h1.x, h2.x, List.length_map, List.length_map, hx]) (by simp only [RWit.mapF, List.length_map, hw])
  have hp := wProve_holds h1 h2 hg cs S w1 w2
  rw [e1] at hp
  generalize ho : wProve cs b S g i1 w1 i2 w2 = o at hp
  cases hp with
  | some hp =>
    rename_i o
    obtain ⟨i', w', T⟩ := o
    obtain ⟨hi, hw', hT⟩ := hp
    dsimp only at hi hw' hT
    refine ⟨i', w', T, rfl, ?_, ?_, ⟨I', hi⟩, ?_, ?_⟩
    · rw [← isSatRelaxed_map Words.hom S i' I' w' hi.u hi.x, ← hw']; exact e2
    · unfold wProve at ho
      simp only [Option.bind_eq_bind, Option.bind_eq_some_iff, Option.some.injEq] at ho
      obtain ⟨t, -, c, -, r, hr, i, hi', w, -, he⟩ := ho
      cases he
      unfold wVerify
      rw [hr, Option.bind_eq_bind, Option.bind_some]
      exact hi'
    · have := e3; rw [hi.x, h1.x, List.length_map, List.length_map] at this; exact this
    · have := e4; rw [hw'] at this; simpa only [RWit.mapF, List.length_map] using this

/-- Successive folds by the prover, on limbs. -/
def wProveAll (cs : List (Words Q)) (b : Words Q) (S : Shape (Words P)) (g : List (Aff (Words Q))) :
    RInst (Words P) (Aff (Words Q)) → RWit (Words P) → List (Inst (Words P) (Aff (Words Q)) × List (Words P)) →
    Option (RInst (Words P) (Aff (Words Q)) × RWit (Words P))
  | i, w, [] => some (i, w)
  | i, w, (i2, w2) :: rest => do
    let (i', w', _) ← wProve cs b S g i w i2 w2
    wProveAll cs b S g i' w' rest

/-- **C87, histories.** Any number of successive folds on limbs of satisfying pairs stays satisfying. -/
theorem C87_history (hb : Words.hom b = B) {g : List (Aff (Words Q))} {G : List (curve B).Point} (hg : List.Forall₂ Stands g G)
    (cs : List (Words Q)) {S : Shape (Words P)} (hist : List (Inst (Words P) (Aff (Words Q)) × List (Words P))) :
    ∀ {i1 : RInst (Words P) (Aff (Words Q))} {I1 : RInst (ZMod P.m) (curve B).Point} {w1 : RWit (Words P)},
    RInstHolds i1 I1 → isSatRelaxed S i1 w1 = some true →
    (∀ e ∈ hist, wIsSat b S g e.1 e.2 = some true ∧ (∃ I, InstHolds (B := B) e.1 I) ∧ e.1.x.length = i1.x.length ∧
      e.2.length = w1.w.length) →
    ∃ i' w', wProveAll cs b S g i1 w1 hist = some (i', w') ∧ isSatRelaxed S i' w' = some true := by
  induction hist with
  | nil => intro i1 I1 w1 _ h1 _; exact ⟨i1, w1, rfl, h1⟩
  | cons e hist ih =>
    intro i1 I1 w1 hI h1 h2
    obtain ⟨he, ⟨I2, hI2⟩, hx, hw⟩ := h2 e (by simp)
    obtain ⟨i', w', T, hpr, hs, -, ⟨I', hI'⟩, hlx, hlw⟩ := C87_prover hb hI hI2 hg cs h1 he hx.symm hw.symm
    obtain ⟨i'', w'', h3, h4⟩ := ih hI' hs (fun e he => by
      obtain ⟨a, b, c, d⟩ := h2 e (by simp [he])
      exact ⟨a, b, by rw [c, hlx], by rw [d, hlw]⟩)
    refine ⟨i'', w'', ?_, h4⟩
    obtain ⟨i2, w2⟩ := e
    unfold wProveAll
    rw [hpr]
    exact h3

/-- **C87, openings.** If the structs of the inputs are commitments of their witnesses and error vectors, so are those of the
result. -/
theorem C87_openings (hb : Words.hom b = B) {i1 i' : RInst (Words P) (Aff (Words Q))} {I1 : RInst (ZMod P.m) (curve B).Point}
    (h1 : RInstHolds i1 I1) {i2 : Inst (Words P) (Aff (Words Q))} {I2 : Inst (ZMod P.m) (curve B).Point} (h2 : InstHolds i2 I2)
    {g : List (Aff (Words Q))} {G : List (curve B).Point} (hg : List.Forall₂ Stands g G) {cs : List (Words Q)}
    {S : Shape (Words P)} {w1 w' : RWit (Words P)} {w2 : List (Words P)} {T : Aff (Words Q)}
    (h : wProve cs b S g i1 w1 i2 w2 = some (i', w', T)) (ow : wCommit b g w1.w = some i1.commitW)
    (oe : wCommit b g w1.e = some i1.commitE) (o2 : wCommit b g w2 = some i2.commitW) :
    wCommit b g w'.w = some i'.commitW ∧ wCommit b g w'.e = some i'.commitE := by
  subst hb
  have hp := wProve_holds h1 h2 hg cs S w1 w2
  rw [h] at hp
  generalize ho : prove (envOf (Words.hom b) (cs.map Words.hom)) (S.mapF Words.hom) G I1 (w1.mapF Words.hom) I2
    (w2.map Words.hom) = o at hp
  have op : ∀ {m : List (Words P)} {c : Aff (Words Q)} {X : (curve (Words.hom b)).Point}, Normal c X →
      wCommit b g m = some c → commit G (m.map (Words.hom (P := P))) = X := by
    intro m c X hc hm
    obtain ⟨c', e1, e2⟩ := wCommit_normal hg m
    rw [hm] at e1; cases e1
    exact ((C87_normal_eq e2 hc).2.mpr rfl)
  have po : ∀ {m : List (Words P)} {c : Aff (Words Q)} {X : (curve (Words.hom b)).Point}, Normal c X →
      commit G (m.map (Words.hom (P := P))) = X → wCommit b g m = some c := by
    intro m c X hc hm
    obtain ⟨c', e1, e2⟩ := wCommit_normal hg m
    rw [hm] at e2
    rw [e1, C87_normal_unique e2 hc]
  cases hp with
  | some hp =>
    rename_i o
    obtain ⟨I', W', T'⟩ := o
    obtain ⟨hi, hw', hT⟩ := hp
    dsimp only at hi hw' hT
    obtain ⟨e1, e2⟩ := C51_openings ho (op h1.commitW ow) (op h1.commitE oe) (op h2.commitW o2)
    rw [hw'] at e1 e2
    exact ⟨po hi.commitW e1, po hi.commitE e2⟩

/-- **C87, satisfaction.** On limbs and shapes whose rows fit, `is_sat` returns, and returns true exactly if every constraint holds
of the residues and the instance's commitment is that of the witness. -/
theorem C87_is_sat (hb : Words.hom b = B) {i : Inst (Words P) (Aff (Words Q))} {I : Inst (ZMod P.m) (curve B).Point}
    (h : InstHolds i I) {g : List (Aff (Words Q))} {G : List (curve B).Point} (hg : List.Forall₂ Stands g G) {S : Shape (Words P)}
    {w : List (Words P)} (hf : Fits (S.mapF Words.hom) I.x (w.map Words.hom)) :
    ∃ v, wIsSat b S g i w = some v ∧ (v = true ↔ PlainHolds (S.mapF Words.hom) I.x (w.map Words.hom) ∧
      I.commitW = (List.zipWith (fun k X => (Words.hom k : ZMod P.m) • X) w G).sum) := by
  obtain ⟨c, c1, c2⟩ := C87_commit hb hg w
  subst hb
  obtain ⟨c', c1', c2'⟩ := wCommit_normal hg w
  rw [c1] at c1'; cases c1'
  have e := (C87_normal_eq c2 c2').2.mpr rfl
  rw [wIsSat_eq h hg, e]
  exact C50_is_sat hf

/-- **C87**: the pair handed to the folding prover for a constraint system whose counts are those of the shape is the
system's public values without the leading one, its witness values, and the commitment to them; for other counts the
construction panics. -/
theorem C87_instance (hb : Words.hom b = B) {g : List (Aff (Words Q))} {G : List (curve B).Point} (hg : List.Forall₂ Stands g G)
    (cs : CS (Words P)) (S : Shape (Words P)) :
    ((cs.w.length = S.witnessLength ∧ cs.m = S.m ∧ (cs.x.drop 1).length = S.instanceLength) →
      ∃ i, wInstanceAndWitness b cs S g = some (i, cs.w) ∧ i.x = cs.x.drop 1 ∧
        Normal i.commitW (List.zipWith (fun k X => (Words.hom k : ZMod P.m) • X) cs.w G).sum ∧ ∃ I, InstHolds (B := B) i I) ∧
    (¬ (cs.w.length = S.witnessLength ∧ cs.m = S.m ∧ (cs.x.drop 1).length = S.instanceLength) →
      wInstanceAndWitness b cs S g = none) := by
  obtain ⟨c, c1, c2⟩ := C87_commit hb hg cs.w
  unfold wInstanceAndWitness
  rw [c1, Option.bind_eq_bind, Option.bind_some]
  refine ⟨fun h => ?_, fun h => if_neg h⟩
  rw [if_pos h]
  exact ⟨_, rfl, rfl, c2, ⟨_, (cs.x.drop 1).map Words.hom⟩, c2, rfl⟩

/-- C53 is false on limbs too: the challenge does not depend on the instance folded in. -/
theorem C87_challenge_refuted {cs : List (Words Q)} {b : Words Q} {T : Aff (Words Q)} {i1 o o' : RInst (Words P) (Aff (Words Q))}
    {i2 i2' : Inst (Words P) (Aff (Words Q))} (h : wVerify cs b T i1 i2 = some o) (h' : wVerify cs b T i1 i2' = some o') :
    o.u = o'.u := by
  unfold wVerify wFold at h h'
  simp only [Option.bind_eq_bind, Option.bind_eq_some_iff, Option.some.injEq] at h h'
  obtain ⟨r, hr, e, -, w, -, x, -, rfl⟩ := h
  obtain ⟨r', hr', e', -, w', -, x', -, rfl⟩ := h'
  rw [hr] at hr'
  cases hr'
  rfl

end

section
variable {P Q : FieldParams} [hvP : ValidWords P] [hvQ : ValidWords Q]

/-- **C87 is false for structs the code did not compute.** Two instances that `PartialEq` calls equal — their commitments are
both flagged as the identity — are absorbed into the transcript as different elements, because `append_point` reads the
coordinates without looking at the flag. -/
theorem C87_absorb_refuted : ∃ i j : RInst (Words P) (Aff (Words Q)), i.commitW.eq j.commitW = true ∧ i.commitE.eq j.commitE = true ∧
    i.u = j.u ∧ i.x = j.x ∧ (∃ a, wAbsorb i = some a) ∧ (∃ a, wAbsorb j = some a) ∧ wAbsorb i ≠ wAbsorb j := by
  refine ⟨⟨⟨0, 1, true⟩, Aff.identity, 0, []⟩, ⟨⟨0, 0, true⟩, Aff.identity, 0, []⟩, ?_, ?_, rfl, rfl, ⟨_, rfl⟩, ⟨_, rfl⟩, ?_⟩
  · simp [Aff.eq, Aff.isIdentity]
  · simp [Aff.eq, Aff.identity, Aff.isIdentity]
  · intro h
    have h1 := Option.some.inj h
    have h2 := congrArg (fun l : List (Words Q) => l[1]?) h1
    have h3 : some (1 : Words Q) = some 0 := h2
    exact one_ne_zero (Option.some.inj h3)

/-- **C87 for structs the code computes**: equal instances are the same structs, so transcripts, challenges and hashes agree.
Missing: instances read from outside with an identity in other coordinates (refuted above). -/
theorem C87_absorb_partial {B : ZMod Q.m} {i j : RInst (Words P) (Aff (Words Q))} {I J : RInst (ZMod P.m) (curve B).Point}
    (hi : RInstHolds i I) (hj : RInstHolds j J) (hw : i.commitW.eq j.commitW = true) (he : i.commitE.eq j.commitE = true)
    (hu : i.u = j.u) (hx : i.x = j.x) : i = j := by
  have h1 := (C87_normal_eq hi.commitW hj.commitW).2.mp ((C87_normal_eq hi.commitW hj.commitW).1.mp hw)
  have h2 := (C87_normal_eq hi.commitE hj.commitE).2.mp ((C87_normal_eq hi.commitE hj.commitE).1.mp he)
  cases i; cases j
  dsimp only at *
  subst h1 h2 hu hx
  rfl

end

/-! ### C88 -/

section
variable {P S : FieldParams} [hvP : ValidWords P] [hvS : ValidWords S] {B1 : ZMod S.m} {B2 : ZMod P.m} {b1 : Words S} {b2 : Words P}
  [Module (ZMod P.m) (curve B1).Point] [Module (ZMod S.m) (curve B2).Point] {k1 : List (Words P)} {k2 : List (Words S)}

/-- The transcripts of the cycle read the coordinates the structs have. -/
structure CycleHolds (b1 : Words S) (b2 : Words P) (k1 : List (Words P)) (k2 : List (Words S))
    (C : Cycle P.m S.m (curve B1).Point (curve B2).Point) : Prop where
  b1 : Words.hom b1 = B1
  b2 : Words.hom b2 = B2
  e1 : C.D1.env = envOf B2 (k1.map Words.hom)
  e2 : C.D2.env = envOf B1 (k2.map Words.hom)

/-- **C88.** `RecursiveProof::verify` on limbs and structs returns (or panics) as the one over residues and points does. -/
theorem C88_verify {C : Cycle P.m S.m (curve B1).Point (curve B2).Point} (hC : CycleHolds b1 b2 k1 k2 C) {s1 : Shape (Words P)}
    {s2 : Shape (Words S)} {ck2 : List (Aff (Words P))} {pp : PublicParams P.m S.m (curve B1).Point (curve B2).Point}
    (hpp : ParamsHold s1 s2 ck2 pp) {w : WRecursiveProof P S} {pf : RecursiveProof P.m S.m (curve B1).Point (curve B2).Point}
    (h : ProofHolds w pf) (hi : w.i < 2 ^ 64) : w.verify k1 k2 b2 s1 s2 ck2 = pf.verify C pp := by
  obtain ⟨rfl, rfl, e1, e2⟩ := hC
  exact wRec_verify e1 e2 hpp h hi

/-- **C88, completeness.** For every number of steps below `2^64`: the proofs `prove_step` returns, written as limbs and structs,
claim `F^n(z₀)` and are accepted by the verifier on limbs. -/
theorem C88_complete {C : Cycle P.m S.m (curve B1).Point (curve B2).Point} (hC : CycleHolds b1 b2 k1 k2 C) (ok : C.Ok)
    (gen1 : Nat → List (curve B1).Point) (gen2 : Nat → List (curve B2).Point) (z01 : ZMod P.m) (z02 : ZMod S.m) (N : Nat)
    (hN : N < 2 ^ 64) : ∃ pp st pfs, setup C gen1 gen2 = some pp ∧ ivcInit C pp [z01] [z02] = some st ∧
      steps C pp N st = some pfs ∧ pfs.length = N ∧ ∀ n pf, pfs[n]? = some pf → (∃ w : WRecursiveProof P S, ProofHolds w pf) ∧
      ∀ {s1 : Shape (Words P)} {s2 : Shape (Words S)} {ck2 : List (Aff (Words P))}, ParamsHold s1 s2 ck2 pp →
      ∀ {w : WRecursiveProof P S}, ProofHolds w pf → w.verify k1 k2 b2 s1 s2 ck2 = some true ∧ w.i = n + 1 ∧
        w.zi1.map Words.hom = C.FC1.invoke^[n + 1] [z01] ∧ w.zi2.map Words.hom = C.FC2.invoke^[n + 1] [z02] := by
  obtain ⟨pp, st, pfs, h1, h2, h3, h4, h5⟩ := C60_complete ok gen1 gen2 z01 z02 N hN
  refine ⟨pp, st, pfs, h1, h2, h3, h4, fun n pf hn => ⟨lift_proof pf, ?_⟩⟩
  intro s1 s2 ck2 hpp w hw
  have hg := h5 n pf hn
  have hlt : n < N := by rw [← h4]; exact (List.getElem?_eq_some_iff.mp hn).1
  refine ⟨?_, hw.i.trans hg.i, hw.zi1.symm.trans hg.out1, hw.zi2.symm.trans hg.out2⟩
  rw [C88_verify hC hpp hw (by rw [hw.i, hg.i]; omega)]
  exact hg.accepted

/-- C61 and C62 are false on limbs too: for any claimed step count, inputs and outputs, given as limbs, an accepted proof of limbs
and structs claims them. -/
theorem C88_forged_refuted {C : Cycle P.m S.m (curve B1).Point (curve B2).Point} (hC : CycleHolds b1 b2 k1 k2 C) (ok : C.Ok)
    {gen1 : Nat → List (curve B1).Point} {gen2 : Nat → List (curve B2).Point}
    {pp : PublicParams P.m S.m (curve B1).Point (curve B2).Point} (hs : setup C gen1 gen2 = some pp) {s1 : Shape (Words P)}
    {s2 : Shape (Words S)} {ck2 : List (Aff (Words P))} (hpp : ParamsHold s1 s2 ck2 pp) {i : Nat} (hi : i < 2 ^ 64)
    (z01 zi1 : List (Words P)) (z02 zi2 : List (Words S)) :
    ∃ w : WRecursiveProof P S, w.verify k1 k2 b2 s1 s2 ck2 = some true ∧ w.i = i ∧ w.z01 = z01 ∧ w.z02 = z02 ∧ w.zi1 = zi1 ∧
      w.zi2 = zi2 := by
  obtain ⟨pf, h1, h2, h3, h4, h5, h6⟩ := C62_refuted ok hs i (z01.map Words.hom) (zi1.map Words.hom) (z02.map Words.hom)
    (zi2.map Words.hom)
  obtain ⟨w, hw⟩ := lift_proof pf
  have inj : ∀ {R : FieldParams} [ValidWords R] {a c : List (Words R)}, c.map Words.hom = a.map Words.hom → c = a :=
    fun h => List.map_injective_iff.mpr hom_inj h
  refine ⟨w, ?_, hw.i.trans h2, inj (hw.z01.symm.trans h3), inj (hw.z02.symm.trans h4), inj (hw.zi1.symm.trans h5),
    inj (hw.zi2.symm.trans h6)⟩
  rw [C88_verify hC hpp hw (by rw [hw.i, h2]; exact hi)]
  exact h1

/-- **C88, meaning.** What acceptance on limbs does mean for proofs with vectors of the prescribed lengths. -/
theorem C88_meaning_partial {C : Cycle P.m S.m (curve B1).Point (curve B2).Point} (hC : CycleHolds b1 b2 k1 k2 C) (ok : C.Ok)
    {gen1 : Nat → List (curve B1).Point} {gen2 : Nat → List (curve B2).Point}
    {pp : PublicParams P.m S.m (curve B1).Point (curve B2).Point} (hs : setup C gen1 gen2 = some pp) {s1 : Shape (Words P)}
    {s2 : Shape (Words S)} {ck2 : List (Aff (Words P))} (hpp : ParamsHold s1 s2 ck2 pp) {w : WRecursiveProof P S}
    {pf : RecursiveProof P.m S.m (curve B1).Point (curve B2).Point} (h : ProofHolds w pf) (hi : w.i < 2 ^ 64) (hz : Sized pp pf) :
    w.verify k1 k2 b2 s1 s2 ck2 = some true ↔ ∃ x0 x1, w.single2.x = [x0, x1] ∧ w.range1.x.length = 2 ∧ w.range2.x.length = 2 ∧
      wHash k1 w.range2 w.i w.z01 w.zi1 = some x0 ∧ wHash k2 w.range1 w.i w.z02 w.zi2 = some (wReread x1) ∧
      RelaxedHolds pp.shape1 pf.range1.u pf.range1.x pf.wrange1.w pf.wrange1.e ∧
      RelaxedHolds pp.shape2 pf.range2.u pf.range2.x pf.wrange2.w pf.wrange2.e ∧
      PlainHolds pp.shape2 pf.single2.x pf.wsingle2 ∧ pf.single2.commitW = commit pp.ck2 pf.wsingle2 := by
  rw [C88_verify hC hpp h hi, C62_meaning_partial ok hs hz]
  obtain ⟨rfl, rfl, e1, e2⟩ := hC
  have q1 : ∀ x : Words S, pf.range2.hash C.D1.env pf.i pf.z01 pf.zi1 = some (Words.hom x) ↔
      wHash k1 w.range2 w.i w.z01 w.zi1 = some x := by
    intro x
    rw [e1, h.z01, h.zi1, ← h.i, ← hom_hash h.range2 k1 hi]
    exact ⟨fun e => Option.map_injective hom_inj (e.trans (Option.map_some ..).symm), fun e => by rw [e]; rfl⟩
  have q2 : ∀ x : Words S, pf.range1.hash C.D2.env pf.i pf.z02 pf.zi2 = some (reread (Words.hom x)) ↔
      wHash k2 w.range1 w.i w.z02 w.zi2 = some (wReread x) := by
    intro x
    rw [e2, h.z02, h.zi2, ← h.i, ← hom_hash h.range1 k2 hi, ← hom_reread]
    exact ⟨fun e => Option.map_injective hom_inj (e.trans (Option.map_some ..).symm), fun e => by rw [e]; rfl⟩
  have l1 : pf.range1.x.length = w.range1.x.length := by rw [h.range1.x, List.length_map]
  have l2 : pf.range2.x.length = w.range2.x.length := by rw [h.range2.x, List.length_map]
  constructor
  · rintro ⟨x0, x1, hx, r⟩
    have hx' := hx
    rw [h.single2.x] at hx'
    obtain ⟨y0, t, e, rfl, ht⟩ := List.map_eq_cons_iff.mp hx'
    obtain ⟨y1, t', rfl, rfl, ht'⟩ := List.map_eq_cons_iff.mp ht
    obtain rfl := List.map_eq_nil_iff.mp ht'
    rw [q1, q2, l1, l2] at r
    exact ⟨y0, y1, e, r⟩
  · rintro ⟨y0, y1, e, r⟩
    rw [← q1, ← q2, ← l1, ← l2] at r
    exact ⟨Words.hom y0, Words.hom y1, by rw [h.single2.x, e]; rfl, r⟩

end

/-! ### BN254 and Grumpkin -/

/-- `G1_PARAM_B` as limbs. -/
def g1BW : Words fqParams := ⟨g1BL, g1BL_el.1⟩
/-- `PARAM_B` of Grumpkin (`grumpkin/src/params.rs` lines 13-18). -/
def grumpkinBW : Words frParams :=
  ⟨⟨0xdd7056026000005a, 0x223fa97acb319311, 0xcc388229877910c0, 0x034394632b724eaa⟩, by decide +kernel⟩

theorem g1BW_hom : Words.hom g1BW = g1B := g1BL_el.2
theorem grumpkinBW_hom : Words.hom grumpkinBW = grumpkinB := by
  exact grumpkin_params.1

/-- The library's cycle, with the limbs of its two curve constants. -/
theorem bn254_holds (fp : CarryBits) (k1 : List (Words frParams)) (k2 : List (Words fqParams)) :
    CycleHolds g1BW grumpkinBW k1 k2 (bn254Cycle fp (k1.map Words.hom) (k2.map Words.hom)) :=
  ⟨g1BW_hom, grumpkinBW_hom, rfl, rfl⟩

/-- C88: three steps of the library's cycle from 0 and 1; the proofs as limbs and structs are accepted on limbs, the third one
claiming `2460515`; and some limbs and structs claiming that one step leads from 0 to 1 are accepted too. -/
example (fp : CarryBits) (k1 : List (Words frParams)) (k2 : List (Words fqParams)) (gen1 : Nat → List (curve g1B).Point)
    (gen2 : Nat → List (curve grumpkinB).Point) : ∃ (s1 : Shape (Words frParams)) (s2 : Shape (Words fqParams))
      (ck2 : List (Aff (Words frParams))) (w w' : WRecursiveProof frParams fqParams),
      w.verify k1 k2 grumpkinBW s1 s2 ck2 = some true ∧ w.i = 3 ∧ w.zi1.map Words.hom = [2460515] ∧
      w'.verify k1 k2 grumpkinBW s1 s2 ck2 = some true ∧ w'.i = 1 ∧ w'.z01 = [0] ∧ w'.zi1 = [1] := by
  obtain ⟨pp, st, pfs, h1, -, -, h4, h5⟩ := C88_complete (bn254_holds fp k1 k2) (bn254Cycle_ok fp _ _) gen1 gen2 0 1 3 (by norm_num)
  obtain ⟨s1, s2, ck2, hpp⟩ := lift_params pp
  obtain ⟨⟨w, hw⟩, h6⟩ := h5 2 _ (List.getElem?_eq_getElem (by omega))
  obtain ⟨h7, h8, h9, -⟩ := h6 hpp hw
  obtain ⟨w', g1, g2, g3, -, g5, -⟩ := C88_forged_refuted (bn254_holds fp k1 k2) (bn254Cycle_ok fp _ _) h1 hpp (i := 1) (by norm_num)
    [0] [1] [0] [0]
  exact ⟨s1, s2, ck2, w, w', h7, h8, h9.trans (show (exampleFn FrV).invoke^[3] [0] = _ by decide +kernel), g1, g2, g3, g5⟩

/-- A shape with the single constraint `x * w₀ = w₁`. -/
def mulShape : Shape (Words frParams) := ⟨1, 1, 2, [[(.inst 1, 1)]], [[(.wit 0, 1)]], [[(.wit 1, 1)]]⟩

/-- The generator of G1 as a struct of limbs. -/
def novaGenW : Aff (Words fqParams) := ⟨1, 1 + 1, false⟩

theorem novaGenW_stands : Stands novaGenW g1Point := by
  refine ⟨rfl, ?_, ?_⟩
  · show Words.hom (1 : Words fqParams) = 1
    exact map_one _
  · show Words.hom (1 + 1 : Words fqParams) = 2
    rw [map_add, map_one]; norm_num

/-- The pair made from a system with one public value and one constraint. -/
example : ∃ i, wInstanceAndWitness g1BW (⟨[1, 1 + 1], [1 + 1, 1 + 1 + (1 + 1)], [⟨[], [], []⟩]⟩ : CS (Words frParams)) mulShape
    [novaGenW, novaGenW] = some (i, [1 + 1, 1 + 1 + (1 + 1)]) ∧ i.x = [1 + 1] := by
  obtain ⟨i, h1, h2, -⟩ := (C87_instance g1BW_hom (.cons novaGenW_stands (.cons novaGenW_stands .nil))
    (⟨[1, 1 + 1], [1 + 1, 1 + 1 + (1 + 1)], [⟨[], [], []⟩]⟩ : CS (Words frParams)) mulShape).1 ⟨rfl, rfl, rfl⟩
  exact ⟨i, h1, h2⟩

/-- C87: `1 * 1 = 1` with `u = 1` and `x = 2, w = (2, 4)` over the key `(G, G)`, folded on limbs: the prover and the verifier
return the same instance and the fold satisfies the relaxed relation. -/
example (cs : List (Words fqParams)) : ∃ c1 c2 i' w' T,
    wCommit g1BW [novaGenW, novaGenW] [(1 : Words frParams), 1] = some c1 ∧ Normal c1 ((2 : FrV) • g1Point) ∧
    wIsSat g1BW mulShape [novaGenW, novaGenW] ⟨c2, [1 + 1]⟩ [1 + 1, 1 + 1 + (1 + 1)] = some true ∧
    wProve cs g1BW mulShape [novaGenW, novaGenW] ⟨c1, Aff.identity, 1, [1]⟩ ⟨[1, 1], [0]⟩ ⟨c2, [1 + 1]⟩ [1 + 1, 1 + 1 + (1 + 1)] =
      some (i', w', T) ∧ isSatRelaxed mulShape i' w' = some true ∧
    wVerify cs g1BW T ⟨c1, Aff.identity, 1, [1]⟩ ⟨c2, [1 + 1]⟩ = some i' := by
  have hg : List.Forall₂ Stands [novaGenW, novaGenW] [g1Point, g1Point] := .cons novaGenW_stands (.cons novaGenW_stands .nil)
  obtain ⟨c1, a1, n1⟩ := C87_commit g1BW_hom hg [(1 : Words frParams), 1]
  obtain ⟨c2, a2, n2⟩ := C87_commit g1BW_hom hg [(1 + 1 : Words frParams), 1 + 1 + (1 + 1)]
  have r1 : RInstHolds (⟨c1, Aff.identity, 1, [1]⟩ : RInst (Words frParams) (Aff (Words fqParams)))
      ⟨_, (0 : (curve g1B).Point), Words.hom 1, [1].map Words.hom⟩ := ⟨n1, by
        show mapAff Words.hom (Aff.identity : Aff (Words fqParams)) = Aff.identity
        simp [mapAff, Aff.identity], rfl, rfl⟩
  have r2 : InstHolds (⟨c2, [1 + 1]⟩ : Inst (Words frParams) (Aff (Words fqParams))) ⟨_, [1 + 1].map Words.hom⟩ := ⟨n2, rfl⟩
  have t1 : isSatRelaxed mulShape (⟨c1, Aff.identity, 1, [1]⟩ : RInst (Words frParams) (Aff (Words fqParams))) ⟨[1, 1], [0]⟩ = some true := by
    have : isSatRelaxed mulShape (⟨Aff.identity, Aff.identity, 1, [1]⟩ : RInst (Words frParams) (Aff (Words fqParams)))
      ⟨[1, 1], [0]⟩ = some true := by decide +kernel
    exact this
  have t2 : wIsSat g1BW mulShape [novaGenW, novaGenW] ⟨c2, [1 + 1]⟩ [1 + 1, 1 + 1 + (1 + 1)] = some true := by
    have pa : Matrix.prod mulShape.a mulShape.m 2 [(1 : Words frParams), 1 + 1, 1 + 1, 1 + 1 + (1 + 1)] = some [1 + 1] := by decide +kernel
    have pb : Matrix.prod mulShape.b mulShape.m 2 [(1 : Words frParams), 1 + 1, 1 + 1, 1 + 1 + (1 + 1)] = some [1 + 1] := by decide +kernel
    have pc : Matrix.prod mulShape.c mulShape.m 2 [(1 : Words frParams), 1 + 1, 1 + 1, 1 + 1 + (1 + 1)] = some [1 + 1 + (1 + 1)] := by
      decide +kernel
    have pz : zipVec (· * ·) [(1 + 1 : Words frParams)] [1 + 1] = some [1 + 1 + (1 + 1)] := by decide +kernel
    have pe : c2.eq c2 = true := ((C87_normal_eq n2 n2).1.mpr rfl)
    unfold wIsSat
    simp only [List.length_cons, List.length_nil, List.cons_append, List.nil_append, Option.bind_eq_bind]
    rw [pa, pb, pc]
    simp only [Option.bind_some]
    rw [pz, a2]
    simp only [Option.bind_some, pe]
    decide +kernel
  obtain ⟨i', w', T, h1, h2, h3, -⟩ := C87_prover g1BW_hom r1 r2 hg cs t1 t2 rfl rfl
  refine ⟨c1, c2, i', w', T, a1, ?_, t2, h1, h2, h3⟩
  have : (2 : FrV) • g1Point = (List.zipWith (fun k X => (Words.hom k : FrV) • X) [(1 : Words frParams), 1] [g1Point, g1Point]).sum := by
    simp only [List.zipWith_cons_cons, List.zipWith_nil_left, List.sum_cons, List.sum_nil, map_one]
    rw [add_zero, ← add_smul]; norm_num
  rw [this]; exact n1

end Kogarashi.Props
