import Verif.Groth16.Affine
import Verif.Props.Groth16
import Mathlib.SetTheory.Cardinal.Finite

/-!
# Property C102: a Groth16 prover who combines the published parameters knows a witness
-/

namespace Kogarashi.Props

open Kogarashi Spec Groth16 Polynomial Field

variable {F G1 G2 GT : Type} [_root_.Field F] [DecidableEq F]
variable [AddCommGroup G1] [Module F G1] [AddCommGroup G2] [Module F G2] [AddCommGroup GT] [Module F GT]
variable [DecidableEq G1] [DecidableEq G2] [DecidableEq GT]
variable {S : Nat} {root gen : F} {g1 : G1} {g2 : G2} {e : G1 →ₗ[F] G2 →ₗ[F] GT}

/-- The toxic waste for which the verifier accepts the prover's proof for the inputs `x`. -/
def Accepting (S : Nat) (root gen : F) (g1 : G1) (g2 : G2) (e : G1 →ₗ[F] G2 →ₗ[F] GT) (cs0 : CS F) (P : AffineProver F) (x : List F)
    (t : Trapdoor F) : Prop :=
  ∃ p vk, setup S root gen g1 g2 e t cs0 = some (.ok (p, vk)) ∧ verify e vk (P.prove g1 g2 p) x = .ok ()

theorem assign_eq (x w : List F) : assign x w = readD (1 :: x) w := by
  funext v
  rcases v with (_ | i) | i <;> simp [assign, readD]

/-- Toxic waste from a tuple. -/
def trap (p : F × F × F × F × F) : Trapdoor F := ⟨p.2.2.2.1, p.2.2.1, p.2.1, p.1, p.2.2.2.2⟩

/-- A matrix under an assignment, interpolated. -/
noncomputable def rowPoly (f : Fft F) (M : List (Row F)) (x w : List F) : F[X] := interp f (M.map (rowVal (readD x w)))

/-- The quotient part of a combination. -/
noncomputable def quotPoly (n : Nat) (q : List F) : F[X] := (X ^ n - 1) * ∑ i ∈ Finset.range (n - 1), C (q.getD i 0) * X ^ i

/-- The coefficients of the prover as an equation. -/
noncomputable def eqnOf (f : Fft F) (cs : CS F) (P : AffineProver F) (x : List F) : Eqn F where
  a := C P.a.one + rowPoly f cs.matA (P.a.a.take cs.l) (P.a.a.drop cs.l) + rowPoly f cs.matB (P.a.b.take cs.l) (P.a.b.drop cs.l)
  aα := P.a.alpha
  aβ := P.a.beta
  aδ := P.a.delta
  pu := rowPoly f cs.matA P.a.ic []
  pv := rowPoly f cs.matB P.a.ic []
  pw := rowPoly f cs.matC P.a.ic []
  qu := rowPoly f cs.matA [] P.a.l
  qv := rowPoly f cs.matB [] P.a.l
  qw := rowPoly f cs.matC [] P.a.l + quotPoly cs.m P.a.h
  b := C P.b.one + rowPoly f cs.matB (P.b.b.take cs.l) (P.b.b.drop cs.l)
  bβ := P.b.beta
  bγ := P.b.gamma
  bδ := P.b.delta
  c := C P.c.one + rowPoly f cs.matA (P.c.a.take cs.l) (P.c.a.drop cs.l) + rowPoly f cs.matB (P.c.b.take cs.l) (P.c.b.drop cs.l)
  cα := P.c.alpha
  cβ := P.c.beta
  cδ := P.c.delta
  ru := rowPoly f cs.matA P.c.ic []
  rv := rowPoly f cs.matB P.c.ic []
  rw := rowPoly f cs.matC P.c.ic []
  su := rowPoly f cs.matA [] P.c.l
  sv := rowPoly f cs.matB [] P.c.l
  sw := rowPoly f cs.matC [] P.c.l + quotPoly cs.m P.c.h
  xu := rowPoly f cs.matA (1 :: x) []
  xv := rowPoly f cs.matB (1 :: x) []
  xw := rowPoly f cs.matC (1 :: x) []

section
variable {k : Nat} {f : Fft F}

theorem rd_rowPoly (d : Domain S root gen k f) {cs : CS F} (hm : cs.m = 2 ^ k) {M : List (Row F)} (hM : M.length = cs.m) (tau : F) (x w : List F) :
    rd (lag f tau cs.m) M x w = (rowPoly f M x w).eval tau := by
  rw [rd_eq d (by omega) M hM, headEval_eq]
  · rfl
  · rw [hm]; exact interp_degree d _

omit [DecidableEq F] in
theorem quotPoly_eval (n : Nat) (q : List F) (tau : F) : (quotPoly n q).eval tau = (tau ^ n - 1) * qEval n q tau := by
  unfold quotPoly qEval
  simp only [eval_mul, eval_sub, eval_pow, eval_X, eval_one, eval_finset_sum, eval_C]

omit [DecidableEq F] in
theorem quotPoly_degree {n : Nat} (hn : 2 ≤ n) (q : List F) : (quotPoly n q).natDegree ≤ 2 * (n - 1) := by
  unfold quotPoly
  refine natDegree_mul_le.trans ?_
  have h1 : (X ^ n - 1 : F[X]).natDegree = n := by rw [← C_1]; exact natDegree_X_pow_sub_C
  have h2 : (∑ i ∈ Finset.range (n - 1), C (q.getD i 0) * X ^ i : F[X]).natDegree ≤ n - 2 := by
    refine natDegree_sum_le_of_forall_le _ _ fun i hi => (natDegree_C_mul_X_pow_le _ _).trans ?_
    have := Finset.mem_range.mp hi; omega
  omega

/-- Acceptance is the equation. -/
theorem accept_holds (d : Domain S root gen k f) {cs : CS F} (hm : cs.m = 2 ^ k) (he : e g1 g2 ≠ 0) {P : AffineProver F} {x : List F}
    {t : F × F × F × F × F} {p : Params G1 G2} {vk : PVKey G1 G2 GT} (hs : setup S root gen g1 g2 e (trap t) cs = some (.ok (p, vk)))
    (hv : verify e vk (P.prove g1 g2 p) x = .ok ()) : (eqnOf f cs P x).Holds t := by
  have hk : domainLog cs.m = k := by rw [hm, domainLog_pow]
  obtain ⟨f1, hf1, key⟩ := setup_keys hs
  obtain ⟨f2, hf2, all⟩ := setup_all hs
  rw [hk] at hf1 hf2
  have e1 : f1 = f := Option.some.inj (hf1.symm.trans d.new)
  have e2 : f2 = f := Option.some.inj (hf2.symm.trans d.new)
  subst e1
  subst e2
  obtain ⟨δ, γ, β, α, τ⟩ := t
  obtain ⟨hl, hv⟩ := verify_ok_iff.mp hv
  rw [key.icLen] at hl
  have lA : cs.matA.length = cs.m := by simp [CS.matA, CS.m]
  have lB : cs.matB.length = cs.m := by simp [CS.matB, CS.m]
  have lC : cs.matC.length = cs.m := by simp [CS.matC, CS.m]
  have rA := fun x w => rd_rowPoly d hm lA τ x w
  have rB := fun x w => rd_rowPoly d hm lB τ x w
  have rC := fun x w => rd_rowPoly d hm lC τ x w
  have hg : γ ≠ 0 := key.gamma
  have hd : δ ≠ 0 := key.delta
  have pt : ∀ c : G1Comb F, c.point g1 p = (c.one + c.alpha * α + c.beta * β + c.delta * δ +
      ((rowPoly f2 cs.matA c.ic []).eval τ * β + (rowPoly f2 cs.matB c.ic []).eval τ * α + (rowPoly f2 cs.matC c.ic []).eval τ) * γ⁻¹ +
      (τ ^ 2 ^ k - 1) * δ⁻¹ * qEval cs.m c.h τ +
      ((rowPoly f2 cs.matA [] c.l).eval τ * β + (rowPoly f2 cs.matB [] c.l).eval τ * α + (rowPoly f2 cs.matC [] c.l).eval τ) * δ⁻¹ +
      (rowPoly f2 cs.matA (c.a.take cs.l) (c.a.drop cs.l)).eval τ + (rowPoly f2 cs.matB (c.b.take cs.l) (c.b.drop cs.l)).eval τ) • g1 := by
    intro c
    unfold G1Comb.point
    rw [key.vkAlpha, key.vkBeta1, key.vkDelta1, all.ic, all.h, all.l, all.a, all.b1, z_eq d]
    simp only [trap, rA, rB, rC]
    module
  have pt2 : P.b.point g2 p = (P.b.one + P.b.beta * β + P.b.gamma * γ + P.b.delta * δ +
      (rowPoly f2 cs.matB (P.b.b.take cs.l) (P.b.b.drop cs.l)).eval τ) • g2 := by
    unfold G2Comb.point
    rw [key.vkBeta2, all.gamma2, key.vkDelta2, all.b2]
    simp only [trap, rB]
    module
  simp only [AffineProver.prove] at hv
  rw [pt, pt2, pt, key.ic _ hl, key.pGamma, key.pDelta, key.pAlphaBeta] at hv
  simp only [trap, rA, rB, rC, map_smul, map_neg, LinearMap.smul_apply, smul_neg, smul_smul] at hv
  refine ⟨hd, hg, ?_⟩
  rw [← sub_eq_zero] at hv
  have hv' : ∀ s : F, s • e g1 g2 = 0 → s = 0 := fun s h => (smul_eq_zero.mp h).resolve_right he
  rw [← sub_eq_zero]
  refine hv' _ ?_
  rw [← hv]
  simp only [Eqn.valA, Eqn.valB, Eqn.valC, eqnOf, eval_add, eval_C, quotPoly_eval, hm]
  simp only [← neg_smul, ← add_smul, ← sub_smul]
  congr 1
  field_simp
  ring

end

/-- **C102, for circuits with a power of two constraints.** A prover who publishes fixed combinations of the parameters and is accepted for
more than `(2n + 6)·|F|⁴` of the `|F|⁵` values of the toxic waste knows a witness: its coefficients on the witness elements of the key in
the third element satisfy every constraint together with the public inputs.  Missing: other numbers of constraints, for which it is false
(`C102_knowledge_refuted`). -/
theorem C102_knowledge_partial [Fintype F] (env : Env S root gen) (he : e g1 g2 ≠ 0) {cs0 : CS F} {k : Nat} (hm : cs0.m = 2 ^ k)
    (P : AffineProver F) (x : List F) (hmany : (2 * 2 ^ k + 6) * Nat.card F ^ 4 < Nat.card {t // Accepting S root gen g1 g2 e cs0 P x t}) :
    Satisfies (assign x P.c.l) cs0 := by
  classical
  let T : Finset (F × F × F × F × F) := Finset.univ.filter fun p => Accepting S root gen g1 g2 e cs0 P x (trap p)
  have hT : Nat.card {t // Accepting S root gen g1 g2 e cs0 P x t} ≤ T.card := by
    rw [← Fintype.card_coe, ← Nat.card_eq_fintype_card]
    refine Nat.card_le_card_of_injective
      (fun t => (⟨(t.1.delta, t.1.gamma, t.1.beta, t.1.alpha, t.1.tau), by simp only [T, Finset.mem_filter, Finset.mem_univ, true_and]; exact t.2⟩ : T)) ?_
    rintro ⟨⟨a, b, c, d, t⟩, h⟩ ⟨⟨a', b', c', d', t'⟩, h'⟩ hh
    simp only [Subtype.mk.injEq, Prod.mk.injEq] at hh
    obtain ⟨rfl, rfl, rfl, rfl, rfl⟩ := hh
    rfl
  have hcard := hmany.trans_le hT
  rw [Nat.card_eq_fintype_card] at hcard
  obtain ⟨t0, ht0⟩ : T.Nonempty := Finset.card_pos.mp (by omega)
  obtain ⟨p0, vk0, hs0, -⟩ := (Finset.mem_filter.mp ht0).2
  obtain ⟨f, hf, -⟩ := setup_keys hs0
  have hk : domainLog cs0.m = k := by rw [hm, domainLog_pow]
  rw [hk] at hf
  have d := env.domain hf
  have n2 : 2 ≤ 2 ^ k := by
    calc 2 = 2 ^ 1 := rfl
      _ ≤ 2 ^ k := Nat.pow_le_pow_right (by norm_num) (new_some hf).1
  have nd : ∀ (M : List (Row F)) (x w : List F), (rowPoly f M x w).natDegree ≤ 2 ^ k - 1 := fun M x w =>
    Nat.le_sub_one_of_lt ((natDegree_lt_iff' (by positivity)).mpr (interp_degree d _))
  have nc : ∀ c : F, (C c : F[X]).natDegree ≤ 2 ^ k - 1 := fun c => by rw [natDegree_C]; exact Nat.zero_le _
  have ad : ∀ {p q : F[X]} {m : Nat}, p.natDegree ≤ m → q.natDegree ≤ m → (p + q).natDegree ≤ m := fun h k => natDegree_add_le_of_degree_le h k
  have qd : ∀ (M : List (Row F)) (x w q : List F), (rowPoly f M x w + quotPoly cs0.m q).natDegree ≤ 2 * (2 ^ k - 1) := fun M x w q =>
    ad ((nd M x w).trans (by omega)) (by rw [hm]; exact quotPoly_degree n2 q)
  have key := (eqnOf f cs0 P x).extract (n := 2 ^ k - 1) (ad (ad (nc _) (nd _ _ _)) (nd _ _ _)) (ad (nc _) (nd _ _ _)) (nd _ _ _) (nd _ _ _)
    (nd _ _ _) (nd _ _ _) (nd _ _ _) (qd _ _ _ _) (nd _ _ _) (nd _ _ _) (qd _ _ _ _) (nd _ _ _) (nd _ _ _) (nd _ _ _) T
    (fun p hp => by
      obtain ⟨p', vk, hs, hv⟩ := (Finset.mem_filter.mp hp).2
      exact accept_holds d hm he hs hv)
    (by rwa [show 2 * (2 ^ k - 1) + 8 = 2 * 2 ^ k + 6 by omega])
  rw [assign_eq]
  refine ⟨by simp [readD, Wire.ONE], fun c hc => ?_⟩
  obtain ⟨i, hi, hci⟩ := List.mem_iff_getElem.mp hc
  have hi' : i < 2 ^ k := by rw [← hm]; exact hi
  have row : ∀ (g : Constraint F → Row F) (x w : List F), (rowPoly f (cs0.cons.map g) x w).eval (omega S root k ^ i) = rowVal (readD x w) (g c) := by
    intro g x w
    unfold rowPoly interp
    rw [(C40_idft_interpolates d _).2 i hi', List.map_map, List.getD_eq_getElem _ _ (by simpa using hi), List.getElem_map, hci]
    rfl
  have split : ∀ (r : Row F) (x w : List F), rowVal (readD x w) r = rowVal (readD x []) r + rowVal (readD [] w) r := by
    intro r x w
    have := rd_split (fun _ => (1 : F)) [r] x w
    simpa [rd, rowsDot] using this
  have hz : (omega S root k ^ i) ^ 2 ^ k - 1 = 0 := by
    rw [← pow_mul, mul_comm i, pow_mul, (C40_domain d).pow_eq_one, one_pow, sub_self]
  have h := congrArg (eval (omega S root k ^ i)) key
  simp only [eqnOf, eval_mul, eval_add, quotPoly_eval, hm, hz, zero_mul, add_zero, CS.matA, CS.matB, CS.matC, row] at h
  unfold Holds
  rw [split c.a, split c.b, split c.c]
  exact h

/-- `create_proof` is such a prover, with the witness as coefficients of the witness elements. -/
theorem C102_honest (env : Env S root gen) (h1 : g1 ≠ 0) (h2 : g2 ≠ 0) {cs0 cs : CS F} (sh : SameShape cs0 cs) (wf : Wf cs) (r s : F) :
    ∃ P : AffineProver F, P.c.l = cs.w ∧ ∀ t p vk, setup S root gen g1 g2 e t cs0 = some (.ok (p, vk)) →
      createProof S root gen p r s cs = some (.ok (P.prove g1 g2 p)) := by
  cases hf : Fft.new S root gen (domainLog cs.m) with
  | none =>
    refine ⟨⟨⟨0, 0, 0, 0, [], [], [], [], []⟩, ⟨0, 0, 0, 0, []⟩, ⟨0, 0, 0, 0, [], [], cs.w, [], []⟩⟩, rfl, fun t p vk hs => ?_⟩
    obtain ⟨f, hf', -⟩ := setup_keys hs
    rw [SameShape.m sh, hf] at hf'; cases hf'
  | some f =>
    obtain ⟨q, q1, -, -⟩ := quotient_spec (env.domain hf) (env.coset' hf) (cs.matA.map (rowVal (stored cs))) (cs.matB.map (rowVal (stored cs)))
      (cs.matC.map (rowVal (stored cs)))
    refine ⟨⟨⟨0, 1, 0, r, [], [], [], cs.x ++ cs.w, []⟩, ⟨0, 1, 0, s, cs.x ++ cs.w⟩,
      ⟨0, s, r, s * r, [], q, cs.w, (cs.x ++ cs.w).map (s * ·), (cs.x ++ cs.w).map (r * ·)⟩⟩, rfl, fun t p vk hs => ?_⟩
    obtain ⟨f1, hf1, key⟩ := setup_keys hs
    obtain ⟨f2, hf2, all⟩ := setup_all hs
    rw [SameShape.m sh] at hf1 hf2
    have e1 : f1 = f := Option.some.inj (hf1.symm.trans hf)
    have e2 : f2 = f := Option.some.inj (hf2.symm.trans hf)
    subst e1
    subst e2
    rw [createProof_eq sh wf hf key h1 h2 r s q1]
    have hA : cs0.matA = cs.matA := by unfold CS.matA; rw [sh.cons]
    have hB : cs0.matB = cs.matB := by unfold CS.matB; rw [sh.cons]
    have hC : cs0.matC = cs.matC := by unfold CS.matC; rw [sh.cons]
    have hM : cs0.m = cs.m := SameShape.m sh
    have hl : cs0.l = cs.x.length := sh.x
    have sm : ∀ {G : Type} [AddCommGroup G] [Module F G] (c : F) (xs : List F) (L : List G), combo (xs.map (c * ·)) L = c • combo xs L := by
      intro G _ _ c xs
      unfold combo
      induction xs with
      | nil => intro L; simp
      | cons a xs ih =>
        intro L
        cases L with
        | nil => simp
        | cons P L => simp only [List.map_cons, List.zipWith_cons_cons, List.sum_cons, ih L, smul_add, mul_smul]
    have c0 : ∀ {G : Type} [AddCommGroup G] [Module F G] (L : List G), combo ([] : List F) L = 0 := by intro G _ _ L; simp [combo]
    simp only [AffineProver.prove, G1Comb.point, G2Comb.point, sm, c0, key.vkAlpha, key.vkBeta1, key.vkBeta2, key.vkDelta1, key.vkDelta2,
      all.a, all.b1, all.b2, all.l, all.h, hl, List.take_left, List.drop_left, hA, hB, hC, hM, proofScalars]
    congr 3 <;> module

/-- Honest proofs for a satisfied circuit with a power of two constraints are accepted for all but a few values of the toxic waste, so the
hypothesis of `C102_knowledge_partial` is met. -/
theorem C102_many [Fintype F] (env : Env S root gen) (h1 : g1 ≠ 0) (h2 : g2 ≠ 0) {cs : CS F} (wf : Wf cs) {k : Nat} (hm : cs.m = 2 ^ k)
    (hk : 1 ≤ k) (hS : k ≤ S) (hsat : Satisfies (stored cs) cs) :
    ∃ P : AffineProver F, P.c.l = cs.w ∧
      (Nat.card F - 2 ^ k) * (Nat.card F - 1) ^ 2 * Nat.card F ^ 2 ≤ Nat.card {t // Accepting S root gen g1 g2 e cs P cs.x.tail t} := by
  have sh : SameShape cs cs := ⟨rfl, rfl, rfl⟩
  obtain ⟨P, hP, hon⟩ := C102_honest (e := e) env h1 h2 sh wf 0 0
  have n2 : 2 ≤ 2 ^ k := by
    calc 2 = 2 ^ 1 := rfl
      _ ≤ 2 ^ k := Nat.pow_le_pow_right (by norm_num) hk
  obtain ⟨bad, hb, H⟩ := C44_runs_partial (e := e) env h1 h2 cs wf (by omega) (by rw [hm]; exact Nat.pow_le_pow_right (by norm_num) hS)
  refine ⟨P, hP, ?_⟩
  have acc : ∀ t : Trapdoor F, t.tau ∉ bad → t.gamma ≠ 0 → t.delta ≠ 0 → Accepting S root gen g1 g2 e cs P cs.x.tail t := by
    intro t h3 h4 h5
    obtain ⟨p, vk, hs, -⟩ := H t h3 h4 h5
    obtain ⟨π, hc, hv⟩ := C43_completeness_partial env h1 h2 sh wf k hm hsat hs 0 0
    rw [hon t p vk hs] at hc
    rw [← Except.ok.inj (Option.some.inj hc)] at hv
    exact ⟨p, vk, hs, hv⟩
  let good : Finset F := Finset.univ \ bad
  let nz : Finset F := Finset.univ.erase 0
  let B : Finset (F × F × F × F × F) := good ×ˢ nz ×ˢ nz ×ˢ Finset.univ ×ˢ Finset.univ
  have hB : (Nat.card F - 2 ^ k) * (Nat.card F - 1) ^ 2 * Nat.card F ^ 2 ≤ B.card := by
    have g : Nat.card F - 2 ^ k ≤ good.card := by
      rw [Finset.card_sdiff_of_subset (Finset.subset_univ _), Finset.card_univ, Nat.card_eq_fintype_card]; omega
    have z : nz.card = Nat.card F - 1 := by rw [Finset.card_erase_of_mem (Finset.mem_univ _), Finset.card_univ, Nat.card_eq_fintype_card]
    simp only [B, Finset.card_product, z, Finset.card_univ, ← Nat.card_eq_fintype_card]
    calc _ ≤ good.card * (Nat.card F - 1) ^ 2 * Nat.card F ^ 2 := Nat.mul_le_mul_right _ (Nat.mul_le_mul_right _ g)
      _ = _ := by ring
  refine hB.trans ?_
  rw [← Fintype.card_coe, ← Nat.card_eq_fintype_card]
  have : Finite (Trapdoor F) := Finite.of_injective (fun t : Trapdoor F => (t.alpha, t.beta, t.gamma, t.delta, t.tau)) (by
    rintro ⟨a, b, c, d, t⟩ ⟨a', b', c', d', t'⟩ hh
    simp only [Prod.mk.injEq] at hh
    obtain ⟨rfl, rfl, rfl, rfl, rfl⟩ := hh
    rfl)
  refine Nat.card_le_card_of_injective (fun p : B => (⟨⟨p.1.2.2.2.1, p.1.2.2.2.2, p.1.2.1, p.1.2.2.1, p.1.1⟩, ?_⟩ :
    {t // Accepting S root gen g1 g2 e cs P cs.x.tail t})) ?_
  · have := p.2
    simp only [B, good, nz, Finset.mem_product, Finset.mem_sdiff, Finset.mem_univ, true_and, Finset.mem_erase, and_true] at this
    exact acc _ this.1 this.2.1 this.2.2
  · rintro ⟨⟨a, b, c, d, t⟩, h⟩ ⟨⟨a', b', c', d', t'⟩, h'⟩ hh
    simp only [Subtype.mk.injEq, Trapdoor.mk.injEq] at hh
    obtain ⟨rfl, rfl, rfl, rfl, rfl⟩ := hh
    rfl

/-- **C102 is false of circuits whose number of constraints is not a power of two.** The circuit `false3` has no satisfying assignment, yet
there is a prover of this kind (the code's own) accepted for every toxic waste for which `setup` returns. -/
theorem C102_knowledge_refuted (env : Env S root gen) (hS : 2 ≤ S) (h1 : g1 ≠ 0) (h2 : g2 ≠ 0) :
    let cs := false3 (omega S root 2)
    Wf cs ∧ (∀ z, ¬ Satisfies z cs) ∧ ∃ P : AffineProver F, ∀ (t : Trapdoor F) (p) (vk), setup S root gen g1 g2 e t cs = some (.ok (p, vk)) →
      verify e vk (P.prove g1 g2 p) [] = .ok () := by
  obtain ⟨wf, no, yes⟩ := C47_unsat_refuted (e := e) env hS h1 h2
  obtain ⟨P, -, hon⟩ := C102_honest (e := e) env h1 h2 (cs := false3 (omega S root 2)) ⟨rfl, rfl, rfl⟩ wf 0 0
  refine ⟨wf, no, P, fun t p vk hs => ?_⟩
  obtain ⟨π, hc, hv⟩ := yes t p vk hs 0 0
  rw [hon t p vk hs] at hc
  rw [← Except.ok.inj (Option.some.inj hc)] at hv
  exact hv

/-- In a field of 97 elements the honest prover of a circuit with two constraints is accepted often enough. -/
example : ∃ P : AffineProver (ZMod 97), P.c.l = [2, 3] ∧ (2 * 2 ^ 1 + 6) * Nat.card (ZMod 97) ^ 4 <
    Nat.card {t // Accepting 5 (28 : ZMod 97) 5 (1 : ZMod 97) (1 : ZMod 97) (LinearMap.mul (ZMod 97) (ZMod 97)) demoG P [6, 9] t} := by
  obtain ⟨P, h, hc⟩ := C102_many (e := LinearMap.mul (ZMod 97) (ZMod 97)) (g1 := (1 : ZMod 97)) (g2 := (1 : ZMod 97)) demoEnv one_ne_zero
    one_ne_zero (demoG_wf [2, 3] rfl) (k := 1) rfl le_rfl (by decide) demoG_sat.1
  refine ⟨P, h, lt_of_lt_of_le ?_ hc⟩
  rw [Nat.card_zmod]
  decide +kernel

end Kogarashi.Props
