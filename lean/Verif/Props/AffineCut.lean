import Verif.Props.Affine
import Verif.Props.Verdict

/-!
# C102 for every number of constraints: what an accepted prover knows

With a number `m` of constraints that is not a power of two the witness known by an accepted prover need not satisfy the circuit.  What
it does satisfy, exactly: the polynomials through the columns of values, cut after `m` terms, multiply on the domain.
-/

namespace Kogarashi.Props

open Kogarashi Spec Groth16 Polynomial Kogarashi.Field

variable {F G1 G2 GT : Type} [_root_.Field F] [DecidableEq F]
variable [AddCommGroup G1] [Module F G1] [AddCommGroup G2] [Module F G2] [AddCommGroup GT] [Module F GT]
variable [DecidableEq G1] [DecidableEq G2] [DecidableEq GT]
variable {S : Nat} {root gen : F} {g1 : G1} {g2 : G2} {e : G1 →ₗ[F] G2 →ₗ[F] GT}

/-- The polynomials of degree below `n` through the columns of values of the left, right and output rows (continued by zeros), cut after
as many terms as there are constraints, multiply at each of the points `1, ω, …, ω^(n-1)`. -/
def CutHolds (w : F) (n : Nat) (z : Assignment F) (cs : CS F) : Prop := ∀ A B C : F[X],
  TakesColumn w n (cs.cons.map fun c => rowVal z c.a) A → TakesColumn w n (cs.cons.map fun c => rowVal z c.b) B →
  TakesColumn w n (cs.cons.map fun c => rowVal z c.c) C →
  ∀ i < n, (cutPoly cs.m A).eval (w ^ i) * (cutPoly cs.m B).eval (w ^ i) = (cutPoly cs.m C).eval (w ^ i)

section
variable {k : Nat} {f : Fft F}

/-- A matrix under an assignment, interpolated and cut. -/
noncomputable def rowCut (f : Fft F) (m : Nat) (M : List (Row F)) (x w : List F) : F[X] := cutPoly m (rowPoly f M x w)

/-- The quotient part of a combination. -/
noncomputable def quotCut (n m : Nat) (q : List F) : F[X] := (X ^ n - 1) * ∑ i ∈ Finset.range (m - 1), C (q.getD i 0) * X ^ i

/-- The coefficients of the prover as an equation. -/
noncomputable def eqnCut (f : Fft F) (n : Nat) (cs : CS F) (P : AffineProver F) (x : List F) : Eqn F where
  a := C P.a.one + rowCut f cs.m cs.matA (P.a.a.take cs.l) (P.a.a.drop cs.l) + rowCut f cs.m cs.matB (P.a.b.take cs.l) (P.a.b.drop cs.l)
  aα := P.a.alpha
  aβ := P.a.beta
  aδ := P.a.delta
  pu := rowCut f cs.m cs.matA P.a.ic []
  pv := rowCut f cs.m cs.matB P.a.ic []
  pw := rowCut f cs.m cs.matC P.a.ic []
  qu := rowCut f cs.m cs.matA [] P.a.l
  qv := rowCut f cs.m cs.matB [] P.a.l
  qw := rowCut f cs.m cs.matC [] P.a.l + quotCut n cs.m P.a.h
  b := C P.b.one + rowCut f cs.m cs.matB (P.b.b.take cs.l) (P.b.b.drop cs.l)
  bβ := P.b.beta
  bγ := P.b.gamma
  bδ := P.b.delta
  c := C P.c.one + rowCut f cs.m cs.matA (P.c.a.take cs.l) (P.c.a.drop cs.l) + rowCut f cs.m cs.matB (P.c.b.take cs.l) (P.c.b.drop cs.l)
  cα := P.c.alpha
  cβ := P.c.beta
  cδ := P.c.delta
  ru := rowCut f cs.m cs.matA P.c.ic []
  rv := rowCut f cs.m cs.matB P.c.ic []
  rw := rowCut f cs.m cs.matC P.c.ic []
  su := rowCut f cs.m cs.matA [] P.c.l
  sv := rowCut f cs.m cs.matB [] P.c.l
  sw := rowCut f cs.m cs.matC [] P.c.l + quotCut n cs.m P.c.h
  xu := rowCut f cs.m cs.matA (1 :: x) []
  xv := rowCut f cs.m cs.matB (1 :: x) []
  xw := rowCut f cs.m cs.matC (1 :: x) []

theorem rd_rowCut (d : Domain S root gen k f) {cs : CS F} (hm : cs.m ≤ 2 ^ k) {M : List (Row F)} (hM : M.length = cs.m) (tau : F) (x w : List F) :
    rd (lag f tau cs.m) M x w = (rowCut f cs.m M x w).eval tau := by
  rw [rd_eq d hm M hM, rowCut, eval_cutPoly]; rfl

omit [DecidableEq F] in
theorem quotCut_eval (n m : Nat) (q : List F) (tau : F) : (quotCut n m q).eval tau = (tau ^ n - 1) * qEval m q tau := by
  unfold quotCut qEval
  simp only [eval_mul, eval_sub, eval_pow, eval_X, eval_one, eval_finsetSum, eval_C]

omit [DecidableEq F] in
theorem quotCut_degree {n m : Nat} (hm : 2 ≤ m) (hn : m ≤ n) (q : List F) : (quotCut n m q).natDegree ≤ 2 * (n - 1) := by
  unfold quotCut
  refine natDegree_mul_le.trans ?_
  have h1 : (X ^ n - 1 : F[X]).natDegree = n := by rw [← C_1]; exact natDegree_X_pow_sub_C
  have h2 : (∑ i ∈ Finset.range (m - 1), C (q.getD i 0) * X ^ i : F[X]).natDegree ≤ m - 2 := by
    refine natDegree_sum_le_of_forall_le _ _ fun i hi => (natDegree_C_mul_X_pow_le _ _).trans ?_
    have := Finset.mem_range.mp hi; omega
  omega

/-- Acceptance is the equation. -/
theorem accept_cut (d : Domain S root gen k f) {cs : CS F} (hk : domainLog cs.m = k) (he : e g1 g2 ≠ 0) {P : AffineProver F} {x : List F}
    {t : F × F × F × F × F} {p : Params G1 G2} {vk : PVKey G1 G2 GT} (hs : setup S root gen g1 g2 e (trap t) cs = some (.ok (p, vk)))
    (hv : verify e vk (P.prove g1 g2 p) x = .ok ()) : (eqnCut f (2 ^ k) cs P x).Holds t := by
  have hm : cs.m ≤ 2 ^ k := hk ▸ m_le cs.m
  obtain ⟨f1, hf1, key⟩ := setup_keys hs
  obtain ⟨f2, hf2, all⟩ := setup_all hs
  rw [hk] at hf1 hf2
  have e1 : f1 = f := Option.some.inj (hf1.symm.trans d.new)
  have e2 : f2 = f := Option.some.inj (hf2.symm.trans d.new)
  subst e1
  subst e2
  obtain ⟨δ, γ, β, α, τ⟩ := t
  obtain ⟨hl, hv⟩ := verify_ok_iff.mp hv
  rw [key.icLen] at hl
  have lA : cs.matA.length = cs.m := by simp [CS.matA, CS.m]
  have lB : cs.matB.length = cs.m := by simp [CS.matB, CS.m]
  have lC : cs.matC.length = cs.m := by simp [CS.matC, CS.m]
  have rA := fun x w => rd_rowCut d hm lA τ x w
  have rB := fun x w => rd_rowCut d hm lB τ x w
  have rC := fun x w => rd_rowCut d hm lC τ x w
  have hg : γ ≠ 0 := key.gamma
  have hd : δ ≠ 0 := key.delta
  have pt : ∀ c : G1Comb F, c.point g1 p = (c.one + c.alpha * α + c.beta * β + c.delta * δ +
      ((rowCut f2 cs.m cs.matA c.ic []).eval τ * β + (rowCut f2 cs.m cs.matB c.ic []).eval τ * α + (rowCut f2 cs.m cs.matC c.ic []).eval τ) * γ⁻¹ +
      (τ ^ 2 ^ k - 1) * δ⁻¹ * qEval cs.m c.h τ +
      ((rowCut f2 cs.m cs.matA [] c.l).eval τ * β + (rowCut f2 cs.m cs.matB [] c.l).eval τ * α + (rowCut f2 cs.m cs.matC [] c.l).eval τ) * δ⁻¹ +
      (rowCut f2 cs.m cs.matA (c.a.take cs.l) (c.a.drop cs.l)).eval τ + (rowCut f2 cs.m cs.matB (c.b.take cs.l) (c.b.drop cs.l)).eval τ) • g1 := by
    intro c
    unfold G1Comb.point
    rw [key.vkAlpha, key.vkBeta1, key.vkDelta1, all.ic, all.h, all.l, all.a, all.b1, z_eq d]
    simp only [trap, rA, rB, rC]
    module
  have pt2 : P.b.point g2 p = (P.b.one + P.b.beta * β + P.b.gamma * γ + P.b.delta * δ +
      (rowCut f2 cs.m cs.matB (P.b.b.take cs.l) (P.b.b.drop cs.l)).eval τ) • g2 := by
    unfold G2Comb.point
    rw [key.vkBeta2, all.gamma2, key.vkDelta2, all.b2]
    simp only [trap, rB]
    module
  simp only [AffineProver.prove] at hv
  rw [pt, pt2, pt, key.ic _ hl, key.pGamma, key.pDelta, key.pAlphaBeta] at hv
  simp only [trap, rA, rB, rC, map_smul, map_neg, LinearMap.smul_apply, smul_smul] at hv
  refine ⟨hd, hg, ?_⟩
  rw [← sub_eq_zero] at hv
  have hv' : ∀ s : F, s • e g1 g2 = 0 → s = 0 := fun s h => (smul_eq_zero.mp h).resolve_right he
  rw [← sub_eq_zero]
  refine hv' _ ?_
  rw [← hv]
  simp only [Eqn.valA, Eqn.valB, Eqn.valC, eqnCut, eval_add, eval_C, quotCut_eval]
  simp only [← neg_smul, ← add_smul, ← sub_smul]
  congr 1
  field_simp
  ring

/-- The interpolated column is the polynomial `TakesColumn` speaks of. -/
theorem rowPoly_takes (d : Domain S root gen k f) (cs : CS F) (g : Constraint F → Row F) (x w : List F) :
    TakesColumn (omega S root k) (2 ^ k) (cs.cons.map fun c => rowVal (readD x w) (g c)) (rowPoly f (cs.cons.map g) x w) := by
  refine ⟨interp_degree d _, fun i hi => ?_⟩
  unfold rowPoly interp
  rw [(C40_idft_interpolates d _).2 i hi, List.map_map]
  rfl

theorem takes_unique (d : Domain S root gen k f) {v : List F} {A B : F[X]} (hA : TakesColumn (omega S root k) (2 ^ k) v A)
    (hB : TakesColumn (omega S root k) (2 ^ k) v B) : A = B :=
  eq_of_evals (C40_domain d) (one_ne_zero (α := F)) (by exact_mod_cast hA.1) (by exact_mod_cast hB.1) fun i hi => by
    rw [one_mul, hA.2 i hi, hB.2 i hi]

/-- In terms of the interpolated columns. -/
theorem cutHolds_iff (d : Domain S root gen k f) (cs : CS F) (x w : List F) :
    CutHolds (omega S root k) (2 ^ k) (assign x w) cs ↔ ∀ i < 2 ^ k,
      (rowCut f cs.m cs.matA (1 :: x) w).eval (omega S root k ^ i) * (rowCut f cs.m cs.matB (1 :: x) w).eval (omega S root k ^ i) =
        (rowCut f cs.m cs.matC (1 :: x) w).eval (omega S root k ^ i) := by
  rw [assign_eq]
  have ta := rowPoly_takes d cs (·.a) (1 :: x) w
  have tb := rowPoly_takes d cs (·.b) (1 :: x) w
  have tc := rowPoly_takes d cs (·.c) (1 :: x) w
  constructor
  · intro h
    exact h _ _ _ ta tb tc
  · intro h A B C hA hB hC
    rw [takes_unique d hA ta, takes_unique d hB tb, takes_unique d hC tc]
    exact h

theorem rowCut_split (d : Domain S root gen k f) {cs : CS F} (hm : cs.m ≤ 2 ^ k) {M : List (Row F)} (hM : M.length = cs.m) (x w : List F) (tau : F) :
    (rowCut f cs.m M x w).eval tau = (rowCut f cs.m M x []).eval tau + (rowCut f cs.m M [] w).eval tau := by
  rw [← rd_rowCut d hm hM, ← rd_rowCut d hm hM, ← rd_rowCut d hm hM, ← rd_split]

end

/-- **C102, every number of constraints.** A prover who publishes fixed combinations of the parameters and is accepted for more than
`(2n + 6)·|F|⁴` of the `|F|⁵` values of the toxic waste (`n` the next power of two) knows a witness for which the cut column polynomials
multiply on the domain: its coefficients on the witness elements of the key in the third element.  For `m` a power of two that is a
witness of the circuit (`C102_cut_pow`). -/
theorem C102_cut [Fintype F] (env : Env S root gen) (he : e g1 g2 ≠ 0) {cs0 : CS F} (P : AffineProver F) (x : List F)
    (hmany : (2 * 2 ^ domainLog cs0.m + 6) * Nat.card F ^ 4 < Nat.card {t // Accepting S root gen g1 g2 e cs0 P x t}) :
    CutHolds (omega S root (domainLog cs0.m)) (2 ^ domainLog cs0.m) (assign x P.c.l) cs0 := by
  classical
  let T : Finset (F × F × F × F × F) := Finset.univ.filter fun p => Accepting S root gen g1 g2 e cs0 P x (trap p)
  have hT : Nat.card {t // Accepting S root gen g1 g2 e cs0 P x t} ≤ T.card := by
    rw [← Fintype.card_coe, ← Nat.card_eq_fintype_card]
    refine Nat.card_le_card_of_injective
      (fun t => (⟨(t.1.delta, t.1.gamma, t.1.beta, t.1.alpha, t.1.tau), by simp only [T, Finset.mem_filter, Finset.mem_univ, true_and]; exact t.2⟩ : T)) ?_
    rintro ⟨⟨a, b, c, d, t⟩, h⟩ ⟨⟨a', b', c', d', t'⟩, h'⟩ hh
    simp only [Subtype.mk.injEq, Prod.mk.injEq] at hh
    obtain ⟨rfl, rfl, rfl, rfl, rfl⟩ := hh
    rfl
  have hcard := hmany.trans_le hT
  rw [Nat.card_eq_fintype_card] at hcard
  obtain ⟨t0, ht0⟩ : T.Nonempty := Finset.card_pos.mp (by omega)
  obtain ⟨p0, vk0, hs0, -⟩ := (Finset.mem_filter.mp ht0).2
  obtain ⟨f, hf, -⟩ := setup_keys hs0
  obtain ⟨k, hk⟩ : ∃ k, domainLog cs0.m = k := ⟨_, rfl⟩
  rw [hk] at hf hcard ⊢
  have hmn : cs0.m ≤ 2 ^ k := hk ▸ m_le cs0.m
  have hm2 : 2 ≤ cs0.m := by
    by_contra h
    have : domainLog cs0.m = 0 := Nat.clog_of_right_le_one (by omega) 2
    have := (new_some hf).1
    omega
  have d := env.domain hf
  have nd : ∀ (M : List (Row F)) (x w : List F), (rowCut f cs0.m M x w).natDegree ≤ 2 ^ k - 1 := fun M x w =>
    (natDegree_cutPoly _ _).trans (by omega)
  have nc : ∀ c : F, (C c : F[X]).natDegree ≤ 2 ^ k - 1 := fun c => by rw [natDegree_C]; exact Nat.zero_le _
  have ad : ∀ {p q : F[X]} {m : Nat}, p.natDegree ≤ m → q.natDegree ≤ m → (p + q).natDegree ≤ m := fun h k => natDegree_add_le_of_degree_le h k
  have qd : ∀ (M : List (Row F)) (x w q : List F), (rowCut f cs0.m M x w + quotCut (2 ^ k) cs0.m q).natDegree ≤ 2 * (2 ^ k - 1) := fun M x w q =>
    ad ((nd M x w).trans (by omega)) (quotCut_degree hm2 hmn q)
  have key := (eqnCut f (2 ^ k) cs0 P x).extract (n := 2 ^ k - 1) (ad (ad (nc _) (nd _ _ _)) (nd _ _ _)) (ad (nc _) (nd _ _ _)) (nd _ _ _) (nd _ _ _)
    (nd _ _ _) (nd _ _ _) (nd _ _ _) (qd _ _ _ _) (nd _ _ _) (nd _ _ _) (qd _ _ _ _) (nd _ _ _) (nd _ _ _) (nd _ _ _) T
    (fun p hp => by
      obtain ⟨p', vk, hs, hv⟩ := (Finset.mem_filter.mp hp).2
      exact accept_cut d hk he hs hv)
    (by rwa [show 2 * (2 ^ k - 1) + 8 = 2 * 2 ^ k + 6 by omega])
  rw [cutHolds_iff d]
  intro i hi
  have hz : (omega S root k ^ i) ^ 2 ^ k - 1 = 0 := by
    rw [← pow_mul, mul_comm i, pow_mul, (C40_domain d).pow_eq_one, one_pow, sub_self]
  have h := congrArg (eval (omega S root k ^ i)) key
  simp only [eqnCut, eval_mul, eval_add, quotCut_eval, hz, zero_mul, add_zero] at h
  rw [rowCut_split d hmn (by simp [CS.matA, CS.m]) (1 :: x) P.c.l, rowCut_split d hmn (by simp [CS.matB, CS.m]) (1 :: x) P.c.l,
    rowCut_split d hmn (by simp [CS.matC, CS.m]) (1 :: x) P.c.l]
  exact h

/-- **C102, every number of constraints** (converse). If the cut column polynomials multiply on the domain, whether or not the circuit is
satisfied, there is a prover of this kind, with that witness, whom the verifier accepts for every toxic waste for which `setup` returns. -/
theorem C102_cut_accepted (env : Env S root gen) {cs0 : CS F} (x w : List F) (hx : x.length + 1 = cs0.l)
    (hc : CutHolds (omega S root (domainLog cs0.m)) (2 ^ domainLog cs0.m) (assign x w) cs0) :
    ∃ P : AffineProver F, P.c.l = w ∧ ∀ t p vk, setup S root gen g1 g2 e t cs0 = some (.ok (p, vk)) →
      verify e vk (P.prove g1 g2 p) x = .ok () := by
  cases hf : Fft.new S root gen (domainLog cs0.m) with
  | none =>
    refine ⟨⟨⟨0, 0, 0, 0, [], [], [], [], []⟩, ⟨0, 0, 0, 0, []⟩, ⟨0, 0, 0, 0, [], [], w, [], []⟩⟩, rfl, fun t p vk hs => ?_⟩
    obtain ⟨f, hf', -⟩ := setup_keys hs
    rw [hf] at hf'; cases hf'
  | some f =>
    obtain ⟨k, hk⟩ : ∃ k, domainLog cs0.m = k := ⟨_, rfl⟩
    rw [hk] at hf hc
    have hmn : cs0.m ≤ 2 ^ k := hk ▸ m_le cs0.m
    have hm2 : 2 ≤ cs0.m := by
      by_contra h
      have : domainLog cs0.m = 0 := Nat.clog_of_right_le_one (by omega) 2
      have := (new_some hf).1
      omega
    have d := env.domain hf
    rw [cutHolds_iff d] at hc
    have van := vanishing d (p := rowCut f cs0.m cs0.matA (1 :: x) w * rowCut f cs0.m cs0.matB (1 :: x) w - rowCut f cs0.m cs0.matC (1 :: x) w)
      (fun i hi => by rw [eval_sub, eval_mul, hc i hi, sub_self])
    set H := (rowCut f cs0.m cs0.matA (1 :: x) w * rowCut f cs0.m cs0.matB (1 :: x) w - rowCut f cs0.m cs0.matC (1 :: x) w) /ₘ
      (X ^ 2 ^ k - 1) with hH
    have n1 : (X ^ 2 ^ k - 1 : F[X]).natDegree = 2 ^ k := by rw [← C_1]; exact natDegree_X_pow_sub_C
    have hd : H.natDegree ≤ cs0.m - 2 := by
      have mon : (X ^ 2 ^ k - 1 : F[X]).Monic := by rw [← C_1]; exact monic_X_pow_sub_C _ (by positivity)
      rw [hH, natDegree_divByMonic _ mon, n1]
      have na := natDegree_cutPoly cs0.m (rowPoly f cs0.matA (1 :: x) w)
      have nb := natDegree_cutPoly cs0.m (rowPoly f cs0.matB (1 :: x) w)
      have nc := natDegree_cutPoly cs0.m (rowPoly f cs0.matC (1 :: x) w)
      have : (rowCut f cs0.m cs0.matA (1 :: x) w * rowCut f cs0.m cs0.matB (1 :: x) w - rowCut f cs0.m cs0.matC (1 :: x) w).natDegree ≤
          2 * (cs0.m - 1) := by
        refine (natDegree_sub_le _ _).trans (max_le (natDegree_mul_le.trans ?_) ?_) <;> unfold rowCut <;> omega
      omega
    refine ⟨⟨⟨0, 1, 0, 0, [], [], [], 1 :: x ++ w, []⟩, ⟨0, 1, 0, 0, 1 :: x ++ w⟩,
      ⟨0, 0, 0, 0, [], (List.range (cs0.m - 1)).map H.coeff, w, [], []⟩⟩, rfl, fun t p vk hs => ?_⟩
    obtain ⟨f1, hf1, key⟩ := setup_keys hs
    obtain ⟨f2, hf2, all⟩ := setup_all hs
    rw [hk] at hf1 hf2
    have e1 : f1 = f := Option.some.inj (hf1.symm.trans hf)
    have e2 : f2 = f := Option.some.inj (hf2.symm.trans hf)
    subst e1
    subst e2
    have c0 : ∀ {G : Type} [AddCommGroup G] [Module F G] (L : List G), combo ([] : List F) L = 0 := by intro G _ _ L; simp [combo]
    have hl : cs0.l = (1 :: x).length := by rw [List.length_cons, hx]
    have qe : qEval cs0.m ((List.range (cs0.m - 1)).map H.coeff) t.tau = H.eval t.tau := by
      unfold qEval
      rw [eval_eq_sum_range' (show H.natDegree < cs0.m - 1 by omega)]
      refine Finset.sum_congr rfl fun i hi => ?_
      have := Finset.mem_range.mp hi
      rw [List.getD_eq_getElem _ _ (by simpa using this)]
      simp
    have main := congrArg (eval t.tau) van
    simp only [eval_sub, eval_mul, eval_pow, eval_X, eval_one] at main
    have lA : cs0.matA.length = cs0.m := by simp [CS.matA, CS.m]
    have lB : cs0.matB.length = cs0.m := by simp [CS.matB, CS.m]
    have lC : cs0.matC.length = cs0.m := by simp [CS.matC, CS.m]
    rw [← rd_rowCut d hmn lA, ← rd_rowCut d hmn lB, ← rd_rowCut d hmn lC] at main
    rw [verify_ok_iff, key.icLen]
    refine ⟨hx, ?_⟩
    have tk : List.take cs0.l (1 :: x ++ w) = 1 :: x := by rw [hl]; exact List.take_left
    have dr : List.drop cs0.l (1 :: x ++ w) = w := by rw [hl]; exact List.drop_left
    simp only [AffineProver.prove, G1Comb.point, G2Comb.point, c0, key.vkAlpha, key.vkBeta2,
      all.a, all.b2, all.l, all.h, tk, dr, qe, z_eq d, key.ic _ hx, key.pGamma, key.pDelta, key.pAlphaBeta, zero_smul, one_smul, zero_add, add_zero]
    have hg := key.gamma
    have hde := key.delta
    rw [rd_split (lag f2 t.tau cs0.m) cs0.matA (1 :: x) w, rd_split (lag f2 t.tau cs0.m) cs0.matB (1 :: x) w,
      rd_split (lag f2 t.tau cs0.m) cs0.matC (1 :: x) w] at main
    rw [rd_split (lag f2 t.tau cs0.m) cs0.matA (1 :: x) w, rd_split (lag f2 t.tau cs0.m) cs0.matB (1 :: x) w]
    simp only [← add_smul, map_smul, map_neg, LinearMap.smul_apply, smul_smul]
    simp only [← neg_smul, ← add_smul]
    congr 1
    field_simp
    linear_combination main

/-- With a power of two constraints the cut condition is satisfaction. -/
theorem C102_cut_pow (env : Env S root gen) {k : Nat} {f : Fft F} (hf : Fft.new S root gen k = some f) {cs : CS F} (hm : cs.m = 2 ^ k) (x w : List F) :
    CutHolds (omega S root k) (2 ^ k) (assign x w) cs ↔ Satisfies (assign x w) cs := by
  have d := env.domain hf
  rw [cutHolds_iff d]
  have row : ∀ (g : Constraint F → Row F) (i : Nat) (hi : i < cs.cons.length), (rowCut f cs.m (cs.cons.map g) (1 :: x) w).eval (omega S root k ^ i) =
      rowVal (assign x w) (g cs.cons[i]) := by
    intro g i hi
    have hi' : i < 2 ^ k := hm ▸ hi
    unfold rowCut
    rw [eval_cutPoly, headEval_eq (by rw [hm]; exact interp_degree d _), (rowPoly_takes d cs g (1 :: x) w).2 i hi',
      List.getD_eq_getElem _ _ (by simpa using hi), List.getElem_map, assign_eq]
  constructor
  · refine fun h => ⟨rfl, fun c hc => ?_⟩
    obtain ⟨i, hi, rfl⟩ := List.mem_iff_getElem.mp hc
    have := h i (hm ▸ hi)
    unfold CS.matA CS.matB CS.matC at this
    rw [row _ i hi, row _ i hi, row _ i hi] at this
    exact this
  · intro h i hi
    have hi' : i < cs.cons.length := by have : cs.m = cs.cons.length := rfl; omega
    unfold CS.matA CS.matB CS.matC
    rw [row _ i hi', row _ i hi', row _ i hi']
    exact h.2 _ (List.getElem_mem hi')

/-- A prover accepted whenever `setup` returns is accepted for most of the toxic waste. -/
theorem many_of_always [Fintype F] (env : Env S root gen) (h1 : g1 ≠ 0) (h2 : g2 ≠ 0) {cs : CS F} (wf : Wf cs) (hm : 2 ≤ cs.m) (hS : cs.m ≤ 2 ^ S)
    (P : AffineProver F) (x : List F) (hP : ∀ t p vk, setup S root gen g1 g2 e t cs = some (.ok (p, vk)) → verify e vk (P.prove g1 g2 p) x = .ok ()) :
    (Nat.card F - cs.m) * (Nat.card F - 1) ^ 2 * Nat.card F ^ 2 ≤ Nat.card {t // Accepting S root gen g1 g2 e cs P x t} := by
  obtain ⟨bad, hb, H⟩ := C44_runs_partial (e := e) env h1 h2 cs wf hm hS
  have acc : ∀ t : Trapdoor F, t.tau ∉ bad → t.gamma ≠ 0 → t.delta ≠ 0 → Accepting S root gen g1 g2 e cs P x t := by
    intro t h3 h4 h5
    obtain ⟨p, vk, hs, -⟩ := H t h3 h4 h5
    exact ⟨p, vk, hs, hP t p vk hs⟩
  let good : Finset F := Finset.univ \ bad
  let nz : Finset F := Finset.univ.erase 0
  let B : Finset (F × F × F × F × F) := good ×ˢ nz ×ˢ nz ×ˢ Finset.univ ×ˢ Finset.univ
  have hB : (Nat.card F - cs.m) * (Nat.card F - 1) ^ 2 * Nat.card F ^ 2 ≤ B.card := by
    have g : Nat.card F - cs.m ≤ good.card := by
      rw [Finset.card_sdiff_of_subset (Finset.subset_univ _), Finset.card_univ, Nat.card_eq_fintype_card]; omega
    have z : nz.card = Nat.card F - 1 := by rw [Finset.card_erase_of_mem (Finset.mem_univ _), Finset.card_univ, Nat.card_eq_fintype_card]
    simp only [B, Finset.card_product, z, Finset.card_univ, ← Nat.card_eq_fintype_card]
    calc _ ≤ good.card * (Nat.card F - 1) ^ 2 * Nat.card F ^ 2 := Nat.mul_le_mul_right _ (Nat.mul_le_mul_right _ g)
      _ = _ := by ring
  refine hB.trans ?_
  rw [← Fintype.card_coe, ← Nat.card_eq_fintype_card]
  have : Finite (Trapdoor F) := Finite.of_injective (fun t : Trapdoor F => (t.alpha, t.beta, t.gamma, t.delta, t.tau)) (by
    rintro ⟨a, b, c, d, t⟩ ⟨a', b', c', d', t'⟩ hh
    simp only [Prod.mk.injEq] at hh
    obtain ⟨rfl, rfl, rfl, rfl, rfl⟩ := hh
    rfl)
  refine Nat.card_le_card_of_injective (fun p : B => (⟨⟨p.1.2.2.2.1, p.1.2.2.2.2, p.1.2.1, p.1.2.2.1, p.1.1⟩, ?_⟩ :
    {t // Accepting S root gen g1 g2 e cs P x t})) ?_
  · have := p.2
    simp only [B, good, nz, Finset.mem_product, Finset.mem_sdiff, Finset.mem_univ, true_and, Finset.mem_erase, and_true] at this
    exact acc _ this.1 this.2.1 this.2.2
  · rintro ⟨⟨a, b, c, d, t⟩, h⟩ ⟨⟨a', b', c', d', t'⟩, h'⟩ hh
    simp only [Subtype.mk.injEq, Trapdoor.mk.injEq] at hh
    obtain ⟨rfl, rfl, rfl, rfl, rfl⟩ := hh
    rfl

/-- **C102, every number of constraints, exactly.** In a field large enough for the size of the circuit: some prover with the witness `w`
is accepted for more than `(2n + 6)·|F|⁴` of the `|F|⁵` values of the toxic waste, if and only if the cut column polynomials of `x` and `w`
multiply on the domain. -/
theorem C102_exact [Fintype F] (env : Env S root gen) (h1 : g1 ≠ 0) (h2 : g2 ≠ 0) (he : e g1 g2 ≠ 0) {cs : CS F} (wf : Wf cs) (hm : 2 ≤ cs.m)
    (hS : cs.m ≤ 2 ^ S) (hbig : (2 * 2 ^ domainLog cs.m + 6) * Nat.card F ^ 4 < (Nat.card F - cs.m) * (Nat.card F - 1) ^ 2 * Nat.card F ^ 2)
    (x w : List F) (hx : x.length + 1 = cs.l) :
    (∃ P : AffineProver F, P.c.l = w ∧ (2 * 2 ^ domainLog cs.m + 6) * Nat.card F ^ 4 < Nat.card {t // Accepting S root gen g1 g2 e cs P x t}) ↔
      CutHolds (omega S root (domainLog cs.m)) (2 ^ domainLog cs.m) (assign x w) cs := by
  constructor
  · rintro ⟨P, rfl, h⟩
    exact C102_cut env he P x h
  · intro h
    obtain ⟨P, hP, H⟩ := C102_cut_accepted (g1 := g1) (g2 := g2) (e := e) env x w hx h
    exact ⟨P, hP, hbig.trans_le (many_of_always env h1 h2 wf hm hS P x H)⟩

/-- A circuit with three constraints over the field of 97 elements, which is large enough. -/
example (w : List (ZMod 97)) : (∃ P : AffineProver (ZMod 97), P.c.l = w ∧ (2 * 2 ^ domainLog (lowG).m + 6) * Nat.card (ZMod 97) ^ 4 <
      Nat.card {t // Accepting 5 28 5 (1 : ZMod 97) (1 : ZMod 97) (LinearMap.mul (ZMod 97) (ZMod 97)) lowG P [] t}) ↔
    CutHolds (omega 5 28 (domainLog (lowG).m)) (2 ^ domainLog (lowG).m) (assign [] w) lowG := by
  have hm : (lowG).m = 3 := rfl
  have wf : Wf lowG := consts3_wf _ _ _
  refine C102_exact demoEnv one_ne_zero one_ne_zero (by simp) wf (by rw [hm]; decide) (by rw [hm]; decide) ?_ [] w rfl
  rw [hm, domainLog_three, Nat.card_zmod]
  norm_num

end Kogarashi.Props
