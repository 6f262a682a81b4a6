import Verif.Props.Completeness
import Verif.Props.FalseStatements
import Verif.Props.Affine

/-!
# Property C102 for every number of constraints that is not a power of two

A false statement and a prover for it, who only adds published elements, for every such number of constraints.
-/

namespace Kogarashi.Props

open Kogarashi Spec Groth16 Polynomial Field

variable {F G1 G2 GT : Type} [_root_.Field F] [DecidableEq F]

/-- `w^{im} ∏_{m ≤ j < n} (w^i - w^j)`. -/
def unitVal (w : F) (m n i : Nat) : F := (w ^ i) ^ m * ∏ j ∈ Finset.Ico m n, (w ^ i - w ^ j)

/-- The constraints `u_i · u_i = u_i` between constants, for `i < m`. -/
def unitCs (w : F) (m n : Nat) : CS F := consts ((List.range m).map fun i => (unitVal w m n i, unitVal w m n i, unitVal w m n i))

/-- The polynomial with these values on the domain. -/
noncomputable def unitPoly (w : F) (m n : Nat) : F[X] := X ^ m * (∏ j ∈ Finset.Ico m n, (X - C (w ^ j))) - X ^ n + 1

omit [DecidableEq F] in
theorem unitPoly_eval {w : F} {m n : Nat} (hw : IsPrimitiveRoot w n) (i : Nat) : (unitPoly w m n).eval (w ^ i) = unitVal w m n i := by
  have : (w ^ i) ^ n = 1 := by rw [← pow_mul, mul_comm, pow_mul, hw.pow_eq_one, one_pow]
  simp [unitPoly, unitVal, eval_prod, this]

omit [DecidableEq F] in
theorem unitVal_zero (w : F) {m n i : Nat} (h : m ≤ i) (h' : i < n) : unitVal w m n i = 0 := by
  unfold unitVal
  rw [Finset.prod_eq_zero (Finset.mem_Ico.mpr ⟨h, h'⟩) (sub_self _), mul_zero]

omit [DecidableEq F] in
theorem prodMonic (w : F) (m n : Nat) : (∏ j ∈ Finset.Ico m n, (X - C (w ^ j)) : F[X]).Monic ∧
    (∏ j ∈ Finset.Ico m n, (X - C (w ^ j)) : F[X]).natDegree = n - m := by
  refine ⟨monic_prod_of_monic _ _ fun j _ => monic_X_sub_C _, ?_⟩
  rw [natDegree_prod_of_monic _ _ fun j _ => monic_X_sub_C _, Finset.sum_congr rfl fun j _ => natDegree_X_sub_C (w ^ j)]
  simp

omit [DecidableEq F] in
theorem unitPoly_degree (w : F) {m n : Nat} (h0 : 0 < n) (h : m ≤ n) : (unitPoly w m n).degree < (n : Nat) := by
  obtain ⟨mo, dg⟩ := prodMonic w m n
  unfold unitPoly
  refine (degree_add_le _ _).trans_lt (max_lt ?_ ?_)
  · have m1 : (X ^ m * ∏ j ∈ Finset.Ico m n, (X - C (w ^ j)) : F[X]).Monic := (monic_X_pow m).mul mo
    have d1 : (X ^ m * ∏ j ∈ Finset.Ico m n, (X - C (w ^ j)) : F[X]).natDegree = n := by
      rw [(monic_X_pow m).natDegree_mul mo, natDegree_X_pow, dg]; omega
    have e1 : (X ^ m * ∏ j ∈ Finset.Ico m n, (X - C (w ^ j)) : F[X]).degree = (n : Nat) := by rw [degree_eq_natDegree m1.ne_zero, d1]
    have := degree_sub_lt_left (p := (X ^ m * ∏ j ∈ Finset.Ico m n, (X - C (w ^ j)) : F[X])) (q := X ^ n) (by rw [e1, degree_X_pow]) m1.ne_zero
      (by rw [m1.leadingCoeff, leadingCoeff_X_pow])
    rwa [e1] at this
  · rw [degree_one]; exact_mod_cast h0

omit [DecidableEq F] in
theorem unitPoly_head (w : F) {m n : Nat} (h0 : 0 < m) (h : m ≤ n) (x : F) : headEval m (unitPoly w m n) x = 1 := by
  unfold headEval
  have co : ∀ l, l < m → (unitPoly w m n).coeff l = if l = 0 then 1 else 0 := by
    intro l hl
    have h1 : ¬ m ≤ l := by omega
    have h2 : ¬ l = n := by omega
    simp [unitPoly, coeff_X_pow_mul', coeff_X_pow, coeff_one, h1, h2]
  rw [Finset.sum_eq_single 0]
  · rw [co 0 h0]; simp
  · intro i hi hne
    rw [co i (Finset.mem_range.mp hi), if_neg hne, zero_mul]
  · intro hn; simp at hn; omega

omit [DecidableEq F] in
/-- Some `u_i` is neither zero nor one. -/
theorem unitVal_bad {w : F} {m n : Nat} (hw : IsPrimitiveRoot w n) (hmn : m < n) (hn : n < 2 * m) :
    ∃ i, i < m ∧ unitVal w m n i * unitVal w m n i ≠ unitVal w m n i := by
  by_contra hall
  push Not at hall
  have w0 : w ≠ 0 := hw.ne_zero (by omega)
  have nz : ∀ i, i < m → unitVal w m n i ≠ 0 := by
    intro i hi
    refine mul_ne_zero (pow_ne_zero _ (pow_ne_zero _ w0)) (Finset.prod_ne_zero_iff.mpr fun j hj => sub_ne_zero.mpr fun h => ?_)
    have hj := Finset.mem_Ico.mp hj
    have := hw.pow_inj (by omega) hj.2 h
    omega
  have one : ∀ i, i < m → unitVal w m n i = 1 := fun i hi => by
    have := hall i hi
    exact mul_left_cancel₀ (nz i hi) (by rw [this, mul_one])
  obtain ⟨mo, dg⟩ := prodMonic w m n
  set V : F[X] := ∏ j ∈ Finset.Ico m n, (X - C (w ^ j)) with hV
  have dl : (V - X ^ (n - m)).degree < ((n - m : ℕ) : WithBot ℕ) := by
    have e1 : V.degree = ((n - m : ℕ) : WithBot ℕ) := by rw [degree_eq_natDegree mo.ne_zero, dg]
    have := degree_sub_lt_left (p := V) (q := X ^ (n - m)) (by rw [e1, degree_X_pow]) mo.ne_zero (by rw [mo.leadingCoeff, leadingCoeff_X_pow])
    rwa [e1] at this
  have z : V - X ^ (n - m) = 0 := by
    refine eq_zero_of_degree_lt_of_eval_index_eq_zero (s := Finset.range m) (v := fun i : ℕ => w ^ i) ?_ ?_ ?_
    · intro i hi j hj h
      have hi : i < m := by simpa using hi
      have hj : j < m := by simpa using hj
      exact hw.pow_inj (by omega) (by omega) h
    · refine dl.trans_le ?_
      rw [Finset.card_range]; exact_mod_cast (by omega : n - m ≤ m)
    · intro i hi
      have hi : i < m := by simpa using hi
      have u := one i hi
      have hp : (w ^ i) ^ m * (w ^ i) ^ (n - m) = 1 := by
        rw [← pow_add, show m + (n - m) = n by omega, ← pow_mul, mul_comm, pow_mul, hw.pow_eq_one, one_pow]
      have ev : V.eval (w ^ i) = ∏ j ∈ Finset.Ico m n, (w ^ i - w ^ j) := by simp [hV, eval_prod]
      rw [eval_sub, ev, eval_pow, eval_X]
      refine mul_left_cancel₀ (pow_ne_zero m (pow_ne_zero i w0)) ?_
      unfold unitVal at u
      rw [mul_sub, u, hp, sub_self, mul_zero]
  have ev : V.eval (w ^ m) = 0 := by
    rw [hV, eval_prod]
    exact Finset.prod_eq_zero (Finset.mem_Ico.mpr ⟨le_rfl, hmn⟩) (by simp)
  have := congrArg (eval (w ^ m)) z
  rw [eval_sub, ev, eval_pow, eval_X, eval_zero, zero_sub, neg_eq_zero] at this
  exact pow_ne_zero _ (pow_ne_zero _ w0) this

variable [AddCommGroup G1] [Module F G1] [DecidableEq G1] [AddCommGroup G2] [Module F G2] [DecidableEq G2]
  [AddCommGroup GT] [Module F GT] [DecidableEq GT] {g1 : G1} {g2 : G2} {e : G1 →ₗ[F] G2 →ₗ[F] GT}
variable {S : Nat} {root gen : F}

/-- The prover: `A` is `α` plus the first element for the left matrix, `B` is `β` plus the first element for the right matrix, and the third
component is zero. -/
def forger : AffineProver F :=
  ⟨⟨0, 1, 0, 0, [], [], [], [1], []⟩, ⟨0, 1, 0, 0, [1]⟩, ⟨0, 0, 0, 0, [], [], [], [], []⟩⟩

/-- **C102 is false for every number of constraints that is not a power of two.**  The circuit `unitCs` has a constraint between constants that
does not hold, so no assignment satisfies it.  The proof made of `α` plus one published element, `β` plus one published element and zero is
accepted, for every toxic waste for which `setup` returns. -/
theorem C102_forgery_all_refuted (env : Env S root gen) {m : Nat} (hm : ∀ k, m ≠ 2 ^ k) (h0 : 0 < m) (hS : domainLog m ≤ S) :
    let cs := unitCs (omega S root (domainLog m)) m (2 ^ domainLog m)
    cs.m = m ∧ Wf cs ∧ (∀ z : Assignment F, ¬ Satisfies z cs) ∧
    ∀ (t : Trapdoor F) (p) (vk), setup S root gen g1 g2 e t cs = some (.ok (p, vk)) →
      verify e vk ((forger : AffineProver F).prove g1 g2 p) [] = .ok () := by
  intro cs
  have hcm : cs.m = m := by simp [cs, unitCs, consts, CS.m]
  have le : m ≤ 2 ^ domainLog m := Nat.le_pow_clog (by norm_num) m
  have lt : m < 2 ^ domainLog m := lt_of_le_of_ne le (hm _)
  have d1 : 1 ≤ domainLog m := by
    by_contra h
    have : domainLog m = 0 := by omega
    rw [this] at lt
    omega
  have half : 2 ^ domainLog m < 2 * m := by
    have h : 2 ^ (domainLog m - 1) < m := (Nat.lt_clog_iff_pow_lt (by norm_num)).mp (by change domainLog m - 1 < domainLog m; omega)
    have e : 2 ^ domainLog m = 2 * 2 ^ (domainLog m - 1) := by
      rw [← pow_succ']; congr 1; omega
    omega
  obtain ⟨f0, hf0⟩ := (C40_new S root gen env.small env.two env.rootOk env.genOk (domainLog m)).mpr ⟨d1, hS⟩
  have d := env.domain hf0
  have hw := C40_domain d
  refine ⟨hcm, consts_wf _, ?_, ?_⟩
  · intro z ⟨hz, hc⟩
    obtain ⟨i, hi, bad⟩ := unitVal_bad hw lt half
    have : constRow (unitVal (omega S root (domainLog m)) m (2 ^ domainLog m) i, unitVal (omega S root (domainLog m)) m (2 ^ domainLog m) i,
        unitVal (omega S root (domainLog m)) m (2 ^ domainLog m) i) ∈ cs.cons :=
      List.mem_map.mpr ⟨_, List.mem_map.mpr ⟨i, List.mem_range.mpr hi, rfl⟩, rfl⟩
    have := hc _ this
    simp only [Holds, constRow, rowVal, List.map_cons, List.map_nil, List.sum_cons, List.sum_nil, hz, one_mul, add_zero] at this
    exact bad this
  · intro t p vk hs
    obtain ⟨f1, hf1, key⟩ := setup_keys hs
    rw [hcm, hf0] at hf1
    obtain rfl := Option.some.inj hf1
    have ac := (accept_iff (⟨rfl, rfl, rfl⟩ : SameShape cs cs) (consts_wf _) key 0 0 []).mpr
    have IP := @interp_is F _ _ S root gen _ _ d
    have lA : cs.matA.length = m := by rw [← hcm]; simp [CS.matA, CS.m]
    have lB : cs.matB.length = m := by rw [← hcm]; simp [CS.matB, CS.m]
    have lC : cs.matC.length = m := by rw [← hcm]; simp [CS.matC, CS.m]
    have IN : interp f0 ((List.range m).map (unitVal (omega S root (domainLog m)) m (2 ^ domainLog m))) =
        unitPoly (omega S root (domainLog m)) m (2 ^ domainLog m) := by
      refine IP (unitPoly_degree _ (by positivity) le) (fun i hi => ?_)
      rw [unitPoly_eval hw]
      by_cases h : i < m
      · rw [getD_map_range h]
      · rw [List.getD_eq_default _ _ (by simp; omega), unitVal_zero _ (by omega) hi]
    have vA : cs.matA.map (rowVal (readD cs.x cs.w)) = (List.range m).map (unitVal (omega S root (domainLog m)) m (2 ^ domainLog m)) := by
      rw [← stored_eq_readD]; simp only [cs, unitCs, consts_A, List.map_map, Function.comp_def]
    have vB : cs.matB.map (rowVal (readD cs.x cs.w)) = (List.range m).map (unitVal (omega S root (domainLog m)) m (2 ^ domainLog m)) := by
      rw [← stored_eq_readD]; simp only [cs, unitCs, consts_B, List.map_map, Function.comp_def]
    have vC : cs.matC.map (rowVal (readD cs.x cs.w)) = (List.range m).map (unitVal (omega S root (domainLog m)) m (2 ^ domainLog m)) := by
      rw [← stored_eq_readD]; simp only [cs, unitCs, consts_C, List.map_map, Function.comp_def]
    have rA : rd (lag f0 t.tau cs.m) cs.matA cs.x cs.w = 1 := by rw [hcm, rd_eq d le _ lA, vA, IN, unitPoly_head _ h0 le]
    have rB : rd (lag f0 t.tau cs.m) cs.matB cs.x cs.w = 1 := by rw [hcm, rd_eq d le _ lB, vB, IN, unitPoly_head _ h0 le]
    have rC : rd (lag f0 t.tau cs.m) cs.matC cs.x cs.w = 1 := by rw [hcm, rd_eq d le _ lC, vC, IN, unitPoly_head _ h0 le]
    have q0 : qEval cs.m ([] : List F) t.tau = 0 := by simp [qEval]
    have ac := ac (by rw [rA, rB, rC, q0]; simp)
    have ht : cs.x.tail = [] := rfl
    rw [ht] at ac
    have e0 : ∀ M : List (Row F), rd (lag f0 t.tau cs.m) M [] cs.w = 0 := by
      intro M
      have hwn : cs.w = [] := rfl
      have := rd_split (lag f0 t.tau cs.m) M [] ([] : List F)
      rw [hwn]
      simpa using this
    have c0 : ∀ {G : Type} [AddCommGroup G] [Module F G] (L : List G), combo ([] : List F) L = 0 := by intro G _ _ L; simp [combo]
    have cA : combo [(1 : F)] p.a = (1 : F) • g1 := by
      have := key.a cs.x rfl
      have h := rd_split (lag f0 t.tau cs.m) cs.matA cs.x cs.w
      rw [rA, e0, add_zero] at h
      rw [← h] at this
      exact this
    have cB : combo [(1 : F)] p.bG2 = (1 : F) • g2 := by
      have := key.b2 cs.x rfl
      have h := rd_split (lag f0 t.tau cs.m) cs.matB cs.x cs.w
      rw [rB, e0, add_zero] at h
      rw [← h] at this
      exact this
    have : (forger : AffineProver F).prove g1 g2 p = ⟨(proofScalars f0 t 0 0 cs []).a • g1, (proofScalars f0 t 0 0 cs []).b • g2, (proofScalars f0 t 0 0 cs []).c • g1⟩ := by
      simp only [forger, AffineProver.prove, G1Comb.point, G2Comb.point, c0, cA, cB, key.vkAlpha, key.vkBeta1, key.vkBeta2, key.vkDelta1,
        key.vkDelta2, proofScalars, rA, rB, e0, q0]
      congr 1 <;> module
    rw [this]
    exact ac

/-- Five constraints over `ZMod 97`: a key exists, no assignment satisfies the circuit, and the proof is accepted with that key. -/
example : ∃ (t : Trapdoor (ZMod 97)) (p : Params (ZMod 97) (ZMod 97)) (vk : PVKey (ZMod 97) (ZMod 97) (ZMod 97)),
    setup 5 (28 : ZMod 97) 5 1 1 (LinearMap.mul (ZMod 97) (ZMod 97)) t (unitCs (omega 5 28 (domainLog 5)) 5 (2 ^ domainLog 5)) = some (.ok (p, vk)) ∧
    verify (LinearMap.mul (ZMod 97) (ZMod 97)) vk ((forger : AffineProver (ZMod 97)).prove 1 1 p) [] = .ok () := by
  have five : ∀ k, 5 ≠ 2 ^ k := by
    intro k h
    rcases k with _ | _ | _ | k
    · omega
    · omega
    · omega
    · rw [pow_succ, pow_succ, pow_succ] at h; omega
  have hc : domainLog 5 ≤ 3 := (Nat.clog_le_iff_le_pow (by norm_num)).mpr (by norm_num)
  obtain ⟨hm, wf, -, H⟩ := C102_forgery_all_refuted (e := LinearMap.mul (ZMod 97) (ZMod 97)) (g1 := (1 : ZMod 97)) (g2 := (1 : ZMod 97)) demoEnv
    five (by norm_num) (by omega)
  obtain ⟨bad', hb', H'⟩ := C44_runs_partial (e := LinearMap.mul (ZMod 97) (ZMod 97)) demoEnv (one_ne_zero : (1 : ZMod 97) ≠ 0)
    (one_ne_zero : (1 : ZMod 97) ≠ 0) (unitCs (omega 5 28 (domainLog 5)) 5 (2 ^ domainLog 5)) wf (by rw [hm]; norm_num) (by rw [hm]; omega)
  have : ∃ tau, tau ∉ bad' := by
    by_contra h
    push Not at h
    have : Finset.univ ⊆ bad' := fun x _ => h x
    have := Finset.card_le_card this
    rw [Finset.card_univ, ZMod.card] at this
    have h8 : 2 ^ domainLog 5 ≤ 2 ^ 3 := Nat.pow_le_pow_right (by norm_num) hc
    rw [hm] at hb'
    omega
  obtain ⟨tau, ht⟩ := this
  obtain ⟨p, vk, hs, -⟩ := H' ⟨1, 1, 1, 1, tau⟩ ht one_ne_zero one_ne_zero
  exact ⟨_, p, vk, hs, H _ p vk hs⟩

end Kogarashi.Props
