import Verif.Props.Completeness

/-!
# Property C47: false statements of any size are accepted

`Props/Groth16.lean` exhibits one circuit with three constraints that no assignment satisfies and whose proofs are accepted.
Here there is one for every number of constraints `2^k - 1`, and every constraint of it is violated.
-/

namespace Kogarashi.Props

open Kogarashi Spec Groth16 Polynomial Field

variable {F G1 G2 GT : Type} [Field F] [DecidableEq F]

/-- The constants of constraint `i`: `(w^{-i} - w) · (1 - w^{-i-1}) = -w (1 - w^{-i-1})`. -/
def falseRow (w : F) (i : Nat) : F × F × F := (w⁻¹ ^ i - w, 1 - w⁻¹ ^ (i + 1), -w * (1 - w⁻¹ ^ (i + 1)))

/-- `m` constraints between constants. -/
def falseCs (w : F) (m : Nat) : CS F := consts ((List.range m).map (falseRow w))

omit [DecidableEq F] in
/-- Every constraint is violated by every assignment, if `w` is a root of unity of order above `m`. -/
theorem falseCs_violated {w : F} {m n : Nat} (hw : IsPrimitiveRoot w n) (hmn : m < n) {z : Assignment F} (hz : z Wire.ONE = 1) :
    ∀ c ∈ (falseCs w m).cons, ¬ Holds z c := by
  intro c hc
  have hc' : c ∈ ((List.range m).map (falseRow w)).map constRow := hc
  obtain ⟨t, ht, rfl⟩ := List.mem_map.mp hc'
  obtain ⟨i, hi, rfl⟩ := List.mem_map.mp ht
  have hi := List.mem_range.mp hi
  simp only [Holds, constRow, falseRow, rowVal, List.map_cons, List.map_nil, List.sum_cons, List.sum_nil, hz]
  intro h
  have w0 : w ≠ 0 := hw.ne_zero (by omega)
  have h' : (1 - w⁻¹ ^ (i + 1)) * w⁻¹ ^ i = 0 := by linear_combination h
  rcases mul_eq_zero.mp h' with h' | h'
  · rw [sub_eq_zero, eq_comm, inv_pow, inv_eq_one] at h'
    exact absurd (Nat.le_of_dvd (by omega) ((hw.pow_eq_one_iff_dvd _).mp h')) (by omega)
  · exact pow_ne_zero _ (inv_ne_zero w0) h'

variable {S : Nat} {root gen : F}

/-- Interpolation: a polynomial below the degree of the domain with the values of the vector. -/
theorem interp_is {k : Nat} {f : Fft F} (d : Domain S root gen k f) {v : List F} {p : F[X]} (hp : p.degree < (2 ^ k : Nat))
    (hv : ∀ i, i < 2 ^ k → p.eval (omega S root k ^ i) = v.getD i 0) : interp f v = p := by
  refine eq_of_evals (C40_domain d) one_ne_zero (interp_degree d v) hp (fun i hi => ?_)
  rw [one_mul, hv i hi]
  obtain ⟨k, rfl, ok, -⟩ := d.ok
  exact eval_idft ok v hi

omit [DecidableEq F] in
theorem head_two (m a : Nat) (u v x : F) (p : F[X]) (hp : p = C u + C v * X ^ a) (h0 : 0 < m) (ha : m ≤ a) : headEval m p x = u := by
  subst hp
  unfold headEval
  rw [Finset.sum_eq_single 0]
  · have : ¬ (0 = a) := by omega
    simp [coeff_X_pow, this]
  · intro i hi h
    have hi := Finset.mem_range.mp hi
    have : ¬ (i = a) := by omega
    simp [coeff_C, coeff_X_pow, this, h]
  · intro h; simp at h; omega

variable [AddCommGroup G1] [Module F G1] [DecidableEq G1] [AddCommGroup G2] [Module F G2] [DecidableEq G2]
  [AddCommGroup GT] [Module F GT] [DecidableEq GT] {g1 : G1} {g2 : G2} {e : G1 →ₗ[F] G2 →ₗ[F] GT}

omit [DecidableEq F] in
theorem two_degree {n a b : Nat} (ha : a < n) (hb : b < n) (u v : F) : (C u * X ^ a + C v * X ^ b : F[X]).degree < (n : Nat) := by
  refine (degree_add_le _ _).trans_lt (max_lt ?_ ?_)
  · exact (degree_C_mul_X_pow_le a u).trans_lt (by exact_mod_cast ha)
  · exact (degree_C_mul_X_pow_le b v).trans_lt (by exact_mod_cast hb)

/-- **C47 is false for every number of constraints `2^k - 1`, `2 ≤ k ≤ S`.** No assignment satisfies any constraint of the circuit
`falseCs`, yet the proof `createProof` returns is accepted, for every toxic waste for which `setup` returns and all coins. -/
theorem C47_unsat_all_refuted (env : Env S root gen) (h1 : g1 ≠ 0) (h2 : g2 ≠ 0) {k : Nat} (hk : 2 ≤ k) (hkS : k ≤ S) :
    let cs := falseCs (omega S root k) (2 ^ k - 1)
    cs.m = 2 ^ k - 1 ∧ Wf cs ∧ (∀ z : Assignment F, z Wire.ONE = 1 → ∀ c ∈ cs.cons, ¬ Holds z c) ∧
    ∀ (t : Trapdoor F) (p) (vk), setup S root gen g1 g2 e t cs = some (.ok (p, vk)) →
      ∀ r s, ∃ π, createProof S root gen p r s cs = some (.ok π) ∧ verify e vk π [] = .ok () := by
  intro cs
  have n4 : 4 ≤ 2 ^ k := (Nat.pow_le_pow_right (by norm_num) hk : 2 ^ 2 ≤ 2 ^ k)
  have hcm : cs.m = 2 ^ k - 1 := by simp [cs, falseCs, consts, CS.m]
  have hlog : domainLog (2 ^ k - 1) = k := by
    obtain ⟨j, rfl⟩ : ∃ j, k = j + 1 := ⟨k - 1, by omega⟩
    have hj : 2 ≤ 2 ^ j := (Nat.pow_le_pow_right (by norm_num) (by omega) : 2 ^ 1 ≤ 2 ^ j)
    have e : 2 ^ (j + 1) = 2 * 2 ^ j := by rw [pow_succ, mul_comm]
    refine le_antisymm ((Nat.clog_le_iff_le_pow (by norm_num)).mpr (Nat.sub_le _ _)) ?_
    exact (Nat.lt_clog_iff_pow_lt (by norm_num)).mpr (by omega)
  obtain ⟨f0, hf0⟩ := (C40_new S root gen env.small env.two env.rootOk env.genOk k).mpr ⟨by omega, hkS⟩
  have hw := C40_domain (env.domain hf0)
  refine ⟨hcm, consts_wf _, fun z hz => falseCs_violated hw (by omega) hz, ?_⟩
  intro t p vk hs r s
  obtain ⟨f, d, hz, -, q, u1, u2, u3⟩ := honest_run env h1 h2 (⟨rfl, rfl, rfl⟩ : SameShape cs cs) (consts_wf _) hs
  rw [hcm, hlog] at d hz u1 u2
  obtain ⟨v1, v2⟩ := u3 r s
  refine ⟨_, v1, ?_⟩
  have ht0 : cs.x.tail = [] := rfl
  rw [ht0, hcm, hlog] at v2
  rw [v2]
  clear v1 v2 u3
  have hA0 : polyA f cs = interp f (((List.range (2 ^ k - 1)).map (falseRow (omega S root k))).map (·.1)) := by
    simp only [cs, polyA, falseCs, consts_A]
  have hB0 : polyB f cs = interp f (((List.range (2 ^ k - 1)).map (falseRow (omega S root k))).map (·.2.1)) := by
    simp only [cs, polyB, falseCs, consts_B]
  have hC0 : polyC f cs = interp f (((List.range (2 ^ k - 1)).map (falseRow (omega S root k))).map (·.2.2)) := by
    simp only [cs, polyC, falseCs, consts_C]
  have IP := @interp_is F _ _ S root gen k f d
  generalize omega S root k = w at *
  set n := 2 ^ k with hn
  have w0 : w ≠ 0 := hw.ne_zero (by omega)
  have wn : w ^ (n - 1) = w⁻¹ := by
    apply mul_right_cancel₀ w0
    rw [← pow_succ, Nat.sub_add_cancel (by omega), hw.pow_eq_one, inv_mul_cancel₀ w0]
  have pw : ∀ i, (w ^ i) ^ (n - 1) = w⁻¹ ^ i := fun i => by rw [← pow_mul, mul_comm, pow_mul, wn]
  have get : ∀ (g : F × F × F → F) i, i < n → (g (falseRow w (n - 1)) = 0) →
      (((List.range (n - 1)).map (falseRow w)).map g).getD i 0 = g (falseRow w i) := by
    intro g i hi h0
    rw [List.map_map]
    by_cases hi' : i < n - 1
    · rw [getD_map_range hi']; rfl
    · rw [List.getD_eq_default _ _ (by simp; omega), show i = n - 1 by omega, h0]
  have wi : w⁻¹ ^ n = 1 := by rw [inv_pow, hw.pow_eq_one, inv_one]
  have last : w⁻¹ ^ (n - 1) = w := by rw [inv_pow, wn, inv_inv]
  have hA : polyA f cs = C (-w) + C 1 * X ^ (n - 1) := by
    rw [hA0]
    refine IP (by have := two_degree (n := n) (a := 0) (b := n - 1) (by omega) (by omega) (-w) 1; rwa [pow_zero, mul_one] at this) (fun i hi => ?_)
    rw [get (·.1) i hi (by simp [falseRow, last])]
    simp only [falseRow, eval_add, eval_mul, eval_C, eval_pow, eval_X, pw]
    ring
  have hB : polyB f cs = C 1 + C (-w⁻¹) * X ^ (n - 1) := by
    rw [hB0]
    refine IP (by have := two_degree (n := n) (a := 0) (b := n - 1) (by omega) (by omega) (1 : F) (-w⁻¹); rwa [pow_zero, mul_one] at this) (fun i hi => ?_)
    rw [get (·.2.1) i hi (by simp only [falseRow]; rw [Nat.sub_add_cancel (by omega), wi, sub_self])]
    simp only [falseRow, eval_add, eval_mul, eval_C, eval_pow, eval_X, pw]
    ring
  have hC : polyC f cs = C (-w) + C 1 * X ^ (n - 1) := by
    rw [hC0]
    refine IP (by have := two_degree (n := n) (a := 0) (b := n - 1) (by omega) (by omega) (-w) 1; rwa [pow_zero, mul_one] at this) (fun i hi => ?_)
    rw [get (·.2.2) i hi (by simp only [falseRow]; rw [Nat.sub_add_cancel (by omega), wi]; ring)]
    simp only [falseRow, eval_add, eval_mul, eval_C, eval_pow, eval_X, pw]
    rw [pow_succ]
    field_simp
    ring
  have hg : gen ^ n - 1 ≠ 0 := sub_ne_zero.mpr hz
  have hq : polyOf q = C (-(w⁻¹ * gen ^ n) / (gen ^ n - 1)) * X ^ (n - 2) + C (1 / (gen ^ n - 1)) * X ^ (n - 1) := by
    refine eq_of_evals hw d.genOk u1 (two_degree (by omega) (by omega) _ _) (fun i hi => ?_)
    apply mul_right_cancel₀ hg
    rw [u2 i hi, hA, hB, hC]
    have yn : (gen * w ^ i) ^ n = gen ^ n := by rw [mul_pow, ← pow_mul, mul_comm i, pow_mul, hw.pow_eq_one, one_pow, mul_one]
    generalize gen * w ^ i = y at yn
    have y2 : y ^ (n - 1) * y ^ (n - 1) = gen ^ n * y ^ (n - 2) := by
      rw [← yn, ← pow_add, ← pow_add]; congr 1; omega
    simp only [eval_add, eval_sub, eval_mul, eval_C, eval_pow, eval_X]
    have e1 : (-(w⁻¹ * gen ^ n) / (gen ^ n - 1) * y ^ (n - 2) + 1 / (gen ^ n - 1) * y ^ (n - 1)) * (gen ^ n - 1) =
        -(w⁻¹ * gen ^ n) * y ^ (n - 2) + y ^ (n - 1) := by field_simp
    rw [e1]
    have e2 : w * w⁻¹ = 1 := mul_inv_cancel₀ w0
    linear_combination (-w⁻¹) * y2 + y ^ (n - 1) * e2
  have q0 : headEval (n - 1 - 1) (polyOf q) t.tau = 0 := by
    rw [hq]
    unfold headEval
    refine Finset.sum_eq_zero (fun i hi => ?_)
    have hi := Finset.mem_range.mp hi
    have a1 : ¬ (i = n - 2) := by omega
    have a2 : ¬ (i = n - 1) := by omega
    simp [coeff_X_pow, a1, a2]
  rw [head_two (n - 1) (n - 1) _ _ _ _ hA (by omega) le_rfl, head_two (n - 1) (n - 1) _ _ _ _ hB (by omega) le_rfl,
    head_two (n - 1) (n - 1) _ _ _ _ hC (by omega) le_rfl, q0]
  simp

/-- Seven constraints over `ZMod 97`, all false: keys exist, and every proof made with them is accepted. -/
example : ∃ (t : Trapdoor (ZMod 97)) (p : Params (ZMod 97) (ZMod 97)) (vk : PVKey (ZMod 97) (ZMod 97) (ZMod 97)),
    setup 5 (28 : ZMod 97) 5 1 1 (LinearMap.mul (ZMod 97) (ZMod 97)) t (falseCs (omega 5 28 3) (2 ^ 3 - 1)) = some (.ok (p, vk)) ∧
    ∀ r s : ZMod 97, ∃ π, createProof 5 28 5 p r s (falseCs (omega 5 28 3) (2 ^ 3 - 1)) = some (.ok π) ∧
      verify (LinearMap.mul (ZMod 97) (ZMod 97)) vk π [] = .ok () := by
  obtain ⟨hm, wf, -, H⟩ := C47_unsat_all_refuted (e := LinearMap.mul (ZMod 97) (ZMod 97)) demoEnv
    (one_ne_zero : (1 : ZMod 97) ≠ 0) (one_ne_zero : (1 : ZMod 97) ≠ 0) (k := 3) (by norm_num) (by norm_num)
  obtain ⟨bad, hb, H'⟩ := C44_runs_partial (e := LinearMap.mul (ZMod 97) (ZMod 97)) demoEnv (one_ne_zero : (1 : ZMod 97) ≠ 0)
    (one_ne_zero : (1 : ZMod 97) ≠ 0) _ wf (by rw [hm]; norm_num) (by rw [hm]; norm_num)
  have : ∃ tau, tau ∉ bad := by
    by_contra h
    push Not at h
    have : Finset.univ ⊆ bad := fun x _ => h x
    have := Finset.card_le_card this
    rw [Finset.card_univ, ZMod.card] at this
    rw [hm] at hb
    omega
  obtain ⟨tau, ht⟩ := this
  obtain ⟨p, vk, hs, -⟩ := H' ⟨1, 1, 1, 1, tau⟩ ht one_ne_zero one_ne_zero
  exact ⟨_, p, vk, hs, H _ p vk hs⟩

end Kogarashi.Props
