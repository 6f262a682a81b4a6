import Verif.Props.Groth16

/-!
# Property C43, for every number of constraints that is not a power of two

`Props/Groth16.lean` proves completeness for `2^k` constraints and refutes it for three.  Here every other number of
constraints is covered: for each there is a satisfied circuit whose honest proofs are rejected.
-/

namespace Kogarashi.Props

open Kogarashi Spec Groth16 Polynomial Field

variable {F G1 G2 GT : Type} [Field F] [DecidableEq F]

/-- One constraint `a·b = c` between constants. -/
def constRow (abc : F × F × F) : Constraint F := Constraint.mk [(Wire.ONE, abc.1)] [(Wire.ONE, abc.2.1)] [(Wire.ONE, abc.2.2)]

/-- Constraints between constants. -/
def consts (l : List (F × F × F)) : CS F := { x := [1], w := [], cons := l.map constRow }

/-- The circuit `1·0 = 0`, `0·1 = 0` and then `m` times `0·0 = 0`. -/
def clash (m : Nat) : CS F := consts ((1, 0, 0) :: (0, 1, 0) :: List.replicate m (0, 0, 0))

omit [DecidableEq F] in
theorem stored_consts (l : List (F × F × F)) (v : F) : rowVal (stored (consts l)) [(Wire.ONE, v)] = v := by
  simp [rowVal, stored, CS.get, Row.readWire, Wire.ONE, consts]

omit [DecidableEq F] in
theorem consts_wf (l : List (F × F × F)) : Wf (consts l) := by
  have row : ∀ v : F, RowOk (consts l) [(Wire.ONE, v)] := fun v =>
    ⟨by simp [DistinctWires], by simp [Allocated, Wire.ONE, consts]⟩
  refine ⟨rfl, fun k hk => ?_⟩
  simp only [consts, List.mem_map] at hk
  obtain ⟨t, -, rfl⟩ := hk
  exact ⟨row _, row _, row _⟩

omit [DecidableEq F] in
theorem consts_sat (l : List (F × F × F)) (h : ∀ t ∈ l, t.1 * t.2.1 = t.2.2) : Satisfies (stored (consts l)) (consts l) := by
  refine ⟨by simp [stored, CS.get, Row.readWire, Wire.ONE, consts], fun k hk => ?_⟩
  have hk' : k ∈ l.map constRow := hk
  obtain ⟨t, ht, rfl⟩ := List.mem_map.mp hk'
  unfold Holds
  simp only [constRow, stored_consts]
  exact h t ht

omit [DecidableEq F] in
theorem clash_sat (m : Nat) : Satisfies (stored (clash m)) (clash m : CS F) := by
  refine consts_sat _ (fun t ht => ?_)
  simp only [List.mem_cons, List.mem_replicate] at ht
  rcases ht with rfl | rfl | ⟨-, rfl⟩ <;> simp

omit [DecidableEq F] in
theorem consts_A (l : List (F × F × F)) : (consts l).matA.map (rowVal (stored (consts l))) = l.map (·.1) := by
  have : (consts l).matA = l.map (fun t => [(Wire.ONE, t.1)]) := by simp [CS.matA, consts, constRow, Function.comp_def]
  rw [this, List.map_map]
  exact List.map_congr_left (fun t _ => stored_consts l _)

omit [DecidableEq F] in
theorem consts_B (l : List (F × F × F)) : (consts l).matB.map (rowVal (stored (consts l))) = l.map (·.2.1) := by
  have : (consts l).matB = l.map (fun t => [(Wire.ONE, t.2.1)]) := by simp [CS.matB, consts, constRow, Function.comp_def]
  rw [this, List.map_map]
  exact List.map_congr_left (fun t _ => stored_consts l _)

omit [DecidableEq F] in
theorem consts_C (l : List (F × F × F)) : (consts l).matC.map (rowVal (stored (consts l))) = l.map (·.2.2) := by
  have : (consts l).matC = l.map (fun t => [(Wire.ONE, t.2.2)]) := by simp [CS.matC, consts, constRow, Function.comp_def]
  rw [this, List.map_map]
  exact List.map_congr_left (fun t _ => stored_consts l _)

/-- The first `m` coefficients of a polynomial. -/
noncomputable def headPoly (m : Nat) (p : F[X]) : F[X] := ∑ i ∈ Finset.range m, C (p.coeff i) * X ^ i

omit [DecidableEq F] in
theorem headPoly_eval (m : Nat) (p : F[X]) (x : F) : (headPoly m p).eval x = headEval m p x := by
  simp [headPoly, headEval, eval_finset_sum]

omit [DecidableEq F] in
theorem headPoly_coeff (m : Nat) (p : F[X]) (i : Nat) : (headPoly m p).coeff i = if i < m then p.coeff i else 0 := by
  simp [headPoly, finset_sum_coeff, coeff_C_mul, coeff_X_pow]

omit [DecidableEq F] in
theorem headPoly_natDegree (m : Nat) (p : F[X]) : (headPoly m p).natDegree ≤ m := by
  refine natDegree_sum_le_of_forall_le _ _ (fun i hi => ?_)
  exact (natDegree_C_mul_X_pow_le _ _).trans (Finset.mem_range.mp hi).le

omit [DecidableEq F] in
/-- The powers of a root of unity below its order sum up to zero only over the whole period. -/
theorem geom_ne {w : F} {n m : Nat} (hw : IsPrimitiveRoot w n) (h0 : 0 < m) (hm : m < n) :
    ∑ b ∈ Finset.range m, w⁻¹ ^ b ≠ 0 := by
  intro h
  have := mul_neg_geom_sum w⁻¹ m
  rw [h, mul_zero, eq_comm, sub_eq_zero, eq_comm, inv_pow, inv_eq_one] at this
  exact absurd (Nat.le_of_dvd h0 ((hw.pow_eq_one_iff_dvd m).mp this)) (by omega)

variable {S : Nat} {root gen : F}

/-- The quotient the prover computes for a satisfied system is the quotient of the polynomials. -/
theorem quot_of_sat {k : Nat} {f : Fft F} (d : Domain S root gen k f) (hz : gen ^ 2 ^ k ≠ 1) {cs : CS F}
    (hsat : Satisfies (stored cs) cs) {q : List F} (hq : (polyOf q).degree < (2 ^ k : Nat))
    (hv : ∀ i, i < 2 ^ k → (polyOf q).eval (gen * omega S root k ^ i) * (gen ^ 2 ^ k - 1) =
        (polyA f cs * polyB f cs - polyC f cs).eval (gen * omega S root k ^ i)) :
    polyOf q = (polyA f cs * polyB f cs - polyC f cs) /ₘ (X ^ 2 ^ k - 1) := by
  have hk := (new_some d.new).1
  have van := vanishing d (interp_vanishes d hsat)
  have hdeg := natDegree_quot d hk (cs.matA.map (rowVal (stored cs))) (cs.matB.map (rowVal (stored cs))) (cs.matC.map (rowVal (stored cs)))
  unfold polyA polyB polyC at *
  set Q := (interp f (cs.matA.map (rowVal (stored cs))) * interp f (cs.matB.map (rowVal (stored cs))) -
    interp f (cs.matC.map (rowVal (stored cs)))) /ₘ (X ^ 2 ^ k - 1) with hQ
  have hlt : Q.degree < (2 ^ k : Nat) := hdeg.trans_le (by exact_mod_cast Nat.sub_le _ _)
  refine eq_of_evals (C40_domain d) d.genOk hq hlt (fun i hi => ?_)
  have := hv i hi
  rw [van] at this
  simp only [eval_mul, eval_sub, eval_pow, eval_X, eval_one] at this
  rw [mul_pow, ← pow_mul (omega S root k), mul_comm i, pow_mul (omega S root k), (C40_domain d).pow_eq_one, one_pow, mul_one] at this
  have hne : gen ^ 2 ^ k - 1 ≠ 0 := sub_ne_zero.mpr hz
  exact mul_right_cancel₀ hne (by rw [this, mul_comm])

/-- Coefficients of the polynomial that is one at `ω^i` and zero on the rest of the domain. -/
theorem interp_delta {k : Nat} {f : Fft F} (d : Domain S root gen k f) {i : Nat} (hi : i < 2 ^ k) {v : List F}
    (hv : ∀ j, v.getD j 0 = if j = i then 1 else 0) {j : Nat} (hj : j < 2 ^ k) :
    (interp f v).coeff j = (omega S root k)⁻¹ ^ (j * i) * ((2 ^ k : Nat) : F)⁻¹ := by
  obtain ⟨k, rfl, ok, -⟩ := d.ok
  rw [interp, coeff_idft ok _ hj]
  simp only [hv, ite_mul, one_mul, zero_mul, Finset.sum_ite_eq', Finset.mem_range, hi, if_true]

theorem interp_zero' {k : Nat} {f : Fft F} (d : Domain S root gen k f) {v : List F} (hv : ∀ j, v.getD j 0 = 0) {j : Nat}
    (hj : j < 2 ^ k) : (interp f v).coeff j = 0 := by
  obtain ⟨k, rfl, ok, -⟩ := d.ok
  rw [interp, coeff_idft ok _ hj]
  simp only [hv, zero_mul, Finset.sum_const_zero]

variable [AddCommGroup G1] [Module F G1] [DecidableEq G1] [AddCommGroup G2] [Module F G2] [DecidableEq G2]
  [AddCommGroup GT] [Module F GT] [DecidableEq GT] {g1 : G1} {g2 : G2} {e : G1 →ₗ[F] G2 →ₗ[F] GT}

/-- **C43 is false for every number of constraints that is not a power of two.** Whatever the number `m + 2`, the circuit
`clash m` has that many constraints and is satisfied by the prover's assignment, yet for all but at most
`2^⌈log₂ (m + 2)⌉ + m + 2` values of `τ` the honest proof is rejected, whatever the rest of the toxic waste and the
coins. With `C43_completeness_partial` this settles for which numbers of constraints honest proofs are accepted. -/
theorem C43_completeness_all_refuted (env : Env S root gen) (h1 : g1 ≠ 0) (h2 : g2 ≠ 0) (he : e g1 g2 ≠ 0) (m : Nat)
    (hm : ∀ k, m + 2 ≠ 2 ^ k) :
    (clash m : CS F).m = m + 2 ∧ Wf (clash m : CS F) ∧ Satisfies (stored (clash m)) (clash m : CS F) ∧
    ∃ bad : Finset F, bad.card ≤ 2 ^ Nat.clog 2 (m + 2) + (m + 2) ∧ ∀ t : Trapdoor F, t.tau ∉ bad → ∀ p vk,
      setup S root gen g1 g2 e t (clash m) = some (.ok (p, vk)) → ∀ r s, ∃ π,
        createProof S root gen p r s (clash m) = some (.ok π) ∧ verify e vk π [] ≠ .ok () := by
  have hcm : (clash m : CS F).m = m + 2 := by simp [clash, consts, CS.m]
  refine ⟨hcm, consts_wf _, clash_sat m, ?_⟩
  cases hf : Fft.new S root gen (domainLog (m + 2)) with
  | none =>
    refine ⟨∅, by simp, fun t _ p vk hs => ?_⟩
    obtain ⟨f, d, -⟩ := honest_run env h1 h2 (⟨rfl, rfl, rfl⟩ : SameShape (clash m : CS F) (clash m)) (consts_wf _) hs
    have := d.new
    rw [hcm, hf] at this
    cases this
  | some f =>
    set n := 2 ^ domainLog (m + 2) with hn
    have hmn : m + 2 < n := lt_of_le_of_ne (m_le _) (hm _)
    set A := polyA f (clash m) with hA
    set B := polyB f (clash m) with hB
    set Cc := polyC f (clash m) with hC
    set Q := (A * B - Cc) /ₘ (X ^ n - 1) with hQ
    let D : F[X] := headPoly (m + 2) A * headPoly (m + 2) B - headPoly (m + 2) Cc - (X ^ n - 1) * headPoly (m + 1) Q
    have d := env.domain hf
    have hw := C40_domain d
    set w := omega S root (domainLog (m + 2)) with hwd
    have cA : ∀ j, j < n → A.coeff j = (n : F)⁻¹ := by
      intro j hj
      have := interp_delta d (i := 0) (by positivity) (v := ((1 : F), (0 : F), (0 : F)).1 :: 0 :: List.replicate m 0) (by
        intro j; rcases j with _ | _ | j <;> simp [List.getD, List.getElem?_replicate]; split <;> rfl) hj
      rw [hA, polyA, clash, consts_A]
      rw [mul_zero, pow_zero, one_mul, ← hn] at this
      simpa using this
    have cB : ∀ j, j < n → B.coeff j = w⁻¹ ^ j * (n : F)⁻¹ := by
      intro j hj
      have := interp_delta d (i := 1) (by omega) (v := (0 : F) :: 1 :: List.replicate m 0) (by
        intro j; rcases j with _ | _ | j <;> simp [List.getD, List.getElem?_replicate]; split <;> rfl) hj
      rw [hB, polyB, clash, consts_B]
      rw [mul_one, ← hn, ← hwd] at this
      simpa using this
    have cC : ∀ j, j < n → Cc.coeff j = 0 := by
      intro j hj
      have := interp_zero' d (v := (0 : F) :: 0 :: List.replicate m 0) (by
        intro j; rcases j with _ | _ | j <;> simp [List.getD, List.getElem?_replicate]; split <;> rfl) hj
      rw [hC, polyC, clash, consts_C]
      simpa using this
    have n0 : (n : F) ≠ 0 := by
      rw [hn]; push_cast; exact pow_ne_zero _ env.two
    have hcoeff : D.coeff (m + 1) = (n : F)⁻¹ * (n : F)⁻¹ * ∑ b ∈ Finset.range (m + 2), w⁻¹ ^ b := by
      have e1 : (headPoly (m + 2) A * headPoly (m + 2) B).coeff (m + 1) = (n : F)⁻¹ * (n : F)⁻¹ * ∑ b ∈ Finset.range (m + 2), w⁻¹ ^ b := by
        rw [mul_comm (headPoly _ A), coeff_mul, Finset.Nat.sum_antidiagonal_eq_sum_range_succ_mk, Finset.mul_sum]
        refine Finset.sum_congr rfl (fun b hb => ?_)
        have := Finset.mem_range.mp hb
        simp only [headPoly_coeff]
        rw [if_pos (by omega), if_pos (by omega), cA _ (by omega), cB _ (by omega)]
        ring
      have e2 : (headPoly (m + 2) Cc).coeff (m + 1) = 0 := by
        rw [headPoly_coeff, if_pos (by omega), cC _ (by omega)]
      have e3 : ((X ^ n - 1) * headPoly (m + 1) Q).coeff (m + 1) = 0 := by
        rw [sub_mul, one_mul, coeff_sub, coeff_X_pow_mul', if_neg (by omega), headPoly_coeff, if_neg (by omega), sub_zero]
      simp only [D, coeff_sub]
      rw [e1, e2, e3]; ring
    have hD : D ≠ 0 := by
      intro h
      rw [h, coeff_zero] at hcoeff
      exact mul_ne_zero (mul_ne_zero (inv_ne_zero n0) (inv_ne_zero n0)) (geom_ne hw (by omega) hmn) hcoeff.symm
    have hdeg : D.natDegree ≤ n + (m + 2) := by
      refine (natDegree_sub_le _ _).trans (max_le ((natDegree_sub_le _ _).trans (max_le ?_ ?_)) ?_)
      · have a1 := headPoly_natDegree (m + 2) A
        have a2 := headPoly_natDegree (m + 2) B
        have := natDegree_mul_le (p := headPoly (m + 2) A) (q := headPoly (m + 2) B)
        omega
      · have := headPoly_natDegree (m + 2) Cc
        omega
      · have a1 := headPoly_natDegree (m + 1) Q
        have a2 : (X ^ n - 1 : F[X]).natDegree ≤ n := by
          refine (natDegree_sub_le _ _).trans ?_
          simp
        have := natDegree_mul_le (p := (X ^ n - 1 : F[X])) (q := headPoly (m + 1) Q)
        omega
    refine ⟨D.roots.toFinset, (Multiset.toFinset_card_le _).trans ((card_roots' _).trans hdeg), ?_⟩
    intro t ht p vk hs r s
    obtain ⟨f', d', hz, -, q, u1, u2, u3⟩ := honest_run env h1 h2 (⟨rfl, rfl, rfl⟩ : SameShape (clash m : CS F) (clash m)) (consts_wf _) hs
    rw [hcm] at d' hz u1 u2
    have ff : f' = f := by
      have := d'.new
      rw [hf] at this
      exact (Option.some.inj this).symm
    subst ff
    have hq := quot_of_sat d' hz (clash_sat m) u1 u2
    obtain ⟨v1, v2⟩ := u3 r s
    refine ⟨_, v1, fun hv => ?_⟩
    have ht0 : (clash m : CS F).x.tail = [] := rfl
    rw [ht0] at v2
    rcases smul_eq_zero.mp (v2.mp hv) with h0 | h0
    · apply ht
      rw [Multiset.mem_toFinset, mem_roots hD, IsRoot.def]
      rw [hcm, hq] at h0
      simp only [D, eval_sub, eval_mul, eval_pow, eval_X, eval_one, headPoly_eval]
      exact h0
    · exact he h0

/-- Five constraints: keys exist for which every honest proof of the satisfied circuit is rejected. -/
example : ∃ (t : Trapdoor (ZMod 97)) (p : Params (ZMod 97) (ZMod 97)) (vk : PVKey (ZMod 97) (ZMod 97) (ZMod 97)),
    setup 5 (28 : ZMod 97) 5 1 1 (LinearMap.mul (ZMod 97) (ZMod 97)) t (clash 3) = some (.ok (p, vk)) ∧
    ∀ r s : ZMod 97, ∃ π, createProof 5 28 5 p r s (clash 3) = some (.ok π) ∧ verify (LinearMap.mul (ZMod 97) (ZMod 97)) vk π [] ≠ .ok () := by
  have five : ∀ k, 3 + 2 ≠ 2 ^ k := by
    intro k h
    rcases k with _ | _ | _ | k
    · omega
    · omega
    · omega
    · rw [pow_succ, pow_succ, pow_succ] at h; omega
  obtain ⟨hm, wf, -, bad, hb, H⟩ := C43_completeness_all_refuted (e := LinearMap.mul (ZMod 97) (ZMod 97)) demoEnv
    (one_ne_zero : (1 : ZMod 97) ≠ 0) (one_ne_zero : (1 : ZMod 97) ≠ 0) (by simp) 3 five
  obtain ⟨bad', hb', H'⟩ := C44_runs_partial (e := LinearMap.mul (ZMod 97) (ZMod 97)) demoEnv (one_ne_zero : (1 : ZMod 97) ≠ 0)
    (one_ne_zero : (1 : ZMod 97) ≠ 0) (clash 3) wf (by rw [hm]; omega) (by rw [hm]; omega)
  have hc : Nat.clog 2 (3 + 2) ≤ 3 := (Nat.clog_le_iff_le_pow (by norm_num)).mpr (by norm_num)
  have hc' : 2 ^ Nat.clog 2 (3 + 2) ≤ 2 ^ 3 := Nat.pow_le_pow_right (by norm_num) hc
  have hu := Finset.card_union_le bad bad'
  obtain ⟨tau, -, ht⟩ := Finset.exists_mem_notMem_of_card_lt_card (s := bad ∪ bad') (t := Finset.univ) (by
    rw [Finset.card_univ, ZMod.card]; omega)
  rw [Finset.mem_union, not_or] at ht
  obtain ⟨p, vk, hs, -⟩ := H' { alpha := 1, beta := 1, gamma := 1, delta := 1, tau := tau } ht.2 one_ne_zero one_ne_zero
  exact ⟨_, p, vk, hs, H _ ht.1 p vk hs⟩

end Kogarashi.Props
