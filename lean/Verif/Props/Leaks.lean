import Verif.Props.Completeness
import Verif.Props.FalseStatements
import Verif.Props.ZeroKnowledge
import Verif.Props.Affine

/-!
# Properties C46, C102 and C104 for other numbers of constraints

`Props/Groth16.lean` shows that with three constraints acceptance of an honest proof can reveal the witness.  Here this is shown for every
number of constraints that is not a power of two.
-/

namespace Kogarashi.Props

open Kogarashi Spec Groth16 Polynomial Field

variable {F G1 G2 GT : Type} [Field F] [DecidableEq F]

/-- One private wire `v` and the constraints `v·0 = 0`, `0·1 = 0`, and `m` times `0·0 = 0`. -/
def hidden (m : Nat) (v : F) : CS F :=
  { x := [1], w := [v], cons := Constraint.mk [(Wire.wit 0, 1)] [(Wire.ONE, 0)] [(Wire.ONE, 0)] ::
      Constraint.mk [(Wire.ONE, 0)] [(Wire.ONE, 1)] [(Wire.ONE, 0)] ::
      List.replicate m (Constraint.mk [(Wire.ONE, 0)] [(Wire.ONE, 0)] [(Wire.ONE, 0)]) }

omit [DecidableEq F] in
theorem hidden_one (m : Nat) (v u : F) : rowVal (stored (hidden m v)) [(Wire.ONE, u)] = u := by
  simp [rowVal, stored, CS.get, Row.readWire, Wire.ONE, hidden]

omit [DecidableEq F] in
theorem hidden_wit (m : Nat) (v : F) : rowVal (stored (hidden m v)) [(Wire.wit 0, 1)] = v := by
  simp [rowVal, stored, CS.get, Row.readWire, hidden]

omit [DecidableEq F] in
theorem hidden_A (m : Nat) (v : F) : (hidden m v).matA.map (rowVal (stored (hidden m v))) = v :: 0 :: List.replicate m 0 := by
  have : (hidden m v).matA = [(Wire.wit 0, 1)] :: [(Wire.ONE, 0)] :: List.replicate m [(Wire.ONE, 0)] := by simp [CS.matA, hidden]
  rw [this, List.map_cons, List.map_cons, List.map_replicate, hidden_one, hidden_wit]

omit [DecidableEq F] in
theorem hidden_B (m : Nat) (v : F) : (hidden m v).matB.map (rowVal (stored (hidden m v))) = 0 :: 1 :: List.replicate m 0 := by
  have : (hidden m v).matB = [(Wire.ONE, 0)] :: [(Wire.ONE, 1)] :: List.replicate m [(Wire.ONE, 0)] := by simp [CS.matB, hidden]
  rw [this, List.map_cons, List.map_cons, List.map_replicate, hidden_one, hidden_one]

omit [DecidableEq F] in
theorem hidden_C (m : Nat) (v : F) : (hidden m v).matC.map (rowVal (stored (hidden m v))) = 0 :: 0 :: List.replicate m 0 := by
  have : (hidden m v).matC = [(Wire.ONE, 0)] :: [(Wire.ONE, 0)] :: List.replicate m [(Wire.ONE, 0)] := by simp [CS.matC, hidden]
  rw [this, List.map_cons, List.map_cons, List.map_replicate, hidden_one]

omit [DecidableEq F] in
theorem hidden_wf (m : Nat) (v : F) : Wf (hidden m v) := by
  have row : ∀ w, Allocated (hidden m v) w → ∀ u, RowOk (hidden m v) [(w, u)] := fun w hw u => ⟨by simp [DistinctWires], by simpa using hw⟩
  have one : Allocated (hidden m v) Wire.ONE := by simp [Allocated, Wire.ONE, hidden]
  have wit : Allocated (hidden m v) (Wire.wit 0) := by simp [Allocated, hidden]
  refine ⟨rfl, fun k hk => ?_⟩
  simp only [hidden, List.mem_cons, List.mem_replicate] at hk
  rcases hk with rfl | rfl | ⟨-, rfl⟩
  · exact ⟨row _ wit _, row _ one _, row _ one _⟩
  · exact ⟨row _ one _, row _ one _, row _ one _⟩
  · exact ⟨row _ one _, row _ one _, row _ one _⟩

omit [DecidableEq F] in
theorem hidden_sat (m : Nat) (v : F) : Satisfies (stored (hidden m v)) (hidden m v) := by
  refine ⟨by simp [stored, CS.get, Row.readWire, Wire.ONE, hidden], fun k hk => ?_⟩
  simp only [hidden, List.mem_cons, List.mem_replicate] at hk
  have e : ({ x := [1], w := [v], cons := _ } : CS F) = hidden m v := rfl
  unfold Holds
  rcases hk with rfl | rfl | ⟨-, rfl⟩ <;> simp only [hidden_one, hidden_wit] <;> simp

variable {S : Nat} {root gen : F}
variable [AddCommGroup G1] [Module F G1] [DecidableEq G1] [AddCommGroup G2] [Module F G2] [DecidableEq G2]
  [AddCommGroup GT] [Module F GT] [DecidableEq GT] {g1 : G1} {g2 : G2} {e : G1 →ₗ[F] G2 →ₗ[F] GT}

/-- **C46 is false for every number of constraints that is not a power of two.** Whatever the number `m + 2`, every value of the private
wire satisfies the circuit `hidden m`, which has no public inputs; yet, for all but at most `2^⌈log₂ (m + 2)⌉ + m + 2` values of `τ`, whatever
the coins, the proof is accepted exactly when the private value is zero.  So proofs for 0 and for 1 never coincide. -/
theorem C46_witness_all_refuted (env : Env S root gen) (h1 : g1 ≠ 0) (h2 : g2 ≠ 0) (he : e g1 g2 ≠ 0) (m : Nat) (hm : ∀ k, m + 2 ≠ 2 ^ k) :
    (∀ v : F, (hidden m v).m = m + 2 ∧ Wf (hidden m v) ∧ Satisfies (stored (hidden m v)) (hidden m v) ∧
      SameShape (hidden m 0) (hidden m v) ∧ (hidden m v).x = (hidden m 0).x) ∧
    ∃ bad : Finset F, bad.card ≤ 2 ^ Nat.clog 2 (m + 2) + (m + 2) ∧ ∀ t : Trapdoor F, t.tau ∉ bad → ∀ p vk,
      setup S root gen g1 g2 e t (hidden m 0) = some (.ok (p, vk)) →
      (∀ v r s, ∃ π, createProof S root gen p r s (hidden m v) = some (.ok π) ∧ (verify e vk π [] = .ok () ↔ v = 0)) ∧
      ∀ r s r' s', createProof S root gen p r s (hidden m 0) ≠ createProof S root gen p r' s' (hidden m 1) := by
  have hcm : ∀ v : F, (hidden m v).m = m + 2 := by intro v; simp [hidden, CS.m]
  have sh : ∀ v : F, SameShape (hidden m 0) (hidden m v) := fun v => ⟨rfl, rfl, rfl⟩
  refine ⟨fun v => ⟨hcm v, hidden_wf m v, hidden_sat m v, sh v, rfl⟩, ?_⟩
  cases hf : Fft.new S root gen (domainLog (m + 2)) with
  | none =>
    refine ⟨∅, by simp, fun t _ p vk hs => ?_⟩
    obtain ⟨f, d, -⟩ := honest_run env h1 h2 (sh 0) (hidden_wf m 0) hs
    have := d.new
    rw [hcm, hf] at this
    cases this
  | some f =>
    set n := 2 ^ domainLog (m + 2) with hn
    have hmn : m + 2 < n := lt_of_le_of_ne (m_le _) (hm _)
    set A := interp f (1 :: 0 :: List.replicate m 0) with hA
    set B := interp f (0 :: 1 :: List.replicate m 0) with hB
    set Cc := interp f (0 :: 0 :: List.replicate m 0) with hC
    set Q := (A * B - Cc) /ₘ (X ^ n - 1) with hQ
    let D : F[X] := headPoly (m + 2) A * headPoly (m + 2) B - (X ^ n - 1) * headPoly (m + 1) Q
    have d := env.domain hf
    have hw := C40_domain d
    set w := omega S root (domainLog (m + 2)) with hwd
    have cA : ∀ v : F, ∀ j, j < n → (interp f (v :: 0 :: List.replicate m 0)).coeff j = v * (n : F)⁻¹ := by
      intro v j hj
      obtain ⟨k, hk, ok, -⟩ := d.ok
      rw [hn, hk] at hj ⊢
      rw [interp, coeff_idft ok _ hj, Finset.sum_eq_single 0]
      · simp
      · intro i _ hi
        rcases i with _ | _ | i
        · exact absurd rfl hi
        · simp
        · simp [List.getD, List.getElem?_replicate]; left; split <;> rfl
      · intro h; simp at h
    have cB : ∀ j, j < n → B.coeff j = w⁻¹ ^ j * (n : F)⁻¹ := by
      intro j hj
      have := interp_delta d (i := 1) (by omega) (v := (0 : F) :: 1 :: List.replicate m 0) (by
        intro j; rcases j with _ | _ | j <;> simp [List.getD, List.getElem?_replicate]; split <;> rfl) hj
      rw [mul_one, ← hn, ← hwd] at this
      exact this
    have C0 : Cc = 0 := by
      ext j
      by_cases hj : j < n
      · rw [hC, interp_zero' d (v := (0 : F) :: 0 :: List.replicate m 0) (by
          intro j; rcases j with _ | _ | j <;> simp [List.getD, List.getElem?_replicate]; split <;> rfl) hj, coeff_zero]
      · rw [coeff_zero]
        exact coeff_eq_zero_of_degree_lt ((interp_degree d _).trans_le (by exact_mod_cast not_lt.mp hj))
    have hAv : ∀ v : F, interp f (v :: 0 :: List.replicate m 0) = C v * A := by
      intro v
      ext j
      rw [coeff_C_mul]
      by_cases hj : j < n
      · rw [cA v j hj, hA, cA 1 j hj]; ring
      · have z : ∀ l : List F, (interp f l).coeff j = 0 := fun l =>
          coeff_eq_zero_of_degree_lt ((interp_degree d _).trans_le (by exact_mod_cast not_lt.mp hj))
        rw [z, hA, z, mul_zero]
    have n0 : (n : F) ≠ 0 := by
      rw [hn]; push_cast; exact pow_ne_zero _ env.two
    have hcoeff : D.coeff (m + 1) = (n : F)⁻¹ * (n : F)⁻¹ * ∑ b ∈ Finset.range (m + 2), w⁻¹ ^ b := by
      have e1 : (headPoly (m + 2) A * headPoly (m + 2) B).coeff (m + 1) = (n : F)⁻¹ * (n : F)⁻¹ * ∑ b ∈ Finset.range (m + 2), w⁻¹ ^ b := by
        rw [mul_comm (headPoly _ A), coeff_mul, Finset.Nat.sum_antidiagonal_eq_sum_range_succ_mk, Finset.mul_sum]
        refine Finset.sum_congr rfl (fun b hb => ?_)
        have := Finset.mem_range.mp hb
        simp only [headPoly_coeff]
        rw [if_pos (by omega), if_pos (by omega), hA, cA _ _ (by omega), cB _ (by omega)]
        ring
      have e3 : ((X ^ n - 1) * headPoly (m + 1) Q).coeff (m + 1) = 0 := by
        rw [sub_mul, one_mul, coeff_sub, coeff_X_pow_mul', if_neg (by omega), headPoly_coeff, if_neg (by omega), sub_zero]
      simp only [D, coeff_sub]
      rw [e1, e3, sub_zero]
    have hD : D ≠ 0 := by
      intro h
      rw [h, coeff_zero] at hcoeff
      exact mul_ne_zero (mul_ne_zero (inv_ne_zero n0) (inv_ne_zero n0)) (geom_ne hw (by omega) hmn) hcoeff.symm
    have hdeg : D.natDegree ≤ n + (m + 2) := by
      refine (natDegree_sub_le _ _).trans (max_le ?_ ?_)
      · have a1 := headPoly_natDegree (m + 2) A
        have a2 := headPoly_natDegree (m + 2) B
        have := natDegree_mul_le (p := headPoly (m + 2) A) (q := headPoly (m + 2) B)
        omega
      · have a1 := headPoly_natDegree (m + 1) Q
        have a2 : (X ^ n - 1 : F[X]).natDegree ≤ n := by
          refine (natDegree_sub_le _ _).trans ?_
          simp
        have := natDegree_mul_le (p := (X ^ n - 1 : F[X])) (q := headPoly (m + 1) Q)
        omega
    refine ⟨D.roots.toFinset, (Multiset.toFinset_card_le _).trans ((card_roots' _).trans hdeg), ?_⟩
    intro t ht p vk hs
    have van : A * B - Cc = (X ^ n - 1) * Q := by
      refine vanishing d (fun i hi => ?_)
      have := interp_vanishes d (hidden_sat m (1 : F)) i hi
      rw [hidden_A, hidden_B, hidden_C] at this
      exact this
    have hQd : Q.degree < (n : Nat) := by
      have := natDegree_quot d (new_some d.new).1 (1 :: 0 :: List.replicate m 0) (0 :: 1 :: List.replicate m 0) (0 :: 0 :: List.replicate m 0)
      exact this.trans_le (by exact_mod_cast Nat.sub_le _ _)
    have main : ∀ v r s, ∃ π, createProof S root gen p r s (hidden m v) = some (.ok π) ∧ (verify e vk π [] = .ok () ↔ v = 0) := by
      intro v r s
      obtain ⟨f', d', hz, -, q, u1, u2, u3⟩ := honest_run env h1 h2 (sh v) (hidden_wf m v) hs
      rw [hcm] at d' hz u1 u2
      have ff : f' = f := by
        have := d'.new
        rw [hf] at this
        exact (Option.some.inj this).symm
      subst ff
      have pA : polyA f' (hidden m v) = C v * A := by rw [polyA, hidden_A, hAv]
      have pB : polyB f' (hidden m v) = B := by rw [polyB, hidden_B]
      have pC : polyC f' (hidden m v) = 0 := by rw [polyC, hidden_C, ← hC, C0]
      have hg : gen ^ n - 1 ≠ 0 := sub_ne_zero.mpr hz
      have hq : polyOf q = C v * Q := by
        refine eq_of_evals hw d.genOk u1 ?_ (fun i hi => ?_)
        · rw [← smul_eq_C_mul]; exact (degree_smul_le v Q).trans_lt hQd
        · apply mul_right_cancel₀ hg
          have yn : (gen * w ^ i) ^ n = gen ^ n := by rw [mul_pow, ← pow_mul, mul_comm i, pow_mul, hw.pow_eq_one, one_pow, mul_one]
          rw [u2 i hi, pA, pB, pC]
          have ev := congrArg (eval (gen * w ^ i)) van
          rw [C0, sub_zero] at ev
          simp only [eval_mul, eval_sub, eval_pow, eval_X, eval_one, eval_C, eval_zero] at ev ⊢
          rw [yn] at ev
          rw [← hwd]
          linear_combination v * ev
      obtain ⟨v1, v2⟩ := u3 r s
      refine ⟨_, v1, ?_⟩
      have ht0 : (hidden m v).x.tail = [] := rfl
      rw [ht0, hcm, pA, pB, pC, hq] at v2
      rw [v2]
      have hv : ∀ (k : Nat) (P : F[X]), headEval k (C v * P) t.tau = v * headEval k P t.tau := by
        intro k P
        simp only [headEval, coeff_C_mul, Finset.mul_sum, mul_assoc]
      have h0 : headEval (m + 2) (0 : F[X]) t.tau = 0 := by simp [headEval]
      rw [hv, hv, h0]
      have hDe : D.eval t.tau = headEval (m + 2) A t.tau * headEval (m + 2) B t.tau - (t.tau ^ n - 1) * headEval (m + 1) Q t.tau := by
        simp only [D, eval_sub, eval_mul, eval_pow, eval_X, eval_one, headPoly_eval]
      have hne : D.eval t.tau ≠ 0 := by
        intro h; apply ht; rw [Multiset.mem_toFinset, mem_roots hD, IsRoot.def]; exact h
      have eq : v * headEval (m + 2) A t.tau * headEval (m + 2) B t.tau - 0 - (t.tau ^ 2 ^ domainLog (m + 2) - 1) * (v * headEval (m + 2 - 1) Q t.tau) =
          v * D.eval t.tau := by
        rw [hDe, ← hn, show m + 2 - 1 = m + 1 from rfl]; ring
      rw [eq, smul_eq_zero, or_iff_left he, mul_eq_zero, or_iff_left hne]
    refine ⟨main, fun r s r' s' h => ?_⟩
    obtain ⟨π, a1, a2⟩ := main 0 r s
    obtain ⟨π', b1, b2⟩ := main 1 r' s'
    rw [a1, b1] at h
    obtain rfl := Except.ok.inj (Option.some.inj h)
    exact one_ne_zero (b2.mp (a2.mpr rfl))

/-- **C104 is false for every number of constraints that is not a power of two**: no simulator, whatever it may depend on besides the
private value, has the distribution of the proofs of `hidden m` both for 0 and for 1, unless `τ` is one of a few values. -/
theorem C104_simulation_all_refuted (env : Env S root gen) (h1 : g1 ≠ 0) (h2 : g2 ≠ 0) (he : e g1 g2 ≠ 0) (m : Nat) (hm : ∀ k, m + 2 ≠ 2 ^ k) :
    (∀ v : F, (hidden m v).m = m + 2 ∧ Satisfies (stored (hidden m v)) (hidden m v) ∧ (hidden m v).x = (hidden m 0).x) ∧
    ∃ bad : Finset F, bad.card ≤ 2 ^ Nat.clog 2 (m + 2) + (m + 2) ∧ ∀ t : Trapdoor F, t.tau ∉ bad → ∀ p vk,
      setup S root gen g1 g2 e t (hidden m 0) = some (.ok (p, vk)) → ¬ ∃ sim : F × F → Groth16.Proof G1 G2, ∀ v : F,
        ∃ φ : F × F ≃ F × F, ∀ c, createProof S root gen p c.1 c.2 (hidden m v) = some (.ok (sim (φ c))) := by
  obtain ⟨h, bad, hb, H⟩ := C46_witness_all_refuted (e := e) env h1 h2 he m hm
  refine ⟨fun v => ⟨(h v).1, (h v).2.2.1, (h v).2.2.2.2⟩, bad, hb, fun t ht p vk hs => ?_⟩
  rintro ⟨sim, hsim⟩
  obtain ⟨φ, h0⟩ := hsim 0
  obtain ⟨ψ, h1⟩ := hsim 1
  refine (H t ht p vk hs).2 0 0 (ψ.symm (φ (0, 0))).1 (ψ.symm (φ (0, 0))).2 ?_
  rw [h0 (0, 0), h1 (ψ.symm (φ (0, 0))), Equiv.apply_symm_apply]

/-- **C102 is false for every number of constraints `2^k - 1`, `2 ≤ k ≤ S`**: no assignment satisfies any constraint of `falseCs`, yet
there is a prover of this kind (the code's own) accepted for every toxic waste for which `setup` returns. -/
theorem C102_knowledge_all_refuted (env : Env S root gen) (h1 : g1 ≠ 0) (h2 : g2 ≠ 0) {k : Nat} (hk : 2 ≤ k) (hkS : k ≤ S) :
    let cs := falseCs (omega S root k) (2 ^ k - 1)
    cs.m = 2 ^ k - 1 ∧ Wf cs ∧ (∀ z : Assignment F, z Wire.ONE = 1 → ∀ c ∈ cs.cons, ¬ Holds z c) ∧
    ∃ P : AffineProver F, ∀ (t : Trapdoor F) (p) (vk), setup S root gen g1 g2 e t cs = some (.ok (p, vk)) →
      verify e vk (P.prove g1 g2 p) [] = .ok () := by
  intro cs
  obtain ⟨hcm, wf, no, yes⟩ := C47_unsat_all_refuted (e := e) env h1 h2 hk hkS
  obtain ⟨P, -, hon⟩ := C102_honest (e := e) env h1 h2 (cs := cs) ⟨rfl, rfl, rfl⟩ wf 0 0
  refine ⟨hcm, wf, no, P, fun t p vk hs => ?_⟩
  obtain ⟨π, hc, hv⟩ := yes t p vk hs 0 0
  rw [hon t p vk hs] at hc
  rw [← Except.ok.inj (Option.some.inj hc)] at hv
  exact hv

/-- Five constraints: keys exist with which proofs for the private value zero are accepted and those for one rejected. -/
example : ∃ (t : Trapdoor (ZMod 97)) (p : Params (ZMod 97) (ZMod 97)) (vk : PVKey (ZMod 97) (ZMod 97) (ZMod 97)),
    setup 5 (28 : ZMod 97) 5 1 1 (LinearMap.mul (ZMod 97) (ZMod 97)) t (hidden 3 0) = some (.ok (p, vk)) ∧
    ∀ v r s : ZMod 97, ∃ π, createProof 5 28 5 p r s (hidden 3 v) = some (.ok π) ∧
      (verify (LinearMap.mul (ZMod 97) (ZMod 97)) vk π [] = .ok () ↔ v = 0) := by
  have five : ∀ k, 3 + 2 ≠ 2 ^ k := by
    intro k h
    rcases k with _ | _ | _ | k
    · omega
    · omega
    · omega
    · rw [pow_succ, pow_succ, pow_succ] at h; omega
  obtain ⟨fit, bad, hb, H⟩ := C46_witness_all_refuted (e := LinearMap.mul (ZMod 97) (ZMod 97)) demoEnv
    (one_ne_zero : (1 : ZMod 97) ≠ 0) (one_ne_zero : (1 : ZMod 97) ≠ 0) (by simp) 3 five
  have hm := (fit 0).1
  obtain ⟨bad', hb', H'⟩ := C44_runs_partial (e := LinearMap.mul (ZMod 97) (ZMod 97)) demoEnv (one_ne_zero : (1 : ZMod 97) ≠ 0)
    (one_ne_zero : (1 : ZMod 97) ≠ 0) (hidden 3 0) (fit 0).2.1 (by rw [hm]; omega) (by rw [hm]; omega)
  have hc : Nat.clog 2 (3 + 2) ≤ 3 := (Nat.clog_le_iff_le_pow (by norm_num)).mpr (by norm_num)
  have : ∃ tau, tau ∉ bad ∪ bad' := by
    by_contra h
    push Not at h
    have : Finset.univ ⊆ bad ∪ bad' := fun x _ => h x
    have := (Finset.card_le_card this).trans (Finset.card_union_le _ _)
    rw [Finset.card_univ, ZMod.card] at this
    have h8 : 2 ^ Nat.clog 2 (3 + 2) ≤ 2 ^ 3 := Nat.pow_le_pow_right (by norm_num) hc
    rw [hm] at hb'
    omega
  obtain ⟨tau, ht⟩ := this
  rw [Finset.mem_union, not_or] at ht
  obtain ⟨p, vk, hs, -⟩ := H' ⟨1, 1, 1, 1, tau⟩ ht.2 one_ne_zero one_ne_zero
  exact ⟨_, p, vk, hs, (H ⟨1, 1, 1, 1, tau⟩ ht.1 p vk hs).1⟩

end Kogarashi.Props
