import Verif.Groth16.ProtocolMain
import Verif.Props.Poly

/-!
# Properties C43 to C48: Groth16

`setup`, `createProof` and `verify` are the three entry points (`Groth16/Protocol.lean`) over abstract groups with a
bilinear map; the toxic waste `t` and the prover's coins `r s` are arguments, `none` is a panic.  `cs0` is the system
the setup circuit builds (its values are irrelevant), `cs` the one the prover's circuit builds: same shape.
`stored cs` is the prover's assignment, `cs.x.tail` the public inputs.
-/

namespace Kogarashi.Props

open Kogarashi Spec Groth16 Polynomial Field

variable {F G1 G2 GT : Type} [Field F] [DecidableEq F]

/-- What is assumed of the scalar field's constants; `C43_env_bn254` shows it of BN254. -/
structure Env (S : Nat) (root gen : F) : Prop where
  small : S < 64
  two : (2 : F) ≠ 0
  rootOk : root ^ 2 ^ (S - 1) = -1
  genOk : gen ≠ 0
  cosetOk : gen ^ 2 ^ S ≠ 1

/-- BN254's scalar field meets the assumption. -/
theorem C43_env_bn254 : Env frS (denote frParams frRootOfUnity) (7 : FrV) :=
  ⟨by decide, fr_two_ne_zero, frRoot_pow27, fr_seven_ne_zero, fr_gen_pow⟩

section Poly
variable {S : Nat} {root gen : F}

omit [DecidableEq F] in
theorem Env.coset (env : Env S root gen) {k : Nat} (hk : k ≤ S) : gen ^ 2 ^ k ≠ 1 := by
  intro h
  apply env.cosetOk
  rw [show S = k + (S - k) by omega, pow_add, pow_mul, h, one_pow]

theorem Env.domain (env : Env S root gen) {k : Nat} {f : Fft F} (hf : Fft.new S root gen k = some f) : Domain S root gen k f :=
  ⟨env.small, env.two, env.rootOk, env.genOk, hf⟩

theorem Env.coset' (env : Env S root gen) {k : Nat} {f : Fft F} (hf : Fft.new S root gen k = some f) : gen ^ 2 ^ k ≠ 1 :=
  env.coset (new_some hf).2

variable {k : Nat} {f : Fft F}

theorem z_eq (d : Domain S root gen k f) (x : F) : f.z x = x ^ 2 ^ k - 1 := by
  obtain ⟨j, rfl, ok, -⟩ := d.ok
  unfold Fft.z; rw [ok.n]

theorem pointsSub_getD (p q : List F) (hpq : p.length = q.length) (i : Nat) (h : i < p.length) :
    (pointsSub p q).getD i 0 = p.getD i 0 - q.getD i 0 := by
  unfold pointsSub zipLongRight
  rw [if_neg (by omega), zipLong_getD _ _ _ _ (by omega)]

theorem pointsSub_length (p q : List F) (hpq : p.length = q.length) : (pointsSub p q).length = p.length := by
  unfold pointsSub zipLongRight
  rw [if_neg (by omega), zipLong_length, hpq]

theorem pointsMul_length (p q : List F) (hpq : p.length = q.length) : (pointsMul p q).length = p.length := by
  unfold pointsMul
  rw [if_neg (by omega), zipLong_length, hpq]

/-- The interpolation polynomial of a value vector. -/
noncomputable def interp (f : Fft F) (v : List F) : F[X] := polyOf (idft f v)

/-- What the prover's quotient computation returns. -/
theorem quotient_spec (d : Domain S root gen k f) (hz : gen ^ 2 ^ k ≠ 1) (a b c : List F) :
    ∃ q, quotient f a b c = some q ∧ (polyOf q).degree < (2 ^ k : Nat) ∧ ∀ i, i < 2 ^ k →
      (polyOf q).eval (gen * omega S root k ^ i) * (gen ^ 2 ^ k - 1) =
        (interp f a * interp f b - interp f c).eval (gen * omega S root k ^ i) := by
  obtain ⟨j, rfl, ok, hg⟩ := d.ok
  have hz' : f.zOnCoset ≠ 0 := by
    unfold Fft.zOnCoset; rw [ok.n, hg]; exact sub_ne_zero.mpr hz
  have hze : f.zOnCoset = gen ^ 2 ^ (j + 1) - 1 := by unfold Fft.zOnCoset; rw [ok.n, hg]
  have key : ∀ v : List F, cosetDft f (idft f v) = (List.range (2 ^ (j + 1))).map
      (fun i => (interp f v).eval (gen * omega S root (j + 1) ^ i)) := fun v =>
    C40_coset_dft_partial d _ (idft_length ok v)
  refine ⟨_, by simp only [quotient, divideByZOnCoset, invertUnwrap, if_neg hz']; rfl, ?_, ?_⟩
  · have := (C40_coset_idft d ((pointsSub (pointsMul (cosetDft f (idft f a)) (cosetDft f (idft f b))) (cosetDft f (idft f c))).map
      (fun a => a * f.zOnCoset⁻¹))).1
    exact_mod_cast this
  · intro i hi
    have := (C40_coset_idft d ((pointsSub (pointsMul (cosetDft f (idft f a)) (cosetDft f (idft f b))) (cosetDft f (idft f c))).map
      (fun a => a * f.zOnCoset⁻¹))).2 i hi
    rw [this]
    have l1 : (pointsMul (cosetDft f (idft f a)) (cosetDft f (idft f b))).length = 2 ^ (j + 1) := by
      rw [pointsMul_length _ _ (by simp [key]), key]; simp
    have l2 : (pointsSub (pointsMul (cosetDft f (idft f a)) (cosetDft f (idft f b))) (cosetDft f (idft f c))).length = 2 ^ (j + 1) := by
      rw [pointsSub_length _ _ (by rw [l1, key]; simp), l1]
    rw [List.getD_eq_getElem _ _ (by simpa [l2] using hi), List.getElem_map, ← List.getD_eq_getElem _ 0,
      pointsSub_getD _ _ (by rw [l1, key]; simp) _ (by omega), pointsMul_getD _ _ (by simp [key]) _ (by rw [key]; simpa using hi),
      key, key, key, getD_map_range hi, getD_map_range hi, getD_map_range hi, ← hze]
    simp only [eval_sub, eval_mul]
    field_simp

/-- The first `m` terms of a polynomial, evaluated. -/
noncomputable def headEval (m : Nat) (p : F[X]) (x : F) : F := ∑ i ∈ Finset.range m, p.coeff i * x ^ i

omit [DecidableEq F] in
theorem headEval_eq {m : Nat} {p : F[X]} (h : p.degree < m) (x : F) : headEval m p x = p.eval x := by
  unfold headEval
  by_cases hp : p = 0
  · simp [hp]
  · rw [eval_eq_sum_range' ((natDegree_lt_iff_degree_lt hp).mpr h)]

theorem rd_eq (d : Domain S root gen k f) {m : Nat} (hm : m ≤ 2 ^ k) (M : List (Row F)) (hM : M.length = m) (tau : F) (x w : List F) :
    rd (lag f tau m) M x w = headEval m (interp f (M.map (rowVal (readD x w)))) tau := by
  obtain ⟨j, rfl, ok, hg⟩ := d.ok
  unfold rd headEval interp
  rw [rowsDot_sum _ _ _ _ (2 ^ (j + 1)) (by omega), ← lagrange_dot ok tau hm]
  simp [lag]

theorem qEval_eq (m : Nat) (q : List F) (tau : F) : qEval m q tau = headEval (m - 1) (polyOf q) tau := by
  unfold qEval headEval
  simp only [coeff_polyOf]

theorem interp_degree (d : Domain S root gen k f) (v : List F) : (interp f v).degree < (2 ^ k : Nat) := by
  have := (C40_idft_interpolates d v).1
  exact_mod_cast this

/-- A polynomial vanishing at every `2^k`-th root of unity is a multiple of `X^(2^k) - 1`. -/
theorem vanishing (d : Domain S root gen k f) {p : F[X]} (h : ∀ i, i < 2 ^ k → p.eval (omega S root k ^ i) = 0) :
    p = (X ^ 2 ^ k - 1) * (p /ₘ (X ^ 2 ^ k - 1)) := by
  have hmon : (X ^ 2 ^ k - 1 : F[X]).Monic := by
    rw [← C_1]; exact monic_X_pow_sub_C _ (by positivity)
  have hdeg : (X ^ 2 ^ k - 1 : F[X]).degree = (2 ^ k : Nat) := by
    rw [← C_1]; exact degree_X_pow_sub_C (by positivity) _
  have e := modByMonic_add_div p (X ^ 2 ^ k - 1 : F[X])
  have h0 : p %ₘ (X ^ 2 ^ k - 1 : F[X]) = 0 := by
    refine eq_of_evals (C40_domain d) one_ne_zero (by rw [← hdeg]; exact degree_modByMonic_lt _ hmon)
      (by rw [degree_zero]; exact WithBot.bot_lt_coe _) (fun i hi => ?_)
    have := h i hi
    rw [← e] at this
    simp only [eval_add, eval_mul, eval_sub, eval_pow, eval_X, eval_one] at this
    rw [← pow_mul, mul_comm i, pow_mul, (C40_domain d).pow_eq_one, one_pow, sub_self, zero_mul, add_zero] at this
    rw [one_mul, this, eval_zero]
  rw [h0, zero_add] at e
  exact e.symm

omit [DecidableEq F] in
theorem natDegree_lt_iff' {p : F[X]} {n : Nat} (hn : 0 < n) : p.natDegree < n ↔ p.degree < (n : WithBot Nat) := by
  by_cases hp : p = 0
  · simp [hp, hn]
  · exact natDegree_lt_iff_degree_lt hp

theorem natDegree_quot (d : Domain S root gen k f) (hk : 1 ≤ k) (a b c : List F) :
    ((interp f a * interp f b - interp f c) /ₘ (X ^ 2 ^ k - 1)).degree < ((2 ^ k - 1 : Nat) : WithBot Nat) := by
  have n2 : 2 ≤ 2 ^ k := by
    calc 2 = 2 ^ 1 := rfl
      _ ≤ 2 ^ k := Nat.pow_le_pow_right (by norm_num) hk
  have hmon : (X ^ 2 ^ k - 1 : F[X]).Monic := by
    rw [← C_1]; exact monic_X_pow_sub_C _ (by positivity)
  have hdeg : (X ^ 2 ^ k - 1 : F[X]).natDegree = 2 ^ k := by
    rw [← C_1]; exact natDegree_X_pow_sub_C
  have nd : ∀ v, (interp f v).natDegree ≤ 2 ^ k - 1 := fun v =>
    Nat.le_sub_one_of_lt ((natDegree_lt_iff' (by positivity)).mpr (interp_degree d v))
  have h1 : (interp f a * interp f b - interp f c).natDegree ≤ 2 * (2 ^ k - 1) := by
    refine (natDegree_sub_le _ _).trans (max_le ?_ ?_)
    · refine natDegree_mul_le.trans ?_
      have := nd a; have := nd b; omega
    · have := nd c; omega
  rw [← natDegree_lt_iff' (by omega), natDegree_divByMonic _ hmon, hdeg]
  omega

/-- The values of the rows of the three matrices under the stored assignment multiply. -/
theorem interp_vanishes (d : Domain S root gen k f) {cs : CS F} (hsat : Satisfies (stored cs) cs) (i : Nat) (hi : i < 2 ^ k) :
    (interp f (cs.matA.map (rowVal (stored cs))) * interp f (cs.matB.map (rowVal (stored cs))) -
      interp f (cs.matC.map (rowVal (stored cs)))).eval (omega S root k ^ i) = 0 := by
  simp only [eval_sub, eval_mul, interp, (C40_idft_interpolates d _).2 i hi, CS.matA, CS.matB, CS.matC, List.map_map]
  by_cases h : i < cs.cons.length
  · simp only [List.getD_eq_getElem _ _ (by simpa using h : i < (cs.cons.map _).length), List.getElem_map, Function.comp]
    exact sub_eq_zero.mpr (hsat.2 _ (List.getElem_mem h))
  · rw [List.getD_eq_default _ _ (by simpa using h), List.getD_eq_default _ _ (by simpa using h),
      List.getD_eq_default _ _ (by simpa using h)]
    ring

end Poly

section Protocol
variable [AddCommGroup G1] [Module F G1] [AddCommGroup G2] [Module F G2] [AddCommGroup GT] [Module F GT]
variable [DecidableEq G1] [DecidableEq G2] [DecidableEq GT]
variable {S : Nat} {root gen : F} {g1 : G1} {g2 : G2} {e : G1 →ₗ[F] G2 →ₗ[F] GT} {t : Trapdoor F}

/-- Values of the rows of the `A`, `B`, `C` matrices under the prover's assignment, as polynomials. -/
noncomputable def polyA (f : Fft F) (cs : CS F) : F[X] := interp f (cs.matA.map (rowVal (stored cs)))
noncomputable def polyB (f : Fft F) (cs : CS F) : F[X] := interp f (cs.matB.map (rowVal (stored cs)))
noncomputable def polyC (f : Fft F) (cs : CS F) : F[X] := interp f (cs.matC.map (rowVal (stored cs)))

theorem m_le (m : Nat) : m ≤ 2 ^ domainLog m := Nat.le_pow_clog (by norm_num) m

theorem SameShape.m {cs0 cs : CS F} (sh : SameShape cs0 cs) : cs0.m = cs.m := by unfold CS.m; rw [sh.cons]

/-- The honest run: with keys `setup` returned, `createProof` returns a proof, the one with the scalars of
`proofScalars`, and the verifier accepts it exactly when the displayed scalar annihilates the target generator. -/
theorem honest_run (env : Env S root gen) (h1 : g1 ≠ 0) (h2 : g2 ≠ 0) {cs0 cs : CS F} (sh : SameShape cs0 cs) (wf : Wf cs)
    {p : Params G1 G2} {vk : PVKey G1 G2 GT} (hs : setup S root gen g1 g2 e t cs0 = some (.ok (p, vk))) :
    ∃ f, Domain S root gen (domainLog cs.m) f ∧ gen ^ 2 ^ domainLog cs.m ≠ 1 ∧ KeyOk g1 g2 e t f cs0 p vk ∧
    ∃ q, (polyOf q).degree < (2 ^ domainLog cs.m : Nat) ∧
      (∀ i, i < 2 ^ domainLog cs.m → (polyOf q).eval (gen * omega S root (domainLog cs.m) ^ i) * (gen ^ 2 ^ domainLog cs.m - 1) =
        (polyA f cs * polyB f cs - polyC f cs).eval (gen * omega S root (domainLog cs.m) ^ i)) ∧
      ∀ r s, createProof S root gen p r s cs = some (.ok (Groth16.Proof.mk ((proofScalars f t r s cs q).a • g1)
          ((proofScalars f t r s cs q).b • g2) ((proofScalars f t r s cs q).c • g1))) ∧
        (verify e vk (Groth16.Proof.mk ((proofScalars f t r s cs q).a • g1)
          ((proofScalars f t r s cs q).b • g2) ((proofScalars f t r s cs q).c • g1)) cs.x.tail = .ok () ↔
          (headEval cs.m (polyA f cs) t.tau * headEval cs.m (polyB f cs) t.tau - headEval cs.m (polyC f cs) t.tau -
            (t.tau ^ 2 ^ domainLog cs.m - 1) * headEval (cs.m - 1) (polyOf q) t.tau) • e g1 g2 = 0) := by
  obtain ⟨f, hf, key⟩ := setup_keys hs
  rw [SameShape.m sh] at hf
  have d := env.domain hf
  have hz := env.coset' hf
  obtain ⟨q, q1, q2, q3⟩ := quotient_spec d hz (cs.matA.map (rowVal (stored cs))) (cs.matB.map (rowVal (stored cs)))
    (cs.matC.map (rowVal (stored cs)))
  refine ⟨f, d, hz, key, q, q2, q3, fun r s => ⟨createProof_eq sh wf hf key h1 h2 r s q1, ?_⟩⟩
  rw [accept_iff sh wf key r s q, z_eq d, qEval_eq, rd_eq d (m_le _) _ (by simp [CS.matA, CS.m]), rd_eq d (m_le _) _ (by simp [CS.matB, CS.m]),
    rd_eq d (m_le _) _ (by simp [CS.matC, CS.m]), ← stored_eq_readD]
  rfl

/-- With a power of two constraints and a satisfying assignment the scalar vanishes. -/
theorem satisfied_zero {k : Nat} {f : Fft F} (d : Domain S root gen k f) (hz : gen ^ 2 ^ k ≠ 1) {cs : CS F} (hm : cs.m = 2 ^ k)
    (hsat : Satisfies (stored cs) cs) {q : List F} (hq : (polyOf q).degree < (2 ^ k : Nat))
    (hv : ∀ i, i < 2 ^ k → (polyOf q).eval (gen * omega S root k ^ i) * (gen ^ 2 ^ k - 1) =
        (polyA f cs * polyB f cs - polyC f cs).eval (gen * omega S root k ^ i)) (tau : F) :
    headEval cs.m (polyA f cs) tau * headEval cs.m (polyB f cs) tau - headEval cs.m (polyC f cs) tau -
      (tau ^ 2 ^ k - 1) * headEval (cs.m - 1) (polyOf q) tau = 0 := by
  have hk := (new_some d.new).1
  have van := vanishing d (interp_vanishes d hsat)
  have hdeg := natDegree_quot d hk (cs.matA.map (rowVal (stored cs))) (cs.matB.map (rowVal (stored cs))) (cs.matC.map (rowVal (stored cs)))
  set Q := (interp f (cs.matA.map (rowVal (stored cs))) * interp f (cs.matB.map (rowVal (stored cs))) -
    interp f (cs.matC.map (rowVal (stored cs)))) /ₘ (X ^ 2 ^ k - 1) with hQ
  have hlt : Q.degree < (2 ^ k : Nat) := hdeg.trans_le (by exact_mod_cast Nat.sub_le _ _)
  have hqQ : polyOf q = Q := by
    refine eq_of_evals (C40_domain d) d.genOk hq hlt (fun i hi => ?_)
    have := hv i hi
    unfold polyA polyB polyC at this
    rw [van] at this
    simp only [eval_mul, eval_sub, eval_pow, eval_X, eval_one] at this
    rw [mul_pow, ← pow_mul (omega S root k), mul_comm i, pow_mul (omega S root k), (C40_domain d).pow_eq_one, one_pow, mul_one] at this
    have hne : gen ^ 2 ^ k - 1 ≠ 0 := sub_ne_zero.mpr hz
    exact mul_right_cancel₀ hne (by rw [this, mul_comm])
  unfold polyA polyB polyC
  rw [hqQ, hm, headEval_eq (interp_degree d _), headEval_eq (interp_degree d _), headEval_eq (interp_degree d _),
    headEval_eq hdeg]
  have := congrArg (eval tau) van
  simp only [eval_mul, eval_sub, eval_pow, eval_X, eval_one] at this
  rw [this, sub_self]

theorem domainLog_pow (k : Nat) : domainLog (2 ^ k) = k := by unfold domainLog; exact Nat.clog_pow 2 k (by norm_num)

/-- **C43**, for circuits with a power of two constraints: whatever the toxic waste and the prover's coins, if `setup`
returned keys and the prover's assignment satisfies the circuit, then `createProof` returns a proof and it verifies.
Missing: other numbers of constraints, where it is false (`C43_completeness_refuted`). -/
theorem C43_completeness_partial (env : Env S root gen) (h1 : g1 ≠ 0) (h2 : g2 ≠ 0) {cs0 cs : CS F} (sh : SameShape cs0 cs)
    (wf : Wf cs) (k : Nat) (hm : cs.m = 2 ^ k) (hsat : Satisfies (stored cs) cs) {p : Params G1 G2} {vk : PVKey G1 G2 GT}
    (hs : setup S root gen g1 g2 e t cs0 = some (.ok (p, vk))) (r s : F) :
    ∃ π, createProof S root gen p r s cs = some (.ok π) ∧ verify e vk π cs.x.tail = .ok () := by
  obtain ⟨f, d, hz, -, q, q1, q2, q3⟩ := honest_run env h1 h2 sh wf hs
  obtain ⟨a, b⟩ := q3 r s
  refine ⟨_, a, b.mpr ?_⟩
  have hk : domainLog cs.m = k := by rw [hm, domainLog_pow]
  rw [hk] at d hz q1 q2 ⊢
  rw [satisfied_zero d hz hm hsat q1 q2, zero_smul]

/-! ### C44: no panic -/

/-- **C44 is false of circuits with at most one constraint**: `setup` panics for every choice of the toxic waste. -/
theorem C44_small_refuted (cs : CS F) (hm : cs.m ≤ 1) : setup S root gen g1 g2 e t cs = none := by
  have : Fft.new S root gen (domainLog cs.m) = none := by
    cases h : Fft.new S root gen (domainLog cs.m) with
    | none => rfl
    | some f =>
      have := (new_some h).1
      have h0 : domainLog cs.m = 0 := Nat.clog_of_right_le_one hm 2
      omega
  unfold setup
  rw [this]
  rfl

/-- The value whose vanishing makes `setup` index out of range, as a polynomial in `τ`. -/
noncomputable def lastLag (f : Fft F) (w : F) (m n : Nat) : F[X] := ∑ i ∈ Finset.range m, C (w⁻¹ ^ ((m - 1) * i) * (n : F)⁻¹) * X ^ i

/-- **C44**, for circuits with at least two constraints (and at most as many as the field has room for): for all but
at most `m - 1` values of `τ`, and every non-zero `γ`, `δ`, `setup` returns keys and `createProof` a proof.
Missing: the circuits of `C44_small_refuted` and the exceptional `τ`, for which the trimmed table of Lagrange
coefficients may be indexed out of range. -/
theorem C44_runs_partial (env : Env S root gen) (h1 : g1 ≠ 0) (h2 : g2 ≠ 0) (cs0 : CS F) (wf0 : Wf cs0) (hm : 2 ≤ cs0.m) (hS : cs0.m ≤ 2 ^ S) :
    ∃ bad : Finset F, bad.card ≤ cs0.m - 1 ∧ ∀ t : Trapdoor F, t.tau ∉ bad → t.gamma ≠ 0 → t.delta ≠ 0 →
      ∃ p vk, setup S root gen g1 g2 e t cs0 = some (.ok (p, vk)) ∧
        ∀ cs, SameShape cs0 cs → Wf cs → ∀ r s, ∃ π, createProof S root gen p r s cs = some (.ok π) := by
  have hk1 : 1 ≤ domainLog cs0.m := Nat.clog_pos (by norm_num) hm
  have hkS : domainLog cs0.m ≤ S := (Nat.clog_le_iff_le_pow (by norm_num)).mpr hS
  obtain ⟨f, hf⟩ := (C40_new S root gen env.small env.two env.rootOk env.genOk _).mpr ⟨hk1, hkS⟩
  have d := env.domain hf
  obtain ⟨j, hj, ok, -⟩ := d.ok
  have hml := m_le cs0.m
  set w := omega S root (domainLog cs0.m)
  have hn : ((2 ^ (j + 1) : Nat) : F) ≠ 0 := by push_cast; exact pow_ne_zero _ env.two
  have hP : lastLag f w cs0.m (2 ^ (j + 1)) ≠ 0 := by
    intro h
    have := congrArg (fun p => coeff p 0) h
    simp only [lastLag, finset_sum_coeff, coeff_C_mul, coeff_X_pow, coeff_zero] at this
    rw [Finset.sum_eq_single 0] at this
    · simp [env.two] at this
    · intro b _ hb; simp [hb.symm]
    · intro h0; simp at h0; omega
  have hdeg : (lastLag f w cs0.m (2 ^ (j + 1))).natDegree ≤ cs0.m - 1 := by
    unfold lastLag
    refine natDegree_sum_le_of_forall_le _ _ (fun i hi => ?_)
    refine (natDegree_C_mul_X_pow_le _ _).trans ?_
    have := Finset.mem_range.mp hi; omega
  refine ⟨(lastLag f w cs0.m (2 ^ (j + 1))).roots.toFinset, ?_, ?_⟩
  · exact (Multiset.toFinset_card_le _).trans ((card_roots' _).trans hdeg)
  · intro t ht hg hd
    have hne : (lastLag f w cs0.m (2 ^ (j + 1))).eval t.tau ≠ 0 := by
      intro h0; apply ht; simp [hP, h0, IsRoot]
    have hlen : cs0.m ≤ (idft f (powersFrom t.tau cs0.m 1)).length := by
      by_contra hlt
      apply hne
      have c0 : (polyOf (idft f (powersFrom t.tau cs0.m 1))).coeff (cs0.m - 1) = 0 := by
        rw [coeff_polyOf]; exact List.getD_eq_default _ _ (by omega)
      rw [hj] at hml
      rw [coeff_idft ok _ (by omega), ← Finset.sum_subset (Finset.range_subset_range.mpr hml)] at c0
      · rw [← c0, Finset.sum_mul]
        simp only [lastLag, eval_finset_sum, eval_mul, eval_C, eval_pow, eval_X]
        apply Finset.sum_congr rfl
        intro i hi
        rw [powersFrom_eq, getD_map_range (Finset.mem_range.mp hi)]; ring
      · intro i _ hi
        rw [List.getD_eq_default (powersFrom t.tau cs0.m 1) _ (by rw [powersFrom_length]; simpa using hi)]; ring
    obtain ⟨p, vk, hs⟩ := setup_run (S := S) (root := root) (gen := gen) (g1 := g1) (g2 := g2) (e := e) wf0.rows hf hg hd hlen
    refine ⟨p, vk, hs, fun cs sh wf r s => ?_⟩
    obtain ⟨_, -, -, -, _, -, -, q3⟩ := honest_run (cs := cs) env h1 h2 sh wf hs
    exact ⟨_, (q3 r s).1⟩

/-- The satisfied circuit `1·1 = 1`, twice. -/
def ones2 : CS F :=
  { x := [1], w := [], cons := [Constraint.mk [(Wire.ONE, 1)] [(Wire.ONE, 1)] [(Wire.ONE, 1)],
      Constraint.mk [(Wire.ONE, 1)] [(Wire.ONE, 1)] [(Wire.ONE, 1)]] }

/-- **C44 is false of `τ = 1`**, one of the exceptional values: on the circuit that says `1·1 = 1` twice `setup` indexes
the trimmed table of Lagrange coefficients out of range and panics, whatever the rest of the toxic waste. -/
theorem C44_tau_refuted (env : Env S root gen) (ht : t.tau = 1) (hg : t.gamma ≠ 0) (hd : t.delta ≠ 0) :
    setup S root gen g1 g2 e t (ones2 : CS F) = none := by
  have hm : domainLog (ones2 : CS F).m = 1 := by
    exact domainLog_pow 1
  unfold setup
  rw [hm]
  cases hf : Fft.new S root gen 1 with
  | none => rfl
  | some f =>
    have d := env.domain hf
    have h1 : dft f [1] = [(1 : F), 1] := by
      rw [C40_dft_partial d [1] (by norm_num)]
      simp [polyOf, List.range_succ]
    have h2 : idft f [(1 : F), 1] = [1] := by
      obtain ⟨j, hj, ok, -⟩ := d.ok
      rw [← h1, idft_dft ok (Nat.one_le_two_pow)]
      simp [formatDegree]
    rw [Option.bind_eq_bind, Option.bind_some, if_neg hg, if_neg hd]
    have hp : powersFrom t.tau (ones2 : CS F).m 1 = [1, 1] := by
      rw [ht]; show powersFrom (1 : F) 2 1 = [1, 1]; simp [powersFrom]
    dsimp only
    rw [hp, h2]
    have hx : Matrix.xAndW (ones2 : CS F).matA (ones2 : CS F).l (ones2 : CS F).w.length = some ([[(1, 0), (1, 1)]], []) := rfl
    have hx' : Matrix.xAndW (ones2 : CS F).matB (ones2 : CS F).l (ones2 : CS F).w.length = some ([[(1, 0), (1, 1)]], []) := rfl
    have hx'' : Matrix.xAndW (ones2 : CS F).matC (ones2 : CS F).l (ones2 : CS F).w.length = some ([[(1, 0), (1, 1)]], []) := rfl
    rw [hx, hx', hx'']
    rfl

/-! ### C45: the verifier's decision -/

/-- The combination of the key's input points. -/
def publicPoint (ic : List G1) (inputs : List F) : G1 := ic.headD 0 + (List.zipWith (fun (x : F) (P : G1) => x • P) inputs ic.tail).sum

theorem icAcc_public (ic : List G1) (inputs : List F) : icAcc ic inputs = publicPoint ic inputs := by
  have key : ∀ (xs : List F) (ps : List G1) (acc : G1), (xs.zip ps).foldl (fun acc e => acc + e.1 • e.2) acc =
      acc + (List.zipWith (fun (x : F) (P : G1) => x • P) xs ps).sum := by
    intro xs
    induction xs with
    | nil => intro ps acc; simp
    | cons x xs ih =>
      intro ps acc
      cases ps with
      | nil => simp
      | cons q ps => simp only [List.zip_cons_cons, List.foldl_cons, List.zipWith_cons_cons, List.sum_cons, ih]; abel
  unfold icAcc publicPoint
  rw [key, List.drop_one]

/-- **C45**. For every key, proof and input vector: a length error exactly when the number of inputs is not the key's;
otherwise acceptance exactly when the pairing equation holds, and the verification error when it does not. -/
theorem C45_verify (vk : VKey G1 G2) (π : Groth16.Proof G1 G2) (inputs : List F) :
    ((∃ a b, verify e (vk.prepare e) π inputs = .error (.inconsistentPublicInputsLen a b)) ↔ inputs.length + 1 ≠ vk.ic.length) ∧
    (verify e (vk.prepare e) π inputs = .ok () ↔ inputs.length + 1 = vk.ic.length ∧
      e π.a π.b = e vk.alphaG1 vk.betaG2 + e (publicPoint vk.ic inputs) vk.gammaG2 + e π.c vk.deltaG2) ∧
    (verify e (vk.prepare e) π inputs = .error .proofVerificationError ↔ inputs.length + 1 = vk.ic.length ∧
      e π.a π.b ≠ e vk.alphaG1 vk.betaG2 + e (publicPoint vk.ic inputs) vk.gammaG2 + e π.c vk.deltaG2) := by
  have eq : (e π.a π.b + e (publicPoint vk.ic inputs) (-vk.gammaG2) + e π.c (-vk.deltaG2) = e vk.alphaG1 vk.betaG2) ↔
      e π.a π.b = e vk.alphaG1 vk.betaG2 + e (publicPoint vk.ic inputs) vk.gammaG2 + e π.c vk.deltaG2 := by
    simp only [map_neg]
    constructor
    · intro h; rw [← h]; abel
    · intro h; rw [h]; abel
  simp only [verify, VKey.prepare, icAcc_public]
  by_cases hl : inputs.length + 1 = vk.ic.length
  · rw [if_neg (by simpa using hl)]
    by_cases hp : e π.a π.b + e (publicPoint vk.ic inputs) (-vk.gammaG2) + e π.c (-vk.deltaG2) = e vk.alphaG1 vk.betaG2
    · rw [if_neg (not_not.mpr hp)]; simp [hl, eq.mp hp]
    · have hp' := fun h => hp (eq.mpr h)
      rw [if_pos hp]; simp [hl]; exact hp'
  · rw [if_pos hl]; simp [hl]

/-! ### C46: witness indistinguishability -/

omit [DecidableEq G1] [DecidableEq G2] [DecidableEq GT] in
theorem scalar_c (f : Fft F) (t : Trapdoor F) (hd : t.delta ≠ 0) (r s : F) (cs : CS F) (q : List F) : (proofScalars f t r s cs q).c * t.delta =
    (proofScalars f t r s cs q).a * (proofScalars f t r s cs q).b - t.alpha * t.beta -
    (rd (lag f t.tau cs.m) cs.matA cs.x [] * t.beta + rd (lag f t.tau cs.m) cs.matB cs.x [] * t.alpha +
      rd (lag f t.tau cs.m) cs.matC cs.x []) -
    (rd (lag f t.tau cs.m) cs.matA cs.x cs.w * rd (lag f t.tau cs.m) cs.matB cs.x cs.w - rd (lag f t.tau cs.m) cs.matC cs.x cs.w
      - f.z t.tau * qEval cs.m q t.tau) := by
  simp only [proofScalars]
  rw [rd_split _ cs.matA cs.x cs.w, rd_split _ cs.matB cs.x cs.w, rd_split _ cs.matC cs.x cs.w]
  field_simp
  ring

/-- **C46**, for circuits with a power of two constraints: two satisfying assignments with the same public inputs give
the same proofs, up to a bijection of the prover's coins.  Missing: other numbers of constraints, where it is false
(`C46_witness_indistinguishable_refuted`). -/
theorem C46_witness_indistinguishable_partial (env : Env S root gen) (h1 : g1 ≠ 0) (h2 : g2 ≠ 0) {cs0 cs cs' : CS F} (sh : SameShape cs0 cs)
    (sh' : SameShape cs0 cs') (wf : Wf cs) (wf' : Wf cs') (k : Nat) (hm : cs0.m = 2 ^ k) (hx : cs.x = cs'.x)
    (hsat : Satisfies (stored cs) cs) (hsat' : Satisfies (stored cs') cs') {p : Params G1 G2} {vk : PVKey G1 G2 GT}
    (hs : setup S root gen g1 g2 e t cs0 = some (.ok (p, vk))) :
    ∃ φ : F × F ≃ F × F, ∀ c, createProof S root gen p c.1 c.2 cs = createProof S root gen p (φ c).1 (φ c).2 cs' := by
  obtain ⟨f, d, hz, key, q, q1, q2, q3⟩ := honest_run env h1 h2 sh wf hs
  obtain ⟨f', d', hz', key', q', q1', q2', q3'⟩ := honest_run env h1 h2 sh' wf' hs
  have m1 := SameShape.m sh
  have m2 := SameShape.m sh'
  have hm1 : cs.m = 2 ^ k := by omega
  have hm2 : cs'.m = 2 ^ k := by omega
  have k1 : domainLog cs.m = k := by rw [hm1, domainLog_pow]
  have k2 : domainLog cs'.m = k := by rw [hm2, domainLog_pow]
  rw [k1] at d hz q1 q2
  rw [k2] at d' hz' q1' q2'
  have ff : f = f' := by have := d.new; rw [d'.new] at this; exact (Option.some.inj this).symm
  subst ff
  have z1 := satisfied_zero d hz hm1 hsat q1 q2 t.tau
  have z2 := satisfied_zero d hz hm2 hsat' q1' q2' t.tau
  have eA : cs.matA = cs'.matA := by unfold CS.matA; rw [← sh.cons, ← sh'.cons]
  have eB : cs.matB = cs'.matB := by unfold CS.matB; rw [← sh.cons, ← sh'.cons]
  have eC : cs.matC = cs'.matC := by unfold CS.matC; rw [← sh.cons, ← sh'.cons]
  have back : ∀ c : CS F, c.m = 2 ^ k → ∀ q : List F,
      rd (lag f t.tau c.m) c.matA c.x c.w * rd (lag f t.tau c.m) c.matB c.x c.w - rd (lag f t.tau c.m) c.matC c.x c.w
      - f.z t.tau * qEval c.m q t.tau = headEval c.m (polyA f c) t.tau * headEval c.m (polyB f c) t.tau - headEval c.m (polyC f c) t.tau -
      (t.tau ^ 2 ^ k - 1) * headEval (c.m - 1) (polyOf q) t.tau := by
    intro c hc q
    rw [z_eq d, qEval_eq, rd_eq d hc.le _ (by simp [CS.matA, CS.m]), rd_eq d hc.le _ (by simp [CS.matB, CS.m]),
      rd_eq d hc.le _ (by simp [CS.matC, CS.m]), ← stored_eq_readD]
    rfl
  have hd := key.delta
  set U := rd (lag f t.tau cs.m) cs.matA cs.x cs.w
  set V := rd (lag f t.tau cs.m) cs.matB cs.x cs.w
  set U' := rd (lag f t.tau cs'.m) cs'.matA cs'.x cs'.w
  set V' := rd (lag f t.tau cs'.m) cs'.matB cs'.x cs'.w
  refine ⟨{ toFun := fun c => (c.1 + (U - U') * t.delta⁻¹, c.2 + (V - V') * t.delta⁻¹)
            invFun := fun c => (c.1 - (U - U') * t.delta⁻¹, c.2 - (V - V') * t.delta⁻¹)
            left_inv := fun c => by simp
            right_inv := fun c => by simp }, fun c => ?_⟩
  obtain ⟨r, s⟩ := c
  simp only [Equiv.coe_fn_mk]
  rw [(q3 r s).1, (q3' _ _).1]
  have ha : (proofScalars f t r s cs q).a = (proofScalars f t (r + (U - U') * t.delta⁻¹) (s + (V - V') * t.delta⁻¹) cs' q').a := by
    simp only [proofScalars]; field_simp; ring
  have hb : (proofScalars f t r s cs q).b = (proofScalars f t (r + (U - U') * t.delta⁻¹) (s + (V - V') * t.delta⁻¹) cs' q').b := by
    simp only [proofScalars]; field_simp; ring
  have hc : (proofScalars f t r s cs q).c = (proofScalars f t (r + (U - U') * t.delta⁻¹) (s + (V - V') * t.delta⁻¹) cs' q').c := by
    apply mul_right_cancel₀ hd
    rw [scalar_c f t hd, scalar_c f t hd, back cs hm1, back cs' hm2, z1, z2, ha, hb, eA, eB, eC, hx, hm1, hm2]
  rw [ha, hb, hc]

/-! ### C47: honestly computed proofs of false statements -/

/-- **C47**, for circuits with a power of two constraints: if the assignment violates a constraint, then for all but at
most `2n - 2` values of `τ`, whatever the rest of the toxic waste and the coins, the proof `createProof` returns is
rejected.  Missing: other numbers of constraints, for which it is false (`C47_unsat_refuted`). -/
theorem C47_unsat_partial (env : Env S root gen) (h1 : g1 ≠ 0) (h2 : g2 ≠ 0) (he : e g1 g2 ≠ 0) {cs0 cs : CS F} (sh : SameShape cs0 cs)
    (wf : Wf cs) (k : Nat) (hm : cs.m = 2 ^ k) {c : Constraint F} (hc : c ∈ cs.cons) (hviol : ¬ Holds (stored cs) c) :
    ∃ bad : Finset F, bad.card ≤ 2 * 2 ^ k - 2 ∧ ∀ t : Trapdoor F, t.tau ∉ bad → ∀ p vk,
      setup S root gen g1 g2 e t cs0 = some (.ok (p, vk)) → ∀ r s π, createProof S root gen p r s cs = some (.ok π) →
      verify e vk π cs.x.tail ≠ .ok () := by
  have hk : domainLog cs.m = k := by rw [hm, domainLog_pow]
  cases hf : Fft.new S root gen (domainLog cs.m) with
  | none =>
    refine ⟨∅, by simp, fun t _ p vk hs => ?_⟩
    obtain ⟨f, hf', -⟩ := setup_keys hs
    rw [SameShape.m sh, hf] at hf'; cases hf'
  | some f =>
    rw [hk] at hf
    have d := env.domain hf
    have hz := env.coset' hf
    obtain ⟨q, q1, q2, q3⟩ := quotient_spec d hz (cs.matA.map (rowVal (stored cs))) (cs.matB.map (rowVal (stored cs)))
      (cs.matC.map (rowVal (stored cs)))
    obtain ⟨i, hi, hci⟩ := List.mem_iff_getElem.mp hc
    have hi' : i < 2 ^ k := by rw [← hm]; exact hi
    let Qt : F[X] := ∑ i ∈ Finset.range (2 ^ k - 1), C ((polyOf q).coeff i) * X ^ i
    let D : F[X] := polyA f cs * polyB f cs - polyC f cs - (X ^ 2 ^ k - 1) * Qt
    have hne : D ≠ 0 := by
      intro h
      apply hviol
      have := congrArg (eval (omega S root k ^ i)) h
      simp only [D, eval_sub, eval_mul, eval_pow, eval_X, eval_one, eval_zero] at this
      rw [← pow_mul, mul_comm i, pow_mul, (C40_domain d).pow_eq_one, one_pow, sub_self, zero_mul, sub_zero] at this
      simp only [polyA, polyB, polyC, interp, (C40_idft_interpolates d _).2 i hi', CS.matA, CS.matB, CS.matC, List.map_map] at this
      simp only [List.getD_eq_getElem _ _ (by simpa using hi : i < (cs.cons.map _).length), List.getElem_map, Function.comp, hci] at this
      exact sub_eq_zero.mp this
    have n1 : 1 ≤ 2 ^ k := Nat.one_le_two_pow
    have n2 : 2 ≤ 2 ^ k := by
      calc 2 = 2 ^ 1 := rfl
        _ ≤ 2 ^ k := Nat.pow_le_pow_right (by norm_num) (new_some hf).1
    have nd : ∀ v, (interp f v).natDegree ≤ 2 ^ k - 1 := fun v =>
      Nat.le_sub_one_of_lt ((natDegree_lt_iff' (by positivity)).mpr (interp_degree d v))
    have hQt : Qt.natDegree ≤ 2 ^ k - 2 := by
      refine natDegree_sum_le_of_forall_le _ _ (fun i hi => (natDegree_C_mul_X_pow_le _ _).trans ?_)
      have := Finset.mem_range.mp hi; omega
    have hdeg : D.natDegree ≤ 2 * 2 ^ k - 2 := by
      refine (natDegree_sub_le _ _).trans (max_le ((natDegree_sub_le _ _).trans (max_le ?_ ?_)) ?_)
      · refine natDegree_mul_le.trans ?_
        have := nd (cs.matA.map (rowVal (stored cs))); have := nd (cs.matB.map (rowVal (stored cs)))
        unfold polyA polyB; omega
      · have := nd (cs.matC.map (rowVal (stored cs))); unfold polyC; omega
      · refine natDegree_mul_le.trans ?_
        have : (X ^ 2 ^ k - 1 : F[X]).natDegree = 2 ^ k := by rw [← C_1]; exact natDegree_X_pow_sub_C
        omega
    refine ⟨D.roots.toFinset, (Multiset.toFinset_card_le _).trans ((card_roots' _).trans hdeg), ?_⟩
    intro t ht p vk hs r s π hπ hacc
    obtain ⟨f', d', -, -, q', r1, r2, r3⟩ := honest_run env h1 h2 sh wf hs
    rw [hk] at d' r1 r2
    have ff : f = f' := by have := d.new; rw [d'.new] at this; exact (Option.some.inj this).symm
    subst ff
    obtain ⟨a, b⟩ := r3 r s
    rw [a, Option.some.injEq, Except.ok.injEq] at hπ
    rw [← hπ, b] at hacc
    have hqq : polyOf q' = polyOf q := by
      refine eq_of_evals (C40_domain d) d.genOk r1 q2 (fun i hi => ?_)
      have h3 := r2 i hi; have h4 := q3 i hi
      exact mul_right_cancel₀ (sub_ne_zero.mpr hz) (h3.trans h4.symm)
    rcases smul_eq_zero.mp hacc with h0 | h0
    · apply ht
      simp only [Multiset.mem_toFinset, mem_roots hne, IsRoot]
      unfold polyA polyB polyC at h0
      rw [hqq, hk, hm, headEval_eq (interp_degree d _), headEval_eq (interp_degree d _), headEval_eq (interp_degree d _)] at h0
      simp only [D, Qt, eval_sub, eval_mul, eval_pow, eval_X, eval_one, eval_finset_sum, eval_C]
      exact h0
    · exact he h0

/-! ### Circuits with three constraints -/

/-- Three constraints between constants: `a₀·b₀ = c₀`, `a₁·b₁ = c₁`, `a₂·b₂ = c₂`. -/
def consts3 (a b c : Fin 3 → F) : CS F :=
  { x := [1], w := [], cons := [Constraint.mk [(Wire.ONE, a 0)] [(Wire.ONE, b 0)] [(Wire.ONE, c 0)],
      Constraint.mk [(Wire.ONE, a 1)] [(Wire.ONE, b 1)] [(Wire.ONE, c 1)],
      Constraint.mk [(Wire.ONE, a 2)] [(Wire.ONE, b 2)] [(Wire.ONE, c 2)]] }

omit [DecidableEq F] in
theorem consts3_wf (a b c : Fin 3 → F) : Wf (consts3 a b c) := by
  have row : ∀ v : F, RowOk (consts3 a b c) [(Wire.ONE, v)] := fun v =>
    ⟨by simp [DistinctWires], by simp [Allocated, Wire.ONE, consts3]⟩
  refine ⟨rfl, fun k hk => ?_⟩
  simp only [consts3, List.mem_cons, List.not_mem_nil, or_false] at hk
  rcases hk with rfl | rfl | rfl <;> exact ⟨row _, row _, row _⟩

theorem domainLog_three : domainLog 3 = 2 := by
  unfold domainLog
  apply le_antisymm
  · exact (Nat.clog_le_iff_le_pow (by norm_num)).mpr (by norm_num)
  · by_contra h
    have : Nat.clog 2 3 ≤ 1 := by omega
    have := (Nat.clog_le_iff_le_pow (by norm_num)).mp this
    omega

omit [DecidableEq F] in
theorem omega_sq (env : Env S root gen) (hS : 2 ≤ S) : omega S root 2 ^ 2 = -1 := by
  unfold omega
  rw [← pow_mul, ← pow_succ, show S - 2 + 1 = S - 1 by omega, env.rootOk]

theorem interp3 {f : Fft F} (d : Domain S root gen 2 f) {i : F} (hi : omega S root 2 = i) (h2 : i ^ 2 = -1) {v0 v1 v2 p0 p1 p2 p3 : F}
    (e0 : p0 + p1 + p2 + p3 = v0) (e1 : p0 + p1 * i - p2 - p3 * i = v1) (e2 : p0 - p1 + p2 - p3 = v2)
    (e3 : p0 - p1 * i - p2 + p3 * i = 0) : interp f [v0, v1, v2] = polyOf [p0, p1, p2, p3] := by
  refine eq_of_evals (C40_domain d) one_ne_zero (interp_degree d _) (degree_polyOf_lt _) (fun j hj => ?_)
  have := (C40_idft_interpolates d [v0, v1, v2]).2 j hj
  rw [one_mul, interp, this, hi]
  have i3 : i ^ 3 = -i := by rw [pow_succ, h2]; ring
  interval_cases j
  · simp [polyOf]; linear_combination -e0
  · simp [polyOf]; linear_combination -e1 - (p2 + p3 * i) * h2
  · simp [polyOf, h2]; linear_combination -e2
  · simp [polyOf, i3]; linear_combination -e3 - (p2 - p3 * i) * h2

omit [DecidableEq F] in
theorem stored_consts3 (a b c : Fin 3 → F) (v : F) : rowVal (stored (consts3 a b c)) [(Wire.ONE, v)] = v := by
  simp [rowVal, stored, CS.get, Row.readWire, Wire.ONE, consts3]

/-- The verifier's test on a three-constraint circuit, from the coefficients of the interpolation polynomials. -/
theorem accept3' (env : Env S root gen) (h1 : g1 ≠ 0) (h2 : g2 ≠ 0) {cs0 cs : CS F} (sh : SameShape cs0 cs) (wf : Wf cs)
    (hm : cs.m = 3) (ht : cs.x.tail = []) {la lb lc : List F} (la' : cs.matA.map (rowVal (stored cs)) = la)
    (lb' : cs.matB.map (rowVal (stored cs)) = lb) (lc' : cs.matC.map (rowVal (stored cs)) = lc)
    {p0 p1 p2 p3 r0 r1 r2 r3 s0 s1 s2 s3 q0 q1 q2 q3 : F}
    (hA : ∀ f, Domain S root gen 2 f → interp f la = polyOf [p0, p1, p2, p3])
    (hB : ∀ f, Domain S root gen 2 f → interp f lb = polyOf [r0, r1, r2, r3])
    (hC : ∀ f, Domain S root gen 2 f → interp f lc = polyOf [s0, s1, s2, s3])
    (hq : ∀ y, y ^ 4 = gen ^ 4 → (polyOf [q0, q1, q2, q3]).eval y * (gen ^ 4 - 1) =
      (polyOf [p0, p1, p2, p3] * polyOf [r0, r1, r2, r3] - polyOf [s0, s1, s2, s3]).eval y)
    {p : Params G1 G2} {vk : PVKey G1 G2 GT} (hs : setup S root gen g1 g2 e t cs0 = some (.ok (p, vk))) (r s : F) :
    ∃ π, createProof S root gen p r s cs = some (.ok π) ∧ (verify e vk π [] = .ok () ↔
      ((p0 + p1 * t.tau + p2 * t.tau ^ 2) * (r0 + r1 * t.tau + r2 * t.tau ^ 2) - (s0 + s1 * t.tau + s2 * t.tau ^ 2) -
        (t.tau ^ 4 - 1) * (q0 + q1 * t.tau)) • e g1 g2 = 0) := by
  obtain ⟨f, d, hz, -, q, u1, u2, u3⟩ := honest_run env h1 h2 sh wf hs
  rw [hm, domainLog_three] at d hz u1 u2
  obtain ⟨v1, v2⟩ := u3 r s
  refine ⟨_, v1, ?_⟩
  have eA : polyA f cs = polyOf [p0, p1, p2, p3] := by rw [← hA f d, ← la']; rfl
  have eB : polyB f cs = polyOf [r0, r1, r2, r3] := by rw [← hB f d, ← lb']; rfl
  have eC : polyC f cs = polyOf [s0, s1, s2, s3] := by rw [← hC f d, ← lc']; rfl
  have eQ : polyOf q = polyOf [q0, q1, q2, q3] := by
    refine eq_of_evals (C40_domain d) d.genOk u1 (degree_polyOf_lt _) (fun j hj => ?_)
    apply mul_right_cancel₀ (sub_ne_zero.mpr hz)
    rw [u2 j hj, eA, eB, eC]
    refine (hq _ ?_).symm
    have := (C40_domain d).pow_eq_one
    norm_num at this
    rw [mul_pow, ← pow_mul, mul_comm j, pow_mul, this, one_pow, mul_one]
  rw [ht] at v2
  rw [v2, eA, eB, eC, eQ, hm, domainLog_three]
  simp only [headEval, coeff_polyOf, Finset.sum_range_succ, Finset.sum_range_zero]
  norm_num

/-- The same, for constraints between constants. -/
theorem accept3 (env : Env S root gen) (h1 : g1 ≠ 0) (h2 : g2 ≠ 0) (a b c : Fin 3 → F)
    {p0 p1 p2 p3 r0 r1 r2 r3 s0 s1 s2 s3 q0 q1 q2 q3 : F}
    (hA : ∀ f, Domain S root gen 2 f → interp f [a 0, a 1, a 2] = polyOf [p0, p1, p2, p3])
    (hB : ∀ f, Domain S root gen 2 f → interp f [b 0, b 1, b 2] = polyOf [r0, r1, r2, r3])
    (hC : ∀ f, Domain S root gen 2 f → interp f [c 0, c 1, c 2] = polyOf [s0, s1, s2, s3])
    (hq : ∀ y, y ^ 4 = gen ^ 4 → (polyOf [q0, q1, q2, q3]).eval y * (gen ^ 4 - 1) =
      (polyOf [p0, p1, p2, p3] * polyOf [r0, r1, r2, r3] - polyOf [s0, s1, s2, s3]).eval y)
    {p : Params G1 G2} {vk : PVKey G1 G2 GT} (hs : setup S root gen g1 g2 e t (consts3 a b c) = some (.ok (p, vk))) (r s : F) :
    ∃ π, createProof S root gen p r s (consts3 a b c) = some (.ok π) ∧ (verify e vk π [] = .ok () ↔
      ((p0 + p1 * t.tau + p2 * t.tau ^ 2) * (r0 + r1 * t.tau + r2 * t.tau ^ 2) - (s0 + s1 * t.tau + s2 * t.tau ^ 2) -
        (t.tau ^ 4 - 1) * (q0 + q1 * t.tau)) • e g1 g2 = 0) := by
  refine accept3' env h1 h2 (⟨rfl, rfl, rfl⟩ : SameShape (consts3 a b c) (consts3 a b c)) (consts3_wf a b c) rfl rfl ?_ ?_ ?_
    hA hB hC hq hs r s
  · change [rowVal (stored _) [(Wire.ONE, a 0)], rowVal (stored _) [(Wire.ONE, a 1)], rowVal (stored _) [(Wire.ONE, a 2)]] = _; simp only [stored_consts3]
  · change [rowVal (stored _) [(Wire.ONE, b 0)], rowVal (stored _) [(Wire.ONE, b 1)], rowVal (stored _) [(Wire.ONE, b 2)]] = _; simp only [stored_consts3]
  · change [rowVal (stored _) [(Wire.ONE, c 0)], rowVal (stored _) [(Wire.ONE, c 1)], rowVal (stored _) [(Wire.ONE, c 2)]] = _; simp only [stored_consts3]

/-- The satisfied circuit `1·1 = 1`, three times. -/
def ones3 : CS F := consts3 (fun _ => 1) (fun _ => 1) (fun _ => 1)

/-- **C43 is false of circuits whose number of constraints is not a power of two.** The circuit that says `1·1 = 1`
three times is satisfied by the prover's assignment, yet for all but at most five values of `τ` the proof is rejected,
whatever the rest of the toxic waste and the coins. -/
theorem C43_completeness_refuted (env : Env S root gen) (hS : 2 ≤ S) (h1 : g1 ≠ 0) (h2 : g2 ≠ 0) (he : e g1 g2 ≠ 0) :
    Wf (ones3 : CS F) ∧ Satisfies (stored ones3) (ones3 : CS F) ∧
    ∃ bad : Finset F, bad.card ≤ 5 ∧ ∀ t : Trapdoor F, t.tau ∉ bad → ∀ p vk,
      setup S root gen g1 g2 e t ones3 = some (.ok (p, vk)) → ∀ r s, ∃ π, createProof S root gen p r s ones3 = some (.ok π) ∧
      verify e vk π [] ≠ .ok () := by
  refine ⟨consts3_wf _ _ _, ⟨by simp [stored, CS.get, Row.readWire, Wire.ONE, ones3, consts3], ?_⟩, ?_⟩
  · intro k hk
    simp only [ones3, consts3, List.mem_cons, List.not_mem_nil, or_false] at hk
    have := stored_consts3 (fun _ => (1 : F)) (fun _ => 1) (fun _ => 1) 1
    rcases hk with rfl | rfl | rfl <;> (unfold Holds; simp only [ones3]; rw [this]; ring)
  · obtain ⟨i, hi⟩ : ∃ i, omega S root 2 = i := ⟨_, rfl⟩
    have i2 : i ^ 2 = -1 := by rw [← hi]; exact omega_sq env hS
    have t2 := env.two
    have t4 : (4 : F) ≠ 0 := by rw [show (4 : F) = 2 * 2 by norm_num]; exact mul_ne_zero t2 t2
    have t16 : (16 : F) ≠ 0 := by rw [show (16 : F) = 4 * 4 by norm_num]; exact mul_ne_zero t4 t4
    have inti : ∀ f, Domain S root gen 2 f → interp f [(1 : F), 1, 1] = polyOf [3 / 4, -i / 4, 1 / 4, i / 4] := by
      intro f d
      refine interp3 d hi i2 ?_ ?_ ?_ ?_
      · field_simp; ring
      · field_simp; linear_combination (-2 : F) * i2
      · field_simp; ring
      · field_simp; linear_combination (2 : F) * i2
    let D : F[X] := polyOf [0, 0, 1, -2 * i, -2, -2 * i]
    have hD : D ≠ 0 := by
      intro h
      have := congrArg (fun p => coeff p 2) h
      simp [D, coeff_polyOf] at this
    have hdeg : D.natDegree ≤ 5 := by
      have := degree_polyOf_lt [0, 0, 1, -2 * i, -2, -2 * i]
      have := (natDegree_lt_iff' (by norm_num)).mpr this
      exact Nat.le_of_lt_succ this
    refine ⟨D.roots.toFinset, (Multiset.toFinset_card_le _).trans ((card_roots' _).trans hdeg), ?_⟩
    intro t ht p vk hs r s
    obtain ⟨π, c1, c2⟩ := accept3 env h1 h2 (fun _ => 1) (fun _ => 1) (fun _ => 1) inti inti inti
      (q0 := 3 / 16) (q1 := 2 * i / 16) (q2 := -1 / 16) (q3 := 0) (by
        intro y hy
        rw [← hy]
        simp [polyOf]
        field_simp
        have i3 : i ^ 3 = -i := by rw [pow_succ, i2]; ring
        have i4 : i ^ 4 = 1 := by rw [show i ^ 4 = (i ^ 2) ^ 2 by ring, i2]; ring
        ring_nf
        simp only [i2, i3, i4]
        ring) hs r s
    refine ⟨π, c1, fun hv => ?_⟩
    rcases smul_eq_zero.mp (c2.mp hv) with h0 | h0
    · apply ht
      rw [Multiset.mem_toFinset, mem_roots hD, IsRoot.def]
      simp only [D, polyOf, eval_add, eval_mul, eval_C, eval_X, eval_zero]
      field_simp at h0
      have i3 : i ^ 3 = -i := by rw [pow_succ, i2]; ring
      ring_nf at h0 ⊢
      simp only [i2, i3] at h0
      apply mul_left_cancel₀ t16
      linear_combination h0
    · exact he h0

/-- One private wire `w`, and three times the constraint `w·1 = w`. -/
def free3 (w : F) : CS F :=
  { x := [1], w := [w], cons := List.replicate 3 (Constraint.mk [(Wire.wit 0, 1)] [(Wire.ONE, 1)] [(Wire.wit 0, 1)]) }

/-- **C46 is false of circuits whose number of constraints is not a power of two.** Every value of the private wire satisfies
`free3`, which has no public inputs; yet, for all but at most five values of `τ`, whatever the coins, the proof is accepted
exactly when the private value is zero.  So proofs for 0 and for 1 never coincide. -/
theorem C46_witness_indistinguishable_refuted (env : Env S root gen) (hS : 2 ≤ S) (h1 : g1 ≠ 0) (h2 : g2 ≠ 0) (he : e g1 g2 ≠ 0) :
    (∀ w : F, Wf (free3 w) ∧ Satisfies (stored (free3 w)) (free3 w) ∧ SameShape (free3 0) (free3 w) ∧ (free3 w).x = (free3 0).x) ∧
    ∃ bad : Finset F, bad.card ≤ 5 ∧ ∀ t : Trapdoor F, t.tau ∉ bad → ∀ p vk,
      setup S root gen g1 g2 e t (free3 0) = some (.ok (p, vk)) →
      (∀ w r s, ∃ π, createProof S root gen p r s (free3 w) = some (.ok π) ∧ (verify e vk π [] = .ok () ↔ w = 0)) ∧
      ∀ r s r' s', createProof S root gen p r s (free3 0) ≠ createProof S root gen p r' s' (free3 1) := by
  have fit : ∀ w : F, Wf (free3 w) ∧ Satisfies (stored (free3 w)) (free3 w) ∧ SameShape (free3 0) (free3 w) ∧ (free3 w).x = (free3 0).x := by
    intro w
    refine ⟨⟨rfl, fun k hk => ?_⟩, ⟨by simp [stored, CS.get, Row.readWire, Wire.ONE, free3], fun k hk => ?_⟩, ⟨rfl, rfl, rfl⟩, rfl⟩
    · obtain rfl := List.eq_of_mem_replicate hk
      refine ⟨⟨?_, ?_⟩, ⟨?_, ?_⟩, ⟨?_, ?_⟩⟩ <;> simp [DistinctWires, Allocated, Wire.ONE, free3]
    · obtain rfl := List.eq_of_mem_replicate hk
      unfold Holds
      simp [rowVal, stored, CS.get, Row.readWire, Wire.ONE, free3]
  refine ⟨fit, ?_⟩
  obtain ⟨i, hi⟩ : ∃ i, omega S root 2 = i := ⟨_, rfl⟩
  have i2 : i ^ 2 = -1 := by rw [← hi]; exact omega_sq env hS
  have t2 := env.two
  have t4 : (4 : F) ≠ 0 := by rw [show (4 : F) = 2 * 2 by norm_num]; exact mul_ne_zero t2 t2
  have t16 : (16 : F) ≠ 0 := by rw [show (16 : F) = 4 * 4 by norm_num]; exact mul_ne_zero t4 t4
  have i3 : i ^ 3 = -i := by rw [pow_succ, i2]; ring
  have i4 : i ^ 4 = 1 := by rw [show i ^ 4 = (i ^ 2) ^ 2 by ring, i2]; ring
  have inti : ∀ w : F, ∀ f, Domain S root gen 2 f → interp f [w, w, w] = polyOf [w * 3 / 4, -i * w / 4, w / 4, i * w / 4] := by
    intro w f d
    refine interp3 d hi i2 ?_ ?_ ?_ ?_
    · field_simp; ring
    · field_simp; linear_combination (-2 * w : F) * i2
    · field_simp; ring
    · field_simp; linear_combination (2 * w : F) * i2
  let D : F[X] := polyOf [0, 0, 1, -2 * i, -2, -2 * i]
  have hD : D ≠ 0 := by
    intro h
    have := congrArg (fun p => coeff p 2) h
    simp [D, coeff_polyOf] at this
  have hdeg : D.natDegree ≤ 5 := by
    have := degree_polyOf_lt [0, 0, 1, -2 * i, -2, -2 * i]
    have := (natDegree_lt_iff' (by norm_num)).mpr this
    exact Nat.le_of_lt_succ this
  refine ⟨D.roots.toFinset, (Multiset.toFinset_card_le _).trans ((card_roots' _).trans hdeg), ?_⟩
  intro t ht p vk hs
  have main : ∀ w r s, ∃ π, createProof S root gen p r s (free3 w) = some (.ok π) ∧ (verify e vk π [] = .ok () ↔ w = 0) := by
    intro w r s
    have rowA : ∀ w : F, (free3 w).matA.map (rowVal (stored (free3 w))) = [w, w, w] := by
      intro w; simp [free3, CS.matA, rowVal, stored, CS.get, Row.readWire, Wire.ONE, List.replicate]
    have rowB : ∀ w : F, (free3 w).matB.map (rowVal (stored (free3 w))) = [1, 1, 1] := by
      intro w; simp [free3, CS.matB, rowVal, stored, CS.get, Row.readWire, Wire.ONE, List.replicate]
    have rowC : ∀ w : F, (free3 w).matC.map (rowVal (stored (free3 w))) = [w, w, w] := by
      intro w; simp [free3, CS.matC, rowVal, stored, CS.get, Row.readWire, Wire.ONE, List.replicate]
    obtain ⟨π, c1, c2⟩ := accept3' env h1 h2 (fit w).2.2.1 (fit w).1 rfl rfl (rowA w) (rowB w) (rowC w) (inti w) (inti 1) (inti w)
      (q0 := w * 3 / 16) (q1 := w * (2 * i) / 16) (q2 := -w / 16) (q3 := 0) (by
        intro y hy
        rw [← hy]
        simp [polyOf]
        field_simp
        ring_nf
        simp only [i2, i3, i4]
        ring) hs r s
    refine ⟨π, c1, c2.trans ⟨fun h => ?_, ?_⟩⟩
    · rcases smul_eq_zero.mp h with h0 | h0
      · by_contra hw
        apply ht
        rw [Multiset.mem_toFinset, mem_roots hD, IsRoot.def]
        simp only [D, polyOf, eval_add, eval_mul, eval_C, eval_X, eval_zero]
        field_simp at h0
        ring_nf at h0 ⊢
        simp only [i2, i3] at h0
        apply mul_left_cancel₀ t16
        apply mul_left_cancel₀ hw
        linear_combination h0
      · exact (he h0).elim
    · rintro rfl
      simp
  refine ⟨main, fun r s r' s' h => ?_⟩
  obtain ⟨π, a1, a2⟩ := main 0 r s
  obtain ⟨π', b1, b2⟩ := main 1 r' s'
  rw [a1, b1] at h
  obtain rfl := Except.ok.inj (Option.some.inj h)
  exact one_ne_zero (b2.mp (a2.mpr rfl))

/-- Three constraints between constants, the second of which says `4 = 2`. -/
def false3 (i : F) : CS F := consts3 ![1 + i, 2 * i, 3 + i] ![3 - i, -2 * i, 1 - i] ![5 + i, 2, 5 - i]

/-- **C47 is false of circuits whose number of constraints is not a power of two.** The circuit `false3` is satisfied by
no assignment at all (its second constraint reads `4 = 2`), yet the proof `createProof` returns is accepted, for every
toxic waste for which `setup` returns and all coins. -/
theorem C47_unsat_refuted (env : Env S root gen) (hS : 2 ≤ S) (h1 : g1 ≠ 0) (h2 : g2 ≠ 0) :
    let cs := false3 (omega S root 2)
    Wf cs ∧ (∀ z, ¬ Satisfies z cs) ∧ ∀ (t : Trapdoor F) (p) (vk), setup S root gen g1 g2 e t cs = some (.ok (p, vk)) →
      ∀ r s, ∃ π, createProof S root gen p r s cs = some (.ok π) ∧ verify e vk π [] = .ok () := by
  obtain ⟨i, hi⟩ : ∃ i, omega S root 2 = i := ⟨_, rfl⟩
  have i2 : i ^ 2 = -1 := by rw [← hi]; exact omega_sq env hS
  have i3 : i ^ 3 = -i := by rw [pow_succ, i2]; ring
  rw [hi]
  refine ⟨consts3_wf _ _ _, ?_, ?_⟩
  · rintro z ⟨z1, hz⟩
    have := hz (Constraint.mk [(Wire.ONE, 2 * i)] [(Wire.ONE, -2 * i)] [(Wire.ONE, 2)]) (by simp [false3, consts3])
    simp only [Holds, rowVal, List.map_cons, List.map_nil, List.sum_cons, List.sum_nil, z1] at this
    apply env.two
    linear_combination this + 4 * i2
  · intro t p vk hs r s
    have hG : gen ^ 4 - 1 ≠ 0 := sub_ne_zero.mpr (env.coset hS)
    obtain ⟨π, c1, c2⟩ := accept3 env h1 h2 ![1 + i, 2 * i, 3 + i] ![3 - i, -2 * i, 1 - i] ![5 + i, 2, 5 - i]
      (p0 := 1 + i) (p1 := 0) (p2 := 1) (p3 := -1) (r0 := 1 - i) (r1 := 0) (r2 := 1) (r3 := 1)
      (s0 := 3) (s1 := 0) (s2 := 2) (s3 := i)
      (fun f d => interp3 d hi i2 (by simp <;> ring) (by simp <;> ring) (by simp <;> ring) (by simp))
      (fun f d => interp3 d hi i2 (by simp <;> ring) (by simp <;> ring) (by simp <;> ring) (by simp))
      (fun f d => interp3 d hi i2 (by simp <;> ring) (by simp; linear_combination -i2) (by simp <;> ring) (by simp; linear_combination i2))
      (q0 := 1) (q1 := 0) (q2 := -gen ^ 4 / (gen ^ 4 - 1)) (q3 := i / (gen ^ 4 - 1)) (by
        intro y hy
        have : (polyOf [(1 : F), 0, -gen ^ 4 / (gen ^ 4 - 1), i / (gen ^ 4 - 1)]).eval y * (gen ^ 4 - 1) =
            (gen ^ 4 - 1) - gen ^ 4 * y ^ 2 + i * y ^ 3 := by
          simp [polyOf]; field_simp; ring
        rw [this, ← hy]
        simp [polyOf]
        linear_combination i2) hs r s
    refine ⟨π, c1, c2.mpr ?_⟩
    rw [show ((1 + i + 0 * t.tau + 1 * t.tau ^ 2) * (1 - i + 0 * t.tau + 1 * t.tau ^ 2) - (3 + 0 * t.tau + 2 * t.tau ^ 2) -
      (t.tau ^ 4 - 1) * (1 + 0 * t.tau)) = 0 by linear_combination -i2, zero_smul]

/-! ### C48: binding of the public inputs -/

/-- The assignment of the instance wires alone. -/
def publicOnly (xs : List F) : Assignment F
  | .inst i => xs.getD i 0
  | .wit _ => 0

omit [DecidableEq F] in
theorem publicOnly_eq (xs : List F) : publicOnly xs = readD xs [] := by
  funext e; cases e <;> simp [publicOnly, readD]

/-- **C48 is false of circuits with a public input no constraint mentions** (`alloc_instance` adds none): the key's
entry for it is the identity, and a proof accepted for one value of that input is accepted for every other. -/
theorem C48_unused_input_refuted {cs0 : CS F} {p : Params G1 G2} {vk : PVKey G1 G2 GT}
    (hs : setup S root gen g1 g2 e t cs0 = some (.ok (p, vk))) (i : Nat)
    (hun : ∀ c ∈ cs0.cons, ∀ x ∈ c.a ++ c.b ++ c.c, x.1 ≠ Wire.inst (i + 1)) (π : Groth16.Proof G1 G2) (inputs : List F) (v : F) :
    verify e vk π inputs = .ok () ↔ verify e vk π (inputs.set i v) = .ok () := by
  obtain ⟨f, -, key⟩ := setup_keys hs
  have row : ∀ r : Row F, (∀ x ∈ r, x.1 ≠ Wire.inst (i + 1)) →
      rowVal (readD (1 :: inputs) []) r = rowVal (readD (1 :: inputs.set i v) []) r := by
    intro r hr
    unfold rowVal
    congr 1
    apply List.map_congr_left
    intro x hx
    have := hr x hx
    congr 1
    rcases x with ⟨w, c⟩
    cases w with
    | wit j => rfl
    | inst j =>
      cases j with
      | zero => rfl
      | succ j =>
        have hj : i ≠ j := fun h => this (by simp [h])
        simp [readD, List.getD_eq_getElem?_getD, List.getElem?_set_ne hj]
  have mat : ∀ (φ : Nat → F) (g : Constraint F → Row F), (∀ c ∈ cs0.cons, ∀ x ∈ g c, x.1 ≠ Wire.inst (i + 1)) →
      rd φ (cs0.cons.map g) (1 :: inputs) [] = rd φ (cs0.cons.map g) (1 :: inputs.set i v) [] := by
    intro φ g hg
    unfold rd
    rw [rowsDot_sum _ _ _ _ _ le_rfl, rowsDot_sum _ _ _ _ _ le_rfl]
    congr 2
    funext j
    congr 2
    rw [List.map_map, List.map_map]
    apply List.map_congr_left
    intro c hc
    exact row _ (hg c hc)
  rw [verify_ok_iff, verify_ok_iff, List.length_set, key.icLen]
  refine and_congr_right (fun hl => ?_)
  rw [key.ic _ hl, key.ic _ (by rw [List.length_set]; exact hl)]
  unfold CS.matA CS.matB CS.matC
  rw [mat _ _ (fun c hc x hx => hun c hc x (by simp [hx])), mat _ _ (fun c hc x hx => hun c hc x (by simp [hx])),
    mat _ _ (fun c hc x hx => hun c hc x (by simp [hx]))]

theorem head_ne_zero {k : Nat} {f : Fft F} (d : Domain S root gen k f) {m : Nat} (hm : m ≤ 2 ^ k) (v : List F) (hv : v.length = m) (i : Nat)
    (hi : v.getD i 0 ≠ 0) : (∑ j ∈ Finset.range m, C ((interp f v).coeff j) * X ^ j : F[X]) ≠ 0 := by
  intro h
  have low : ∀ j, j < m → (interp f v).coeff j = 0 := by
    intro j hj
    have := congrArg (fun p => coeff p j) h
    simp only [finset_sum_coeff, coeff_C_mul, coeff_X_pow, coeff_zero] at this
    rw [Finset.sum_eq_single j] at this
    · simpa using this
    · intro b _ hb; simp [hb.symm]
    · intro h0; simp at h0; omega
  obtain ⟨R, hR⟩ : (X ^ m : F[X]) ∣ interp f v := X_pow_dvd_iff.mpr low
  have hp := C40_domain d
  have hw : omega S root k ≠ 0 := hp.ne_zero (by positivity)
  have hvi : i < m := by
    by_contra hc
    exact hi (List.getD_eq_default _ _ (by omega))
  have hR0 : R = 0 := by
    by_contra hne
    have hdR : R.natDegree < 2 ^ k - m := by
      have h1 := interp_degree d v
      rw [← natDegree_lt_iff' (by positivity), hR, natDegree_X_pow_mul _ hne] at h1
      omega
    have hroots : ((Finset.range (2 ^ k - m)).image (fun j => omega S root k ^ (m + j))).card = 2 ^ k - m := by
      rw [Finset.card_image_of_injOn, Finset.card_range]
      intro a ha b hb hab
      simp only [Finset.coe_range, Set.mem_Iio] at ha hb
      have := hp.pow_inj (by omega) (by omega) hab
      omega
    have hsub : ((Finset.range (2 ^ k - m)).image (fun j => omega S root k ^ (m + j))) ⊆ R.roots.toFinset := by
      intro y hy
      obtain ⟨j, hj, rfl⟩ := Finset.mem_image.mp hy
      have hj := Finset.mem_range.mp hj
      simp only [Multiset.mem_toFinset, mem_roots hne, IsRoot]
      have h0 := (C40_idft_interpolates d v).2 (m + j) (by omega)
      rw [List.getD_eq_default _ _ (by omega)] at h0
      have h0' : (interp f v).eval (omega S root k ^ (m + j)) = 0 := h0
      rw [hR, eval_mul, eval_pow, eval_X] at h0'
      exact (mul_eq_zero.mp h0').resolve_left (pow_ne_zero _ (pow_ne_zero _ hw))
    have := Finset.card_le_card hsub
    have h3 := (Multiset.toFinset_card_le R.roots).trans (card_roots' R)
    omega
  apply hi
  have := (C40_idft_interpolates d v).2 i (by omega)
  rw [← this]
  have : interp f v = 0 := by rw [hR, hR0, mul_zero]
  unfold interp at this
  rw [this, eval_zero]

/-- Some constraint tells the two input vectors apart. -/
def Distinguishes (cs : CS F) (x x' : List F) : Prop := ∃ c ∈ cs.cons,
  rowVal (publicOnly (1 :: x)) c.a ≠ rowVal (publicOnly (1 :: x')) c.a ∨ rowVal (publicOnly (1 :: x)) c.b ≠ rowVal (publicOnly (1 :: x')) c.b ∨
  rowVal (publicOnly (1 :: x)) c.c ≠ rowVal (publicOnly (1 :: x')) c.c

/-- **C48**, for input vectors some constraint tells apart: for all but at most `m - 1` values of `τ` there are `U`, `V`,
`W`, not all zero and depending on `τ` alone, such that a proof (any proof) accepted for both vectors forces
`βU + αV + W = 0` between the remaining secrets.  Missing: vectors no constraint tells apart, for which it is false. -/
theorem C48_binding_partial (env : Env S root gen) (he : e g1 g2 ≠ 0) (cs0 : CS F) (x x' : List F) (hx : x.length + 1 = cs0.l)
    (hx' : x'.length + 1 = cs0.l) (hd : Distinguishes cs0 x x') :
    ∃ bad : Finset F, bad.card ≤ cs0.m - 1 ∧ ∀ tau, tau ∉ bad → ∃ U V W : F, ¬ (U = 0 ∧ V = 0 ∧ W = 0) ∧
      ∀ (t : Trapdoor F) p vk, t.tau = tau → setup S root gen g1 g2 e t cs0 = some (.ok (p, vk)) → ∀ π,
        verify e vk π x = .ok () → verify e vk π x' = .ok () → t.beta * U + t.alpha * V + W = 0 := by
  cases hf : Fft.new S root gen (domainLog cs0.m) with
  | none =>
    refine ⟨∅, by simp, fun tau _ => ⟨1, 0, 0, by simp, fun t p vk _ hs => ?_⟩⟩
    obtain ⟨f, hf', -⟩ := setup_keys hs
    rw [hf] at hf'; cases hf'
  | some f =>
    have dm := env.domain hf
    have lin : ∀ (M : List (Row F)) (tau : F), M.length = cs0.m → rd (lag f tau cs0.m) M (1 :: x) [] - rd (lag f tau cs0.m) M (1 :: x') [] =
        (∑ j ∈ Finset.range cs0.m, C ((interp f (M.map (fun r => rowVal (publicOnly (1 :: x)) r - rowVal (publicOnly (1 :: x')) r))).coeff j) * X ^ j : F[X]).eval tau := by
      intro M tau hM
      obtain ⟨j, hj, ok, -⟩ := dm.ok
      have hml := m_le cs0.m
      rw [hj] at hml
      simp only [eval_finset_sum, eval_mul, eval_C, eval_pow, eval_X]
      unfold rd interp
      rw [← lagrange_dot ok tau hml, rowsDot_sum _ _ _ _ (2 ^ (j + 1)) (by omega), rowsDot_sum _ _ _ _ (2 ^ (j + 1)) (by omega),
        ← Finset.sum_sub_distrib]
      apply Finset.sum_congr rfl
      intro a _
      rw [← sub_mul, zero_add, publicOnly_eq, publicOnly_eq]
      congr 1
      by_cases ha : a < M.length
      · rw [List.getD_eq_getElem _ _ (by simpa using ha), List.getD_eq_getElem _ _ (by simpa using ha),
          List.getD_eq_getElem _ _ (by simpa using ha)]
        simp
      · rw [List.getD_eq_default _ _ (by simpa using ha), List.getD_eq_default _ _ (by simpa using ha),
          List.getD_eq_default _ _ (by simpa using ha), sub_zero]
    let P : (Constraint F → Row F) → F[X] := fun g => ∑ j ∈ Finset.range cs0.m,
      C ((interp f ((cs0.cons.map g).map (fun r => rowVal (publicOnly (1 :: x)) r - rowVal (publicOnly (1 :: x')) r))).coeff j) * X ^ j
    have hdeg : ∀ g, (P g).natDegree ≤ cs0.m - 1 := by
      intro g
      refine natDegree_sum_le_of_forall_le _ _ (fun i hi => (natDegree_C_mul_X_pow_le _ _).trans ?_)
      have := Finset.mem_range.mp hi; omega
    have main : ∀ g : Constraint F → Row F, (g = (·.a) ∨ g = (·.b) ∨ g = (·.c)) → (∃ c ∈ cs0.cons, rowVal (publicOnly (1 :: x)) (g c) ≠
        rowVal (publicOnly (1 :: x')) (g c)) → P g ≠ 0 := by
      rintro g - ⟨c, hc, hne⟩
      obtain ⟨i, hi, hci⟩ := List.mem_iff_getElem.mp hc
      refine head_ne_zero dm (m_le _) _ (by simp [CS.m]) i ?_
      rw [List.getD_eq_getElem _ _ (by simpa using hi)]
      simp only [List.getElem_map, hci]
      exact sub_ne_zero.mpr hne
    have rel : ∀ (t : Trapdoor F) p vk, setup S root gen g1 g2 e t cs0 = some (.ok (p, vk)) → ∀ π,
        verify e vk π x = .ok () → verify e vk π x' = .ok () →
        t.beta * (P (·.a)).eval t.tau + t.alpha * (P (·.b)).eval t.tau + (P (·.c)).eval t.tau = 0 := by
      intro t p vk hs π v1 v2
      obtain ⟨f', hf', key⟩ := setup_keys hs
      rw [hf, Option.some.injEq] at hf'
      subst hf'
      have a1 := (verify_ok_iff.mp v1).2
      have a2 := (verify_ok_iff.mp v2).2
      rw [key.ic _ hx, key.pGamma] at a1
      rw [key.ic _ hx', key.pGamma] at a2
      have l1 := lin cs0.matA t.tau (by simp [CS.matA, CS.m])
      have l2 := lin cs0.matB t.tau (by simp [CS.matB, CS.m])
      have l3 := lin cs0.matC t.tau (by simp [CS.matC, CS.m])
      have a3 := a1.trans a2.symm
      simp only [map_smul, map_neg, LinearMap.smul_apply, add_left_inj, add_right_inj] at a3
      simp only [smul_neg, smul_smul, neg_inj] at a3
      rw [← sub_eq_zero, ← sub_smul] at a3
      rcases smul_eq_zero.mp a3 with h0 | h0
      · have hg := key.gamma
        change t.beta * eval t.tau (∑ j ∈ _, C ((interp f (cs0.matA.map _)).coeff j) * X ^ j) +
          t.alpha * eval t.tau (∑ j ∈ _, C ((interp f (cs0.matB.map _)).coeff j) * X ^ j) +
          eval t.tau (∑ j ∈ _, C ((interp f (cs0.matC.map _)).coeff j) * X ^ j) = 0
        rw [← l1, ← l2, ← l3]
        field_simp at h0
        linear_combination h0
      · exact absurd h0 he
    obtain ⟨c, hc, hne⟩ := hd
    have fin : ∀ g : Constraint F → Row F, P g ≠ 0 → (P g).roots.toFinset.card ≤ cs0.m - 1 ∧ ∀ tau, tau ∉ (P g).roots.toFinset → (P g).eval tau ≠ 0 := by
      intro g hg
      refine ⟨(Multiset.toFinset_card_le _).trans ((card_roots' _).trans (hdeg g)), fun tau ht h0 => ht ?_⟩
      simp only [Multiset.mem_toFinset, mem_roots hg, IsRoot, h0]
    rcases hne with h | h | h
    · obtain ⟨f1, f2⟩ := fin (·.a) (main _ (by simp) ⟨c, hc, h⟩)
      exact ⟨_, f1, fun tau ht => ⟨_, _, _, fun h0 => f2 tau ht h0.1, fun t p vk htau hs π v1 v2 => by
        have := rel t p vk hs π v1 v2; rw [htau] at this; exact this⟩⟩
    · obtain ⟨f1, f2⟩ := fin (·.b) (main _ (by simp) ⟨c, hc, h⟩)
      exact ⟨_, f1, fun tau ht => ⟨_, _, _, fun h0 => f2 tau ht h0.2.1, fun t p vk htau hs π v1 v2 => by
        have := rel t p vk hs π v1 v2; rw [htau] at this; exact this⟩⟩
    · obtain ⟨f1, f2⟩ := fin (·.c) (main _ (by simp) ⟨c, hc, h⟩)
      exact ⟨_, f1, fun tau ht => ⟨_, _, _, fun h0 => f2 tau ht h0.2.2, fun t p vk htau hs π v1 v2 => by
        have := rel t p vk hs π v1 v2; rw [htau] at this; exact this⟩⟩

end Protocol

/-! ### The hypotheses are met

`ZMod 97` with `S = 5`, root 28, generator 5; the three groups are the field itself, the pairing is multiplication. -/

instance fact97 : Fact (Nat.Prime 97) := ⟨by norm_num⟩

theorem demoEnv : Env 5 (28 : ZMod 97) 5 := ⟨by decide, by decide, by decide +kernel, by decide, by decide +kernel⟩

/-- Two constraints, `w₀·w₁ = x₁` and `x₁·1 = x₁`, and an unused public input `x₂`. -/
def demoG : CS (ZMod 97) :=
  { x := [1, 6, 9], w := [2, 3], cons := [Constraint.mk [(.wit 0, 1)] [(.wit 1, 1)] [(.inst 1, 1)],
      Constraint.mk [(.inst 1, 1)] [(Wire.ONE, 1)] [(.inst 1, 1)]] }

/-- The same circuit with another witness. -/
def demoG' : CS (ZMod 97) := { demoG with w := [1, 6] }

/-- The same circuit with a wrong witness. -/
def demoBad : CS (ZMod 97) := { demoG with w := [2, 4] }

theorem demoG_wf (w : List (ZMod 97)) (hw : w.length = 2) : Wf { demoG with w := w } := by
  have row : ∀ v, Allocated { demoG with w := w } v → RowOk { demoG with w := w } [(v, 1)] := fun v hv =>
    ⟨by simp [DistinctWires], by simpa using hv⟩
  refine ⟨rfl, fun k hk => ?_⟩
  simp only [demoG, List.mem_cons, List.not_mem_nil, or_false] at hk
  rcases hk with rfl | rfl <;> exact ⟨row _ (by simp [Allocated, demoG, hw]), row _ (by simp [Allocated, demoG, hw, Wire.ONE]),
    row _ (by simp [Allocated, demoG, hw])⟩

theorem demoG_sat : Satisfies (stored demoG) demoG ∧ Satisfies (stored demoG') demoG' := by
  constructor
  all_goals
    refine ⟨by decide, fun k hk => ?_⟩
    simp only [demoG', demoG, List.mem_cons, List.not_mem_nil, or_false] at hk
    rcases hk with rfl | rfl <;> (unfold Holds; decide)

theorem demoG_shape (w : List (ZMod 97)) (hw : w.length = 2) : SameShape demoG { demoG with w := w } := ⟨rfl, hw.symm, rfl⟩

/-- Some toxic waste for which `setup` returns keys for the demonstration circuit. -/
theorem demo_setup (cs : CS (ZMod 97)) (wf : Wf cs) (h2 : 2 ≤ cs.m) (h32 : cs.m ≤ 32) : ∃ t p vk, setup 5 (28 : ZMod 97) 5 (1 : ZMod 97) (1 : ZMod 97)
    (LinearMap.mul (ZMod 97) (ZMod 97)) t cs = some (.ok (p, vk)) := by
  obtain ⟨bad, hb, h⟩ := C44_runs_partial (e := LinearMap.mul (ZMod 97) (ZMod 97)) demoEnv (one_ne_zero : (1 : ZMod 97) ≠ 0)
    (one_ne_zero : (1 : ZMod 97) ≠ 0) cs wf h2 (by simpa using h32)
  obtain ⟨tau, -, ht⟩ := Finset.exists_mem_notMem_of_card_lt_card (s := bad) (t := Finset.univ) (by
    rw [Finset.card_univ, ZMod.card]; omega)
  obtain ⟨p, vk, hs, -⟩ := h { alpha := 1, beta := 1, gamma := 1, delta := 1, tau := tau } ht one_ne_zero one_ne_zero
  exact ⟨_, p, vk, hs⟩

example : ∃ (t : Trapdoor (ZMod 97)) (p : Params (ZMod 97) (ZMod 97)) (vk : PVKey (ZMod 97) (ZMod 97) (ZMod 97)),
    setup 5 (28 : ZMod 97) 5 1 1 (LinearMap.mul (ZMod 97) (ZMod 97)) t demoG = some (.ok (p, vk)) ∧
    (∀ r s, ∃ π, createProof 5 28 5 p r s demoG = some (.ok π) ∧ verify (LinearMap.mul (ZMod 97) (ZMod 97)) vk π [6, 9] = .ok () ∧
      verify (LinearMap.mul (ZMod 97) (ZMod 97)) vk π [6, 10] = .ok ()) ∧
    (∃ φ : ZMod 97 × ZMod 97 ≃ ZMod 97 × ZMod 97, ∀ c, createProof 5 28 5 p c.1 c.2 demoG = createProof 5 28 5 p (φ c).1 (φ c).2 demoG') := by
  obtain ⟨t, p, vk, hs⟩ := demo_setup demoG (demoG_wf [2, 3] rfl) (by decide) (by decide)
  refine ⟨t, p, vk, hs, fun r s => ?_, ?_⟩
  · obtain ⟨π, h1, h2⟩ := C43_completeness_partial demoEnv one_ne_zero one_ne_zero (demoG_shape [2, 3] rfl) (demoG_wf [2, 3] rfl) 1 rfl
      demoG_sat.1 hs r s
    exact ⟨π, h1, h2, (C48_unused_input_refuted hs 1 (by decide) π [6, 9] 10).mp h2⟩
  · exact C46_witness_indistinguishable_partial demoEnv one_ne_zero one_ne_zero (demoG_shape [2, 3] rfl) (demoG_shape [1, 6] rfl)
      (demoG_wf [2, 3] rfl) (demoG_wf [1, 6] rfl) 1 rfl rfl demoG_sat.1 demoG_sat.2 hs

example : ¬ Holds (stored demoBad) (Constraint.mk [(.wit 0, 1)] [(.wit 1, 1)] [(.inst 1, 1)]) ∧ Distinguishes demoG [6, 9] [7, 9] := by
  refine ⟨by unfold Holds; decide, _, by simp [demoG]; left; rfl, ?_⟩
  right; right; decide

/-- The three-constraint counterexamples are about circuits for which `setup` does return. -/
example : ∃ t p vk, setup 5 (28 : ZMod 97) 5 (1 : ZMod 97) (1 : ZMod 97) (LinearMap.mul (ZMod 97) (ZMod 97)) t (false3 (omega 5 28 2)) =
    some (.ok (p, vk)) := demo_setup _ (consts3_wf _ _ _) (by decide) (by decide)

end Kogarashi.Props
