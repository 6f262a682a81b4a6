import Verif.Props.Groth16

/-!
# C43 and C47 for every number of constraints: what decides whether an honestly made proof is accepted

For circuits whose number of constraints is not a power of two neither completeness nor rejection of unsatisfying assignments holds.
What does hold for all of them: the verdict is the vanishing at `τ` of one polynomial, which depends on the circuit and the assignment
only.
-/

namespace Kogarashi.Props

open Kogarashi Spec Groth16 Polynomial Kogarashi.Field

variable {F G1 G2 GT : Type} [_root_.Field F] [DecidableEq F]
variable [AddCommGroup G1] [Module F G1] [AddCommGroup G2] [Module F G2] [AddCommGroup GT] [Module F GT]
variable [DecidableEq G1] [DecidableEq G2] [DecidableEq GT]
variable {S : Nat} {root gen : F} {g1 : G1} {g2 : G2} {e : G1 →ₗ[F] G2 →ₗ[F] GT}

/-- The first `m` terms of a polynomial. -/
noncomputable def cutPoly (m : Nat) (p : F[X]) : F[X] := ∑ i ∈ Finset.range m, C (p.coeff i) * X ^ i

omit [DecidableEq F] in
theorem eval_cutPoly (m : Nat) (p : F[X]) (x : F) : (cutPoly m p).eval x = headEval m p x := by
  simp [cutPoly, headEval, eval_finsetSum]

omit [DecidableEq F] in
theorem natDegree_cutPoly (m : Nat) (p : F[X]) : (cutPoly m p).natDegree ≤ m - 1 := by
  refine natDegree_sum_le_of_forall_le _ _ (fun i hi => (natDegree_C_mul_X_pow_le _ _).trans ?_)
  have := Finset.mem_range.mp hi; omega

/-- Two quotients with the same values on the coset are the same polynomial. -/
theorem quot_unique {k : Nat} {f : Fft F} (d : Domain S root gen k f) (hz : gen ^ 2 ^ k ≠ 1) {p q r : F[X]}
    (hp : p.degree < (2 ^ k : Nat)) (hq : q.degree < (2 ^ k : Nat))
    (h1 : ∀ i, i < 2 ^ k → p.eval (gen * omega S root k ^ i) * (gen ^ 2 ^ k - 1) = r.eval (gen * omega S root k ^ i))
    (h2 : ∀ i, i < 2 ^ k → q.eval (gen * omega S root k ^ i) * (gen ^ 2 ^ k - 1) = r.eval (gen * omega S root k ^ i)) : p = q :=
  eq_of_evals (C40_domain d) d.genOk hp hq fun i hi =>
    mul_right_cancel₀ (sub_ne_zero.mpr hz) ((h1 i hi).trans (h2 i hi).symm)

/-- The polynomial that decides, displayed. -/
theorem verdict_core (env : Env S root gen) (h1 : g1 ≠ 0) (h2 : g2 ≠ 0) (he : e g1 g2 ≠ 0) {cs0 cs : CS F} (sh : SameShape cs0 cs)
    (wf : Wf cs) {f : Fft F} (hf : Fft.new S root gen (domainLog cs.m) = some f) :
    ∃ Q : F[X], (cutPoly cs.m (polyA f cs) * cutPoly cs.m (polyB f cs) - cutPoly cs.m (polyC f cs) -
        (X ^ 2 ^ domainLog cs.m - 1) * Q).natDegree ≤ 2 ^ domainLog cs.m + cs.m - 2 ∧
      ∀ t p vk, setup S root gen g1 g2 e t cs0 = some (.ok (p, vk)) → ∀ r s, ∃ π, createProof S root gen p r s cs = some (.ok π) ∧
        (verify e vk π cs.x.tail = .ok () ↔ (cutPoly cs.m (polyA f cs) * cutPoly cs.m (polyB f cs) - cutPoly cs.m (polyC f cs) -
          (X ^ 2 ^ domainLog cs.m - 1) * Q).eval t.tau = 0) := by
  have d := env.domain hf
  have hz := env.coset' hf
  obtain ⟨q, q1, q2, q3⟩ := quotient_spec d hz (cs.matA.map (rowVal (stored cs))) (cs.matB.map (rowVal (stored cs)))
    (cs.matC.map (rowVal (stored cs)))
  have hk := (new_some hf).1
  have hm2 : 2 ≤ cs.m := by
    by_contra h
    have : domainLog cs.m = 0 := Nat.clog_of_right_le_one (by omega) 2
    omega
  have hmn := m_le cs.m
  refine ⟨cutPoly (cs.m - 1) (polyOf q), ?_, ?_⟩
  · have na := natDegree_cutPoly cs.m (polyA f cs)
    have nb := natDegree_cutPoly cs.m (polyB f cs)
    have nc := natDegree_cutPoly cs.m (polyC f cs)
    have nq := natDegree_cutPoly (cs.m - 1) (polyOf q)
    refine (natDegree_sub_le _ _).trans (max_le ((natDegree_sub_le _ _).trans (max_le ?_ ?_)) ?_)
    · refine natDegree_mul_le.trans ?_; omega
    · omega
    · refine natDegree_mul_le.trans ?_
      have : (X ^ 2 ^ domainLog cs.m - 1 : F[X]).natDegree = 2 ^ domainLog cs.m := by rw [← C_1]; exact natDegree_X_pow_sub_C
      omega
  · intro t p vk hs r s
    obtain ⟨f', d', -, -, q', r1, r2, r3⟩ := honest_run env h1 h2 sh wf hs
    have ff : f = f' := by have := d.new; rw [d'.new] at this; exact (Option.some.inj this).symm
    subst ff
    have hqq : polyOf q' = polyOf q := quot_unique d hz r1 q2 r2 q3
    obtain ⟨a, b⟩ := r3 r s
    refine ⟨_, a, b.trans ?_⟩
    rw [smul_eq_zero, or_iff_left he, hqq]
    simp only [eval_sub, eval_mul, eval_pow, eval_X, eval_one, eval_cutPoly]

/-- **C43, C47, every number of constraints.** For a circuit and an assignment there is a polynomial of degree at most `n + m - 2`
(`m` constraints, `n` the next power of two) such that, with any keys `setup` returns and any coins, `createProof` returns a proof and
it is accepted exactly when the polynomial vanishes at `τ`. -/
theorem C43_verdict (env : Env S root gen) (h1 : g1 ≠ 0) (h2 : g2 ≠ 0) (he : e g1 g2 ≠ 0) {cs0 cs : CS F} (sh : SameShape cs0 cs)
    (wf : Wf cs) :
    ∃ P : F[X], P.natDegree ≤ 2 ^ domainLog cs.m + cs.m - 2 ∧
      ∀ t p vk, setup S root gen g1 g2 e t cs0 = some (.ok (p, vk)) → ∀ r s, ∃ π, createProof S root gen p r s cs = some (.ok π) ∧
        (verify e vk π cs.x.tail = .ok () ↔ P.eval t.tau = 0) := by
  cases hf : Fft.new S root gen (domainLog cs.m) with
  | none =>
    refine ⟨0, by simp, fun t p vk hs => ?_⟩
    obtain ⟨f, hf', -⟩ := setup_keys hs
    rw [SameShape.m sh, hf] at hf'; cases hf'
  | some f =>
    obtain ⟨Q, hd, h⟩ := verdict_core env h1 h2 he sh wf hf
    exact ⟨_, hd, h⟩

/-- **C43, C47** (all or few). For a circuit and an assignment, whether it satisfies the circuit or not, either every honestly made
proof is accepted, or for all but at most `n + m - 2` values of `τ` none is. -/
theorem C43_all_or_few (env : Env S root gen) (h1 : g1 ≠ 0) (h2 : g2 ≠ 0) (he : e g1 g2 ≠ 0) {cs0 cs : CS F} (sh : SameShape cs0 cs)
    (wf : Wf cs) :
    (∀ t p vk, setup S root gen g1 g2 e t cs0 = some (.ok (p, vk)) → ∀ r s π, createProof S root gen p r s cs = some (.ok π) →
      verify e vk π cs.x.tail = .ok ()) ∨
    ∃ few : Finset F, few.card ≤ 2 ^ domainLog cs.m + cs.m - 2 ∧ ∀ t : Trapdoor F, t.tau ∉ few → ∀ p vk,
      setup S root gen g1 g2 e t cs0 = some (.ok (p, vk)) → ∀ r s π, createProof S root gen p r s cs = some (.ok π) →
      verify e vk π cs.x.tail ≠ .ok () := by
  obtain ⟨P, hd, h⟩ := C43_verdict env h1 h2 he sh wf
  by_cases hP : P = 0
  · left
    intro t p vk hs r s π hπ
    obtain ⟨π', a, b⟩ := h t p vk hs r s
    rw [a, Option.some.injEq, Except.ok.injEq] at hπ
    rw [← hπ, b, hP, eval_zero]
  · refine Or.inr ⟨P.roots.toFinset, (Multiset.toFinset_card_le _).trans ((card_roots' _).trans hd), ?_⟩
    intro t ht p vk hs r s π hπ hacc
    obtain ⟨π', a, b⟩ := h t p vk hs r s
    rw [a, Option.some.injEq, Except.ok.injEq] at hπ
    rw [← hπ, b] at hacc
    exact ht (by simpa [hP] using hacc)

/-- **C43, C47** (the verdict is fixed by `τ`). Two runs with the same circuit, assignment and `τ` get the same verdict, whatever the
rest of the toxic waste and the coins. -/
theorem C43_same_verdict (env : Env S root gen) (h1 : g1 ≠ 0) (h2 : g2 ≠ 0) (he : e g1 g2 ≠ 0) {cs0 cs : CS F} (sh : SameShape cs0 cs)
    (wf : Wf cs) {t t' : Trapdoor F} (ht : t.tau = t'.tau) {p p' : Params G1 G2} {vk vk' : PVKey G1 G2 GT}
    (hs : setup S root gen g1 g2 e t cs0 = some (.ok (p, vk))) (hs' : setup S root gen g1 g2 e t' cs0 = some (.ok (p', vk')))
    {r s r' s' : F} {π π' : Groth16.Proof G1 G2} (hπ : createProof S root gen p r s cs = some (.ok π))
    (hπ' : createProof S root gen p' r' s' cs = some (.ok π')) :
    verify e vk π cs.x.tail = .ok () ↔ verify e vk' π' cs.x.tail = .ok () := by
  obtain ⟨P, -, h⟩ := C43_verdict env h1 h2 he sh wf
  obtain ⟨π1, a, b⟩ := h t p vk hs r s
  obtain ⟨π2, a', b'⟩ := h t' p' vk' hs' r' s'
  rw [a, Option.some.injEq, Except.ok.injEq] at hπ
  rw [a', Option.some.injEq, Except.ok.injEq] at hπ'
  rw [← hπ, ← hπ', b, b', ht]

/-- The column of values `v`, continued by zeros, is taken at the points `1, ω, ω², …` by a polynomial of degree below its length. -/
def LowDegree (w : F) (n : Nat) (v : List F) : Prop := ∃ P : F[X], P.degree < v.length ∧ ∀ i < n, P.eval (w ^ i) = v.getD i 0

/-- **C43**, for every number of constraints: if the assignment satisfies the circuit and the three columns of values of the left,
right and output rows, continued by zeros, are taken on the domain by polynomials of degree below the number of constraints, then the
proof is accepted, whatever the toxic waste and the coins.  With a power of two constraints every column is such (`C43_low_degree_pow`).
Missing: the other satisfying assignments, some of which are rejected (`C43_completeness_all_refuted`). -/
theorem C43_low_degree_partial (env : Env S root gen) (h1 : g1 ≠ 0) (h2 : g2 ≠ 0) {cs0 cs : CS F} (sh : SameShape cs0 cs)
    (wf : Wf cs) (hsat : Satisfies (stored cs) cs)
    (ha : LowDegree (omega S root (domainLog cs.m)) (2 ^ domainLog cs.m) (cs.cons.map fun c => rowVal (stored cs) c.a))
    (hb : LowDegree (omega S root (domainLog cs.m)) (2 ^ domainLog cs.m) (cs.cons.map fun c => rowVal (stored cs) c.b))
    (hc : LowDegree (omega S root (domainLog cs.m)) (2 ^ domainLog cs.m) (cs.cons.map fun c => rowVal (stored cs) c.c))
    {t : Trapdoor F} {p : Params G1 G2} {vk : PVKey G1 G2 GT}
    (hs : setup S root gen g1 g2 e t cs0 = some (.ok (p, vk))) (r s : F) :
    ∃ π, createProof S root gen p r s cs = some (.ok π) ∧ verify e vk π cs.x.tail = .ok () := by
  obtain ⟨f, d, hz, -, q, q1, q2, q3⟩ := honest_run env h1 h2 sh wf hs
  obtain ⟨a, b⟩ := q3 r s
  refine ⟨_, a, b.mpr ?_⟩
  have hmn := m_le cs.m
  have hk := (new_some d.new).1
  have hm2 : 2 ≤ cs.m := by
    by_contra h
    have : domainLog cs.m = 0 := Nat.clog_of_right_le_one (by omega) 2
    omega
  set k := domainLog cs.m with hkdef
  have low : ∀ g : Constraint F → Row F, LowDegree (omega S root k) (2 ^ k) (cs.cons.map fun c => rowVal (stored cs) (g c)) →
      (interp f ((cs.cons.map g).map (rowVal (stored cs)))).degree < (cs.m : WithBot Nat) := by
    rintro g ⟨P, hP, hv⟩
    rw [List.length_map] at hP
    have e1 : interp f ((cs.cons.map g).map (rowVal (stored cs))) = P := by
      refine eq_of_evals (C40_domain d) one_ne_zero (interp_degree d _) (hP.trans_le (by exact_mod_cast hmn)) (fun i hi => ?_)
      rw [one_mul, hv i hi, interp, (C40_idft_interpolates d _).2 i hi, List.map_map]
      rfl
    rw [e1]; exact hP
  have dA : (polyA f cs).degree < (cs.m : WithBot Nat) := low (·.a) ha
  have dB : (polyB f cs).degree < (cs.m : WithBot Nat) := low (·.b) hb
  have dC : (polyC f cs).degree < (cs.m : WithBot Nat) := low (·.c) hc
  have van : polyA f cs * polyB f cs - polyC f cs = (X ^ 2 ^ k - 1) * ((polyA f cs * polyB f cs - polyC f cs) /ₘ (X ^ 2 ^ k - 1)) :=
    vanishing d (interp_vanishes d hsat)
  have hmon : (X ^ 2 ^ k - 1 : F[X]).Monic := by
    rw [← C_1]; exact monic_X_pow_sub_C _ (by positivity)
  have hdeg : (X ^ 2 ^ k - 1 : F[X]).natDegree = 2 ^ k := by
    rw [← C_1]; exact natDegree_X_pow_sub_C
  have nA := (natDegree_lt_iff' (by omega)).mpr dA
  have nB := (natDegree_lt_iff' (by omega)).mpr dB
  have nC := (natDegree_lt_iff' (by omega)).mpr dC
  have dQ : ((polyA f cs * polyB f cs - polyC f cs) /ₘ (X ^ 2 ^ k - 1)).degree < ((cs.m - 1 : Nat) : WithBot Nat) := by
    rw [← natDegree_lt_iff' (by omega), natDegree_divByMonic _ hmon, hdeg]
    have : (polyA f cs * polyB f cs - polyC f cs).natDegree ≤ 2 * (cs.m - 1) := by
      refine (natDegree_sub_le _ _).trans (max_le ?_ ?_)
      · refine natDegree_mul_le.trans ?_; omega
      · omega
    omega
  have hqQ : polyOf q = (polyA f cs * polyB f cs - polyC f cs) /ₘ (X ^ 2 ^ k - 1) := by
    refine quot_unique d hz q1 (dQ.trans_le (by exact_mod_cast (Nat.sub_le _ _).trans hmn)) q2 (fun i hi => ?_)
    conv_rhs => rw [van]
    simp only [eval_mul, eval_sub, eval_pow, eval_X, eval_one]
    rw [mul_pow, ← pow_mul (omega S root k), mul_comm i, pow_mul (omega S root k), (C40_domain d).pow_eq_one, one_pow, mul_one]
    ring
  rw [hqQ, headEval_eq dA, headEval_eq dB, headEval_eq dC, headEval_eq dQ]
  have := congrArg (eval t.tau) van
  simp only [eval_mul, eval_sub, eval_pow, eval_X, eval_one] at this
  rw [this, sub_self, zero_smul]

/-- The polynomial of degree below `n` that takes the values `v`, continued by zeros, at the points `1, ω, …, ω^(n-1)`. -/
def TakesColumn (w : F) (n : Nat) (v : List F) (P : F[X]) : Prop := P.degree < n ∧ ∀ i < n, P.eval (w ^ i) = v.getD i 0

/-- **C47**, for every number `m` of constraints: what honestly made proofs are checked for.  Take the polynomials through the columns of
values of the left, right and output rows and cut each after `m` terms.  If at some point of the domain the cut left and right
polynomials do not multiply to the cut output one, then for all but at most `n + m - 2` values of `τ` no honestly made proof is accepted.
With a power of two constraints nothing is cut, and the points are the constraints.  Missing: for other numbers of constraints the cut
polynomials may multiply although the constraints are violated (`C47_unsat_all_refuted`). -/
theorem C47_cut_partial (env : Env S root gen) (h1 : g1 ≠ 0) (h2 : g2 ≠ 0) (he : e g1 g2 ≠ 0) {cs0 cs : CS F} (sh : SameShape cs0 cs)
    (wf : Wf cs) {A B C : F[X]}
    (hA : TakesColumn (omega S root (domainLog cs.m)) (2 ^ domainLog cs.m) (cs.cons.map fun c => rowVal (stored cs) c.a) A)
    (hB : TakesColumn (omega S root (domainLog cs.m)) (2 ^ domainLog cs.m) (cs.cons.map fun c => rowVal (stored cs) c.b) B)
    (hC : TakesColumn (omega S root (domainLog cs.m)) (2 ^ domainLog cs.m) (cs.cons.map fun c => rowVal (stored cs) c.c) C)
    {i : Nat}
    (hne : (cutPoly cs.m A).eval (omega S root (domainLog cs.m) ^ i) * (cutPoly cs.m B).eval (omega S root (domainLog cs.m) ^ i) ≠
      (cutPoly cs.m C).eval (omega S root (domainLog cs.m) ^ i)) :
    ∃ few : Finset F, few.card ≤ 2 ^ domainLog cs.m + cs.m - 2 ∧ ∀ t : Trapdoor F, t.tau ∉ few → ∀ p vk,
      setup S root gen g1 g2 e t cs0 = some (.ok (p, vk)) → ∀ r s π, createProof S root gen p r s cs = some (.ok π) →
      verify e vk π cs.x.tail ≠ .ok () := by
  cases hf : Fft.new S root gen (domainLog cs.m) with
  | none =>
    refine ⟨∅, by simp, fun t _ p vk hs => ?_⟩
    obtain ⟨f, hf', -⟩ := setup_keys hs
    rw [SameShape.m sh, hf] at hf'; cases hf'
  | some f =>
    obtain ⟨Q, hd, h⟩ := verdict_core env h1 h2 he sh wf hf
    have d := env.domain hf
    have eq : ∀ (g : Constraint F → Row F) (P : F[X]), TakesColumn (omega S root (domainLog cs.m)) (2 ^ domainLog cs.m)
        (cs.cons.map fun c => rowVal (stored cs) (g c)) P → interp f ((cs.cons.map g).map (rowVal (stored cs))) = P := by
      rintro g P ⟨hP, hv⟩
      refine eq_of_evals (C40_domain d) one_ne_zero (interp_degree d _) (by exact_mod_cast hP) (fun i hi => ?_)
      rw [one_mul, hv i hi, interp, (C40_idft_interpolates d _).2 i hi, List.map_map]
      rfl
    have eA : polyA f cs = A := eq (·.a) A hA
    have eB : polyB f cs = B := eq (·.b) B hB
    have eC : polyC f cs = C := eq (·.c) C hC
    rw [eA, eB, eC] at hd h
    set P := cutPoly cs.m A * cutPoly cs.m B - cutPoly cs.m C - (X ^ 2 ^ domainLog cs.m - 1) * Q with hPdef
    have hP : P ≠ 0 := by
      intro h0
      apply hne
      have := congrArg (eval (omega S root (domainLog cs.m) ^ i)) h0
      rw [hPdef] at this
      simp only [eval_sub, eval_mul, eval_pow, eval_X, eval_one, eval_zero] at this
      rw [← pow_mul, mul_comm i, pow_mul, (C40_domain d).pow_eq_one, one_pow, sub_self, zero_mul, sub_zero] at this
      exact sub_eq_zero.mp this
    refine ⟨P.roots.toFinset, (Multiset.toFinset_card_le _).trans ((card_roots' _).trans hd), ?_⟩
    intro t ht p vk hs r s π hπ hacc
    obtain ⟨π', a, b⟩ := h t p vk hs r s
    rw [a, Option.some.injEq, Except.ok.injEq] at hπ
    rw [← hπ, b] at hacc
    exact ht (by simpa [hP] using hacc)

/-- Columns as long as the domain are always taken by a polynomial of lower degree. -/
theorem C43_low_degree_pow (env : Env S root gen) {k : Nat} (hk : 1 ≤ k) (hS : k ≤ S) (v : List F) (hv : v.length = 2 ^ k) :
    LowDegree (omega S root k) (2 ^ k) v := by
  obtain ⟨f, hf⟩ := (C40_new S root gen env.small env.two env.rootOk env.genOk k).mpr ⟨hk, hS⟩
  have d := env.domain hf
  exact ⟨interp f v, by rw [hv]; exact interp_degree d v, fun i hi => (C40_idft_interpolates d v).2 i hi⟩

/-! ### The hypotheses are met -/

/-- Three constraints, `1·1 = 1`, `0·0 = 0`, `1·1 = 1`. -/
def lowG : CS (ZMod 97) := consts3 ![1, 0, 1] ![1, 0, 1] ![1, 0, 1]

theorem lowG_column : LowDegree (omega 5 (28 : ZMod 97) 2) (2 ^ 2) [1, 0, 1] := by
  refine ⟨C 49 * X ^ 2 + C 49, lt_of_le_of_lt (b := 2) (by compute_degree) (by norm_num), fun i hi => ?_⟩
  simp only [eval_add, eval_mul, eval_C, eval_pow, eval_X]
  have : i < 4 := by simpa using hi
  interval_cases i <;> decide +kernel

/-- A circuit with three constraints whose honest proofs are always accepted. -/
theorem lowG_accepted : ∃ (t : Trapdoor (ZMod 97)) (p : Params (ZMod 97) (ZMod 97)) (vk : PVKey (ZMod 97) (ZMod 97) (ZMod 97)),
    setup 5 (28 : ZMod 97) 5 1 1 (LinearMap.mul (ZMod 97) (ZMod 97)) t lowG = some (.ok (p, vk)) ∧
    ∀ r s, ∃ π, createProof 5 28 5 p r s lowG = some (.ok π) ∧ verify (LinearMap.mul (ZMod 97) (ZMod 97)) vk π [] = .ok () := by
  have wf : Wf lowG := consts3_wf _ _ _
  obtain ⟨t, p, vk, hs⟩ := demo_setup lowG wf (by decide) (by decide)
  refine ⟨t, p, vk, hs, fun r s => ?_⟩
  have hl : domainLog lowG.m = 2 := domainLog_three
  refine C43_low_degree_partial demoEnv one_ne_zero one_ne_zero ⟨rfl, rfl, rfl⟩ wf ?_ ?_ ?_ ?_ hs r s
  · refine ⟨by decide, fun k hk => ?_⟩
    simp only [lowG, consts3, List.mem_cons, List.not_mem_nil, or_false] at hk
    rcases hk with rfl | rfl | rfl <;> (unfold Holds; decide)
  all_goals
    rw [hl]
    exact lowG_column

/-- Three constraints `0·0 = 0`, `0·0 = 0` and `0·0 = 1`: the cut output polynomial does not vanish at the third point. -/
example : ∃ A B C : (ZMod 97)[X], ∃ i < 4, TakesColumn (omega 5 (28 : ZMod 97) 2) 4 [0, 0, 0] A ∧
    TakesColumn (omega 5 (28 : ZMod 97) 2) 4 [0, 0, 0] B ∧ TakesColumn (omega 5 (28 : ZMod 97) 2) 4 [0, 0, 1] C ∧
    (cutPoly 3 A).eval (omega 5 (28 : ZMod 97) 2 ^ i) * (cutPoly 3 B).eval (omega 5 (28 : ZMod 97) 2 ^ i) ≠
      (cutPoly 3 C).eval (omega 5 (28 : ZMod 97) 2 ^ i) := by
  have h0 : TakesColumn (omega 5 (28 : ZMod 97) 2) 4 [0, 0, 0] 0 :=
    ⟨by rw [degree_zero]; exact WithBot.bot_lt_coe 4, fun i hi => by interval_cases i <;> simp⟩
  refine ⟨0, 0, C 73 + C 24 * X + C 73 * X ^ 2 + C 24 * X ^ 3, 2, by norm_num, h0, h0, ⟨?_, fun i hi => ?_⟩, ?_⟩
  · exact lt_of_le_of_lt (b := 3) (by compute_degree) (by norm_num)
  · simp only [eval_add, eval_mul, eval_C, eval_pow, eval_X]
    interval_cases i <;> decide +kernel
  · simp only [eval_cutPoly]
    simp [headEval, Finset.sum_range_succ, coeff_X, coeff_C, coeff_X_pow]
    decide +kernel

/-- The verdict on three constraints that are not of this kind. -/
example : ∃ P : (ZMod 97)[X], P.natDegree ≤ 5 ∧ ∀ t p vk, setup 5 (28 : ZMod 97) 5 (1 : ZMod 97) (1 : ZMod 97)
    (LinearMap.mul (ZMod 97) (ZMod 97)) t (consts3 ![2, 3, 4] ![5, 6, 7] ![10, 18, 29]) = some (.ok (p, vk)) → ∀ r s : ZMod 97, ∃ π,
    createProof 5 28 5 p r s (consts3 ![2, 3, 4] ![5, 6, 7] ![10, 18, 29]) = some (.ok π) ∧
      (verify (LinearMap.mul (ZMod 97) (ZMod 97)) vk π [] = .ok () ↔ P.eval t.tau = 0) := by
  obtain ⟨P, hd, h⟩ := C43_verdict (e := LinearMap.mul (ZMod 97) (ZMod 97)) (g1 := 1) (g2 := 1) demoEnv one_ne_zero one_ne_zero
    (by simp) (cs0 := consts3 ![2, 3, 4] ![5, 6, 7] ![10, 18, 29]) ⟨rfl, rfl, rfl⟩ (consts3_wf _ _ _)
  refine ⟨P, ?_, h⟩
  have hl : domainLog (consts3 ![2, 3, 4] ![5, 6, 7] ![10, 18, (29 : ZMod 97)]).m = 2 := domainLog_three
  rw [hl] at hd
  exact hd

end Kogarashi.Props
