import Verif.Groth16.FftProof
import Verif.Props.Curve
import Mathlib.LinearAlgebra.Lagrange

/-!
# Properties C40, C41, C68 and C69: polynomials and the Fourier transform

`polyOf l` (`Spec/Poly.lean`) is the polynomial whose coefficients are listed by `l`, constant term first.
`F::S`, `F::ROOT_OF_UNITY`, `F::MULTIPLICATIVE_GENERATOR` are `S`, `root`, `gen`; the hypotheses on them
(`root ^ 2^(S-1) = -1`, `gen ≠ 0`, `2 ≠ 0`) are what C12 establishes for BN254's scalar field.
-/

namespace Kogarashi.Props

open Kogarashi Spec Groth16 Polynomial Field

variable {F : Type} [Field F] [DecidableEq F]

instance fact17 : Fact (Nat.Prime 17) := ⟨by norm_num⟩

/-! ### C41: coefficient form -/

/-- **C41** (addition). The sum is the sum of the polynomials, with no trailing zero. -/
theorem C41_add (p q : List F) : polyOf (coeffsAdd p q) = polyOf p + polyOf q ∧ Trimmed (coeffsAdd p q) := by
  refine ⟨polyOf_coeffsAdd p q, ?_⟩
  unfold coeffsAdd; split <;> exact trimmed_formatDegree _

example : coeffsAdd [1, 2, 3] [4, 5, (14 : ZMod 17)] = [5, 7] := by decide

/-- **C41** (scalar multiple). -/
theorem C41_scale (p : List F) (s : F) : polyOf (coeffsScale p s) = C s * polyOf p ∧ Trimmed (coeffsScale p s) :=
  ⟨by rw [coeffsScale, coeffsNew, polyOf_formatDegree, polyOf_map_mul], trimmed_formatDegree _⟩

example : coeffsScale [1, 2, 3] (5 : ZMod 17) = [5, 10, 15] := by decide

/-- **C41** (sums of many polynomials). -/
theorem C41_sum (ps : List (List F)) : polyOf (coeffsSum ps) = (ps.map polyOf).sum := by
  have : ∀ (ps : List (List F)) (acc : List F), polyOf (ps.foldl coeffsAdd acc) = polyOf acc + (ps.map polyOf).sum := by
    intro ps
    induction ps with
    | nil => intro acc; simp
    | cons p ps ih => intro acc; rw [List.foldl_cons, ih, polyOf_coeffsAdd]; simp [add_assoc]
  have h := this ps []
  rw [show polyOf ([] : List F) = 0 from rfl, zero_add] at h
  exact h

example : coeffsSum [[1, 2], [3], [0, 0, (1 : ZMod 17)]] = [4, 2, 1] := by decide

/-- **C41** (evaluation). -/
theorem C41_evaluate (p : List F) (x : F) : evaluate p x = (polyOf p).eval x := evaluate_eq p x

example : evaluate [1, 2, 3] (2 : ZMod 17) = 0 := by decide

/-- **C41** (division). `divide` returns the quotient of `f - f(a)` by `X - a`. -/
theorem C41_divide (p : List F) (a : F) : polyOf (divide p a) * (X - C a) = polyOf p - C ((polyOf p).eval a) :=
  divide_spec p a

/-- **C41** (division), the usual reading: at a root `a` of `f`, `divide` returns `f / (X - a)` exactly. -/
theorem C41_divide_root (p : List F) (a : F) (h : (polyOf p).eval a = 0) : polyOf (divide p a) = polyOf p / (X - C a) := by
  have := divide_spec p a
  rw [h, map_zero, sub_zero] at this
  rw [← this, mul_div_cancel_right₀ _ (X_sub_C_ne_zero a)]

example : divide [2, 3, (1 : ZMod 17)] 15 = [1, 1] ∧ evaluate [2, 3, (1 : ZMod 17)] 15 = 0 := by decide

/-- **C41** (degree). Whenever `degree` returns, it returns the degree; it returns on every value the API builds. -/
theorem C41_degree (p : List F) : (∀ d, Groth16.degree p = some d → d = (polyOf p).natDegree) ∧
    (Trimmed p → Groth16.degree p = some (polyOf p).natDegree) := by
  refine ⟨fun d h => degree_spec h, fun h => ?_⟩
  obtain ⟨d, hd⟩ := degree_trimmed h
  rw [hd, degree_spec hd]

example : Trimmed [1, 2, (3 : ZMod 17)] ∧ Groth16.degree [1, 2, (3 : ZMod 17)] = some 2 := by
  refine ⟨?_, by decide⟩; intro c hc; simp at hc; subst hc; decide

/-- **C41** (subtraction), the part that holds: when the left operand is strictly longer.
Missing: the other case, where `-` returns the *negated* difference (`C41_sub_refuted`). -/
theorem C41_sub_partial (p q : List F) (h : q.length < p.length) :
    polyOf (coeffsSub p q) = polyOf p - polyOf q ∧ Trimmed (coeffsSub p q) := by
  unfold coeffsSub
  rw [if_pos h]
  exact ⟨by rw [coeffsNew, polyOf_formatDegree, zipLong_sub _ _ (by omega)], trimmed_formatDegree _⟩

example : coeffsSub [1, 2, 3] [4, (1 : ZMod 17)] = [14, 1, 3] := by decide

/-- **C41 is false of the code.** Whenever the left operand is not longer, `-` returns the difference with the
wrong sign; it is wrong for every pair of distinct polynomials of equal length (in odd characteristic). -/
theorem C41_sub_refuted (h2 : (2 : F) ≠ 0) (p q : List F) (h : p.length ≤ q.length) (hne : polyOf p ≠ polyOf q) :
    polyOf (coeffsSub p q) = polyOf q - polyOf p ∧ polyOf (coeffsSub p q) ≠ polyOf p - polyOf q := by
  have e : polyOf (coeffsSub p q) = polyOf q - polyOf p := by
    unfold coeffsSub
    rw [if_neg (by omega), coeffsNew, polyOf_formatDegree, zipLong_sub _ _ (by omega)]
  refine ⟨e, fun h => hne ?_⟩
  rw [e] at h
  have h3 : C (2 : F) * (polyOf p - polyOf q) = 0 := by
    rw [map_ofNat]; linear_combination -h
  rcases mul_eq_zero.mp h3 with h4 | h4
  · exact absurd (C_eq_zero.mp h4) h2
  · exact sub_eq_zero.mp h4

example : coeffsSub [5] [3, (1 : ZMod 17)] = [15, 1] ∧ ([5] : List (ZMod 17)).length ≤ [3, (1 : ZMod 17)].length := by decide

/-! ### C40: the transforms -/

/-- **C40** (construction). Every domain size from `2^1` to `2^S` can be built, and no other. -/
theorem C40_new (S : Nat) (root gen : F) (hS : S < 64) (h2 : (2 : F) ≠ 0) (hroot : root ^ 2 ^ (S - 1) = -1)
    (hgen : gen ≠ 0) (k : Nat) : (∃ f, Fft.new S root gen k = some f) ↔ 1 ≤ k ∧ k ≤ S := by
  constructor
  · rintro ⟨f, hf⟩; have := new_some hf; omega
  · rintro ⟨h1, h2'⟩
    obtain ⟨k, rfl⟩ := Nat.exists_eq_add_of_le' h1
    obtain ⟨f, hf, -⟩ := new_ok (k := k) (by omega) (by omega) h2 hroot hgen
    exact ⟨f, hf⟩

/-- What the following theorems assume: `f` is the domain `Fft::new(k)` returned. -/
structure Domain (S : Nat) (root gen : F) (k : Nat) (f : Fft F) : Prop where
  small : S < 64
  two : (2 : F) ≠ 0
  rootOk : root ^ 2 ^ (S - 1) = -1
  genOk : gen ≠ 0
  new : Fft.new S root gen k = some f

/-- The domain's root of unity, a `2^k`-th one. -/
def omega (S : Nat) (root : F) (k : Nat) : F := root ^ 2 ^ (S - k)

theorem Domain.ok {S : Nat} {root gen : F} {k : Nat} {f : Fft F} (d : Domain S root gen k f) :
    ∃ j, k = j + 1 ∧ FftOk f j (omega S root k) ∧ f.gen = gen := by
  obtain ⟨h1, h2⟩ := new_some d.new
  obtain ⟨j, rfl⟩ := Nat.exists_eq_add_of_le' h1
  obtain ⟨f', hf', ok, hg⟩ := new_ok (k := j) (by omega) (by have := d.small; omega) d.two d.rootOk d.genOk
  rw [d.new, Option.some.injEq] at hf'
  subst hf'
  exact ⟨j, rfl, ok, hg⟩

variable {S : Nat} {root gen : F} {k : Nat} {f : Fft F}

omit [DecidableEq F] in
theorem omega_def : omega S root k = root ^ 2 ^ (S - k) := rfl

/-- **C40** (domain). The points `ω^0, …, ω^(2^k-1)` are distinct and are the `2^k`-th roots of unity. -/
theorem C40_domain (d : Domain S root gen k f) : IsPrimitiveRoot (omega S root k) (2 ^ k) := by
  obtain ⟨j, rfl, ok, -⟩ := d.ok; exact prim ok

/-- **C40** (forward), for vectors that fit. `dft` lists the values at `ω^0, ω^1, …` in order.
Missing: longer vectors (`C40_truncates_refuted`). -/
theorem C40_dft_partial (d : Domain S root gen k f) (l : List F) (hl : l.length ≤ 2 ^ k) :
    dft f l = (List.range (2 ^ k)).map (fun i => (polyOf l).eval (omega S root k ^ i)) := by
  obtain ⟨j, rfl, ok, -⟩ := d.ok; exact dft_eval ok hl

/-- **C40** (inverse of forward): trailing zeros are dropped, nothing else changes.  For vectors that fit. -/
theorem C40_idft_dft_partial (d : Domain S root gen k f) (l : List F) (hl : l.length ≤ 2 ^ k) :
    polyOf (idft f (dft f l)) = polyOf l ∧ Trimmed (idft f (dft f l)) := by
  obtain ⟨j, rfl, ok, -⟩ := d.ok
  rw [idft_dft ok hl]
  exact ⟨polyOf_formatDegree l, trimmed_formatDegree l⟩

/-- **C40** (forward of inverse), for a full vector of values. -/
theorem C40_dft_idft (d : Domain S root gen k f) (v : List F) (hv : v.length = 2 ^ k) : dft f (idft f v) = v := by
  obtain ⟨j, rfl, ok, -⟩ := d.ok; exact dft_idft ok hv

/-- **C40** (interpolation). `idft` returns the polynomial of degree below `2^k` taking the given values, missing
ones being zero. -/
theorem C40_idft_interpolates (d : Domain S root gen k f) (v : List F) :
    (polyOf (idft f v)).degree < 2 ^ k ∧ ∀ i, i < 2 ^ k → (polyOf (idft f v)).eval (omega S root k ^ i) = v.getD i 0 := by
  obtain ⟨j, rfl, ok, -⟩ := d.ok
  refine ⟨lt_of_lt_of_le (degree_polyOf_lt _) ?_, fun i hi => eval_idft ok v hi⟩
  have := idft_length ok v
  exact_mod_cast this

/-- **C40** (coset forward), for vectors that fit: values at `gen·ω^i`. -/
theorem C40_coset_dft_partial (d : Domain S root gen k f) (l : List F) (hl : l.length ≤ 2 ^ k) :
    cosetDft f l = (List.range (2 ^ k)).map (fun i => (polyOf l).eval (gen * omega S root k ^ i)) := by
  obtain ⟨j, rfl, ok, hg⟩ := d.ok; rw [cosetDft_eval ok hl, hg]

/-- **C40** (coset interpolation). -/
theorem C40_coset_idft (d : Domain S root gen k f) (v : List F) :
    (polyOf (cosetIdft f v)).degree < 2 ^ k ∧
    ∀ i, i < 2 ^ k → (polyOf (cosetIdft f v)).eval (gen * omega S root k ^ i) = v.getD i 0 := by
  obtain ⟨j, rfl, ok, hg⟩ := d.ok
  refine ⟨lt_of_lt_of_le (degree_polyOf_lt _) ?_, fun i hi => by rw [← hg]; exact eval_cosetIdft ok v hi⟩
  have := cosetIdft_length ok v
  exact_mod_cast this

omit [DecidableEq F] in
theorem pow_inj_on {w : F} {n : Nat} (hp : IsPrimitiveRoot w n) {g : F} (hg : g ≠ 0) :
    Set.InjOn (fun i => g * w ^ i) (Finset.range n : Set Nat) := by
  intro i hi j hj h
  simp only [Finset.coe_range, Set.mem_Iio] at hi hj
  exact hp.pow_inj hi hj (mul_left_cancel₀ hg h)

omit [DecidableEq F] in
/-- A polynomial of degree below `n` is determined by its values at `g·w^0, …, g·w^(n-1)`. -/
theorem eq_of_evals {w : F} {n : Nat} (hp : IsPrimitiveRoot w n) {g : F} (hg : g ≠ 0) {p q : F[X]} (h1 : p.degree < n)
    (h2 : q.degree < n) (h : ∀ i, i < n → p.eval (g * w ^ i) = q.eval (g * w ^ i)) : p = q := by
  refine eq_of_degrees_lt_of_eval_index_eq (s := Finset.range n) (v := fun i => g * w ^ i) ?_ ?_ ?_ ?_
  · exact pow_inj_on hp hg
  · simpa using h1
  · simpa using h2
  · intro i hi; exact h i (Finset.mem_range.mp hi)

theorem pointsMul_getD (p q : List F) (hpq : p.length = q.length) (i : Nat) (h : i < p.length) :
    (pointsMul p q).getD i 0 = p.getD i 0 * q.getD i 0 := by
  unfold pointsMul
  rw [if_neg (by omega), zipLong_getD _ _ _ _ (by omega), mul_comm]

/-- **C40** (products). Multiplying the value vectors and transforming back gives the product polynomial, whenever
it fits in the domain. -/
theorem C40_product (d : Domain S root gen k f) (p q : List F) (hp : p.length ≤ 2 ^ k) (hq : q.length ≤ 2 ^ k)
    (hpq : (polyOf p * polyOf q).degree < 2 ^ k) :
    polyOf (idft f (pointsMul (dft f p) (dft f q))) = polyOf p * polyOf q := by
  have hd := C40_domain d
  have hi := C40_idft_interpolates d (pointsMul (dft f p) (dft f q))
  refine eq_of_evals hd one_ne_zero (by exact_mod_cast hi.1) (by exact_mod_cast hpq) (fun i h => ?_)
  rw [one_mul, hi.2 i h, C40_dft_partial d p hp, C40_dft_partial d q hq,
    pointsMul_getD _ _ (by simp) _ (by simpa using h), getD_map_range h, getD_map_range h, eval_mul]

/-- **C40** (coset division). Dividing by `z_on_coset` divides by `X^n - 1` on the coset. -/
theorem C40_divide_by_z (d : Domain S root gen k f) (hz : gen ^ 2 ^ k ≠ 1) (p : F[X]) (v : List F)
    (hv : v.length = 2 ^ k) (hval : ∀ i, i < 2 ^ k → v.getD i 0 = ((X ^ 2 ^ k - 1) * p).eval (gen * omega S root k ^ i))
    (hp : p.degree < 2 ^ k) :
    ∃ u, divideByZOnCoset f v = some u ∧ polyOf (cosetIdft f u) = p := by
  obtain ⟨j, rfl, ok, hg⟩ := d.ok
  have hz' : f.zOnCoset ≠ 0 := by
    unfold Fft.zOnCoset; rw [ok.n, hg]; exact sub_ne_zero.mpr hz
  refine ⟨_, by simp only [divideByZOnCoset, invertUnwrap, if_neg hz']; rfl, ?_⟩
  have hi := C40_coset_idft d (v.map (fun a => a * f.zOnCoset⁻¹))
  refine eq_of_evals (C40_domain d) d.genOk (by exact_mod_cast hi.1) (by exact_mod_cast hp) (fun i h => ?_)
  rw [hi.2 i h, List.getD_eq_getElem _ _ (by simpa [hv] using h), List.getElem_map, ← List.getD_eq_getElem _ 0, hval i h]
  simp only [eval_mul, eval_sub, eval_pow, eval_X, eval_one]
  rw [mul_pow, ← pow_mul (omega S root (j + 1)), mul_comm i, pow_mul (omega S root (j + 1)), (C40_domain d).pow_eq_one,
    one_pow, mul_one]
  have : f.zOnCoset = gen ^ 2 ^ (j + 1) - 1 := by unfold Fft.zOnCoset; rw [ok.n, hg]
  rw [this] at hz' ⊢
  field_simp

/-- **C40 is false for vectors longer than the domain**: `dft` silently drops the coefficients from `2^k` on, so a
polynomial is transformed as if it were its remainder modulo `X^(2^k)`; the values are wrong whenever the dropped
part does not vanish at that point. -/
theorem C40_truncates_refuted (d : Domain S root gen k f) (l m : List F) (hl : l.length = 2 ^ k) :
    dft f (l ++ m) = dft f l ∧
    (∀ i, i < 2 ^ k → (polyOf m).eval (omega S root k ^ i) ≠ 0 →
      (dft f (l ++ m)).getD i 0 ≠ (polyOf (l ++ m)).eval (omega S root k ^ i)) := by
  have e : dft f (l ++ m) = dft f l := by
    unfold dft prepareFft
    congr 2
    obtain ⟨j, rfl, ok, -⟩ := d.ok
    rw [ok.n]
    unfold resize
    rw [List.take_append_of_le_length (by omega)]
    simp [hl]
  refine ⟨e, fun i hi hm h => hm ?_⟩
  rw [e, C40_dft_partial d l hl.le, getD_map_range hi, polyOf_append] at h
  simp only [eval_add, eval_mul, eval_pow, eval_X, hl] at h
  rw [← pow_mul, mul_comm i, pow_mul, (C40_domain d).pow_eq_one, one_pow, one_mul] at h
  linear_combination -h

/-! ### The hypotheses are met -/

theorem fr_two_ne_zero : (2 : FrV) ≠ 0 := by
  intro h
  apply neg_one_ne_one frParams_valid
  linear_combination -h

theorem fr_seven_ne_zero : (7 : FrV) ≠ 0 := by
  have : ((7 : Nat) : FrV) ≠ 0 := by
    rw [Ne, ZMod.natCast_eq_zero_iff]; decide +kernel
  exact_mod_cast this

set_option exponentiation.threshold 1600 in
theorem fr_gen_pow : (7 : FrV) ^ 2 ^ 28 ≠ 1 := by
  intro h
  have h1 : ((7 ^ 2 ^ 28 : Nat) : FrV) = ((1 : Nat) : FrV) := by
    rw [Nat.cast_pow]; exact_mod_cast h
  rw [ZMod.natCast_eq_natCast_iff] at h1
  have h2 : powMod frParams.m 256 7 (2 ^ 28) = 7 ^ 2 ^ 28 % frParams.m := powMod_eq _ _ _ _ (by norm_num)
  have h3 : powMod frParams.m 256 7 (2 ^ 28) ≠ 1 := by decide +kernel
  exact h3 (by rw [h2, h1]; exact Nat.mod_eq_of_lt (by decide +kernel))

/-- BN254's scalar field has a domain for every `k` from 1 to 28, with the generator 7, and the coset never meets it. -/
theorem C40_bn254 (k : Nat) (h1 : 1 ≤ k) (h28 : k ≤ 28) :
    (∃ f, Domain frS (denote frParams frRootOfUnity) 7 k f) ∧ (7 : FrV) ^ 2 ^ k ≠ 1 := by
  constructor
  · obtain ⟨f, hf⟩ := (C40_new frS (denote frParams frRootOfUnity) (7 : FrV) (by decide) fr_two_ne_zero frRoot_pow27
      fr_seven_ne_zero k).mpr ⟨h1, h28⟩
    exact ⟨f, by decide, fr_two_ne_zero, frRoot_pow27, fr_seven_ne_zero, hf⟩
  · intro h
    apply fr_gen_pow
    rw [show 28 = k + (28 - k) by omega, pow_add, pow_mul, h, one_pow]

/-- The small domain of the examples: `ZMod 17`, `S = 4`, root and generator 3. -/
theorem demoDomain (k : Nat) (h1 : 1 ≤ k) (h4 : k ≤ 4) : ∃ f, Domain 4 (3 : ZMod 17) 3 k f := by
  obtain ⟨f, hf⟩ := (C40_new 4 (3 : ZMod 17) 3 (by decide) (by decide) (by decide) (by decide) k).mpr ⟨h1, h4⟩
  exact ⟨f, by decide, by decide, by decide, by decide, hf⟩

example : (polyOf [1, 2, (3 : ZMod 17)] * polyOf [(4 : ZMod 17), 5]).degree < 2 ^ 2 := by
  have : polyOf [1, 2, (3 : ZMod 17)] * polyOf [(4 : ZMod 17), 5] = polyOf [4, 13, 22, 15] := by
    simp only [polyOf]
    simp only [map_ofNat, map_one]
    ring
  rw [this]
  have := degree_polyOf_lt [4, 13, 22, (15 : ZMod 17)]
  exact_mod_cast this

example : (3 : ZMod 17) ^ 2 ^ 2 ≠ 1 := by decide

/-! ### C68: blinding -/

/-- **C68**. `blind` adds a multiple of `X^n - 1` (`n` the previous length): the values at the `n`-th roots of unity
are unchanged, and it succeeds whenever there are at least as many coefficients as blinding scalars. -/
theorem C68_blind_partial (p ss : List F) (h : ss.length ≤ p.length) :
    ∃ q, blindFrom p 0 ss = some q ∧ polyOf q = polyOf p + (X ^ p.length - 1) * polyOf ss ∧
      ∀ x, x ^ p.length = 1 → (polyOf q).eval x = (polyOf p).eval x := by
  obtain ⟨q, h1, -, h3⟩ := blindFrom_spec ss p 0 (by omega)
  rw [pow_zero] at h3
  refine ⟨q, h1, h3, fun x hx => ?_⟩
  rw [h3]; simp [hx]

example : blindFrom [1, 2, 3, (4 : ZMod 17)] 0 [5, 6] = some [13, 13, 3, 4, 5, 6] := by decide

/-- **C68 is false of polynomials with fewer coefficients**: the zero polynomial, which `Coefficients::new` stores as
the empty vector, makes `blind` index out of range, for every blinding scalar. -/
theorem C68_blind_zero_refuted (n : Nat) (s : F) (ss : List F) : blindFrom (coeffsNew (List.replicate n (0 : F))) 0 (s :: ss) = none := by
  have : coeffsNew (List.replicate n (0 : F)) = [] :=
    polyOf_inj_trimmed (by rw [coeffsNew, polyOf_formatDegree, polyOf_replicate_zero]; rfl) (trimmed_formatDegree _)
      (by intro c hc; simp at hc)
  rw [this]
  simp [blindFrom, blindStep]

/-! ### C69: commitments to polynomials -/

/-- **C69**, for polynomials exactly as long as the domain: `commit` on the powers `r^0, r^1, …` that `setup` returns
is the evaluation at `r`.  Missing: shorter ones (`C69_commit_refuted`). -/
theorem C69_commit_partial (k : Nat) (r : F) (p : List F) (h : p.length = 2 ^ k) :
    commit p (polySetup k r) = some ((polyOf p).eval r) := by
  unfold polySetup; rw [commit_eq p r h.le, h]; simp

example : commit [1, 2, 3, (4 : ZMod 17)] (polySetup 2 2) = some (evaluate [1, 2, 3, (4 : ZMod 17)] 2) := by decide

/-- **C69 is false of shorter polynomials.** The powers are aligned at the high end, so the result is the evaluation
times `r^(2^k - length)`; appending zero coefficients, which leaves the polynomial unchanged, changes the commitment. -/
theorem C69_commit_refuted (k : Nat) (r : F) (p : List F) (h : p.length ≤ 2 ^ k) :
    commit p (polySetup k r) = some (r ^ (2 ^ k - p.length) * (polyOf p).eval r) ∧
    (r ^ (2 ^ k - p.length) ≠ 1 → (polyOf p).eval r ≠ 0 → commit p (polySetup k r) ≠ some ((polyOf p).eval r)) := by
  have e : commit p (polySetup k r) = some (r ^ (2 ^ k - p.length) * (polyOf p).eval r) := by
    unfold polySetup; exact commit_eq p r h
  refine ⟨e, fun h1 h2 h3 => h1 ?_⟩
  rw [e, Option.some.injEq] at h3
  exact mul_right_cancel₀ h2 (by rw [h3, one_mul])

example : commit [(1 : ZMod 17)] (polySetup 2 2) = some 8 ∧ commit [1, 0, 0, (0 : ZMod 17)] (polySetup 2 2) = some 1 := by
  decide

end Kogarashi.Props
