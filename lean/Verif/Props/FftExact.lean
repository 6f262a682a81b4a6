import Verif.Props.Poly

/-!
# C40 for vectors of every length

`dft` and `coset_dft` of a vector longer than the domain read its first `2^k` entries only.  Said for every vector, with the exact
condition under which the values are still those of the whole polynomial.
-/

namespace Kogarashi.Props

open Kogarashi Spec Groth16 Polynomial Kogarashi.Field

variable {F : Type} [_root_.Field F] [DecidableEq F] {S : Nat} {root gen : F} {k : Nat} {f : Fft F}

omit [DecidableEq F] in
theorem resize_take (l : List F) (n : Nat) : resize (l.take n) n = resize l n := by
  simp only [resize, List.take_take, Nat.min_self, List.length_take]
  congr 2
  omega

theorem dft_take (d : Domain S root gen k f) (l : List F) : dft f (l.take (2 ^ k)) = dft f l := by
  obtain ⟨j, rfl, ok, -⟩ := d.ok
  unfold dft prepareFft
  rw [ok.n, resize_take]

omit [DecidableEq F] in
theorem cosetScale_take (cs ss : List F) (n : Nat) : (cosetScale cs ss).take n = cosetScale (cs.take n) ss := by
  induction cs generalizing ss n with
  | nil => cases ss <;> simp [cosetScale]
  | cons c cs ih =>
    cases n with
    | zero => cases ss <;> simp [cosetScale]
    | succ n =>
      cases ss with
      | nil => simp [cosetScale]
      | cons s ss => simp [cosetScale, ih]

theorem cosetDft_take (d : Domain S root gen k f) (l : List F) : cosetDft f (l.take (2 ^ k)) = cosetDft f l := by
  unfold cosetDft
  rw [← cosetScale_take, dft_take d]

/-- **C40** (forward, every vector). `dft` lists the values of the polynomial made of the first `2^k` coefficients, `coset_dft` those
on the coset, and the inverse transform gives that polynomial back. -/
theorem C40_dft_exact (d : Domain S root gen k f) (l : List F) :
    dft f l = (List.range (2 ^ k)).map (fun i => (polyOf (l.take (2 ^ k))).eval (omega S root k ^ i)) ∧
    cosetDft f l = (List.range (2 ^ k)).map (fun i => (polyOf (l.take (2 ^ k))).eval (gen * omega S root k ^ i)) ∧
    polyOf (idft f (dft f l)) = polyOf (l.take (2 ^ k)) := by
  have h : (l.take (2 ^ k)).length ≤ 2 ^ k := by simp
  rw [← dft_take d, ← cosetDft_take d]
  exact ⟨C40_dft_partial d _ h, C40_coset_dft_partial d _ h, (C40_idft_dft_partial d _ h).1⟩

omit [DecidableEq F] in
theorem roots_dvd {w : F} {n : Nat} (hw : IsPrimitiveRoot w n) (hn : 0 < n) (q : F[X]) :
    (∀ i < n, q.eval (w ^ i) = 0) ↔ (X ^ n - 1 : F[X]) ∣ q := by
  constructor
  · intro h
    have hm : (X ^ n - 1 : F[X]).Monic := by simpa using monic_X_pow_sub_C (1 : F) hn.ne'
    rw [← modByMonic_eq_zero_iff_dvd hm]
    have hdeg : (X ^ n - 1 : F[X]).degree = n := by simpa using degree_X_pow_sub_C hn (1 : F)
    refine eq_of_evals hw one_ne_zero ?_ ?_ (fun i hi => ?_)
    · exact (degree_modByMonic_lt q hm).trans_eq hdeg
    · rw [degree_zero]; exact WithBot.bot_lt_coe n
    · rw [one_mul, eval_zero]
      have := congrArg (eval (w ^ i)) (modByMonic_add_div q (X ^ n - 1))
      rw [eval_add, eval_mul, h i hi, eval_sub, eval_pow, eval_X, eval_one, ← pow_mul, mul_comm, mul_comm i, pow_mul, hw.pow_eq_one,
        one_pow, sub_self, mul_zero, add_zero] at this
      exact this
  · rintro ⟨r, rfl⟩ i -
    rw [eval_mul, eval_sub, eval_pow, eval_X, eval_one, ← pow_mul, mul_comm i, pow_mul, hw.pow_eq_one, one_pow, sub_self, zero_mul]

/-- **C40** (when `dft` is right). The values `dft` lists are those of the polynomial exactly when `X^(2^k) - 1` divides the part made of
the coefficients from `2^k` on; in particular always for vectors that fit, and never when just one coefficient too many is given and is
not zero. -/
theorem C40_dft_right (d : Domain S root gen k f) (l : List F) :
    dft f l = (List.range (2 ^ k)).map (fun i => (polyOf l).eval (omega S root k ^ i)) ↔
      (X ^ 2 ^ k - 1 : F[X]) ∣ polyOf (l.drop (2 ^ k)) := by
  have hw := C40_domain d
  rw [← roots_dvd hw (by positivity), (C40_dft_exact d l).1, List.map_inj_left]
  simp only [List.mem_range]
  refine forall₂_congr fun i hi => ?_
  have e : (polyOf l).eval (omega S root k ^ i) =
      (polyOf (l.take (2 ^ k))).eval (omega S root k ^ i) + (polyOf (l.drop (2 ^ k))).eval (omega S root k ^ i) := by
    rcases le_total l.length (2 ^ k) with h | h
    · rw [List.take_of_length_le h, List.drop_of_length_le h]; simp [polyOf]
    · conv_lhs => rw [← List.take_append_drop (2 ^ k) l]
      rw [polyOf_append, List.length_take, Nat.min_eq_left h, eval_add, eval_mul, eval_pow, eval_X, ← pow_mul, mul_comm i, pow_mul,
        hw.pow_eq_one, one_pow, one_mul]
  rw [e]
  exact ⟨fun h => by linear_combination -h, fun h => by rw [h, add_zero]⟩

/-- **C40** (one coefficient too many). If it is not zero, the values listed are not those of the polynomial. -/
theorem C40_dft_one_more (d : Domain S root gen k f) (l : List F) (hl : l.length = 2 ^ k) (c : F) (hc : c ≠ 0) :
    dft f (l ++ [c]) ≠ (List.range (2 ^ k)).map (fun i => (polyOf (l ++ [c])).eval (omega S root k ^ i)) := by
  rw [Ne, C40_dft_right d, ← hl, List.drop_left, ← roots_dvd (hl ▸ C40_domain d) (by rw [hl]; positivity)]
  intro h
  have := h 0 (by rw [hl]; positivity)
  simp [polyOf, hc] at this

/-- A domain of four points and five coefficients, the last one dropped. -/
example : ∃ f, Domain 4 (3 : ZMod 17) 3 2 f ∧ dft f [1, 2, 3, 4, 5] = dft f [1, 2, 3, 4] := by
  obtain ⟨f, d⟩ := demoDomain 2 (by norm_num) (by norm_num)
  exact ⟨f, d, by rw [← dft_take d]; rfl⟩

/-- A vector longer than the domain whose transform is right: `1 + (X^4 - 1) X^4`. -/
example : ∃ f, Domain 4 (3 : ZMod 17) 3 2 f ∧
    dft f [1, 0, 0, 0, -1, 0, 0, 0, 1] =
      (List.range (2 ^ 2)).map (fun i => (polyOf [1, 0, 0, 0, -1, 0, 0, 0, (1 : ZMod 17)]).eval (omega 4 3 2 ^ i)) := by
  obtain ⟨f, d⟩ := demoDomain 2 (by norm_num) (by norm_num)
  refine ⟨f, d, (C40_dft_right d _).mpr ⟨1, ?_⟩⟩
  simp [polyOf]
  ring

/-- **C40** (products of any degree). Transforming back the pointwise product gives the remainder of the product modulo
`X^(2^k) - 1`: the coefficients past the domain wrap around.  Vectors of any length; only their first `2^k` entries count. -/
theorem C40_product_exact (d : Domain S root gen k f) (p q : List F) :
    polyOf (idft f (pointsMul (dft f p) (dft f q))) =
      (polyOf (p.take (2 ^ k)) * polyOf (q.take (2 ^ k))) %ₘ (X ^ 2 ^ k - 1) := by
  have hw := C40_domain d
  have hn : 0 < 2 ^ k := by positivity
  have hm : (X ^ 2 ^ k - 1 : F[X]).Monic := by simpa using monic_X_pow_sub_C (1 : F) hn.ne'
  have hdeg : (X ^ 2 ^ k - 1 : F[X]).degree = ((2 ^ k : Nat) : WithBot Nat) := by simpa using degree_X_pow_sub_C hn (1 : F)
  have hi := C40_idft_interpolates d (pointsMul (dft f p) (dft f q))
  refine eq_of_evals hw one_ne_zero (by exact_mod_cast hi.1) ((degree_modByMonic_lt _ hm).trans_eq hdeg) (fun i h => ?_)
  have e := congrArg (eval (omega S root k ^ i)) (modByMonic_add_div (polyOf (p.take (2 ^ k)) * polyOf (q.take (2 ^ k))) (X ^ 2 ^ k - 1))
  rw [eval_add, eval_mul, eval_sub, eval_pow, eval_X, eval_one, ← pow_mul, mul_comm i, pow_mul, hw.pow_eq_one,
    one_pow, sub_self, zero_mul, add_zero] at e
  rw [one_mul, hi.2 i h, e, (C40_dft_exact d p).1, (C40_dft_exact d q).1, pointsMul_getD _ _ (by simp) _ (by simpa using h),
    getD_map_range h, getD_map_range h, eval_mul]

/-- A product that wraps: `X^3 * X^2` on four points is `X`. -/
example : ∃ f, Domain 4 (3 : ZMod 17) 3 2 f ∧
    polyOf (idft f (pointsMul (dft f [0, 0, 0, 1]) (dft f [0, 0, 1]))) = (X : (ZMod 17)[X]) := by
  obtain ⟨f, d⟩ := demoDomain 2 (by norm_num) (by norm_num)
  refine ⟨f, d, ?_⟩
  rw [C40_product_exact d]
  have hm : (X ^ 4 - 1 : (ZMod 17)[X]).Monic := by simpa using monic_X_pow_sub_C (1 : ZMod 17) (n := 4) (by norm_num)
  have hd : (X ^ 4 - 1 : (ZMod 17)[X]).degree = 4 := by simpa using degree_X_pow_sub_C (n := 4) (by norm_num) (1 : ZMod 17)
  have e : polyOf (List.take (2 ^ 2) [0, 0, 0, (1 : ZMod 17)]) * polyOf (List.take (2 ^ 2) [0, 0, (1 : ZMod 17)]) =
      X + (X ^ 4 - 1) * X := by
    simp [polyOf]; ring
  rw [e, show (2 : Nat) ^ 2 = 4 by norm_num]
  refine (div_modByMonic_unique X X hm ⟨rfl, ?_⟩).2
  rw [degree_X, hd]
  norm_num

end Kogarashi.Props
