import Verif.Spec.Pairing
import Verif.Curve.Scale
import Mathlib.Algebra.Polynomial.Bivariate

/-!
# Lines as functions on the curve: the cocycle relation and reciprocity

Principal divisors are replaced by ideals of the coordinate ring (Mathlib's `CoordinateRing`), and Weil reciprocity by
an elementary identity between two lines. This is mathematics used by `Verif/Tower/Bilinear.lean`, not a model of code.
-/

namespace Kogarashi.Curve

open Spec WeierstrassCurve.Affine WeierstrassCurve.Affine.CoordinateRing Polynomial
open scoped Polynomial.Bivariate

set_option linter.unusedSectionVars false

variable {K : Type} [Field K] [DecidableEq K] {b : K}

/-! ### Ideals of points -/

/-- The maximal ideal of an affine point, the whole ring for the point at infinity. -/
noncomputable def pointIdeal : (curve b).Point → Ideal (curve b).CoordinateRing
  | .zero => ⊤
  | .some x y _ => XYIdeal (curve b) x (C y)

/-- The vertical line through a point. -/
noncomputable def vertClass : (curve b).Point → (curve b).CoordinateRing
  | .zero => 1
  | .some x _ _ => XClass (curve b) x

/-- The line through two points (vertical if they are opposite or one of them is at infinity). -/
noncomputable def lineClass : (curve b).Point → (curve b).Point → (curve b).CoordinateRing
  | .zero, B => vertClass B
  | .some x y h, .zero => vertClass (.some x y h)
  | .some x₁ y₁ h₁, .some x₂ y₂ _ =>
    if x₁ = x₂ ∧ y₁ = (curve b).negY x₂ y₂ then vertClass (.some x₁ y₁ h₁)
    else YClass (curve b) (linePolynomial x₁ y₁ ((curve b).slope x₁ x₂ y₁ y₂))

theorem lineClass_opp {x₁ y₁ x₂ y₂ : K} (h₁ : (curve b).Nonsingular x₁ y₁) (h₂ : (curve b).Nonsingular x₂ y₂)
    (h : x₁ = x₂ ∧ y₁ = (curve b).negY x₂ y₂) :
    lineClass (Point.some x₁ y₁ h₁) (Point.some x₂ y₂ h₂) = vertClass (Point.some x₁ y₁ h₁) := by
  rw [lineClass, if_pos h]

theorem lineClass_ne {x₁ y₁ x₂ y₂ : K} (h₁ : (curve b).Nonsingular x₁ y₁) (h₂ : (curve b).Nonsingular x₂ y₂)
    (h : ¬(x₁ = x₂ ∧ y₁ = (curve b).negY x₂ y₂)) :
    lineClass (Point.some x₁ y₁ h₁) (Point.some x₂ y₂ h₂) =
      YClass (curve b) (linePolynomial x₁ y₁ ((curve b).slope x₁ x₂ y₁ y₂)) := by
  rw [lineClass, if_neg h]

theorem lineClass_zero (x y : K) (h : (curve b).Nonsingular x y) :
    lineClass (Point.some x y h) Point.zero = vertClass (Point.some x y h) := rfl

theorem vertClass_ne_zero (A : (curve b).Point) : vertClass A ≠ 0 := by
  cases A with
  | zero => exact one_ne_zero
  | some x y h => exact XClass_ne_zero x

theorem lineClass_ne_zero (A B : (curve b).Point) : lineClass A B ≠ 0 := by
  cases A with
  | zero => exact vertClass_ne_zero B
  | some x y h =>
    cases B with
    | zero => rw [lineClass_zero]; exact vertClass_ne_zero _
    | some x' y' h' =>
      by_cases hc : x = x' ∧ y = (curve b).negY x' y'
      · rw [lineClass_opp h h' hc]; exact vertClass_ne_zero _
      · rw [lineClass_ne h h' hc]; exact YClass_ne_zero _

theorem span_vertClass (A : (curve b).Point) : Ideal.span {vertClass A} = pointIdeal A * pointIdeal (-A) := by
  cases A with
  | zero =>
    change Ideal.span {1} = ⊤ * ⊤
    rw [Ideal.span_singleton_one, Ideal.mul_top]
  | some x y h =>
    rw [Point.neg_some, mul_comm]
    exact (XYIdeal_neg_mul h).symm

theorem span_lineClass (A B : (curve b).Point) :
    Ideal.span {lineClass A B} = pointIdeal A * pointIdeal B * pointIdeal (-(A + B)) := by
  cases A with
  | zero =>
    change Ideal.span {vertClass B} = ⊤ * pointIdeal B * pointIdeal (-(0 + B))
    rw [zero_add, Ideal.top_mul, span_vertClass]
  | some x₁ y₁ h₁ =>
    cases B with
    | zero =>
      change Ideal.span {vertClass (Point.some x₁ y₁ h₁)} = pointIdeal (Point.some x₁ y₁ h₁) * ⊤ *
        pointIdeal (-(Point.some x₁ y₁ h₁ + 0))
      rw [add_zero, Ideal.mul_top, span_vertClass]
    | some x₂ y₂ h₂ =>
      by_cases hxy : x₁ = x₂ ∧ y₁ = (curve b).negY x₂ y₂
      · have e : Point.some x₁ y₁ h₁ = -Point.some x₂ y₂ h₂ := by
          rw [Point.neg_some]
          exact some_congr hxy.1 hxy.2
        have e2 : Point.some x₂ y₂ h₂ = -Point.some x₁ y₁ h₁ := by rw [e, neg_neg]
        rw [lineClass_opp h₁ h₂ hxy, span_vertClass, ← e2]
        rw [e, neg_add_cancel, neg_zero]
        exact (Ideal.mul_top _).symm
      · rw [lineClass_ne h₁ h₂ hxy]
        have h3 := span_vertClass (Point.some x₁ y₁ h₁ + Point.some x₂ y₂ h₂)
        have key := XYIdeal_mul_XYIdeal h₁.1 h₂.1 hxy
        have hv := vertClass_ne_zero (Point.some x₁ y₁ h₁ + Point.some x₂ y₂ h₂)
        have hadd := Point.add_some hxy (h₁ := h₁) (h₂ := h₂)
        have k2 : Ideal.span {vertClass (Point.some x₁ y₁ h₁ + Point.some x₂ y₂ h₂)} *
            (pointIdeal (Point.some x₁ y₁ h₁) * pointIdeal (Point.some x₂ y₂ h₂)) =
            Ideal.span {YClass (curve b) (linePolynomial x₁ y₁ ((curve b).slope x₁ x₂ y₁ y₂))} *
              pointIdeal (Point.some x₁ y₁ h₁ + Point.some x₂ y₂ h₂) := by
          rw [hadd]; exact key
        generalize Point.some x₁ y₁ h₁ + Point.some x₂ y₂ h₂ = S at *
        rw [← Ideal.span_singleton_mul_right_inj hv, ← mul_assoc, k2, mul_assoc, ← h3, mul_comm]

/-! ### Norms and units -/

/-- The norm has leading coefficient `±1`. -/
def unitLead (x : (curve b).CoordinateRing) : Prop := (Algebra.norm K[X] x).leadingCoeff ^ 2 = 1

theorem unitLead.mul {x y : (curve b).CoordinateRing} (hx : unitLead x) (hy : unitLead y) : unitLead (x * y) := by
  unfold unitLead at *
  rw [map_mul, leadingCoeff_mul, mul_pow, hx, hy, one_mul]

theorem unitLead_vert (A : (curve b).Point) : unitLead (vertClass A) := by
  cases A with
  | zero =>
    unfold unitLead vertClass
    rw [map_one, leadingCoeff_one, one_pow]
  | some x y h =>
    have e : vertClass (Point.some x y h) = (X - C x : K[X]) • (1 : (curve b).CoordinateRing) + (0 : K[X]) • mk (curve b) Y := by
      rw [zero_smul, add_zero, smul, mul_one]; rfl
    unfold unitLead
    rw [e, norm_smul_basis]
    simp [leadingCoeff_pow, leadingCoeff_X_sub_C]

theorem unitLead_line (A B : (curve b).Point) : unitLead (lineClass A B) := by
  cases A with
  | zero => exact unitLead_vert B
  | some x₁ y₁ h₁ =>
    cases B with
    | zero => rw [lineClass_zero]; exact unitLead_vert _
    | some x₂ y₂ h₂ =>
      by_cases hc : x₁ = x₂ ∧ y₁ = (curve b).negY x₂ y₂
      · rw [lineClass_opp h₁ h₂ hc]; exact unitLead_vert _
      · rw [lineClass_ne h₁ h₂ hc]
        generalize (curve b).slope x₁ x₂ y₁ y₂ = ℓ
        have e : YClass (curve b) (linePolynomial x₁ y₁ ℓ) = (-linePolynomial x₁ y₁ ℓ) • (1 : (curve b).CoordinateRing) +
            (1 : K[X]) • mk (curve b) Y := by
          rw [one_smul, smul, mul_one, YClass, map_sub, map_neg, map_neg]; ring
        unfold unitLead
        have hd := degree_norm_smul_basis (W' := curve b) (-linePolynomial x₁ y₁ ℓ) 1
        have hle : (linePolynomial x₁ y₁ ℓ).degree ≤ 1 := by
          unfold linePolynomial
          compute_degree
        rw [e, norm_smul_basis]
        have hc : ((-linePolynomial x₁ y₁ ℓ) ^ 2 - -linePolynomial x₁ y₁ ℓ * 1 * (C (0 : K) * X + C 0) -
            1 ^ 2 * (X ^ 3 + C (0 : K) * X ^ 2 + C 0 * X + C b)) =
            -(X ^ 3 + (C b - linePolynomial x₁ y₁ ℓ ^ 2)) := by
          simp only [map_zero]; ring
        rw [hc, leadingCoeff_neg]
        have hm : (X ^ 3 + (C b - linePolynomial x₁ y₁ ℓ ^ 2) : K[X]).Monic := by
          apply monic_X_pow_add
          refine (degree_sub_le _ _).trans_lt (max_lt ?_ ?_)
          · exact degree_C_le.trans_lt (by norm_num)
          · rw [degree_pow]
            calc 2 • (linePolynomial x₁ y₁ ℓ).degree ≤ 2 • (1 : WithBot ℕ) := nsmul_le_nsmul_right hle 2
              _ < 3 := by decide
        rw [hm.leadingCoeff]; ring

theorem unit_const {u : (curve b).CoordinateRing} (hu : IsUnit u) : ∃ c : K, u = (C c : K[X]) • 1 := by
  obtain ⟨p, q, rfl⟩ := exists_smul_basis_eq u
  have hn : IsUnit (Algebra.norm K[X] (p • (1 : (curve b).CoordinateRing) + q • mk (curve b) Y)) := hu.map _
  have hd := degree_eq_zero_of_isUnit hn
  rw [degree_norm_smul_basis] at hd
  have hq : q = 0 := by
    by_contra h
    have h1 : (0 : WithBot ℕ) ≤ q.degree := zero_le_degree_iff.mpr h
    have h2 : (3 : WithBot ℕ) ≤ 2 • q.degree + 3 := by
      have : (0 : WithBot ℕ) ≤ 2 • q.degree := nsmul_nonneg h1 2
      calc (3 : WithBot ℕ) = 0 + 3 := (zero_add _).symm
        _ ≤ _ := by gcongr
    have h3 : (3 : WithBot ℕ) ≤ 0 := h2.trans ((le_max_right _ _).trans hd.le)
    exact absurd h3 (by decide)
  subst hq
  have hp : 2 • p.degree ≤ 0 := (le_max_left _ _).trans hd.le
  have hp' : p.degree ≤ 0 := by
    by_contra h
    push Not at h
    have : (0 : WithBot ℕ) < 2 • p.degree := by
      rw [two_nsmul]
      exact h.trans_le (le_add_of_nonneg_right h.le)
    exact absurd hp (not_le.mpr this)
  refine ⟨p.coeff 0, ?_⟩
  rw [zero_smul, add_zero, ← eq_C_of_degree_le_zero hp']

/-! ### Values at a point -/

theorem poly_at {px py : K} (h : py ^ 2 = px ^ 3 + b) : (curve b).polynomial.evalEval px py = 0 := by
  rw [WeierstrassCurve.Affine.evalEval_polynomial]
  linear_combination h

/-- The value of a function at a point of the curve. -/
noncomputable def valueAt {px py : K} (h : py ^ 2 = px ^ 3 + b) : (curve b).CoordinateRing →+* K :=
  AdjoinRoot.evalEval (poly_at h)

/-- Functions with the same divisor have the same values, up to a fourth root of unity. -/
theorem value_of_span {x y : (curve b).CoordinateRing} (hs : Ideal.span {x} = Ideal.span {y}) (hx : unitLead x)
    (hy : unitLead y) {px py : K} (h : py ^ 2 = px ^ 3 + b) : ∃ c : K, c ^ 4 = 1 ∧ valueAt h x = c * valueAt h y := by
  obtain ⟨u, hu⟩ := Ideal.span_singleton_eq_span_singleton.mp hs.symm
  obtain ⟨c, hc⟩ := unit_const u.isUnit
  refine ⟨c, ?_, ?_⟩
  · unfold unitLead at hx hy
    rw [← hu, map_mul, leadingCoeff_mul, mul_pow, hy, one_mul] at hx
    have e : (u : (curve b).CoordinateRing) = (C c : K[X]) • 1 + (0 : K[X]) • mk (curve b) Y := by rw [hc, zero_smul, add_zero]
    rw [e, norm_smul_basis] at hx
    simp only [mul_zero, zero_mul, sub_zero, ne_eq, OfNat.ofNat_ne_zero, not_false_eq_true, zero_pow, leadingCoeff_pow,
      leadingCoeff_C] at hx
    rw [← hx]; ring
  · rw [← hu, map_mul, hc, smul, mul_one, mul_comm]
    congr 1
    unfold valueAt
    rw [AdjoinRoot.evalEval_mk, evalEval_C, eval_C]

/-- The difference of the abscissas, `1` if a point is at infinity. -/
def xdiff : (curve b).Point → (curve b).Point → K
  | .some x _ _, .some px _ _ => px - x
  | _, _ => 1

/-- The value at `P` of the line through `A` and `B`; vertical lines and lines at infinity are replaced by `1`. -/
def ev : (curve b).Point → (curve b).Point → (curve b).Point → K
  | .some x₁ y₁ _, .some x₂ y₂ _, .some px py _ =>
    if x₁ = x₂ ∧ y₁ = (curve b).negY x₂ y₂ then 1
    else (py - y₁) - (curve b).slope x₁ x₂ y₁ y₂ * (px - x₁)
  | _, _, _ => 1

theorem ev_zero_left (B P : (curve b).Point) : ev 0 B P = 1 := rfl
theorem ev_zero_mid (A P : (curve b).Point) : ev A 0 P = 1 := by cases A <;> rfl
theorem ev_zero_right (A B : (curve b).Point) : ev A B 0 = 1 := by cases A <;> cases B <;> rfl

theorem ev_ne {x₁ y₁ x₂ y₂ px py : K} (h₁ : (curve b).Nonsingular x₁ y₁) (h₂ : (curve b).Nonsingular x₂ y₂)
    (hP : (curve b).Nonsingular px py) (h : ¬(x₁ = x₂ ∧ y₁ = (curve b).negY x₂ y₂)) :
    ev (.some x₁ y₁ h₁) (.some x₂ y₂ h₂) (.some px py hP) = (py - y₁) - (curve b).slope x₁ x₂ y₁ y₂ * (px - x₁) := by
  rw [ev, if_neg h]

theorem opp_iff {x₁ y₁ x₂ y₂ : K} (h₁ : (curve b).Nonsingular x₁ y₁) (h₂ : (curve b).Nonsingular x₂ y₂) :
    (x₁ = x₂ ∧ y₁ = (curve b).negY x₂ y₂) ↔ Point.some x₁ y₁ h₁ + Point.some x₂ y₂ h₂ = 0 := by
  constructor
  · rintro ⟨h, h'⟩
    exact Point.add_of_Y_eq h h'
  · intro h
    by_contra hc
    rw [Point.add_some hc] at h
    exact Point.some_ne_zero _ h

theorem ev_opp {A B : (curve b).Point} (h : A + B = 0) (P : (curve b).Point) : ev A B P = 1 := by
  cases A with
  | zero => rfl
  | some x₁ y₁ h₁ =>
    cases B with
    | zero => rfl
    | some x₂ y₂ h₂ =>
      cases P with
      | zero => rfl
      | some px py hP => rw [ev, if_pos ((opp_iff h₁ h₂).mpr h)]

/-- The line value of the specification is `ev` away from the exceptional cases. -/
theorem ev_lineValue {A B : (curve b).Point} (hA : A ≠ 0) (hB : B ≠ 0) (h : A + B ≠ 0) {px py : K}
    (hP : (curve b).Nonsingular px py) : lineValue A B px py = ev A B (.some px py hP) := by
  cases A with
  | zero => exact absurd rfl hA
  | some x₁ y₁ h₁ =>
    cases B with
    | zero => exact absurd rfl hB
    | some x₂ y₂ h₂ =>
      rw [ev_ne h₁ h₂ hP (fun e => h ((opp_iff h₁ h₂).mp e))]
      rfl

/-- The equation of the line through two points that are not opposite. -/
theorem line_data {x₁ y₁ x₂ y₂ : K} (h₁ : (curve b).Nonsingular x₁ y₁) (h₂ : (curve b).Nonsingular x₂ y₂)
    (h : ¬(x₁ = x₂ ∧ y₁ = (curve b).negY x₂ y₂)) :
    ∃ l n x₃ y₃, ∃ h₃ : (curve b).Nonsingular x₃ y₃,
      -(Point.some x₁ y₁ h₁ + Point.some x₂ y₂ h₂) = Point.some x₃ y₃ h₃ ∧
      l = (curve b).slope x₁ x₂ y₁ y₂ ∧ y₁ = l * x₁ + n ∧ y₂ = l * x₂ + n ∧ y₃ = l * x₃ + n ∧ x₁ + x₂ + x₃ = l ^ 2 ∧
      x₁ * x₂ + x₁ * x₃ + x₂ * x₃ = -(2 * l * n) ∧ x₁ * x₂ * x₃ = n ^ 2 - b := by
  have e1 := (nonsingular_curve.mp h₁).1
  have e2 := (nonsingular_curve.mp h₂).1
  have key : (curve b).slope x₁ x₂ y₁ y₂ * (x₁ - x₂) = y₁ - y₂ ∧
      (curve b).slope x₁ x₂ y₁ y₂ * (y₁ + y₂) = x₁ ^ 2 + x₁ * x₂ + x₂ ^ 2 := by
    by_cases hx : x₁ = x₂
    · subst hx
      have hy : y₁ ≠ (curve b).negY x₁ y₂ := fun e => h ⟨rfl, e⟩
      obtain rfl : y₁ = y₂ := Y_eq_of_Y_ne h₁.1 h₂.1 rfl hy
      rw [slope_of_Y_ne rfl hy]
      rw [negY_curve] at hy
      have hd : y₁ + y₁ ≠ 0 := fun e => hy (by linear_combination e)
      simp only [negY_curve, mul_zero, zero_mul, add_zero, sub_zero, sub_neg_eq_add]
      refine ⟨by ring, ?_⟩
      rw [div_mul_cancel₀ _ hd]; ring
    · rw [slope_of_X_ne hx]
      have hd := sub_ne_zero.mpr hx
      refine ⟨div_mul_cancel₀ _ hd, ?_⟩
      rw [div_mul_eq_mul_div, div_eq_iff hd]
      linear_combination e1 - e2
  have hadd := Point.add_some h (h₁ := h₁) (h₂ := h₂)
  obtain ⟨k1, k2⟩ := key
  refine ⟨(curve b).slope x₁ x₂ y₁ y₂, y₁ - (curve b).slope x₁ x₂ y₁ y₂ * x₁,
    (curve b).addX x₁ x₂ ((curve b).slope x₁ x₂ y₁ y₂),
    (curve b).negY _ ((curve b).addY x₁ x₂ y₁ ((curve b).slope x₁ x₂ y₁ y₂)),
    (nonsingular_neg _ _).mpr (nonsingular_add h₁ h₂ h), ?_, rfl, by ring,
    by linear_combination k1, ?_, ?_, ?_, ?_⟩
  · rw [hadd, Point.neg_some]
  · rw [addY, negY_curve, negY_curve, negAddY]; ring
  · simp only [addX]; ring
  · simp only [addX]; linear_combination k2 - (curve b).slope x₁ x₂ y₁ y₂ * k1
  · simp only [addX]
    linear_combination -e1 + x₁ * k2 - x₁ * (curve b).slope x₁ x₂ y₁ y₂ * k1

theorem ev_symm (A B P : (curve b).Point) : ev A B P = ev B A P := by
  by_cases h : A + B = 0
  · rw [ev_opp h, ev_opp (by rw [add_comm]; exact h)]
  cases A with
  | zero => rw [show (Point.zero : (curve b).Point) = 0 from rfl, ev_zero_left, ev_zero_mid]
  | some x₁ y₁ h₁ =>
    cases B with
    | zero => rw [show (Point.zero : (curve b).Point) = 0 from rfl, ev_zero_left, ev_zero_mid]
    | some x₂ y₂ h₂ =>
      cases P with
      | zero => rfl
      | some px py hP =>
        have hc := fun e => h ((opp_iff h₁ h₂).mp e)
        have hc' := fun e => h (by rw [add_comm]; exact (opp_iff h₂ h₁).mp e)
        rw [ev_ne h₁ h₂ hP hc, ev_ne h₂ h₁ hP hc']
        have hs : (curve b).slope x₁ x₂ y₁ y₂ = (curve b).slope x₂ x₁ y₂ y₁ := by
          by_cases hx : x₁ = x₂
          · subst hx
            obtain rfl : y₁ = y₂ := Y_eq_of_Y_ne h₁.1 h₂.1 rfl (fun e => hc ⟨rfl, e⟩)
            rfl
          · rw [slope_of_X_ne hx, slope_of_X_ne (Ne.symm hx), ← neg_sub y₂, ← neg_sub x₂, neg_div_neg_eq]
        obtain ⟨l, n, -, -, -, -, hl, e1, e2, -⟩ := line_data h₁ h₂ hc
        rw [← hs, ← hl]
        linear_combination e2 - e1

/-- The product of the values of a line at a point and its opposite. -/
theorem ev_norm {A B P : (curve b).Point} (hA : A ≠ 0) (hB : B ≠ 0) (hP0 : P ≠ 0) (h : A + B ≠ 0) :
    ev A B P * ev A B (-P) = -(xdiff A P * xdiff B P * xdiff (A + B) P) := by
  cases A with
  | zero => exact absurd rfl hA
  | some x₁ y₁ h₁ =>
    cases B with
    | zero => exact absurd rfl hB
    | some x₂ y₂ h₂ =>
      cases P with
      | zero => exact absurd rfl hP0
      | some px py hP =>
        have hc := fun e => h ((opp_iff h₁ h₂).mp e)
        obtain ⟨l, n, x₃, y₃, h₃, h3, hl, e1, e2, -, s1, s2, s3⟩ := line_data h₁ h₂ hc
        have hS : Point.some x₁ y₁ h₁ + Point.some x₂ y₂ h₂ = -Point.some x₃ y₃ h₃ := by rw [← h3, neg_neg]
        have hS' : xdiff (Point.some x₁ y₁ h₁ + Point.some x₂ y₂ h₂) (Point.some px py hP) = px - x₃ := by
          rw [hS, Point.neg_some]; rfl
        have hp := (nonsingular_curve.mp hP).1
        rw [hS', Point.neg_some, ev_ne h₁ h₂ _ hc, ev_ne h₁ h₂ _ hc, ← hl, negY_curve]
        simp only [xdiff]
        rw [e1]
        linear_combination -hp - px ^ 2 * s1 + px * s2 - s3

/-- Reciprocity between two lines. -/
theorem ev_recip {A B P Q : (curve b).Point} (hA : A ≠ 0) (hB : B ≠ 0) (hP : P ≠ 0) (hQ : Q ≠ 0) (h : A + B ≠ 0)
    (h' : P + Q ≠ 0) :
    ev P Q A * ev P Q B * ev P Q (-(A + B)) = -(ev A B P * ev A B Q * ev A B (-(P + Q))) := by
  cases A with
  | zero => exact absurd rfl hA
  | some x₁ y₁ h₁ =>
    cases B with
    | zero => exact absurd rfl hB
    | some x₂ y₂ h₂ =>
      cases P with
      | zero => exact absurd rfl hP
      | some u₁ v₁ k₁ =>
        cases Q with
        | zero => exact absurd rfl hQ
        | some u₂ v₂ k₂ =>
          have hc := fun e => h ((opp_iff h₁ h₂).mp e)
          have hd := fun e => h' ((opp_iff k₁ k₂).mp e)
          obtain ⟨l, n, x₃, y₃, h₃, h3, hl, e1, e2, e3, s1, s2, s3⟩ := line_data h₁ h₂ hc
          obtain ⟨m, k, u₃, v₃, k₃, k3, hm, f1, f2, f3, t1, t2, t3⟩ := line_data k₁ k₂ hd
          rw [h3, k3, ev_ne h₁ h₂ k₁ hc, ev_ne h₁ h₂ k₂ hc, ev_ne h₁ h₂ k₃ hc, ev_ne k₁ k₂ h₁ hd, ev_ne k₁ k₂ h₂ hd,
            ev_ne k₁ k₂ h₃ hd, ← hl, ← hm]
          rw [e3, f3, e2, f2, e1, f1]
          linear_combination (l - m) ^ 3 * s3 + (l - m) ^ 2 * (n - k) * s2 + (l - m) * (n - k) ^ 2 * s1 -
            ((l - m) ^ 3 * t3 + (l - m) ^ 2 * (n - k) * t2 + (l - m) * (n - k) ^ 2 * t1)

/-! ### Powers that kill vertical lines -/

section Kill

variable {E : Nat} (h4 : 4 ∣ E)

include h4 in
theorem neg_pow_kill (z : K) : (-z) ^ E = z ^ E := by
  obtain ⟨k, rfl⟩ := h4
  rw [pow_mul, pow_mul, Even.neg_pow (by decide)]

include h4 in
theorem xdiff_symm (A P : (curve b).Point) : xdiff A P ^ E = xdiff P A ^ E := by
  cases A with
  | zero => cases P <;> rfl
  | some x y h =>
    cases P with
    | zero => rfl
    | some px py hp =>
      simp only [xdiff]
      rw [← neg_sub, neg_pow_kill h4]

include h4 in
theorem ev_neg_kill {A B P : (curve b).Point} (hA : xdiff A P ^ E = 1) (hB : xdiff B P ^ E = 1)
    (hS : xdiff (A + B) P ^ E = 1) : ev A B P ^ E * ev A B (-P) ^ E = 1 := by
  by_cases h : A + B = 0
  · rw [ev_opp h, ev_opp h, one_pow, mul_one]
  by_cases hA0 : A = 0
  · rw [hA0, ev_zero_left, ev_zero_left, one_pow, mul_one]
  by_cases hB0 : B = 0
  · rw [hB0, ev_zero_mid, ev_zero_mid, one_pow, mul_one]
  by_cases hP0 : P = 0
  · rw [hP0, neg_zero, ev_zero_right, one_pow, mul_one]
  rw [← mul_pow, ev_norm hA0 hB0 hP0 h, neg_pow_kill h4, mul_pow, mul_pow, hA, hB, hS, one_mul, one_mul]

theorem valueAt_vert (A : (curve b).Point) {px py : K} (hP : (curve b).Nonsingular px py) :
    valueAt (nonsingular_curve.mp hP).1 (vertClass A) = xdiff A (.some px py hP) := by
  cases A with
  | zero => exact map_one _
  | some x y h =>
    unfold valueAt
    change AdjoinRoot.evalEval _ (AdjoinRoot.mk _ (C (X - C x))) = _
    rw [AdjoinRoot.evalEval_mk, evalEval_C]
    simp [xdiff]

theorem valueAt_line (A B : (curve b).Point) {px py : K} (hP : (curve b).Nonsingular px py)
    (hA : xdiff A (.some px py hP) ^ E = 1) (hB : xdiff B (.some px py hP) ^ E = 1) :
    valueAt (nonsingular_curve.mp hP).1 (lineClass A B) ^ E = ev A B (.some px py hP) ^ E := by
  cases A with
  | zero =>
    change valueAt _ (vertClass B) ^ E = 1 ^ E
    rw [valueAt_vert B hP, hB, one_pow]
  | some x₁ y₁ h₁ =>
    cases B with
    | zero =>
      rw [lineClass_zero, valueAt_vert _ hP, hA]
      exact (one_pow _).symm
    | some x₂ y₂ h₂ =>
      by_cases hc : x₁ = x₂ ∧ y₁ = (curve b).negY x₂ y₂
      · rw [lineClass_opp h₁ h₂ hc, valueAt_vert _ hP, hA, ev_opp ((opp_iff h₁ h₂).mp hc), one_pow]
      · rw [lineClass_ne h₁ h₂ hc, ev_ne h₁ h₂ hP hc]
        congr 1
        unfold valueAt
        change AdjoinRoot.evalEval _ (AdjoinRoot.mk _ (Y - C (linePolynomial x₁ y₁ _))) = _
        rw [AdjoinRoot.evalEval_mk]
        rw [evalEval_sub, evalEval_C, evalEval_X]
        simp [linePolynomial]
        ring

include h4 in
/-- Lines form a cocycle. -/
theorem ev_cocycle {A B D P : (curve b).Point} (hA : xdiff A P ^ E = 1) (hB : xdiff B P ^ E = 1)
    (hD : xdiff D P ^ E = 1) (hAB : xdiff (A + B) P ^ E = 1) (hBD : xdiff (B + D) P ^ E = 1) :
    ev A B P ^ E * ev (A + B) D P ^ E = ev B D P ^ E * ev A (B + D) P ^ E := by
  cases P with
  | zero =>
    rw [show (Point.zero : (curve b).Point) = 0 from rfl, ev_zero_right, ev_zero_right, ev_zero_right, ev_zero_right]
  | some px py hP =>
    have hs : Ideal.span {lineClass A B * lineClass (A + B) D * vertClass (B + D)} =
        Ideal.span {lineClass B D * lineClass A (B + D) * vertClass (A + B)} := by
      simp only [← Ideal.span_singleton_mul_span_singleton, span_lineClass, span_vertClass]
      rw [add_assoc]
      ring
    obtain ⟨c, hc, e⟩ := value_of_span hs (((unitLead_line _ _).mul (unitLead_line _ _)).mul (unitLead_vert _))
      (((unitLead_line _ _).mul (unitLead_line _ _)).mul (unitLead_vert _)) (nonsingular_curve.mp hP).1
    have e' := congrArg (· ^ E) e
    simp only [map_mul, mul_pow] at e'
    rw [valueAt_line A B hP hA hB, valueAt_line (A + B) D hP hAB hD, valueAt_line B D hP hB hD,
      valueAt_line A (B + D) hP hA hBD, valueAt_vert _ hP, valueAt_vert _ hP, hAB, hBD, mul_one, mul_one] at e'
    have hcE : c ^ E = 1 := by
      obtain ⟨k, hk⟩ := h4
      rw [hk, pow_mul c, hc, one_pow]
    rw [e', hcE, one_mul]

include h4 in
/-- Reciprocity after the power. -/
theorem ev_bimul {A B P Q : (curve b).Point} (hk : ∀ U ∈ [A, B, A + B], ∀ V ∈ [P, Q, P + Q], xdiff U V ^ E = 1) :
    ev A B P ^ E * ev A B Q ^ E * ev P Q (A + B) ^ E = ev P Q A ^ E * ev P Q B ^ E * ev A B (P + Q) ^ E := by
  simp only [List.mem_cons, List.not_mem_nil, or_false, forall_eq_or_imp, forall_eq] at hk
  obtain ⟨⟨a1, a2, a3⟩, ⟨b1, b2, b3⟩, c1, c2, c3⟩ := hk
  have sw : ∀ {U V : (curve b).Point}, xdiff U V ^ E = 1 → xdiff V U ^ E = 1 := fun h => (xdiff_symm h4 _ _).trans h
  by_cases hA : A = 0
  · subst hA; simp [ev_zero_left, ev_zero_right]
  by_cases hB : B = 0
  · subst hB; simp [ev_zero_mid, ev_zero_right]
  by_cases hP : P = 0
  · subst hP; simp [ev_zero_left, ev_zero_right]
  by_cases hQ : Q = 0
  · subst hQ; simp [ev_zero_mid, ev_zero_right]
  have n1 := ev_neg_kill h4 a3 b3 c3
  have n2 := ev_neg_kill h4 (sw c1) (sw c2) (sw c3)
  by_cases hS : A + B = 0
  · rw [ev_opp hS, ev_opp hS, ev_opp hS, hS, ev_zero_right]
    have n3 := ev_neg_kill h4 (sw a1) (sw a2) (sw a3)
    rw [show B = -A from (neg_eq_of_add_eq_zero_right hS).symm, n3]
    ring
  by_cases hR : P + Q = 0
  · rw [ev_opp hR, ev_opp hR, ev_opp hR, hR, ev_zero_right]
    have n3 := ev_neg_kill h4 a1 b1 c1
    rw [show Q = -P from (neg_eq_of_add_eq_zero_right hR).symm, n3]
    ring
  have r := congrArg (· ^ E) (ev_recip hA hB hP hQ hS hR)
  simp only [neg_pow_kill h4, mul_pow] at r
  linear_combination (ev P Q A ^ E * ev P Q B ^ E * ev A B (P + Q) ^ E) * n2 -
    (ev A B P ^ E * ev A B Q ^ E * ev P Q (A + B) ^ E) * n1 - (ev P Q (A + B) ^ E * ev A B (P + Q) ^ E) * r

end Kill

/-- Line values are carried along maps `(x, y) ↦ (σ x · s², σ y · s³)`. -/
theorem ev_scale {b' : K} (σ : K →+* K) {s : K} (hs : s ≠ 0) (hb : b' = σ b * s ^ 6) {A B P : (curve b).Point}
    (hA : A ≠ 0) (hB : B ≠ 0) (hP0 : P ≠ 0) (h : A + B ≠ 0) :
    ev (scale σ hs hb A) (scale σ hs hb B) (scale σ hs hb P) = σ (ev A B P) * s ^ 3 := by
  have h' : scale σ hs hb A + scale σ hs hb B ≠ 0 := by
    rw [← map_add, Ne, ← map_zero (scale σ hs hb), (scale_injective σ hs hb).eq_iff]; exact h
  cases A with
  | zero => exact absurd rfl hA
  | some x₁ y₁ h₁ =>
    cases B with
    | zero => exact absurd rfl hB
    | some x₂ y₂ h₂ =>
      cases P with
      | zero => exact absurd rfl hP0
      | some px py hP =>
        rw [scale_some, scale_some] at h' ⊢
        rw [scale_some, ev_ne _ _ _ (fun e => h' ((opp_iff _ _).mp e)), ev_ne _ _ _ (fun e => h ((opp_iff _ _).mp e)),
          scale_slope (b := b) σ hs]
        simp only [map_sub, map_mul]
        ring

end Kogarashi.Curve
