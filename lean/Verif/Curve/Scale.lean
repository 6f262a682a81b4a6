import Verif.Curve.WeierstrassProof

/-!
# Maps `(x, y) ↦ (σ x · s², σ y · s³)` between curves are group homomorphisms

Frobenius maps and untwisting maps are of this form.
-/

namespace Kogarashi.Curve

open Spec WeierstrassCurve.Affine

variable {F K : Type} [Field F] [DecidableEq F] [Field K] [DecidableEq K] {b : F} {b' : K}

theorem scale_ns (σ : F →+* K) {s : K} (hs : s ≠ 0) (hb : b' = σ b * s ^ 6) {x y : F}
    (h : (curve b).Nonsingular x y) : (curve b').Nonsingular (σ x * s ^ 2) (σ y * s ^ 3) := by
  rw [nonsingular_curve] at h ⊢
  obtain ⟨h1, h2⟩ := h
  refine ⟨?_, ?_⟩
  · have e : σ y ^ 2 = σ x ^ 3 + σ b := by rw [← map_pow, h1, map_add, map_pow]
    rw [hb]
    linear_combination s ^ 6 * e
  · rcases h2 with h2 | h2
    · left
      have e : σ (3 * x ^ 2) * s ^ 4 = 3 * (σ x * s ^ 2) ^ 2 := by
        rw [map_mul, map_pow, map_ofNat]; ring
      rw [← e]
      exact mul_ne_zero ((map_ne_zero σ).mpr h2) (pow_ne_zero _ hs)
    · right
      have e : σ (2 * y) * s ^ 3 = 2 * (σ y * s ^ 3) := by
        rw [map_mul, map_ofNat]; ring
      rw [← e]
      exact mul_ne_zero ((map_ne_zero σ).mpr h2) (pow_ne_zero _ hs)

/-- The map on points. -/
def scaleFun (σ : F →+* K) {s : K} (hs : s ≠ 0) (hb : b' = σ b * s ^ 6) : (curve b).Point → (curve b').Point
  | .zero => .zero
  | .some x y h => .some (σ x * s ^ 2) (σ y * s ^ 3) (scale_ns σ hs hb h)

theorem scale_slope (σ : F →+* K) {s : K} (hs : s ≠ 0) (x₁ x₂ y₁ y₂ : F) :
    (curve b').slope (σ x₁ * s ^ 2) (σ x₂ * s ^ 2) (σ y₁ * s ^ 3) (σ y₂ * s ^ 3) =
      σ ((curve b).slope x₁ x₂ y₁ y₂) * s := by
  have inj : Function.Injective σ := σ.injective
  by_cases hx : x₁ = x₂
  · subst hx
    by_cases hy : y₁ = (curve b).negY x₁ y₂
    · rw [slope_of_Y_eq rfl hy, slope_of_Y_eq rfl, map_zero, zero_mul]
      rw [negY_curve] at hy ⊢
      rw [hy, map_neg]; ring
    · have hy' : σ y₁ * s ^ 3 ≠ (curve b').negY (σ x₁ * s ^ 2) (σ y₂ * s ^ 3) := by
        rw [negY_curve] at hy ⊢
        intro h
        apply hy
        apply inj
        have : (σ y₁ - σ (-y₂)) * s ^ 3 = 0 := by rw [map_neg]; linear_combination h
        exact sub_eq_zero.mp ((mul_eq_zero.mp this).resolve_right (pow_ne_zero _ hs))
      rw [slope_of_Y_ne rfl hy, slope_of_Y_ne rfl hy']
      rw [negY_curve] at hy hy'
      simp only [negY_curve, mul_zero, zero_mul, add_zero, sub_zero, sub_neg_eq_add, map_div₀, map_mul, map_pow,
        map_add, map_ofNat]
      by_cases hd : σ y₁ + σ y₁ = 0
      · rw [show σ y₁ * s ^ 3 + σ y₁ * s ^ 3 = (σ y₁ + σ y₁) * s ^ 3 by ring, hd]; simp
      · field_simp
  · have hx' : σ x₁ * s ^ 2 ≠ σ x₂ * s ^ 2 := fun h => hx (inj (mul_right_cancel₀ (pow_ne_zero _ hs) h))
    rw [slope_of_X_ne hx, slope_of_X_ne hx']
    have hd : σ x₁ - σ x₂ ≠ 0 := sub_ne_zero.mpr (fun h => hx (inj h))
    have hd' : σ x₁ * s ^ 2 - σ x₂ * s ^ 2 ≠ 0 := sub_ne_zero.mpr hx'
    rw [map_div₀, map_sub, map_sub]
    field_simp

theorem scaleFun_add (σ : F →+* K) {s : K} (hs : s ≠ 0) (hb : b' = σ b * s ^ 6) (P Q : (curve b).Point) :
    scaleFun σ hs hb (P + Q) = scaleFun σ hs hb P + scaleFun σ hs hb Q := by
  have inj : Function.Injective σ := σ.injective
  cases P with
  | zero => change scaleFun σ hs hb (0 + Q) = 0 + scaleFun σ hs hb Q; rw [zero_add, zero_add]
  | some x₁ y₁ h₁ =>
    cases Q with
    | zero =>
      change scaleFun σ hs hb (Point.some x₁ y₁ h₁ + 0) = scaleFun σ hs hb (Point.some x₁ y₁ h₁) + 0
      rw [add_zero, add_zero]
    | some x₂ y₂ h₂ =>
      by_cases hxy : x₁ = x₂ ∧ y₁ = (curve b).negY x₂ y₂
      · rw [Point.add_of_Y_eq hxy.1 hxy.2]
        change (0 : (curve b').Point) = Point.some _ _ _ + Point.some _ _ _
        rw [Point.add_of_Y_eq (by rw [hxy.1])]
        rw [hxy.2, negY_curve, negY_curve, map_neg]; ring
      · have hxy' : ¬(σ x₁ * s ^ 2 = σ x₂ * s ^ 2 ∧ σ y₁ * s ^ 3 = (curve b').negY (σ x₂ * s ^ 2) (σ y₂ * s ^ 3)) := by
          rintro ⟨e1, e2⟩
          refine hxy ⟨inj (mul_right_cancel₀ (pow_ne_zero _ hs) e1), inj (mul_right_cancel₀ (pow_ne_zero 3 hs) ?_)⟩
          rw [e2, negY_curve, negY_curve, map_neg]; ring
        rw [Point.add_some hxy]
        change Point.some _ _ _ = Point.some _ _ _ + Point.some _ _ _
        rw [Point.add_some hxy']
        have e1 : σ ((curve b).addX x₁ x₂ ((curve b).slope x₁ x₂ y₁ y₂)) * s ^ 2 =
            (curve b').addX (σ x₁ * s ^ 2) (σ x₂ * s ^ 2)
              ((curve b').slope (σ x₁ * s ^ 2) (σ x₂ * s ^ 2) (σ y₁ * s ^ 3) (σ y₂ * s ^ 3)) := by
          rw [scale_slope (b := b) σ hs]
          simp only [addX, map_sub, map_pow, zero_mul, sub_zero, add_zero]
          ring
        refine some_congr e1 ?_
        rw [addY, addY, negY_curve, negY_curve, negAddY, negAddY, ← e1, scale_slope (b := b) σ hs]
        simp only [map_neg, map_add, map_mul, map_sub]
        ring

/-- The homomorphism. -/
def scale (σ : F →+* K) {s : K} (hs : s ≠ 0) (hb : b' = σ b * s ^ 6) : (curve b).Point →+ (curve b').Point where
  toFun := scaleFun σ hs hb
  map_zero' := rfl
  map_add' := scaleFun_add σ hs hb

theorem scale_some (σ : F →+* K) {s : K} (hs : s ≠ 0) (hb : b' = σ b * s ^ 6) {x y : F}
    (h : (curve b).Nonsingular x y) :
    scale σ hs hb (Point.some x y h) = Point.some (σ x * s ^ 2) (σ y * s ^ 3) (scale_ns σ hs hb h) := rfl

theorem scale_injective (σ : F →+* K) {s : K} (hs : s ≠ 0) (hb : b' = σ b * s ^ 6) :
    Function.Injective (scale σ hs hb) := by
  rw [injective_iff_map_eq_zero]
  intro P hP
  cases P with
  | zero => rfl
  | some x y h => exact absurd hP (Point.some_ne_zero _)

/-- Three points of a curve `y² = x³ + b` with the same `y`, whose abscissas are `x`, `ω x`, `ω² x` with
`ω² + ω + 1 = 0`, add up to zero. -/
theorem horizontal (h2 : (2 : F) ≠ 0) (h3 : (3 : F) ≠ 0) {ω x y : F} (hω : ω ^ 2 + ω + 1 = 0)
    (h₀ : (curve b).Nonsingular x y) (h₁ : (curve b).Nonsingular (ω * x) y) (h₂ : (curve b).Nonsingular (ω ^ 2 * x) y) :
    Point.some (ω ^ 2 * x) y h₂ + Point.some (ω * x) y h₁ + Point.some x y h₀ = 0 := by
  by_cases hx : x = 0
  · subst hx
    have e1 : Point.some (ω ^ 2 * 0) y h₂ = Point.some 0 y h₀ := some_congr (by ring) rfl
    have e2 : Point.some (ω * 0) y h₁ = Point.some 0 y h₀ := some_congr (by ring) rfl
    rw [e1, e2]
    have hy : y ≠ 0 := by
      rintro rfl
      rcases (nonsingular_curve.mp h₀).2 with h | h <;> simp at h
    have hyne : y ≠ (curve b).negY 0 y := by
      rw [negY_curve]
      intro h
      exact hy ((mul_eq_zero.mp (show (2 : F) * y = 0 by linear_combination h)).resolve_left h2)
    have hs : (curve b).slope 0 0 y y = 0 := by
      rw [slope_of_Y_ne rfl hyne]; simp
    rw [Point.add_self_of_Y_ne hyne, Point.add_of_Y_eq]
    · rw [hs]; simp [addX]
    · rw [hs, addY, negAddY, negY_curve, negY_curve]; simp
  · have hne : ω ^ 2 * x ≠ ω * x := by
      intro h
      have e : ω * (ω - 1) * x = 0 := by linear_combination h
      rcases mul_eq_zero.mp e with e | e
      · rcases mul_eq_zero.mp e with e | e
        · rw [e] at hω; norm_num at hω
        · have : ω = 1 := by linear_combination e
          rw [this] at hω
          exact h3 (by linear_combination hω)
      · exact hx e
    rw [Point.add_some (fun h => hne h.1), Point.add_of_Y_eq]
    · rw [slope_of_X_ne hne, sub_self, zero_div]
      simp only [addX]
      linear_combination -x * hω
    · rw [slope_of_X_ne hne, sub_self, zero_div, addY, negAddY, negY_curve, negY_curve]
      ring

end Kogarashi.Curve
