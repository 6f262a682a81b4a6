import Verif.Tower.PairingProof
import Verif.Curve.Scale
import Verif.Spec.Pairing

/-!
# The line coefficients are the coefficients of tangents and chords (lemmas)
-/

namespace Kogarashi.Tower

open Spec Curve WeierstrassCurve.Affine

section core
variable {L : Type} [Field L] [DecidableEq L] {b : L}

/-- Jacobian coordinates of an affine point: `x = X/Z²`, `y = Y/Z³`. -/
def JacRep (b : L) (p : Proj L) : (curve b).Point → Prop
  | .zero => False
  | .some x y _ => p.z ≠ 0 ∧ p.x = x * p.z ^ 2 ∧ p.y = y * p.z ^ 3

theorem y_ne_of_double {x y : L} {h : (curve b).Nonsingular x y}
    (hne : Point.some x y h + Point.some x y h ≠ 0) : y ≠ 0 := by
  rintro rfl
  exact hne (Point.add_self_of_Y_eq (by rw [negY_curve, neg_zero]))

theorem x_ne_of_ne {x y x' y' : L} {h : (curve b).Nonsingular x y} {h' : (curve b).Nonsingular x' y'}
    (h1 : Point.some x y h ≠ Point.some x' y' h') (h2 : Point.some x y h ≠ -Point.some x' y' h') : x ≠ x' := by
  rintro rfl
  have e1 := eqn h
  have e2 := eqn h'
  have : (y - y') * (y + y') = 0 := by linear_combination e1 - e2
  rcases mul_eq_zero.mp this with e | e
  · exact h1 (some_congr rfl (by linear_combination e))
  · apply h2
    rw [Point.neg_some]
    exact some_congr rfl (by rw [negY_curve]; linear_combination e)

/-- Doubling in Jacobian coordinates, with the tangent. -/
theorem jacDouble_core (h2 : (2 : L) ≠ 0) {x y : L} (hns : (curve b).Nonsingular x y) (hy : y ≠ 0) {Z : L} (hZ : Z ≠ 0)
    {X' Y' Z' e0 e1 e2 : L}
    (hX' : X' = (9 * x ^ 4 - 8 * x * y ^ 2) * Z ^ 8)
    (hY' : Y' = ((4 * x * y ^ 2 - (9 * x ^ 4 - 8 * x * y ^ 2)) * (3 * x ^ 2) - 8 * y ^ 4) * Z ^ 12)
    (hZ' : Z' = 2 * y * Z ^ 4)
    (he0 : e0 = 4 * y * Z ^ 6) (he1 : e1 = -(6 * x ^ 2) * Z ^ 6) (he2 : e2 = (6 * x ^ 3 - 4 * y ^ 2) * Z ^ 6) :
    JacRep b ⟨X', Y', Z'⟩ (Point.some x y hns + Point.some x y hns) ∧ e0 ≠ 0 ∧
      e1 = -e0 * (curve b).slope x x y y ∧ e2 = e0 * ((curve b).slope x x y y * x - y) := by
  have h4 : (4 : L) ≠ 0 := by
    have : (4 : L) = 2 * 2 := by norm_num
    rw [this]; exact mul_ne_zero h2 h2
  have hyne : y ≠ (curve b).negY x y := by
    rw [negY_curve]
    intro h
    exact hy ((mul_eq_zero.mp (show (2 : L) * y = 0 by linear_combination h)).resolve_left h2)
  have hs : (curve b).slope x x y y = 3 * x ^ 2 / (2 * y) := by
    rw [slope_of_Y_ne rfl hyne, negY_curve]
    simp only [mul_zero, zero_mul, add_zero, sub_zero, sub_neg_eq_add]
    rw [← two_mul]
  refine ⟨?_, ?_, ?_, ?_⟩
  · rw [Point.add_self_of_Y_ne hyne]
    refine ⟨?_, ?_, ?_⟩
    · change Z' ≠ 0
      rw [hZ']; exact mul_ne_zero (mul_ne_zero h2 hy) (pow_ne_zero _ hZ)
    · change X' = _ * Z' ^ 2
      simp only [hs, addX, zero_mul, add_zero, sub_zero]
      rw [hX', hZ']; field_simp; ring
    · change Y' = _ * Z' ^ 3
      simp only [hs, addY, negAddY, negY_curve, addX, zero_mul, add_zero, sub_zero]
      rw [hY', hZ']; field_simp; ring
  · rw [he0]; exact mul_ne_zero (mul_ne_zero h4 hy) (pow_ne_zero _ hZ)
  · rw [hs, he0, he1]; field_simp; ring
  · rw [hs, he0, he2]; field_simp; ring

/-- Mixed addition in Jacobian coordinates, with the chord. -/
theorem jacAdd_core (h2 : (2 : L) ≠ 0) {x y x' y' : L} (hns : (curve b).Nonsingular x y) (hns' : (curve b).Nonsingular x' y')
    (hx : x ≠ x') {Z : L} (hZ : Z ≠ 0) {X' Y' Z' e0 e1 e2 : L}
    (hX' : X' = (4 * (y' - y) ^ 2 - 4 * (x' - x) ^ 3 - 8 * x * (x' - x) ^ 2) * Z ^ 6)
    (hY' : Y' = ((4 * x * (x' - x) ^ 2 - (4 * (y' - y) ^ 2 - 4 * (x' - x) ^ 3 - 8 * x * (x' - x) ^ 2)) * (2 * (y' - y)) -
      8 * y * (x' - x) ^ 3) * Z ^ 9)
    (hZ' : Z' = 2 * (x' - x) * Z ^ 3)
    (he0 : e0 = 4 * (x' - x) * Z ^ 3) (he1 : e1 = -(4 * (y' - y)) * Z ^ 3)
    (he2 : e2 = (4 * (y' - y) * x' - 4 * y' * (x' - x)) * Z ^ 3) :
    JacRep b ⟨X', Y', Z'⟩ (Point.some x y hns + Point.some x' y' hns') ∧ e0 ≠ 0 ∧
      e1 = -e0 * (curve b).slope x x' y y' ∧ e2 = e0 * ((curve b).slope x x' y y' * x - y) := by
  have h4 : (4 : L) ≠ 0 := by
    have : (4 : L) = 2 * 2 := by norm_num
    rw [this]; exact mul_ne_zero h2 h2
  have hd : x - x' ≠ 0 := sub_ne_zero.mpr hx
  have hd' : x' - x ≠ 0 := sub_ne_zero.mpr hx.symm
  have hs : (curve b).slope x x' y y' = (y' - y) / (x' - x) := by
    rw [slope_of_X_ne hx, div_eq_div_iff hd hd']; ring
  refine ⟨?_, ?_, ?_, ?_⟩
  · rw [Point.add_of_X_ne hx]
    refine ⟨?_, ?_, ?_⟩
    · change Z' ≠ 0
      rw [hZ']; exact mul_ne_zero (mul_ne_zero h2 hd') (pow_ne_zero _ hZ)
    · change X' = _ * Z' ^ 2
      simp only [hs, addX, zero_mul, add_zero, sub_zero]
      rw [hX', hZ']; field_simp; ring
    · change Y' = _ * Z' ^ 3
      simp only [hs, addY, negAddY, negY_curve, addX, zero_mul, add_zero, sub_zero]
      rw [hY', hZ']; field_simp; ring
  · rw [he0]; exact mul_ne_zero (mul_ne_zero h4 hd') (pow_ne_zero _ hZ)
  · rw [hs, he0, he1]; field_simp
  · rw [hs, he0, he2]; field_simp; ring

end core

section tower
variable {F : Type} [Field F] [TowerOk F] [DecidableEq F] {b : Fq2 F}

/-- The slope of the line through two points. -/
def slopeOf (T U : (curve b).Point) : Fq2 F :=
  match T, U with
  | .some x₁ y₁ _, .some x₂ y₂ _ => (curve b).slope x₁ x₂ y₁ y₂
  | _, _ => 0

/-- The coefficients are those of the line through `T` and `U`, up to a non-zero factor. -/
def IsLine (c : PairingCoeff F) (T U : (curve b).Point) : Prop :=
  match T with
  | .some x y _ => c.e0 ≠ 0 ∧ c.e1 = -c.e0 * slopeOf T U ∧ c.e2 = c.e0 * (slopeOf T U * x - y)
  | .zero => False

theorem doubleEval_spec (h2 : (2 : Fq2 F) ≠ 0) {t : Proj (Fq2 F)} {T : (curve b).Point} (ht : JacRep b t T)
    (hT : T + T ≠ 0) : JacRep b (doubleEval t).1 (T + T) ∧ IsLine (doubleEval t).2 T T := by
  cases T with
  | zero => exact absurd ht id
  | some x y hns =>
    obtain ⟨hz, hX, hY⟩ := ht
    have hy := y_ne_of_double hT
    have key := jacDouble_core h2 hns hy hz (X' := (doubleEval t).1.x) (Y' := (doubleEval t).1.y)
      (Z' := (doubleEval t).1.z) (e0 := (doubleEval t).2.e0) (e1 := (doubleEval t).2.e1) (e2 := (doubleEval t).2.e2)
      (by simp only [doubleEval, Fq2.square_eq, Fq2.double_eq, hX, hY]; ring)
      (by simp only [doubleEval, Fq2.square_eq, Fq2.double_eq, hX, hY]; ring)
      (by simp only [doubleEval, Fq2.square_eq, Fq2.double_eq, hX, hY]; ring)
      (by simp only [doubleEval, Fq2.square_eq, Fq2.double_eq, hX, hY]; ring)
      (by simp only [doubleEval, Fq2.square_eq, Fq2.double_eq, hX, hY]; ring)
      (by simp only [doubleEval, Fq2.square_eq, Fq2.double_eq, hX, hY]; ring)
    exact ⟨key.1, key.2⟩

theorem addEval_spec (h2 : (2 : Fq2 F) ≠ 0) {t : Proj (Fq2 F)} {g : Aff (Fq2 F)} {T U : (curve b).Point}
    (ht : JacRep b t T) (hg : AffRep b g U) (hU : U ≠ 0) (h1 : T ≠ U) (hn : T ≠ -U) :
    JacRep b (addEval t g).1 (T + U) ∧ IsLine (addEval t g).2 T U := by
  cases T with
  | zero => exact absurd ht id
  | some x y hns =>
    cases U with
    | zero => exact absurd rfl hU
    | some x' y' hns' =>
      obtain ⟨hz, hX, hY⟩ := ht
      obtain ⟨-, rfl, rfl⟩ := hg
      have hx := x_ne_of_ne h1 hn
      have key := jacAdd_core h2 hns hns' hx hz (X' := (addEval t g).1.x) (Y' := (addEval t g).1.y)
        (Z' := (addEval t g).1.z) (e0 := (addEval t g).2.e0) (e1 := (addEval t g).2.e1) (e2 := (addEval t g).2.e2)
        (by simp only [addEval, Fq2.square_eq, Fq2.double_eq, hX, hY]; ring)
        (by simp only [addEval, Fq2.square_eq, Fq2.double_eq, hX, hY]; ring)
        (by simp only [addEval, Fq2.square_eq, Fq2.double_eq, hX, hY]; ring)
        (by simp only [addEval, Fq2.square_eq, Fq2.double_eq, hX, hY]; ring)
        (by simp only [addEval, Fq2.square_eq, Fq2.double_eq, hX, hY]; ring)
        (by simp only [addEval, Fq2.square_eq, Fq2.double_eq, hX, hY]; ring)
      exact ⟨key.1, key.2⟩

/-- The inclusion of Fq2 in Fq12. -/
def iota : Fq2 F →+* Fq12 F := Fq12.of.comp Fq6.of

omit [TowerOk F] [DecidableEq F] in
theorem w_ne_zero : (Fq12.w : Fq12 F) ≠ 0 := by
  intro h
  have := congrArg (fun a => a.c1.c0.c0) h
  simp at this

omit [DecidableEq F] in
theorem line_eq (c0 lam x y : Fq2 F) (p : Aff F) :
    line ⟨c0, -c0 * lam, c0 * (lam * x - y)⟩ p =
      iota c0 * ((iota (Fq2.of p.y) - iota y * Fq12.w ^ 3) -
        (iota lam * Fq12.w) * (iota (Fq2.of p.x) - iota x * Fq12.w ^ 2)) := by
  have e3 : (Fq12.w : Fq12 F) ^ 3 = Fq12.of Fq6.v * Fq12.w := by rw [pow_succ, Fq12.w_sq]
  have e2 : (Fq12.w : Fq12 F) ^ 2 = Fq12.of Fq6.v := Fq12.w_sq
  have el : line ⟨c0, -c0 * lam, c0 * (lam * x - y)⟩ p =
      iota (c0 * Fq2.of p.y) + (iota (-c0 * lam * Fq2.of p.x) + iota (c0 * (lam * x - y)) * Fq12.of Fq6.v) * Fq12.w := by
    unfold line iota
    apply Fq12.ext' <;> apply Fq6.ext' <;> simp
  rw [el, e3, e2]
  simp only [map_mul, map_sub, map_neg]
  ring

/-- A line of the twist, untwisted and evaluated. -/
theorem isLine_line {b' : Fq12 F} (hb : b' = iota b * Fq12.w ^ 6) {c : PairingCoeff F} {T U : (curve b).Point}
    (hU : U ≠ 0) (h : IsLine c T U) (p : Aff F) :
    line c p = iota c.e0 * lineValue (scale iota w_ne_zero hb T) (scale iota w_ne_zero hb U)
      (iota (Fq2.of p.x)) (iota (Fq2.of p.y)) := by
  cases T with
  | zero => exact absurd h id
  | some x y hns =>
    cases U with
    | zero => exact absurd rfl hU
    | some x' y' hns' =>
      obtain ⟨-, h1, h2⟩ := h
      have hc : c = ⟨c.e0, -c.e0 * slopeOf (Point.some x y hns) (Point.some x' y' hns'),
          c.e0 * (slopeOf (Point.some x y hns) (Point.some x' y' hns') * x - y)⟩ := by
        rw [← h1, ← h2]
      rw [hc, line_eq, scale_some, scale_some]
      simp only [lineValue]
      rw [scale_slope (b := b) iota w_ne_zero]
      rfl

end tower

end Kogarashi.Tower
