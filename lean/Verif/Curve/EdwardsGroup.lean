import Verif.Props.Edwards
import Verif.Spec.Digits
import Mathlib.Tactic.LinearCombination

/-!
# The points of a complete twisted Edwards curve form a group

Associativity of the Edwards sum is a polynomial identity modulo the three curve equations; the cofactors below were found by
dividing the difference by the equations.
-/

namespace Kogarashi.Edwards

open Kogarashi Spec

section poly

variable {R : Type} [CommRing R] {d x1 y1 x2 y2 x3 y3 : R}

/-- First coordinates, without denominators. -/
theorem assoc_x (h1 : y1 ^ 2 - x1 ^ 2 - 1 - d * x1 ^ 2 * y1 ^ 2 = 0) (h2 : y2 ^ 2 - x2 ^ 2 - 1 - d * x2 ^ 2 * y2 ^ 2 = 0)
    (h3 : y3 ^ 2 - x3 ^ 2 - 1 - d * x3 ^ 2 * y3 ^ 2 = 0) {n1 n2 k1 k2 u v : R} (hn1 : n1 = x1 * y2 + y1 * x2)
    (hn2 : n2 = y1 * y2 + x1 * x2) (hk1 : k1 = x2 * y3 + y2 * x3) (hk2 : k2 = y2 * y3 + x2 * x3) (hu : u = d * x1 * x2 * y1 * y2)
    (hv : v = d * x2 * x3 * y2 * y3) :
    (n1 * (1 - u) * y3 + n2 * (1 + u) * x3) * ((1 + v) * (1 - v) + d * x1 * k1 * y1 * k2) =
      (x1 * k2 * (1 + v) + y1 * k1 * (1 - v)) * ((1 + u) * (1 - u) + d * n1 * x3 * n2 * y3) := by
  subst hn1 hn2 hk1 hk2 hu hv
  linear_combination
    (-d ^ 2 * x1 * x2 ^ 4 * y2 ^ 3 * x3 ^ 2 * y3 - d ^ 2 * x1 * x2 ^ 3 * y2 ^ 4 * x3 * y3 ^ 2 + d ^ 2 * y1 * x2 ^ 4 * y2 ^ 3
      * x3 * y3 ^ 2 + d ^ 2 * y1 * x2 ^ 3 * y2 ^ 4 * x3 ^ 2 * y3 - d * x1 * x2 ^ 4 * y2 * x3 ^ 2 * y3 - d * x1 * x2 ^ 3 * y2 ^
      2 * x3 ^ 3 + d * x1 * x2 ^ 2 * y2 ^ 3 * y3 ^ 3 + d * x1 * x2 * y2 ^ 4 * x3 * y3 ^ 2 + d * y1 * x2 ^ 4 * y2 * x3 * y3 ^ 2
      + d * y1 * x2 ^ 3 * y2 ^ 2 * y3 ^ 3 - d * y1 * x2 ^ 2 * y2 ^ 3 * x3 ^ 3 - d * y1 * x2 * y2 ^ 4 * x3 ^ 2 * y3 - d * x1 *
      x2 ^ 3 * y2 ^ 2 * x3 - d * x1 * x2 ^ 2 * y2 ^ 3 * y3 - d * y1 * x2 ^ 3 * y2 ^ 2 * y3 - d * y1 * x2 ^ 2 * y2 ^ 3 * x3) * h1 +
    (d * x1 ^ 3 * x2 ^ 2 * y2 * x3 ^ 2 * y3 + d * x1 ^ 3 * x2 * y2 ^ 2 * x3 * y3 ^ 2 - d * x1 ^ 2 * y1 * x2 ^ 2 * y2 * x3 ^ 3
      - d * x1 ^ 2 * y1 * x2 * y2 ^ 2 * y3 ^ 3 - d * x1 * y1 ^ 2 * x2 ^ 2 * y2 * y3 ^ 3 - d * x1 * y1 ^ 2 * x2 * y2 ^ 2 * x3 ^
      3 + d * y1 ^ 3 * x2 ^ 2 * y2 * x3 * y3 ^ 2 + d * y1 ^ 3 * x2 * y2 ^ 2 * x3 ^ 2 * y3 - d * x1 ^ 2 * y1 * x2 ^ 2 * y2 * x3
      + d * x1 ^ 2 * y1 * x2 * y2 ^ 2 * y3 + d * x1 * y1 ^ 2 * x2 ^ 2 * y2 * y3 - d * x1 * y1 ^ 2 * x2 * y2 ^ 2 * x3 + d * x1
      * x2 ^ 2 * y2 * x3 ^ 2 * y3 + d * x1 * x2 * y2 ^ 2 * x3 * y3 ^ 2 - d * y1 * x2 ^ 2 * y2 * x3 * y3 ^ 2 - d * y1 * x2 * y2
      ^ 2 * x3 ^ 2 * y3) * h2 +
    (d ^ 2 * x1 ^ 2 * y1 * x2 ^ 4 * y2 ^ 3 * x3 - d ^ 2 * x1 ^ 2 * y1 * x2 ^ 3 * y2 ^ 4 * y3 - d ^ 2 * x1 * y1 ^ 2 * x2 ^ 4 *
      y2 ^ 3 * y3 + d ^ 2 * x1 * y1 ^ 2 * x2 ^ 3 * y2 ^ 4 * x3 + d * x1 ^ 3 * x2 ^ 3 * y2 ^ 2 * x3 + d * x1 ^ 3 * x2 ^ 2 * y2
      ^ 3 * y3 + d * x1 ^ 2 * y1 * x2 ^ 4 * y2 * x3 + d * x1 ^ 2 * y1 * x2 * y2 ^ 4 * y3 - d * x1 * y1 ^ 2 * x2 ^ 4 * y2 * y3
      - d * x1 * y1 ^ 2 * x2 * y2 ^ 4 * x3 - d * y1 ^ 3 * x2 ^ 3 * y2 ^ 2 * y3 - d * y1 ^ 3 * x2 ^ 2 * y2 ^ 3 * x3 + d * x1 *
      x2 ^ 3 * y2 ^ 2 * x3 + d * x1 * x2 ^ 2 * y2 ^ 3 * y3 + d * y1 * x2 ^ 3 * y2 ^ 2 * y3 + d * y1 * x2 ^ 2 * y2 ^ 3 * x3) * h3

/-- Second coordinates, without denominators. -/
theorem assoc_y (h1 : y1 ^ 2 - x1 ^ 2 - 1 - d * x1 ^ 2 * y1 ^ 2 = 0) (h2 : y2 ^ 2 - x2 ^ 2 - 1 - d * x2 ^ 2 * y2 ^ 2 = 0)
    (h3 : y3 ^ 2 - x3 ^ 2 - 1 - d * x3 ^ 2 * y3 ^ 2 = 0) {n1 n2 k1 k2 u v : R} (hn1 : n1 = x1 * y2 + y1 * x2)
    (hn2 : n2 = y1 * y2 + x1 * x2) (hk1 : k1 = x2 * y3 + y2 * x3) (hk2 : k2 = y2 * y3 + x2 * x3) (hu : u = d * x1 * x2 * y1 * y2)
    (hv : v = d * x2 * x3 * y2 * y3) :
    (n2 * (1 + u) * y3 + n1 * (1 - u) * x3) * ((1 + v) * (1 - v) - d * x1 * k1 * y1 * k2) =
      (y1 * k2 * (1 + v) + x1 * k1 * (1 - v)) * ((1 + u) * (1 - u) - d * n1 * x3 * n2 * y3) := by
  subst hn1 hn2 hk1 hk2 hu hv
  linear_combination
    (d ^ 2 * x1 * x2 ^ 4 * y2 ^ 3 * x3 * y3 ^ 2 + d ^ 2 * x1 * x2 ^ 3 * y2 ^ 4 * x3 ^ 2 * y3 - d ^ 2 * y1 * x2 ^ 4 * y2 ^ 3 *
      x3 ^ 2 * y3 - d ^ 2 * y1 * x2 ^ 3 * y2 ^ 4 * x3 * y3 ^ 2 + d * x1 * x2 ^ 4 * y2 * x3 * y3 ^ 2 + d * x1 * x2 ^ 3 * y2 ^ 2
      * y3 ^ 3 - d * x1 * x2 ^ 2 * y2 ^ 3 * x3 ^ 3 - d * x1 * x2 * y2 ^ 4 * x3 ^ 2 * y3 - d * y1 * x2 ^ 4 * y2 * x3 ^ 2 * y3 -
      d * y1 * x2 ^ 3 * y2 ^ 2 * x3 ^ 3 + d * y1 * x2 ^ 2 * y2 ^ 3 * y3 ^ 3 + d * y1 * x2 * y2 ^ 4 * x3 * y3 ^ 2 - d * x1 * x2
      ^ 3 * y2 ^ 2 * y3 - d * x1 * x2 ^ 2 * y2 ^ 3 * x3 - d * y1 * x2 ^ 3 * y2 ^ 2 * x3 - d * y1 * x2 ^ 2 * y2 ^ 3 * y3) * h1 +
    (-d * x1 ^ 3 * x2 ^ 2 * y2 * x3 * y3 ^ 2 - d * x1 ^ 3 * x2 * y2 ^ 2 * x3 ^ 2 * y3 + d * x1 ^ 2 * y1 * x2 ^ 2 * y2 * y3 ^
      3 + d * x1 ^ 2 * y1 * x2 * y2 ^ 2 * x3 ^ 3 + d * x1 * y1 ^ 2 * x2 ^ 2 * y2 * x3 ^ 3 + d * x1 * y1 ^ 2 * x2 * y2 ^ 2 * y3
      ^ 3 - d * y1 ^ 3 * x2 ^ 2 * y2 * x3 ^ 2 * y3 - d * y1 ^ 3 * x2 * y2 ^ 2 * x3 * y3 ^ 2 - d * x1 ^ 2 * y1 * x2 ^ 2 * y2 *
      y3 + d * x1 ^ 2 * y1 * x2 * y2 ^ 2 * x3 + d * x1 * y1 ^ 2 * x2 ^ 2 * y2 * x3 - d * x1 * y1 ^ 2 * x2 * y2 ^ 2 * y3 - d *
      x1 * x2 ^ 2 * y2 * x3 * y3 ^ 2 - d * x1 * x2 * y2 ^ 2 * x3 ^ 2 * y3 + d * y1 * x2 ^ 2 * y2 * x3 ^ 2 * y3 + d * y1 * x2 *
      y2 ^ 2 * x3 * y3 ^ 2) * h2 +
    (d ^ 2 * x1 ^ 2 * y1 * x2 ^ 4 * y2 ^ 3 * y3 - d ^ 2 * x1 ^ 2 * y1 * x2 ^ 3 * y2 ^ 4 * x3 - d ^ 2 * x1 * y1 ^ 2 * x2 ^ 4 *
      y2 ^ 3 * x3 + d ^ 2 * x1 * y1 ^ 2 * x2 ^ 3 * y2 ^ 4 * y3 + d * x1 ^ 3 * x2 ^ 3 * y2 ^ 2 * y3 + d * x1 ^ 3 * x2 ^ 2 * y2
      ^ 3 * x3 + d * x1 ^ 2 * y1 * x2 ^ 4 * y2 * y3 + d * x1 ^ 2 * y1 * x2 * y2 ^ 4 * x3 - d * x1 * y1 ^ 2 * x2 ^ 4 * y2 * x3
      - d * x1 * y1 ^ 2 * x2 * y2 ^ 4 * y3 - d * y1 ^ 3 * x2 ^ 3 * y2 ^ 2 * x3 - d * y1 ^ 3 * x2 ^ 2 * y2 ^ 3 * y3 + d * x1 *
      x2 ^ 3 * y2 ^ 2 * y3 + d * x1 * x2 ^ 2 * y2 ^ 3 * x3 + d * y1 * x2 ^ 3 * y2 ^ 2 * x3 + d * y1 * x2 ^ 2 * y2 ^ 3 * y3) * h3

end poly

variable {F : Type} [Field F] [DecidableEq F] {d : F} {A B C : F × F}

omit [DecidableEq F] in
theorem frac_x {p m n1 n2 x y d : F} (hp : p ≠ 0) (hm : m ≠ 0) :
    (n1 / p * y + n2 / m * x) / (1 + d * (n1 / p) * x * (n2 / m) * y) = (n1 * m * y + n2 * p * x) / (p * m + d * n1 * x * n2 * y) := by
  have h0 : p * m ≠ 0 := mul_ne_zero hp hm
  have e1 : n1 / p * y + n2 / m * x = (n1 * m * y + n2 * p * x) / (p * m) := by field_simp
  have e2 : 1 + d * (n1 / p) * x * (n2 / m) * y = (p * m + d * n1 * x * n2 * y) / (p * m) := by field_simp
  rw [e1, e2, div_div_div_cancel_right₀ h0]

omit [DecidableEq F] in
theorem frac_y {p m n1 n2 x y d : F} (hp : p ≠ 0) (hm : m ≠ 0) :
    (n2 / m * y + n1 / p * x) / (1 - d * (n1 / p) * x * (n2 / m) * y) = (n2 * p * y + n1 * m * x) / (p * m - d * n1 * x * n2 * y) := by
  have h0 : p * m ≠ 0 := mul_ne_zero hp hm
  have e1 : n2 / m * y + n1 / p * x = (n2 * p * y + n1 * m * x) / (p * m) := by field_simp
  have e2 : 1 - d * (n1 / p) * x * (n2 / m) * y = (p * m - d * n1 * x * n2 * y) / (p * m) := by field_simp
  rw [e1, e2, div_div_div_cancel_right₀ h0]

omit [DecidableEq F] in
theorem den_plus {p m n1 n2 x y d : F} (hp : p ≠ 0) (hm : m ≠ 0) (h : 1 + d * (n1 / p) * x * (n2 / m) * y ≠ 0) :
    p * m + d * n1 * x * n2 * y ≠ 0 := by
  intro h0
  apply h
  have e2 : 1 + d * (n1 / p) * x * (n2 / m) * y = (p * m + d * n1 * x * n2 * y) / (p * m) := by field_simp
  rw [e2, h0, zero_div]

omit [DecidableEq F] in
theorem den_minus {p m n1 n2 x y d : F} (hp : p ≠ 0) (hm : m ≠ 0) (h : 1 - d * (n1 / p) * x * (n2 / m) * y ≠ 0) :
    p * m - d * n1 * x * n2 * y ≠ 0 := by
  intro h0
  apply h
  have e2 : 1 - d * (n1 / p) * x * (n2 / m) * y = (p * m - d * n1 * x * n2 * y) / (p * m) := by field_simp
  rw [e2, h0, zero_div]

omit [DecidableEq F] in
theorem edSum_comm (d : F) (A B : F × F) : edSum d A B = edSum d B A := by
  unfold edSum
  ext <;> dsimp only <;> congr 1 <;> ring

/-- The Edwards sum is associative. -/
theorem edSum_assoc (h2 : (2 : F) ≠ 0) (hi : IsSquare (-1 : F)) (hd : ¬ IsSquare d) (hA : OnEdwards d A) (hB : OnEdwards d B)
    (hC : OnEdwards d C) : edSum d (edSum d A B) C = edSum d A (edSum d B C) := by
  obtain ⟨⟨p1, m1⟩, hAB⟩ := Props.C26_closed h2 hi hd hA hB
  obtain ⟨⟨p2, m2⟩, hBC⟩ := Props.C26_closed h2 hi hd hB hC
  obtain ⟨⟨p3, m3⟩, -⟩ := Props.C26_closed h2 hi hd hAB hC
  rw [edSum_comm d A (edSum d B C)]
  obtain ⟨⟨p4, m4⟩, -⟩ := Props.C26_closed h2 hi hd hBC hA
  obtain ⟨x1, y1⟩ := A
  obtain ⟨x2, y2⟩ := B
  obtain ⟨x3, y3⟩ := C
  simp only [edSum, OnEdwards] at *
  have e1 : y1 ^ 2 - x1 ^ 2 - 1 - d * x1 ^ 2 * y1 ^ 2 = 0 := by linear_combination hA
  have e2 : y2 ^ 2 - x2 ^ 2 - 1 - d * x2 ^ 2 * y2 ^ 2 = 0 := by linear_combination hB
  have e3 : y3 ^ 2 - x3 ^ 2 - 1 - d * x3 ^ 2 * y3 ^ 2 = 0 := by linear_combination hC
  refine Prod.ext ?_ ?_ <;> dsimp only
  · rw [frac_x p1 m1, frac_x p2 m2, div_eq_div_iff (den_plus p1 m1 p3) (den_plus p2 m2 p4)]
    linear_combination assoc_x e1 e2 e3 rfl rfl rfl rfl rfl rfl
  · rw [frac_y p1 m1, frac_y p2 m2, div_eq_div_iff (den_minus p1 m1 m3) (den_minus p2 m2 m4)]
    linear_combination assoc_y e1 e2 e3 rfl rfl rfl rfl rfl rfl

/-- The curve is complete: `-1` is a square and `d` is not. -/
class Complete (d : F) : Prop where
  two : (2 : F) ≠ 0
  negOne : IsSquare (-1 : F)
  nonsquare : ¬ IsSquare d

/-- The points of the curve. -/
def EdPoint (d : F) : Type := { A : F × F // OnEdwards d A }

omit [DecidableEq F] in
theorem on_zero (d : F) : OnEdwards d (0, 1) := by simp [OnEdwards]

omit [DecidableEq F] in
theorem on_neg {A : F × F} (h : OnEdwards d A) : OnEdwards d (-A.1, A.2) := by
  simp only [OnEdwards] at h ⊢
  linear_combination h

instance [Complete d] : Zero (EdPoint d) := ⟨⟨(0, 1), on_zero d⟩⟩
instance [Complete d] : Neg (EdPoint d) := ⟨fun A => ⟨(-A.1.1, A.1.2), on_neg A.2⟩⟩
instance [Complete d] : Add (EdPoint d) := ⟨fun A B => ⟨edSum d A.1 B.1, (Props.C26_closed (Complete.two d) (Complete.negOne d) Complete.nonsquare A.2 B.2).2⟩⟩

theorem EdPoint.add_val [Complete d] (A B : EdPoint d) : (A + B).1 = edSum d A.1 B.1 := rfl
theorem EdPoint.neg_val [Complete d] (A : EdPoint d) : (-A).1 = (-A.1.1, A.1.2) := rfl
theorem EdPoint.zero_val [Complete d] : (0 : EdPoint d).1 = (0, 1) := rfl

/-- The group. -/
instance [Complete d] : AddCommGroup (EdPoint d) where
  add_assoc A B C := Subtype.ext (edSum_assoc (Complete.two d) (Complete.negOne d) Complete.nonsquare A.2 B.2 C.2)
  add_comm A B := Subtype.ext (edSum_comm d A.1 B.1)
  zero_add A := Subtype.ext (by rw [EdPoint.add_val, EdPoint.zero_val]; simp [edSum])
  add_zero A := Subtype.ext (by rw [EdPoint.add_val, EdPoint.zero_val]; simp [edSum])
  neg_add_cancel A := Subtype.ext (by
    rw [EdPoint.add_val, EdPoint.neg_val, EdPoint.zero_val]
    obtain ⟨⟨x, y⟩, h⟩ := A
    obtain ⟨-, k⟩ := Props.edwards_denom (Complete.two d) (Complete.negOne d) Complete.nonsquare (on_neg h) h
    have h' := h
    simp only [OnEdwards] at h'
    simp only [edSum] at *
    refine Prod.ext ?_ ?_ <;> dsimp only
    · rw [show -x * y + y * x = 0 by ring, zero_div]
    · rw [div_eq_one_iff_eq k]; linear_combination h')
  nsmul := nsmulRec
  zsmul := zsmulRec

theorem EdPoint.nsmul_val [Complete d] (n : Nat) (A : EdPoint d) : (n • A).1 = edMul d n A.1 := by
  induction n with
  | zero => rw [zero_nsmul]; rfl
  | succ n ih => rw [succ_nsmul, EdPoint.add_val, ih]; rfl

omit [DecidableEq F] in
theorem neg_ext {p : EExt F} (h : ExtRep p A) : ExtRep p.neg (-A.1, A.2) := by
  obtain ⟨h0, h1, h2, h3⟩ := h
  exact ⟨h0, by simp only [EExt.neg]; rw [h1]; ring, h2, by simp only [EExt.neg]; rw [h3]; ring⟩

theorem scalarPoint_ext [Complete d] {p : EExt F} {A : EdPoint d} (hp : ExtRep p A.1) (nafs : List Limbs.Naf) :
    ExtRep (scalarPoint d p nafs) (Spec.nafValue nafs • A).1 := by
  have key : ∀ (nafs : List Limbs.Naf) (res : EExt F) (n : Int), ExtRep res (n • A).1 →
      ExtRep (nafs.foldl (scalarStep d p) res) ((nafs.foldl (fun acc d => 2 * acc + Spec.nafDigit d) n) • A).1 := by
    intro nafs
    induction nafs with
    | nil => intro res n h; exact h
    | cons k ds ih =>
      intro res n h
      rw [List.foldl_cons, List.foldl_cons]
      apply ih
      have hd := Props.C26_double_extended (Complete.two d) (Complete.negOne d) Complete.nonsquare (n • A).2 h
      rw [← EdPoint.add_val, ← add_zsmul, ← two_mul n] at hd
      unfold scalarStep
      cases k with
      | zero => simpa [Spec.nafDigit] using hd
      | plus =>
        have := Props.C26_add_extended (Complete.two d) (Complete.negOne d) Complete.nonsquare ((2 * n) • A).2 A.2 hd hp
        rw [add_zsmul, EdPoint.add_val]; simpa [Spec.nafDigit] using this
      | minus =>
        have := Props.C26_add_extended (Complete.two d) (Complete.negOne d) Complete.nonsquare ((2 * n) • A).2 (-A).2 hd (neg_ext hp)
        rw [add_zsmul, EdPoint.add_val]; simpa [Spec.nafDigit] using this
  refine key nafs EExt.identity 0 ?_
  rw [zero_smul]
  exact ⟨one_ne_zero, by simp [EExt.identity, EdPoint.zero_val], by simp [EExt.identity, EdPoint.zero_val], by simp [EExt.identity, EdPoint.zero_val]⟩

end Kogarashi.Edwards
