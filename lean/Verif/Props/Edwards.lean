import Verif.Spec.Edwards
import Mathlib.Tactic.LinearCombination
import Mathlib.Tactic.FieldSimp
import Mathlib.Tactic.Ring
import Mathlib.Data.ZMod.Basic
import Mathlib.Tactic.NormNum.Prime
import Mathlib.FieldTheory.Finite.Basic

/-! # Properties C25 and C26: twisted Edwards points -/

namespace Kogarashi.Props

open Kogarashi Spec Edwards

variable {F : Type} [Field F] [DecidableEq F] {d : F} {A B : F × F}

/-- The Edwards denominators do not vanish on curve points when `-1` is a square and `d` is not. -/
theorem edwards_denominators (h2 : (2 : F) ≠ 0) (hi : IsSquare (-1 : F)) (hd : ¬ IsSquare d)
    (hA : OnEdwards d A) (hB : OnEdwards d B) {ε : F} (hε : ε ^ 2 = 1) :
    d * A.1 * B.1 * A.2 * B.2 ≠ ε := by
  obtain ⟨x1, y1⟩ := A
  obtain ⟨x2, y2⟩ := B
  simp only [OnEdwards] at *
  intro hc
  obtain ⟨i, hi⟩ := hi
  have hε0 : ε ≠ 0 := by rintro rfl; simp at hε
  rw [← hc] at hε0
  have hy2 : y2 ≠ 0 := right_ne_zero_of_mul hε0
  have hy1 : y1 ≠ 0 := right_ne_zero_of_mul (left_ne_zero_of_mul hε0)
  have hx2 : x2 ≠ 0 := right_ne_zero_of_mul (left_ne_zero_of_mul (left_ne_zero_of_mul hε0))
  have hx1 : x1 ≠ 0 := right_ne_zero_of_mul (left_ne_zero_of_mul (left_ne_zero_of_mul (left_ne_zero_of_mul hε0)))
  have hi0 : i ≠ 0 := by
    rintro rfl; simp at hi
  have hii : i ^ 2 = -1 := by rw [hi]; ring
  -- the key identities
  have hp : (i * x1 + ε * y1) ^ 2 = d * (x1 * y1 * (i * x2 + y2)) ^ 2 := by
    linear_combination (x1 ^ 2 - d * x1 ^ 2 * y1 ^ 2 * x2 ^ 2) * hii + hA - d * x1 ^ 2 * y1 ^ 2 * hB - (d * x1 * x2 * y1 * y2 + ε) * hc + (y1 ^ 2 + 1 - 2) * hε
      - 2 * i * x1 * y1 * hc + 0
  have hm : (i * x1 - ε * y1) ^ 2 = d * (x1 * y1 * (i * x2 - y2)) ^ 2 := by
    linear_combination (x1 ^ 2 - d * x1 ^ 2 * y1 ^ 2 * x2 ^ 2) * hii + hA - d * x1 ^ 2 * y1 ^ 2 * hB - (d * x1 * x2 * y1 * y2 + ε) * hc + (y1 ^ 2 + 1 - 2) * hε
      + 2 * i * x1 * y1 * hc + 0
  have sq_of : ∀ {u v : F}, v ≠ 0 → u ^ 2 = d * v ^ 2 → False := by
    intro u v hv h
    apply hd
    refine ⟨u / v, ?_⟩
    field_simp
    linear_combination -h
  by_cases h1 : i * x2 + y2 = 0
  · by_cases h3 : i * x2 - y2 = 0
    · have : 2 * (i * x2) = 0 := by linear_combination h1 + h3
      exact mul_ne_zero h2 (mul_ne_zero hi0 hx2) this
    · exact sq_of (mul_ne_zero (mul_ne_zero hx1 hy1) h3) hm
  · exact sq_of (mul_ne_zero (mul_ne_zero hx1 hy1) h1) hp

theorem edwards_denom (h2 : (2 : F) ≠ 0) (hi : IsSquare (-1 : F)) (hd : ¬ IsSquare d)
    (hA : OnEdwards d A) (hB : OnEdwards d B) :
    1 + d * A.1 * B.1 * A.2 * B.2 ≠ 0 ∧ 1 - d * A.1 * B.1 * A.2 * B.2 ≠ 0 := by
  constructor
  · intro h
    exact edwards_denominators h2 hi hd hA hB (ε := -1) (by ring) (by linear_combination h)
  · intro h
    exact edwards_denominators h2 hi hd hA hB (ε := 1) (by ring) (by linear_combination -h)

/-- **C26.** The sum of two curve points is a curve point: the law never divides by zero. -/
theorem C26_closed (h2 : (2 : F) ≠ 0) (hi : IsSquare (-1 : F)) (hd : ¬ IsSquare d)
    (hA : OnEdwards d A) (hB : OnEdwards d B) :
    (1 + d * A.1 * B.1 * A.2 * B.2 ≠ 0 ∧ 1 - d * A.1 * B.1 * A.2 * B.2 ≠ 0) ∧ OnEdwards d (edSum d A B) := by
  have hden := edwards_denom h2 hi hd hA hB
  refine ⟨hden, ?_⟩
  obtain ⟨x1, y1⟩ := A
  obtain ⟨x2, y2⟩ := B
  simp only [OnEdwards, edSum] at *
  obtain ⟨k1, k2⟩ := hden
  have key : -(x1 * y2 + y1 * x2) ^ 2 * (1 - d * x1 * x2 * y1 * y2) ^ 2 +
      (y1 * y2 + x1 * x2) ^ 2 * (1 + d * x1 * x2 * y1 * y2) ^ 2 =
      (1 + d * x1 * x2 * y1 * y2) ^ 2 * (1 - d * x1 * x2 * y1 * y2) ^ 2 +
      d * (x1 * y2 + y1 * x2) ^ 2 * (y1 * y2 + x1 * x2) ^ 2 := by
    linear_combination ((y2 ^ 2 - x2 ^ 2) * (1 + (d * x1 * x2 * y1 * y2) ^ 2) -
        d * (x2 ^ 2 * y2 ^ 2) * (y1 ^ 2 - x1 ^ 2 + 1 + d * x1 ^ 2 * y1 ^ 2)) * hA +
      ((1 + d * x1 ^ 2 * y1 ^ 2) * (1 + (d * x1 * x2 * y1 * y2) ^ 2) -
        d * (x1 ^ 2 * y1 ^ 2) * (y2 ^ 2 - x2 ^ 2 + 1 + d * x2 ^ 2 * y2 ^ 2)) * hB
  generalize 1 + d * x1 * x2 * y1 * y2 = D1 at *
  generalize 1 - d * x1 * x2 * y1 * y2 = D2 at *
  field_simp
  linear_combination key

/-- **C26.** Extended + extended. -/
theorem C26_add_extended (h2 : (2 : F) ≠ 0) (hi : IsSquare (-1 : F)) (hd : ¬ IsSquare d)
    (hA : OnEdwards d A) (hB : OnEdwards d B) {p q : EExt F} (hp : ExtRep p A) (hq : ExtRep q B) :
    ExtRep (addExt d p q) (edSum d A B) := by
  obtain ⟨k1, k2⟩ := edwards_denom h2 hi hd hA hB
  obtain ⟨x1, y1⟩ := A
  obtain ⟨x2, y2⟩ := B
  obtain ⟨p0, p1, p2, p3⟩ := hp
  obtain ⟨q0, q1, q2, q3⟩ := hq
  simp only [ExtRep, addExt, edSum, p1, p2, p3, q1, q2, q3] at *
  have hf : p.z * q.z - d * (x1 * y1 * p.z) * (x2 * y2 * q.z) = p.z * q.z * (1 - d * x1 * x2 * y1 * y2) := by ring
  have hg : p.z * q.z + d * (x1 * y1 * p.z) * (x2 * y2 * q.z) = p.z * q.z * (1 + d * x1 * x2 * y1 * y2) := by ring
  rw [hf, hg]
  generalize 1 + d * x1 * x2 * y1 * y2 = D1 at *
  generalize 1 - d * x1 * x2 * y1 * y2 = D2 at *
  refine ⟨mul_ne_zero (mul_ne_zero (mul_ne_zero p0 q0) k2) (mul_ne_zero (mul_ne_zero p0 q0) k1), ?_, ?_, ?_⟩
  · field_simp; ring
  · field_simp; ring
  · field_simp; ring

/-- **C26.** Affine + extended. -/
theorem C26_add_mixed (h2 : (2 : F) ≠ 0) (hi : IsSquare (-1 : F)) (hd : ¬ IsSquare d)
    (hA : OnEdwards d A) (hB : OnEdwards d B) {q : EExt F} (hq : ExtRep q B) :
    ExtRep (addMixed d ⟨A.1, A.2⟩ q) (edSum d A B) := by
  have h := C26_add_extended h2 hi hd hA hB (p := ⟨A.1, A.2, A.1 * A.2, 1⟩) ⟨one_ne_zero, by simp, by simp, by simp⟩ hq
  have e : addMixed d ⟨A.1, A.2⟩ q = addExt d ⟨A.1, A.2, A.1 * A.2, 1⟩ q := by
    simp only [addMixed, addExt, one_mul, mul_assoc]
  rw [e]; exact h

/-- **C26.** Affine + affine. -/
theorem C26_add_affine (h2 : (2 : F) ≠ 0) (hi : IsSquare (-1 : F)) (hd : ¬ IsSquare d)
    (hA : OnEdwards d A) (hB : OnEdwards d B) :
    ExtRep (addAffine d ⟨A.1, A.2⟩ ⟨B.1, B.2⟩) (edSum d A B) := by
  have h := C26_add_mixed h2 hi hd hA hB (q := ⟨B.1, B.2, B.1 * B.2, 1⟩) ⟨one_ne_zero, by simp, by simp, by simp⟩
  have e : addAffine d ⟨A.1, A.2⟩ ⟨B.1, B.2⟩ = addMixed d ⟨A.1, A.2⟩ ⟨B.1, B.2, B.1 * B.2, 1⟩ := by
    have : d * (A.1 * B.1) * (A.2 * B.2) = d * A.1 * A.2 * (B.1 * B.2) := by ring
    simp only [addMixed, addAffine, this]
  rw [e]; exact h

/-- **C26.** Affine doubling. -/
theorem C26_double_affine (h2 : (2 : F) ≠ 0) (hi : IsSquare (-1 : F)) (hd : ¬ IsSquare d)
    (hA : OnEdwards d A) : ExtRep (doubleAffine d ⟨A.1, A.2⟩) (edSum d A A) :=
  C26_add_affine h2 hi hd hA hA

/-- **C26.** Extended doubling. -/
theorem C26_double_extended (h2 : (2 : F) ≠ 0) (hi : IsSquare (-1 : F)) (hd : ¬ IsSquare d)
    (hA : OnEdwards d A) {p : EExt F} (hp : ExtRep p A) : ExtRep (doubleExt p) (edSum d A A) := by
  obtain ⟨k1, k2⟩ := edwards_denom h2 hi hd hA hA
  obtain ⟨x, y⟩ := A
  obtain ⟨p0, p1, p2, p3⟩ := hp
  simp only [ExtRep, doubleExt, edSum, OnEdwards, p1, p2, p3] at *
  have hg : -(x * p.z * (x * p.z)) + y * p.z * (y * p.z) = p.z ^ 2 * (1 + d * x * x * y * y) := by
    linear_combination p.z ^ 2 * hA
  have hf : p.z ^ 2 * (1 + d * x * x * y * y) - (p.z * p.z + p.z * p.z) = - (p.z ^ 2 * (1 - d * x * x * y * y)) := by
    ring
  have hdd : -(x * p.z * (x * p.z)) - y * p.z * (y * p.z) = - (p.z ^ 2 * (y * y + x * x)) := by ring
  have he : x * p.z * (y * p.z) + x * p.z * (y * p.z) = p.z ^ 2 * (x * y + y * x) := by ring
  rw [hg, hf, hdd, he]
  generalize 1 + d * x * x * y * y = D1 at *
  generalize 1 - d * x * x * y * y = D2 at *
  refine ⟨mul_ne_zero (neg_ne_zero.mpr (mul_ne_zero (pow_ne_zero 2 p0) k2)) (mul_ne_zero (pow_ne_zero 2 p0) k1), ?_, ?_, ?_⟩
  · field_simp
  · field_simp
  · field_simp

/-- **C26.** Identity, negation, commutativity of the law, and equality and normalisation of extended
points. -/
theorem C26_structure {p q : EExt F} (hp : ExtRep p A) (hq : ExtRep q B) :
    ExtRep (EExt.identity : EExt F) (0, 1) ∧ edSum d A (0, 1) = A ∧ edSum d A B = edSum d B A ∧
      p.invert = some ⟨-p.x, p.y, -p.t, p.z⟩ ∧ ExtRep ⟨-p.x, p.y, -p.t, p.z⟩ (-A.1, A.2) ∧
      (p.eq q = true ↔ A = B) ∧ p.toAffine = some ⟨A.1, A.2⟩ ∧ (p.isIdentity = true ↔ A = (0, 1)) ∧
      ExtRep (EAff.toExtended ⟨A.1, A.2⟩) A := by
  obtain ⟨x1, y1⟩ := A
  obtain ⟨x2, y2⟩ := B
  obtain ⟨p0, p1, p2, p3⟩ := hp
  obtain ⟨q0, q1, q2, q3⟩ := hq
  simp only at p1 p2 p3 q1 q2 q3
  refine ⟨⟨by simp [EExt.identity], by simp [EExt.identity], by simp [EExt.identity], by simp [EExt.identity]⟩,
    by simp [edSum], ?_, by simp [EExt.invert, p0], ⟨p0, by rw [p1]; ring, p2, by rw [p3]; ring⟩, ?_, ?_, ?_,
    ⟨one_ne_zero, by simp [EAff.toExtended], by simp [EAff.toExtended], by simp [EAff.toExtended]⟩⟩
  · simp only [edSum, Prod.mk.injEq]
    constructor <;> congr 1 <;> ring
  · simp only [EExt.eq, Bool.and_eq_true, decide_eq_true_eq, p1, p2, q1, q2, Prod.mk.injEq]
    have e : ∀ u v : F, u * p.z * q.z = v * q.z * p.z ↔ u = v := by
      intro u v
      rw [mul_assoc, mul_assoc, mul_comm q.z p.z]
      exact mul_left_inj' (mul_ne_zero p0 q0)
    rw [e, e]
  · simp only [EExt.toAffine, if_neg p0, p1, p2]
    congr 2 <;> field_simp
  · simp only [EExt.isIdentity, Bool.and_eq_true, decide_eq_true_eq, p1, p2, Prod.mk.injEq]
    constructor
    · rintro ⟨h1, h3⟩
      refine ⟨by simpa [p0] using h1, ?_⟩
      exact mul_right_cancel₀ p0 (by rw [h3, one_mul])
    · rintro ⟨rfl, rfl⟩; simp

/-- **C26.** Affine points: the identity is `(0, 1)` and is recognised, equality is equality of coordinates, and `invert`
is the negative, except that it answers nothing for the two points of the curve that are their own negatives. -/
theorem C26_affine (h2 : (2 : F) ≠ 0) (hi : IsSquare (-1 : F)) (hd : ¬ IsSquare d) (hA : OnEdwards d A) (p q : EAff F) :
    (EAff.identity : EAff F) = ⟨0, 1⟩ ∧ (p.isIdentity = true ↔ (p.x, p.y) = (0, 1)) ∧
    (p.eq q = true ↔ (p.x, p.y) = (q.x, q.y)) ∧
    (∀ n, EAff.invert ⟨A.1, A.2⟩ = some n → OnEdwards d (n.x, n.y) ∧ edSum d A (n.x, n.y) = (0, 1)) ∧
    ((EAff.invert ⟨A.1, A.2⟩).isNone = true ↔ A = (0, 1) ∨ A = (0, -1)) := by
  obtain ⟨-, k2⟩ := edwards_denom h2 hi hd (A := A) (B := (-A.1, A.2)) hA (by
    simp only [OnEdwards] at hA ⊢; linear_combination hA)
  obtain ⟨px, py⟩ := p
  obtain ⟨qx, qy⟩ := q
  obtain ⟨x, y⟩ := A
  simp only [OnEdwards, edSum, EAff.invert, EAff.isIdentity, EAff.identity, EAff.eq] at *
  refine ⟨trivial, by simp, by simp, ?_, ?_⟩
  · intro n hn
    split at hn
    · cases hn
    · obtain rfl := Option.some.inj hn
      refine ⟨by linear_combination hA, ?_⟩
      ext
      · simp only
        rw [show x * y + y * -x = 0 by ring, zero_div]
      · rw [div_eq_one_iff_eq k2]
        linear_combination hA
  · constructor
    · intro h
      split at h
      case isTrue h0 =>
        subst h0
        have : (y - 1) * (y + 1) = 0 := by linear_combination hA
        rcases mul_eq_zero.mp this with h | h
        · left; rw [sub_eq_zero.mp h]
        · right; rw [eq_neg_of_add_eq_zero_left h]
      case isFalse => cases h
    · rintro (h | h) <;> (rw [(Prod.mk.inj h).1]; simp)

/-- **C25, Edwards.** `is_on_curve` accepts every curve point, and everything it accepts with `x ≠ 0` (and,
for extended points, `z ≠ 0`) is on the curve. -/
theorem C25_edwards_partial (a : EAff F) :
    (OnEdwards d (a.x, a.y) → a.isOnCurve d = true) ∧
    (a.isOnCurve d = true → a.x ≠ 0 → OnEdwards d (a.x, a.y)) := by
  simp only [EAff.isOnCurve, OnEdwards]
  constructor
  · intro h
    split
    · rfl
    · rw [decide_eq_true_eq]; linear_combination h
  · intro h hx
    rw [if_neg hx, decide_eq_true_eq] at h
    linear_combination h

/-- **C25 is false of Edwards points**: `is_on_curve` accepts `(0, y)` for every `y`, although only
`y² = 1` is on the curve, and accepts every extended point with `z = 0`. -/
theorem C25_edwards_refuted (y : F) (hy : y ^ 2 ≠ 1) (x t : F) :
    EAff.isOnCurve d ⟨0, y⟩ = true ∧ ¬ OnEdwards d (0, y) ∧ EExt.isOnCurve d ⟨x, y, t, 0⟩ = true := by
  refine ⟨by simp [EAff.isOnCurve], ?_, by simp [EExt.isOnCurve, EExt.toAffine]⟩
  simp only [OnEdwards]
  intro h
  exact hy (by linear_combination h)

instance : Fact (Nat.Prime 13) := ⟨by norm_num⟩

/-- C25, C26: a curve over `ZMod 13` (`-1 = 5²`, `d = 2` not a square) with a point that is not the identity. -/
example : (2 : ZMod 13) ≠ 0 ∧ IsSquare (-1 : ZMod 13) ∧ ¬ IsSquare (2 : ZMod 13) ∧ OnEdwards (2 : ZMod 13) (2, 4) ∧
    ExtRep (⟨6, 12, 11, 3⟩ : EExt (ZMod 13)) (2, 4) ∧ (2 : ZMod 13) ^ 2 ≠ 1 := by
  unfold OnEdwards ExtRep
  decide

end Kogarashi.Props
