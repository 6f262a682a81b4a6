import Verif.Spec.Curve
import Verif.Field.Digits
import Mathlib.Tactic.FieldSimp
import Mathlib.Tactic.LinearCombination

/-!
# The point formulas implement the group law
-/

namespace Kogarashi.Curve

open Spec WeierstrassCurve.Affine Limbs

variable {F : Type} [Field F] [DecidableEq F] {b : F}

theorem equation_curve {x y : F} : (curve b).Equation x y ↔ y ^ 2 = x ^ 3 + b := by
  rw [equation_iff]; simp

theorem nonsingular_curve {x y : F} : (curve b).Nonsingular x y ↔
    y ^ 2 = x ^ 3 + b ∧ (3 * x ^ 2 ≠ 0 ∨ 2 * y ≠ 0) := by
  rw [nonsingular_iff', equation_curve]; simp

theorem eqn {x y : F} (h : (curve b).Nonsingular x y) : y ^ 2 = x ^ 3 + b := (nonsingular_curve.mp h).1

theorem negY_curve (x y : F) : (curve b).negY x y = -y := by simp [negY]

theorem some_congr {x y x' y' : F} {h : (curve b).Nonsingular x y} {h' : (curve b).Nonsingular x' y'}
    (hx : x = x') (hy : y = y') : (Point.some x y h : (curve b).Point) = Point.some x' y' h' := by
  subst hx; subst hy; rfl

theorem projRep_zero (p : Proj F) : ProjRep b p 0 ↔ p.z = 0 := Iff.rfl
theorem affRep_zero (p : Aff F) : AffRep b p 0 ↔ p.inf = true := Iff.rfl

theorem toExtended_rep {p : Aff F} {P : (curve b).Point} (h : AffRep b p P) : ProjRep b p.toExtended P := by
  cases P with
  | zero => have : p.inf = true := h; simp [Aff.toExtended, Aff.isIdentity, this, ProjRep]
  | some x y hns =>
    obtain ⟨h1, rfl, rfl⟩ := h
    simp [Aff.toExtended, Aff.isIdentity, h1, ProjRep]

theorem neg_rep {p : Proj F} {P : (curve b).Point} (h : ProjRep b p P) : ProjRep b p.neg (-P) := by
  cases P with
  | zero => exact h
  | some x y hns =>
    obtain ⟨h1, h2, h3⟩ := h
    rw [Point.neg_some]
    refine ⟨h1, h2, ?_⟩
    rw [negY_curve]
    change -p.y = -y * p.z
    rw [h3]; ring

theorem affNeg_rep {p : Aff F} {P : (curve b).Point} (h : AffRep b p P) : AffRep b p.neg (-P) := by
  cases P with
  | zero => exact h
  | some x y hns =>
    obtain ⟨h1, rfl, rfl⟩ := h
    rw [Point.neg_some]
    exact ⟨h1, rfl, (negY_curve _ _).symm⟩

/-- Doubling an affine point of the curve, as a statement about coordinates. -/
theorem double_core (h2 : (2 : F) ≠ 0) {x y : F} (hns : (curve b).Nonsingular x y) {X Y Z z : F} (hz : z ≠ 0)
    (hX : X = 2 * x * y * (y ^ 2 - 9 * b) * z ^ 4) (hY : Y = ((y ^ 2 - 9 * b) * (y ^ 2 + 3 * b) + 24 * b * y ^ 2) * z ^ 4)
    (hZ : Z = 8 * y ^ 3 * z ^ 4) :
    ProjRep b ⟨X, Y, Z⟩ (Point.some x y hns + Point.some x y hns) := by
  have he := eqn hns
  by_cases hy : y = 0
  · rw [Point.add_self_of_Y_eq (by rw [negY_curve, hy, neg_zero])]
    change Z = 0
    rw [hZ, hy]; ring
  · have hyne : y ≠ (curve b).negY x y := by
      rw [negY_curve]
      intro h
      apply hy
      have : (2 : F) * y = 0 := by linear_combination h
      exact (mul_eq_zero.mp this).resolve_left h2
    rw [Point.add_self_of_Y_ne hyne]
    have h8 : (8 : F) ≠ 0 := by
      have : (8 : F) = 2 * 2 * 2 := by norm_num
      rw [this]; exact mul_ne_zero (mul_ne_zero h2 h2) h2
    have hb : b = y ^ 2 - x ^ 3 := by rw [he]; ring
    refine ⟨?_, ?_, ?_⟩
    · change Z ≠ 0
      rw [hZ]; exact mul_ne_zero (mul_ne_zero h8 (pow_ne_zero 3 hy)) (pow_ne_zero 4 hz)
    · change X = _ * Z
      rw [slope_of_Y_ne rfl hyne, addX, negY_curve, hX, hZ]
      have : y - -y ≠ 0 := by
        rw [sub_neg_eq_add, ← two_mul]; exact mul_ne_zero h2 hy
      have e2 : y - -y = 2 * y := by ring
      simp only [e2]
      field_simp
      rw [hb]; ring
    · change Y = _ * Z
      rw [slope_of_Y_ne rfl hyne, addY, negAddY, addX, negY_curve, negY_curve, hY, hZ]
      have e2 : y - -y = 2 * y := by ring
      simp only [e2]
      field_simp
      rw [hb]; ring

theorem doubleProj_rep (h2 : (2 : F) ≠ 0) {p : Proj F} {P : (curve b).Point} (h : ProjRep b p P) :
    ProjRep b (doubleProj (b + b + b) p) (P + P) := by
  cases P with
  | zero =>
    have hz : p.z = 0 := h
    change ProjRep b _ (0 + 0)
    rw [add_zero]
    change _ = 0
    simp [doubleProj, hz]
  | some x y hns =>
    obtain ⟨h1, hx, hy⟩ := h
    refine double_core h2 hns h1 ?_ ?_ ?_ <;> simp only [hx, hy, sq, dbl] <;> ring

theorem doubleAffine_rep (h2 : (2 : F) ≠ 0) {p : Aff F} (hp : p.inf = false) {P : (curve b).Point} (h : AffRep b p P) :
    ProjRep b (doubleAffine (b + b + b) p) (P + P) := by
  cases P with
  | zero => have : p.inf = true := h; simp [this] at hp
  | some x y hns =>
    obtain ⟨h1, hx, hy⟩ := h
    refine double_core h2 hns one_ne_zero ?_ ?_ ?_ <;> simp only [hx, hy, sq, dbl] <;> ring

/-- Chord addition, as a statement about coordinates. -/
theorem add_core {x y x' y' : F} (hns : (curve b).Nonsingular x y) (hns' : (curve b).Nonsingular x' y')
    (hne : x ≠ x') {X Y Z k : F} (hk : k ≠ 0)
    (hX : X = (x - x') * ((y - y') ^ 2 - (x - x') ^ 2 * (x + x')) * k)
    (hY : Y = ((y - y') * (x * (x - x') ^ 2 - ((y - y') ^ 2 - (x - x') ^ 2 * (x + x'))) - y * (x - x') ^ 3) * k)
    (hZ : Z = (x - x') ^ 3 * k) :
    ProjRep b ⟨X, Y, Z⟩ (Point.some x y hns + Point.some x' y' hns') := by
  have hd : x - x' ≠ 0 := sub_ne_zero.mpr hne
  rw [Point.add_of_X_ne hne]
  refine ⟨?_, ?_, ?_⟩
  · change Z ≠ 0
    rw [hZ]; exact mul_ne_zero (pow_ne_zero 3 hd) hk
  · change X = _ * Z
    rw [slope_of_X_ne hne, addX, hX, hZ]
    field_simp
    ring
  · change Y = _ * Z
    rw [slope_of_X_ne hne, addY, negAddY, addX, negY_curve, hY, hZ]
    field_simp
    ring

/-- Two points with the same abscissa and different ordinates are opposite. -/
theorem opposite {x y y' : F} (hns : (curve b).Nonsingular x y) (hns' : (curve b).Nonsingular x y')
    (hy : y ≠ y') : Point.some x y hns + Point.some x y' hns' = 0 := by
  have h1 := eqn hns
  have h2 := eqn hns'
  apply Point.add_of_Y_eq rfl
  rw [negY_curve]
  have : (y - y') * (y + y') = 0 := by linear_combination h1 - h2
  rcases mul_eq_zero.mp this with h | h
  · exact absurd (sub_eq_zero.mp h) hy
  · linear_combination h

theorem addProj_rep (h2 : (2 : F) ≠ 0) {p q : Proj F} {P Q : (curve b).Point} (hp : ProjRep b p P)
    (hq : ProjRep b q Q) : ProjRep b (addProj (b + b + b) p q) (P + Q) := by
  cases P with
  | zero =>
    have hz : p.z = 0 := hp
    change ProjRep b _ (0 + Q)
    rw [zero_add]
    simpa [addProj, Proj.isIdentity, hz] using hq
  | some x y hns =>
    obtain ⟨p1, px, py⟩ := hp
    cases Q with
    | zero =>
      have hz : q.z = 0 := hq
      change ProjRep b _ (Point.some x y hns + 0)
      rw [add_zero]
      have : addProj (b + b + b) p q = p := by simp [addProj, Proj.isIdentity, hz, p1]
      rw [this]; exact ⟨p1, px, py⟩
    | some x' y' hns' =>
      obtain ⟨q1, qx, qy⟩ := hq
      have hv : p.z * q.z ≠ 0 := mul_ne_zero p1 q1
      have e1 : p.x * q.z = q.x * p.z ↔ x = x' := by
        rw [px, qx]
        constructor
        · intro h; exact mul_right_cancel₀ hv (by linear_combination h)
        · rintro rfl; ring
      have e2 : p.y * q.z = q.y * p.z ↔ y = y' := by
        rw [py, qy]
        constructor
        · intro h; exact mul_right_cancel₀ hv (by linear_combination h)
        · rintro rfl; ring
      unfold addProj
      rw [if_neg (by simpa [Proj.isIdentity] using p1), if_neg (by simpa [Proj.isIdentity] using q1)]
      dsimp only
      by_cases hx : x = x'
      · subst hx
        rw [if_pos (e1.mpr rfl)]
        by_cases hy : y = y'
        · subst hy
          rw [if_pos (e2.mpr rfl)]
          exact doubleProj_rep h2 (P := Point.some x y hns) ⟨p1, px, py⟩
        · rw [if_neg (fun h => hy (e2.mp h)), opposite hns hns' hy]
          rfl
      · rw [if_neg (fun h => hx (e1.mp h))]
        refine add_core hns hns' hx (k := (p.z * q.z) ^ 4) (pow_ne_zero 4 hv) ?_ ?_ ?_ <;>
          simp only [px, py, qx, qy, sq] <;> ring

theorem addMixed_rep (h2 : (2 : F) ≠ 0) {p : Aff F} {q : Proj F} {P Q : (curve b).Point} (hp : AffRep b p P)
    (hq : ProjRep b q Q) : ProjRep b (addMixed (b + b + b) p q) (P + Q) := by
  cases P with
  | zero =>
    have hz : p.inf = true := hp
    change ProjRep b _ (0 + Q)
    rw [zero_add]
    simpa [addMixed, Aff.isIdentity, hz] using hq
  | some x y hns =>
    have hpr := hp
    obtain ⟨p1, px, py⟩ := hp
    cases Q with
    | zero =>
      have hz : q.z = 0 := hq
      change ProjRep b _ (Point.some x y hns + 0)
      rw [add_zero]
      have : addMixed (b + b + b) p q = p.toExtended := by
        simp [addMixed, Aff.isIdentity, Proj.isIdentity, hz, p1]
      rw [this]; exact toExtended_rep hpr
    | some x' y' hns' =>
      obtain ⟨q1, qx, qy⟩ := hq
      have e1 : p.x * q.z = q.x ↔ x = x' := by
        rw [px, qx]
        constructor
        · intro h; exact mul_right_cancel₀ q1 h
        · rintro rfl; ring
      have e2 : p.y * q.z = q.y ↔ y = y' := by
        rw [py, qy]
        constructor
        · intro h; exact mul_right_cancel₀ q1 h
        · rintro rfl; ring
      unfold addMixed
      rw [if_neg (by simpa [Aff.isIdentity] using p1), if_neg (by simpa [Proj.isIdentity] using q1)]
      dsimp only
      by_cases hx : x = x'
      · subst hx
        rw [if_pos (e1.mpr rfl)]
        by_cases hy : y = y'
        · subst hy
          rw [if_pos (e2.mpr rfl)]
          exact doubleAffine_rep h2 p1 hpr
        · rw [if_neg (fun h => hy (e2.mp h)), opposite hns hns' hy]
          rfl
      · rw [if_neg (fun h => hx (e1.mp h))]
        refine add_core hns hns' hx (k := q.z ^ 4) (pow_ne_zero 4 q1) ?_ ?_ ?_ <;>
          simp only [px, py, qx, qy, sq, dbl] <;> ring

theorem addAffine_rep (h2 : (2 : F) ≠ 0) {p q : Aff F} {P Q : (curve b).Point} (hp : AffRep b p P)
    (hq : AffRep b q Q) : ProjRep b (addAffine (b + b + b) p q) (P + Q) := by
  cases P with
  | zero =>
    have hz : p.inf = true := hp
    change ProjRep b _ (0 + Q)
    rw [zero_add]
    simpa [addAffine, Aff.isIdentity, hz] using toExtended_rep hq
  | some x y hns =>
    have hpr := hp
    obtain ⟨p1, px, py⟩ := hp
    cases Q with
    | zero =>
      have hz : q.inf = true := hq
      change ProjRep b _ (Point.some x y hns + 0)
      rw [add_zero]
      have : addAffine (b + b + b) p q = p.toExtended := by
        simp [addAffine, Aff.isIdentity, hz, p1]
      rw [this]; exact toExtended_rep hpr
    | some x' y' hns' =>
      obtain ⟨q1, qx, qy⟩ := hq
      unfold addAffine
      rw [if_neg (by simpa [Aff.isIdentity] using p1), if_neg (by simpa [Aff.isIdentity] using q1)]
      dsimp only
      by_cases hx : x = x'
      · subst hx
        rw [if_pos (by rw [px, qx])]
        by_cases hy : y = y'
        · subst hy
          rw [if_pos (by rw [py, qy])]
          exact doubleAffine_rep h2 p1 hpr
        · rw [if_neg (by rw [py, qy]; exact hy), opposite hns hns' hy]
          rfl
      · rw [if_neg (by rw [px, qx]; exact hx)]
        refine add_core hns hns' hx (k := 1) one_ne_zero ?_ ?_ ?_ <;>
          simp only [px, py, qx, qy, sq] <;> ring

theorem scalarPoint_rep (h2 : (2 : F) ≠ 0) {p : Proj F} {P : (curve b).Point} (hp : ProjRep b p P)
    (nafs : List Naf) : ProjRep b (scalarPoint (b + b + b) p nafs) (nafValue nafs • P) := by
  have key : ∀ (nafs : List Naf) (res : Proj F) (n : Int), ProjRep b res (n • P) →
      ProjRep b (nafs.foldl (scalarStep (b + b + b) p) res)
        ((nafs.foldl (fun acc d => 2 * acc + nafDigit d) n) • P) := by
    intro nafs
    induction nafs with
    | nil => intro res n h; exact h
    | cons d ds ih =>
      intro res n h
      rw [List.foldl_cons, List.foldl_cons]
      apply ih
      have hd := doubleProj_rep h2 h
      rw [← add_zsmul, ← two_mul n] at hd
      unfold scalarStep
      cases d with
      | zero => simpa [nafDigit] using hd
      | plus =>
        have := addProj_rep h2 hd hp
        rw [add_zsmul]; simpa [nafDigit] using this
      | minus =>
        have := addProj_rep h2 hd (neg_rep hp)
        rw [add_zsmul]; simpa [nafDigit] using this
  exact key nafs Proj.identity 0 (by rw [zero_smul]; rfl)

theorem toAffine_rep {p : Proj F} {P : (curve b).Point} (h : ProjRep b p P) : AffRep b p.toAffine P := by
  cases P with
  | zero => have hz : p.z = 0 := h; simp [Proj.toAffine, hz, AffRep, Aff.identity]
  | some x y hns =>
    obtain ⟨h1, h2, h3⟩ := h
    unfold Proj.toAffine
    rw [if_neg h1, h2, h3]
    exact ⟨rfl, by change x * p.z * p.z⁻¹ = x; field_simp, by change y * p.z * p.z⁻¹ = y; field_simp⟩

theorem projEq_iff {p q : Proj F} {P Q : (curve b).Point} (hp : ProjRep b p P) (hq : ProjRep b q Q) :
    p.eq q = true ↔ P = Q := by
  cases P with
  | zero =>
    have hz : p.z = 0 := hp
    cases Q with
    | zero => have hz' : q.z = 0 := hq; simp [Proj.eq, Proj.isIdentity, hz, hz']
    | some x y h => simp [Proj.eq, Proj.isIdentity, hz, hq.1]
  | some x y h =>
    obtain ⟨p1, px, py⟩ := hp
    cases Q with
    | zero => have hz' : q.z = 0 := hq; simp [Proj.eq, Proj.isIdentity, p1, hz']
    | some x' y' h' =>
      obtain ⟨q1, qx, qy⟩ := hq
      have hv : p.z * q.z ≠ 0 := mul_ne_zero p1 q1
      have e1 : p.x * q.z = q.x * p.z ↔ x = x' := by
        rw [px, qx]
        constructor
        · intro h; exact mul_right_cancel₀ hv (by linear_combination h)
        · rintro rfl; ring
      have e2 : p.y * q.z = q.y * p.z ↔ y = y' := by
        rw [py, qy]
        constructor
        · intro h; exact mul_right_cancel₀ hv (by linear_combination h)
        · rintro rfl; ring
      simp [Proj.eq, Proj.isIdentity, p1, q1, e1, e2]

theorem affEq_iff {p q : Aff F} {P Q : (curve b).Point} (hp : AffRep b p P) (hq : AffRep b q Q) :
    p.eq q = true ↔ P = Q := by
  cases P with
  | zero =>
    have hz : p.inf = true := hp
    cases Q with
    | zero => have hz' : q.inf = true := hq; simp [Aff.eq, Aff.isIdentity, hz, hz']
    | some x y h => simp [Aff.eq, Aff.isIdentity, hz, hq.1]
  | some x y h =>
    obtain ⟨p1, px, py⟩ := hp
    cases Q with
    | zero => have hz' : q.inf = true := hq; simp [Aff.eq, Aff.isIdentity, p1, hz']
    | some x' y' h' =>
      obtain ⟨q1, qx, qy⟩ := hq
      simp [Aff.eq, Aff.isIdentity, p1, q1, px, py, qx, qy]

theorem nonsingular_of_eq (h2 : (2 : F) ≠ 0) (h3 : (3 : F) ≠ 0) (hb : b ≠ 0) {x y : F}
    (h : y ^ 2 = x ^ 3 + b) : (curve b).Nonsingular x y := by
  rw [nonsingular_curve]
  refine ⟨h, ?_⟩
  by_contra hc
  simp only [not_or, not_not] at hc
  have hx : x = 0 := by
    have := (mul_eq_zero.mp hc.1).resolve_left h3
    exact pow_eq_zero_iff (two_ne_zero) |>.mp this
  have hy : y = 0 := (mul_eq_zero.mp hc.2).resolve_left h2
  apply hb
  rw [hx, hy] at h
  simpa using h.symm

theorem projOnCurve_iff (h2 : (2 : F) ≠ 0) (h3 : (3 : F) ≠ 0) (hb : b ≠ 0) (p : Proj F) :
    p.isOnCurve b = true ↔ ∃ P, ProjRep b p P := by
  unfold Proj.isOnCurve Proj.isIdentity sq
  by_cases hz : p.z = 0
  · simp only [hz, decide_true, if_true, true_iff]
    exact ⟨0, hz⟩
  · simp only [hz, decide_false, Bool.false_eq_true, if_false, decide_eq_true_eq]
    constructor
    · intro h
      have he : (p.y / p.z) ^ 2 = (p.x / p.z) ^ 3 + b := by
        field_simp
        linear_combination h
      exact ⟨Point.some _ _ (nonsingular_of_eq h2 h3 hb he), hz, by field_simp, by field_simp⟩
    · rintro ⟨P, hP⟩
      cases P with
      | zero => exact absurd hP hz
      | some x y h =>
        obtain ⟨-, hx, hy⟩ := hP
        rw [hx, hy]
        linear_combination p.z ^ 3 * eqn h

theorem affOnCurve_iff (h2 : (2 : F) ≠ 0) (h3 : (3 : F) ≠ 0) (hb : b ≠ 0) (p : Aff F) :
    p.isOnCurve b = true ↔ ∃ P, AffRep b p P := by
  unfold Aff.isOnCurve sq
  by_cases hz : p.inf
  · simp only [hz, if_true, true_iff]
    exact ⟨0, hz⟩
  · simp only [hz, Bool.false_eq_true, if_false, decide_eq_true_eq]
    constructor
    · intro h
      have he : p.y ^ 2 = p.x ^ 3 + b := by linear_combination h
      exact ⟨Point.some _ _ (nonsingular_of_eq h2 h3 hb he), by simpa using hz, rfl, rfl⟩
    · rintro ⟨P, hP⟩
      cases P with
      | zero => exact absurd hP hz
      | some x y h =>
        obtain ⟨-, hx, hy⟩ := hP
        rw [hx, hy]
        linear_combination eqn h

theorem mulByXLoop_rep (h2 : (2 : F) ≠ 0) {P : (curve b).Point} : ∀ (fuel x : Nat) (tmp acc : Proj F) (n m : Nat),
    x < 2 ^ fuel → ProjRep b tmp (n • P) → ProjRep b acc (m • P) →
    ProjRep b (mulByXLoop (b + b + b) fuel x tmp acc) ((m + 2 * n * x) • P) := by
  intro fuel
  induction fuel with
  | zero =>
    intro x tmp acc n m hx _ ha
    have : x = 0 := by simpa using hx
    subst this
    simpa [mulByXLoop] using ha
  | succ fuel ih =>
    intro x tmp acc n m hx ht ha
    unfold mulByXLoop
    by_cases h0 : x = 0
    · rw [if_pos h0, h0]; simpa using ha
    · rw [if_neg h0]
      dsimp only
      have hd := doubleProj_rep h2 ht
      rw [← add_smul] at hd
      by_cases h1 : x % 2 = 1
      · rw [if_pos h1]
        have ha' := addProj_rep h2 ha hd
        rw [← add_smul] at ha'
        have := ih (x / 2) _ _ _ _ (by rw [pow_succ] at hx; omega) hd ha'
        convert this using 2
        have : x = 2 * (x / 2) + 1 := by omega
        generalize x / 2 = k at *
        subst this; ring
      · rw [if_neg h1]
        have := ih (x / 2) _ _ _ _ (by rw [pow_succ] at hx; omega) hd ha
        convert this using 2
        have : x = 2 * (x / 2) := by omega
        generalize x / 2 = k at *
        subst this; ring

end Kogarashi.Curve
