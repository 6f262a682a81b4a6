import Verif.Props.Words
import Verif.Field.Square

/-!
# Property C78: exactly which elements of `Fq2` are squared correctly
-/

namespace Kogarashi.Props

open Kogarashi Spec Tower Curve Kogarashi.Field Limbs

/-- The difference of two squares is the difference of the two products exactly when both lose a carry or neither does. -/
theorem sub_squares_iff {P : FieldParams} (hP : ValidParams P) {a b : L4} (ha : Canonical P a) (hb : Canonical P b) :
    P.sub (P.square a) (P.square b) = P.sub (P.mul a a) (P.mul b b) ↔ (SquareLosesCarry a ↔ SquareLosesCarry b) := by
  have la := C03_square_partial hP ha
  have lb := C03_square_partial hP hb
  obtain ⟨k, hk, -, ca, da⟩ := square_denote hP ha
  obtain ⟨l, hl, -, cb, db⟩ := square_denote hP hb
  obtain ⟨ma, ea⟩ := mul_denote hP ha ha
  obtain ⟨mb, eb⟩ := mul_denote hP hb hb
  rw [← ea] at da
  rw [← eb] at db
  obtain ⟨c1, d1⟩ := sub_denote hP ca cb
  obtain ⟨c2, d2⟩ := sub_denote hP ma mb
  have iff1 : P.sub (P.square a) (P.square b) = P.sub (P.mul a a) (P.mul b b) ↔
      denote P (P.square a) - denote P (P.square b) = denote P (P.mul a a) - denote P (P.mul b b) := by
    rw [← d1, ← d2]
    exact ⟨fun h => by rw [h], fun h => denote_inj hP c1 c2 h⟩
  have ia : SquareLosesCarry a ↔ denote P (P.square a) ≠ denote P (P.mul a a) := by
    rw [← not_iff_not, ← la, not_not]
    exact ⟨fun h => by rw [h], fun h => denote_inj hP ca ma h⟩
  have ib : SquareLosesCarry b ↔ denote P (P.square b) ≠ denote P (P.mul b b) := by
    rw [← not_iff_not, ← lb, not_not]
    exact ⟨fun h => by rw [h], fun h => denote_inj hP cb mb h⟩
  rw [iff1, ia, ib]
  generalize denote P (P.square a) = x at *
  generalize denote P (P.square b) = y at *
  generalize denote P (P.mul a a) = u at *
  generalize denote P (P.mul b b) = v at *
  clear la lb iff1 ia ib c1 d1 c2 d2 ea eb
  rcases Nat.le_one_iff_eq_zero_or_eq_one.1 hk with rfl | rfl <;> rcases Nat.le_one_iff_eq_zero_or_eq_one.1 hl with rfl | rfl
  · simp only [Nat.mul_zero, Nat.cast_zero, zero_mul, add_zero] at da db
    subst da db; simp
  · simp only [Nat.mul_zero, Nat.cast_zero, zero_mul, add_zero] at da
    subst da; simp
  · simp only [Nat.mul_zero, Nat.cast_zero, zero_mul, add_zero] at db
    subst db; simp
  · subst da db
    rw [add_sub_add_right_eq_sub]
    simp

/-- **C78, exactly when `Fq2` is squared correctly on limbs**: when both coefficients lose a carry or neither does. -/
theorem C78_fq2_square_exact (a : Fq2 FqW) :
    a.limbs.squareLimb = (a * a).limbs ↔ (SquareLosesCarry a.c0.limbs ↔ SquareLosesCarry a.c1.limbs) := by
  have hd := (C78_base (P := fqParams)).2.1 (a.c0 * a.c1) 0
  have hm : a.c1 * a.c0 = a.c0 * a.c1 := mul_comm _ _
  have e0 : a.limbs.squareLimb.c0 = fqParams.sub (fqParams.square a.c0.limbs) (fqParams.square a.c1.limbs) := rfl
  have e1 : (a * a).limbs.c0 = fqParams.sub (fqParams.mul a.c0.limbs a.c0.limbs) (fqParams.mul a.c1.limbs a.c1.limbs) := rfl
  have e2 : a.limbs.squareLimb.c1 = (a * a).limbs.c1 := by
    show fqParams.double (fqParams.mul a.c0.limbs a.c1.limbs) = (a.c0 * a.c1 + a.c1 * a.c0).limbs
    rw [hm, hd.2.2.2.2]
    rfl
  rw [← sub_squares_iff fqParams_valid a.c0.canonical a.c1.canonical, ← e0, ← e1]
  exact ⟨fun h => by rw [h], fun h => Fq2.ext h e2⟩

/-! ### The cases occur -/

/-- One coefficient loses a carry: the square is wrong. -/
example : ∃ a : Fq2 FqW, ¬ (SquareLosesCarry a.c0.limbs ↔ SquareLosesCarry a.c1.limbs) :=
  ⟨⟨⟨badSquare, by unfold Canonical; decide +kernel⟩, 0⟩, by unfold SquareLosesCarry; decide +kernel⟩

/-- Both lose a carry: the square is right although the squares of both coefficients are wrong. -/
example : ∃ a : Fq2 FqW, SquareLosesCarry a.c0.limbs ∧ a.limbs.squareLimb = (a * a).limbs :=
  ⟨⟨⟨badSquare, by unfold Canonical; decide +kernel⟩, ⟨badSquare, by unfold Canonical; decide +kernel⟩⟩,
    by unfold SquareLosesCarry; decide +kernel, (C78_fq2_square_exact _).mpr Iff.rfl⟩

end Kogarashi.Props
