import Verif.Props.Poly
import Verif.Props.FieldMisc

/-!
# C67, C68: what the code does where the property fails

`is_even` for every element, and `blind` for every polynomial and every number of blinding scalars.
-/

set_option exponentiation.threshold 1600

namespace Kogarashi.Props

open Kogarashi Groth16 Polynomial Spec Field Limbs

section blind
variable {F : Type} [_root_.Field F] [DecidableEq F]

theorem blindFrom_any (ss : List F) : ∀ (p : List F) (i : Nat), i < p.length →
    ∃ q, blindFrom p i ss = some q ∧ q.length = p.length + ss.length ∧
      polyOf q = polyOf p + (X ^ p.length - X ^ i) * polyOf ss := by
  induction ss with
  | nil => intro p i _; exact ⟨p, rfl, by simp, by simp [polyOf]⟩
  | cons s ss ih =>
    intro p i hi
    obtain ⟨q, h1, h2, h3⟩ := ih (p.set i (p[i] - s) ++ [s]) (i + 1) (by simp; omega)
    refine ⟨q, ?_, ?_, ?_⟩
    · simp only [blindFrom, blindStep, dif_pos hi, Option.bind_some]; exact h1
    · rw [h2]; simp; omega
    · rw [h3, polyOf_append, polyOf_set _ _ _ hi]
      simp only [List.length_append, List.length_set, List.length_singleton, polyOf, mul_zero, add_zero, C_sub, pow_succ]
      ring

/-- **C68, for every polynomial with a coefficient and every number of blinding scalars** — more scalars than coefficients
included: `blind` succeeds, adds the multiple of `X^n - 1` given by the scalars, and changes none of the values at the `n`-th roots
of unity, `n` the number of coefficients before. -/
theorem C68_blind_nonempty (p ss : List F) (h : p ≠ []) :
    ∃ q, blindFrom p 0 ss = some q ∧ q.length = p.length + ss.length ∧ polyOf q = polyOf p + (X ^ p.length - 1) * polyOf ss ∧
      ∀ x, x ^ p.length = 1 → (polyOf q).eval x = (polyOf p).eval x := by
  obtain ⟨q, h1, h2, h3⟩ := blindFrom_any ss p 0 (List.length_pos_iff.mpr h)
  rw [pow_zero] at h3
  refine ⟨q, h1, h2, h3, fun x hx => ?_⟩
  rw [h3]; simp [hx]

/-- **C68, exactly when `blind` panics**: there is no coefficient, and there is a blinding scalar (there always is one:
`hiding_degree + 1` are drawn). -/
theorem C68_blind_panics (p ss : List F) : blindFrom p 0 ss = none ↔ p = [] ∧ ss ≠ [] := by
  by_cases h : p = []
  · subst h
    cases ss with
    | nil => simp [blindFrom]
    | cons s ss => simp [blindFrom, blindStep]
  · obtain ⟨q, h1, -⟩ := C68_blind_nonempty p ss h
    simp [h1, h]

/-- One coefficient, three scalars: the result still has the value `7` at the only first root of unity. -/
example : blindFrom [(7 : ZMod 17)] 0 [1, 2, 3] = some [6, 16, 16, 3] ∧ (6 + 16 + 16 + 3 : ZMod 17) = 7 := by decide

end blind

/-- **C67, what `is_even` tells of every element** of either field: whether the remainder of `2^256` times the value is even. -/
theorem C67_is_even_exact {P : FieldParams} (hP : ValidParams P) {a : L4} (ha : Canonical P a) :
    FieldParams.isEven a = true ↔ value P a * 2 ^ 256 % P.m % 2 = 0 := by
  have hval : value P a * 2 ^ 256 % P.m = a.val := by
    rw [← montR_eq, ← Nat.mod_eq_of_lt ha.2]
    refine (ZMod.natCast_eq_natCast_iff _ _ _).mp ?_
    rw [Nat.cast_mul, value_cast hP]
    unfold denote
    rw [mul_assoc, mul_comm (_ : ZMod P.m)⁻¹, R_mul_inv hP, mul_one]
  rw [hval]
  unfold FieldParams.isEven L4.val
  rw [decide_eq_true_iff]
  omega

/-- Both answers occur, on canonical elements of `Fr`. -/
example : Canonical frParams (frParams.fromU64 4) ∧ FieldParams.isEven (frParams.fromU64 4) = false ∧
    FieldParams.isEven (frParams.fromU64 0) = true := by
  refine ⟨?_, ?_, ?_⟩ <;> first | (unfold Canonical; decide +kernel) | decide +kernel

end Kogarashi.Props
