import Verif.Props.Point
import Mathlib.GroupTheory.Perm.Cycle.Type
import Mathlib.Algebra.Module.ZMod

/-!
# The order of the two groups

`y² = x³ + b` over a field of `q` elements has at most `2 q + 1` points.  With a point of prime order `r > (2 q + 1) / 3`
and no point of order two, the group has exactly `r` elements, hence is a module over `ZMod r`: this is the structure
the protocol models assume of the commitment groups.
-/

namespace Kogarashi.Curve

open Spec WeierstrassCurve.Affine Kogarashi.Props Field

section
variable {F : Type} [_root_.Field F] [DecidableEq F] {b : F}

open Classical in
/-- A square root of `x³ + b`, if there is one. -/
noncomputable def rootOf (b x : F) : F := if h : ∃ y, y ^ 2 = x ^ 3 + b then h.choose else 0

open Classical in
/-- The `x` coordinate and which of the two roots `y` is. -/
noncomputable def code (b : F) : (curve b).Point → Option (F × Bool)
  | .zero => none
  | .some x y _ => some (x, decide (y = rootOf b x))

theorem eqn_sq {x y : F} (h : (curve b).Nonsingular x y) : y ^ 2 = x ^ 3 + b := by
  have := eqn h
  linear_combination this

theorem rootOf_sq {x y : F} (h : y ^ 2 = x ^ 3 + b) : rootOf b x ^ 2 = x ^ 3 + b := by
  unfold rootOf
  rw [dif_pos ⟨y, h⟩]
  exact Exists.choose_spec (⟨y, h⟩ : ∃ y, y ^ 2 = x ^ 3 + b)

theorem code_injective : Function.Injective (code b) := by
  intro P Q h
  cases P with
  | zero => cases Q with
    | zero => rfl
    | some => cases h
  | some x y hn => cases Q with
    | zero => cases h
    | some x' y' hn' =>
      simp only [code, Option.some.injEq, Prod.mk.injEq, decide_eq_decide] at h
      obtain ⟨rfl, hy⟩ := h
      have e1 := eqn_sq hn
      have e2 := eqn_sq hn'
      have e3 := rootOf_sq e1
      have : y = y' := by
        by_cases h1 : y = rootOf b x
        · rw [h1, ← hy.mp h1]
        · have h2 : y' ≠ rootOf b x := fun h => h1 (hy.mpr h)
          have k1 : (y - rootOf b x) * (y + rootOf b x) = 0 := by linear_combination e1 - e3
          have k2 : (y' - rootOf b x) * (y' + rootOf b x) = 0 := by linear_combination e2 - e3
          have l1 := (mul_eq_zero.mp k1).resolve_left (sub_ne_zero.mpr h1)
          have l2 := (mul_eq_zero.mp k2).resolve_left (sub_ne_zero.mpr h2)
          linear_combination l1 - l2
      subst this
      rfl

end

section
variable {q : Nat} [Fact q.Prime] {b : ZMod q}

instance : Finite (curve b).Point := Finite.of_injective _ code_injective

theorem card_le : Nat.card (curve b).Point ≤ 2 * q + 1 := by
  refine (Nat.card_le_card_of_injective _ code_injective).trans (le_of_eq ?_)
  rw [Nat.card_eq_fintype_card, Fintype.card_option, Fintype.card_prod, ZMod.card, Fintype.card_bool, Nat.mul_comm]

theorem no_order_two (h2 : (2 : ZMod q) ≠ 0) (hn : NoOrderTwo b) {P : (curve b).Point} (h : addOrderOf P = 2) : False := by
  have hP : P ≠ 0 := by rintro rfl; simp at h
  have h0 : P + P = 0 := by rw [← two_nsmul, ← h]; exact addOrderOf_nsmul_eq_zero P
  cases P with
  | zero => exact hP rfl
  | some x y hns =>
    have := eq_neg_of_add_eq_zero_left h0
    rw [Point.neg_some] at this
    simp only [Point.some.injEq, true_and] at this
    have hy : y = -y := by
      conv_lhs => rw [this]
      simp [negY]
    have : (2 : ZMod q) * y = 0 := by linear_combination hy
    exact y_ne_zero hn hns ((mul_eq_zero.mp this).resolve_left h2)

/-- The order of the group, from one point of large prime order. -/
theorem card_eq (h2 : (2 : ZMod q) ≠ 0) (hn : NoOrderTwo b) {r : Nat} (hr : r.Prime) (hqr : 2 * q + 1 < 3 * r)
    {G : (curve b).Point} (hG : r • G = 0) (hG0 : G ≠ 0) : Nat.card (curve b).Point = r := by
  haveI : Fact r.Prime := ⟨hr⟩
  have ho : addOrderOf G = r := addOrderOf_eq_prime hG hG0
  obtain ⟨k, hk⟩ : r ∣ Nat.card (curve b).Point := ho ▸ addOrderOf_dvd_natCard G
  have hle : r * k < r * 3 := by
    rw [← hk]; exact lt_of_le_of_lt card_le (by rw [Nat.mul_comm r 3]; exact hqr)
  have hk3 : k < 3 := Nat.lt_of_mul_lt_mul_left hle
  have hk0 : k ≠ 0 := by
    rintro rfl
    rw [Nat.mul_zero] at hk
    exact (Nat.card_pos (α := (curve b).Point)).ne' hk
  have hk2 : k ≠ 2 := by
    rintro rfl
    have : Fact (Nat.Prime 2) := ⟨Nat.prime_two⟩
    obtain ⟨P, hP⟩ := exists_prime_addOrderOf_dvd_card' (G := (curve b).Point) 2 ⟨r, by rw [hk, Nat.mul_comm]⟩
    exact no_order_two h2 hn hP
  have : k = 1 := by omega
  rw [hk, this, Nat.mul_one]

theorem smul_eq_zero_of_card (h2 : (2 : ZMod q) ≠ 0) (hn : NoOrderTwo b) {r : Nat} (hr : r.Prime) (hqr : 2 * q + 1 < 3 * r)
    {G : (curve b).Point} (hG : r • G = 0) (hG0 : G ≠ 0) (P : (curve b).Point) : r • P = 0 := by
  rw [← card_eq h2 hn hr hqr hG hG0]
  exact card_nsmul_eq_zero'

end

/-! ## BN254 G1 and Grumpkin -/

/-- The generator of Grumpkin (`grumpkin/src/params.rs`; its raw limbs denote these coordinates, `grumpkin_params`). -/
def grumpkinGen : Aff FrV := ⟨1, 17631683881184975370165255887551781615748388533673675138860, false⟩

noncomputable def grumpkinPoint : (curve grumpkinB).Point :=
  .some 1 17631683881184975370165255887551781615748388533673675138860
    (nonsingular_of_eq grumpkin_two grumpkin_three grumpkin_b (by decide +kernel))

theorem grumpkinGen_rep : AffRep grumpkinB grumpkinGen grumpkinPoint := ⟨rfl, rfl, rfl⟩

/-- The order of Fq times the generator of Grumpkin is the identity. -/
theorem grumpkin_order : fqParams.m • grumpkinPoint = 0 :=
  smul_eq_zero_of_run (ds := (Limbs.B256.toNafs fqParams.p).getD []) grumpkin_two (toExtended_rep grumpkinGen_rep)
    (by decide +kernel) (by decide +kernel)

/-- Every point of BN254 G1 is killed by the order of Fr. -/
theorem g1_smul_order (P : (curve g1B).Point) : frParams.m • P = 0 :=
  smul_eq_zero_of_card g1_two g1_noOrderTwo frParams_prime (by decide +kernel) g1_order (Point.some_ne_zero _) P

/-- Every point of Grumpkin is killed by the order of Fq. -/
theorem grumpkin_smul_order (P : (curve grumpkinB).Point) : fqParams.m • P = 0 :=
  smul_eq_zero_of_card grumpkin_two grumpkin_noOrderTwo fqParams_prime (by decide +kernel) grumpkin_order
    (Point.some_ne_zero _) P

/-- BN254 G1 is a module over Fr. -/
noncomputable instance g1Module : Module FrV (curve g1B).Point := AddCommGroup.zmodModule g1_smul_order
/-- Grumpkin is a module over Fq. -/
noncomputable instance grumpkinModule : Module FqV (curve grumpkinB).Point := AddCommGroup.zmodModule grumpkin_smul_order

end Kogarashi.Curve
