import Verif.Props.Folding

/-!
# C57: the conversions on every integer

`nat_to_f` and `nat_to_limbs` take a `BigInt`, so a negative number can be passed. Neither rejects it.
-/

set_option exponentiation.threshold 1600

namespace Kogarashi.Props

open Kogarashi.Nova

variable {p : Nat}

/-- The limbs depend on the integer modulo `2^(k w)` only. -/
theorem limbLoop_add {w : Nat} : ∀ (k : Nat) (n t : Int),
    (limbLoop w k (n + 2 ^ (k * w) * t) : Option (List (ZMod p))) = limbLoop w k n
  | 0, _, _ => rfl
  | k + 1, n, t => by
    have e : n + 2 ^ ((k + 1) * w) * t = n + 2 ^ w * (2 ^ (k * w) * t) := by
      rw [Nat.add_mul, Nat.one_mul, pow_add]; ring
    have h0 : (2 ^ w : Int) ≠ 0 := pow_ne_zero _ (by norm_num)
    unfold limbLoop
    rw [e, Int.add_mul_emod_self_left, Int.add_mul_ediv_left _ _ h0, limbLoop_add k]

/-- **C57**, field elements: `nat_to_f` of a natural number is that number in the field, and panics exactly from `2^511` on; `f_to_nat`
of the result is the number modulo the field's modulus. -/
theorem C57_nat_to_f [NeZero p] (n : Nat) :
    ((natToF (n : Int) : Option (ZMod p)) = none ↔ 2 ^ 511 ≤ n) ∧
    ∀ f : ZMod p, natToF (n : Int) = some f → f = n ∧ fToNat f = ((n % p : Nat) : Int) := by
  rcases lt_or_ge n (2 ^ 511) with h | h
  · rw [natToF_nat h]
    refine ⟨⟨fun h' => (by cases h'), fun h' => absurd h' (not_le.mpr h)⟩, fun f hf => ?_⟩
    cases hf
    exact ⟨rfl, by unfold fToNat; rw [ZMod.val_natCast]⟩
  · rw [natToF_big h]
    exact ⟨⟨fun _ => h, fun _ => rfl⟩, fun f hf => by cases hf⟩

/-- **C57**, every field element is recovered from its integer. -/
theorem C57_f_to_nat [NeZero p] (hp : p ≤ 2 ^ 511) (f : ZMod p) : natToF (fToNat f) = some f := by
  unfold fToNat
  rw [natToF_nat (lt_of_lt_of_le (ZMod.val_lt f) hp), ZMod.natCast_zmod_val]

/-- **C57**, negative integers are not refused: `nat_to_limbs` of `n < 0` panics only when the magnitude does not fit, and otherwise returns
the limbs of `n + 2^(k w)`, so that `limbs_to_nat` gives another number back. -/
theorem C57_negative [Fact p.Prime] {w k : Nat} {n : Int} (hw : w ≤ 511) (hp : 2 ^ w ≤ p) (hn : n < 0) :
    ((natToLimbs n w k : Option (List (ZMod p))) = none ↔ 2 ^ (k * w) ≤ n.natAbs) ∧
    ∀ ls : List (ZMod p), natToLimbs n w k = some ls → ls.length = k ∧ limbsToNat ls w = n + 2 ^ (k * w) := by
  by_cases hs : 2 ^ (k * w) ≤ n.natAbs
  · have e : (natToLimbs n w k : Option (List (ZMod p))) = none := by
      unfold natToLimbs
      rw [if_neg (not_le.mpr (Nat.lt_size.mpr hs))]
    exact ⟨⟨fun _ => hs, fun _ => e⟩, fun ls h => by rw [e] at h; cases h⟩
  · have hs' := not_le.mp hs
    obtain ⟨m, hm⟩ : ∃ m : Nat, (m : Int) = n + 2 ^ (k * w) := by
      refine ⟨2 ^ (k * w) - n.natAbs, ?_⟩
      rw [Nat.cast_sub hs'.le, Nat.cast_pow, Nat.cast_ofNat]
      omega
    have hlt : m < 2 ^ (k * w) := by
      have : (m : Int) < ((2 ^ (k * w) : Nat) : Int) := by rw [hm, Nat.cast_pow, Nat.cast_ofNat]; omega
      exact_mod_cast this
    obtain ⟨ls, h1, h2, -, h4⟩ := C57_encode (p := p) hw hp hlt
    have e : (natToLimbs n w k : Option (List (ZMod p))) = some ls := by
      rw [← h1]
      unfold natToLimbs
      rw [if_pos (Nat.size_le.mpr hs'), if_pos (by rw [Int.natAbs_natCast]; exact Nat.size_le.mpr hlt), hm]
      have := limbLoop_add (p := p) (w := w) k n 1
      rw [mul_one] at this
      exact this.symm
    refine ⟨⟨fun h => (by rw [e] at h; cases h), fun h => absurd h hs⟩, fun l h => ?_⟩
    rw [e] at h
    cases h
    exact ⟨h2, by rw [h4, hm]⟩

/-- `nat_to_f(-1)` is 255 and `nat_to_limbs(-1)` four limbs of ones. -/
theorem C57_minus_one : (natToF (-1) : Option (ZMod 257)) = some 255 ∧
    (natToLimbs (-1) 2 4 : Option (List (ZMod 257))) = some [3, 3, 3, 3] := by decide

/-- Limbs of 64 bits, four of them, in Fr. -/
example : (64 ≤ 511) ∧ 2 ^ 64 ≤ Field.frParams.m ∧ (-5 : Int) < 0 ∧ ¬ 2 ^ (4 * 64) ≤ (-5 : Int).natAbs ∧
    Field.frParams.m ≤ 2 ^ 511 := by decide +kernel

end Kogarashi.Props
