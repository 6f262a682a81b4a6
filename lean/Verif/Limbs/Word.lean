import Mathlib.Tactic.Ring
import Mathlib.Tactic.LinearCombination
import Mathlib.Tactic.NormNum

/-!
# Machine words

`u64` and `u128` values are natural numbers; each operation carries its explicit reduction.
These are the primitive operations the Rust limb code uses (Rust language semantics, trusted base).
-/

namespace Kogarashi.Limbs

/-- `s as u64` for a `u128` value `s`: the low 64 bits. -/
def lo (s : Nat) : Nat := s % 2^64

/-- `(s >> 64) as u64` for a `u128` value `s`: the high 64 bits. -/
def hi (s : Nat) : Nat := s / 2^64 % 2^64

/-- `u64::wrapping_add`. -/
def wadd (x y : Nat) : Nat := (x + y) % 2^64

/-- `u64::wrapping_sub` (for `y < 2^64`). -/
def wsub (x y : Nat) : Nat := (x + 2^64 - y) % 2^64

/-- `u64::wrapping_mul`. -/
def wmul (x y : Nat) : Nat := x * y % 2^64

/-- `u128::wrapping_sub` (for `y ≤ 2^128`). -/
def wsub128 (x y : Nat) : Nat := (x + 2^128 - y) % 2^128

/-- `x << 1` on `u64`. -/
def shl1 (x : Nat) : Nat := x * 2 % 2^64

theorem lo_lt (s : Nat) : lo s < 2^64 := Nat.mod_lt _ (by norm_num)
theorem hi_lt (s : Nat) : hi s < 2^64 := Nat.mod_lt _ (by norm_num)
theorem wadd_lt (x y : Nat) : wadd x y < 2^64 := Nat.mod_lt _ (by norm_num)
theorem wsub_lt (x y : Nat) : wsub x y < 2^64 := Nat.mod_lt _ (by norm_num)
theorem wmul_lt (x y : Nat) : wmul x y < 2^64 := Nat.mod_lt _ (by norm_num)
theorem shl1_lt (x : Nat) : shl1 x < 2^64 := Nat.mod_lt _ (by norm_num)

theorem lo_add_hi {s : Nat} (h : s < 2^128) : lo s + 2^64 * hi s = s := by
  unfold lo hi; omega

/-- The product of two words fits in 128 bits with room for two more words. -/
theorem mul_bound {x y : Nat} (hx : x < 2^64) (hy : y < 2^64) :
    x * y ≤ 2^128 - 2^65 + 1 := by
  have : x * y ≤ (2^64 - 1) * (2^64 - 1) := Nat.mul_le_mul (by omega) (by omega)
  exact this.trans (by norm_num)

/-- One step of a borrow chain. The borrow word is `0` or all ones; `>> 63` reads it as a bit. -/
theorem sbb_step {x y k : Nat} (hx : x < 2^64) (hy : y < 2^64) (hk : k ≤ 1) :
    lo (wsub128 x (y + k)) + y + k = x + 2^64 * (hi (wsub128 x (y + k)) / 2^63) ∧
    (hi (wsub128 x (y + k)) = 0 ∨ hi (wsub128 x (y + k)) = 2^64 - 1) := by
  unfold lo hi wsub128
  have h : (x + 2^128 - (y + k)) % 2^128 = if x < y + k then x + 2^128 - (y + k) else x - (y + k) := by
    split <;> omega
  rw [h]
  split
  · omega
  · omega

theorem sbb_step0 {x y : Nat} (hx : x < 2^64) (hy : y < 2^64) :
    lo (wsub128 x y) + y = x + 2^64 * (hi (wsub128 x y) / 2^63) ∧
    (hi (wsub128 x y) = 0 ∨ hi (wsub128 x y) = 2^64 - 1) := by
  have := sbb_step (k := 0) hx hy (by omega)
  simpa using this

theorem land_ones {x : Nat} (hx : x < 2^64) : x &&& (2^64 - 1) = x := by
  rw [Nat.and_two_pow_sub_one_eq_mod, Nat.mod_eq_of_lt hx]

theorem shl1_or {x y : Nat} (hy : y < 2^64) :
    shl1 x ||| y / 2^63 = shl1 x + y / 2^63 := by
  have h1 : shl1 x = 2^1 * (x % 2^63) := by unfold shl1; omega
  have h2 : y / 2^63 < 2^1 := by omega
  rw [h1, ← Nat.two_pow_add_eq_or_of_lt h2]

theorem shl1_or_lt {x y : Nat} (hy : y < 2^64) : (shl1 x ||| y / 2^63) < 2^64 := by
  rw [shl1_or hy]; unfold shl1; omega

theorem shl1_spec (x : Nat) : shl1 x + 2^64 * (x / 2^63) = 2 * x := by
  unfold shl1; omega

theorem split_mul {x y : Nat} (hx : x < 2^64) (hy : y < 2^64) :
    lo (x * y) + 2^64 * hi (x * y) = x * y := by
  have := mul_bound hx hy
  exact lo_add_hi (by omega)

theorem split_mul_add {x y u : Nat} (hx : x < 2^64) (hy : y < 2^64) (hu : u < 2^64) :
    lo (x * y + u) + 2^64 * hi (x * y + u) = x * y + u := by
  have := mul_bound hx hy
  exact lo_add_hi (by omega)

theorem split_add_mul_add {x y u v : Nat} (hu : u < 2^64) (hx : x < 2^64) (hy : y < 2^64)
    (hv : v < 2^64) :
    lo (u + x * y + v) + 2^64 * hi (u + x * y + v) = u + x * y + v := by
  have := mul_bound hx hy
  exact lo_add_hi (by omega)

theorem split_add {u v : Nat} (hu : u < 2^64) (hv : v < 2^64) :
    lo (u + v) + 2^64 * hi (u + v) = u + v := lo_add_hi (by omega)

theorem split_add_add {u v w : Nat} (hu : u < 2^64) (hv : v < 2^64) (hw : w < 2^64) :
    lo (u + v + w) + 2^64 * hi (u + v + w) = u + v + w := lo_add_hi (by omega)

theorem wadd3_split (u v w : Nat) :
    wadd (wadd u v) w + 2^64 * ((u + v + w) / 2^64) = u + v + w := by
  unfold wadd; omega

theorem wadd_split (u v : Nat) : wadd u v + 2^64 * ((u + v) / 2^64) = u + v := by
  unfold wadd; omega

theorem borrow_bit {b : Nat} (h : b = 0 ∨ b = 2^64 - 1) : b / 2^63 ≤ 1 := by
  rcases h with rfl | rfl <;> norm_num

theorem wsub3_split {x y k : Nat} (hx : x < 2^64) (hy : y < 2^64) (hk : k ≤ 1) :
    ∃ kk, wsub (wsub x y) k + y + k = x + 2^64 * kk := by
  refine ⟨if x < y + k then 1 else 0, ?_⟩
  unfold wsub
  split <;> omega

/-- The first step of a Montgomery round: the low word cancels. -/
theorem mont_low {x p0 inv : Nat} (hx : x < 2^64) (hp : p0 < 2^64)
    (hinv : (p0 * inv + 1) % 2^64 = 0) :
    2^64 * hi (wmul x inv * p0 + x) = wmul x inv * p0 + x := by
  have h := split_mul_add (wmul_lt x inv) hp hx
  have h0 : lo (wmul x inv * p0 + x) = 0 := by
    have h1 : (wmul x inv * p0 + x) % 2^64 = (x * (p0 * inv + 1)) % 2^64 := by
      unfold wmul
      rw [Nat.add_mod, Nat.mod_mul_mod, ← Nat.add_mod]
      congr 1; ring
    unfold lo
    rw [h1, Nat.mul_mod, hinv, Nat.mul_zero, Nat.zero_mod]
  rw [h0, Nat.zero_add] at h
  exact h

end Kogarashi.Limbs
