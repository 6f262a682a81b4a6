import Mathlib.Analysis.SpecialFunctions.Log.Base
import Mathlib.Analysis.Convex.SpecificFunctions.Basic
import Mathlib.Algebra.Order.Floor.Semiring
import Mathlib.Algebra.Order.Archimedean.Basic
import Mathlib.Tactic.Linarith
import Mathlib.Tactic.NormNum
import Mathlib.Tactic.Positivity
import Mathlib.Tactic.FieldSimp
import Mathlib.Tactic.Ring

/-! # Double-precision numbers

The part of IEEE 754 that `carry_bits` (`nova/src/gadget/big_nat.rs` lines 215-217 and 235-237) uses: numbers with 53 significant bits,
conversions and operations rounded to a nearest such number, and a base-two logarithm rounded to a neighbour. Simplified: exponents are
unbounded, so there is no overflow or underflow; the theorems bound the operands. -/

namespace Kogarashi.Nova

/-- A number with 53 significant bits. -/
def Rep (x : ℝ) : Prop := ∃ m e : ℤ, |m| ≤ 2 ^ 53 ∧ x = m * (2 : ℝ) ^ e

/-- A floating-point unit and a mathematical library: `rnd` rounds to a nearest double, whichever one on a tie; `log2` of a positive
double is on the same side of every double as the logarithm is. -/
structure Doubles where
  rnd : ℝ → ℝ
  rnd_rep (x : ℝ) : Rep (rnd x)
  rnd_near (x y : ℝ) : Rep y → |x - rnd x| ≤ |x - y|
  log2 : ℝ → ℝ
  log2_le (x z : ℝ) : 0 < x → Rep x → Rep z → Real.logb 2 x ≤ z → log2 x ≤ z
  log2_ge (x z : ℝ) : 0 < x → Rep x → Rep z → z ≤ Real.logb 2 x → z ≤ log2 x

/-- `carry_bits` (`nova/src/gadget/big_nat.rs` lines 215-217, 235-237):
`(((max_word.to_f64().unwrap() * 2.0).log2() - limb_width as f64).ceil() + 0.1) as usize`. Simplified: positive `max_word` only. -/
noncomputable def carryBitsF64 (D : Doubles) (maxWord : Int) (w : Nat) : Nat :=
  ⌊D.rnd ((⌈D.rnd (D.log2 (D.rnd (D.rnd maxWord * 2)) - D.rnd w)⌉ : ℤ) + D.rnd (1 / 10))⌋₊

/-- The function `carry_bits` of a machine: `carryBitsF64` of some floating-point unit. -/
structure CarryBits where
  bits : Int → Nat → Nat
  f64 : ∃ D : Doubles, bits = carryBitsF64 D

variable (D : Doubles)

theorem Rep.int {n : ℤ} (h : |n| ≤ 2 ^ 53) : Rep (n : ℝ) := ⟨n, 0, h, by simp⟩

theorem Rep.pow (k : ℤ) : Rep ((2 : ℝ) ^ k) := ⟨1, k, by norm_num, by simp⟩

theorem rnd_le {x y : ℝ} (hy : Rep y) (h : x ≤ y) : D.rnd x ≤ y := by
  by_contra hc
  have h1 := D.rnd_near x y hy
  have h2 : |x - D.rnd x| = D.rnd x - x := by rw [abs_sub_comm, abs_of_pos]; linarith
  have h3 : |x - y| = y - x := by rw [abs_sub_comm, abs_of_nonneg]; linarith
  rw [h2, h3] at h1
  linarith

theorem le_rnd {x y : ℝ} (hy : Rep y) (h : y ≤ x) : y ≤ D.rnd x := by
  by_contra hc
  have h1 := D.rnd_near x y hy
  have h2 : |x - D.rnd x| = x - D.rnd x := by rw [abs_of_pos]; linarith
  have h3 : |x - y| = x - y := by rw [abs_of_nonneg]; linarith
  rw [h2, h3] at h1
  linarith

theorem rnd_self {x : ℝ} (hx : Rep x) : D.rnd x = x := le_antisymm (rnd_le D hx le_rfl) (le_rnd D hx le_rfl)

/-- Rounding loses at most one part in `2 ^ 52`. -/
theorem rnd_lower {x : ℝ} (hx : 0 < x) : x * (1 - 1 / 2 ^ 52) ≤ D.rnd x := by
  obtain ⟨e, he1, he2⟩ := exists_mem_Ico_zpow hx (show (1 : ℝ) < 2 by norm_num)
  have hu : (0 : ℝ) < 2 ^ (e - 52) := by positivity
  have he : (2 : ℝ) ^ e = 2 ^ (e - 52) * 2 ^ (52 : ℕ) := by
    rw [← zpow_natCast, ← zpow_add₀ (by norm_num)]; congr 1; simp
  have he' : (2 : ℝ) ^ (e + 1) = 2 ^ (e - 52) * 2 ^ (53 : ℕ) := by
    rw [← zpow_natCast, ← zpow_add₀ (by norm_num)]; congr 1; simp; ring
  set n := ⌊x / 2 ^ (e - 52)⌋ with hn
  have hn0 : 0 ≤ n := Int.floor_nonneg.mpr (by positivity)
  have hn1 : (n : ℝ) ≤ x / 2 ^ (e - 52) := Int.floor_le _
  have hn2 : x / 2 ^ (e - 52) < n + 1 := Int.lt_floor_add_one _
  have hn3 : x / 2 ^ (e - 52) < 2 ^ 53 := by rw [div_lt_iff₀ hu, mul_comm, ← he']; exact he2
  have hrep : Rep (n * (2 : ℝ) ^ (e - 52)) := by
    refine ⟨n, e - 52, ?_, rfl⟩
    rw [abs_of_nonneg hn0]
    have : (n : ℝ) ≤ ((2 ^ 53 : ℤ) : ℝ) := by push_cast; linarith
    exact_mod_cast this
  have h1 : n * (2 : ℝ) ^ (e - 52) ≤ x := by rwa [le_div_iff₀ hu] at hn1
  have h2 : x - 2 ^ (e - 52) ≤ n * (2 : ℝ) ^ (e - 52) := by rw [div_lt_iff₀ hu] at hn2; linarith
  have h3 := le_rnd D hrep h1
  have h4 : (2 : ℝ) ^ (e - 52) ≤ x * (1 / 2 ^ 52) := by
    rw [mul_one_div, le_div_iff₀ (by positivity), ← he]; exact he1
  linarith

/-- What remains of `carry_bits` once the logarithm is known to lie in `(k - 1, k]` by a margin. -/
theorem carryBitsF64_of_log {D : Doubles} {maxWord : Int} {w k : ℕ} (hw : w ≤ 2 ^ 10) (hk : k ≤ 2 ^ 10)
    (h1 : (k : ℝ) - 1 + 1 / 2 ^ 41 ≤ D.log2 (D.rnd (D.rnd maxWord * 2))) (h2 : D.log2 (D.rnd (D.rnd maxWord * 2)) ≤ k) :
    carryBitsF64 D maxWord w = k - w := by
  set l := D.log2 (D.rnd (D.rnd maxWord * 2)) with hl
  have hw' : D.rnd (w : ℝ) = w := by
    have := rnd_self D (Rep.int (n := (w : ℤ)) (by rw [abs_of_nonneg (by positivity)]; norm_cast; omega))
    simpa using this
  have r1 : Rep ((k : ℝ) - w) := by
    have := Rep.int (n := (k : ℤ) - w) (by rw [abs_le]; constructor <;> omega)
    simpa using this
  have r2 : Rep ((k : ℝ) - 1 + 1 / 2 ^ 41 - w) := by
    refine ⟨((k : ℤ) - 1 - w) * 2 ^ 41 + 1, -41, by rw [abs_le]; constructor <;> omega, ?_⟩
    rw [zpow_neg]
    push_cast
    norm_num
    ring
  have d1 : D.rnd (l - w) ≤ (k : ℝ) - w := rnd_le D r1 (by linarith)
  have d2 : (k : ℝ) - 1 + 1 / 2 ^ 41 - w ≤ D.rnd (l - w) := le_rnd D r2 (by linarith)
  have hc : ⌈D.rnd (l - w)⌉ = (k : ℤ) - w := by
    rw [Int.ceil_eq_iff]
    have : (0 : ℝ) < 1 / 2 ^ 41 := by positivity
    push_cast
    constructor <;> linarith
  have t0 : 0 ≤ D.rnd (1 / 10) := le_rnd D (by simpa using Rep.int (n := 0) (by norm_num)) (by norm_num)
  have t1 : D.rnd (1 / 10) ≤ 1 / 2 := rnd_le D ⟨1, -1, by norm_num, by norm_num⟩ (by norm_num)
  unfold carryBitsF64
  rw [← hl, hw', hc]
  push_cast
  have r3 : Rep ((k : ℝ) - w + 1 / 2) := by
    refine ⟨((k : ℤ) - w) * 2 + 1, -1, by rw [abs_le]; constructor <;> omega, ?_⟩
    push_cast
    norm_num
    ring
  have d3 : D.rnd ((k : ℝ) - w + D.rnd (1 / 10)) ≤ (k : ℝ) - w + 1 / 2 := rnd_le D r3 (by linarith)
  have d4 : (k : ℝ) - w ≤ D.rnd ((k : ℝ) - w + D.rnd (1 / 10)) := le_rnd D r1 (by linarith)
  by_cases h : w ≤ k
  · have e : ((k - w : ℕ) : ℝ) = (k : ℝ) - w := by rw [Nat.cast_sub h]
    rw [Nat.floor_eq_iff (le_trans (by rw [← e]; exact Nat.cast_nonneg _) d4), e]
    constructor <;> linarith
  · have e : (k : ℝ) + 1 ≤ w := by exact_mod_cast (by omega : k + 1 ≤ w)
    rw [Nat.floor_of_nonpos (by linarith)]
    omega

/-- **Where it is exact.** With `2 ^ k` the least power of two not below `2 * max_word`, and `2 * max_word` above the one before it by one
part in `2 ^ 40`. -/
theorem carryBitsF64_eq (D : Doubles) {m w k : ℕ} (hw : w ≤ 2 ^ 10) (hk : k + 1 ≤ 2 ^ 10) (h1 : 2 ^ k * (2 ^ 40 + 1) ≤ 2 * m * 2 ^ 40)
    (h2 : 2 * m ≤ 2 ^ (k + 1)) : carryBitsF64 D (m : Int) w = k + 1 - w := by
  have hm : (0 : ℝ) < m := by
    have : 0 < m := by
      by_contra hc
      have h0 : m = 0 := by omega
      rw [h0] at h1
      have : 0 < 2 ^ k * (2 ^ 40 + 1) := by positivity
      omega
    exact_mod_cast this
  have g1 : (2 : ℝ) ^ k * (1 + 1 / 2 ^ 40) ≤ 2 * m := by
    have : (2 : ℝ) ^ k * (2 ^ 40 + 1) ≤ 2 * m * 2 ^ 40 := by exact_mod_cast h1
    have e : (2 : ℝ) ^ k * (1 + 1 / 2 ^ 40) = 2 ^ k * (2 ^ 40 + 1) / 2 ^ 40 := by field_simp
    rw [e, div_le_iff₀ (by positivity)]
    exact this
  have g2 : (m : ℝ) ≤ 2 ^ k := by
    have : m ≤ 2 ^ k := by rw [pow_succ] at h2; omega
    exact_mod_cast this
  set y := D.rnd (D.rnd ((m : ℤ) : ℝ) * 2) with hy
  have rk : Rep ((2 : ℝ) ^ k) := by simpa using Rep.pow (k : ℤ)
  have rk1 : Rep ((2 : ℝ) ^ (k + 1)) := by
    have := Rep.pow ((k + 1 : ℕ) : ℤ)
    rwa [zpow_natCast] at this
  have a1 : D.rnd ((m : ℤ) : ℝ) ≤ 2 ^ k := rnd_le D rk (by simpa using g2)
  have a2 : (m : ℝ) * (1 - 1 / 2 ^ 52) ≤ D.rnd ((m : ℤ) : ℝ) := by simpa using rnd_lower D (x := ((m : ℤ) : ℝ)) (by simpa using hm)
  have a0 : (0 : ℝ) < D.rnd ((m : ℤ) : ℝ) := lt_of_lt_of_le (mul_pos hm (by norm_num)) a2
  have b1 : y ≤ 2 ^ (k + 1) := rnd_le D rk1 (by rw [pow_succ]; linarith)
  have b2 : D.rnd ((m : ℤ) : ℝ) * 2 * (1 - 1 / 2 ^ 52) ≤ y := rnd_lower D (by linarith)
  have c1 : (2 : ℝ) ^ k * (1 + 1 / 2 ^ 41) ≤ y := by
    refine le_trans ?_ b2
    have e1 : (2 : ℝ) ^ k * (1 + 1 / 2 ^ 41) ≤ 2 ^ k * ((1 + 1 / 2 ^ 40) * (1 - 1 / 2 ^ 52) * (1 - 1 / 2 ^ 52)) :=
      mul_le_mul_of_nonneg_left (by norm_num) (by positivity)
    have e2 : (2 : ℝ) ^ k * (1 + 1 / 2 ^ 40) * ((1 - 1 / 2 ^ 52) * (1 - 1 / 2 ^ 52)) ≤ 2 * m * ((1 - 1 / 2 ^ 52) * (1 - 1 / 2 ^ 52)) :=
      mul_le_mul_of_nonneg_right g1 (by norm_num)
    have e3 : (m : ℝ) * (1 - 1 / 2 ^ 52) * (2 * (1 - 1 / 2 ^ 52)) ≤ D.rnd ((m : ℤ) : ℝ) * (2 * (1 - 1 / 2 ^ 52)) :=
      mul_le_mul_of_nonneg_right a2 (by norm_num)
    linarith
  have y0 : 0 < y := lt_of_lt_of_le (by positivity) c1
  have ry : Rep y := D.rnd_rep _
  have l2 : Real.logb 2 y ≤ ((k + 1 : ℕ) : ℝ) := by
    rw [Real.logb_le_iff_le_rpow (by norm_num) y0, Real.rpow_natCast]; exact b1
  have l1 : ((k + 1 : ℕ) : ℝ) - 1 + 1 / 2 ^ 41 ≤ Real.logb 2 y := by
    rw [Real.le_logb_iff_rpow_le (by norm_num) y0]
    refine le_trans ?_ c1
    have : ((k + 1 : ℕ) : ℝ) - 1 + 1 / 2 ^ 41 = (k : ℝ) + 1 / 2 ^ 41 := by push_cast; ring
    rw [this, Real.rpow_add (by norm_num), Real.rpow_natCast]
    refine mul_le_mul_of_nonneg_left ?_ (by positivity)
    have := _root_.rpow_one_add_le_one_add_mul_self (s := (1 : ℝ)) (p := 1 / 2 ^ 41) (by norm_num) (by positivity) (by norm_num)
    rwa [one_add_one_eq_two, mul_one] at this
  have rl : Rep (((k + 1 : ℕ) : ℝ) - 1 + 1 / 2 ^ 41) := by
    refine ⟨(k : ℤ) * 2 ^ 41 + 1, -41, by rw [abs_le]; constructor <;> omega, ?_⟩
    push_cast
    norm_num
    ring
  have rk2 : Rep ((k + 1 : ℕ) : ℝ) := by
    have := Rep.int (n := ((k + 1 : ℕ) : ℤ)) (by rw [abs_le]; constructor <;> omega)
    simpa using this
  exact carryBitsF64_of_log hw hk (D.log2_ge y _ y0 ry rl l1) (D.log2_le y _ y0 ry rk2 l2)

theorem CarryBits.eq (fp : CarryBits) {m w k : ℕ} (hw : w ≤ 2 ^ 10) (hk : k + 1 ≤ 2 ^ 10) (h1 : 2 ^ k * (2 ^ 40 + 1) ≤ 2 * m * 2 ^ 40)
    (h2 : 2 * m ≤ 2 ^ (k + 1)) : fp.bits (m : Int) w = k + 1 - w := by
  obtain ⟨D, h⟩ := fp.f64
  rw [h]
  exact carryBitsF64_eq D hw hk h1 h2

/-- **Where it is not.** One more than a power of two is rounded to it: the result is one less than the exact value. -/
theorem carryBitsF64_short (D : Doubles) {j w : ℕ} (hw : w ≤ 2 ^ 10) (hj : 54 ≤ j) (hj2 : j + 1 ≤ 2 ^ 10) :
    carryBitsF64 D ((2 ^ j + 1 : ℕ) : Int) w = j + 1 - w := by
  have r0 : Rep ((2 : ℝ) ^ j) := by simpa using Rep.pow (j : ℤ)
  have e : D.rnd (((2 ^ j + 1 : ℕ) : ℤ) : ℝ) = 2 ^ j := by
    set x := (((2 ^ j + 1 : ℕ) : ℤ) : ℝ) with hx
    have hx' : x = 2 ^ j + 1 := by rw [hx]; push_cast; ring
    have n1 := D.rnd_near x _ r0
    have lo : (2 : ℝ) ^ j ≤ D.rnd x := le_rnd D r0 (by rw [hx']; linarith)
    have hi : D.rnd x ≤ 2 ^ j + 2 := by
      have : |x - 2 ^ j| = 1 := by rw [hx']; simp
      rw [this, abs_le] at n1
      linarith [n1.1]
    obtain ⟨m, e, hm, he⟩ := D.rnd_rep x
    by_contra hne
    have lt : (2 : ℝ) ^ j < D.rnd x := lt_of_le_of_ne lo (Ne.symm hne)
    have hm' : (m : ℝ) ≤ 2 ^ 53 := by
      have := (abs_le.mp hm).2
      exact_mod_cast this
    have ej : (j : ℤ) - 53 < e := by
      by_contra hc
      have h1 : (2 : ℝ) ^ e ≤ 2 ^ ((j : ℤ) - 53) := zpow_le_zpow_right₀ (by norm_num) (by omega)
      have h2 : D.rnd x ≤ 2 ^ 53 * 2 ^ ((j : ℤ) - 53) := by
        rw [he]
        exact mul_le_mul hm' h1 (by positivity) (by positivity)
      have h3 : (2 : ℝ) ^ 53 * 2 ^ ((j : ℤ) - 53) = 2 ^ j := by
        rw [← zpow_natCast, ← zpow_natCast, ← zpow_add₀ (by norm_num)]
        congr 1
        push_cast
        ring
      linarith
    obtain ⟨q, hq⟩ : ∃ q : ℕ, e = q + 2 := ⟨(e - 2).toNat, by omega⟩
    have e1 : (2 : ℝ) ^ e = ((4 * 2 ^ q : ℤ) : ℝ) := by
      rw [hq, zpow_add₀ (by norm_num), zpow_natCast]; push_cast; norm_num; ring
    have z : D.rnd x = ((m * (4 * 2 ^ q) : ℤ) : ℝ) := by rw [he, e1]; push_cast; ring
    have p2 : (2 : ℝ) ^ j = ((2 ^ j : ℤ) : ℝ) := by push_cast; ring
    have z1 : (2 ^ j : ℤ) < m * (4 * 2 ^ q) := by rw [z, p2] at lt; exact_mod_cast lt
    have z2 : m * (4 * 2 ^ q) ≤ (2 ^ j : ℤ) + 2 := by rw [z, p2] at hi; exact_mod_cast hi
    obtain ⟨i, rfl⟩ : ∃ i, j = i + 2 := ⟨j - 2, by omega⟩
    have p4 : (2 : ℤ) ^ (i + 2) = 4 * 2 ^ i := by ring
    have p5 : m * (4 * 2 ^ q) = 4 * (m * 2 ^ q) := by ring
    rw [p4, p5] at z1 z2
    omega
  have r1 : Rep ((2 : ℝ) ^ (j + 1)) := by
    have := Rep.pow ((j + 1 : ℕ) : ℤ)
    rwa [zpow_natCast] at this
  have e2 : D.rnd (D.rnd (((2 ^ j + 1 : ℕ) : ℤ) : ℝ) * 2) = 2 ^ (j + 1) := by
    rw [e, ← pow_succ, rnd_self D r1]
  have lg : Real.logb 2 ((2 : ℝ) ^ (j + 1)) = ((j + 1 : ℕ) : ℝ) := by
    rw [Real.logb_pow, Real.logb_self_eq_one (by norm_num), mul_one]
  have rk2 : Rep ((j + 1 : ℕ) : ℝ) := by
    have := Rep.int (n := ((j + 1 : ℕ) : ℤ)) (by rw [abs_le]; constructor <;> omega)
    simpa using this
  have l1 : D.log2 (2 ^ (j + 1)) = ((j + 1 : ℕ) : ℝ) :=
    le_antisymm (D.log2_le _ _ (by positivity) r1 rk2 lg.le) (D.log2_ge _ _ (by positivity) r1 rk2 lg.ge)
  refine carryBitsF64_of_log hw hj2 ?_ ?_
  · rw [e2, l1]; norm_num
  · rw [e2, l1]

/-! ### Such a unit exists -/

theorem nearest_pos {x : ℝ} (hx : 0 < x) : ∃ r, Rep r ∧ ∀ y, Rep y → |x - r| ≤ |x - y| := by
  obtain ⟨e, he1, he2⟩ := exists_mem_Ico_zpow hx (show (1 : ℝ) < 2 by norm_num)
  have hu : (0 : ℝ) < 2 ^ (e - 52) := by positivity
  have he : (2 : ℝ) ^ e = 2 ^ (e - 52) * 2 ^ (52 : ℕ) := by
    rw [← zpow_natCast, ← zpow_add₀ (by norm_num)]; congr 1; simp
  have he' : (2 : ℝ) ^ (e + 1) = 2 ^ (e - 52) * 2 ^ (53 : ℕ) := by
    rw [← zpow_natCast, ← zpow_add₀ (by norm_num)]; congr 1; simp; ring
  set n := ⌊x / 2 ^ (e - 52)⌋ with hn
  have hn1 : (n : ℝ) ≤ x / 2 ^ (e - 52) := Int.floor_le _
  have hn2 : x / 2 ^ (e - 52) < n + 1 := Int.lt_floor_add_one _
  have hn3 : x / 2 ^ (e - 52) < 2 ^ 53 := by rw [div_lt_iff₀ hu, mul_comm, ← he']; exact he2
  have hn4 : (2 : ℝ) ^ 52 ≤ x / 2 ^ (e - 52) := by rw [le_div_iff₀ hu, mul_comm, ← he]; exact he1
  have n52 : 2 ^ 52 ≤ n := by rw [hn, Int.le_floor]; exact_mod_cast hn4
  have n53 : n < 2 ^ 53 := by
    have : (n : ℝ) < ((2 ^ 53 : ℤ) : ℝ) := by push_cast; linarith
    exact_mod_cast this
  have h1 : n * (2 : ℝ) ^ (e - 52) ≤ x := by rwa [le_div_iff₀ hu] at hn1
  have h2 : x < (n + 1) * (2 : ℝ) ^ (e - 52) := by rwa [div_lt_iff₀ hu] at hn2
  have rlo : Rep (n * (2 : ℝ) ^ (e - 52)) := ⟨n, e - 52, by rw [abs_le]; constructor <;> omega, rfl⟩
  have rhi : Rep ((n + 1) * (2 : ℝ) ^ (e - 52)) := ⟨n + 1, e - 52, by rw [abs_le]; constructor <;> omega, by push_cast; ring⟩
  have gap : ∀ y, Rep y → y ≤ n * (2 : ℝ) ^ (e - 52) ∨ (n + 1) * (2 : ℝ) ^ (e - 52) ≤ y := by
    rintro y ⟨m, f, hm, rfl⟩
    by_cases hf : e - 52 ≤ f
    · obtain ⟨q, hq⟩ : ∃ q : ℕ, f = (e - 52) + q := ⟨(f - (e - 52)).toNat, by omega⟩
      have e1 : m * (2 : ℝ) ^ f = ((m * 2 ^ q : ℤ) : ℝ) * 2 ^ (e - 52) := by
        rw [hq, zpow_add₀ (by norm_num), zpow_natCast]; push_cast; ring
      rw [e1]
      rcases le_or_gt (m * 2 ^ q) n with h | h
      · exact .inl (mul_le_mul_of_nonneg_right (by exact_mod_cast h) hu.le)
      · exact .inr (mul_le_mul_of_nonneg_right (by exact_mod_cast h) hu.le)
    · left
      have hm' : (m : ℝ) ≤ 2 ^ 53 := by
        have := (abs_le.mp hm).2
        exact_mod_cast this
      have f1 : (2 : ℝ) ^ f ≤ 2 ^ (e - 53) := zpow_le_zpow_right₀ (by norm_num) (by omega)
      have f2 : (m : ℝ) * 2 ^ f ≤ 2 ^ 53 * 2 ^ (e - 53) := mul_le_mul hm' f1 (by positivity) (by positivity)
      have f3 : (2 : ℝ) ^ 53 * 2 ^ (e - 53) = 2 ^ 52 * 2 ^ (e - 52) := by
        rw [← zpow_natCast, ← zpow_natCast, ← zpow_add₀ (by norm_num), ← zpow_add₀ (by norm_num)]
        congr 1
        push_cast
        ring
      rw [f3] at f2
      refine f2.trans (mul_le_mul_of_nonneg_right ?_ hu.le)
      exact_mod_cast n52
  rcases le_total (x - n * (2 : ℝ) ^ (e - 52)) ((n + 1) * (2 : ℝ) ^ (e - 52) - x) with hc | hc
  · refine ⟨_, rlo, fun y hy => ?_⟩
    rw [abs_of_nonneg (by linarith)]
    rcases gap y hy with h | h
    · exact le_trans (by linarith) (le_abs_self _)
    · exact le_trans (by linarith) (neg_le_abs _)
  · refine ⟨_, rhi, fun y hy => ?_⟩
    rw [abs_sub_comm, abs_of_nonneg (by linarith)]
    rcases gap y hy with h | h
    · exact le_trans (by linarith) (le_abs_self _)
    · exact le_trans (by linarith) (neg_le_abs _)

theorem Rep.neg {x : ℝ} (h : Rep x) : Rep (-x) := by
  obtain ⟨m, e, hm, rfl⟩ := h
  exact ⟨-m, e, by rwa [abs_neg], by push_cast; ring⟩

theorem nearest (x : ℝ) : ∃ r, Rep r ∧ ∀ y, Rep y → |x - r| ≤ |x - y| := by
  rcases lt_trichotomy x 0 with h | rfl | h
  · obtain ⟨r, h1, h2⟩ := nearest_pos (x := -x) (by linarith)
    refine ⟨-r, h1.neg, fun y hy => ?_⟩
    have := h2 (-y) hy.neg
    rw [show -x - r = -(x - -r) by ring, show -x - -y = -(x - y) by ring, abs_neg, abs_neg] at this
    exact this
  · exact ⟨0, ⟨0, 0, by norm_num, by simp⟩, fun y _ => by simp⟩
  · exact nearest_pos h

/-- Rounding to nearest, and a correctly rounded logarithm. -/
noncomputable def ieee : Doubles where
  rnd x := (nearest x).choose
  rnd_rep x := (nearest x).choose_spec.1
  rnd_near x y := (nearest x).choose_spec.2 y
  log2 x := (nearest (Real.logb 2 x)).choose
  log2_le x z _ _ hz h := by
    have h1 := (nearest (Real.logb 2 x)).choose_spec.2 z hz
    by_contra hc
    rw [not_le] at hc
    rw [abs_sub_comm, abs_of_pos (by linarith), abs_sub_comm, abs_of_nonneg (by linarith)] at h1
    linarith
  log2_ge x z _ _ hz h := by
    have h1 := (nearest (Real.logb 2 x)).choose_spec.2 z hz
    by_contra hc
    rw [not_le] at hc
    rw [abs_of_pos (by linarith), abs_of_nonneg (by linarith)] at h1
    linarith

end Kogarashi.Nova
