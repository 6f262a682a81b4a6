import Mathlib.NumberTheory.LucasPrimality
import Mathlib.Tactic.NormNum.Prime
import Mathlib.Algebra.BigOperators.Associated

/-!
# Pratt primality certificates

A kernel-checked certificate for the primality of the two BN254 moduli. Not a model of any code.
-/

set_option linter.unusedSimpArgs false

namespace Kogarashi.Field

/-- Modular exponentiation by repeated squaring, at most `fuel` bits. -/
def powMod (m : Nat) : Nat → Nat → Nat → Nat
  | 0, _, _ => 1 % m
  | fuel + 1, a, e =>
    let h := powMod m fuel (a * a % m) (e / 2)
    if e % 2 = 1 then a * h % m else h

theorem powMod_eq (m fuel a e : Nat) (h : e < 2^fuel) : powMod m fuel a e = a^e % m := by
  induction fuel generalizing a e with
  | zero =>
    have : e = 0 := by simpa using h
    subst this; rfl
  | succ n ih =>
    have he : e / 2 < 2^n := by rw [pow_succ] at h; omega
    simp only [powMod]
    rw [ih _ _ he]
    have h2 : (a * a % m)^(e / 2) % m = a^(2 * (e / 2)) % m := by
      rw [← Nat.pow_mod, pow_mul, pow_two]
    rw [h2]
    split
    · have : e = 2 * (e / 2) + 1 := by omega
      conv_rhs => rw [this, pow_succ]
      rw [Nat.mul_mod, Nat.mod_mod, ← Nat.mul_mod, Nat.mul_comm]
    · have : e = 2 * (e / 2) := by omega
      conv_rhs => rw [this]

/-- The arithmetic part of a Pratt certificate. -/
def prattCheck (p a : Nat) (fs : List Nat) : Bool :=
  decide (1 < p) && decide (p < 2^256) && decide (fs.prod = p - 1) && decide (powMod p 256 a (p - 1) = 1) &&
    fs.all fun q => decide (powMod p 256 a ((p - 1) / q) ≠ 1)

theorem pratt (p a : Nat) (fs : List Nat) (hfs : ∀ q ∈ fs, q.Prime) (h : prattCheck p a fs = true) :
    p.Prime := by
  simp only [prattCheck, Bool.and_eq_true, decide_eq_true_iff, List.all_eq_true] at h
  obtain ⟨⟨⟨⟨h1, h2⟩, h3⟩, h4⟩, h5⟩ := h
  have toZ : ∀ e, e < 2^256 → ((a : ZMod p)^e = 1 ↔ powMod p 256 a e = 1) := by
    intro e he
    rw [powMod_eq _ _ _ _ he, ← Nat.cast_pow, ← Nat.cast_one (R := ZMod p), ZMod.natCast_eq_natCast_iff,
      Nat.ModEq, Nat.mod_eq_of_lt h1]
  apply lucas_primality p (a : ZMod p)
  · rw [toZ _ (by omega)]; exact h4
  · intro q hq hd
    rw [← h3] at hd
    obtain ⟨f, hf, hqf⟩ := (Nat.Prime.prime hq).dvd_prod_iff.1 hd
    have : q = f := (Nat.prime_dvd_prime_iff_eq hq (hfs f hf)).1 hqf
    subst this
    intro h6
    refine h5 q hf ((toZ _ ?_).1 h6)
    exact lt_of_le_of_lt (Nat.div_le_self _ _) (by omega)

theorem prime_20963 : Nat.Prime 20963 := by
  apply pratt _ 2 [2, 47, 223] _ (by decide +kernel)
  intro q hq
  simp only [List.mem_cons, List.not_mem_nil, or_false, or_self, or_self_left] at hq
  rcases hq with rfl | rfl | rfl
  · norm_num
  · norm_num
  · norm_num

theorem prime_41927 : Nat.Prime 41927 := by
  apply pratt _ 5 [2, 20963] _ (by decide +kernel)
  intro q hq
  simp only [List.mem_cons, List.not_mem_nil, or_false, or_self, or_self_left] at hq
  rcases hq with rfl | rfl
  · norm_num
  · exact prime_20963

theorem prime_1593227 : Nat.Prime 1593227 := by
  apply pratt _ 2 [2, 19, 41927] _ (by decide +kernel)
  intro q hq
  simp only [List.mem_cons, List.not_mem_nil, or_false, or_self, or_self_left] at hq
  rcases hq with rfl | rfl | rfl
  · norm_num
  · norm_num
  · exact prime_41927

theorem prime_1637 : Nat.Prime 1637 := by
  apply pratt _ 2 [2, 2, 409] _ (by decide +kernel)
  intro q hq
  simp only [List.mem_cons, List.not_mem_nil, or_false, or_self, or_self_left] at hq
  rcases hq with rfl | rfl
  · norm_num
  · norm_num

theorem prime_639533339 : Nat.Prime 639533339 := by
  apply pratt _ 2 [2, 229, 853, 1637] _ (by decide +kernel)
  intro q hq
  simp only [List.mem_cons, List.not_mem_nil, or_false, or_self, or_self_left] at hq
  rcases hq with rfl | rfl | rfl | rfl
  · norm_num
  · norm_num
  · norm_num
  · exact prime_1637

theorem prime_65865678001877903 : Nat.Prime 65865678001877903 := by
  apply pratt _ 5 [2, 83, 379, 1637, 639533339] _ (by decide +kernel)
  intro q hq
  simp only [List.mem_cons, List.not_mem_nil, or_false, or_self, or_self_left] at hq
  rcases hq with rfl | rfl | rfl | rfl | rfl
  · norm_num
  · norm_num
  · norm_num
  · exact prime_1637
  · exact prime_639533339

theorem prime_13818364434197438864469338081 : Nat.Prime 13818364434197438864469338081 := by
  apply pratt _ 3 [2, 2, 2, 2, 2, 5, 823, 1593227, 65865678001877903] _ (by decide +kernel)
  intro q hq
  simp only [List.mem_cons, List.not_mem_nil, or_false, or_self, or_self_left] at hq
  rcases hq with rfl | rfl | rfl | rfl | rfl
  · norm_num
  · norm_num
  · norm_num
  · exact prime_1593227
  · exact prime_65865678001877903

theorem prime_237073 : Nat.Prime 237073 := by
  apply pratt _ 15 [2, 2, 2, 2, 3, 11, 449] _ (by decide +kernel)
  intro q hq
  simp only [List.mem_cons, List.not_mem_nil, or_false, or_self, or_self_left] at hq
  rcases hq with rfl | rfl | rfl | rfl
  · norm_num
  · norm_num
  · norm_num
  · norm_num

theorem prime_93001 : Nat.Prime 93001 := by
  apply pratt _ 14 [2, 2, 2, 3, 5, 5, 5, 31] _ (by decide +kernel)
  intro q hq
  simp only [List.mem_cons, List.not_mem_nil, or_false, or_self, or_self_left] at hq
  rcases hq with rfl | rfl | rfl | rfl
  · norm_num
  · norm_num
  · norm_num
  · norm_num

theorem prime_12048837557 : Nat.Prime 12048837557 := by
  apply pratt _ 2 [2, 2, 7, 7, 661, 93001] _ (by decide +kernel)
  intro q hq
  simp only [List.mem_cons, List.not_mem_nil, or_false, or_self, or_self_left] at hq
  rcases hq with rfl | rfl | rfl | rfl
  · norm_num
  · norm_num
  · norm_num
  · exact prime_93001

theorem prime_5156902474397 : Nat.Prime 5156902474397 := by
  apply pratt _ 2 [2, 2, 107, 12048837557] _ (by decide +kernel)
  intro q hq
  simp only [List.mem_cons, List.not_mem_nil, or_false, or_self, or_self_left] at hq
  rcases hq with rfl | rfl | rfl
  · norm_num
  · norm_num
  · exact prime_12048837557

theorem prime_1670836401704629 : Nat.Prime 1670836401704629 := by
  apply pratt _ 2 [2, 2, 3, 3, 3, 3, 5156902474397] _ (by decide +kernel)
  intro q hq
  simp only [List.mem_cons, List.not_mem_nil, or_false, or_self, or_self_left] at hq
  rcases hq with rfl | rfl | rfl
  · norm_num
  · norm_num
  · exact prime_5156902474397

theorem prime_5501 : Nat.Prime 5501 := by
  apply pratt _ 2 [2, 2, 5, 5, 5, 11] _ (by decide +kernel)
  intro q hq
  simp only [List.mem_cons, List.not_mem_nil, or_false, or_self, or_self_left] at hq
  rcases hq with rfl | rfl | rfl
  · norm_num
  · norm_num
  · norm_num

theorem prime_11003 : Nat.Prime 11003 := by
  apply pratt _ 2 [2, 5501] _ (by decide +kernel)
  intro q hq
  simp only [List.mem_cons, List.not_mem_nil, or_false, or_self, or_self_left] at hq
  rcases hq with rfl | rfl
  · norm_num
  · exact prime_5501

theorem prime_3691 : Nat.Prime 3691 := by
  apply pratt _ 2 [2, 3, 3, 5, 41] _ (by decide +kernel)
  intro q hq
  simp only [List.mem_cons, List.not_mem_nil, or_false, or_self, or_self_left] at hq
  rcases hq with rfl | rfl | rfl | rfl
  · norm_num
  · norm_num
  · norm_num
  · norm_num

theorem prime_4999 : Nat.Prime 4999 := by
  apply pratt _ 3 [2, 3, 7, 7, 17] _ (by decide +kernel)
  intro q hq
  simp only [List.mem_cons, List.not_mem_nil, or_false, or_self, or_self_left] at hq
  rcases hq with rfl | rfl | rfl | rfl
  · norm_num
  · norm_num
  · norm_num
  · norm_num

theorem prime_405928799 : Nat.Prime 405928799 := by
  apply pratt _ 22 [2, 11, 3691, 4999] _ (by decide +kernel)
  intro q hq
  simp only [List.mem_cons, List.not_mem_nil, or_false, or_self, or_self_left] at hq
  rcases hq with rfl | rfl | rfl | rfl
  · norm_num
  · norm_num
  · exact prime_3691
  · exact prime_4999

theorem prime_21888242871839275222246405745257275088548364400416034343698204186575808495617 : Nat.Prime 21888242871839275222246405745257275088548364400416034343698204186575808495617 := by
  apply pratt _ 5 [2, 2, 2, 2, 2, 2, 2, 2, 2, 2, 2, 2, 2, 2, 2, 2, 2, 2, 2, 2, 2, 2, 2, 2, 2, 2, 2, 2, 3, 3, 13, 29, 983, 11003, 237073, 405928799, 1670836401704629, 13818364434197438864469338081] _ (by decide +kernel)
  intro q hq
  simp only [List.mem_cons, List.not_mem_nil, or_false, or_self, or_self_left] at hq
  rcases hq with rfl | rfl | rfl | rfl | rfl | rfl | rfl | rfl | rfl | rfl
  · norm_num
  · norm_num
  · norm_num
  · norm_num
  · norm_num
  · exact prime_11003
  · exact prime_237073
  · exact prime_405928799
  · exact prime_1670836401704629
  · exact prime_13818364434197438864469338081

theorem prime_1231 : Nat.Prime 1231 := by
  apply pratt _ 3 [2, 3, 5, 41] _ (by decide +kernel)
  intro q hq
  simp only [List.mem_cons, List.not_mem_nil, or_false, or_self, or_self_left] at hq
  rcases hq with rfl | rfl | rfl | rfl
  · norm_num
  · norm_num
  · norm_num
  · norm_num

theorem prime_4562087 : Nat.Prime 4562087 := by
  apply pratt _ 5 [2, 17, 109, 1231] _ (by decide +kernel)
  intro q hq
  simp only [List.mem_cons, List.not_mem_nil, or_false, or_self, or_self_left] at hq
  rcases hq with rfl | rfl | rfl | rfl
  · norm_num
  · norm_num
  · norm_num
  · exact prime_1231

theorem prime_1853641 : Nat.Prime 1853641 := by
  apply pratt _ 17 [2, 2, 2, 3, 3, 5, 19, 271] _ (by decide +kernel)
  intro q hq
  simp only [List.mem_cons, List.not_mem_nil, or_false, or_self, or_self_left] at hq
  rcases hq with rfl | rfl | rfl | rfl | rfl
  · norm_num
  · norm_num
  · norm_num
  · norm_num
  · norm_num

theorem prime_3557 : Nat.Prime 3557 := by
  apply pratt _ 2 [2, 2, 7, 127] _ (by decide +kernel)
  intro q hq
  simp only [List.mem_cons, List.not_mem_nil, or_false, or_self, or_self_left] at hq
  rcases hq with rfl | rfl | rfl
  · norm_num
  · norm_num
  · norm_num

theorem prime_1263766531 : Nat.Prime 1263766531 := by
  apply pratt _ 10 [2, 3, 5, 13, 911, 3557] _ (by decide +kernel)
  intro q hq
  simp only [List.mem_cons, List.not_mem_nil, or_false, or_self, or_self_left] at hq
  rcases hq with rfl | rfl | rfl | rfl | rfl | rfl
  · norm_num
  · norm_num
  · norm_num
  · norm_num
  · norm_num
  · exact prime_3557

theorem prime_35385462869 : Nat.Prime 35385462869 := by
  apply pratt _ 2 [2, 2, 7, 1263766531] _ (by decide +kernel)
  intro q hq
  simp only [List.mem_cons, List.not_mem_nil, or_false, or_self, or_self_left] at hq
  rcases hq with rfl | rfl | rfl
  · norm_num
  · norm_num
  · exact prime_1263766531

theorem prime_2480874801745591 : Nat.Prime 2480874801745591 := by
  apply pratt _ 6 [2, 3, 3, 5, 19, 41, 35385462869] _ (by decide +kernel)
  intro q hq
  simp only [List.mem_cons, List.not_mem_nil, or_false, or_self, or_self_left] at hq
  rcases hq with rfl | rfl | rfl | rfl | rfl | rfl
  · norm_num
  · norm_num
  · norm_num
  · norm_num
  · norm_num
  · exact prime_35385462869

theorem prime_2221 : Nat.Prime 2221 := by
  apply pratt _ 2 [2, 2, 3, 5, 37] _ (by decide +kernel)
  intro q hq
  simp only [List.mem_cons, List.not_mem_nil, or_false, or_self, or_self_left] at hq
  rcases hq with rfl | rfl | rfl | rfl
  · norm_num
  · norm_num
  · norm_num
  · norm_num

theorem prime_13327 : Nat.Prime 13327 := by
  apply pratt _ 3 [2, 3, 2221] _ (by decide +kernel)
  intro q hq
  simp only [List.mem_cons, List.not_mem_nil, or_false, or_self, or_self_left] at hq
  rcases hq with rfl | rfl | rfl
  · norm_num
  · norm_num
  · exact prime_2221

theorem prime_173171039 : Nat.Prime 173171039 := by
  apply pratt _ 13 [2, 73, 89, 13327] _ (by decide +kernel)
  intro q hq
  simp only [List.mem_cons, List.not_mem_nil, or_false, or_self, or_self_left] at hq
  rcases hq with rfl | rfl | rfl | rfl
  · norm_num
  · norm_num
  · norm_num
  · exact prime_13327

theorem prime_13427688667394608761327070753331941386769 : Nat.Prime 13427688667394608761327070753331941386769 := by
  apply pratt _ 17 [2, 2, 2, 2, 3, 7, 11, 1853641, 4562087, 173171039, 2480874801745591] _ (by decide +kernel)
  intro q hq
  simp only [List.mem_cons, List.not_mem_nil, or_false, or_self, or_self_left] at hq
  rcases hq with rfl | rfl | rfl | rfl | rfl | rfl | rfl | rfl
  · norm_num
  · norm_num
  · norm_num
  · norm_num
  · exact prime_1853641
  · exact prime_4562087
  · exact prime_173171039
  · exact prime_2480874801745591

theorem prime_327599 : Nat.Prime 327599 := by
  apply pratt _ 19 [2, 19, 37, 233] _ (by decide +kernel)
  intro q hq
  simp only [List.mem_cons, List.not_mem_nil, or_false, or_self, or_self_left] at hq
  rcases hq with rfl | rfl | rfl | rfl
  · norm_num
  · norm_num
  · norm_num
  · norm_num

theorem prime_11465965001 : Nat.Prime 11465965001 := by
  apply pratt _ 3 [2, 2, 2, 5, 5, 5, 5, 7, 327599] _ (by decide +kernel)
  intro q hq
  simp only [List.mem_cons, List.not_mem_nil, or_false, or_self, or_self_left] at hq
  rcases hq with rfl | rfl | rfl | rfl
  · norm_num
  · norm_num
  · norm_num
  · exact prime_327599

theorem prime_21888242871839275222246405745257275088696311157297823662689037894645226208583 : Nat.Prime 21888242871839275222246405745257275088696311157297823662689037894645226208583 := by
  apply pratt _ 3 [2, 3, 3, 13, 29, 67, 229, 311, 983, 11003, 405928799, 11465965001, 13427688667394608761327070753331941386769] _ (by decide +kernel)
  intro q hq
  simp only [List.mem_cons, List.not_mem_nil, or_false, or_self, or_self_left] at hq
  rcases hq with rfl | rfl | rfl | rfl | rfl | rfl | rfl | rfl | rfl | rfl | rfl | rfl
  · norm_num
  · norm_num
  · norm_num
  · norm_num
  · norm_num
  · norm_num
  · norm_num
  · norm_num
  · exact prime_11003
  · exact prime_405928799
  · exact prime_11465965001
  · exact prime_13427688667394608761327070753331941386769

end Kogarashi.Field
