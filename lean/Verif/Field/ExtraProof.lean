import Verif.Field.Value
import Verif.Field.Extra
import Verif.Spec.Ff
import Verif.Field.Prime
import Mathlib.Tactic.IntervalCases
import Mathlib.FieldTheory.Finite.Basic

/-!
# Facts about the functions of `Verif/Field/Extra.lean`
-/

set_option exponentiation.threshold 1600

namespace Kogarashi.Field

open Kogarashi.Limbs Kogarashi.Spec

variable {P : FieldParams}

/-! ### Bitwise operators -/

theorem testBit_split {x y : Nat} (hx : x < 2 ^ 64) (j : Nat) :
    (x + y * 2 ^ 64).testBit j = if j < 64 then x.testBit j else y.testBit (j - 64) := by
  rw [show x + y * 2 ^ 64 = 2 ^ 64 * y + x by ring, Nat.testBit_two_pow_mul_add y hx j]

theorem xor_split {x y x' y' : Nat} (hx : x < 2 ^ 64) (hx' : x' < 2 ^ 64) :
    (x + y * 2 ^ 64) ^^^ (x' + y' * 2 ^ 64) = (x ^^^ x') + (y ^^^ y') * 2 ^ 64 := by
  apply Nat.eq_of_testBit_eq
  intro j
  rw [Nat.testBit_xor, testBit_split hx, testBit_split hx', testBit_split (Nat.xor_lt_two_pow hx hx')]
  split <;> rw [Nat.testBit_xor]

theorem and_split {x y x' y' : Nat} (hx : x < 2 ^ 64) (hx' : x' < 2 ^ 64) :
    (x + y * 2 ^ 64) &&& (x' + y' * 2 ^ 64) = (x &&& x') + (y &&& y') * 2 ^ 64 := by
  apply Nat.eq_of_testBit_eq
  intro j
  rw [Nat.testBit_and, testBit_split hx, testBit_split hx', testBit_split (Nat.and_lt_two_pow _ hx')]
  split <;> rw [Nat.testBit_and]

theorem val_nest (a : L4) : a.val = a.l0 + (a.l1 + (a.l2 + a.l3 * 2 ^ 64) * 2 ^ 64) * 2 ^ 64 := by
  unfold L4.val; ring

theorem val_xor {x y : L4} (hx : x.Wf) (hy : y.Wf) :
    (L4.mk (x.l0 ^^^ y.l0) (x.l1 ^^^ y.l1) (x.l2 ^^^ y.l2) (x.l3 ^^^ y.l3)).val = x.val ^^^ y.val := by
  rw [val_nest, val_nest x, val_nest y, xor_split hx.1 hy.1, xor_split hx.2.1 hy.2.1, xor_split hx.2.2.1 hy.2.2.1]

theorem val_and {x y : L4} (hx : x.Wf) (hy : y.Wf) :
    (L4.mk (x.l0 &&& y.l0) (x.l1 &&& y.l1) (x.l2 &&& y.l2) (x.l3 &&& y.l3)).val = x.val &&& y.val := by
  rw [val_nest, val_nest x, val_nest y, and_split hx.1 hy.1, and_split hx.2.1 hy.2.1, and_split hx.2.2.1 hy.2.2.1]

theorem bitXor_value (hP : ValidParams P) {a b : L4} (ha : Canonical P a) (hb : Canonical P b) :
    Canonical P (P.bitXor a b) ∧ value P (P.bitXor a b) = (value P a ^^^ value P b) % P.m := by
  obtain ⟨⟨wa, -⟩, va⟩ := montgomeryReduce_value hP ha
  obtain ⟨⟨wb, -⟩, vb⟩ := montgomeryReduce_value hP hb
  have hw : (L4.mk ((P.montgomeryReduce a).l0 ^^^ (P.montgomeryReduce b).l0)
      ((P.montgomeryReduce a).l1 ^^^ (P.montgomeryReduce b).l1)
      ((P.montgomeryReduce a).l2 ^^^ (P.montgomeryReduce b).l2)
      ((P.montgomeryReduce a).l3 ^^^ (P.montgomeryReduce b).l3)).Wf :=
    ⟨Nat.xor_lt_two_pow wa.1 wb.1, Nat.xor_lt_two_pow wa.2.1 wb.2.1, Nat.xor_lt_two_pow wa.2.2.1 wb.2.2.1,
      Nat.xor_lt_two_pow wa.2.2.2 wb.2.2.2⟩
  refine ⟨(toMontForm_denote hP hw).1, ?_⟩
  have := toMontForm_value hP hw
  rw [val_xor wa wb, va, vb] at this
  exact this

theorem bitAnd_value (hP : ValidParams P) {a b : L4} (ha : Canonical P a) (hb : Canonical P b) :
    Canonical P (P.bitAnd a b) ∧ value P (P.bitAnd a b) = value P a &&& value P b := by
  obtain ⟨⟨wa, -⟩, va⟩ := montgomeryReduce_value hP ha
  obtain ⟨⟨wb, -⟩, vb⟩ := montgomeryReduce_value hP hb
  have hw : (L4.mk ((P.montgomeryReduce a).l0 &&& (P.montgomeryReduce b).l0)
      ((P.montgomeryReduce a).l1 &&& (P.montgomeryReduce b).l1)
      ((P.montgomeryReduce a).l2 &&& (P.montgomeryReduce b).l2)
      ((P.montgomeryReduce a).l3 &&& (P.montgomeryReduce b).l3)).Wf :=
    ⟨Nat.and_lt_two_pow _ wb.1, Nat.and_lt_two_pow _ wb.2.1, Nat.and_lt_two_pow _ wb.2.2.1,
      Nat.and_lt_two_pow _ wb.2.2.2⟩
  refine ⟨(toMontForm_denote hP hw).1, ?_⟩
  have := toMontForm_value hP hw
  rw [val_and wa wb, va, vb, Nat.mod_eq_of_lt (lt_of_le_of_lt Nat.and_le_left (value_lt hP a))] at this
  exact this

/-! ### Sums and products -/

theorem sum_denote (hP : ValidParams P) (items : List L4) (h : ∀ x ∈ items, Canonical P x) (acc : L4)
    (hacc : Canonical P acc) :
    Canonical P (items.foldl (fun acc item => P.add acc item) acc) ∧
      denote P (items.foldl (fun acc item => P.add acc item) acc) = denote P acc + (items.map (denote P)).sum := by
  induction items generalizing acc with
  | nil => exact ⟨hacc, by simp⟩
  | cons x xs ih =>
    obtain ⟨h1, h2⟩ := add_denote hP hacc (h x (by simp))
    obtain ⟨h3, h4⟩ := ih (fun y hy => h y (by simp [hy])) _ h1
    refine ⟨h3, ?_⟩
    rw [List.foldl_cons, h4, h2, List.map_cons, List.sum_cons]
    ring

theorem product_denote (hP : ValidParams P) (items : List L4) (h : ∀ x ∈ items, Canonical P x) (acc : L4)
    (hacc : Canonical P acc) :
    Canonical P (items.foldl (fun acc item => P.mul acc item) acc) ∧
      denote P (items.foldl (fun acc item => P.mul acc item) acc) = denote P acc * (items.map (denote P)).prod := by
  induction items generalizing acc with
  | nil => exact ⟨hacc, by simp⟩
  | cons x xs ih =>
    obtain ⟨h1, h2⟩ := mul_denote hP hacc (h x (by simp))
    obtain ⟨h3, h4⟩ := ih (fun y hy => h y (by simp [hy])) _ h1
    refine ⟨h3, ?_⟩
    rw [List.foldl_cons, h4, h2, List.map_cons, List.prod_cons]
    ring

theorem cast_sum_value (hP : ValidParams P) (items : List L4) :
    (((items.map (value P)).sum : Nat) : ZMod P.m) = (items.map (denote P)).sum := by
  induction items with
  | nil => simp
  | cons x xs ih => rw [List.map_cons, List.sum_cons, Nat.cast_add, ih, value_cast hP, List.map_cons, List.sum_cons]

theorem cast_prod_value (hP : ValidParams P) (items : List L4) :
    (((items.map (value P)).prod : Nat) : ZMod P.m) = (items.map (denote P)).prod := by
  induction items with
  | nil => simp
  | cons x xs ih => rw [List.map_cons, List.prod_cons, Nat.cast_mul, ih, value_cast hP, List.map_cons, List.prod_cons]

/-! ### Base-4 digits -/

theorem byteQuads_value {x : Nat} (h : x < 2 ^ 8) :
    leValue 4 ((List.range 4).map fun i => x / 2 ^ (i * 2) &&& 3) = x := by
  have e : ∀ n : Nat, n &&& 3 = n % 4 := fun n => Nat.and_two_pow_sub_one_eq_mod n 2
  simp only [List.range, List.range.loop, List.map, leValue, e]
  omega

theorem flatQuads_value {bytes : List Nat} (h : ∀ x ∈ bytes, x < 2 ^ 8) :
    leValue 4 (bytes.flatMap fun byte => (List.range 4).map fun i => byte / 2 ^ (i * 2) &&& 3) =
      leValue 256 bytes := by
  induction bytes with
  | nil => rfl
  | cons x xs ih =>
    rw [List.flatMap_cons, leValue_append, byteQuads_value (h x (by simp)),
      ih (fun y hy => h y (by simp [hy]))]
    simp [leValue]

theorem limbQuads_value {l : Nat} (h : l < 2 ^ 64) : leValue 4 (FieldParams.limbQuads l) = l := by
  unfold FieldParams.limbQuads
  rw [flatQuads_value (fun x hx => leBytes8_lt hx), leBytes8_value h]

theorem limbQuads_length (l : Nat) : (FieldParams.limbQuads l).length = 32 := by
  simp [FieldParams.limbQuads, leBytes8, List.range, List.range.loop]

theorem limbQuads_lt {l x : Nat} (h : x ∈ FieldParams.limbQuads l) : x < 4 := by
  simp only [FieldParams.limbQuads, List.mem_flatMap, List.mem_map] at h
  obtain ⟨_, _, i, -, rfl⟩ := h
  exact Nat.and_lt_two_pow _ (n := 2) (by norm_num)

theorem beValue_dropWhile (b : Nat) (ds : List Nat) :
    beValue b (ds.dropWhile (fun d => d == 0)) = beValue b ds := by
  induction ds with
  | nil => rfl
  | cons d ds ih =>
    rw [List.dropWhile_cons]
    split
    · rename_i h
      have : d = 0 := by simpa using h
      subst this
      rw [ih]
      conv_rhs => unfold beValue; rw [List.foldl_cons, beValue_foldl]
      simp
    · rfl

theorem quads4_value {v : L4} (h : v.Wf) :
    leValue 4 ([v.l0, v.l1, v.l2, v.l3].flatMap FieldParams.limbQuads) = v.val := by
  obtain ⟨h0, h1, h2, h3⟩ := h
  simp only [List.flatMap_cons, List.flatMap_nil, leValue_append, limbQuads_length, limbQuads_value h0,
    limbQuads_value h1, limbQuads_value h2, limbQuads_value h3, leValue, L4.val]
  ring

/-! ### Shifts -/

theorem or_shift {i r n : Nat} (hn : n ≤ 64) (hi : i < 2 ^ 64) :
    (i / 2 ^ n ||| r * 2 ^ (64 - n)) = i / 2 ^ n + r * 2 ^ (64 - n) := by
  have h : i / 2 ^ n < 2 ^ (64 - n) := by
    rw [Nat.div_lt_iff_lt_mul (by positivity), ← pow_add, show 64 - n + n = 64 by omega]
    exact hi
  rw [Nat.or_comm, mul_comm r, ← Nat.two_pow_add_eq_or_of_lt h]
  ring

theorem shl_mod {i n : Nat} (hn : n ≤ 64) : i * 2 ^ (64 - n) % 2 ^ 64 = i % 2 ^ n * 2 ^ (64 - n) := by
  conv_lhs => rw [show (2:Nat) ^ 64 = 2 ^ n * 2 ^ (64 - n) by rw [← pow_add]; congr 1; omega]
  rw [Nat.mul_mod_mul_right]

theorem beValue_cons (b d : Nat) (ds : List Nat) : beValue b (d :: ds) = d * b ^ ds.length + beValue b ds := by
  conv_lhs => unfold beValue
  rw [List.foldl_cons, beValue_foldl]
  simp

theorem shiftPass_length (n : Nat) : ∀ (l : List Nat) (t : Nat), (FieldParams.shiftPass n t l).length = l.length
  | [], _ => rfl
  | i :: rest, t => by simp [FieldParams.shiftPass, shiftPass_length n rest]

/-- One bit pass divides by `2^n`, with the bits `r` shifted out of the limb above. -/
theorem shiftPass_value {n : Nat} (hn : n ≤ 64) : ∀ (l : List Nat) (r : Nat), r < 2 ^ n → (∀ x ∈ l, x < 2 ^ 64) →
    beValue (2 ^ 64) (FieldParams.shiftPass n (r * 2 ^ (64 - n)) l) =
      (r * (2 ^ 64) ^ l.length + beValue (2 ^ 64) l) / 2 ^ n
  | [], r, hr, _ => by
    simp only [FieldParams.shiftPass, List.length_nil, pow_zero, mul_one, beValue, List.foldl_nil, add_zero]
    rw [Nat.div_eq_of_lt hr]
  | i :: rest, r, hr, hl => by
    have hi : i < 2 ^ 64 := hl i (by simp)
    have ih := shiftPass_value hn rest (i % 2 ^ n) (Nat.mod_lt _ (by positivity)) (fun x hx => hl x (by simp [hx]))
    rw [FieldParams.shiftPass, beValue_cons, shiftPass_length, or_shift hn hi, shl_mod hn, ih, beValue_cons,
      List.length_cons]
    generalize beValue (2 ^ 64) rest = V
    generalize hB : ((2:Nat) ^ 64) ^ rest.length = K
    have hp : ((2:Nat) ^ 64) ^ (rest.length + 1) = 2 ^ 64 * K := by rw [pow_succ, hB]; ring
    rw [hp]
    have h64 : (2:Nat) ^ 64 = 2 ^ n * 2 ^ (64 - n) := by rw [← pow_add]; congr 1; omega
    have key : r * (2 ^ 64 * K) + (i * K + V) =
        (i % 2 ^ n * K + V) + 2 ^ n * ((i / 2 ^ n + r * 2 ^ (64 - n)) * K) := by
      have := Nat.div_add_mod i (2 ^ n)
      conv_lhs => rw [h64, ← this]
      ring
    rw [key, Nat.add_mul_div_left _ _ (by positivity)]
    ring

/-- Keeping the length of a list of limbs explicit. -/
theorem ofTop_val {l : List Nat} (h : l.length = 4) : (FieldParams.ofTop l).val = beValue (2 ^ 64) l := by
  match l, h with
  | [a, b, c, d], _ =>
    simp only [FieldParams.ofTop, L4.val, beValue, List.foldl_cons, List.foldl_nil]
    ring

theorem swapPass_four (a b c d : Nat) : FieldParams.swapPass 0 [a, b, c, d] = [0, a, b, c] := rfl

theorem wordShifts_spec {a : L4} (ha : a.Wf) {k : Nat} (hk : k < 4) :
    (FieldParams.wordShifts k [a.l3, a.l2, a.l1, a.l0]).length = 4 ∧
    (∀ x ∈ FieldParams.wordShifts k [a.l3, a.l2, a.l1, a.l0], x < 2 ^ 64) ∧
    beValue (2 ^ 64) (FieldParams.wordShifts k [a.l3, a.l2, a.l1, a.l0]) = a.val / 2 ^ (64 * k) := by
  obtain ⟨h0, h1, h2, h3⟩ := ha
  interval_cases k <;>
    simp only [FieldParams.wordShifts, swapPass_four, List.length_cons, List.length_nil, List.mem_cons,
      List.not_mem_nil, or_false, forall_eq_or_imp, forall_eq, beValue, List.foldl_cons, List.foldl_nil, L4.val] <;>
    refine ⟨trivial, ?_, ?_⟩ <;> omega

theorem divn_val (hP : ValidParams P) {a : L4} (ha : a.Wf) (n : Nat) : (P.divn a n).val = a.val / 2 ^ n := by
  unfold FieldParams.divn
  split
  · rename_i h
    have h0 : P.fromU64 0 = B256.zero := by
      have hw : (L4.mk 0 0 0 0).Wf := by decide
      apply denote_inj hP (toMontForm_denote hP hw).1 (zero_canonical hP)
      rw [denote_zero]
      exact (toMontForm_denote hP hw).2.trans (by simp [L4.val])
    rw [h0, Nat.div_eq_of_lt (lt_of_lt_of_le ha.val_lt (Nat.pow_le_pow_right (by norm_num) h))]
    rfl
  · rename_i h
    obtain ⟨w1, w2, w3⟩ := wordShifts_spec ha (k := n / 64) (by omega)
    have e : (2:Nat) ^ n = 2 ^ (64 * (n / 64)) * 2 ^ (n % 64) := by
      rw [← pow_add]; congr 1; omega
    simp only
    split
    · have s := shiftPass_value (n := n % 64) (by omega) _ 0 (by positivity) w2
      rw [zero_mul, zero_mul, zero_add, w3] at s
      rw [ofTop_val (by rw [shiftPass_length, w1]), s, Nat.div_div_eq_div_mul, ← e]
    · have : n % 64 = 0 := by omega
      rw [ofTop_val w1, w3, e, this, pow_zero, mul_one]

/-! ### Windows -/

theorem val_mod_low {a : L4} {k : Nat} (hk : k ≤ 64) : a.val % 2 ^ k = a.l0 % 2 ^ k := by
  have e : a.val = a.l0 + 2 ^ k * (2 ^ (64 - k) * (a.l1 + a.l2 * 2 ^ 64 + a.l3 * 2 ^ 128)) := by
    rw [← mul_assoc, ← pow_add, show k + (64 - k) = 64 by omega]
    unfold L4.val; ring
  rw [e, Nat.add_mul_mod_self_left]

theorem mod2PowK_eq (a : L4) (k : Nat) :
    FieldParams.mod2PowK a k = if k < 64 then some (a.val % 2 ^ min k 8) else none := by
  unfold FieldParams.mod2PowK
  split
  · rename_i h
    rw [Nat.and_two_pow_sub_one_eq_mod, ← val_mod_low (by omega)]
    congr 1
    rcases le_total k 8 with h8 | h8
    · rw [min_eq_left h8]
      exact Nat.mod_eq_of_lt (lt_of_lt_of_le (Nat.mod_lt _ (by positivity)) (Nat.pow_le_pow_right (by norm_num) h8))
    · rw [min_eq_right h8]
      exact Nat.mod_mod_of_dvd _ (Nat.pow_dvd_pow 2 h8)
  · rfl

theorem mods2PowK_small (a : L4) {w : Nat} (h1 : 1 ≤ w) (h6 : w ≤ 6) :
    ∃ d, FieldParams.mods2PowK a w = some d ∧ -2 ^ (w - 1) ≤ d ∧ d < 2 ^ (w - 1) ∧ (2 ^ w : Int) ∣ (a.val : Int) - d := by
  unfold FieldParams.mods2PowK
  rw [mod2PowK_eq]
  generalize a.val = v
  interval_cases w <;> simp [FieldParams.asI8] <;> split_ifs <;> first | omega | (simp; done) | (simp; omega)

theorem mods2PowK_seven (a : L4) :
    FieldParams.mods2PowK a 7 = if a.val % 128 < 64 then some ((a.val % 128 : Nat) : Int) else none := by
  unfold FieldParams.mods2PowK
  rw [mod2PowK_eq]
  generalize a.val = v
  simp [FieldParams.asI8]
  split_ifs <;> first | omega | (simp; done) | (simp; omega)

theorem mods2PowK_panics (a : L4) {w : Nat} (h : w = 0 ∨ 8 ≤ w) : FieldParams.mods2PowK a w = none := by
  unfold FieldParams.mods2PowK
  rw [mod2PowK_eq]
  rcases h with rfl | h
  · simp
  · by_cases h9 : 9 ≤ w
    · have : w = 0 ∨ 8 ≤ w - 1 := by omega
      split
      · rfl
      · split
        · rfl
        · simp only [if_pos this]
    · obtain rfl : w = 8 := by omega
      generalize a.val = v
      simp [FieldParams.asI8]
      split_ifs <;> first | omega | (simp; done) | (simp; omega)

/-! ### The multiplicative group -/

/-- The same arithmetic that certifies the primality of `p` shows that the base generates the multiplicative group. -/
theorem orderOf_of_pratt (p a : Nat) (fs : List Nat) (hfs : ∀ q ∈ fs, q.Prime) (h : prattCheck p a fs = true) :
    orderOf (a : ZMod p) = p - 1 := by
  simp only [prattCheck, Bool.and_eq_true, decide_eq_true_iff, List.all_eq_true] at h
  obtain ⟨⟨⟨⟨h1, h2⟩, h3⟩, h4⟩, h5⟩ := h
  have toZ : ∀ e, e < 2^256 → ((a : ZMod p)^e = 1 ↔ powMod p 256 a e = 1) := by
    intro e he
    rw [powMod_eq _ _ _ _ he, ← Nat.cast_pow, ← Nat.cast_one (R := ZMod p), ZMod.natCast_eq_natCast_iff,
      Nat.ModEq, Nat.mod_eq_of_lt h1]
  apply orderOf_eq_of_pow_and_pow_div_prime (by omega)
  · rw [toZ _ (by omega)]; exact h4
  · intro q hq hd
    rw [← h3] at hd
    obtain ⟨f, hf, hqf⟩ := (Nat.Prime.prime hq).dvd_prod_iff.1 hd
    have : q = f := (Nat.prime_dvd_prime_iff_eq hq (hfs f hf)).1 hqf
    subst this
    intro h6
    refine h5 q hf ((toZ _ ?_).1 h6)
    exact lt_of_le_of_lt (Nat.div_le_self _ _) (by omega)

theorem not_isSquare_of_order {p : Nat} [Fact p.Prime] (h2 : 2 < p) {g : ZMod p} (h : orderOf g = p - 1) :
    ¬ IsSquare g := by
  rintro ⟨x, rfl⟩
  have hodd : p % 2 = 1 := by
    rcases (Fact.out : p.Prime).eq_two_or_odd with h | h <;> omega
  have hx : x ≠ 0 := by
    rintro rfl
    rw [mul_zero] at h
    have : (0 : ZMod p) ^ (p - 1) = 1 := by rw [← h]; exact pow_orderOf_eq_one _
    rw [zero_pow (by omega)] at this
    exact zero_ne_one this
  have : (x * x) ^ ((p - 1) / 2) = 1 := by
    rw [← pow_two, ← pow_mul, show 2 * ((p - 1) / 2) = p - 1 by omega]
    exact ZMod.pow_card_sub_one_eq_one hx
  have hd := orderOf_dvd_of_pow_eq_one this
  rw [h] at hd
  have := Nat.le_of_dvd (by omega) hd
  omega

end Kogarashi.Field
