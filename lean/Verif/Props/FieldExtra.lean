import Mathlib.Data.List.GetD
import Verif.Field.ExtraProof
import Verif.Props.PrimeField

/-!
# Properties C11 (rest), C83-C85: windows, bitwise operators, digits, sums and the `ff` constants

Vocabulary: `Verif/Spec/Field.lean` (`Canonical`, `value`), `Verif/Spec/Digits.lean` (`beValue`) and
`Verif/Spec/Ff.lean` (`FfContract`).
-/

set_option exponentiation.threshold 1600

namespace Kogarashi.Props

open Kogarashi.Limbs Kogarashi.Spec Kogarashi.Field

/-! ### C83 -/

/-- **C83, partial.** After `reduce()`, the windowed readings are those of the canonical value `v` of the element:
`divn(n)` leaves `⌊v / 2^n⌋`, `mod_2_pow_k(k)` is `v` modulo `2^min(k,8)` for `k < 64`, and `mods_2_pow_k(w)` for
`1 ≤ w ≤ 6` is the representative of `v` modulo `2^w` in `[-2^(w-1), 2^(w-1))`. Missing: the same without `reduce()`,
and windows of seven or more bits, for which it is false. -/
theorem C83_windows_partial {P : FieldParams} (hP : ValidParams P) {a : L4} (ha : Canonical P a) :
    (∀ n, (P.divn (P.reduce a) n).val = value P a / 2 ^ n) ∧
    (∀ k, k < 64 → FieldParams.mod2PowK (P.reduce a) k = some (value P a % 2 ^ min k 8)) ∧
    (∀ w, 1 ≤ w → w ≤ 6 → ∃ d, FieldParams.mods2PowK (P.reduce a) w = some d ∧ -2 ^ (w - 1) ≤ d ∧
      d < 2 ^ (w - 1) ∧ (2 ^ w : Int) ∣ (value P a : Int) - d) := by
  obtain ⟨⟨hw, -⟩, hv⟩ := montgomeryReduce_value hP ha
  have e : P.reduce a = P.montgomeryReduce a := rfl
  rw [e]
  refine ⟨fun n => ?_, fun k hk => ?_, fun w h1 h6 => ?_⟩
  · rw [divn_val hP hw, hv]
  · rw [mod2PowK_eq, if_pos hk, hv]
  · rw [← hv]; exact mods2PowK_small _ h1 h6

/-- An element of `Fr` whose value does not fit in one word: `-1`. -/
def windowDemo : L4 := frParams.neg frParams.one

example : Canonical frParams windowDemo ∧ FieldParams.mods2PowK (frParams.reduce windowDemo) 6 = some 0 ∧
    (frParams.divn (frParams.reduce windowDemo) 200).val = (frParams.m - 1) / 2 ^ 200 ∧
    FieldParams.mods2PowK (frParams.reduce (frParams.fromU64 59)) 4 = some (-5) := by
  refine ⟨by unfold Canonical; decide +kernel, by decide +kernel, by decide +kernel, by decide +kernel⟩

/-- **C83 is false of the code without `reduce()`.** The functions read the Montgomery limbs: `mod_2_pow_k(2)` of one is
3, and `divn(1)` of four is not two. -/
theorem C83_montgomery_refuted :
    Canonical frParams frParams.one ∧ value frParams frParams.one = 1 ∧
    FieldParams.mod2PowK frParams.one 2 = some 3 ∧
    Canonical frParams (frParams.fromU64 4) ∧ value frParams (frParams.fromU64 4) = 4 ∧
    value frParams (frParams.divn (frParams.fromU64 4) 1) ≠ 2 := by
  have h2 : (L4.mk 4 0 0 0).Wf := by decide
  refine ⟨r_canonical frParams_valid, value_one frParams_valid, by decide +kernel,
    (toMontForm_denote frParams_valid h2).1, ?_, ?_⟩
  · exact (toMontForm_value frParams_valid h2).trans (by decide +kernel)
  · rw [← (montgomeryReduce_value frParams_valid (a := frParams.divn (frParams.fromU64 4) 1)
      (by unfold Canonical; decide +kernel)).2]
    decide +kernel

/-- **C83 is false of the code for wide windows.** `mods_2_pow_k` asserts `w < 32`, but it panics (with overflow checks)
for every scalar when `w` is 0 or at least 8, and for half of the scalars when `w` is 7. -/
theorem C83_wide_windows_refuted {P : FieldParams} (hP : ValidParams P) {a : L4} (ha : Canonical P a) :
    (∀ w, w = 0 ∨ 8 ≤ w → FieldParams.mods2PowK (P.reduce a) w = none) ∧
    (FieldParams.mods2PowK (P.reduce a) 7 = none ↔ 64 ≤ value P a % 128) := by
  obtain ⟨-, hv⟩ := montgomeryReduce_value hP ha
  refine ⟨fun w hw => mods2PowK_panics _ hw, ?_⟩
  rw [mods2PowK_seven, show P.reduce a = P.montgomeryReduce a from rfl, hv]
  split <;> simp <;> omega

example : FieldParams.mods2PowK (frParams.reduce (frParams.fromU64 100)) 7 = none ∧
    FieldParams.mods2PowK (frParams.reduce (frParams.fromU64 60)) 7 = some 60 := by
  refine ⟨by decide +kernel, by decide +kernel⟩

/-! ### C84 -/

/-- **C84.** `&` is the bitwise conjunction of the values; `^` is their bitwise exclusive or reduced modulo the
modulus. -/
theorem C84_bitwise {P : FieldParams} (hP : ValidParams P) {a b : L4} (ha : Canonical P a) (hb : Canonical P b) :
    (Canonical P (P.bitAnd a b) ∧ value P (P.bitAnd a b) = value P a &&& value P b) ∧
    (Canonical P (P.bitXor a b) ∧ value P (P.bitXor a b) = (value P a ^^^ value P b) % P.m) :=
  ⟨bitAnd_value hP ha hb, bitXor_value hP ha hb⟩

/-- **C84 is false of the code in one respect.** Because `^` reduces, it does not cancel: there are scalars with
`(a ^ b) ^ b ≠ a`. -/
theorem C84_xor_cancel_refuted :
    ∃ a b, Canonical frParams a ∧ Canonical frParams b ∧ frParams.bitXor (frParams.bitXor a b) b ≠ a := by
  refine ⟨frParams.neg frParams.one, frParams.toMontForm ⟨2^64 - 1, 2^64 - 1, 2^64 - 1, 0x0fffffffffffffff⟩, ?_, ?_, ?_⟩
  · unfold Canonical; decide +kernel
  · unfold Canonical; decide +kernel
  · decide +kernel

/-- **C84, partial.** `^` cancels whenever the exclusive or of the two values is below the modulus. Missing: the other
pairs, for which it is false. -/
theorem C84_xor_cancel_partial {P : FieldParams} (hP : ValidParams P) {a b : L4} (ha : Canonical P a)
    (hb : Canonical P b) (h : value P a ^^^ value P b < P.m) : P.bitXor (P.bitXor a b) b = a := by
  obtain ⟨h1, h2⟩ := bitXor_value hP ha hb
  obtain ⟨h3, h4⟩ := bitXor_value hP h1 hb
  apply value_inj hP h3 ha
  rw [h4, h2, Nat.mod_eq_of_lt h, Nat.xor_assoc, Nat.xor_self, Nat.xor_zero, Nat.mod_eq_of_lt (value_lt hP a)]

example : value frParams (frParams.fromU64 12) ^^^ value frParams (frParams.fromU64 10) < frParams.m ∧
    frParams.bitXor (frParams.fromU64 12) (frParams.fromU64 10) = frParams.fromU64 6 ∧
    frParams.bitAnd (frParams.fromU64 12) (frParams.fromU64 10) = frParams.fromU64 8 := by
  refine ⟨?_, by decide +kernel, by decide +kernel⟩
  rw [show value frParams (frParams.fromU64 12) = _ from toMontForm_value frParams_valid (v := ⟨12, 0, 0, 0⟩) (by decide),
    show value frParams (frParams.fromU64 10) = _ from toMontForm_value frParams_valid (v := ⟨10, 0, 0, 0⟩) (by decide)]
  decide +kernel

/-- **C84.** `to_costomized_repr` returns the base-4 digits of the value, most significant first, without leading
zeros. -/
theorem C84_base4_digits {P : FieldParams} (hP : ValidParams P) {a : L4} (ha : Canonical P a) :
    (∀ d ∈ P.toCustomRepr a, d < 4) ∧ (P.toCustomRepr a).head? ≠ some 0 ∧
      beValue 4 (P.toCustomRepr a) = value P a := by
  obtain ⟨⟨hw, -⟩, hv⟩ := montgomeryReduce_value hP ha
  have key : ∀ l : List Nat, (∀ x ∈ l, x < 4) →
      (∀ d ∈ l.reverse.dropWhile (fun b => b == 0), d < 4) ∧ (l.reverse.dropWhile (fun b => b == 0)).head? ≠ some 0 ∧
      beValue 4 (l.reverse.dropWhile (fun b => b == 0)) = leValue 4 l := by
    intro l hl
    refine ⟨fun d hd => hl d (List.mem_reverse.1 ((List.dropWhile_sublist _).subset hd)), ?_, ?_⟩
    · intro h
      have := List.head?_dropWhile_not (fun b => b == (0 : Nat)) l.reverse
      rw [h] at this
      simp at this
    · rw [beValue_dropWhile, beValue_reverse]
  have hq := quads4_value hw
  have hlt : ∀ x ∈ [(P.montgomeryReduce a).l0, (P.montgomeryReduce a).l1, (P.montgomeryReduce a).l2,
      (P.montgomeryReduce a).l3].flatMap FieldParams.limbQuads, x < 4 := by
    intro x hx
    obtain ⟨_, _, h⟩ := List.mem_flatMap.1 hx
    exact limbQuads_lt h
  rw [hv] at hq
  unfold FieldParams.toCustomRepr
  simp only
  revert hq hlt
  generalize [(P.montgomeryReduce a).l0, (P.montgomeryReduce a).l1, (P.montgomeryReduce a).l2,
      (P.montgomeryReduce a).l3].flatMap FieldParams.limbQuads = l
  intro hq hlt
  rw [← hq]
  exact key l hlt

example : frParams.toCustomRepr (frParams.fromU64 27) = [1, 2, 3] ∧ frParams.toCustomRepr FieldParams.zero = [] := by
  refine ⟨by decide +kernel, by decide +kernel⟩

/-- **C84.** Summing or multiplying an iterator of elements gives the sum or product of the values modulo the modulus, in
particular zero and one for the empty iterator. -/
theorem C84_sum_product {P : FieldParams} (hP : ValidParams P) {items : List L4} (h : ∀ x ∈ items, Canonical P x) :
    (Canonical P (P.sum items) ∧ value P (P.sum items) = (items.map (value P)).sum % P.m) ∧
    (Canonical P (P.product items) ∧ value P (P.product items) = (items.map (value P)).prod % P.m) := by
  obtain ⟨s1, s2⟩ := sum_denote hP items h FieldParams.zero (zero_canonical hP)
  obtain ⟨p1, p2⟩ := product_denote hP items h P.one (r_canonical hP)
  refine ⟨⟨s1, value_of_denote hP ?_⟩, ⟨p1, value_of_denote hP ?_⟩⟩
  · rw [cast_sum_value hP]
    refine s2.trans ?_
    rw [show denote P FieldParams.zero = 0 from denote_zero, zero_add]
  · rw [cast_prod_value hP]
    refine p2.trans ?_
    rw [show denote P P.one = 1 from denote_one hP, one_mul]

example : (∀ x ∈ [frParams.fromU64 3, windowDemo, frParams.fromU64 5], Canonical frParams x) ∧
    frParams.sum [frParams.fromU64 3, windowDemo, frParams.fromU64 5] = frParams.fromU64 7 ∧
    frParams.product [frParams.fromU64 3, frParams.fromU64 5] = frParams.fromU64 15 := by
  refine ⟨?_, by decide +kernel, by decide +kernel⟩
  intro x hx
  simp only [List.mem_cons, List.not_mem_nil, or_false] at hx
  rcases hx with rfl | rfl | rfl <;> (unfold Canonical; decide +kernel)

/-! ### C11, the rest of the layer -/

/-- **C11.** The remaining views of the `ff` layer: `ct_eq` decides equality of values, `conditional_select` picks its
second argument exactly when the choice is set, `is_odd` is the parity of the value, and the words of `to_le_bits` and
`char_le_bits` are those of the value and of the modulus. -/
theorem C11_ff_views {P : FieldParams} (hP : ValidParams P) {a b : L4} (ha : Canonical P a) (hb : Canonical P b) :
    (FieldParams.ctEq a b = true ↔ value P a = value P b) ∧
    FieldParams.condSelect a b false = a ∧ FieldParams.condSelect a b true = b ∧
    (P.ffIsOdd a = true ↔ value P a % 2 = 1) ∧
    ((P.ffToLeBits a).Wf ∧ (P.ffToLeBits a).val = value P a) ∧
    (P.ffCharLeBits).Wf ∧ (P.ffCharLeBits).val = P.m := by
  obtain ⟨t1, t2, t3⟩ := toBytes_spec hP ha
  have e : P.ffToRepr a = P.toBytes a := rfl
  have hb' : ∀ i < 32, (P.toBytes a).getD i 0 < 256 := by
    intro i hi
    rw [List.getD_eq_getElem _ _ (by rw [t1]; exact hi)]
    exact t2 _ (List.getElem_mem _)
  refine ⟨?_, rfl, rfl, ?_, ?_, hP.p_words, hP.p_val⟩
  · rw [← (⟨fun h => by rw [h], fun h => value_inj hP ha hb h⟩ : a = b ↔ value P a = value P b)]
    unfold FieldParams.ctEq
    cases a; cases b
    simp [and_assoc]
  · unfold FieldParams.ffIsOdd
    rw [e, ← t3]
    rcases hl : P.toBytes a with _ | ⟨x, xs⟩
    · rw [hl] at t1; simp at t1
    · simp only [List.getD_cons_zero, leValue, decide_eq_true_eq, Nat.and_one_is_mod]
      omega
  · unfold FieldParams.ffToLeBits
    rw [e]
    have := bytes32_value (fun i => (P.toBytes a).getD i 0)
    rw [range_map_getD _ _ t1, t3] at this
    refine ⟨?_, this.symm⟩
    have hl : ∀ off, off ≤ 24 → FieldParams.leU64 (fun i => (P.toBytes a).getD i 0) off < 2 ^ 64 :=
      fun off ho => leU64_lt fun i _ h => hb' i (by omega)
    simp only
    revert hl
    generalize FieldParams.leU64 (fun i => (P.toBytes a).getD i 0) = f
    intro hl
    exact ⟨hl 0 (by norm_num), hl 8 (by norm_num), hl 16 (by norm_num), hl 24 (by norm_num)⟩

example : frParams.ffIsOdd windowDemo = false ∧ fqParams.ffIsOdd (fqParams.fromU64 7) = true ∧
    (fqParams.ffToLeBits (fqParams.fromU64 7)) = ⟨7, 0, 0, 0⟩ := by
  refine ⟨by decide +kernel, by decide +kernel, by decide +kernel⟩

/-- **C11 is false of the code for square roots.** Through the `ff` traits, `sqrt` and `sqrt_ratio` never return: the
crate implements `sqrt_ratio` by the helper that calls `sqrt`, and inherits the `sqrt` that calls `sqrt_ratio`, so that
every bound on the depth of calls is exceeded, for every input. -/
theorem C11_ff_sqrt_refuted (P : FieldParams) (c : FfConsts) (depth : Nat) (a num div : L4) :
    ffSqrtRatio P c depth num div = none ∧ ffSqrt P c depth a = none := by
  have h : ∀ depth num div, ffSqrtRatio P c depth num div = none := by
    intro depth
    induction depth with
    | zero => intro _ _; rfl
    | succ d ih =>
      intro num div
      simp only [ffSqrtRatio, ih]
  exact ⟨h _ _ _, by simp [ffSqrt, h]⟩

/-! ### C85 -/

theorem frFf_gen_denote : denote frParams frFf.multiplicativeGenerator = ((7 : Nat) : ZMod frParams.m) := by
  refine ((toMontForm_denote frParams_valid (v := ⟨7, 0, 0, 0⟩) (by decide)).2).trans ?_
  congr 1

/-- **C85, `Fr`.** The `ff` constants of the scalar field satisfy the documented contract, with `t = (r - 1) / 2^28`. -/
theorem C85_fr_constants : FfContract frParams frFf ((frParams.m - 1) / 2 ^ 28) := by
  have : Fact frParams.m.Prime := ⟨frParams_prime⟩
  have hgen : orderOf (denote frParams frFf.multiplicativeGenerator) = frParams.m - 1 := by
    rw [frFf_gen_denote]
    apply orderOf_of_pratt _ 7 [2, 2, 2, 2, 2, 2, 2, 2, 2, 2, 2, 2, 2, 2, 2, 2, 2, 2, 2, 2, 2, 2, 2, 2, 2, 2, 2, 2, 3, 3, 13,
      29, 983, 11003, 237073, 405928799, 1670836401704629, 13818364434197438864469338081] _ (by decide +kernel)
    intro q hq
    simp only [List.mem_cons, List.not_mem_nil, or_false, or_self_left] at hq
    rcases hq with rfl | rfl | rfl | rfl | rfl | rfl | rfl | rfl | rfl | rfl
    · norm_num
    · norm_num
    · norm_num
    · norm_num
    · norm_num
    · exact prime_11003
    · exact prime_237073
    · exact prime_405928799
    · exact prime_1670836401704629
    · exact prime_13818364434197438864469338081
  have two : ∀ v : L4, v.Wf → denote frParams (frParams.toMontForm v) = ((v.val : Nat) : ZMod frParams.m) :=
    fun v hv => (toMontForm_denote frParams_valid hv).2
  refine ⟨rfl, by decide +kernel, rfl, ?_, by decide +kernel, by decide +kernel, hgen,
    not_isSquare_of_order (by decide +kernel) hgen, ?_, ?_, ?_⟩
  · rw [show denote frParams frFf.twoInv = _ from two _ (by decide), ← Nat.cast_ofNat, ← Nat.cast_mul, ← Nat.cast_one,
      ZMod.natCast_eq_natCast_iff]
    decide +kernel
  · rw [denote_pow_of_powMod frParams_valid frFf_gen_denote (by decide +kernel) rfl]
    refine frRoot_denote.trans (congrArg (Nat.cast : Nat → ZMod frParams.m) ?_)
    decide +kernel
  · rw [show denote frParams frFf.rootOfUnityInv = _ from two _ (by decide),
      show denote frParams frFf.rootOfUnity = _ from frRoot_denote, ← Nat.cast_mul, ← Nat.cast_one,
      ZMod.natCast_eq_natCast_iff]
    decide +kernel
  · rw [denote_pow_of_powMod frParams_valid frFf_gen_denote (by decide +kernel) rfl,
      show denote frParams frFf.delta = _ from two _ (by decide)]
    refine congrArg (Nat.cast : Nat → ZMod frParams.m) ?_
    decide +kernel

/-- The value of `Fq(GENERATOR)`: three divided by the Montgomery radix. -/
def fqGenValue : Nat := 19189087081672452771515617982829712558466570042205295677383279139847420703767

theorem fqFf_gen_denote : denote fqParams fqFf.multiplicativeGenerator = ((fqGenValue : Nat) : ZMod fqParams.m) := by
  have h := (montgomeryReduce_value fqParams_valid (a := fqFf.multiplicativeGenerator)
    (by unfold Canonical; decide +kernel)).2
  rw [← value_cast fqParams_valid, ← h]
  exact congrArg (Nat.cast : Nat → ZMod fqParams.m) (by decide +kernel)

/-- **C85, `Fq`, partial.** What holds of the base-field constants: the modulus and its size, the inverse of two, the
order of the generator, and that the root of unity is `-1` with itself as inverse. Missing: `S` and the relations that
involve it, which are false. -/
theorem C85_fq_constants_partial :
    fqFf.modulus = fqParams.m ∧ (2 ^ (fqFf.numBits - 1) ≤ fqParams.m ∧ fqParams.m < 2 ^ fqFf.numBits) ∧
    fqFf.capacity = fqFf.numBits - 1 ∧ 2 * denote fqParams fqFf.twoInv = 1 ∧
    orderOf (denote fqParams fqFf.multiplicativeGenerator) = fqParams.m - 1 ∧
    ¬ IsSquare (denote fqParams fqFf.multiplicativeGenerator) ∧
    denote fqParams fqFf.rootOfUnity = -1 ∧
    denote fqParams fqFf.rootOfUnity * denote fqParams fqFf.rootOfUnityInv = 1 := by
  have : Fact fqParams.m.Prime := ⟨fqParams_prime⟩
  have hgen : orderOf (denote fqParams fqFf.multiplicativeGenerator) = fqParams.m - 1 := by
    rw [fqFf_gen_denote]
    apply orderOf_of_pratt _ fqGenValue [2, 3, 3, 13, 29, 67, 229, 311, 983, 11003, 405928799, 11465965001,
      13427688667394608761327070753331941386769] _ (by decide +kernel)
    intro q hq
    simp only [List.mem_cons, List.not_mem_nil, or_false, or_self_left] at hq
    rcases hq with rfl | rfl | rfl | rfl | rfl | rfl | rfl | rfl | rfl | rfl | rfl | rfl
    · norm_num
    · norm_num
    · norm_num
    · norm_num
    · norm_num
    · norm_num
    · norm_num
    · norm_num
    · exact prime_11003
    · exact prime_405928799
    · exact prime_11465965001
    · exact prime_13427688667394608761327070753331941386769
  have two : ∀ v : L4, v.Wf → denote fqParams (fqParams.toMontForm v) = ((v.val : Nat) : ZMod fqParams.m) :=
    fun v hv => (toMontForm_denote fqParams_valid hv).2
  have hroot : denote fqParams fqFf.rootOfUnity = -1 := by
    apply denote_minus_one fqParams_valid
    exact (two _ (by decide)).trans (by congr 1)
  refine ⟨rfl, by decide +kernel, rfl, ?_, hgen, not_isSquare_of_order (by decide +kernel) hgen, hroot, ?_⟩
  · rw [show denote fqParams fqFf.twoInv = _ from two _ (by decide), ← Nat.cast_ofNat, ← Nat.cast_mul, ← Nat.cast_one,
      ZMod.natCast_eq_natCast_iff]
    decide +kernel
  · rw [show fqFf.rootOfUnityInv = fqFf.rootOfUnity from rfl, hroot]; ring

/-- **C85 is false of the code for `Fq`.** No odd `t` makes the contract hold, because `S` is 0 while `q - 1` is even. In
particular the published root of unity is not a `2^S`-th root of unity, and `DELTA` is neither the generator to the
`2^S` nor, with the right `S = 1`, its square. The scalar field's `TWO_ADACITY` is wrong as well: `2^32` does not divide
`r - 1`. -/
theorem C85_fq_constants_refuted :
    (∀ t, ¬ FfContract fqParams fqFf t) ∧
    denote fqParams fqFf.rootOfUnity ^ 2 ^ fqFf.s ≠ 1 ∧
    denote fqParams fqFf.delta ≠ denote fqParams fqFf.multiplicativeGenerator ^ 2 ^ fqFf.s ∧
    denote fqParams fqFf.delta ≠ denote fqParams fqFf.multiplicativeGenerator ^ 2 ^ 1 ∧
    ¬ 2 ^ frTwoAdicity ∣ frParams.m - 1 := by
  have hd : denote fqParams fqFf.delta = ((9 : Nat) : ZMod fqParams.m) :=
    ((toMontForm_denote fqParams_valid (v := ⟨9, 0, 0, 0⟩) (by decide)).2).trans (by congr 1)
  refine ⟨fun t h => ?_, ?_, ?_, ?_, by decide +kernel⟩
  · have h1 := h.split
    have h2 := h.odd
    rw [show fqFf.s = 0 from rfl, pow_zero, one_mul] at h1
    have : (fqParams.m - 1) % 2 = 0 := by decide +kernel
    omega
  · rw [show fqFf.s = 0 from rfl, pow_zero, pow_one, C85_fq_constants_partial.2.2.2.2.2.2.1]
    exact neg_one_ne_one fqParams_valid
  · rw [hd, denote_pow_of_powMod fqParams_valid fqFf_gen_denote (by decide +kernel) rfl, Ne,
      ZMod.natCast_eq_natCast_iff]
    decide +kernel
  · rw [hd, denote_pow_of_powMod fqParams_valid fqFf_gen_denote (by decide +kernel) rfl, Ne,
      ZMod.natCast_eq_natCast_iff]
    decide +kernel

end Kogarashi.Props
