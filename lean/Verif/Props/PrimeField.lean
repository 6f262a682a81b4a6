import Mathlib.GroupTheory.OrderOfElement
import Verif.Field.Value
import Verif.Limbs.B384Lemmas

/-!
# Properties C01-C13: the prime fields

The vocabulary of the statements is in `Verif/Spec/Field.lean` (`Canonical`, `value`, `denote`,
`ValidParams`) and `Verif/Spec/Digits.lean` (`beValue`, `leValue`, `nafValue`, `NonAdjacent`).
`value P a` is the integer in `[0, p)` that the Montgomery limbs `a` stand for.
-/

set_option exponentiation.threshold 1600

namespace Kogarashi.Props

open Kogarashi.Limbs Kogarashi.Spec Kogarashi.Field

/-- A canonical element on which `square` loses a carry. -/
def badSquare : L4 := ⟨0, 2^63 + 1, 2^64 - 1, 1⟩

/-! ### C01 -/

/-- **C01.** `+`, `-`, unary `-` and `double` are exact arithmetic modulo the field modulus and return
canonical limbs, for every modulus of at most 255 bits. -/
theorem C01_additive_ops {P : FieldParams} (hP : ValidParams P) {a b : L4} (ha : Canonical P a)
    (hb : Canonical P b) :
    (Canonical P (P.add a b) ∧ value P (P.add a b) = (value P a + value P b) % P.m) ∧
    (Canonical P (P.sub a b) ∧ value P (P.sub a b) = (value P a + (P.m - value P b)) % P.m) ∧
    (Canonical P (P.neg a) ∧ value P (P.neg a) = (P.m - value P a) % P.m) ∧
    (Canonical P (P.double a) ∧ value P (P.double a) = (2 * value P a) % P.m) :=
  ⟨⟨(add_denote hP ha hb).1, add_value hP ha hb⟩, ⟨(sub_denote hP ha hb).1, sub_value hP ha hb⟩,
    ⟨(neg_denote hP ha).1, neg_value hP ha⟩, ⟨(double_denote hP ha).1, double_value hP ha⟩⟩

/-- The hypotheses hold at Fr and Fq, with elements close to the modulus. -/
example : ValidParams frParams ∧ ValidParams fqParams ∧
    Canonical frParams ⟨0x43e1f593f0000000, 0x2833e84879b97091, 0xb85045b68181585d, 0x30644e72e131a029⟩ ∧
    Canonical fqParams badSquare :=
  ⟨frParams_valid, fqParams_valid, by unfold Canonical; decide +kernel, by unfold Canonical; decide +kernel⟩

/-! ### C02 -/

/-- **C02.** `*` is exact modular multiplication with a canonical result, and converting a raw integer
into Montgomery form and back is reduction modulo the modulus. -/
theorem C02_mul {P : FieldParams} (hP : ValidParams P) {a b : L4} (ha : Canonical P a)
    (hb : Canonical P b) :
    Canonical P (P.mul a b) ∧ value P (P.mul a b) = (value P a * value P b) % P.m :=
  ⟨(mul_denote hP ha hb).1, mul_value hP ha hb⟩

/-- **C02.** In and out of Montgomery form. -/
theorem C02_roundtrip {P : FieldParams} (hP : ValidParams P) {v : L4} (hv : v.Wf) :
    value P (P.toMontForm v) = v.val % P.m ∧
      (P.montgomeryReduce (P.toMontForm v)).val = v.val % P.m :=
  ⟨toMontForm_value hP hv, by
    rw [(montgomeryReduce_value hP (toMontForm_denote hP hv).1).2, toMontForm_value hP hv]⟩

example : Canonical frParams badSquare ∧ (L4.mk (2^64 - 1) (2^64 - 1) (2^64 - 1) (2^64 - 1)).Wf := by
  refine ⟨by unfold Canonical; decide +kernel, by decide⟩

/-! ### C03 -/

/-- **C03 is false of the code.** On `badSquare`, which is canonical in both fields, `square` and `mul`
differ; so do the 384-bit functions (with the BLS12-381 modulus of the crate's tests). -/
theorem C03_square_refuted :
    (∃ a, Canonical frParams a ∧ frParams.square a ≠ frParams.mul a a) ∧
    (∃ a, Canonical fqParams a ∧ fqParams.square a ≠ fqParams.mul a a) ∧
    (∃ (a p : L6) (inv : Nat), a.Wf ∧ p.Wf ∧ a.val < p.val ∧ (p.l0 * inv + 1) % 2^64 = 0 ∧
      B384.square a p inv ≠ B384.mul a a p inv) := by
  refine ⟨⟨badSquare, ?_, ?_⟩, ⟨badSquare, ?_, ?_⟩, ⟨⟨0, 0, 0, 2^63 + 1, 2^64 - 1, 1⟩,
    ⟨0xb9feffffffffaaab, 0x1eabfffeb153ffff, 0x6730d2a0f6b0f624, 0x64774b84f38512bf,
      0x4b1ba7b6434bacd7, 0x1a0111ea397fe69a⟩, 0x89f3fffcfffcfffd, ?_, ?_, ?_, ?_, ?_⟩⟩
  · unfold Canonical; decide +kernel
  · decide +kernel
  · unfold Canonical; decide +kernel
  · decide +kernel
  all_goals decide +kernel

/-- The carry that `square` loses: with `aᵢ` the limbs, adding `a₁a₂2^192` to the other off-diagonal
products `Σ_{i<j} aᵢaⱼ2^(64(i+j))` carries into the `2^384` column. -/
def SquareLosesCarry (a : L4) : Prop :=
  (a.l0 * a.l1 * 2^64 + a.l0 * a.l2 * 2^128 + (a.l0 * a.l3 + a.l1 * a.l2) * 2^192 +
      a.l1 * a.l3 * 2^256 + a.l2 * a.l3 * 2^320) / 2^384 ≠
    (a.l0 * a.l1 * 2^64 + a.l0 * a.l2 * 2^128 + a.l0 * a.l3 * 2^192 +
      a.l1 * a.l3 * 2^256 + a.l2 * a.l3 * 2^320) / 2^384

/-- **C03, exact extent (256-bit).** `a.square()` equals `a * a` precisely for the canonical elements on
which no carry is lost. Missing for the full property: the code is wrong on the others. -/
theorem C03_square_partial {P : FieldParams} (hP : ValidParams P) {a : L4} (ha : Canonical P a) :
    P.square a = P.mul a a ↔ ¬ SquareLosesCarry a := by
  rw [square_eq_mul_iff hP ha]
  unfold SquareLosesCarry offDiag offDiagEarly
  exact not_not.symm

/-- **C03, 384-bit part.** `square` equals `mul` at least when the integer square of the limbs has no
512-bit column, i.e. is below `2^513`. -/
theorem C03_square384_partial {a p : L6} {inv : Nat} (ha : a.Wf) (h : a.val * a.val < 2^513) :
    B384.square a p inv = B384.mul a a p inv := by
  obtain ⟨w, k9, k7, hw, hv, he, -⟩ := B384.square_wide p inv ha
  obtain ⟨w', hw', hv', he'⟩ := B384.mul_wide p inv ha ha
  rw [he, he']
  have : w.val = w'.val := by
    rw [hv']
    generalize a.val * a.val = X at *
    omega
  rw [L12.val_inj hw hw' this]

example : ¬ SquareLosesCarry ⟨5, 6, 7, 8⟩ ∧ SquareLosesCarry badSquare := by
  unfold SquareLosesCarry; decide +kernel

/-! ### C04 -/

/-- **C04 is false of the code.** `badSquare` is invertible but `invert` returns something that is not
its inverse, in Fr and in Fq; and `pow(2)` is not the square. -/
theorem C04_invert_refuted :
    (∃ a b, Canonical frParams a ∧ a ≠ FieldParams.zero ∧ frParams.invert a = some b ∧
      frParams.mul a b ≠ frParams.one) ∧
    (∃ a b, Canonical fqParams a ∧ a ≠ FieldParams.zero ∧ fqParams.invert a = some b ∧
      fqParams.mul a b ≠ fqParams.one) ∧
    (∃ a, Canonical frParams a ∧ frParams.powU64 a 2 ≠ frParams.mul a a) := by
  refine ⟨⟨badSquare, (frParams.invert badSquare).getD FieldParams.zero, ?_, ?_, ?_, ?_⟩,
    ⟨badSquare, (fqParams.invert badSquare).getD FieldParams.zero, ?_, ?_, ?_, ?_⟩, badSquare, ?_, ?_⟩
  all_goals first | (unfold Canonical; decide +kernel) | decide +kernel

/-- `None` is returned exactly for zero (unconditionally). -/
theorem C04_invert_none {P : FieldParams} (a : L4) : P.invert a = none ↔ a = FieldParams.zero := by
  unfold FieldParams.invert B256.invert
  constructor
  · intro h
    by_contra h0
    rw [if_neg (show ¬ a = B256.zero from h0)] at h
    exact absurd h (by simp)
  · rintro rfl; rfl

/-- **C04, partial.** `pow` computes the power whenever none of the elements it squares (`squaredBy`, the
successive accumulators) loses a carry. -/
theorem C04_pow_partial {P : FieldParams} (hP : ValidParams P) {a e : L4} (ha : Canonical P a)
    (he : e.Wf) (hsq : ∀ x ∈ squaredBy P a (B256.toBits e) P.one, P.square x = P.mul x x) :
    Canonical P (B256.pow a e P.r P.p P.inv) ∧
      value P (B256.pow a e P.r P.p P.inv) = (value P a ^ e.val) % P.m :=
  ⟨(pow_denote hP ha he hsq).1, pow_value hP ha he hsq⟩

/-- **C04, partial.** `invert` returns the inverse of a non-zero element whenever none of the elements it
squares loses a carry. -/
theorem C04_invert_partial {P : FieldParams} (hP : ValidParams P) (hp : P.m.Prime) {a : L4}
    (ha : Canonical P a) (h0 : a ≠ FieldParams.zero)
    (hsq : ∀ x ∈ squaredBy P a (B256.toBits (B256.littleFermat P.p)) P.one, P.square x = P.mul x x) :
    ∃ b, P.invert a = some b ∧ Canonical P b ∧ P.mul a b = P.one :=
  invert_value hP hp ha h0 hsq

/-- `/` panics exactly when the divisor is zero (unconditionally). -/
theorem C04_div_panic {P : FieldParams} (a b : L4) : P.div a b = none ↔ b = FieldParams.zero := by
  unfold FieldParams.div
  rw [Option.map_eq_none_iff, C04_invert_none]

/-- **C04, partial.** `a / b` is the element whose product with `b` is `a`, whenever none of the elements that the
inversion of `b` squares loses a carry. -/
theorem C04_div_partial {P : FieldParams} (hP : ValidParams P) (hp : P.m.Prime) {a b : L4} (ha : Canonical P a)
    (hb : Canonical P b) (h0 : b ≠ FieldParams.zero)
    (hsq : ∀ x ∈ squaredBy P b (B256.toBits (B256.littleFermat P.p)) P.one, P.square x = P.mul x x) :
    ∃ c, P.div a b = some c ∧ Canonical P c ∧ value P c * value P b % P.m = value P a := by
  obtain ⟨i, hi, hic, hbi⟩ := invert_value hP hp hb h0 hsq
  refine ⟨P.mul a i, by rw [FieldParams.div, hi]; rfl, (mul_denote hP ha hic).1, ?_⟩
  have h1 : value P b * value P i % P.m = 1 := by
    rw [← mul_value hP hb hic, hbi]
    exact value_one hP
  have hlt : value P a < P.m := haveI := Fact.mk hp; ZMod.val_lt _
  rw [mul_value hP ha hic, Nat.mod_mul_mod, mul_assoc, mul_comm (value P i), Nat.mul_mod, h1, mul_one, Nat.mod_mod,
    Nat.mod_eq_of_lt hlt]

/-- The no-lost-carry hypothesis holds for a full-size inversion of a concrete element of Fr and of Fq. -/
example : (∀ x ∈ squaredBy frParams (frParams.fromU64 7) (B256.toBits (B256.littleFermat frParams.p))
      frParams.one, frParams.square x = frParams.mul x x) ∧
    (∀ x ∈ squaredBy fqParams (fqParams.fromU64 7) (B256.toBits (B256.littleFermat fqParams.p))
      fqParams.one, fqParams.square x = fqParams.mul x x) := by decide +kernel

/-! ### C05 -/

/-- **C05.** `to_bytes` is the 32-byte little-endian encoding of the value. -/
theorem C05_to_bytes {P : FieldParams} (hP : ValidParams P) {a : L4} (ha : Canonical P a) :
    (P.toBytes a).length = 32 ∧ (∀ x ∈ P.toBytes a, x < 256) ∧
      leValue 256 (P.toBytes a) = value P a :=
  toBytes_spec hP ha

/-- **C05.** `from_bytes` accepts exactly the 32-byte strings that encode an integer below the modulus,
and returns the canonical element of that value. -/
theorem C05_from_bytes {P : FieldParams} (hP : ValidParams P) {bytes : List Nat}
    (hl : bytes.length = 32) (hb : ∀ x ∈ bytes, x < 256) :
    (P.fromBytes (fun i => bytes.getD i 0) = none ↔ P.m ≤ leValue 256 bytes) ∧
    (∀ e, P.fromBytes (fun i => bytes.getD i 0) = some e →
      Canonical P e ∧ value P e = leValue 256 bytes) := by
  have hb' : ∀ i < 32, (fun i => bytes.getD i 0) i < 256 := by
    intro i hi
    have : i < bytes.length := by omega
    simp only [List.getD, List.getElem?_eq_getElem this, Option.getD_some]
    exact hb _ (List.getElem_mem this)
  obtain ⟨h1, h2⟩ := fromBytes_spec hP hb'
  rw [range_map_getD bytes 32 hl] at h1 h2
  refine ⟨⟨?_, fun h => h2 (by omega)⟩, ?_⟩
  · intro h
    by_contra hlt
    obtain ⟨e, he, -⟩ := h1 (by omega)
    rw [h] at he
    exact absurd he (by simp)
  · intro e he
    by_cases hlt : leValue 256 bytes < P.m
    · obtain ⟨e', he', hc, hv⟩ := h1 hlt
      rw [he] at he'
      cases he'
      exact ⟨hc, hv⟩
    · rw [h2 hlt] at he
      exact absurd he (by simp)

/-- **C05.** The two functions are mutually inverse. -/
theorem C05_bytes_roundtrip {P : FieldParams} (hP : ValidParams P) :
    (∀ a, Canonical P a → P.fromBytes (fun i => (P.toBytes a).getD i 0) = some a) ∧
    (∀ bytes : List Nat, bytes.length = 32 → (∀ x ∈ bytes, x < 256) → ∀ e,
      P.fromBytes (fun i => bytes.getD i 0) = some e → P.toBytes e = bytes) := by
  constructor
  · intro a ha
    obtain ⟨h1, h2, h3⟩ := toBytes_spec hP ha
    obtain ⟨k1, k2⟩ := C05_from_bytes hP h1 h2
    cases h : P.fromBytes (fun i => (P.toBytes a).getD i 0) with
    | none => have := k1.1 h; have := value_lt hP a; omega
    | some e =>
      obtain ⟨c, v⟩ := k2 e h
      rw [value_inj hP c ha (by rw [v, h3])]
  · intro bytes hl hb e he
    obtain ⟨c, v⟩ := (C05_from_bytes hP hl hb).2 e he
    obtain ⟨h1, h2, h3⟩ := toBytes_spec hP c
    exact leValue_inj h2 hb (by rw [h1, hl]) (by rw [h3, v])

/-- Both sides of the acceptance boundary are met at Fr: the modulus is refused, its predecessor taken. -/
example : frParams.fromBytes (fun i => (leBytes8 0x43e1f593f0000001 ++ leBytes8 0x2833e84879b97091 ++
      leBytes8 0xb85045b68181585d ++ leBytes8 0x30644e72e131a029).getD i 0) = none ∧
    (frParams.fromBytes (fun i => (leBytes8 0x43e1f593f0000000 ++ leBytes8 0x2833e84879b97091 ++
      leBytes8 0xb85045b68181585d ++ leBytes8 0x30644e72e131a029).getD i 0)).isSome := by decide +kernel

/-! ### C06 -/

/-- **C06.** `from_bytes_wide` and `from_hash` reduce the 512-bit little-endian integer exactly. -/
theorem C06_from_bytes_wide {P : FieldParams} (hP : ValidParams P) {bytes : Nat → Nat}
    (hb : ∀ i < 64, bytes i < 256) :
    Canonical P (P.fromBytesWide bytes) ∧
      value P (P.fromBytesWide bytes) = leValue 256 ((List.range 64).map bytes) % P.m ∧
      P.fromHash bytes = P.fromBytesWide bytes := by
  have hw : ∀ off, off + 8 ≤ 64 → FieldParams.leU64 bytes off < 2^64 :=
    fun off ho => leU64_lt (fun i _ h => hb i (by omega))
  obtain ⟨h1, h2⟩ := fromU512_denote hP (l := ⟨FieldParams.leU64 bytes 0, FieldParams.leU64 bytes 8,
    FieldParams.leU64 bytes 16, FieldParams.leU64 bytes 24, FieldParams.leU64 bytes 32,
    FieldParams.leU64 bytes 40, FieldParams.leU64 bytes 48, FieldParams.leU64 bytes 56⟩)
    ⟨hw _ (by norm_num), hw _ (by norm_num), hw _ (by norm_num), hw _ (by norm_num),
     hw _ (by norm_num), hw _ (by norm_num), hw _ (by norm_num), hw _ (by norm_num)⟩
  refine ⟨h1, ?_, rfl⟩
  rw [bytes64_value]
  exact value_of_denote hP h2

/-- **C06.** `random` is the exact reduction of the eight words drawn from the generator. -/
theorem C06_random {P : FieldParams} (hP : ValidParams P) {rand : Nat → Nat}
    (hr : ∀ i < 8, rand i < 2^64) :
    Canonical P (P.random rand) ∧
      value P (P.random rand) = leValue (2^64) ((List.range 8).map rand) % P.m := by
  obtain ⟨h1, h2⟩ := fromU512_denote hP (l := ⟨rand 0, rand 1, rand 2, rand 3, rand 4, rand 5, rand 6, rand 7⟩)
    ⟨hr _ (by norm_num), hr _ (by norm_num), hr _ (by norm_num), hr _ (by norm_num),
     hr _ (by norm_num), hr _ (by norm_num), hr _ (by norm_num), hr _ (by norm_num)⟩
  refine ⟨h1, ?_⟩
  have e : (L8.mk (rand 0) (rand 1) (rand 2) (rand 3) (rand 4) (rand 5) (rand 6) (rand 7)).val =
      leValue (2^64) ((List.range 8).map rand) := by
    simp only [L8.val, List.range, List.range.loop, List.map, leValue]; ring
  rw [← e]
  exact value_of_denote hP h2

/-- **C06.** `From<u64>` yields the element of that value. -/
theorem C06_from_u64 {P : FieldParams} (hP : ValidParams P) {n : Nat} (hn : n < 2^64) :
    Canonical P (P.fromU64 n) ∧ value P (P.fromU64 n) = n % P.m := by
  have hw : (L4.mk n 0 0 0).Wf := ⟨hn, by norm_num, by norm_num, by norm_num⟩
  have e : (L4.mk n 0 0 0).val = n := by simp [L4.val]
  refine ⟨(toMontForm_denote hP hw).1, ?_⟩
  have := toMontForm_value hP hw
  rw [e] at this
  exact this

example : (∀ i < 64, (fun _ => 255) i < 256) ∧ (∀ i < 8, (fun _ => 2^64 - 1) i < 2^64) := by
  constructor <;> intro i _ <;> norm_num

/-! ### C07 -/

/-- **C07.** `==` is equality of values. -/
theorem C07_eq {P : FieldParams} (hP : ValidParams P) {a b : L4} (ha : Canonical P a)
    (hb : Canonical P b) : FieldParams.eq a b = true ↔ value P a = value P b := by
  rw [eq_iff]
  exact ⟨fun h => by rw [h], fun h => value_inj hP ha hb h⟩

/-- **C07, partial.** The comparison operators form a total order compatible with `==`: there is an
injective integer rank on canonical elements such that `<`, `<=`, `>`, `>=` and `cmp` compare ranks. The
rank is the Montgomery representative, not the value, so the last clause of C07 ("compare field values")
is missing. -/
theorem C07_order_partial (P : FieldParams) :
    ∃ rank : L4 → Nat, (∀ a b, Canonical P a → Canonical P b → rank a = rank b → a = b) ∧
      ∀ a b, Canonical P a → Canonical P b →
        (FieldParams.lt a b = true ↔ rank a < rank b) ∧ (FieldParams.le a b = true ↔ rank a ≤ rank b) ∧
        (FieldParams.gt a b = true ↔ rank b < rank a) ∧ (FieldParams.ge a b = true ↔ rank b ≤ rank a) ∧
        FieldParams.cmp a b = compare (rank a) (rank b) :=
  ⟨L4.val, fun _ _ ha hb h => L4.val_inj ha.1 hb.1 h, fun _ _ ha hb =>
    ⟨lt_iff ha.1 hb.1, le_iff ha.1 hb.1, gt_iff ha.1 hb.1, ge_iff ha.1 hb.1, cmp_eq ha.1 hb.1⟩⟩

/-- **C07 is false of the code in its last clause.** `<` does not compare field values: the element with
Montgomery limbs `[1,0,0,0]` is `<` than one, although the value of one is smaller. -/
theorem C07_value_order_refuted :
    ∃ a b, Canonical frParams a ∧ Canonical frParams b ∧ FieldParams.lt a b = true ∧
      value frParams b < value frParams a := by
  refine ⟨⟨1, 0, 0, 0⟩, frParams.one, ?_, ?_, ?_, ?_⟩
  · unfold Canonical; decide +kernel
  · unfold Canonical; decide +kernel
  · decide +kernel
  · rw [← (montgomeryReduce_value frParams_valid (a := ⟨1, 0, 0, 0⟩) (by unfold Canonical; decide +kernel)).2,
      ← (montgomeryReduce_value frParams_valid (a := frParams.one) (by unfold Canonical; decide +kernel)).2]
    decide +kernel

/-! ### C08 -/

/-- **C08.** `to_bits` returns 256 bits, most significant first, whose weighted sum is the value. -/
theorem C08_to_bits {P : FieldParams} (hP : ValidParams P) {a : L4} (ha : Canonical P a) :
    (P.toBits a).length = 256 ∧ (∀ x ∈ P.toBits a, x = 0 ∨ x = 1) ∧ beValue 2 (P.toBits a) = value P a := by
  obtain ⟨⟨hw, -⟩, hv⟩ := montgomeryReduce_value hP ha
  exact ⟨toBits_length _, toBits_bits _, by rw [← hv]; exact toBits_value hw⟩

example : Canonical fqParams badSquare ∧ beValue 2 [1, 0, 1, 1] = 11 := by
  refine ⟨by unfold Canonical; decide +kernel, rfl⟩

/-! ### C09 -/

/-- **C09, 256-bit.** `to_nafs` does not panic and yields signed binary digits, most significant first,
with no two adjacent non-zero digits, whose weighted sum is the value. Missing: the 384-bit back end, for
which the property is false. -/
theorem C09_naf_partial {P : FieldParams} (hP : ValidParams P) {a : L4} (ha : Canonical P a) :
    ∃ ds, P.toNafs a = some ds ∧ nafValue ds = value P a ∧ NonAdjacent ds := by
  obtain ⟨⟨hw, -⟩, hv⟩ := montgomeryReduce_value hP ha
  obtain ⟨ds, h1, h2, h3⟩ := naf_core ([(P.montgomeryReduce a).l0, (P.montgomeryReduce a).l1,
    (P.montgomeryReduce a).l2, (P.montgomeryReduce a).l3].flatMap limbBits) (fun x hx => bits4_bit hx)
  rw [bits4_value hw, hv] at h2
  refine ⟨_, ?_, h2, h3⟩
  unfold FieldParams.toNafs B256.toNafs
  rw [h1]; rfl

/-- **C09 is false of the 384-bit back end**: the digits come out least significant first. -/
theorem C09_naf384_refuted :
    ∃ (v : L6) (ds : List Naf), v.Wf ∧ B384.toNafs v = some ds ∧ nafValue ds ≠ v.val :=
  ⟨⟨2, 0, 0, 0, 0, 0⟩, [.zero, .plus], by decide, by decide +kernel, by decide⟩

/-- **C09, 384-bit, what does hold**: read in the opposite direction the digits are a correct
non-adjacent form. -/
theorem C09_naf384_partial {v : L6} (hv : v.Wf) :
    ∃ ds, B384.toNafs v = some ds ∧ nafValue ds.reverse = v.val ∧ NonAdjacent ds := by
  obtain ⟨ds, h1, h2, h3⟩ := naf_core ([v.l0, v.l1, v.l2, v.l3, v.l4, v.l5].flatMap limbBits)
    (fun x hx => bits6_bit hx)
  rw [bits6_value hv] at h2
  refine ⟨((ds.reverse.dropWhile (fun d => d = Naf.zero)).dropLast).reverse, ?_, ?_, h3.reverse⟩
  · unfold B384.toNafs; rw [h1]; rfl
  · rw [List.reverse_reverse]; exact h2

example : B256.toNafs ⟨7, 0, 0, 0⟩ = some [.plus, .zero, .zero, .minus] ∧
    nafValue [.plus, .zero, .zero, .minus] = 7 := by decide +kernel

/-! ### C10 -/

/-- **C10 is false of the code.** In each field there is a canonical square whose `sqrt` is `None`
(because `square` loses a carry inside `pow_vartime`). -/
theorem C10_sqrt_refuted :
    (∃ a r, Canonical frParams a ∧ Canonical frParams r ∧ frParams.mul r r = a ∧ frSqrt a = none) ∧
    (∃ a r, Canonical fqParams a ∧ Canonical fqParams r ∧ fqParams.mul r r = a ∧ fqSqrt a = none) := by
  refine ⟨⟨⟨0, 2^63 + 4, 2^64 - 1, 1⟩,
      (frSqrtWith (fun x => frParams.mul x x) ⟨0, 2^63 + 4, 2^64 - 1, 1⟩).getD FieldParams.zero, ?_, ?_, ?_, ?_⟩,
    ⟨⟨0, 2^63 + 2, 2^64 - 1, 1⟩,
      (fqSqrtWith (fun x => fqParams.mul x x) ⟨0, 2^63 + 2, 2^64 - 1, 1⟩).getD FieldParams.zero, ?_, ?_, ?_, ?_⟩⟩
  all_goals first | (unfold Canonical; decide +kernel) | decide +kernel

theorem frRoot_canonical : Canonical frParams frRootOfUnity :=
  (toMontForm_denote frParams_valid (by decide)).1

theorem frRoot_denote : denote frParams frRootOfUnity =
    ((L4.mk 0xd34f1ed960c37c9c 0x3215cf6dd39329c8 0x98865ea93dd31f74 0x03ddb9f5166d18b7).val :
      ZMod frParams.m) :=
  (toMontForm_denote frParams_valid (by decide)).2

theorem frRoot_pow27 : denote frParams frRootOfUnity ^ 2^27 = -1 :=
  denote_minus_one frParams_valid (denote_pow_of_powMod frParams_valid frRoot_denote (by norm_num)
    (by decide +kernel))

/-- **C10, the algorithm.** With an exact squaring function, `Fr::sqrt` succeeds exactly on squares, and
what it returns is a root. -/
theorem C10_fr_sqrt_exact_squaring {a : L4} (ha : Canonical frParams a) :
    ((∃ r, frSqrtWith (fun x => frParams.mul x x) a = some r) ↔
      ∃ y, Canonical frParams y ∧ frParams.mul y y = a) ∧
    ∀ r, frSqrtWith (fun x => frParams.mul x x) a = some r → frParams.mul r r = a := by
  have : Fact frParams.m.Prime := ⟨frParams_prime⟩
  have hs := (limbRep frParams frParams_valid).tonelliShanks_spec (neg_one_ne_one frParams_valid) ha
    frRoot_canonical (B256.toBits frSqrtExp) (toBits_bits _) frS (by decide) frRoot_pow27
    (squaresPow _ _ (by rw [toBits_value (by decide)]; decide +kernel))
  have hsome : ∀ r, frSqrtWith (fun x => frParams.mul x x) a = some r → frParams.mul r r = a :=
    fun r hr => FieldRep.tonelliShanks_some (limbRep frParams frParams_valid) hr
  refine ⟨⟨?_, ?_⟩, hsome⟩
  · rintro ⟨r, hr⟩
    exact ⟨r, (limbRep frParams frParams_valid).tonelliShanks_good ha frRoot_canonical (toBits_bits _) hr,
      hsome r hr⟩
  · rintro ⟨y, hy, he⟩
    obtain ⟨r, h1, -⟩ := hs.2 ⟨denote frParams y, by
      rw [← he]; exact ((mul_denote frParams_valid hy hy).2).symm⟩
    exact ⟨r, h1⟩

/-- **C10, the algorithm.** The same for `Fq::sqrt`. -/
theorem C10_fq_sqrt_exact_squaring {a : L4} (ha : Canonical fqParams a) :
    ((∃ r, fqSqrtWith (fun x => fqParams.mul x x) a = some r) ↔
      ∃ y, Canonical fqParams y ∧ fqParams.mul y y = a) ∧
    ∀ r, fqSqrtWith (fun x => fqParams.mul x x) a = some r → fqParams.mul r r = a := by
  have : Fact fqParams.m.Prime := ⟨fqParams_prime⟩
  have hs := (limbRep fqParams fqParams_valid).sqrtByPow_spec ha (B256.toBits fqSqrtExp) (toBits_bits _)
    (squaresPow4 _ (by rw [toBits_value (by decide)]; decide +kernel))
  have hsome : ∀ r, fqSqrtWith (fun x => fqParams.mul x x) a = some r →
      Canonical fqParams r ∧ fqParams.mul r r = a :=
    fun r hr => (limbRep fqParams fqParams_valid).sqrtByPow_some ha (toBits_bits _) hr
  refine ⟨⟨?_, ?_⟩, fun r hr => (hsome r hr).2⟩
  · rintro ⟨r, hr⟩
    exact ⟨r, hsome r hr⟩
  · rintro ⟨y, hy, he⟩
    obtain ⟨r, h1, -⟩ := hs.2 ⟨denote fqParams y, by
      rw [← he]; exact ((mul_denote fqParams_valid hy hy).2).symm⟩
    exact ⟨r, h1⟩

/-- **C10, partial.** For the code as it is: whenever no lost carry changes the run (the result is the one
exact squaring would give), `sqrt` succeeds exactly on squares and returns a root. Missing: the inputs of
`C10_sqrt_refuted`, whose run is changed. -/
theorem C10_sqrt_partial :
    (∀ a, Canonical frParams a → frSqrt a = frSqrtWith (fun x => frParams.mul x x) a →
      ((∃ r, frSqrt a = some r) ↔ ∃ y, Canonical frParams y ∧ frParams.mul y y = a) ∧
      ∀ r, frSqrt a = some r → frParams.mul r r = a) ∧
    (∀ a, Canonical fqParams a → fqSqrt a = fqSqrtWith (fun x => fqParams.mul x x) a →
      ((∃ r, fqSqrt a = some r) ↔ ∃ y, Canonical fqParams y ∧ fqParams.mul y y = a) ∧
      ∀ r, fqSqrt a = some r → fqParams.mul r r = a) := by
  refine ⟨fun a ha h => ?_, fun a ha h => ?_⟩
  · rw [h]; exact C10_fr_sqrt_exact_squaring ha
  · rw [h]; exact C10_fq_sqrt_exact_squaring ha

/-- The hypothesis of `C10_sqrt_partial` holds for a concrete square and a concrete non-square. -/
example : frSqrt (frParams.fromU64 4) = frSqrtWith (fun x => frParams.mul x x) (frParams.fromU64 4) ∧
    (frSqrt (frParams.fromU64 4)).isSome ∧ frSqrt (frParams.fromU64 5) = none ∧
    frSqrt (frParams.fromU64 5) = frSqrtWith (fun x => frParams.mul x x) (frParams.fromU64 5) ∧
    fqSqrt (fqParams.fromU64 4) = fqSqrtWith (fun x => fqParams.mul x x) (fqParams.fromU64 4) ∧
    (fqSqrt (fqParams.fromU64 4)).isSome := by decide +kernel

/-! ### C11 -/

/-- **C11 is false of the code.** Through the `ff` traits, `invert` of zero is `Some(1)`, and `from_repr`
accepts the encoding of the modulus (as zero). -/
theorem C11_ff_refuted :
    frParams.ffInvert FieldParams.zero = some frParams.one ∧ fqParams.ffInvert FieldParams.zero = some fqParams.one ∧
    (∃ bytes : List Nat, bytes.length = 32 ∧ (∀ x ∈ bytes, x < 256) ∧ leValue 256 bytes = frParams.m ∧
      frParams.ffFromRepr (fun i => bytes.getD i 0) = some FieldParams.zero) := by
  refine ⟨by decide +kernel, by decide +kernel, leBytes8 0x43e1f593f0000001 ++ leBytes8 0x2833e84879b97091 ++
    leBytes8 0xb85045b68181585d ++ leBytes8 0x30644e72e131a029, ?_, ?_, ?_, ?_⟩ <;> decide +kernel

/-- **C11, partial.** What the layer does guarantee: `from_repr` reduces its input modulo the modulus (so it
inverts `to_repr`), and `invert` of a non-zero element is its inverse when no lost carry occurs. Missing:
rejection of zero and of non-canonical encodings, both false. -/
theorem C11_ff_partial {P : FieldParams} (hP : ValidParams P) (hp : P.m.Prime) :
    (∀ bytes : List Nat, bytes.length = 32 → (∀ x ∈ bytes, x < 256) →
      ∃ e, P.ffFromRepr (fun i => bytes.getD i 0) = some e ∧ Canonical P e ∧
        value P e = leValue 256 bytes % P.m) ∧
    (∀ a, Canonical P a → P.ffFromRepr (fun i => (P.ffToRepr a).getD i 0) = some a) ∧
    (∀ a, Canonical P a → a ≠ FieldParams.zero →
      (∀ x ∈ squaredBy P a (B256.toBits (B256.littleFermat P.p)) P.one, P.square x = P.mul x x) →
      ∃ b, P.ffInvert a = some b ∧ P.mul a b = P.one) := by
  have h1 : ∀ bytes : List Nat, bytes.length = 32 → (∀ x ∈ bytes, x < 256) →
      ∃ e, P.ffFromRepr (fun i => bytes.getD i 0) = some e ∧ Canonical P e ∧
        value P e = leValue 256 bytes % P.m := by
    intro bytes hl hb
    have hb' : ∀ i < 32, (fun i => bytes.getD i 0) i < 256 := by
      intro i hi
      have : i < bytes.length := by omega
      simp only [List.getD, List.getElem?_eq_getElem this, Option.getD_some]
      exact hb _ (List.getElem_mem this)
    have hv := bytes32_value (fun i => bytes.getD i 0)
    rw [range_map_getD bytes 32 hl] at hv
    have w : ∀ off, off + 8 ≤ 32 → FieldParams.leU64 (fun i => bytes.getD i 0) off < 2^64 :=
      fun off ho => leU64_lt (fun i _ h => hb' i (by omega))
    have hw : (L4.mk (FieldParams.leU64 (fun i => bytes.getD i 0) 0)
        (FieldParams.leU64 (fun i => bytes.getD i 0) 8) (FieldParams.leU64 (fun i => bytes.getD i 0) 16)
        (FieldParams.leU64 (fun i => bytes.getD i 0) 24)).Wf :=
      ⟨w _ (by norm_num), w _ (by norm_num), w _ (by norm_num), w _ (by norm_num)⟩
    exact ⟨_, rfl, (toMontForm_denote hP hw).1, by rw [hv]; exact toMontForm_value hP hw⟩
  refine ⟨h1, ?_, ?_⟩
  · intro a ha
    obtain ⟨t1, t2, t3⟩ := toBytes_spec hP ha
    obtain ⟨e, he, hc, hv⟩ := h1 _ t1 t2
    rw [show P.ffToRepr a = P.toBytes a from rfl, he]
    rw [t3, Nat.mod_eq_of_lt (value_lt hP a)] at hv
    rw [value_inj hP hc ha hv]
  · intro a ha h0 hsq
    obtain ⟨b, hb, hc, hm⟩ := invert_value hP hp ha h0 hsq
    refine ⟨b, ?_, hm⟩
    unfold FieldParams.ffInvert
    simp only [hb, Option.getD_some]
    rw [if_neg]
    rintro rfl
    have h := (mul_denote hP ha (zero_canonical hP)).2
    rw [hm, denote_zero, mul_zero] at h
    have h' := (denote_eq_zero_iff hP (r_canonical hP)).1 h
    have v1 := value_one hP
    rw [h', value_zero hP] at v1
    exact absurd v1 (by norm_num)

example : frParams.ffInvert (frParams.fromU64 2) = frParams.invert (frParams.fromU64 2) := by decide +kernel

/-! ### C12 -/

/-- **C12.** Converting Fr to Fq preserves the integer value; converting Fq to Fr reduces it modulo the
order of Fr. -/
theorem C12_conversions :
    (∀ a, Canonical frParams a → Canonical fqParams (fqFromFr a) ∧
      value fqParams (fqFromFr a) = value frParams a) ∧
    (∀ a, Canonical fqParams a → Canonical frParams (frFromFq a) ∧
      value frParams (frFromFq a) = value fqParams a % frParams.m) := by
  have hlt : frParams.m < fqParams.m := by decide +kernel
  refine ⟨fun a ha => ?_, fun a ha => ?_⟩
  · obtain ⟨⟨hw, -⟩, hv⟩ := montgomeryReduce_value frParams_valid ha
    refine ⟨(toMontForm_denote fqParams_valid hw).1, ?_⟩
    have := toMontForm_value fqParams_valid hw
    rw [hv, Nat.mod_eq_of_lt (lt_trans (value_lt frParams_valid a) hlt)] at this
    exact this
  · obtain ⟨⟨hw, -⟩, hv⟩ := montgomeryReduce_value fqParams_valid ha
    refine ⟨(toMontForm_denote frParams_valid hw).1, ?_⟩
    have := toMontForm_value frParams_valid hw
    rw [hv] at this
    exact this

/-- **C12, partial.** The round trip Fq → Fr → Fq is the identity exactly on the elements of value below
the order of Fr. Missing: the elements in between, on which it is false. -/
theorem C12_roundtrip_partial {a : L4} (ha : Canonical fqParams a) :
    fqFromFr (frFromFq a) = a ↔ value fqParams a < frParams.m := by
  obtain ⟨h1, h2⟩ := C12_conversions.2 a ha
  obtain ⟨h3, h4⟩ := C12_conversions.1 _ h1
  constructor
  · intro h
    rw [h] at h4
    rw [h4, h2]
    exact Nat.mod_lt _ (by decide +kernel)
  · intro h
    apply value_inj fqParams_valid h3 ha
    rw [h4, h2, Nat.mod_eq_of_lt h]

/-- And back: Fr → Fq → Fr is the identity on every element. -/
theorem C12_fr_roundtrip {a : L4} (ha : Canonical frParams a) : frFromFq (fqFromFr a) = a := by
  obtain ⟨h1, h2⟩ := C12_conversions.1 a ha
  obtain ⟨h3, h4⟩ := C12_conversions.2 _ h1
  apply value_inj frParams_valid h3 ha
  rw [h4, h2, Nat.mod_eq_of_lt (value_lt frParams_valid a)]

/-- **C12 is false of the code in its second clause.** -/
theorem C12_roundtrip_refuted : ∃ a, Canonical fqParams a ∧ fqFromFr (frFromFq a) ≠ a := by
  refine ⟨fqParams.toMontForm frParams.p, ?_, ?_⟩
  · unfold Canonical; decide +kernel
  · decide +kernel

example : Canonical fqParams (fqParams.fromU64 9) ∧ fqFromFr (frFromFq (fqParams.fromU64 9)) = fqParams.fromU64 9 := by
  refine ⟨?_, by decide +kernel⟩
  unfold Canonical; decide +kernel

/-! ### C13 -/

/-- **C13, partial.** The moduli are prime, the Montgomery constants are those of the modulus
(`ValidParams`), `one()` and `zero()` have values 1 and 0, and the root of unity has order exactly `2^S`.
Missing: the constant `ADDITIVE_IDENTITY`, for which the claim is false. -/
theorem C13_constants_partial :
    frParams.m.Prime ∧ fqParams.m.Prime ∧ ValidParams frParams ∧ ValidParams fqParams ∧
    value frParams frParams.one = 1 ∧ value fqParams fqParams.one = 1 ∧
    value frParams FieldParams.zero = 0 ∧ value fqParams FieldParams.zero = 0 ∧
    orderOf (denote frParams frRootOfUnity) = 2^frS := by
  refine ⟨frParams_prime, fqParams_prime, frParams_valid, fqParams_valid, value_one frParams_valid,
    value_one fqParams_valid, value_zero frParams_valid, value_zero fqParams_valid, ?_⟩
  have : Fact (Nat.Prime 2) := ⟨Nat.prime_two⟩
  apply orderOf_eq_prime_pow (n := 27)
  · rw [frRoot_pow27]; exact neg_one_ne_one frParams_valid
  · rw [pow_succ 2 27, pow_mul, frRoot_pow27]; ring

/-- **C13 is false of the code in its last clause.** `ADDITIVE_IDENTITY` is one, not the neutral element
of addition. -/
theorem C13_additive_identity_refuted :
    (∃ a, Canonical frParams a ∧ frParams.add a frParams.additiveIdentity ≠ a) ∧
    (∃ a, Canonical fqParams a ∧ fqParams.add a fqParams.additiveIdentity ≠ a) ∧
    (∀ a, Canonical frParams a → frParams.add a FieldParams.zero = a) := by
  refine ⟨⟨FieldParams.zero, ?_, ?_⟩, ⟨FieldParams.zero, ?_, ?_⟩, ?_⟩
  · exact zero_canonical frParams_valid
  · decide +kernel
  · exact zero_canonical fqParams_valid
  · decide +kernel
  · intro a ha
    obtain ⟨h1, h2⟩ := add_denote frParams_valid ha (zero_canonical frParams_valid)
    apply denote_inj frParams_valid h1 ha
    rw [h2, denote_zero, add_zero]

end Kogarashi.Props
