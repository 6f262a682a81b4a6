import Verif.Field.Wide
import Verif.Field.Prime
import Verif.Spec.Digits

/-!
# Property C95: the 384-bit back end

The functions of `zkstd/src/arithmetic/limbs/bits_384` with constants of an odd modulus that leaves one bit free
(`ValidParams`, `Spec/Wide.lean`); `value` is the integer an array stands for.
-/

set_option exponentiation.threshold 1600

namespace Kogarashi.Props

open Kogarashi.Limbs Kogarashi.Wide
open Kogarashi.Spec (beValue)

variable {P : WideParams}

/-- **C95.** `add`, `sub`, `neg`, `double` and `mul` of canonical arrays are canonical and compute modulo the modulus. -/
theorem C95_ring (hP : Wide.ValidParams P) {a b : L6} (ha : Wide.Canonical P a) (hb : Wide.Canonical P b) :
    (Wide.Canonical P (P.add a b) ∧ Wide.value P (P.add a b) = (Wide.value P a + Wide.value P b) % P.m) ∧
    (Wide.Canonical P (P.sub a b) ∧ Wide.value P (P.sub a b) = (Wide.value P a + (P.m - Wide.value P b)) % P.m) ∧
    (Wide.Canonical P (P.neg a) ∧ Wide.value P (P.neg a) = (P.m - Wide.value P a) % P.m) ∧
    (Wide.Canonical P (P.double a) ∧ Wide.value P (P.double a) = (2 * Wide.value P a) % P.m) ∧
    Wide.Canonical P (P.mul a b) ∧ Wide.value P (P.mul a b) = (Wide.value P a * Wide.value P b) % P.m :=
  ⟨⟨(add_denote hP ha hb).1, add_value hP ha hb⟩, ⟨(sub_denote hP ha hb).1, sub_value hP ha hb⟩,
    ⟨(neg_denote hP ha).1, neg_value hP ha⟩, ⟨(double_denote hP ha).1, double_value hP ha⟩, (mul_denote hP ha hb).1, mul_value hP ha hb⟩

/-- **C95.** Equal values, equal arrays; every integer below the modulus is the value of a canonical array, the one
`to_mont_form` returns. -/
theorem C95_unique (hP : Wide.ValidParams P) : (∀ {a b : L6}, Wide.Canonical P a → Wide.Canonical P b →
      (Wide.value P a = Wide.value P b ↔ a = b)) ∧
    ∀ {v : L6}, v.Wf → Wide.Canonical P (P.toMontForm v) ∧ Wide.value P (P.toMontForm v) = v.val % P.m ∧
      (P.montgomeryReduce (P.toMontForm v)).val = v.val % P.m :=
  ⟨fun ha hb => ⟨value_inj hP ha hb, fun h => by rw [h]⟩, fun hv => ⟨(toMontForm_denote hP hv).1, toMontForm_value hP hv, by
    rw [(montgomeryReduce_value hP (toMontForm_denote hP hv).1).2, toMontForm_value hP hv]⟩⟩

/-- **C95.** `from_u64`, `one`, `from_u512` (of twelve words) and `random_limbs` reduce the integer they are given. -/
theorem C95_convert (hP : Wide.ValidParams P) :
    (∀ n < 2 ^ 64, Wide.Canonical P (B384.fromU64 n P.r2 P.p P.inv) ∧ Wide.value P (B384.fromU64 n P.r2 P.p P.inv) = n % P.m) ∧
    B384.one P.r2 P.p P.inv = P.r ∧ Wide.value P P.r = 1 ∧
    (∀ l : L12, l.Wf → Wide.Canonical P (B384.fromU512 l P.r2 P.r3 P.p P.inv) ∧
      Wide.value P (B384.fromU512 l P.r2 P.r3 P.p P.inv) = l.val % P.m) ∧
    ∀ rand : Nat → Nat, (∀ i, rand i < 2 ^ 64) → Wide.Canonical P (B384.randomLimbs rand P.r2 P.r3 P.p P.inv) ∧
      Wide.value P (B384.randomLimbs rand P.r2 P.r3 P.p P.inv) = (∑ i ∈ Finset.range 12, rand i * 2 ^ (64 * i)) % P.m := by
  have k (l : L12) (hl : l.Wf) : Wide.Canonical P (B384.fromU512 l P.r2 P.r3 P.p P.inv) ∧
      Wide.value P (B384.fromU512 l P.r2 P.r3 P.p P.inv) = l.val % P.m :=
    ⟨(fromU512_denote hP hl).1, value_of_denote hP (fromU512_denote hP hl).2⟩
  have f (n : Nat) (hn : n < 2 ^ 64) : Wide.Canonical P (B384.fromU64 n P.r2 P.p P.inv) ∧
      Wide.value P (B384.fromU64 n P.r2 P.p P.inv) = n % P.m := by
    have hw : (L6.mk n 0 0 0 0 0).Wf := ⟨hn, by norm_num, by norm_num, by norm_num, by norm_num, by norm_num⟩
    have e : (L6.mk n 0 0 0 0 0).val = n := by simp [L6.val]
    refine ⟨(toMontForm_denote hP hw).1, ?_⟩
    have := toMontForm_value hP hw
    rw [e] at this
    exact this
  refine ⟨f, ?_, Wide.value_one hP, k, fun rand hr => ?_⟩
  · have h1 := f 1 (by norm_num)
    refine value_inj hP h1.1 (r_canonical hP) ?_
    rw [Wide.value_one hP]
    exact h1.2.trans (Nat.mod_eq_of_lt (one_lt hP))
  · obtain ⟨h1, h2⟩ := k ⟨rand 0, rand 1, rand 2, rand 3, rand 4, rand 5, rand 6, rand 7, rand 8, rand 9, rand 10, rand 11⟩
      ⟨hr _, hr _, hr _, hr _, hr _, hr _, hr _, hr _, hr _, hr _, hr _, hr _⟩
    refine ⟨h1, h2.trans ?_⟩
    congr 1
    simp [L12.val, Finset.sum_range_succ]

/-- **C95.** `to_bits` gives the 384 binary digits of the array, most significant first. -/
theorem C95_bits {v : L6} (hv : v.Wf) :
    (B384.toBits v).length = 384 ∧ (∀ x ∈ B384.toBits v, x = 0 ∨ x = 1) ∧ beValue 2 (B384.toBits v) = v.val :=
  ⟨by simp [B384.toBits, Kogarashi.Field.limbBits_length], toBits6_bits v, toBits6_value hv⟩

/-- **C95.** `invert` returns `None` exactly for zero. -/
theorem C95_invert_none (a : L6) : P.invert a = none ↔ a = B384.zero := by
  unfold WideParams.invert B384.invert
  constructor
  · intro h
    by_contra h0
    rw [if_neg h0] at h
    cases h
  · rintro rfl; rfl

/-- The 384-bit `square` loses a carry. It adds the products `aᵢaⱼ`, `i < j`, in three passes and cuts the last carry of
the second pass (out of column 9) and of the third (out of column 7), counted here on the exact integers. -/
def WideSquareLosesCarry (a : L6) : Prop :=
  (B384.offFirst a + B384.offSecond a) / 2^640 ≠ B384.offFirst a / 2^640 ∨
  (B384.offFirst a + B384.offSecond a + B384.offThird a) / 2^512 ≠ (B384.offFirst a + B384.offSecond a) / 2^512

/-- **C03, exact extent (384-bit).** For every odd modulus, `square` equals `mul` precisely for the canonical elements on
which no carry is lost. Missing for the full property: the code is wrong on the others. -/
theorem C03_square384_exact_partial (hP : Wide.ValidParams P) {a : L6} (ha : Wide.Canonical P a) :
    P.square a = P.mul a a ↔ ¬ WideSquareLosesCarry a := by
  obtain ⟨w, k9, k7, hw, hv, he, b9, b7, d9, d7⟩ := B384.square_wide P.p P.inv ha.1
  obtain ⟨w', hw', hv', he'⟩ := B384.mul_wide P.p P.inv ha.1 ha.1
  have hlt : a.val * a.val < P.m * 2^384 := mul_lt_of_right hP ha.1 ha.2
  have lost : WideSquareLosesCarry a ↔ ¬ (k9 = 0 ∧ k7 = 0) := by
    unfold WideSquareLosesCarry
    rw [d9, d7]
    omega
  rw [lost, not_not]
  have e1 : P.square a = B384.mont w P.p P.inv := he
  have e2 : P.mul a a = B384.mont w' P.p P.inv := he'
  rw [e1, e2]
  constructor
  · intro h
    have m1 := (mont_denote hP hw (lt_of_le_of_lt (by omega) hlt)).2
    have m2 := (mont_denote hP hw' (by rw [hv']; exact hlt)).2
    rw [h, m2] at m1
    have m3 : (w'.val : ZMod P.m) = w.val := by
      have := congrArg (· * (montR : ZMod P.m)) m1
      simp only [mul_assoc] at this
      rw [mul_comm ((montR : ZMod P.m)⁻¹), R_mul_inv hP] at this
      simpa using this
    rw [hv', ← hv, Nat.cast_add, add_eq_left, ZMod.natCast_eq_zero_iff] at m3
    have fac : 2^641 * k9 + 2^513 * k7 = 2^513 * (2^128 * k9 + k7) := by ring
    rw [fac] at m3 hv
    have cop : Nat.Coprime P.m (2^513) := by
      apply Nat.Coprime.pow_right
      rw [Nat.coprime_two_right, Nat.odd_iff]
      exact hP.p_odd
    have dv := cop.dvd_of_dvd_mul_left m3
    by_contra hk
    have pos : 0 < 2^128 * k9 + k7 := by omega
    have le := Nat.le_of_dvd pos dv
    have sq : a.val * a.val < P.m * P.m := Nat.mul_lt_mul'' ha.2 ha.2
    have up : P.m * P.m ≤ (2^128 + 1) * (2^128 + 1) := Nat.mul_le_mul (by omega) (by omega)
    generalize a.val * a.val = X at *
    generalize P.m * P.m = Y at *
    omega
  · rintro ⟨rfl, rfl⟩
    have e0 : w.val = w'.val := by omega
    rw [L12.val_inj hw hw' e0]

/-- **C95, partial.** `pow` computes the power whenever none of the elements it squares (`squaredBy`, the successive
accumulators) loses a carry. -/
theorem C95_pow_partial (hP : Wide.ValidParams P) {a e : L6} (ha : Wide.Canonical P a) (he : e.Wf)
    (hsq : ∀ x ∈ Wide.squaredBy P a (B384.toBits e) P.one, P.square x = P.mul x x) :
    Wide.Canonical P (B384.pow a e P.r P.p P.inv) ∧ Wide.value P (B384.pow a e P.r P.p P.inv) = (Wide.value P a ^ e.val) % P.m :=
  ⟨(pow_denote hP ha he hsq).1, pow_value hP ha he hsq⟩

/-- **C95, partial.** `invert` returns the inverse of a non-zero element whenever none of the elements it squares loses a
carry. -/
theorem C95_invert_partial (hP : Wide.ValidParams P) (hp : P.m.Prime) {a : L6} (ha : Wide.Canonical P a) (h0 : a ≠ B384.zero)
    (hsq : ∀ x ∈ Wide.squaredBy P a (B384.toBits (B384.littleFermat P.p)) P.one, P.square x = P.mul x x) :
    ∃ b, P.invert a = some b ∧ Wide.Canonical P b ∧ P.mul a b = P.one :=
  invert_value hP hp ha h0 hsq

/-- An element whose squaring loses a carry, and its inverse in BLS12-381. -/
def badWide : L6 := ⟨0, 0, 0, 2^63 + 1, 2^64 - 1, 1⟩
/-- The inverse, as limbs. -/
def badWideInv : L6 := ⟨0xa75ab61d91b66da0, 0x5d5b6ba730480bb9, 0xfbea133e9eeaeb38, 0xe1db31e092edcdf6, 0xcb8a95b7ebfcf2a9, 0x069325a921f88726⟩

theorem blsParams_valid : Wide.ValidParams blsParams := by constructor <;> decide +kernel

/-- Both sides of the characterisation occur: a carry is lost on `badWide`, none on the Montgomery form of one. -/
example : WideSquareLosesCarry badWide ∧ blsParams.square badWide ≠ blsParams.mul badWide badWide ∧
    ¬ WideSquareLosesCarry blsParams.r ∧ blsParams.square blsParams.r = blsParams.mul blsParams.r blsParams.r := by
  have h1 : WideSquareLosesCarry badWide := by unfold WideSquareLosesCarry; decide +kernel
  have h2 : ¬ WideSquareLosesCarry blsParams.r := by unfold WideSquareLosesCarry; decide +kernel
  exact ⟨h1, fun h => (C03_square384_exact_partial blsParams_valid (by unfold Wide.Canonical; decide +kernel)).mp h h1, h2,
    (C03_square384_exact_partial blsParams_valid (r_canonical blsParams_valid)).mpr h2⟩

/-- **C95 is false of the code.** With the constants of BLS12-381 there is a canonical, invertible array for which `pow(2)` is
not the square and `invert` returns something that is not the inverse. -/
theorem C95_invert_refuted : ∃ a c b : L6, Wide.Canonical blsParams a ∧ Wide.Canonical blsParams c ∧ blsParams.mul a c = blsParams.one ∧
    blsParams.invert a = some b ∧ blsParams.mul a b ≠ blsParams.one ∧
    B384.pow a ⟨2, 0, 0, 0, 0, 0⟩ blsParams.r blsParams.p blsParams.inv ≠ blsParams.mul a a := by
  refine ⟨badWide, badWideInv, (blsParams.invert badWide).getD B384.zero, ?_, ?_, ?_, ?_, ?_, ?_⟩
  all_goals first | (unfold Wide.Canonical; decide +kernel) | decide +kernel

/-- The field of the other curve, whose modulus is proved prime, in six limbs. -/
def frWide : WideParams where
  m := Kogarashi.Field.frParams.m
  p := ⟨0x43e1f593f0000001, 0x2833e84879b97091, 0xb85045b68181585d, 0x30644e72e131a029, 0x0000000000000000, 0x0000000000000000⟩
  inv := 0xc2e1f593efffffff
  r := ⟨0xb075da81ef8cfeb9, 0xa7f12acca5b6cd8c, 0x32c475047957bf7b, 0x03d581d748ffa25e, 0x0000000000000000, 0x0000000000000000⟩
  r2 := ⟨0x5e94d8e1b4bf0040, 0x2a489cbe1cfbb6b8, 0x893cc664a19fcfed, 0x0cf8594b7fcc657c, 0x0000000000000000, 0x0000000000000000⟩
  r3 := ⟨0x9548a30abe0d8c56, 0x2a2557155f21c0c0, 0x21c572ae47baa586, 0x294ddbcbb52eb9a4, 0x0000000000000000, 0x0000000000000000⟩

/-- C95, non-vacuity: the constants of BLS12-381 are valid, a run of `pow` and one of `invert`, over a modulus known to be prime,
lose no carry. -/
example : Wide.ValidParams blsParams ∧ Wide.ValidParams frWide ∧ frWide.m.Prime ∧ Wide.Canonical frWide ⟨7, 1, 2, 3, 0, 0⟩ ∧
    (∀ x ∈ Wide.squaredBy blsParams ⟨7, 1, 2, 3, 0, 0⟩ (B384.toBits ⟨13, 0, 0, 0, 0, 0⟩) blsParams.one,
      blsParams.square x = blsParams.mul x x) ∧
    ∀ x ∈ Wide.squaredBy frWide ⟨7, 1, 2, 3, 0, 0⟩ (B384.toBits (B384.littleFermat frWide.p)) frWide.one,
      frWide.square x = frWide.mul x x := by
  refine ⟨blsParams_valid, by constructor <;> decide +kernel, Kogarashi.Field.frParams_prime, ?_, by decide +kernel, by decide +kernel⟩
  unfold Wide.Canonical
  decide +kernel

end Kogarashi.Props
