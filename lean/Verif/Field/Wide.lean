import Verif.Field.WideParams
import Verif.Spec.Wide
import Verif.Limbs.B384Lemmas
import Verif.Field.Value

/-!
# The 384-bit limb operations denote modular arithmetic (lemmas)

As `Field/Denote.lean`, `Field/Square.lean` and `Field/Value.lean`, for six limbs.
-/

set_option exponentiation.threshold 1600

namespace Kogarashi.Wide

open Kogarashi.Limbs
open Kogarashi.Spec (leValue beValue)
open Kogarashi.Field (leValue_append beValue_foldl beValue_reverse bits6_value bits6_bit)

variable {P : WideParams}

theorem toBits6_value {v : L6} (h : v.Wf) : beValue 2 (B384.toBits v) = v.val := by
  unfold B384.toBits
  rw [beValue_reverse, bits6_value h]

theorem toBits6_bits (v : L6) : ∀ x ∈ B384.toBits v, x = 0 ∨ x = 1 := by
  intro x hx
  unfold B384.toBits at hx
  rw [List.mem_reverse] at hx
  have := bits6_bit hx
  omega

theorem one_lt (hP : ValidParams P) : 1 < P.m := by have := hP.p_gt_two; omega

theorem montR_eq : montR = 2^384 := by unfold montR; rfl

theorem coprime_R (hP : ValidParams P) : Nat.Coprime montR P.m := by
  rw [montR_eq]
  apply Nat.Coprime.pow_left
  rw [Nat.coprime_two_left, Nat.odd_iff]
  exact hP.p_odd

theorem R_mul_inv (hP : ValidParams P) :
    (montR : ZMod P.m) * (montR : ZMod P.m)⁻¹ = 1 :=
  ZMod.coe_mul_inv_eq_one _ (coprime_R hP)

/-- `sub w p p` is the final conditional subtraction. -/
theorem condSub {w p : L6} (hw : w.Wf) (hp : p.Wf) (h : w.val < 2 * p.val) :
    (B384.sub w p p).Wf ∧ (B384.sub w p p).val < p.val ∧
      ∀ m, p.val = m → ((B384.sub w p p).val : ZMod m) = (w.val : ZMod m) := by
  obtain ⟨h1, h2, h3⟩ := B384.sub_spec hw hp hp
  rcases Nat.lt_or_ge w.val p.val with h4 | h4
  · have := h3 h4 (by omega)
    have e : (B384.sub w p p).val = w.val := by omega
    exact ⟨h1, by omega, fun m _ => by rw [e]⟩
  · have := h2 h4
    refine ⟨h1, by omega, ?_⟩
    rintro m rfl
    rw [← this]
    simp

/-- Montgomery reduction divides by `2^384`. -/
theorem mont_denote (hP : ValidParams P) {a : L12} (ha : a.Wf) (h : a.val < P.m * 2^384) :
    Canonical P (B384.mont a P.p P.inv) ∧
      ((B384.mont a P.p P.inv).val : ZMod P.m) =
        (a.val : ZMod P.m) * (montR : ZMod P.m)⁻¹ := by
  have hpv := hP.p_val
  obtain ⟨w, m, hw, he, hlt, hm⟩ := B384.mont_spec ha hP.p_words hP.inv_eq
    (by rw [hpv]; exact hP.p_bound) (by rw [hpv]; exact h)
  obtain ⟨h1, h2, h3⟩ := condSub hw hP.p_words hlt
  rw [hm]
  refine ⟨⟨h1, by rw [← hpv]; exact h2⟩, ?_⟩
  rw [h3 _ hpv]
  have : (w.val : ZMod P.m) * (montR : ZMod P.m) = a.val := by
    rw [← Nat.cast_mul, montR_eq, he, hpv]; simp
  rw [← this, mul_assoc, R_mul_inv hP, mul_one]

theorem mul_denote' (hP : ValidParams P) {a b : L6} (ha : a.Wf) (hb : b.Wf)
    (h : a.val * b.val < P.m * 2^384) :
    Canonical P (B384.mul a b P.p P.inv) ∧
      ((B384.mul a b P.p P.inv).val : ZMod P.m) =
        (a.val : ZMod P.m) * (b.val : ZMod P.m) * (montR : ZMod P.m)⁻¹ := by
  obtain ⟨w, hw, hv, he⟩ := B384.mul_wide P.p P.inv ha hb
  rw [he]
  have := mont_denote hP hw (by rw [hv]; exact h)
  rw [hv, Nat.cast_mul] at this
  exact this

theorem mul_lt_of_right (hP : ValidParams P) {a b : L6} (ha : a.Wf) (hb : b.val < P.m) :
    a.val * b.val < P.m * 2^384 := by
  have := one_lt hP
  rw [Nat.mul_comm]
  exact Nat.mul_lt_mul'' hb ha.val_lt

theorem r_canonical (hP : ValidParams P) : Canonical P P.r :=
  ⟨hP.r_words, by rw [hP.r_eq]; exact Nat.mod_lt _ (by have := one_lt hP; omega)⟩
theorem r2_canonical (hP : ValidParams P) : Canonical P P.r2 :=
  ⟨hP.r2_words, by rw [hP.r2_eq]; exact Nat.mod_lt _ (by have := one_lt hP; omega)⟩
theorem r3_canonical (hP : ValidParams P) : Canonical P P.r3 :=
  ⟨hP.r3_words, by rw [hP.r3_eq]; exact Nat.mod_lt _ (by have := one_lt hP; omega)⟩

theorem r_cast (hP : ValidParams P) : (P.r.val : ZMod P.m) = (montR : ZMod P.m) := by
  rw [hP.r_eq, ZMod.natCast_mod, montR_eq]
theorem r2_cast (hP : ValidParams P) :
    (P.r2.val : ZMod P.m) = (montR : ZMod P.m) * (montR : ZMod P.m) := by
  rw [hP.r2_eq, ZMod.natCast_mod, ← Nat.cast_mul, montR_eq]; congr 1
theorem r3_cast (hP : ValidParams P) :
    (P.r3.val : ZMod P.m) = (montR : ZMod P.m) * (montR : ZMod P.m) *
      (montR : ZMod P.m) := by
  rw [hP.r3_eq, ZMod.natCast_mod, ← Nat.cast_mul, ← Nat.cast_mul, montR_eq]; congr 1

theorem zero_canonical (hP : ValidParams P) : Canonical P B384.zero := by
  have := one_lt hP
  refine ⟨by decide, ?_⟩
  show 0 < P.m
  omega

theorem val_eq_zero_iff {a : L6} : a.val = 0 ↔ a = B384.zero := by
  constructor
  · intro h
    cases a
    simp only [L6.val, B384.zero, L6.mk.injEq] at *
    omega
  · rintro rfl; rfl

theorem denote_zero : denote P B384.zero = 0 := by
  have : (B384.zero).val = 0 := rfl
  simp [denote, this]

theorem denote_one (hP : ValidParams P) : denote P P.r = 1 := by
  unfold denote; rw [r_cast hP, R_mul_inv hP]

/-- Two canonical elements with the same denotation are the same limb array. -/
theorem denote_inj (hP : ValidParams P) {a b : L6} (ha : Canonical P a) (hb : Canonical P b)
    (h : denote P a = denote P b) : a = b := by
  unfold denote at h
  have h2 : (a.val : ZMod P.m) = b.val := by
    have := congrArg (· * (montR : ZMod P.m)) h
    simp only [mul_assoc] at this
    rw [mul_comm ((montR : ZMod P.m)⁻¹), R_mul_inv hP] at this
    simpa using this
  apply L6.val_inj ha.1 hb.1
  have h3 := congrArg ZMod.val h2
  rw [ZMod.val_cast_of_lt ha.2, ZMod.val_cast_of_lt hb.2] at h3
  exact h3

theorem denote_eq_zero_iff (hP : ValidParams P) {a : L6} (ha : Canonical P a) :
    denote P a = 0 ↔ a = B384.zero := by
  constructor
  · intro h
    exact denote_inj hP ha (zero_canonical hP) (by rw [h, denote_zero])
  · rintro rfl; exact denote_zero

theorem add_denote (hP : ValidParams P) {a b : L6} (ha : Canonical P a) (hb : Canonical P b) :
    Canonical P (P.add a b) ∧ denote P (P.add a b) = denote P a + denote P b := by
  have hb' := hP.p_bound
  have hpv := hP.p_val
  obtain ⟨w, hw, hv, he⟩ := B384.add_spec (p := P.p) ha.1 hb.1 (by have := ha.2; have := hb.2; omega)
  unfold WideParams.add
  rw [he]
  obtain ⟨h1, h2, h3⟩ := condSub hw hP.p_words (by have := ha.2; have := hb.2; omega)
  refine ⟨⟨h1, by rw [← hpv]; exact h2⟩, ?_⟩
  unfold denote
  rw [h3 _ hpv, hv, Nat.cast_add, add_mul]

theorem double_denote (hP : ValidParams P) {a : L6} (ha : Canonical P a) :
    Canonical P (P.double a) ∧ denote P (P.double a) = denote P a + denote P a := by
  have hb' := hP.p_bound
  have hpv := hP.p_val
  obtain ⟨w, hw, hv, he⟩ := B384.double_spec (p := P.p) ha.1 (by have := ha.2; omega)
  unfold WideParams.double
  rw [he]
  obtain ⟨h1, h2, h3⟩ := condSub hw hP.p_words (by have := ha.2; omega)
  refine ⟨⟨h1, by rw [← hpv]; exact h2⟩, ?_⟩
  unfold denote
  rw [h3 _ hpv, hv, two_mul, Nat.cast_add, add_mul]

theorem sub_denote (hP : ValidParams P) {a b : L6} (ha : Canonical P a) (hb : Canonical P b) :
    Canonical P (P.sub a b) ∧ denote P (P.sub a b) = denote P a - denote P b := by
  obtain ⟨h1, h2, h3⟩ := B384.sub_spec ha.1 hb.1 hP.p_words
  have ha2 := ha.2; have hb2 := hb.2
  rw [hP.p_val] at h3
  unfold WideParams.sub
  unfold denote
  rw [← sub_mul]
  rcases Nat.lt_or_ge a.val b.val with h | h
  · have e := h3 h (by omega)
    refine ⟨⟨h1, by omega⟩, ?_⟩
    congr 1
    have := congrArg (fun n : Nat => (n : ZMod P.m)) e
    push_cast at this
    rw [ZMod.natCast_self, add_zero] at this
    rw [← this]; ring
  · have e := h2 h
    refine ⟨⟨h1, by omega⟩, ?_⟩
    congr 1
    have := congrArg (fun n : Nat => (n : ZMod P.m)) e
    push_cast at this
    rw [← this]; ring

theorem neg_denote (hP : ValidParams P) {a : L6} (ha : Canonical P a) :
    Canonical P (P.neg a) ∧ denote P (P.neg a) = - denote P a := by
  obtain ⟨h1, h2, h3⟩ := B384.neg_spec ha.1 hP.p_words (by rw [hP.p_val]; exact ha.2)
  rw [hP.p_val] at h3
  have hp := one_lt hP
  unfold WideParams.neg denote
  rw [← neg_mul]
  by_cases h : a.val = 0
  · have e := h2 h
    refine ⟨⟨h1, by omega⟩, ?_⟩
    rw [e, h]; simp
  · have e := h3 h
    refine ⟨⟨h1, by omega⟩, ?_⟩
    congr 1
    have := congrArg (fun n : Nat => (n : ZMod P.m)) e
    push_cast at this
    rw [ZMod.natCast_self] at this
    exact eq_neg_of_add_eq_zero_left this

theorem mul_denote (hP : ValidParams P) {a b : L6} (ha : Canonical P a) (hb : Canonical P b) :
    Canonical P (P.mul a b) ∧ denote P (P.mul a b) = denote P a * denote P b := by
  obtain ⟨h1, h2⟩ := mul_denote' hP ha.1 hb.1 (mul_lt_of_right hP ha.1 hb.2)
  refine ⟨h1, ?_⟩
  unfold WideParams.mul denote
  rw [h2]; ring

/-- Bringing any 256-bit integer into Montgomery form. -/
theorem toMontForm_denote (hP : ValidParams P) {v : L6} (hv : v.Wf) :
    Canonical P (P.toMontForm v) ∧ denote P (P.toMontForm v) = (v.val : ZMod P.m) := by
  obtain ⟨h1, h2⟩ := mul_denote' hP hv hP.r2_words (mul_lt_of_right hP hv (r2_canonical hP).2)
  refine ⟨h1, ?_⟩
  unfold WideParams.toMontForm B384.toMontForm denote
  rw [h2, r2_cast hP]
  have := R_mul_inv hP
  linear_combination (v.val : ZMod P.m) *
    (1 + (montR : ZMod P.m) * (montR : ZMod P.m)⁻¹) * this

/-- Leaving Montgomery form gives the canonical integer value. -/
theorem montgomeryReduce_value (hP : ValidParams P) {a : L6} (ha : Canonical P a) :
    Canonical P (P.montgomeryReduce a) ∧ (P.montgomeryReduce a).val = value P a := by
  have hw : (L12.mk a.l0 a.l1 a.l2 a.l3 a.l4 a.l5 0 0 0 0 0 0).Wf := by
    obtain ⟨h0, h1, h2, h3, h4, h5⟩ := ha.1
    exact ⟨h0, h1, h2, h3, h4, h5, by norm_num, by norm_num, by norm_num, by norm_num, by norm_num, by norm_num⟩
  have hv : (L12.mk a.l0 a.l1 a.l2 a.l3 a.l4 a.l5 0 0 0 0 0 0).val = a.val := by
    simp [L12.val, L6.val]
  have hb := ha.2
  obtain ⟨h1, h2⟩ := mont_denote hP hw (by rw [hv]; omega)
  refine ⟨h1, ?_⟩
  unfold value denote
  rw [hv] at h2
  rw [← h2]
  exact (ZMod.val_cast_of_lt h1.2).symm

/-- `from_u512` reduces modulo `p`. -/
theorem fromU512_denote (hP : ValidParams P) {l : L12} (hl : l.Wf) :
    Canonical P (B384.fromU512 l P.r2 P.r3 P.p P.inv) ∧
      denote P (B384.fromU512 l P.r2 P.r3 P.p P.inv) = (l.val : ZMod P.m) := by
  obtain ⟨k0, k1, k2, k3, k4, k5, k6, k7, k8, k9, k10, k11⟩ := hl
  have hlo : (L6.mk l.l0 l.l1 l.l2 l.l3 l.l4 l.l5).Wf := ⟨k0, k1, k2, k3, k4, k5⟩
  have hhi : (L6.mk l.l6 l.l7 l.l8 l.l9 l.l10 l.l11).Wf := ⟨k6, k7, k8, k9, k10, k11⟩
  obtain ⟨a1, a2⟩ := mul_denote' hP hlo hP.r2_words (mul_lt_of_right hP hlo (r2_canonical hP).2)
  obtain ⟨b1, b2⟩ := mul_denote' hP hhi hP.r3_words (mul_lt_of_right hP hhi (r3_canonical hP).2)
  obtain ⟨c1, c2⟩ := add_denote hP a1 b1
  refine ⟨c1, ?_⟩
  unfold B384.fromU512
  refine c2.trans ?_
  unfold denote
  rw [a2, b2, r2_cast hP, r3_cast hP]
  have e : l.val = (L6.mk l.l0 l.l1 l.l2 l.l3 l.l4 l.l5).val + montR * (L6.mk l.l6 l.l7 l.l8 l.l9 l.l10 l.l11).val := by
    rw [montR_eq]; simp only [L12.val, L6.val]; ring
  rw [e]
  push_cast
  have := R_mul_inv hP
  generalize ((L6.mk l.l0 l.l1 l.l2 l.l3 l.l4 l.l5).val : ZMod P.m) = x
  generalize ((L6.mk l.l6 l.l7 l.l8 l.l9 l.l10 l.l11).val : ZMod P.m) = y
  generalize (montR : ZMod P.m) = R at *
  linear_combination (x * (1 + R * R⁻¹) + y * R * (1 + R * R⁻¹)) * this

/-- Every integer below the modulus is the value of a canonical element. -/
theorem value_lt (hP : ValidParams P) (a : L6) : value P a < P.m := by
  have := one_lt hP
  have : NeZero P.m := ⟨by omega⟩
  exact ZMod.val_lt _

theorem value_cast (hP : ValidParams P) (a : L6) : ((value P a : Nat) : ZMod P.m) = denote P a := by
  have := one_lt hP
  have : NeZero P.m := ⟨by omega⟩
  exact ZMod.natCast_zmod_val _

theorem value_inj (hP : ValidParams P) {a b : L6} (ha : Canonical P a) (hb : Canonical P b)
    (h : value P a = value P b) : a = b := by
  apply denote_inj hP ha hb
  rw [← value_cast hP, ← value_cast hP, h]

/-- The accumulators that the square-and-multiply loop of `pow` squares, in order. -/
def squaredBy (P : WideParams) (a : L6) : List Nat → L6 → List L6
  | [], _ => []
  | bit :: bits, acc => acc :: squaredBy P a bits (B384.powStep a P.p P.inv acc bit)

/-- The square-and-multiply loop, for any accumulator that is a power of the base. -/
theorem pow_loop (hP : ValidParams P) {a : L6} (ha : Canonical P a)
    (bits : List Nat) (hb : ∀ x ∈ bits, x = 0 ∨ x = 1) (acc : L6)
    (hsq : ∀ x ∈ squaredBy P a bits acc, P.square x = P.mul x x) (hacc : Canonical P acc) (e : Nat)
    (he : denote P acc = denote P a ^ e) :
    Canonical P (bits.foldl (B384.powStep a P.p P.inv) acc) ∧
      denote P (bits.foldl (B384.powStep a P.p P.inv) acc) =
        denote P a ^ (e * 2^bits.length + beValue 2 bits) := by
  induction bits generalizing acc e with
  | nil => exact ⟨hacc, by simpa [beValue] using he⟩
  | cons bit bits ih =>
    have hs := hsq acc (by simp [squaredBy])
    have hsq' : ∀ x ∈ squaredBy P a bits (B384.powStep a P.p P.inv acc bit), P.square x = P.mul x x :=
      fun x hx => hsq x (by simp [squaredBy, hx])
    have hs' : B384.square acc P.p P.inv = P.mul acc acc := hs
    obtain ⟨m1, m2⟩ := mul_denote hP hacc hacc
    rw [he, ← pow_add] at m2
    rw [List.foldl_cons]
    have hbits : ∀ x ∈ bits, x = 0 ∨ x = 1 := fun x hx => hb x (by simp [hx])
    have hexp : beValue 2 (bit :: bits) = bit * 2^bits.length + beValue 2 bits := by
      unfold beValue; rw [List.foldl_cons, beValue_foldl]; simp [beValue]
    rw [hexp, List.length_cons]
    rcases hb bit (by simp) with rfl | rfl
    · have : B384.powStep a P.p P.inv acc 0 = P.mul acc acc := by
        unfold B384.powStep; simp [hs']
      rw [this] at hsq' ⊢
      obtain ⟨i1, i2⟩ := ih hbits _ hsq' m1 (e + e) m2
      refine ⟨i1, ?_⟩
      rw [i2]; congr 1; ring
    · have : B384.powStep a P.p P.inv acc 1 = P.mul (P.mul acc acc) a := by
        unfold B384.powStep; simp only [hs', if_true]; rfl
      rw [this] at hsq' ⊢
      obtain ⟨n1, n2⟩ := mul_denote hP m1 ha
      rw [m2, ← pow_succ] at n2
      obtain ⟨i1, i2⟩ := ih hbits _ hsq' n1 (e + e + 1) n2
      refine ⟨i1, ?_⟩
      rw [i2]; congr 1; ring

theorem pow_denote (hP : ValidParams P) {a b : L6} (ha : Canonical P a) (hb : b.Wf)
    (hsq : ∀ x ∈ squaredBy P a (B384.toBits b) P.one, P.square x = P.mul x x) :
    Canonical P (B384.pow a b P.r P.p P.inv) ∧
      denote P (B384.pow a b P.r P.p P.inv) = denote P a ^ b.val := by
  unfold B384.pow
  split
  · rename_i h
    rw [h]
    exact ⟨r_canonical hP, by rw [denote_one hP]; exact (pow_zero _).symm⟩
  · rename_i h
    split
    · rename_i h2
      refine ⟨zero_canonical hP, ?_⟩
      rw [h2, denote_zero, zero_pow]
      exact fun h3 => h (val_eq_zero_iff.1 h3)
    · obtain ⟨h1, h2⟩ := pow_loop hP ha (B384.toBits b) (toBits6_bits b) P.r hsq (r_canonical hP) 0
        (by rw [denote_one hP, pow_zero])
      refine ⟨h1, ?_⟩
      rw [h2, toBits6_value hb, Nat.zero_mul, Nat.zero_add]

theorem littleFermat_val (hP : ValidParams P) :
    (B384.littleFermat P.p).Wf ∧ (B384.littleFermat P.p).val = P.m - 2 := by
  have h2 : (L6.mk 2 0 0 0 0 0).Wf := by decide
  have h0 : (B384.zero).Wf := by decide
  obtain ⟨h1, -, h3⟩ := B384.sub_spec h0 h2 hP.p_words
  have e0 : B384.zero.val = 0 := rfl
  have e2 : (L6.mk 2 0 0 0 0 0).val = 2 := by simp [L6.val]
  have := hP.p_gt_two
  have := hP.p_val
  refine ⟨h1, ?_⟩
  have := h3 (by rw [e0, e2]; omega) (by rw [e0, e2]; omega)
  unfold B384.littleFermat
  omega

theorem value_of_denote (hP : ValidParams P) {x : L6} {n : Nat} (h : denote P x = (n : ZMod P.m)) :
    value P x = n % P.m := by
  have := one_lt hP
  have : NeZero P.m := ⟨by omega⟩
  unfold value
  rw [h, ZMod.val_natCast]

theorem value_zero (hP : ValidParams P) : value P B384.zero = 0 := by
  rw [value_of_denote hP (n := 0) (by rw [denote_zero, Nat.cast_zero])]; exact Nat.zero_mod _

theorem value_one (hP : ValidParams P) : value P P.r = 1 := by
  rw [value_of_denote hP (n := 1) (by rw [denote_one hP, Nat.cast_one])]
  exact Nat.mod_eq_of_lt (one_lt hP)

theorem denote_eq_iff_value (hP : ValidParams P) {a b : L6} : denote P a = denote P b ↔ value P a = value P b := by
  constructor
  · intro h; unfold value; rw [h]
  · intro h; rw [← value_cast hP, ← value_cast hP, h]

theorem add_value (hP : ValidParams P) {a b : L6} (ha : Canonical P a) (hb : Canonical P b) :
    value P (P.add a b) = (value P a + value P b) % P.m := by
  apply value_of_denote hP
  rw [(add_denote hP ha hb).2, Nat.cast_add, value_cast hP, value_cast hP]

theorem double_value (hP : ValidParams P) {a : L6} (ha : Canonical P a) :
    value P (P.double a) = (2 * value P a) % P.m := by
  apply value_of_denote hP
  rw [(double_denote hP ha).2, Nat.cast_mul, value_cast hP]; push_cast; ring

theorem cast_m_sub (hP : ValidParams P) (b : L6) :
    (((P.m - value P b : Nat)) : ZMod P.m) = - denote P b := by
  rw [Nat.cast_sub (value_lt hP b).le, ZMod.natCast_self, value_cast hP, zero_sub]

theorem sub_value (hP : ValidParams P) {a b : L6} (ha : Canonical P a) (hb : Canonical P b) :
    value P (P.sub a b) = (value P a + (P.m - value P b)) % P.m := by
  apply value_of_denote hP
  rw [(sub_denote hP ha hb).2, Nat.cast_add, value_cast hP, cast_m_sub hP]; ring

theorem neg_value (hP : ValidParams P) {a : L6} (ha : Canonical P a) :
    value P (P.neg a) = (P.m - value P a) % P.m := by
  apply value_of_denote hP
  rw [(neg_denote hP ha).2, cast_m_sub hP]

theorem mul_value (hP : ValidParams P) {a b : L6} (ha : Canonical P a) (hb : Canonical P b) :
    value P (P.mul a b) = (value P a * value P b) % P.m := by
  apply value_of_denote hP
  rw [(mul_denote hP ha hb).2, Nat.cast_mul, value_cast hP, value_cast hP]

theorem toMontForm_value (hP : ValidParams P) {v : L6} (hv : v.Wf) :
    value P (P.toMontForm v) = v.val % P.m :=
  value_of_denote hP (toMontForm_denote hP hv).2

theorem pow_value (hP : ValidParams P) {a b : L6} (ha : Canonical P a) (hb : b.Wf)
    (hsq : ∀ x ∈ squaredBy P a (B384.toBits b) P.one, P.square x = P.mul x x) :
    value P (B384.pow a b P.r P.p P.inv) = (value P a ^ b.val) % P.m := by
  apply value_of_denote hP
  rw [(pow_denote hP ha hb hsq).2, Nat.cast_pow, value_cast hP]

theorem invert_value (hP : ValidParams P) (hp : P.m.Prime) {a : L6} (ha : Canonical P a)
    (h0 : a ≠ B384.zero)
    (hsq : ∀ x ∈ squaredBy P a (B384.toBits (B384.littleFermat P.p)) P.one, P.square x = P.mul x x) :
    ∃ b, P.invert a = some b ∧ Canonical P b ∧ P.mul a b = P.one := by
  obtain ⟨hw, hv⟩ := littleFermat_val hP
  obtain ⟨h1, h2⟩ := pow_denote hP ha hw hsq
  have : Fact P.m.Prime := ⟨hp⟩
  refine ⟨_, by unfold WideParams.invert B384.invert; rw [if_neg h0], h1, ?_⟩
  apply denote_inj hP (mul_denote hP ha h1).1 (r_canonical hP)
  rw [(mul_denote hP ha h1).2, h2, hv, denote_one hP, ← pow_succ']
  have hm := hP.p_gt_two
  have e : P.m - 2 + 1 = P.m - 1 := by omega
  rw [e]
  exact ZMod.pow_card_sub_one_eq_one (fun h => h0 ((denote_eq_zero_iff hP ha).1 h))

end Kogarashi.Wide
