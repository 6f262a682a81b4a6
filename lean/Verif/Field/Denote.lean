import Verif.Spec.Field
import Verif.Limbs.B256Lemmas

/-!
# Limb operations denote modular arithmetic (lemmas)
-/

set_option exponentiation.threshold 1600

namespace Kogarashi.Field

open Kogarashi.Limbs Kogarashi.Spec

variable {P : FieldParams}

theorem one_lt (hP : ValidParams P) : 1 < P.m := by have := hP.p_gt_two; omega

theorem montR_eq : montR = 2^256 := by unfold montR; rfl

theorem coprime_R (hP : ValidParams P) : Nat.Coprime montR P.m := by
  rw [montR_eq]
  apply Nat.Coprime.pow_left
  rw [Nat.coprime_two_left, Nat.odd_iff]
  exact hP.p_odd

theorem R_mul_inv (hP : ValidParams P) :
    (montR : ZMod P.m) * (montR : ZMod P.m)⁻¹ = 1 :=
  ZMod.coe_mul_inv_eq_one _ (coprime_R hP)

/-- `sub w p p` is the final conditional subtraction. -/
theorem condSub {w p : L4} (hw : w.Wf) (hp : p.Wf) (h : w.val < 2 * p.val) :
    (B256.sub w p p).Wf ∧ (B256.sub w p p).val < p.val ∧
      ∀ m, p.val = m → ((B256.sub w p p).val : ZMod m) = (w.val : ZMod m) := by
  obtain ⟨h1, h2, h3⟩ := B256.sub_spec hw hp hp
  rcases Nat.lt_or_ge w.val p.val with h4 | h4
  · have := h3 h4 (by omega)
    have e : (B256.sub w p p).val = w.val := by omega
    exact ⟨h1, by omega, fun m _ => by rw [e]⟩
  · have := h2 h4
    refine ⟨h1, by omega, ?_⟩
    rintro m rfl
    rw [← this]
    simp

/-- Montgomery reduction divides by `2^256`. -/
theorem mont_denote (hP : ValidParams P) {a : L8} (ha : a.Wf) (h : a.val < P.m * 2^256) :
    Canonical P (B256.mont a P.p P.inv) ∧
      ((B256.mont a P.p P.inv).val : ZMod P.m) =
        (a.val : ZMod P.m) * (montR : ZMod P.m)⁻¹ := by
  have hpv := hP.p_val
  obtain ⟨w, m, hw, he, hlt, hm⟩ := B256.mont_spec ha hP.p_words hP.inv_eq
    (by rw [hpv]; exact hP.p_bound) (by rw [hpv]; exact h)
  obtain ⟨h1, h2, h3⟩ := condSub hw hP.p_words hlt
  rw [hm]
  refine ⟨⟨h1, by rw [← hpv]; exact h2⟩, ?_⟩
  rw [h3 _ hpv]
  have : (w.val : ZMod P.m) * (montR : ZMod P.m) = a.val := by
    rw [← Nat.cast_mul, montR_eq, he, hpv]; simp
  rw [← this, mul_assoc, R_mul_inv hP, mul_one]

theorem mul_denote' (hP : ValidParams P) {a b : L4} (ha : a.Wf) (hb : b.Wf)
    (h : a.val * b.val < P.m * 2^256) :
    Canonical P (B256.mul a b P.p P.inv) ∧
      ((B256.mul a b P.p P.inv).val : ZMod P.m) =
        (a.val : ZMod P.m) * (b.val : ZMod P.m) * (montR : ZMod P.m)⁻¹ := by
  obtain ⟨w, hw, hv, he⟩ := B256.mul_wide P.p P.inv ha hb
  rw [he]
  have := mont_denote hP hw (by rw [hv]; exact h)
  rw [hv, Nat.cast_mul] at this
  exact this

theorem mul_lt_of_right (hP : ValidParams P) {a b : L4} (ha : a.Wf) (hb : b.val < P.m) :
    a.val * b.val < P.m * 2^256 := by
  have := one_lt hP
  rw [Nat.mul_comm]
  exact Nat.mul_lt_mul'' hb ha.val_lt

theorem r_canonical (hP : ValidParams P) : Canonical P P.r :=
  ⟨hP.r_words, by rw [hP.r_eq]; exact Nat.mod_lt _ (by have := one_lt hP; omega)⟩
theorem r2_canonical (hP : ValidParams P) : Canonical P P.r2 :=
  ⟨hP.r2_words, by rw [hP.r2_eq]; exact Nat.mod_lt _ (by have := one_lt hP; omega)⟩
theorem r3_canonical (hP : ValidParams P) : Canonical P P.r3 :=
  ⟨hP.r3_words, by rw [hP.r3_eq]; exact Nat.mod_lt _ (by have := one_lt hP; omega)⟩

theorem r_cast (hP : ValidParams P) : (P.r.val : ZMod P.m) = (montR : ZMod P.m) := by
  rw [hP.r_eq, ZMod.natCast_mod, montR_eq]
theorem r2_cast (hP : ValidParams P) :
    (P.r2.val : ZMod P.m) = (montR : ZMod P.m) * (montR : ZMod P.m) := by
  rw [hP.r2_eq, ZMod.natCast_mod, ← Nat.cast_mul, montR_eq]; congr 1
theorem r3_cast (hP : ValidParams P) :
    (P.r3.val : ZMod P.m) = (montR : ZMod P.m) * (montR : ZMod P.m) *
      (montR : ZMod P.m) := by
  rw [hP.r3_eq, ZMod.natCast_mod, ← Nat.cast_mul, ← Nat.cast_mul, montR_eq]; congr 1

theorem zero_canonical (hP : ValidParams P) : Canonical P B256.zero := by
  have := one_lt hP
  refine ⟨by decide, ?_⟩
  show 0 < P.m
  omega

theorem val_eq_zero_iff {a : L4} : a.val = 0 ↔ a = B256.zero := by
  constructor
  · intro h
    cases a
    simp only [L4.val, B256.zero, L4.mk.injEq] at *
    omega
  · rintro rfl; rfl

theorem denote_zero : denote P B256.zero = 0 := by
  have : (B256.zero).val = 0 := rfl
  simp [denote, this]

theorem denote_one (hP : ValidParams P) : denote P P.r = 1 := by
  unfold denote; rw [r_cast hP, R_mul_inv hP]

/-- Two canonical elements with the same denotation are the same limb array. -/
theorem denote_inj (hP : ValidParams P) {a b : L4} (ha : Canonical P a) (hb : Canonical P b)
    (h : denote P a = denote P b) : a = b := by
  unfold denote at h
  have h2 : (a.val : ZMod P.m) = b.val := by
    have := congrArg (· * (montR : ZMod P.m)) h
    simp only [mul_assoc] at this
    rw [mul_comm ((montR : ZMod P.m)⁻¹), R_mul_inv hP] at this
    simpa using this
  apply L4.val_inj ha.1 hb.1
  have h3 := congrArg ZMod.val h2
  rw [ZMod.val_cast_of_lt ha.2, ZMod.val_cast_of_lt hb.2] at h3
  exact h3

theorem denote_eq_zero_iff (hP : ValidParams P) {a : L4} (ha : Canonical P a) :
    denote P a = 0 ↔ a = B256.zero := by
  constructor
  · intro h
    exact denote_inj hP ha (zero_canonical hP) (by rw [h, denote_zero])
  · rintro rfl; exact denote_zero

theorem add_denote (hP : ValidParams P) {a b : L4} (ha : Canonical P a) (hb : Canonical P b) :
    Canonical P (P.add a b) ∧ denote P (P.add a b) = denote P a + denote P b := by
  have hb' := hP.p_bound
  have hpv := hP.p_val
  obtain ⟨w, hw, hv, he⟩ := B256.add_spec (p := P.p) ha.1 hb.1 (by have := ha.2; have := hb.2; omega)
  unfold FieldParams.add
  rw [he]
  obtain ⟨h1, h2, h3⟩ := condSub hw hP.p_words (by have := ha.2; have := hb.2; omega)
  refine ⟨⟨h1, by rw [← hpv]; exact h2⟩, ?_⟩
  unfold denote
  rw [h3 _ hpv, hv, Nat.cast_add, add_mul]

theorem double_denote (hP : ValidParams P) {a : L4} (ha : Canonical P a) :
    Canonical P (P.double a) ∧ denote P (P.double a) = denote P a + denote P a := by
  have hb' := hP.p_bound
  have hpv := hP.p_val
  obtain ⟨w, hw, hv, he⟩ := B256.double_spec (p := P.p) ha.1 (by have := ha.2; omega)
  unfold FieldParams.double
  rw [he]
  obtain ⟨h1, h2, h3⟩ := condSub hw hP.p_words (by have := ha.2; omega)
  refine ⟨⟨h1, by rw [← hpv]; exact h2⟩, ?_⟩
  unfold denote
  rw [h3 _ hpv, hv, two_mul, Nat.cast_add, add_mul]

theorem sub_denote (hP : ValidParams P) {a b : L4} (ha : Canonical P a) (hb : Canonical P b) :
    Canonical P (P.sub a b) ∧ denote P (P.sub a b) = denote P a - denote P b := by
  obtain ⟨h1, h2, h3⟩ := B256.sub_spec ha.1 hb.1 hP.p_words
  have ha2 := ha.2; have hb2 := hb.2
  rw [hP.p_val] at h3
  unfold FieldParams.sub
  unfold denote
  rw [← sub_mul]
  rcases Nat.lt_or_ge a.val b.val with h | h
  · have e := h3 h (by omega)
    refine ⟨⟨h1, by omega⟩, ?_⟩
    congr 1
    have := congrArg (fun n : Nat => (n : ZMod P.m)) e
    push_cast at this
    rw [ZMod.natCast_self, add_zero] at this
    rw [← this]; ring
  · have e := h2 h
    refine ⟨⟨h1, by omega⟩, ?_⟩
    congr 1
    have := congrArg (fun n : Nat => (n : ZMod P.m)) e
    push_cast at this
    rw [← this]; ring

theorem neg_denote (hP : ValidParams P) {a : L4} (ha : Canonical P a) :
    Canonical P (P.neg a) ∧ denote P (P.neg a) = - denote P a := by
  obtain ⟨h1, h2, h3⟩ := B256.neg_spec ha.1 hP.p_words (by rw [hP.p_val]; exact ha.2)
  rw [hP.p_val] at h3
  have hp := one_lt hP
  unfold FieldParams.neg denote
  rw [← neg_mul]
  by_cases h : a.val = 0
  · have e := h2 h
    refine ⟨⟨h1, by omega⟩, ?_⟩
    rw [e, h]; simp
  · have e := h3 h
    refine ⟨⟨h1, by omega⟩, ?_⟩
    congr 1
    have := congrArg (fun n : Nat => (n : ZMod P.m)) e
    push_cast at this
    rw [ZMod.natCast_self] at this
    exact eq_neg_of_add_eq_zero_left this

theorem mul_denote (hP : ValidParams P) {a b : L4} (ha : Canonical P a) (hb : Canonical P b) :
    Canonical P (P.mul a b) ∧ denote P (P.mul a b) = denote P a * denote P b := by
  obtain ⟨h1, h2⟩ := mul_denote' hP ha.1 hb.1 (mul_lt_of_right hP ha.1 hb.2)
  refine ⟨h1, ?_⟩
  unfold FieldParams.mul denote
  rw [h2]; ring

/-- Bringing any 256-bit integer into Montgomery form. -/
theorem toMontForm_denote (hP : ValidParams P) {v : L4} (hv : v.Wf) :
    Canonical P (P.toMontForm v) ∧ denote P (P.toMontForm v) = (v.val : ZMod P.m) := by
  obtain ⟨h1, h2⟩ := mul_denote' hP hv hP.r2_words (mul_lt_of_right hP hv (r2_canonical hP).2)
  refine ⟨h1, ?_⟩
  unfold FieldParams.toMontForm B256.toMontForm denote
  rw [h2, r2_cast hP]
  have := R_mul_inv hP
  linear_combination (v.val : ZMod P.m) *
    (1 + (montR : ZMod P.m) * (montR : ZMod P.m)⁻¹) * this

/-- Leaving Montgomery form gives the canonical integer value. -/
theorem montgomeryReduce_value (hP : ValidParams P) {a : L4} (ha : Canonical P a) :
    Canonical P (P.montgomeryReduce a) ∧ (P.montgomeryReduce a).val = value P a := by
  have hw : (L8.mk a.l0 a.l1 a.l2 a.l3 0 0 0 0).Wf := by
    obtain ⟨h0, h1, h2, h3⟩ := ha.1
    exact ⟨h0, h1, h2, h3, by norm_num, by norm_num, by norm_num, by norm_num⟩
  have hv : (L8.mk a.l0 a.l1 a.l2 a.l3 0 0 0 0).val = a.val := by
    simp [L8.val, L4.val]
  have hb := ha.2
  obtain ⟨h1, h2⟩ := mont_denote hP hw (by rw [hv]; omega)
  refine ⟨h1, ?_⟩
  unfold value denote
  rw [hv] at h2
  rw [← h2]
  exact (ZMod.val_cast_of_lt h1.2).symm

/-- `from_u512` reduces modulo `p`. -/
theorem fromU512_denote (hP : ValidParams P) {l : L8} (hl : l.Wf) :
    Canonical P (B256.fromU512 l P.r2 P.r3 P.p P.inv) ∧
      denote P (B256.fromU512 l P.r2 P.r3 P.p P.inv) = (l.val : ZMod P.m) := by
  obtain ⟨k0, k1, k2, k3, k4, k5, k6, k7⟩ := hl
  have hlo : (L4.mk l.l0 l.l1 l.l2 l.l3).Wf := ⟨k0, k1, k2, k3⟩
  have hhi : (L4.mk l.l4 l.l5 l.l6 l.l7).Wf := ⟨k4, k5, k6, k7⟩
  obtain ⟨a1, a2⟩ := mul_denote' hP hlo hP.r2_words (mul_lt_of_right hP hlo (r2_canonical hP).2)
  obtain ⟨b1, b2⟩ := mul_denote' hP hhi hP.r3_words (mul_lt_of_right hP hhi (r3_canonical hP).2)
  obtain ⟨c1, c2⟩ := add_denote hP a1 b1
  refine ⟨c1, ?_⟩
  unfold B256.fromU512
  refine c2.trans ?_
  unfold denote
  rw [a2, b2, r2_cast hP, r3_cast hP]
  have e : l.val = (L4.mk l.l0 l.l1 l.l2 l.l3).val + montR * (L4.mk l.l4 l.l5 l.l6 l.l7).val := by
    rw [montR_eq]; simp only [L8.val, L4.val]; ring
  rw [e]
  push_cast
  have := R_mul_inv hP
  generalize ((L4.mk l.l0 l.l1 l.l2 l.l3).val : ZMod P.m) = x
  generalize ((L4.mk l.l4 l.l5 l.l6 l.l7).val : ZMod P.m) = y
  generalize (montR : ZMod P.m) = R at *
  linear_combination (x * (1 + R * R⁻¹) + y * R * (1 + R * R⁻¹)) * this

/-- Every integer below the modulus is the value of a canonical element. -/
theorem value_lt (hP : ValidParams P) (a : L4) : value P a < P.m := by
  have := one_lt hP
  have : NeZero P.m := ⟨by omega⟩
  exact ZMod.val_lt _

theorem value_cast (hP : ValidParams P) (a : L4) : ((value P a : Nat) : ZMod P.m) = denote P a := by
  have := one_lt hP
  have : NeZero P.m := ⟨by omega⟩
  exact ZMod.natCast_zmod_val _

theorem value_inj (hP : ValidParams P) {a b : L4} (ha : Canonical P a) (hb : Canonical P b)
    (h : value P a = value P b) : a = b := by
  apply denote_inj hP ha hb
  rw [← value_cast hP, ← value_cast hP, h]

theorem frParams_valid : ValidParams frParams := by
  constructor <;> decide +kernel

theorem fqParams_valid : ValidParams fqParams := by
  constructor <;> decide +kernel

end Kogarashi.Field
