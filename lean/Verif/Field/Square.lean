import Mathlib.FieldTheory.Finite.Basic
import Verif.Field.Digits

/-!
# Squaring, exponentiation and inversion (lemmas)
-/

set_option exponentiation.threshold 1600

namespace Kogarashi.Field

open Kogarashi.Limbs Kogarashi.Spec

variable {P : FieldParams}

/-- The off-diagonal part of the square, `Σ_{i<j} aᵢ aⱼ 2^(64(i+j))`. -/
def offDiag (a : L4) : Nat :=
  a.l0 * a.l1 * 2^64 + a.l0 * a.l2 * 2^128 + (a.l0 * a.l3 + a.l1 * a.l2) * 2^192 +
    a.l1 * a.l3 * 2^256 + a.l2 * a.l3 * 2^320

/-- The off-diagonal part without the product `a₁ a₂`, which the code adds in last. -/
def offDiagEarly (a : L4) : Nat :=
  a.l0 * a.l1 * 2^64 + a.l0 * a.l2 * 2^128 + a.l0 * a.l3 * 2^192 +
    a.l1 * a.l3 * 2^256 + a.l2 * a.l3 * 2^320

/-- The weight `2^385` of a lost carry (sealed so that nothing unfolds it). -/
@[irreducible] def lostWeight : Nat := 2^385

theorem lostWeight_eq : lostWeight = 2^385 := by unfold lostWeight; rfl

theorem square_denote (hP : ValidParams P) {a : L4} (ha : Canonical P a) :
    ∃ k : Nat, k ≤ 1 ∧ offDiag a / 2^384 = offDiagEarly a / 2^384 + k ∧ Canonical P (P.square a) ∧
      denote P (P.square a) + ((lostWeight * k : Nat) : ZMod P.m) * (montR : ZMod P.m)⁻¹ * (montR : ZMod P.m)⁻¹
        = denote P a * denote P a := by
  obtain ⟨w, k, hw, hv, he, hk⟩ := B256.square_wide P.p P.inv ha.1
  rw [← lostWeight_eq] at hv
  have hlt : a.val * a.val < P.m * 2^256 := mul_lt_of_right hP ha.1 ha.2
  obtain ⟨h1, h2⟩ := mont_denote hP hw (by
    generalize a.val * a.val = X at *
    generalize lostWeight * k = Y at *
    omega)
  refine ⟨k, ?_, hk, ?_, ?_⟩
  · obtain ⟨_, g1, g2, _⟩ := ha.1
    have hb : a.l1 * a.l2 ≤ (2^64 - 1) * (2^64 - 1) := Nat.mul_le_mul (by omega) (by omega)
    generalize a.l1 * a.l2 = X at *
    generalize a.l0 * a.l1 = X1 at *
    generalize a.l0 * a.l2 = X2 at *
    generalize a.l0 * a.l3 = X3 at *
    generalize a.l1 * a.l3 = X4 at *
    generalize a.l2 * a.l3 = X5 at *
    clear * - hk hb
    omega
  · unfold FieldParams.square; rw [he]; exact h1
  · unfold FieldParams.square denote
    rw [he, h2]
    have : ((w.val : Nat) : ZMod P.m) = (a.val : ZMod P.m) * a.val - ((lostWeight * k : Nat) : ZMod P.m) := by
      rw [eq_sub_iff_add_eq, ← Nat.cast_add, hv]; push_cast; rfl
    rw [this]
    ring

theorem pow2_unit (hP : ValidParams P) {x : ZMod P.m}
    (h : (lostWeight : ZMod P.m) * x = 0) : x = 0 := by
  have hc : Nat.Coprime lostWeight P.m := by
    rw [lostWeight_eq]
    apply Nat.Coprime.pow_left
    rw [Nat.coprime_two_left, Nat.odd_iff]
    exact hP.p_odd
  have := ZMod.coe_mul_inv_eq_one _ hc
  calc x = (lostWeight : ZMod P.m)⁻¹ * ((lostWeight : ZMod P.m) * x) := by
        rw [← mul_assoc, mul_comm _ (lostWeight : ZMod P.m), this, one_mul]
    _ = 0 := by rw [h, mul_zero]

/-- Squaring agrees with multiplication exactly when adding the last off-diagonal product does not
carry into the 2^384 column. -/
theorem square_eq_mul_iff (hP : ValidParams P) {a : L4} (ha : Canonical P a) :
    P.square a = P.mul a a ↔ offDiag a / 2^384 = offDiagEarly a / 2^384 := by
  obtain ⟨k, hk, hk2, hc, hd⟩ := square_denote hP ha
  obtain ⟨hm, hmd⟩ := mul_denote hP ha ha
  rw [← hmd] at hd
  constructor
  · intro h
    rw [h] at hd
    rcases Nat.le_one_iff_eq_zero_or_eq_one.1 hk with rfl | rfl
    · rw [hk2, Nat.add_zero]
    · exfalso
      rw [add_eq_left, Nat.mul_one, mul_assoc] at hd
      have h0 := pow2_unit hP hd
      have hR := R_mul_inv hP
      have h1 := one_lt hP
      haveI : Fact (1 < P.m) := ⟨h1⟩
      have : (1 : ZMod P.m) = 0 := by
        calc (1 : ZMod P.m) = ((montR : ZMod P.m) * (montR : ZMod P.m)⁻¹) *
              ((montR : ZMod P.m) * (montR : ZMod P.m)⁻¹) := by rw [hR, one_mul]
          _ = (montR : ZMod P.m) * (montR : ZMod P.m) *
              ((montR : ZMod P.m)⁻¹ * (montR : ZMod P.m)⁻¹) := by ring
          _ = 0 := by rw [h0, mul_zero]
      exact one_ne_zero this
  · intro h
    have : k = 0 := by
      rw [h] at hk2
      exact Nat.left_eq_add.1 hk2
    subst this
    apply denote_inj hP hc hm
    rw [← hd]; simp

theorem toBits_bits (v : L4) : ∀ x ∈ B256.toBits v, x = 0 ∨ x = 1 := by
  intro x hx
  have := toBits_bit hx
  omega

/-- The accumulators that the square-and-multiply loop of `pow` squares, in order. -/
def squaredBy (P : FieldParams) (a : L4) : List Nat → L4 → List L4
  | [], _ => []
  | bit :: bits, acc => acc :: squaredBy P a bits (B256.powStep a P.p P.inv acc bit)

/-- The square-and-multiply loop, for any accumulator that is a power of the base. -/
theorem pow_loop (hP : ValidParams P) {a : L4} (ha : Canonical P a)
    (bits : List Nat) (hb : ∀ x ∈ bits, x = 0 ∨ x = 1) (acc : L4)
    (hsq : ∀ x ∈ squaredBy P a bits acc, P.square x = P.mul x x) (hacc : Canonical P acc) (e : Nat)
    (he : denote P acc = denote P a ^ e) :
    Canonical P (bits.foldl (B256.powStep a P.p P.inv) acc) ∧
      denote P (bits.foldl (B256.powStep a P.p P.inv) acc) =
        denote P a ^ (e * 2^bits.length + beValue 2 bits) := by
  induction bits generalizing acc e with
  | nil => exact ⟨hacc, by simpa [beValue] using he⟩
  | cons bit bits ih =>
    have hs := hsq acc (by simp [squaredBy])
    have hsq' : ∀ x ∈ squaredBy P a bits (B256.powStep a P.p P.inv acc bit), P.square x = P.mul x x :=
      fun x hx => hsq x (by simp [squaredBy, hx])
    have hs' : B256.square acc P.p P.inv = P.mul acc acc := hs
    obtain ⟨m1, m2⟩ := mul_denote hP hacc hacc
    rw [he, ← pow_add] at m2
    rw [List.foldl_cons]
    have hbits : ∀ x ∈ bits, x = 0 ∨ x = 1 := fun x hx => hb x (by simp [hx])
    have hexp : beValue 2 (bit :: bits) = bit * 2^bits.length + beValue 2 bits := by
      unfold beValue; rw [List.foldl_cons, beValue_foldl]; simp [beValue]
    rw [hexp, List.length_cons]
    rcases hb bit (by simp) with rfl | rfl
    · have : B256.powStep a P.p P.inv acc 0 = P.mul acc acc := by
        unfold B256.powStep; simp [hs']
      rw [this] at hsq' ⊢
      obtain ⟨i1, i2⟩ := ih hbits _ hsq' m1 (e + e) m2
      refine ⟨i1, ?_⟩
      rw [i2]; congr 1; ring
    · have : B256.powStep a P.p P.inv acc 1 = P.mul (P.mul acc acc) a := by
        unfold B256.powStep; simp only [hs', if_true]; rfl
      rw [this] at hsq' ⊢
      obtain ⟨n1, n2⟩ := mul_denote hP m1 ha
      rw [m2, ← pow_succ] at n2
      obtain ⟨i1, i2⟩ := ih hbits _ hsq' n1 (e + e + 1) n2
      refine ⟨i1, ?_⟩
      rw [i2]; congr 1; ring

theorem pow_denote (hP : ValidParams P) {a b : L4} (ha : Canonical P a) (hb : b.Wf)
    (hsq : ∀ x ∈ squaredBy P a (B256.toBits b) P.one, P.square x = P.mul x x) :
    Canonical P (B256.pow a b P.r P.p P.inv) ∧
      denote P (B256.pow a b P.r P.p P.inv) = denote P a ^ b.val := by
  unfold B256.pow
  split
  · rename_i h
    rw [h]
    exact ⟨r_canonical hP, by rw [denote_one hP]; exact (pow_zero _).symm⟩
  · rename_i h
    split
    · rename_i h2
      refine ⟨zero_canonical hP, ?_⟩
      rw [h2, denote_zero, zero_pow]
      exact fun h3 => h (val_eq_zero_iff.1 h3)
    · obtain ⟨h1, h2⟩ := pow_loop hP ha (B256.toBits b) (toBits_bits b) P.r hsq (r_canonical hP) 0
        (by rw [denote_one hP, pow_zero])
      refine ⟨h1, ?_⟩
      rw [h2, toBits_value hb, Nat.zero_mul, Nat.zero_add]

theorem littleFermat_val (hP : ValidParams P) :
    (B256.littleFermat P.p).Wf ∧ (B256.littleFermat P.p).val = P.m - 2 := by
  have h2 : (L4.mk 2 0 0 0).Wf := by decide
  have h0 : (B256.zero).Wf := by decide
  obtain ⟨h1, -, h3⟩ := B256.sub_spec h0 h2 hP.p_words
  have e0 : B256.zero.val = 0 := rfl
  have e2 : (L4.mk 2 0 0 0).val = 2 := by simp [L4.val]
  have := hP.p_gt_two
  have := hP.p_val
  refine ⟨h1, ?_⟩
  have := h3 (by rw [e0, e2]; omega) (by rw [e0, e2]; omega)
  unfold B256.littleFermat
  omega

end Kogarashi.Field
