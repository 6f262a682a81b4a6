import Verif.Field.SqrtProof
import Verif.Field.Encode

/-!
# From residue classes to integer values, and limb-level consequences (lemmas)
-/

set_option exponentiation.threshold 1600

namespace Kogarashi.Field

open Kogarashi.Limbs Kogarashi.Spec

variable {P : FieldParams}

theorem value_of_denote (hP : ValidParams P) {x : L4} {n : Nat} (h : denote P x = (n : ZMod P.m)) :
    value P x = n % P.m := by
  have := one_lt hP
  have : NeZero P.m := ⟨by omega⟩
  unfold value
  rw [h, ZMod.val_natCast]

theorem value_zero (hP : ValidParams P) : value P B256.zero = 0 := by
  rw [value_of_denote hP (n := 0) (by rw [denote_zero, Nat.cast_zero])]; exact Nat.zero_mod _

theorem value_one (hP : ValidParams P) : value P P.r = 1 := by
  rw [value_of_denote hP (n := 1) (by rw [denote_one hP, Nat.cast_one])]
  exact Nat.mod_eq_of_lt (one_lt hP)

theorem denote_eq_iff_value (hP : ValidParams P) {a b : L4} : denote P a = denote P b ↔ value P a = value P b := by
  constructor
  · intro h; unfold value; rw [h]
  · intro h; rw [← value_cast hP, ← value_cast hP, h]

theorem add_value (hP : ValidParams P) {a b : L4} (ha : Canonical P a) (hb : Canonical P b) :
    value P (P.add a b) = (value P a + value P b) % P.m := by
  apply value_of_denote hP
  rw [(add_denote hP ha hb).2, Nat.cast_add, value_cast hP, value_cast hP]

theorem double_value (hP : ValidParams P) {a : L4} (ha : Canonical P a) :
    value P (P.double a) = (2 * value P a) % P.m := by
  apply value_of_denote hP
  rw [(double_denote hP ha).2, Nat.cast_mul, value_cast hP]; push_cast; ring

theorem cast_m_sub (hP : ValidParams P) (b : L4) :
    (((P.m - value P b : Nat)) : ZMod P.m) = - denote P b := by
  rw [Nat.cast_sub (value_lt hP b).le, ZMod.natCast_self, value_cast hP, zero_sub]

theorem sub_value (hP : ValidParams P) {a b : L4} (ha : Canonical P a) (hb : Canonical P b) :
    value P (P.sub a b) = (value P a + (P.m - value P b)) % P.m := by
  apply value_of_denote hP
  rw [(sub_denote hP ha hb).2, Nat.cast_add, value_cast hP, cast_m_sub hP]; ring

theorem neg_value (hP : ValidParams P) {a : L4} (ha : Canonical P a) :
    value P (P.neg a) = (P.m - value P a) % P.m := by
  apply value_of_denote hP
  rw [(neg_denote hP ha).2, cast_m_sub hP]

theorem mul_value (hP : ValidParams P) {a b : L4} (ha : Canonical P a) (hb : Canonical P b) :
    value P (P.mul a b) = (value P a * value P b) % P.m := by
  apply value_of_denote hP
  rw [(mul_denote hP ha hb).2, Nat.cast_mul, value_cast hP, value_cast hP]

theorem toMontForm_value (hP : ValidParams P) {v : L4} (hv : v.Wf) :
    value P (P.toMontForm v) = v.val % P.m :=
  value_of_denote hP (toMontForm_denote hP hv).2

theorem pow_value (hP : ValidParams P) {a b : L4} (ha : Canonical P a) (hb : b.Wf)
    (hsq : ∀ x ∈ squaredBy P a (B256.toBits b) P.one, P.square x = P.mul x x) :
    value P (B256.pow a b P.r P.p P.inv) = (value P a ^ b.val) % P.m := by
  apply value_of_denote hP
  rw [(pow_denote hP ha hb hsq).2, Nat.cast_pow, value_cast hP]

theorem invert_value (hP : ValidParams P) (hp : P.m.Prime) {a : L4} (ha : Canonical P a)
    (h0 : a ≠ B256.zero)
    (hsq : ∀ x ∈ squaredBy P a (B256.toBits (B256.littleFermat P.p)) P.one, P.square x = P.mul x x) :
    ∃ b, P.invert a = some b ∧ Canonical P b ∧ P.mul a b = P.one := by
  obtain ⟨hw, hv⟩ := littleFermat_val hP
  obtain ⟨h1, h2⟩ := pow_denote hP ha hw hsq
  have : Fact P.m.Prime := ⟨hp⟩
  refine ⟨_, by unfold FieldParams.invert B256.invert; rw [if_neg h0], h1, ?_⟩
  apply denote_inj hP (mul_denote hP ha h1).1 (r_canonical hP)
  rw [(mul_denote hP ha h1).2, h2, hv, denote_one hP, ← pow_succ']
  have hm := hP.p_gt_two
  have e : P.m - 2 + 1 = P.m - 1 := by omega
  rw [e]
  exact ZMod.pow_card_sub_one_eq_one (fun h => h0 ((denote_eq_zero_iff hP ha).1 h))

theorem leValue_inj {b : Nat} {xs ys : List Nat} (hx : ∀ x ∈ xs, x < b) (hy : ∀ x ∈ ys, x < b)
    (hl : xs.length = ys.length) (h : leValue b xs = leValue b ys) : xs = ys := by
  induction xs generalizing ys with
  | nil => cases ys with
    | nil => rfl
    | cons y ys => simp at hl
  | cons x xs ih => cases ys with
    | nil => simp at hl
    | cons y ys =>
      have h1 := hx x (by simp)
      have h2 := hy y (by simp)
      have hb : 0 < b := by omega
      simp only [leValue] at h
      have e1 : x = y := by
        have := congrArg (· % b) h
        simpa [Nat.add_mul_mod_self_left, Nat.mod_eq_of_lt h1, Nat.mod_eq_of_lt h2] using this
      subst e1
      have e2 : leValue b xs = leValue b ys := Nat.eq_of_mul_eq_mul_left hb (by omega)
      rw [ih (fun z hz => hx z (by simp [hz])) (fun z hz => hy z (by simp [hz])) (by simpa using hl) e2]

theorem toBytes_spec (hP : ValidParams P) {a : L4} (ha : Canonical P a) :
    (P.toBytes a).length = 32 ∧ (∀ x ∈ P.toBytes a, x < 256) ∧ leValue 256 (P.toBytes a) = value P a := by
  obtain ⟨⟨hw, -⟩, hv⟩ := montgomeryReduce_value hP ha
  unfold FieldParams.toBytes
  generalize P.montgomeryReduce a = t at *
  refine ⟨by simp [leBytes8_length], ?_, ?_⟩
  · intro x hx
    simp only [List.mem_append] at hx
    rcases hx with ((hx | hx) | hx) | hx <;> exact leBytes8_lt hx
  · obtain ⟨h0, h1, h2, h3⟩ := hw
    rw [← hv]
    simp only [leValue_append, leBytes8_value h0, leBytes8_value h1, leBytes8_value h2,
      leBytes8_value h3, leBytes8_length, List.length_append, L4.val]
    ring

theorem fromBytes_spec (hP : ValidParams P) {bytes : Nat → Nat} (hb : ∀ i < 32, bytes i < 256) :
    (leValue 256 ((List.range 32).map bytes) < P.m →
      ∃ e, P.fromBytes bytes = some e ∧ Canonical P e ∧
        value P e = leValue 256 ((List.range 32).map bytes)) ∧
    (¬ leValue 256 ((List.range 32).map bytes) < P.m → P.fromBytes bytes = none) := by
  rw [bytes32_value]
  have w0 := leU64_lt (bytes := bytes) (off := 0) (fun i _ h => hb i (by omega))
  have w1 := leU64_lt (bytes := bytes) (off := 8) (fun i _ h => hb i (by omega))
  have w2 := leU64_lt (bytes := bytes) (off := 16) (fun i _ h => hb i (by omega))
  have w3 := leU64_lt (bytes := bytes) (off := 24) (fun i _ h => hb i (by omega))
  have hw : (L4.mk (FieldParams.leU64 bytes 0) (FieldParams.leU64 bytes 8) (FieldParams.leU64 bytes 16)
      (FieldParams.leU64 bytes 24)).Wf := ⟨w0, w1, w2, w3⟩
  have hbr := borrow_chain hw hP.p_words
  rw [hP.p_val] at hbr
  have hd := toMontForm_denote hP hw
  have hv := toMontForm_value hP hw
  unfold FieldParams.toMontForm B256.toMontForm at hd hv
  unfold FieldParams.fromBytes
  generalize FieldParams.leU64 bytes 0 = x0 at *
  generalize FieldParams.leU64 bytes 8 = x1 at *
  generalize FieldParams.leU64 bytes 16 = x2 at *
  generalize FieldParams.leU64 bytes 24 = x3 at *
  dsimp only at hbr ⊢
  constructor
  · intro h
    rw [if_pos (hbr.2 h)]
    exact ⟨_, rfl, hd.1, by unfold FieldParams.mul; rw [hv, Nat.mod_eq_of_lt h]⟩
  · intro h
    rw [if_neg (fun h' => h (hbr.1 h'))]

/-- Reading bytes out of a list, as the functions of the model do. -/
theorem range_map_getD (l : List Nat) (n : Nat) (h : l.length = n) :
    (List.range n).map (fun i => l.getD i 0) = l := by
  subst h
  apply List.ext_getElem
  · simp
  · intro i h1 h2
    simp [List.getD, h2]

theorem squaresPow [Fact P.m.Prime] (w S : Nat)
    (h : 2 * ((2 * w + 1) * 2^(S - 1)) = P.m - 1) :
    ∀ y : ZMod P.m, y ≠ 0 → (y ^ 2) ^ ((2 * w + 1) * 2^(S - 1)) = 1 := by
  intro y hy
  rw [← pow_mul, h]
  exact ZMod.pow_card_sub_one_eq_one hy

theorem squaresPow4 [Fact P.m.Prime] (e : Nat) (h : 4 * e = P.m + 1) :
    ∀ y : ZMod P.m, ((y ^ 2) ^ e) ^ 2 = y ^ 2 := by
  intro y
  rw [← pow_mul, ← pow_mul, show 2 * (e * 2) = P.m + 1 by omega, pow_succ, ZMod.pow_card]
  ring

theorem neg_one_ne_one (hP : ValidParams P) : (-1 : ZMod P.m) ≠ 1 := by
  intro h
  have h2 : ((2 : Nat) : ZMod P.m) = 0 := by
    push_cast
    linear_combination -h
  rw [ZMod.natCast_eq_zero_iff] at h2
  have := Nat.le_of_dvd (by norm_num) h2
  have := hP.p_gt_two
  omega

/-- A power of an element, from a modular exponentiation of its value. -/
theorem denote_pow_of_powMod (hP : ValidParams P) {a : L4} {v e r : Nat}
    (ha : denote P a = (v : ZMod P.m)) (he : e < 2^256) (h : powMod P.m 256 v e = r) :
    denote P a ^ e = (r : ZMod P.m) := by
  rw [powMod_eq _ _ _ _ he] at h
  rw [ha, ← Nat.cast_pow, ← h, ZMod.natCast_mod]

theorem denote_minus_one (hP : ValidParams P) {x : ZMod P.m} (h : x = ((P.m - 1 : Nat) : ZMod P.m)) :
    x = -1 := by
  have := one_lt hP
  rw [h, Nat.cast_sub (by omega), ZMod.natCast_self, Nat.cast_one, zero_sub]

end Kogarashi.Field
