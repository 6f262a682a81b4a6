import Verif.Limbs.AsmMain
import Verif.Spec.Field

/-!
# C90: the assembly back end agrees with the portable one

The two back ends are alternatives behind one interface, so a build that selects the assembly must
compute the same limbs. Addition, subtraction, doubling and negation do, whatever the registers hold
before the block. The product and the square do not: the Montgomery constant is written into the blocks and
belongs to another modulus than either BN254 field, and carries are dropped even for the modulus it
belongs to.
-/

namespace Kogarashi.Props

open Kogarashi.Limbs Kogarashi.Field Kogarashi.Spec Kogarashi.Spec.AsmCarry

/-- C90: for canonical operands the assembly addition returns the canonical sum, and so the limbs the
portable addition returns, from every register content. -/
theorem C90_add (P : FieldParams) (hP : ValidParams P) (st : Asm.St) (a b : L4)
    (ha : Canonical P a) (hb : Canonical P b) :
    Asm.add st a b P.p = P.add a b ∧ (Asm.add st a b P.p).val = (a.val + b.val) % P.m := by
  obtain ⟨ha1, ha2⟩ := ha
  obtain ⟨hb1, hb2⟩ := hb
  have hb := hP.p_bound
  have hv := hP.p_val
  have r : (Asm.add st a b P.p).Wf ∧ (a.val + b.val < P.p.val → (Asm.add st a b P.p).val = a.val + b.val) ∧
      (P.p.val ≤ a.val + b.val → (Asm.add st a b P.p).val + P.p.val = a.val + b.val) :=
    Asm.add_run st ha1.1 ha1.2.1 ha1.2.2.1 ha1.2.2.2 hb1.1 hb1.2.1 hb1.2.2.1 hb1.2.2.2 hP.p_words.1
      hP.p_words.2.1 hP.p_words.2.2.1 hP.p_words.2.2.2 (show a.val + b.val < 2^256 by omega)
  refine ⟨Asm.add_eq st ha1 hb1 hP.p_words (by omega), ?_⟩
  rw [hv] at r
  obtain ⟨-, r2, r3⟩ := r
  rcases Nat.lt_or_ge (a.val + b.val) P.m with h | h
  · rw [Nat.mod_eq_of_lt h, r2 h]
  · rw [Nat.mod_eq_sub_mod h, Nat.mod_eq_of_lt (by omega)]
    have := r3 h
    omega

/-- C90: the same for doubling. -/
theorem C90_double (P : FieldParams) (hP : ValidParams P) (st : Asm.St) (a : L4)
    (ha : Canonical P a) :
    Asm.double st a P.p = P.double a ∧ (Asm.double st a P.p).val = 2 * a.val % P.m := by
  obtain ⟨ha1, ha2⟩ := ha
  have hb := hP.p_bound
  have hv := hP.p_val
  have r : (Asm.double st a P.p).Wf ∧ (2 * a.val < P.p.val → (Asm.double st a P.p).val = 2 * a.val) ∧
      (P.p.val ≤ 2 * a.val → (Asm.double st a P.p).val + P.p.val = 2 * a.val) :=
    Asm.double_run st ha1.1 ha1.2.1 ha1.2.2.1 ha1.2.2.2 hP.p_words.1
      hP.p_words.2.1 hP.p_words.2.2.1 hP.p_words.2.2.2 (show 2 * a.val < 2^256 by omega)
  refine ⟨Asm.double_eq st ha1 hP.p_words (by omega), ?_⟩
  rw [hv] at r
  obtain ⟨-, r2, r3⟩ := r
  rcases Nat.lt_or_ge (2 * a.val) P.m with h | h
  · rw [Nat.mod_eq_of_lt h, r2 h]
  · rw [Nat.mod_eq_sub_mod h, Nat.mod_eq_of_lt (by omega)]
    have := r3 h
    omega

/-- C90: the same for subtraction. -/
theorem C90_sub (P : FieldParams) (hP : ValidParams P) (st : Asm.St) (a b : L4)
    (ha : Canonical P a) (hb : Canonical P b) :
    Asm.sub st a b P.p = P.sub a b ∧
      (Asm.sub st a b P.p).val = (a.val + P.m - b.val) % P.m := by
  obtain ⟨ha1, ha2⟩ := ha
  obtain ⟨hb1, hb2⟩ := hb
  have hv := hP.p_val
  have r : (Asm.sub st a b P.p).Wf ∧ (b.val ≤ a.val → (Asm.sub st a b P.p).val + b.val = a.val) ∧
      (a.val < b.val → (Asm.sub st a b P.p).val + b.val = a.val + P.p.val) :=
    Asm.sub_run st ha1.1 ha1.2.1 ha1.2.2.1 ha1.2.2.2 hb1.1 hb1.2.1 hb1.2.2.1 hb1.2.2.2 hP.p_words.1
      hP.p_words.2.1 hP.p_words.2.2.1 hP.p_words.2.2.2 (show b.val ≤ a.val + P.p.val by omega)
  refine ⟨Asm.sub_eq st ha1 hb1 hP.p_words (by omega), ?_⟩
  rw [hv] at r
  obtain ⟨-, r2, r3⟩ := r
  rcases Nat.lt_or_ge a.val b.val with h | h
  · rw [Nat.mod_eq_of_lt (by omega)]; have := r3 h; omega
  · rw [Nat.mod_eq_sub_mod (by omega), Nat.mod_eq_of_lt (by omega)]; have := r2 h; omega

/-- C90: the same for negation. -/
theorem C90_neg (P : FieldParams) (hP : ValidParams P) (st : Asm.St) (a : L4) (ha : Canonical P a) :
    Asm.neg st a P.p = P.neg a ∧ (Asm.neg st a P.p).val = (P.m - a.val) % P.m := by
  obtain ⟨ha1, ha2⟩ := ha
  have hv := hP.p_val
  have r : (Asm.neg st a P.p).Wf ∧ (a.val = 0 → (Asm.neg st a P.p).val = 0) ∧
      (a.val ≠ 0 → (Asm.neg st a P.p).val + a.val = P.p.val) :=
    Asm.neg_run st ha1.1 ha1.2.1 ha1.2.2.1 ha1.2.2.2 hP.p_words.1
      hP.p_words.2.1 hP.p_words.2.2.1 hP.p_words.2.2.2 (show a.val < P.p.val by omega)
  refine ⟨Asm.neg_eq st ha1 hP.p_words (by omega), ?_⟩
  rw [hv] at r
  obtain ⟨-, r2, r3⟩ := r
  by_cases h : a.val = 0
  · rw [r2 h, h, Nat.sub_zero, Nat.mod_self]
  · rw [Nat.mod_eq_of_lt (by omega)]; have := r3 h; omega

/-- C90 (product), the part that holds: for a field whose Montgomery constant is the one written into the
block, and a run in which no addition drops a carry, the assembly product of canonical operands is
the portable one. Missing: both hypotheses, see `C90_mul_refuted` and `C90_mul_carry_refuted`. -/
theorem C90_mul_partial (P : FieldParams) (hP : ValidParams P) (hi : P.inv = Asm.hardInv)
    (st : Asm.St) (a b : L4) (ha : Canonical P a) (hb : Canonical P b)
    (hk : keepsCarries ⟨a, b, P.p⟩ Asm.mulProg st = true) :
    Asm.mul st a b P.p = P.mul a b := by
  have h := hP.inv_eq
  rw [hi] at h
  unfold FieldParams.mul
  rw [hi]
  refine Asm.mul_eq st ha.1 hb.1 hP.p_words h (by rw [hP.p_val]; exact hP.p_bound) ?_ hk
  rw [hP.p_val]
  exact Nat.mul_lt_mul'' ha.2 hb.1.val_lt

/-- C90 (square), the part that holds: under the same two hypotheses the assembly square is the
portable product of the operand with itself. -/
theorem C90_square_partial (P : FieldParams) (hP : ValidParams P) (hi : P.inv = Asm.hardInv)
    (st : Asm.St) (a : L4) (ha : Canonical P a)
    (hk : keepsCarries ⟨a, a, P.p⟩ Asm.squareProg st = true) :
    Asm.square st a P.p = P.mul a a := by
  have h := hP.inv_eq
  rw [hi] at h
  unfold FieldParams.mul
  rw [hi]
  refine Asm.square_eq st ha.1 hP.p_words h (by rw [hP.p_val]; exact hP.p_bound) ?_ hk
  rw [hP.p_val]
  exact Nat.mul_lt_mul'' ha.2 ha.1.val_lt

/-- Registers before a block, all zero. -/
def asmZero : Asm.St := ⟨0, 0, 0, 0, 0, 0, 0, 0, 0, 0, 0, 0, false⟩

/-- C90 refuted for both BN254 fields: the constant in the block is not theirs, and canonical operands
exist whose assembly product and square are not the field's. -/
theorem C90_mul_refuted :
    (¬ ∀ (st : Asm.St) (a b : L4), Canonical frParams a → Canonical frParams b →
      Asm.mul st a b frParams.p = frParams.mul a b) ∧
    (¬ ∀ (st : Asm.St) (a b : L4), Canonical fqParams a → Canonical fqParams b →
      Asm.mul st a b fqParams.p = fqParams.mul a b) ∧
    (¬ ∀ (st : Asm.St) (a : L4), Canonical frParams a →
      Asm.square st a frParams.p = frParams.mul a a) ∧
    (¬ ∀ (st : Asm.St) (a : L4), Canonical fqParams a →
      Asm.square st a fqParams.p = fqParams.mul a a) := by
  refine ⟨fun h => ?_, fun h => ?_, fun h => ?_, fun h => ?_⟩
  · exact absurd (h asmZero ⟨5, 0, 0, 0⟩ ⟨7, 0, 0, 0⟩ ⟨by decide, by decide +kernel⟩
      ⟨by decide, by decide +kernel⟩) (by decide +kernel)
  · exact absurd (h asmZero ⟨5, 0, 0, 0⟩ ⟨7, 0, 0, 0⟩ ⟨by decide, by decide +kernel⟩
      ⟨by decide, by decide +kernel⟩) (by decide +kernel)
  · exact absurd (h asmZero ⟨5, 0, 0, 0⟩ ⟨by decide, by decide +kernel⟩) (by decide +kernel)
  · exact absurd (h asmZero ⟨5, 0, 0, 0⟩ ⟨by decide, by decide +kernel⟩) (by decide +kernel)

/-- The field the constant in the blocks belongs to: the order of the JubJub group. -/
def asmField : FieldParams where
  m := 0x0e7db4ea6533afa906673b0101343b00a6682093ccc81082d0970e5ed6f72cb7
  p := ⟨0xd0970e5ed6f72cb7, 0xa6682093ccc81082, 0x06673b0101343b00, 0x0e7db4ea6533afa9⟩
  inv := 0x1ba3a358ef788ef9
  r := ⟨0x25f80bb3b99607d9, 0xf315d62f66b6e750, 0x932514eeeb8814f4, 0x9a6fc6f479155c6⟩
  r2 := ⟨0x67719aa495e57731, 0x51b0cef09ce3fc26, 0x69dab7fac026e9a5, 0x4f6547b8d127688⟩
  r3 := ⟨0xe0d6c6563d830544, 0x323e3883598d0f85, 0xf0fea3004c2e2ba8, 0x5874f84946737ec⟩

theorem asmField_valid : ValidParams asmField where
  p_words := by decide
  p_val := by decide +kernel
  r_words := by decide
  r2_words := by decide
  r3_words := by decide
  p_odd := by decide +kernel
  p_gt_two := by decide +kernel
  p_bound := by decide +kernel
  inv_eq := by decide +kernel
  r_eq := by decide +kernel
  r2_eq := by decide +kernel
  r3_eq := by decide +kernel

/-- C90 refuted for the modulus the constant belongs to as well: there the blocks drop carries. -/
theorem C90_mul_carry_refuted :
    (¬ ∀ (st : Asm.St) (a b : L4), Canonical asmField a → Canonical asmField b →
      Asm.mul st a b asmField.p = asmField.mul a b) ∧
    (¬ ∀ (st : Asm.St) (a : L4), Canonical asmField a →
      Asm.square st a asmField.p = asmField.mul a a) := by
  refine ⟨fun h => ?_, fun h => ?_⟩
  · exact absurd (h asmZero ⟨0x10d931035e9bb919, 0xffffffffffffffff, 0xfffffffffffffffe, 0x1⟩ ⟨0xfffffffffffffffe, 0x0, 0x1, 0x1⟩ ⟨by decide, by decide +kernel⟩
      ⟨by decide, by decide +kernel⟩) (by decide +kernel)
  · exact absurd (h asmZero ⟨0xfffffffffffffffe, 0xffffffffffffffff, 0x1, 0x0⟩ ⟨by decide, by decide +kernel⟩) (by decide +kernel)

/-- The hypotheses of the partial theorems are met by operands of full width. -/
def asmA : L4 := ⟨0x4164d8399f767c45, 0x5bc8fbbcbde5c099, 0xb0c11fdecb91ce37, 0xd76d433f1446bea⟩
/-- Second operand of the example. -/
def asmB : L4 := ⟨0xa6eb8c9ebd69fe29, 0x87b0b125ec1d7da0, 0xd7210dff076ce2ef, 0xc6a538777330bdb⟩

example : Asm.mul asmZero asmA asmB asmField.p = asmField.mul asmA asmB :=
  C90_mul_partial asmField asmField_valid rfl asmZero asmA asmB ⟨by decide, by decide +kernel⟩
    ⟨by decide, by decide +kernel⟩ (by decide +kernel)

example : Asm.square asmZero asmA asmField.p = asmField.mul asmA asmA :=
  C90_square_partial asmField asmField_valid rfl asmZero asmA ⟨by decide, by decide +kernel⟩
    (by decide +kernel)

example : (Asm.add asmZero asmA asmB asmField.p).val = (asmA.val + asmB.val) % asmField.m ∧
    asmField.m ≤ asmA.val + asmB.val ∧
    (Asm.sub asmZero asmB asmA asmField.p).val = (asmB.val + asmField.m - asmA.val) % asmField.m ∧
    asmB.val < asmA.val ∧
    (Asm.neg asmZero asmA asmField.p).val = (asmField.m - asmA.val) % asmField.m ∧
    (Asm.double asmZero asmA asmField.p).val = 2 * asmA.val % asmField.m :=
  have ha : Canonical asmField asmA := ⟨by decide, by decide +kernel⟩
  have hb : Canonical asmField asmB := ⟨by decide, by decide +kernel⟩
  ⟨(C90_add asmField asmField_valid asmZero asmA asmB ha hb).2, by decide +kernel,
    (C90_sub asmField asmField_valid asmZero asmB asmA hb ha).2, by decide +kernel,
    (C90_neg asmField asmField_valid asmZero asmA ha).2,
    (C90_double asmField asmField_valid asmZero asmA ha).2⟩

end Kogarashi.Props
