import Verif.Curve.Limb

/-!
# Canonical words as a field

`Words P` is the type of canonical limb arrays with the code's own addition, subtraction, negation and multiplication.
`toResidue` is the residue they stand for.  The operations of `Words P` are the limb routines, so every generic function
of the model, instantiated at `Words P`, runs on limbs.  A square is a product here: this is the code with `square`
repaired (C03 says exactly where the code's own `square` differs).
-/

namespace Kogarashi.Field

open Kogarashi.Limbs Kogarashi.Spec Kogarashi.Curve.Limb

/-- Parameters that are valid, as a type class argument. -/
class ValidWords (P : FieldParams) : Prop where
  valid : ValidParams P
  prime : P.m.Prime

instance : ValidWords fqParams := ⟨fqParams_valid, fqParams_prime⟩
instance : ValidWords frParams := ⟨frParams_valid, frParams_prime⟩

/-- Limb arrays below the modulus: the struct `Fr([u64; 4])`/`Fq([u64; 4])` (`bn254/src/fr.rs`, `fq.rs`) restricted
to the values the constructors of C01 and C04 produce. -/
@[ext] structure Words (P : FieldParams) where
  limbs : L4
  canonical : Canonical P limbs

namespace Words

variable {P : FieldParams}

instance : DecidableEq (Words P) := fun a b => decidable_of_iff (a.limbs = b.limbs) Words.ext_iff.symm

/-- The residue the limbs stand for. -/
noncomputable def toResidue (a : Words P) : ZMod P.m := denote P a.1

theorem el (a : Words P) : El P a.1 a.toResidue := ⟨a.2, rfl⟩

variable [hv : ValidWords P]

instance (priority := low) factPrime : Fact P.m.Prime := ⟨hv.prime⟩

/-- `zero()` (`field.rs` via `bits_256/represent.rs`). -/
instance : Zero (Words P) := ⟨⟨FieldParams.zero, (El.zero hv.valid).1⟩⟩
/-- `one()` (`bits_256/represent.rs`, the constant `R`). -/
instance : One (Words P) := ⟨⟨P.one, (El.one hv.valid).1⟩⟩
/-- `add` (`bits_256/normal.rs`). -/
instance : Add (Words P) := ⟨fun a b => ⟨P.add a.1 b.1, (a.el.add hv.valid b.el).1⟩⟩
/-- `sub` (`bits_256/normal.rs`). -/
instance : Sub (Words P) := ⟨fun a b => ⟨P.sub a.1 b.1, (a.el.sub hv.valid b.el).1⟩⟩
/-- `neg` (`bits_256/normal.rs`). -/
instance : Neg (Words P) := ⟨fun a => ⟨P.neg a.1, (a.el.neg hv.valid).1⟩⟩
/-- `mul` (`bits_256/normal.rs`, with `mont`). -/
instance : Mul (Words P) := ⟨fun a b => ⟨P.mul a.1 b.1, (a.el.mul hv.valid b.el).1⟩⟩

theorem res_zero : toResidue (0 : Words P) = 0 := (El.zero hv.valid).2
theorem res_one : toResidue (1 : Words P) = 1 := (El.one hv.valid).2
theorem res_add (a b : Words P) : (a + b).toResidue = a.toResidue + b.toResidue := (a.el.add hv.valid b.el).2
theorem res_sub (a b : Words P) : (a - b).toResidue = a.toResidue - b.toResidue := (a.el.sub hv.valid b.el).2
theorem res_neg (a : Words P) : (-a).toResidue = -a.toResidue := (a.el.neg hv.valid).2
theorem res_mul (a b : Words P) : (a * b).toResidue = a.toResidue * b.toResidue := (a.el.mul hv.valid b.el).2

theorem res_inj : Function.Injective (toResidue (P := P)) :=
  fun a b h => Words.ext ((a.el.inj hv.valid b.el).mpr h)

theorem res_surj : Function.Surjective (toResidue (P := P)) := by
  intro x
  have : NeZero P.m := ⟨hv.prime.ne_zero⟩
  have h : ∀ n : Nat, ∃ a : Words P, a.toResidue = (n : ZMod P.m) := by
    intro n
    induction n with
    | zero => exact ⟨0, by rw [res_zero, Nat.cast_zero]⟩
    | succ n ih => obtain ⟨a, ha⟩ := ih; exact ⟨a + 1, by rw [res_add, ha, res_one, Nat.cast_succ]⟩
  obtain ⟨a, ha⟩ := h x.val
  exact ⟨a, by rw [ha, ZMod.natCast_zmod_val]⟩

instance : CommRing (Words P) where
  add_assoc a b c := res_inj (by simp only [res_add, add_assoc])
  zero_add a := res_inj (by rw [res_add, res_zero, zero_add])
  add_zero a := res_inj (by rw [res_add, res_zero, add_zero])
  add_comm a b := res_inj (by simp only [res_add, add_comm])
  nsmul := nsmulRec
  zsmul := zsmulRec
  neg_add_cancel a := res_inj (by rw [res_add, res_neg, res_zero, neg_add_cancel])
  sub_eq_add_neg a b := res_inj (by rw [res_sub, res_add, res_neg, sub_eq_add_neg])
  left_distrib a b c := res_inj (by simp only [res_add, res_mul, mul_add])
  right_distrib a b c := res_inj (by simp only [res_add, res_mul, add_mul])
  zero_mul a := res_inj (by rw [res_mul, res_zero, zero_mul])
  mul_zero a := res_inj (by rw [res_mul, res_zero, mul_zero])
  mul_assoc a b c := res_inj (by simp only [res_mul, mul_assoc])
  one_mul a := res_inj (by rw [res_mul, res_one, one_mul])
  mul_one a := res_inj (by rw [res_mul, res_one, mul_one])
  mul_comm a b := res_inj (by simp only [res_mul, mul_comm])

/-- One iteration of `pow` (`bits_256/normal.rs` lines 280-285) with `square` repaired. -/
def powStep (a acc : Words P) (bit : Nat) : Words P :=
  let acc := acc * acc
  if bit = 1 then acc * a else acc

/-- `invert` (`bits_256/normal.rs` lines 256-269) with `square` repaired; zero for zero, where the code answers `None`. -/
def inv (a : Words P) : Words P :=
  if a = 0 then 0 else (B256.toBits (B256.littleFermat P.p)).foldl (powStep a) 1

theorem res_pow (a : Words P) (n : ℕ) : (a ^ n).toResidue = a.toResidue ^ n := by
  induction n with
  | zero => rw [pow_zero, pow_zero]; exact res_one
  | succ n ih => rw [pow_succ, pow_succ, ← ih]; exact res_mul _ _

theorem pow_loop (a : Words P) (bits : List Nat) (hb : ∀ x ∈ bits, x = 0 ∨ x = 1) (e : Nat) :
    bits.foldl (powStep a) (a ^ e) = a ^ (e * 2 ^ bits.length + beValue 2 bits) := by
  induction bits generalizing e with
  | nil => simp [beValue]
  | cons bit bits ih =>
    have hexp : beValue 2 (bit :: bits) = bit * 2^bits.length + beValue 2 bits := by
      unfold beValue; rw [List.foldl_cons, beValue_foldl]; simp [beValue]
    have hbits : ∀ x ∈ bits, x = 0 ∨ x = 1 := fun x hx => hb x (by simp [hx])
    rw [hexp, List.length_cons, List.foldl_cons]
    rcases hb bit (by simp) with rfl | rfl
    · have : powStep a (a ^ e) 0 = a ^ (e + e) := by unfold powStep; simp [pow_add]
      rw [this, ih hbits]; congr 1; ring
    · have : powStep a (a ^ e) 1 = a ^ (e + e + 1) := by unfold powStep; simp [pow_add]
      rw [this, ih hbits]; congr 1; ring

theorem inv_eq {a : Words P} (h : a ≠ 0) : inv a = a ^ (P.m - 2) := by
  have h1 := pow_loop a (B256.toBits (B256.littleFermat P.p)) (toBits_bits _) 0
  obtain ⟨h2, h3⟩ := littleFermat_val hv.valid
  rw [pow_zero, toBits_value h2, Nat.zero_mul, Nat.zero_add, h3] at h1
  unfold inv
  rw [if_neg h, h1]

theorem res_eq_zero {a : Words P} : a.toResidue = 0 ↔ a = 0 := by
  rw [← res_zero]; exact res_inj.eq_iff

instance : Inv (Words P) := ⟨inv⟩

theorem res_inv (a : Words P) : (a⁻¹).toResidue = (a.toResidue)⁻¹ := by
  show (inv a).toResidue = _
  by_cases h : a = 0
  · rw [h, res_zero, inv_zero]
    show (inv (0 : Words P)).toResidue = 0
    unfold inv
    rw [if_pos rfl, res_zero]
  · have h0 : a.toResidue ≠ 0 := fun h' => h (res_eq_zero.mp h')
    rw [inv_eq h, res_pow]
    refine eq_inv_of_mul_eq_one_left ?_
    have hf := ZMod.pow_card_sub_one_eq_one h0
    have h2 := hv.prime.two_le
    rw [← pow_succ]
    rwa [show P.m - 2 + 1 = P.m - 1 by omega]

theorem mul_inv_self {a : Words P} (h : a ≠ 0) : a * a⁻¹ = 1 := by
  apply res_inj
  have h0 : a.toResidue ≠ 0 := fun h' => h (res_eq_zero.mp h')
  rw [res_mul, res_one, res_inv, mul_inv_cancel₀ h0]

theorem inv_zero' : (0 : Words P)⁻¹ = 0 := by
  apply res_inj
  rw [res_inv, res_zero, inv_zero]

theorem zero_ne_one' : (0 : Words P) ≠ 1 := fun h => by
  have := congrArg toResidue h
  rw [res_zero, res_one] at this
  exact zero_ne_one this

instance : Div (Words P) := ⟨fun a b => a * b⁻¹⟩

/-- Integer powers. -/
def zpow (z : ℤ) (a : Words P) : Words P :=
  match z with
  | .ofNat n => a ^ n
  | .negSucc n => (a ^ (n + 1))⁻¹

theorem zpow_zero (a : Words P) : zpow 0 a = 1 := pow_zero a
theorem zpow_succ (n : ℕ) (a : Words P) : zpow (n.succ : ℤ) a = zpow (n : ℤ) a * a := pow_succ a n
theorem zpow_ofNat (n : ℕ) (a : Words P) : zpow (n : ℤ) a = a ^ n := by rw [← Int.ofNat_eq_natCast, zpow]
theorem zpow_neg (n : ℕ) (a : Words P) : zpow (.negSucc n) a = (zpow (n.succ : ℤ) a)⁻¹ := by rw [zpow_ofNat, zpow]

instance : _root_.Field (Words P) where
  exists_pair_ne := ⟨0, 1, zero_ne_one'⟩
  mul_inv_cancel _ h := mul_inv_self h
  inv_zero := inv_zero'
  div_eq_mul_inv _ _ := rfl
  zpow := zpow
  zpow_zero' := zpow_zero
  zpow_succ' := zpow_succ
  zpow_neg' := zpow_neg
  nnratCast q := (q.num : Words P) / (q.den : Words P)
  nnratCast_def _ := rfl
  ratCast q := (q.num : Words P) / (q.den : Words P)
  ratCast_def _ := rfl
  nnqsmul q a := (q.num : Words P) / (q.den : Words P) * a
  nnqsmul_def _ _ := rfl
  qsmul q a := (q.num : Words P) / (q.den : Words P) * a
  qsmul_def _ _ := rfl

/-- The residue, as a ring homomorphism. -/
noncomputable def hom : Words P →+* ZMod P.m where
  toFun := toResidue
  map_zero' := res_zero
  map_one' := res_one
  map_add' := res_add
  map_mul' := res_mul

end Words

end Kogarashi.Field
