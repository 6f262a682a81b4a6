import Verif.R1cs.System
import Mathlib.Algebra.Field.ZMod
import Mathlib.Data.ZMod.Basic

/-!
# Model: field and boolean gadgets

Model of `zkstd/src/circuit/gadget/field.rs` and `zkstd/src/circuit/gadget/binary.rs`.
`FieldAssignment` is a newtype around `SparseRow`, `BinaryAssignment` a newtype around `Wire`.
-/

namespace Kogarashi

/-- `zkstd/src/circuit/gadget/binary.rs:6-7` `BinaryAssignment(Wire)`. -/
abbrev Bin := Wire

namespace Circ

variable {F : Type} [Field F] [DecidableEq F]

/-- `row.evaluate(&cs.x, &cs.w)`, also `field.rs:36-38` `value`. -/
def value (r : Row F) : Circ F F := fun cs => (r.evaluate cs.x cs.w).map (fun v => (v, cs))

/-- `field.rs:14-19` `instance`. -/
def inst (v : F) : Circ F (Row F) := fun cs =>
  some (Row.ofWire (.inst cs.x.length), { cs with x := cs.x ++ [v] })

/-- `field.rs:21-26` `witness`. -/
def wit (v : F) : Circ F (Row F) := fun cs =>
  some (Row.ofWire (.wit cs.w.length), { cs with w := cs.w ++ [v] })

/-- `field.rs:28-34` `inputize`: a fresh public wire receives the value; no constraint is emitted. -/
def inputize (r : Row F) : Circ F (Row F) := do
  let v ← value r
  inst v

/-- `field.rs:40-42` `constant`: one term on `Wire::ONE`, zero not filtered. -/
def const (c : F) : Row F := [(Wire.ONE, c)]

/-- `cs.mul_gate(..)` (`r1cs.rs:102-109`) as a statement. -/
def mulGate (x y z : Row F) : Circ F Unit := fun cs => some ((), cs.mulGate x y z)
/-- `cs.add_gate(..)` (`r1cs.rs:112-119`) as a statement. -/
def addGate (x y z : Row F) : Circ F Unit := fun cs => some ((), cs.addGate x y z)

/-- `field.rs:48-61` `mul`. -/
def mul (x y : Row F) : Circ F (Row F) :=
  match x.asConstant with
  | some c => pure (y.smul c)
  | none =>
    match y.asConstant with
    | some c => pure (x.smul c)
    | none => do
      let vx ← value x
      let vy ← value y
      let z ← wit (vx * vy)
      mulGate x y z
      pure z

/-- `field.rs:44-46` `square`. -/
def square (x : Row F) : Circ F (Row F) := mul x x

/-- `field.rs:63-76` `add`. -/
def add (x y : Row F) : Circ F (Row F) :=
  match x.asConstant with
  | some c => pure (Row.add y (Row.ofConst c))
  | none =>
    match y.asConstant with
    | some c => pure (Row.add x (Row.ofConst c))
    | none => do
      let vx ← value x
      let vy ← value y
      let z ← wit (vx + vy)
      addGate x y z
      pure z

/-- `field.rs:183-185` `enforce_eq`. -/
def enforceEq (x y : Row F) : Circ F Unit := mulGate x Row.one y

/-- `field.rs:269-271` `enforce_eq_constant`. -/
def enforceEqConstant (x : Row F) (c : F) : Circ F Unit := mulGate x Row.one (const c)

/-- `field.rs:274-278` `From<&BinaryAssignment>`. -/
def ofBin (b : Bin) : Row F := Row.ofWire b

/-- The fold of `enforce_eq_bits`, `field.rs:192-205`, over the bits in the order of `iter().rev()`. -/
def weightedSum : List Bin → F → Row F → Circ F (Row F)
  | [], _, acc => pure acc
  | b :: bs, f, acc => do
    let m ← mul (const f) (ofBin b)
    weightedSum bs (f + f) (Row.add acc m)

/-- `field.rs:187-207` `enforce_eq_bits` (bits big-endian). -/
def enforceEqBits (x : Row F) (bits : List Bin) : Circ F Unit := do
  let sum ← weightedSum bits.reverse 1 (const 0)
  enforceEq x sum

/-- `field.rs:209-217` `conditional_enforce_equal`. -/
def conditionalEnforceEqual (x y : Row F) (should : Bin) : Circ F Unit := do
  let m ← mul (Row.sub x y) (ofBin should)
  enforceEqConstant m 0

/-- `field.rs:219-233` `conditional_select`. -/
def conditionalSelect (a b : Row F) (condition : Bin) : Circ F (Row F) := do
  let sa ← mul a (ofBin condition)
  let sb ← mul b (Row.sub (const 1) (ofBin condition))
  pure (Row.add sa sb)

/-- `binary.rs:10-15` `BinaryAssignment::instance`. -/
def binInst (bit : Nat) : Circ F Bin := fun cs =>
  some (.inst cs.x.length, { cs with x := cs.x ++ [(bit : F)] })

/-- `binary.rs:31-36` `BinaryAssignment::witness`: the wire is not constrained to be boolean. -/
def binWit (bit : Nat) : Circ F Bin := fun cs =>
  some (.wit cs.w.length, { cs with w := cs.w ++ [(bit : F)] })

/-- `binary.rs:17-29` `BinaryAssignment::conditional_enforce_equal`. -/
def binConditionalEnforceEqual (x y should : Bin) : Circ F Unit :=
  conditionalEnforceEqual (F := F) (ofBin x) (ofBin y) should

/-- `cs[wire]` (`r1cs.rs:182-191`). -/
def read (b : Wire) : Circ F F := fun cs => (cs.get b).map (fun v => (v, cs))

/-- Pushing a witness and returning its wire (`private_wire`, `r1cs.rs:96-99`, then `w.push`). -/
def witWire (v : F) : Circ F Bin := fun cs => some (.wit cs.w.length, { cs with w := cs.w ++ [v] })

/-- `binary.rs:39-50` `not`: a fresh unconstrained wire. -/
def not (b : Bin) : Circ F Bin := do
  let v ← read b
  witWire (if v = 1 then 0 else 1)

/-- `binary.rs:53-65` `and`: a fresh unconstrained wire. -/
def and (a b : Bin) : Circ F Bin := do
  let va ← read a
  let vb ← read b
  witWire (if va = 1 ∧ vb = 1 then 1 else 0)

/-- `field.rs:244-267` `is_neq`. -/
def isNeq (x y : Row F) : Circ F Bin := do
  let vx ← value x
  let vy ← value y
  let ne ← binWit (if vx ≠ vy then 1 else 0)
  let multiplier ← wit (if vx ≠ vy then (vx - vy)⁻¹ else 1)
  let diff := Row.sub x y
  let m ← mul diff multiplier
  enforceEq m (ofBin ne)
  let nne ← not ne
  let m2 ← mul diff (ofBin nne)
  enforceEq m2 (const 0)
  pure ne

/-- `field.rs:235-242` `is_eq`. -/
def isEq (x y : Row F) : Circ F Bin := do
  let ne ← isNeq x y
  not ne

end Circ

/-! ## Bits

The circuits' field is a prime field; from here on `F = ZMod p`, an element's `to_bits` being the 256
big-endian digits of its least non-negative representative (this is what the limb-level theorem
`C08_to_bits` gives). -/

/-- `PrimeField::to_bits` (`zkstd/src/macros/field.rs` `to_bits`), at value level: 256 big-endian bits. -/
def bits256 (n : Nat) : List Nat := (List.range 256).map (fun i => n / 2 ^ (255 - i) % 2)

/-- `field.rs:114` `rposition(|&b| b != 1)` on a slice: the last index with a bit different from 1. -/
def rpositionNe1 (l : List Nat) : Option Nat :=
  (List.range l.length).reverse.find? (fun i => l[i]? ≠ some 1)

namespace Circ

variable {p : Nat} [Fact p.Prime]

/-- First loop of `range_check`, `field.rs:101-104`. -/
def enforceZeros : List Bin → Circ (ZMod p) Unit
  | [] => pure ()
  | b :: bs => do
    enforceEqConstant (ofBin b) 0
    enforceZeros bs

/-- Second loop of `range_check`, `field.rs:117-127`, over the zipped pairs; `ps` is the vector `p`,
`last` its last element. -/
def runs : List (Bin × Nat) → List (Row (ZMod p)) → Row (ZMod p) → Circ (ZMod p) (List (Row (ZMod p)))
  | [], ps, _ => pure ps
  | (a, c) :: rest, ps, last =>
    if c = 1 then do
      let q ← mul last (ofBin a)
      runs rest (ps ++ [q]) q
    else runs rest (ps ++ [last]) last

/-- Body of the third loop of `range_check`, `field.rs:130-153`; `p[i - 1]` panics when `i = 0` or when
`p` is too short. -/
def boolOne (ps : List (Row (ZMod p))) (i : Nat) (a : Bin) (c : Nat) : Circ (ZMod p) Unit :=
  if c = 1 then do
    let q ← mul (Row.sub (ofBin a) (const 1)) (ofBin a)
    enforceEq q (const 0)
  else if c = 0 then
    match i with
    | 0 => failure
    | k + 1 =>
      match ps[k]? with
      | none => failure
      | some prev => do
        let q ← mul (Row.sub (Row.sub (const 1) (ofBin a)) prev) (ofBin a)
        enforceEq q (const 0)
  else pure ()

/-- Third loop of `range_check`, `field.rs:129-154`. -/
def boolLoop (ps : List (Row (ZMod p))) : Nat → List (Bin × Nat) → Circ (ZMod p) Unit
  | _, [] => pure ()
  | i, (a, c) :: rest => do
    boolOne ps i a c
    boolLoop ps (i + 1) rest

/-- `field.rs:86-155` `range_check`. -/
def rangeCheck (aBits : List Bin) (c : ZMod p) : Circ (ZMod p) Unit :=
  let cBits := (bits256 c.val).dropWhile (· = 0)
  if aBits.length < cBits.length then pure ()
  else do
    enforceZeros (aBits.take (aBits.length - cBits.length))
    let as := aBits.drop (aBits.length - cBits.length)
    match as with
    | [] => failure
    | a0 :: _ => do
      let t := (rpositionNe1 cBits).getD (cBits.length - 1)
      let ps ← runs ((as.drop 1).zip ((cBits.drop 1).take (t + 1))) [ofBin a0] (ofBin a0)
      boolLoop ps 0 (as.zip cBits)

/-- `field.rs:78-84` `range_check_bits`. -/
def rangeCheckBits (aBits : List Bin) (numBits : Nat) : Circ (ZMod p) Unit :=
  rangeCheck aBits (2 ^ numBits - 1)

/-- `field.rs:171` `.map(|b| BinaryAssignment::witness(cs, *b))` collected. -/
def binWits : List Nat → Circ (ZMod p) (List Bin)
  | [] => pure []
  | b :: bs => do
    let w ← binWit b
    let ws ← binWits bs
    pure (w :: ws)

/-- `field.rs:158-181` `to_bits`; `driverBits` is `C::NUM_BITS`.  `F::MODULUS - F::one()` is `-1`
(`C66_modulus_minus_one`). -/
def toBits (driverBits : Nat) (x : Row (ZMod p)) (numBits : Nat) : Circ (ZMod p) (List Bin) :=
  if 256 < numBits then failure
  else do
    let v ← value x
    let all ← binWits (bits256 v.val)
    let repr := all.drop (256 - numBits)
    (if numBits < driverBits then rangeCheckBits repr numBits else rangeCheck repr (-1))
    pure repr

end Circ

end Kogarashi
