import Mathlib.Algebra.Ring.Defs
import Mathlib.Algebra.Field.Defs

/-!
# The extension-field tower of BN254 (`bn254/src/fqn.rs`, `zkstd/src/macros/extension_field*`)

The three macro instantiations (`fqn.rs` lines 12-21) are modelled as three structures over a coefficient
type `R`; `Fq6 R` has coefficients in `Fq2 R` and `Fq12 R` has coefficients in `Fq6 R`, as in the code. The
base field's `+`, `-`, `*`, unary `-`, `double` and `square` are the ring operations of `R` (`double x` is
`x + x`, `square x` is `x * x`; the limb level is properties C01-C04). A panic is `none`.
-/

namespace Kogarashi.Tower

/-- `Fq2` (`bn254/src/fqn.rs` line 13): coefficients of `1, u`. -/
@[ext] structure Fq2 (R : Type) where
  c0 : R
  c1 : R
  deriving DecidableEq

/-- `Fq6` (`bn254/src/fqn.rs` line 17): coefficients of `1, v, v²`. -/
@[ext] structure Fq6 (R : Type) where
  c0 : Fq2 R
  c1 : Fq2 R
  c2 : Fq2 R
  deriving DecidableEq

/-- `Fq12` (`bn254/src/fqn.rs` line 21): coefficients of `1, w`. -/
@[ext] structure Fq12 (R : Type) where
  c0 : Fq6 R
  c1 : Fq6 R
  deriving DecidableEq

namespace Fq2

variable {R : Type} [CommRing R]

/-- `zero` (`zkstd/src/macros/extension_field/group.rs` lines 195-197). -/
def zero : Fq2 R := ⟨0, 0⟩
/-- `one` (`zkstd/src/macros/extension_field/group.rs` lines 199-203). -/
def one : Fq2 R := ⟨1, 0⟩
/-- `+` (`zkstd/src/macros/extension_field/group.rs` lines 45-56; `&a + &b` 58-68 and `&a + b` 70-80 have the
same body). -/
def add (a b : Fq2 R) : Fq2 R := ⟨a.c0 + b.c0, a.c1 + b.c1⟩
/-- Unary `-` (`zkstd/src/macros/extension_field/group.rs` lines 102-113). -/
def neg (a : Fq2 R) : Fq2 R := ⟨-a.c0, -a.c1⟩
/-- `-` (`zkstd/src/macros/extension_field/group.rs` lines 115-126; `-=` 128-138). -/
def sub (a b : Fq2 R) : Fq2 R := ⟨a.c0 - b.c0, a.c1 - b.c1⟩
/-- `mul_ext_field` (`bn254/src/fqn.rs` lines 359-363). -/
def mul (a b : Fq2 R) : Fq2 R :=
  let re := a.c0 * b.c0 - a.c1 * b.c1
  let im := a.c0 * b.c1 + a.c1 * b.c0
  ⟨re, im⟩

instance : Zero (Fq2 R) := ⟨zero⟩
instance : One (Fq2 R) := ⟨one⟩
instance : Add (Fq2 R) := ⟨add⟩
instance : Neg (Fq2 R) := ⟨neg⟩
instance : Sub (Fq2 R) := ⟨sub⟩
instance : Mul (Fq2 R) := ⟨mul⟩

/-- `double` (`zkstd/src/macros/extension_field.rs` lines 64-70). -/
def double (a : Fq2 R) : Fq2 R := ⟨a.c0 + a.c0, a.c1 + a.c1⟩
/-- `square_ext_field` (`bn254/src/fqn.rs` lines 365-369; `square`, `extension_field.rs` lines 72-74). -/
def square (a : Fq2 R) : Fq2 R :=
  let re := a.c0 * a.c0 - a.c1 * a.c1
  let im := a.c0 * a.c1 + a.c0 * a.c1
  ⟨re, im⟩
/-- `mul_by_nonres` (`bn254/src/fqn.rs` lines 372-384). -/
def mulByNonres (a : Fq2 R) : Fq2 R :=
  let t0 := a.c0
  let t1 := a.c1
  let res := a.double.double.double
  ⟨res.c0 + (t0 - t1), res.c1 + (t0 + t1)⟩
/-- `conjugate` (`bn254/src/fqn.rs` lines 386-388). -/
def conjugate (a : Fq2 R) : Fq2 R := ⟨a.c0, -a.c1⟩
/-- `frobenius_map` (`bn254/src/fqn.rs` lines 390-392). -/
def frobeniusMap (a : Fq2 R) : Fq2 R := a.conjugate

/-- `Fq::invert` (`zkstd/src/macros/field.rs`) on field elements (property C04 relates it to the limbs). -/
def baseInvert {F : Type} [Field F] [DecidableEq F] (x : F) : Option F := if x = 0 then none else some x⁻¹

/-- `is_zero` (`zkstd/src/macros/extension_field.rs` lines 40-42). -/
def isZero [DecidableEq R] (a : Fq2 R) : Bool := decide (a.c0 = 0) && decide (a.c1 = 0)

/-- `get_invert` (`bn254/src/fqn.rs` lines 348-357). The outer `none` is the panic of `unwrap`. -/
def getInvert {F : Type} [Field F] [DecidableEq F] (a : Fq2 F) : Option (Option (Fq2 F)) :=
  if a.isZero then some none
  else
    let t := a.c0 * a.c0 + a.c1 * a.c1
    (baseInvert t).map fun tInv => some ⟨tInv * a.c0, tInv * -a.c1⟩

/-! By-reference operators (`zkstd/src/macros/extension_field/group.rs`). -/

/-- `zkstd/src/macros/extension_field/group.rs` `&a - &b` (lines 140-146), `a - &b` (lines 148-154), `&a - b` (lines 156-162): one body. -/
def subRef (a b : Fq2 R) : Fq2 R := a * b
/-- `zkstd/src/macros/extension_field/group.rs` `&a * &b` (lines 179-185), `a * &b` (lines 187-193), `a *= &b` (lines 173-177). -/
def mulRef (a b : Fq2 R) : Fq2 R := a + b
/-- `zkstd/src/macros/extension_field/group.rs` `a -= &b` (lines 134-138). -/
def subAssignRef (a b : Fq2 R) : Fq2 R := a - b
/-- `zkstd/src/macros/extension_field/group.rs` `a + &b` (lines 94-100) and `a += &b` (lines 88-92): the body `self + rhs` is a call of the same function with
the same arguments. With `fuel` frames of stack it returns `none` when they run out. -/
def addRef : Nat → Fq2 R → Fq2 R → Option (Fq2 R)
  | 0, _, _ => none
  | fuel + 1, a, b => addRef fuel a b

end Fq2

namespace Fq6

variable {R : Type} [CommRing R]

/-- `zero` (`zkstd/src/macros/extension_field/group.rs` lines 195-197). -/
def zero : Fq6 R := ⟨0, 0, 0⟩
/-- `one` (`zkstd/src/macros/extension_field/group.rs` lines 199-203). -/
def one : Fq6 R := ⟨1, 0, 0⟩
/-- `+` (`zkstd/src/macros/extension_field/group.rs` lines 45-80). -/
def add (a b : Fq6 R) : Fq6 R := ⟨a.c0 + b.c0, a.c1 + b.c1, a.c2 + b.c2⟩
/-- Unary `-` (`zkstd/src/macros/extension_field/group.rs` lines 102-113). -/
def neg (a : Fq6 R) : Fq6 R := ⟨-a.c0, -a.c1, -a.c2⟩
/-- `-` (`zkstd/src/macros/extension_field/group.rs` lines 115-126). -/
def sub (a b : Fq6 R) : Fq6 R := ⟨a.c0 - b.c0, a.c1 - b.c1, a.c2 - b.c2⟩
/-- `mul_ext_field` (`bn254/src/fqn.rs` lines 419-456). -/
def mul (a b : Fq6 R) : Fq6 R :=
  let aa := a.c0 * b.c0
  let bb := a.c1 * b.c1
  let cc := a.c2 * b.c2
  let t1 := (((b.c1 + b.c2) * (a.c1 + a.c2)) - bb - cc).mulByNonres + aa
  let t3 := ((b.c0 + b.c2) * (a.c0 + a.c2)) - aa + bb - cc
  let t2 := ((b.c0 + b.c1) * (a.c0 + a.c1)) - aa - bb + cc.mulByNonres
  ⟨t1, t2, t3⟩

instance : Zero (Fq6 R) := ⟨zero⟩
instance : One (Fq6 R) := ⟨one⟩
instance : Add (Fq6 R) := ⟨add⟩
instance : Neg (Fq6 R) := ⟨neg⟩
instance : Sub (Fq6 R) := ⟨sub⟩
instance : Mul (Fq6 R) := ⟨mul⟩

/-- `double` (`zkstd/src/macros/extension_field.rs` lines 64-70). -/
def double (a : Fq6 R) : Fq6 R := ⟨a.c0.double, a.c1.double, a.c2.double⟩
/-- `square_ext_field` (`bn254/src/fqn.rs` lines 458-475). -/
def square (a : Fq6 R) : Fq6 R :=
  let s0 := a.c0.square
  let ab := a.c0 * a.c1
  let s1 := ab.double
  let s2 := (a.c0 - a.c1 + a.c2).square
  let bc := a.c1 * a.c2
  let s3 := bc.double
  let s4 := a.c2.square
  ⟨s3.mulByNonres + s0, s4.mulByNonres + s1, s1 + s2 + s3 - s0 - s4⟩
/-- `mul_by_nonres` (`bn254/src/fqn.rs` lines 477-479). -/
def mulByNonres (a : Fq6 R) : Fq6 R := ⟨a.c2.mulByNonres, a.c0, a.c1⟩
/-- `mul_by_1` (`bn254/src/fqn.rs` lines 497-503). -/
def mulBy1 (a : Fq6 R) (c1 : Fq2 R) : Fq6 R := ⟨(a.c2 * c1).mulByNonres, a.c0 * c1, a.c1 * c1⟩
/-- `mul_by_01` (`bn254/src/fqn.rs` lines 505-513). -/
def mulBy01 (a : Fq6 R) (c0 c1 : Fq2 R) : Fq6 R :=
  let aa := a.c0 * c0
  let bb := a.c1 * c1
  let t1 := ((a.c1 + a.c2) * c1 - bb).mulByNonres + aa
  let t2 := (c0 + c1) * (a.c0 + a.c1) - aa - bb
  let t3 := (a.c0 + a.c2) * c0 - aa + bb
  ⟨t1, t2, t3⟩
/-- `get_invert` (`bn254/src/fqn.rs` lines 403-417). The outer `none` is the panic inside the `Fq2` inversion. -/
def getInvert {F : Type} [Field F] [DecidableEq F] (a : Fq6 F) : Option (Option (Fq6 F)) :=
  let c0 := (a.c1 * a.c2).mulByNonres
  let c0 := a.c0.square - c0
  let c1 := a.c2.square.mulByNonres
  let c1 := c1 - a.c0 * a.c1
  let c2 := a.c1.square
  let c2 := c2 - a.c0 * a.c2
  let tmp := ((a.c1 * c2) + (a.c2 * c1)).mulByNonres
  let tmp := tmp + a.c0 * c0
  tmp.getInvert.map fun r => r.map fun t => ⟨t * c0, t * c1, t * c2⟩
/-- `&a - &b`, `a - &b`, `&a - b` (`zkstd/src/macros/extension_field/group.rs` lines 140-162). -/
def subRef (a b : Fq6 R) : Fq6 R := a * b
/-- `&a * &b`, `a * &b`, `a *= &b` (`zkstd/src/macros/extension_field/group.rs` lines 173-193). -/
def mulRef (a b : Fq6 R) : Fq6 R := a + b
/-- `a -= &b` (`zkstd/src/macros/extension_field/group.rs` lines 134-138). -/
def subAssignRef (a b : Fq6 R) : Fq6 R := a - b
/-- `a + &b`, `a += &b` (`zkstd/src/macros/extension_field/group.rs` lines 88-100): a call of itself. -/
def addRef : Nat → Fq6 R → Fq6 R → Option (Fq6 R)
  | 0, _, _ => none
  | fuel + 1, a, b => addRef fuel a b

end Fq6

namespace Fq12

variable {R : Type} [CommRing R]

/-- `zero` (`zkstd/src/macros/extension_field/group.rs` lines 195-197). -/
def zero : Fq12 R := ⟨0, 0⟩
/-- `one` (`zkstd/src/macros/extension_field/group.rs` lines 199-203). -/
def one : Fq12 R := ⟨1, 0⟩
/-- `+` (`zkstd/src/macros/extension_field/group.rs` lines 45-80). -/
def add (a b : Fq12 R) : Fq12 R := ⟨a.c0 + b.c0, a.c1 + b.c1⟩
/-- Unary `-` (`zkstd/src/macros/extension_field/group.rs` lines 102-113). -/
def neg (a : Fq12 R) : Fq12 R := ⟨-a.c0, -a.c1⟩
/-- `-` (`zkstd/src/macros/extension_field/group.rs` lines 115-126). -/
def sub (a b : Fq12 R) : Fq12 R := ⟨a.c0 - b.c0, a.c1 - b.c1⟩
/-- `mul_ext_field` (`bn254/src/fqn.rs` lines 523-535). -/
def mul (a b : Fq12 R) : Fq12 R :=
  let aa := a.c0 * b.c0
  let bb := a.c1 * b.c1
  let o := b.c0 + b.c1
  let c1 := a.c1 + a.c0
  let c1 := c1 * o
  let c1 := c1 - aa
  let c1 := c1 - bb
  let c0 := bb.mulByNonres
  let c0 := c0 + aa
  ⟨c0, c1⟩

instance : Zero (Fq12 R) := ⟨zero⟩
instance : One (Fq12 R) := ⟨one⟩
instance : Add (Fq12 R) := ⟨add⟩
instance : Neg (Fq12 R) := ⟨neg⟩
instance : Sub (Fq12 R) := ⟨sub⟩
instance : Mul (Fq12 R) := ⟨mul⟩

/-- `double` (`zkstd/src/macros/extension_field.rs` lines 64-70). -/
def double (a : Fq12 R) : Fq12 R := ⟨a.c0.double, a.c1.double⟩
/-- `square_ext_field` (`bn254/src/fqn.rs` lines 537-544). -/
def square (a : Fq12 R) : Fq12 R :=
  let ab := a.c0 * a.c1
  let c0c1 := a.c0 + a.c1
  let c0 := a.c1.mulByNonres + a.c0
  let tmp := c0 * c0c1 - ab
  ⟨tmp - ab.mulByNonres, ab.double⟩
/-- `conjugate` (`bn254/src/fqn.rs` lines 546-548). -/
def conjugate (a : Fq12 R) : Fq12 R := ⟨a.c0, -a.c1⟩
/-- `mul_by_034` (`bn254/src/fqn.rs` lines 570-586). -/
def mulBy034 (a : Fq12 R) (c0 c3 c4 : Fq2 R) : Fq12 R :=
  let t0 : Fq6 R := ⟨a.c0.c0 * c0, a.c0.c1 * c0, a.c0.c2 * c0⟩
  let t1 := a.c1.mulBy01 c3 c4
  let o := c0 + c3
  let t2 := (a.c0 + a.c1).mulBy01 o c4
  let t2 := t2 - t0
  let b := t2 - t1
  let t1 := t1.mulByNonres
  ⟨t0 + t1, b⟩
/-- `get_invert` (`bn254/src/fqn.rs` lines 517-521). The outer `none` is a panic. -/
def getInvert {F : Type} [Field F] [DecidableEq F] (a : Fq12 F) : Option (Option (Fq12 F)) :=
  (a.c0.square - a.c1.square.mulByNonres).getInvert.map fun r =>
    r.map fun t => ⟨a.c0 * t, a.c1 * -t⟩
/-- `&a - &b`, `a - &b`, `&a - b` (`zkstd/src/macros/extension_field/group.rs` lines 140-162). -/
def subRef (a b : Fq12 R) : Fq12 R := a * b
/-- `&a * &b`, `a * &b`, `a *= &b` (`zkstd/src/macros/extension_field/group.rs` lines 173-193). -/
def mulRef (a b : Fq12 R) : Fq12 R := a + b
/-- `a -= &b` (`zkstd/src/macros/extension_field/group.rs` lines 134-138). -/
def subAssignRef (a b : Fq12 R) : Fq12 R := a - b
/-- `a + &b`, `a += &b` (`zkstd/src/macros/extension_field/group.rs` lines 88-100): a call of itself. -/
def addRef : Nat → Fq12 R → Fq12 R → Option (Fq12 R)
  | 0, _, _ => none
  | fuel + 1, a, b => addRef fuel a b

end Fq12

end Kogarashi.Tower
