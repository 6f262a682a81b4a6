import Verif.Tower.Words

/-!
# The tower and the pairing with the code's own base field (`bn254/src/fqn.rs`, `bn254/src/g2.rs`, `bn254/src/pairing.rs`)

`Fqn`, `FinalExp` and `Pairing` model these functions over a ring, where a square is a product.  The code's `square` is
not its product (C03).  Here the same functions are written over any set of base-field routines, among them `square` and
`double`, so that they can be run with the routines of the code on raw limbs.  A panic is `none`.
-/

namespace Kogarashi.Tower

open Limbs Kogarashi.Field Spec Props Curve

/-- The routines of `Fq` that the tower calls (`zkstd/src/arithmetic/limbs/bits_256/normal.rs` lines 1-287,
`zkstd/src/macros/field.rs`). -/
structure Base (A : Type) where
  zero : A
  one : A
  add : A → A → A
  sub : A → A → A
  neg : A → A
  double : A → A
  mul : A → A → A
  square : A → A
  invert : A → Option A
  isZero : A → Bool

namespace Base

variable {A : Type} (O : Base A)

/-! ### `Fq2` -/

/-- `zero` (`zkstd/src/macros/extension_field/group.rs` lines 195-197). -/
def zero2 : Fq2 A := ⟨O.zero, O.zero⟩
/-- `one` (`zkstd/src/macros/extension_field/group.rs` lines 199-203). -/
def one2 : Fq2 A := ⟨O.one, O.zero⟩
/-- `+` (`zkstd/src/macros/extension_field/group.rs` lines 45-56). -/
def add2 (a b : Fq2 A) : Fq2 A := ⟨O.add a.c0 b.c0, O.add a.c1 b.c1⟩
/-- Unary `-` (`zkstd/src/macros/extension_field/group.rs` lines 102-113). -/
def neg2 (a : Fq2 A) : Fq2 A := ⟨O.neg a.c0, O.neg a.c1⟩
/-- `-` (`zkstd/src/macros/extension_field/group.rs` lines 115-126). -/
def sub2 (a b : Fq2 A) : Fq2 A := ⟨O.sub a.c0 b.c0, O.sub a.c1 b.c1⟩
/-- `mul_ext_field` (`bn254/src/fqn.rs` lines 359-363). -/
def mul2 (a b : Fq2 A) : Fq2 A :=
  ⟨O.sub (O.mul a.c0 b.c0) (O.mul a.c1 b.c1), O.add (O.mul a.c0 b.c1) (O.mul a.c1 b.c0)⟩
/-- `double` (`zkstd/src/macros/extension_field.rs` lines 64-70). -/
def double2 (a : Fq2 A) : Fq2 A := ⟨O.double a.c0, O.double a.c1⟩
/-- `square_ext_field` (`bn254/src/fqn.rs` lines 365-369). -/
def square2 (a : Fq2 A) : Fq2 A := ⟨O.sub (O.square a.c0) (O.square a.c1), O.double (O.mul a.c0 a.c1)⟩
/-- `mul_by_nonres` (`bn254/src/fqn.rs` lines 372-384). -/
def nonres2 (a : Fq2 A) : Fq2 A :=
  let res := O.double2 (O.double2 (O.double2 a))
  ⟨O.add res.c0 (O.sub a.c0 a.c1), O.add res.c1 (O.add a.c0 a.c1)⟩
/-- `is_zero` (`zkstd/src/macros/extension_field.rs` lines 40-42). -/
def isZero2 (a : Fq2 A) : Bool := O.isZero a.c0 && O.isZero a.c1
/-- `get_invert` (`bn254/src/fqn.rs` lines 348-357). The outer `none` is the panic of `unwrap`. -/
def invert2 (a : Fq2 A) : Option (Option (Fq2 A)) :=
  if O.isZero2 a then some none
  else
    let t := O.add (O.square a.c0) (O.square a.c1)
    (O.invert t).map fun tInv => some ⟨O.mul tInv a.c0, O.mul tInv (O.neg a.c1)⟩

/-! ### `Fq6` -/

/-- `zero` (`zkstd/src/macros/extension_field/group.rs` lines 195-197). -/
def zero6 : Fq6 A := ⟨O.zero2, O.zero2, O.zero2⟩
/-- `one` (`zkstd/src/macros/extension_field/group.rs` lines 199-203). -/
def one6 : Fq6 A := ⟨O.one2, O.zero2, O.zero2⟩
/-- `+` (`zkstd/src/macros/extension_field/group.rs` lines 45-80). -/
def add6 (a b : Fq6 A) : Fq6 A := ⟨O.add2 a.c0 b.c0, O.add2 a.c1 b.c1, O.add2 a.c2 b.c2⟩
/-- Unary `-` (`zkstd/src/macros/extension_field/group.rs` lines 102-113). -/
def neg6 (a : Fq6 A) : Fq6 A := ⟨O.neg2 a.c0, O.neg2 a.c1, O.neg2 a.c2⟩
/-- `-` (`zkstd/src/macros/extension_field/group.rs` lines 115-126). -/
def sub6 (a b : Fq6 A) : Fq6 A := ⟨O.sub2 a.c0 b.c0, O.sub2 a.c1 b.c1, O.sub2 a.c2 b.c2⟩
/-- `mul_ext_field` (`bn254/src/fqn.rs` lines 419-456). -/
def mul6 (a b : Fq6 A) : Fq6 A :=
  let aa := O.mul2 a.c0 b.c0
  let bb := O.mul2 a.c1 b.c1
  let cc := O.mul2 a.c2 b.c2
  let t1 := O.add2 (O.nonres2 (O.sub2 (O.sub2 (O.mul2 (O.add2 b.c1 b.c2) (O.add2 a.c1 a.c2)) bb) cc)) aa
  let t3 := O.sub2 (O.add2 (O.sub2 (O.mul2 (O.add2 b.c0 b.c2) (O.add2 a.c0 a.c2)) aa) bb) cc
  let t2 := O.add2 (O.sub2 (O.sub2 (O.mul2 (O.add2 b.c0 b.c1) (O.add2 a.c0 a.c1)) aa) bb) (O.nonres2 cc)
  ⟨t1, t2, t3⟩
/-- `double` (`zkstd/src/macros/extension_field.rs` lines 64-70). -/
def double6 (a : Fq6 A) : Fq6 A := ⟨O.double2 a.c0, O.double2 a.c1, O.double2 a.c2⟩
/-- `square_ext_field` (`bn254/src/fqn.rs` lines 458-475). -/
def square6 (a : Fq6 A) : Fq6 A :=
  let s0 := O.square2 a.c0
  let ab := O.mul2 a.c0 a.c1
  let s1 := O.double2 ab
  let s2 := O.square2 (O.add2 (O.sub2 a.c0 a.c1) a.c2)
  let bc := O.mul2 a.c1 a.c2
  let s3 := O.double2 bc
  let s4 := O.square2 a.c2
  ⟨O.add2 (O.nonres2 s3) s0, O.add2 (O.nonres2 s4) s1, O.sub2 (O.sub2 (O.add2 (O.add2 s1 s2) s3) s0) s4⟩
/-- `mul_by_nonres` (`bn254/src/fqn.rs` lines 477-479). -/
def nonres6 (a : Fq6 A) : Fq6 A := ⟨O.nonres2 a.c2, a.c0, a.c1⟩
/-- `mul_by_01` (`bn254/src/fqn.rs` lines 505-513). -/
def mulBy01 (a : Fq6 A) (c0 c1 : Fq2 A) : Fq6 A :=
  let aa := O.mul2 a.c0 c0
  let bb := O.mul2 a.c1 c1
  let t1 := O.add2 (O.nonres2 (O.sub2 (O.mul2 (O.add2 a.c1 a.c2) c1) bb)) aa
  let t2 := O.sub2 (O.sub2 (O.mul2 (O.add2 c0 c1) (O.add2 a.c0 a.c1)) aa) bb
  let t3 := O.add2 (O.sub2 (O.mul2 (O.add2 a.c0 a.c2) c0) aa) bb
  ⟨t1, t2, t3⟩
/-- `get_invert` (`bn254/src/fqn.rs` lines 403-417). The outer `none` is the panic inside the `Fq2` inversion. -/
def invert6 (a : Fq6 A) : Option (Option (Fq6 A)) :=
  let c0 := O.sub2 (O.square2 a.c0) (O.nonres2 (O.mul2 a.c1 a.c2))
  let c1 := O.sub2 (O.nonres2 (O.square2 a.c2)) (O.mul2 a.c0 a.c1)
  let c2 := O.sub2 (O.square2 a.c1) (O.mul2 a.c0 a.c2)
  let tmp := O.add2 (O.nonres2 (O.add2 (O.mul2 a.c1 c2) (O.mul2 a.c2 c1))) (O.mul2 a.c0 c0)
  (O.invert2 tmp).map fun r => r.map fun t => ⟨O.mul2 t c0, O.mul2 t c1, O.mul2 t c2⟩

/-! ### `Fq12` -/

/-- `one` (`zkstd/src/macros/extension_field/group.rs` lines 199-203). -/
def one12 : Fq12 A := ⟨O.one6, O.zero6⟩
/-- `mul_ext_field` (`bn254/src/fqn.rs` lines 523-535). -/
def mul12 (a b : Fq12 A) : Fq12 A :=
  let aa := O.mul6 a.c0 b.c0
  let bb := O.mul6 a.c1 b.c1
  let o := O.add6 b.c0 b.c1
  let c1 := O.sub6 (O.sub6 (O.mul6 (O.add6 a.c1 a.c0) o) aa) bb
  ⟨O.add6 (O.nonres6 bb) aa, c1⟩
/-- `square_ext_field` (`bn254/src/fqn.rs` lines 537-544). -/
def square12 (a : Fq12 A) : Fq12 A :=
  let ab := O.mul6 a.c0 a.c1
  let c0c1 := O.add6 a.c0 a.c1
  let c0 := O.add6 (O.nonres6 a.c1) a.c0
  let tmp := O.sub6 (O.mul6 c0 c0c1) ab
  ⟨O.sub6 tmp (O.nonres6 ab), O.double6 ab⟩
/-- `conjugate` (`bn254/src/fqn.rs` lines 546-548). -/
def conjugate12 (a : Fq12 A) : Fq12 A := ⟨a.c0, O.neg6 a.c1⟩
/-- `mul_by_034` (`bn254/src/fqn.rs` lines 570-586). -/
def mulBy034 (a : Fq12 A) (c0 c3 c4 : Fq2 A) : Fq12 A :=
  let t0 : Fq6 A := ⟨O.mul2 a.c0.c0 c0, O.mul2 a.c0.c1 c0, O.mul2 a.c0.c2 c0⟩
  let t1 := O.mulBy01 a.c1 c3 c4
  let o := O.add2 c0 c3
  let t2 := O.mulBy01 (O.add6 a.c0 a.c1) o c4
  let b := O.sub6 (O.sub6 t2 t0) t1
  ⟨O.add6 t0 (O.nonres6 t1), b⟩
/-- `get_invert` (`bn254/src/fqn.rs` lines 517-521). The outer `none` is a panic. -/
def invert12 (a : Fq12 A) : Option (Option (Fq12 A)) :=
  (O.invert6 (O.sub6 (O.square6 a.c0) (O.nonres6 (O.square6 a.c1)))).map fun r =>
    r.map fun t => ⟨O.mul6 a.c0 t, O.mul6 a.c1 (O.neg6 t)⟩

/-! ### Line coefficients (`bn254/src/g2.rs`) -/

/-- `G2Projective::double_eval` (`bn254/src/g2.rs` lines 213-235): the updated point and the coefficients. -/
def doubleEval (s : Proj (Fq2 A)) : Proj (Fq2 A) × PairingCoeff A :=
  let tmp0 := O.square2 s.x
  let tmp1 := O.square2 s.y
  let tmp2 := O.square2 tmp1
  let tmp3 := O.sub2 (O.sub2 (O.square2 (O.add2 tmp1 s.x)) tmp0) tmp2
  let tmp3 := O.double2 tmp3
  let tmp4 := O.add2 (O.double2 tmp0) tmp0
  let tmp6 := O.add2 s.x tmp4
  let tmp5 := O.square2 tmp4
  let zsquared := O.square2 s.z
  let x := O.sub2 tmp5 (O.double2 tmp3)
  let z := O.sub2 (O.sub2 (O.square2 (O.add2 s.z s.y)) tmp1) zsquared
  let y := O.sub2 (O.mul2 (O.sub2 tmp3 x) tmp4) (O.double2 (O.double2 (O.double2 tmp2)))
  let tmp3 := O.neg2 (O.double2 (O.mul2 tmp4 zsquared))
  let tmp6 := O.sub2 (O.sub2 (O.square2 tmp6) tmp0) tmp5
  let tmp1 := O.double2 (O.double2 tmp1)
  let tmp6 := O.sub2 tmp6 tmp1
  let tmp0 := O.double2 (O.mul2 z zsquared)
  (⟨x, y, z⟩, ⟨tmp0, tmp3, tmp6⟩)

/-- `G2Projective::add_eval` (`bn254/src/g2.rs` lines 237-264): the updated point and the coefficients. -/
def addEval (s : Proj (Fq2 A)) (rhs : Aff (Fq2 A)) : Proj (Fq2 A) × PairingCoeff A :=
  let zsquared := O.square2 s.z
  let ysquared := O.square2 rhs.y
  let t0 := O.mul2 zsquared rhs.x
  let t1 := O.mul2 (O.sub2 (O.sub2 (O.square2 (O.add2 rhs.y s.z)) ysquared) zsquared) zsquared
  let t2 := O.sub2 t0 s.x
  let t3 := O.square2 t2
  let t4 := O.double2 (O.double2 t3)
  let t5 := O.mul2 t4 t2
  let t6 := O.sub2 t1 (O.double2 s.y)
  let t9 := O.mul2 t6 rhs.x
  let t7 := O.mul2 t4 s.x
  let x := O.sub2 (O.sub2 (O.square2 t6) t5) (O.double2 t7)
  let z := O.sub2 (O.sub2 (O.square2 (O.add2 s.z t2)) zsquared) t3
  let t10 := O.add2 rhs.y z
  let t8 := O.mul2 (O.sub2 t7 x) t6
  let t0 := O.mul2 s.y t5
  let y := O.sub2 t8 (O.double2 t0)
  let t10 := O.sub2 (O.square2 t10) ysquared
  let ztsquared := O.square2 z
  let t10 := O.sub2 t10 ztsquared
  let t9 := O.sub2 (O.double2 t9) t10
  let t10 := O.double2 z
  let t1 := O.neg2 (O.double2 t6)
  (⟨x, y, z⟩, ⟨t10, t1, t9⟩)

/-- Unary `-` on `G2Affine` (`bn254/src/g2.rs` lines 44-54). -/
def negAff (p : Aff (Fq2 A)) : Aff (Fq2 A) := ⟨p.x, O.neg2 p.y, p.inf⟩

/-- One iteration of the loop of `G2PairingAffine::from` (`bn254/src/g2.rs` lines 279-291). -/
def prepareStep (g2 : Aff (Fq2 A)) (st : Proj (Fq2 A) × List (PairingCoeff A)) (digit : Int) :
    Proj (Fq2 A) × List (PairingCoeff A) :=
  let d := O.doubleEval st.1
  let cs := st.2 ++ [d.2]
  if digit = 1 then
    let e := O.addEval d.1 g2
    (e.1, cs ++ [e.2])
  else if digit = -1 then
    let e := O.addEval d.1 (O.negAff g2)
    (e.1, cs ++ [e.2])
  else (d.1, cs)

variable (k : Consts A)

/-- The point of the first extra step (`bn254/src/g2.rs` lines 293-299). -/
def frobPoint (g2 : Aff (Fq2 A)) : Aff (Fq2 A) :=
  ⟨O.mul2 ⟨g2.x.c0, O.neg g2.x.c1⟩ (k.fq6C1 1), O.mul2 ⟨g2.y.c0, O.neg g2.y.c1⟩ k.xiQ, g2.inf⟩
/-- The point of the second extra step (`bn254/src/g2.rs` lines 303-304). -/
def minusFrob2Point (g2 : Aff (Fq2 A)) : Aff (Fq2 A) := ⟨O.mul2 g2.x (k.fq6C1 2), g2.y, g2.inf⟩

/-- `G2PairingAffine::from` (`bn254/src/g2.rs` lines 267-313). -/
def prepare (g2 : Aff (Fq2 A)) : G2Pairing A :=
  if g2.inf then ⟨[], true⟩
  else
    let st := loopDigits.foldl (O.prepareStep g2) (⟨g2.x, g2.y, O.one2⟩, [])
    let e1 := O.addEval st.1 (O.frobPoint k g2)
    let e2 := O.addEval e1.1 (O.minusFrob2Point k g2)
    ⟨st.2 ++ [e1.2, e2.2], false⟩

/-! ### The Miller loop (`bn254/src/pairing.rs`) -/

/-- `Fq12::untwist` (`bn254/src/fqn.rs` lines 26-37). -/
def untwist (f : Fq12 A) (c : PairingCoeff A) (g1 : Aff A) : Fq12 A :=
  O.mulBy034 f ⟨O.mul c.e0.c0 g1.y, O.mul c.e0.c1 g1.y⟩ ⟨O.mul c.e1.c0 g1.x, O.mul c.e1.c1 g1.x⟩ c.e2

/-- One pass over the pairs (`bn254/src/pairing.rs` lines 51-53, 57-59, 62-64, 70-72, 74-76); `none` is the panic of
`coeffs.next().unwrap()`. -/
def pass (acc : Fq12 A) : List (Aff A × List (PairingCoeff A)) → Option (Fq12 A × List (Aff A × List (PairingCoeff A)))
  | [] => some (acc, [])
  | (_, []) :: _ => none
  | (p, c :: cs) :: rest => do
    let (acc, rest) ← pass (O.untwist acc c p) rest
    some (acc, (p, cs) :: rest)

/-- The main loop of `multi_miller_loop` (`bn254/src/pairing.rs` lines 47-68); `first` tells whether
`i == SIX_U_PLUS_2_NAF.len() - 1`. -/
def millerMain : Bool → List Int → Fq12 A → List (Aff A × List (PairingCoeff A)) →
    Option (Fq12 A × List (Aff A × List (PairingCoeff A)))
  | _, [], acc, pairs => some (acc, pairs)
  | first, x :: xs, acc, pairs => do
    let acc := if first then acc else O.square12 acc
    let (acc, pairs) ← O.pass acc pairs
    if x = 1 then
      let (acc, pairs) ← O.pass acc pairs
      millerMain false xs acc pairs
    else if x = -1 then
      let (acc, pairs) ← O.pass acc pairs
      millerMain false xs acc pairs
    else millerMain false xs acc pairs

/-- `multi_miller_loop` (`bn254/src/pairing.rs` lines 38-83); `none` is a panic. -/
def multiMillerLoop (pairs : List (Aff A × G2Pairing A)) : Option (Fq12 A) := do
  let pairs := (pairs.filter fun pq => !pq.1.inf && !pq.2.isInfinity).map fun pq => (pq.1, pq.2.coeffs)
  let (acc, pairs) ← O.millerMain true loopDigits O.one12 pairs
  let (acc, pairs) ← O.pass acc pairs
  let (acc, pairs) ← O.pass acc pairs
  if pairs.all fun pc => pc.2.isEmpty then some acc else none

/-! ### The final exponentiation (`bn254/src/fqn.rs` lines 39-153) -/

/-- `fp4_square` (`bn254/src/fqn.rs` lines 40-51). -/
def fp4Square (a b : Fq2 A) : Fq2 A × Fq2 A :=
  let t0 := O.square2 a
  let t1 := O.square2 b
  let c0 := O.add2 (O.nonres2 t1) t0
  let t2 := O.square2 (O.add2 a b)
  let c1 := O.sub2 (O.sub2 t2 t0) t1
  (c0, c1)

/-- `cyclotomic_square` (`bn254/src/fqn.rs` lines 56-92). -/
def cyclotomicSquare (f : Fq12 A) : Fq12 A :=
  let z0 := f.c0.c0
  let z4 := f.c0.c1
  let z3 := f.c0.c2
  let z2 := f.c1.c0
  let z1 := f.c1.c1
  let z5 := f.c1.c2
  let s := O.fp4Square z0 z1
  let z0 := O.sub2 s.1 z0
  let z0 := O.add2 (O.double2 z0) s.1
  let z1 := O.add2 s.2 z1
  let z1 := O.add2 (O.double2 z1) s.2
  let s := O.fp4Square z2 z3
  let t := O.fp4Square z4 z5
  let z4 := O.sub2 s.1 z4
  let z4 := O.add2 (O.double2 z4) s.1
  let z5 := O.add2 s.2 z5
  let z5 := O.add2 (O.double2 z5) s.2
  let t0 := O.nonres2 t.2
  let z2 := O.add2 t0 z2
  let z2 := O.add2 (O.double2 z2) t0
  let z3 := O.sub2 t.1 z3
  let z3 := O.add2 (O.double2 z3) t.1
  ⟨⟨z0, z4, z3⟩, ⟨z2, z1, z5⟩⟩

/-- One iteration of `cycolotomic_exp` (`bn254/src/fqn.rs` lines 97-102). -/
def cyclotomicStep (f res : Fq12 A) (isOne : Bool) : Fq12 A :=
  let res := O.cyclotomicSquare res
  if isOne then O.mul12 res f else res

/-- `cycolotomic_exp` (`bn254/src/fqn.rs` lines 94-104). -/
def cyclotomicExp (f : Fq12 A) : Fq12 A :=
  ((List.range 64).reverse.map fun i => BN_X / 2 ^ i % 2 == 1).foldl (O.cyclotomicStep f) O.one12

/-- `Fq2::frobenius_maps` (`bn254/src/fqn.rs` lines 394-399). -/
def frob2 (a : Fq2 A) (power : Nat) : Fq2 A := ⟨a.c0, O.mul a.c1 (k.fq2C1 (power % 2))⟩
/-- `Fq6::frobenius_maps` (`bn254/src/fqn.rs` lines 489-495). -/
def frob6 (a : Fq6 A) (power : Nat) : Fq6 A :=
  ⟨O.frob2 k a.c0 power, O.mul2 (O.frob2 k a.c1 power) (k.fq6C1 (power % 6)),
    O.mul2 (O.frob2 k a.c2 power) (k.fq6C2 (power % 6))⟩
/-- `Fq12::frobenius_maps` (`bn254/src/fqn.rs` lines 558-568). -/
def frob12 (a : Fq12 A) (power : Nat) : Fq12 A :=
  let c0 := O.frob6 k a.c0 power
  let c1 := O.frob6 k a.c1 power
  ⟨c0, ⟨O.mul2 c1.c0 (k.fq12C1 (power % 12)), O.mul2 c1.c1 (k.fq12C1 (power % 12)),
    O.mul2 c1.c2 (k.fq12C1 (power % 12))⟩⟩

/-- The part of `final_exp` after the inversion (`bn254/src/fqn.rs` lines 106-147). -/
def finalExpTail (f1 f2 : Fq12 A) : Fq12 A :=
  let f2 := O.mul12 f2 f1
  let r := O.mul12 (O.frob12 k f2 2) f2
  let fp := O.frob12 k r 1
  let fp2 := O.frob12 k r 2
  let fp3 := O.frob12 k fp2 1
  let fu := O.cyclotomicExp r
  let fu2 := O.cyclotomicExp fu
  let fu3 := O.cyclotomicExp fu2
  let y3 := O.conjugate12 (O.frob12 k fu 1)
  let fu2p := O.frob12 k fu2 1
  let fu3p := O.frob12 k fu3 1
  let y2 := O.frob12 k fu2 2
  let y0 := O.mul12 (O.mul12 fp fp2) fp3
  let y1 := O.conjugate12 r
  let y5 := O.conjugate12 fu2
  let y4 := O.conjugate12 (O.mul12 fu fu2p)
  let y6 := O.mul12 (O.mul12 (O.cyclotomicSquare (O.conjugate12 (O.mul12 fu3 fu3p))) y4) y5
  let t1 := O.mul12 (O.mul12 y3 y5) y6
  let y6 := O.mul12 y6 y2
  let t1 := O.cyclotomicSquare (O.mul12 (O.cyclotomicSquare t1) y6)
  let t0 := O.mul12 t1 y1
  let t1 := O.mul12 t1 y0
  O.mul12 (O.cyclotomicSquare t0) t1

/-- `final_exp` (`bn254/src/fqn.rs` lines 39-152); `none` is the panic of `unwrap` (line 149) or inside `invert`. -/
def finalExp (f : Fq12 A) : Option (Fq12 A) :=
  match O.invert12 f with
  | some (some f2) => some (O.finalExpTail k (O.conjugate12 f) f2)
  | _ => none

/-- `pairing` (`bn254/src/pairing.rs` lines 33-36). -/
def pairing (g1 : Aff A) (g2 : Aff (Fq2 A)) : Option (Fq12 A) := do
  let f ← O.multiMillerLoop [(g1, O.prepare k g2)]
  O.finalExp k f

end Base

/-- The routines of the code on raw limbs (`zkstd/src/arithmetic/limbs/bits_256/normal.rs`; `bn254/src/fq.rs`). -/
def codeBase : Base L4 where
  zero := FieldParams.zero
  one := fqParams.one
  add := fqParams.add
  sub := fqParams.sub
  neg := fqParams.neg
  double := fqParams.double
  mul := fqParams.mul
  square := fqParams.square
  invert := fqParams.invert
  isZero a := decide (a = FieldParams.zero)

/-- The constants as raw limbs (`bn254/src/params.rs` lines 59-383, `bn254/src/pairing.rs` lines 11-24). -/
def constsCode : Consts L4 where
  fq2C1 i := frobFq2C1Raw.getD i ⟨0, 0, 0, 0⟩
  fq6C1 i := frobFq6C1Raw.getD i ⟨⟨0, 0, 0, 0⟩, ⟨0, 0, 0, 0⟩⟩
  fq6C2 i := frobFq6C2Raw.getD i ⟨⟨0, 0, 0, 0⟩, ⟨0, 0, 0, 0⟩⟩
  fq12C1 i := frobFq12C1Raw.getD i ⟨⟨0, 0, 0, 0⟩, ⟨0, 0, 0, 0⟩⟩
  xiQ := xiQRaw

/-- `pairing` (`bn254/src/pairing.rs` lines 33-36) with the code's own routines on raw limbs. -/
def codePairing (p : Aff L4) (q : Aff (Fq2 L4)) : Option (Fq12 L4) := codeBase.pairing constsCode p q

/-- The routines of a field, a square being a product. -/
def fieldBase (F : Type) [_root_.Field F] [DecidableEq F] : Base F where
  zero := 0
  one := 1
  add a b := a + b
  sub a b := a - b
  neg a := -a
  double a := a + a
  mul a b := a * b
  square a := a * a
  invert := Fq2.baseInvert
  isZero a := decide (a = 0)

section
variable (F : Type) [_root_.Field F] [DecidableEq F]

theorem fb_add2 (a b : Fq2 F) : (fieldBase F).add2 a b = a + b := rfl
theorem fb_sub2 (a b : Fq2 F) : (fieldBase F).sub2 a b = a - b := rfl
theorem fb_neg2 (a : Fq2 F) : (fieldBase F).neg2 a = -a := rfl
theorem fb_mul2 (a b : Fq2 F) : (fieldBase F).mul2 a b = a * b := rfl
theorem fb_double2 (a : Fq2 F) : (fieldBase F).double2 a = a.double := rfl
theorem fb_square2 (a : Fq2 F) : (fieldBase F).square2 a = a.square := rfl
theorem fb_nonres2 (a : Fq2 F) : (fieldBase F).nonres2 a = a.mulByNonres := rfl
theorem fb_invert2 (a : Fq2 F) : (fieldBase F).invert2 a = a.getInvert := rfl
theorem fb_add6 (a b : Fq6 F) : (fieldBase F).add6 a b = a + b := rfl
theorem fb_sub6 (a b : Fq6 F) : (fieldBase F).sub6 a b = a - b := rfl
theorem fb_neg6 (a : Fq6 F) : (fieldBase F).neg6 a = -a := rfl
theorem fb_double6 (a : Fq6 F) : (fieldBase F).double6 a = a.double := rfl
theorem fb_nonres6 (a : Fq6 F) : (fieldBase F).nonres6 a = a.mulByNonres := rfl
theorem fb_mul6 (a b : Fq6 F) : (fieldBase F).mul6 a b = a * b := by
  show _ = Fq6.mul a b
  simp only [Base.mul6, Fq6.mul, fb_add2, fb_sub2, fb_mul2, fb_nonres2]
theorem fb_square6 (a : Fq6 F) : (fieldBase F).square6 a = a.square := by
  simp only [Base.square6, Fq6.square, fb_add2, fb_sub2, fb_mul2, fb_nonres2, fb_square2, fb_double2]
theorem fb_mulBy01 (a : Fq6 F) (c d : Fq2 F) : (fieldBase F).mulBy01 a c d = a.mulBy01 c d := by
  simp only [Base.mulBy01, Fq6.mulBy01, fb_add2, fb_sub2, fb_mul2, fb_nonres2]
theorem fb_invert6 (a : Fq6 F) : (fieldBase F).invert6 a = a.getInvert := by
  simp only [Base.invert6, Fq6.getInvert, fb_add2, fb_sub2, fb_mul2, fb_nonres2, fb_square2, fb_invert2]
theorem fb_one12 : (fieldBase F).one12 = 1 := rfl
theorem fb_mul12 (a b : Fq12 F) : (fieldBase F).mul12 a b = a * b := by
  show _ = Fq12.mul a b
  simp only [Base.mul12, Fq12.mul, fb_add6, fb_sub6, fb_mul6, fb_nonres6]
theorem fb_square12 (a : Fq12 F) : (fieldBase F).square12 a = a.square := by
  simp only [Base.square12, Fq12.square, fb_add6, fb_sub6, fb_mul6, fb_nonres6, fb_double6]
theorem fb_conjugate12 (a : Fq12 F) : (fieldBase F).conjugate12 a = a.conjugate := rfl
theorem fb_mulBy034 (a : Fq12 F) (c d e : Fq2 F) : (fieldBase F).mulBy034 a c d e = a.mulBy034 c d e := by
  simp only [Base.mulBy034, Fq12.mulBy034, fb_add2, fb_mul2, fb_add6, fb_sub6, fb_mulBy01, fb_nonres6]
theorem fb_invert12 (a : Fq12 F) : (fieldBase F).invert12 a = a.getInvert := by
  simp only [Base.invert12, Fq12.getInvert, fb_sub6, fb_square6, fb_nonres6, fb_invert6, fb_mul6, fb_neg6]
theorem fb_doubleEval (s : Proj (Fq2 F)) : (fieldBase F).doubleEval s = doubleEval s := by
  simp only [Base.doubleEval, doubleEval, fb_add2, fb_sub2, fb_mul2, fb_neg2, fb_square2, fb_double2]
theorem fb_addEval (s : Proj (Fq2 F)) (r : Aff (Fq2 F)) : (fieldBase F).addEval s r = addEval s r := by
  simp only [Base.addEval, addEval, fb_add2, fb_sub2, fb_mul2, fb_neg2, fb_square2, fb_double2]
theorem fb_negAff (p : Aff (Fq2 F)) : (fieldBase F).negAff p = negAff p := rfl
theorem fb_prepareStep (g : Aff (Fq2 F)) : (fieldBase F).prepareStep g = prepareStep g := by
  funext st d
  simp only [Base.prepareStep, prepareStep, fb_doubleEval, fb_addEval, fb_negAff]
theorem fb_prepare (k : Consts F) (g : Aff (Fq2 F)) : (fieldBase F).prepare k g = k.prepare g := by
  have h1 : (fieldBase F).frobPoint k g = k.frobPoint g := rfl
  have h2 : (fieldBase F).minusFrob2Point k g = k.minusFrob2Point g := rfl
  have h3 : (fieldBase F).one2 = 1 := rfl
  simp only [Base.prepare, Consts.prepare, fb_prepareStep, fb_addEval, h1, h2, h3]
theorem fb_untwist (a : Fq12 F) (c : PairingCoeff F) (p : Aff F) : (fieldBase F).untwist a c p = untwist a c p := by
  simp only [Base.untwist, untwist, fb_mulBy034]
  rfl

theorem fb_pass (a : Fq12 F) (l : List (Aff F × List (PairingCoeff F))) : (fieldBase F).pass a l = pass a l := by
  induction l generalizing a with
  | nil => rfl
  | cons pc l ih =>
    obtain ⟨p, cs⟩ := pc
    cases cs with
    | nil => rfl
    | cons c cs => simp only [Base.pass, pass, ih, fb_untwist]

theorem fb_millerMain (b : Bool) (ds : List Int) (a : Fq12 F) (l : List (Aff F × List (PairingCoeff F))) :
    (fieldBase F).millerMain b ds a l = millerMain b ds a l := by
  induction ds generalizing b a l with
  | nil => rfl
  | cons d ds ih => simp only [Base.millerMain, millerMain, ih, fb_pass, fb_square12]

theorem fb_multiMillerLoop (l : List (Aff F × G2Pairing F)) :
    (fieldBase F).multiMillerLoop l = multiMillerLoop l := by
  simp only [Base.multiMillerLoop, multiMillerLoop, fb_millerMain, fb_pass, fb_one12]

theorem fb_fp4Square (a b : Fq2 F) : (fieldBase F).fp4Square a b = fp4Square a b := by
  simp only [Base.fp4Square, fp4Square, fb_add2, fb_sub2, fb_nonres2, fb_square2]
theorem fb_cyclotomicSquare (a : Fq12 F) : (fieldBase F).cyclotomicSquare a = cyclotomicSquare a := by
  simp only [Base.cyclotomicSquare, cyclotomicSquare, fb_add2, fb_sub2, fb_nonres2, fb_double2, fb_fp4Square]
theorem fb_cyclotomicExp (a : Fq12 F) : (fieldBase F).cyclotomicExp a = cyclotomicExp a := by
  have h : (fieldBase F).cyclotomicStep a = fun res isOne =>
      let res := cyclotomicSquare res
      if isOne then res * a else res := by
    funext res b
    simp only [Base.cyclotomicStep, fb_cyclotomicSquare, fb_mul12]
  unfold Base.cyclotomicExp cyclotomicExp
  rw [h, fb_one12]
theorem fb_frob12 (k : Consts F) (a : Fq12 F) (n : Nat) : (fieldBase F).frob12 k a n = k.frob12 a n := rfl

theorem fb_finalExpTail (k : Consts F) (a b : Fq12 F) : (fieldBase F).finalExpTail k a b = k.finalExpTail a b := by
  simp only [Base.finalExpTail, Consts.finalExpTail, fb_mul12, fb_frob12, fb_conjugate12, fb_cyclotomicSquare,
    fb_cyclotomicExp]

theorem fb_finalExp (k : Consts F) : (fieldBase F).finalExp k = k.finalExp := by
  funext f
  unfold Base.finalExp Consts.finalExp
  rw [fb_invert12, fb_conjugate12]
  generalize f.getInvert = o
  generalize f.conjugate = c
  match o with
  | none => rfl
  | some none => rfl
  | some (some f2) => exact congrArg some (fb_finalExpTail F k c f2)

/-- Over a field, with products for squares, these are the functions of `Words`. -/
theorem fieldBase_pairing (k : Consts F) (p : Aff F) (q : Aff (Fq2 F)) :
    (fieldBase F).pairing k p q = k.pairing p q := by
  unfold Base.pairing Consts.pairing
  rw [fb_prepare, fb_multiMillerLoop, fb_finalExp]

end

end Kogarashi.Tower
