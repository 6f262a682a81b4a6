import Verif.R1cs.Gadget
import Verif.Curve.Weierstrass

/-!
# Model: the point gadget (`zkstd/src/circuit/gadget/curve.rs`)

`b3` is `C::b3()`, three times the curve constant.
-/

namespace Kogarashi

/-- `curve.rs:8-13` `PointAssignment { x, y, z }`. -/
structure PointRow (F : Type) where
  x : Row F
  y : Row F
  z : Row F

namespace Circ

variable {F : Type} [Field F] [DecidableEq F]

/-- `curve.rs:16-32` `instance`. -/
def ptInst (a : Curve.Aff F) : Circ F (PointRow F) := do
  let x ← inst a.x
  let y ← inst a.y
  let z ← inst (if a.isIdentity then 0 else 1)
  pure ⟨x, y, z⟩

/-- `curve.rs:56-67` `witness`. -/
def ptWit (x y : F) (isInfinity : Bool) : Circ F (PointRow F) := do
  let x ← wit x
  let y ← wit y
  let z ← wit (if isInfinity then 0 else 1)
  pure ⟨x, y, z⟩

/-- `curve.rs:48-54` `identity`. -/
def ptIdentity : PointRow F := ⟨const 0, const 1, const 0⟩

/-- `curve.rs:189-202` `select_identity`: the point when the bit is 1, the identity when it is 0. -/
def ptSelectIdentity (p : PointRow F) (bit : Bin) : Circ F (PointRow F) := do
  let x ← mul p.x (ofBin bit)
  let y ← mul p.y (ofBin bit)
  let z ← mul p.z (ofBin bit)
  pure ⟨x, Row.sub (Row.add y (const 1)) (ofBin bit), z⟩

/-- `curve.rs:34-46` `descale`. -/
def ptDescale (p : PointRow F) : Circ F (PointRow F) := do
  let takeValue ← isNeq p.z (const 0)
  let vz ← value p.z
  let inv ← wit vz⁻¹
  let x ← mul p.x inv
  let y ← mul p.y inv
  ptSelectIdentity ⟨x, y, const 1⟩ takeValue

/-- `curve.rs:69-87` `assert_equal_public_point`. -/
def ptAssertEqualPublic (p : PointRow F) (q : Curve.Proj F) : Circ F Unit := do
  let xz1 ← mul p.x (const q.z)
  let xz2 ← mul (const q.x) p.z
  enforceEq xz1 xz2
  let yz1 ← mul p.y (const q.z)
  let yz2 ← mul (const q.y) p.z
  enforceEq yz1 yz2

/-- `curve.rs:89-130` `add`. -/
def ptAdd (b3 : F) (p q : PointRow F) : Circ F (PointRow F) := do
  let t0 ← mul p.x q.x
  let t1 ← mul p.y q.y
  let t2 ← mul p.z q.z
  let t3 ← mul (Row.add p.x p.y) (Row.add q.x q.y)
  let t3 := Row.sub t3 (Row.add t0 t1)
  let t4 ← mul (Row.add p.y p.z) (Row.add q.y q.z)
  let t4 := Row.sub t4 (Row.add t1 t2)
  let x3 ← mul (Row.add p.x p.z) (Row.add q.x q.z)
  let y3 := Row.sub x3 (Row.add t0 t2)
  let t0 := Row.add (Row.add t0 t0) t0
  let t2 ← mul t2 (const b3)
  let z3 := Row.add t1 t2
  let t1 := Row.sub t1 t2
  let y3 ← mul y3 (const b3)
  let x3 ← mul t4 y3
  let t2 ← mul t3 t1
  let x3 := Row.sub t2 x3
  let y3 ← mul y3 t0
  let t1 ← mul t1 z3
  let y3 := Row.add t1 y3
  let t0 ← mul t0 t3
  let z3 ← mul z3 t4
  pure ⟨x3, y3, Row.add z3 t0⟩

/-- `curve.rs:132-158` `double`. -/
def ptDouble (b3 : F) (p : PointRow F) : Circ F (PointRow F) := do
  let t0 ← mul p.y p.y
  let z3 := Row.add t0 t0
  let z3 := Row.add z3 z3
  let z3 := Row.add z3 z3
  let t1 ← mul p.y p.z
  let t2 ← mul p.z p.z
  let t2 ← mul t2 (const b3)
  let x3 ← mul t2 z3
  let y3 := Row.add t0 t2
  let z3 ← mul t1 z3
  let t1 := Row.add t2 t2
  let t2 := Row.add t1 t2
  let t0 := Row.sub t0 t2
  let y3 ← mul t0 y3
  let y3 := Row.add x3 y3
  let t1 ← mul p.x p.y
  let x3 ← mul t0 t1
  pure ⟨Row.add x3 x3, y3, z3⟩

/-- `curve.rs:176-187` `conditional_select`. -/
def ptSelect (a b : PointRow F) (condition : Bin) : Circ F (PointRow F) := do
  let x ← conditionalSelect a.x b.x condition
  let y ← conditionalSelect a.y b.y condition
  let z ← conditionalSelect a.z b.z condition
  pure ⟨x, y, z⟩

/-- The loop of `scalar_point`, `curve.rs:167-171`. -/
def ptScalarLoop (b3 : F) (p : PointRow F) : List Bin → PointRow F → Circ F (PointRow F)
  | [], res => pure res
  | bit :: bits, res => do
    let r ← ptDouble b3 res
    let q ← ptSelectIdentity p bit
    let r ← ptAdd b3 r q
    ptScalarLoop b3 p bits r

/-- `curve.rs:161-174` `scalar_point`; `nb` is `C::NUM_BITS`. -/
def ptScalar {m : Nat} [Fact m.Prime] (nb : Nat) (b3 : ZMod m) (p : PointRow (ZMod m)) (scalar : Row (ZMod m)) :
    Circ (ZMod m) (PointRow (ZMod m)) := do
  let bits ← toBits nb scalar 256
  ptScalarLoop b3 p bits ptIdentity

end Circ

end Kogarashi
