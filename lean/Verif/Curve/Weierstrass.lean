import Mathlib.Algebra.Field.Defs
import Verif.Limbs.Represent

/-!
# Short Weierstrass points `y² = x³ + b`

Models `zkstd/src/arithmetic/points/weierstrass.rs` and the macros in `zkstd/src/macros/curve.rs` and
`zkstd/src/macros/curve/weierstrass*.rs`, which G1, G2 (`bn254/src/g1.rs`, `g2.rs`) and Grumpkin
(`grumpkin/src/curve.rs`) instantiate.

Simplifications: the base field is any Lean `Field` with decidable equality (the Rust code is generic over
`PrimeField`); `square()` is `x * x` and `double()` is `x + x`.
-/

namespace Kogarashi.Curve

open Limbs (Naf)

variable {F : Type} [Field F] [DecidableEq F]

/-- `G1Affine` and friends (`bn254/src/g1.rs` lines 15-22, `grumpkin/src/curve.rs` lines 9-15). -/
structure Aff (F : Type) where
  x : F
  y : F
  inf : Bool
deriving DecidableEq

/-- `G1Projective` and friends (`bn254/src/g1.rs` lines 118-124): homogeneous coordinates. -/
structure Proj (F : Type) where
  x : F
  y : F
  z : F
deriving DecidableEq

/-- `square` of the field traits (`zkstd/src/macros/field.rs`), as the product (see C03). -/
def sq (x : F) : F := x * x
/-- `double` of the field traits (`zkstd/src/macros/field.rs`). -/
def dbl (x : F) : F := x + x

namespace Aff

/-- `ADDITIVE_IDENTITY` (`macros/curve/weierstrass/group.rs` lines 22-26). -/
def identity : Aff F := ⟨0, 1, true⟩
/-- `is_identity` (`group.rs` lines 55-57). -/
def isIdentity (p : Aff F) : Bool := p.inf
/-- `PartialEq` (`group.rs` lines 5-13). -/
def eq (p q : Aff F) : Bool :=
  if p.isIdentity || q.isIdentity then p.isIdentity && q.isIdentity
  else decide (p.x = q.x) && decide (p.y = q.y)
/-- `is_on_curve` (`group.rs` lines 59-65). -/
def isOnCurve (b : F) (p : Aff F) : Bool :=
  if p.inf then true else decide (sq p.y = sq p.x * p.x + b)
/-- `Neg` (`bn254/src/g1.rs` lines 81-91). -/
def neg (p : Aff F) : Aff F := ⟨p.x, -p.y, p.inf⟩
/-- `Group::invert` (`group.rs` lines 28-37). -/
def invert (p : Aff F) : Option (Aff F) := if p.inf then none else some ⟨p.x, -p.y, false⟩
/-- `to_extended` (`macros/curve/weierstrass.rs` lines 33-43). -/
def toExtended (p : Aff F) : Proj F := if p.isIdentity then ⟨0, 1, 0⟩ else ⟨p.x, p.y, 1⟩

end Aff

namespace Proj

/-- `ADDITIVE_IDENTITY` (`group.rs` lines 106-110). -/
def identity : Proj F := ⟨0, 1, 0⟩
/-- `is_identity` (`group.rs` lines 139-141). -/
def isIdentity (p : Proj F) : Bool := decide (p.z = 0)
/-- `PartialEq` (`group.rs` lines 89-97). -/
def eq (p q : Proj F) : Bool :=
  if p.isIdentity || q.isIdentity then p.isIdentity && q.isIdentity
  else decide (p.x * q.z = q.x * p.z) && decide (p.y * q.z = q.y * p.z)
/-- `is_on_curve` (`group.rs` lines 143-150). -/
def isOnCurve (b : F) (p : Proj F) : Bool :=
  if p.isIdentity then true else decide (sq p.y * p.z = sq p.x * p.x + b * sq p.z * p.z)
/-- `Neg` (`bn254/src/g1.rs` lines 166-176). -/
def neg (p : Proj F) : Proj F := ⟨p.x, -p.y, p.z⟩
/-- `Group::invert` (`group.rs` lines 112-121). -/
def invert (p : Proj F) : Option (Proj F) := if p.z = 0 then none else some ⟨p.x, -p.y, p.z⟩
/-- `to_affine` (`macros/curve/weierstrass.rs` lines 57-66); the base-field `invert` is `None` at zero. -/
def toAffine (p : Proj F) : Aff F := if p.z = 0 then Aff.identity else ⟨p.x * p.z⁻¹, p.y * p.z⁻¹, false⟩

end Proj

/-- `double_affine_point` (`weierstrass.rs` lines 39-60). -/
def doubleAffine (b3 : F) (p : Aff F) : Proj F :=
  let t0 := sq p.y
  let z3 := dbl (dbl (dbl t0))
  let x3 := b3 * z3
  let y3 := t0 + b3
  let z3 := p.y * z3
  let t1 := dbl b3
  let t2 := t1 + b3
  let t0 := t0 - t2
  let y3 := t0 * y3
  let y3 := x3 + y3
  let t1 := p.x * p.y
  let x3 := t0 * t1
  let x3 := dbl x3
  ⟨x3, y3, z3⟩

/-- `double_projective_point` (`arithmetic/points/weierstrass.rs` lines 140-163). -/
def doubleProj (b3 : F) (p : Proj F) : Proj F :=
  let t0 := sq p.y
  let z3 := dbl (dbl (dbl t0))
  let t1 := p.y * p.z
  let t2 := sq p.z
  let t2 := t2 * b3
  let x3 := t2 * z3
  let y3 := t0 + t2
  let z3 := t1 * z3
  let t1 := dbl t2
  let t2 := t1 + t2
  let t0 := t0 - t2
  let y3 := t0 * y3
  let y3 := x3 + y3
  let t1 := p.x * p.y
  let x3 := t0 * t1
  let x3 := dbl x3
  ⟨x3, y3, z3⟩

/-- `add_affine_point` (`weierstrass.rs` lines 5-36). -/
def addAffine (b3 : F) (lhs rhs : Aff F) : Proj F :=
  if lhs.isIdentity then rhs.toExtended
  else if rhs.isIdentity then lhs.toExtended
  else if lhs.x = rhs.x then
    if lhs.y = rhs.y then doubleAffine b3 lhs else Proj.identity
  else
    let s := lhs.y - rhs.y
    let u := lhs.x - rhs.x
    let uu := sq u
    let w := sq s - uu * (lhs.x + rhs.x)
    let uuu := uu * u
    ⟨u * w, s * (lhs.x * uu - w) - lhs.y * uuu, uuu⟩

/-- `add_mixed_point` (`weierstrass.rs` lines 63-99). -/
def addMixed (b3 : F) (lhs : Aff F) (rhs : Proj F) : Proj F :=
  if lhs.isIdentity then rhs
  else if rhs.isIdentity then lhs.toExtended
  else
    let s1 := lhs.y * rhs.z
    let u1 := lhs.x * rhs.z
    if u1 = rhs.x then
      if s1 = rhs.y then doubleAffine b3 lhs else (Aff.identity : Aff F).toExtended
    else
      let u := s1 - rhs.y
      let uu := sq u
      let v := u1 - rhs.x
      let vv := sq v
      let vvv := vv * v
      let r := vv * rhs.x
      let a := uu * rhs.z - vvv - dbl r
      ⟨v * a, u * (r - a) - vvv * rhs.y, vvv * rhs.z⟩

/-- `add_projective_point` (`weierstrass.rs` lines 102-139). -/
def addProj (b3 : F) (lhs rhs : Proj F) : Proj F :=
  if lhs.isIdentity then rhs
  else if rhs.isIdentity then lhs
  else
    let s1 := lhs.y * rhs.z
    let s2 := rhs.y * lhs.z
    let u1 := lhs.x * rhs.z
    let u2 := rhs.x * lhs.z
    if u1 = u2 then
      if s1 = s2 then doubleProj b3 lhs else Proj.identity
    else
      let s := s1 - s2
      let u := u1 - u2
      let uu := sq u
      let v := lhs.z * rhs.z
      let w := sq s * v - uu * (u1 + u2)
      let uuu := uu * u
      ⟨u * w, s * (u1 * uu - w) - s1 * uuu, uuu * v⟩

/-- One iteration of `scalar_point` (`arithmetic/points/weierstrass.rs` lines 169-176); `res -= point` is `res + (-point)`
(`group.rs` lines 185-189, `bn254/src/g1.rs` lines 178-184). -/
def scalarStep (b3 : F) (point res : Proj F) (naf : Naf) : Proj F :=
  let res := doubleProj b3 res
  match naf with
  | .plus => addProj b3 res point
  | .minus => addProj b3 res point.neg
  | .zero => res

/-- `scalar_point` (`arithmetic/points/weierstrass.rs` lines 167-178), given the digits `scalar.to_nafs()`. -/
def scalarPoint (b3 : F) (point : Proj F) (nafs : List Naf) : Proj F :=
  nafs.foldl (scalarStep b3 point) Proj.identity

/-- `batch_normalize` (`bn254/src/g1.rs` lines 147-155): panics on a length mismatch. -/
def batchNormalize (p : List (Proj F)) (q : List (Aff F)) : Option (List (Aff F)) :=
  if p.length = q.length then some ((p.zip q).map (fun ab => ab.1.toAffine)) else none

/-- `Sum` (`bn254/src/g1.rs` lines 202-212). -/
def sumProj (b3 : F) (l : List (Proj F)) : Proj F := l.foldl (addProj b3) Proj.identity

/-! ### Subtraction operators, one definition per `impl`

By-value: `bn254/src/g1.rs` lines 93-99, 178-184 and `macros/curve.rs`; the by-reference forms delegate as
written in `macros/curve.rs`. -/

/-- `Sub for $affine` (`g1.rs` lines 93-99). -/
def affSubAff (b3 : F) (a b : Aff F) : Proj F := addAffine b3 a b.neg
/-- `Sub for $projective` (`g1.rs` lines 178-184). -/
def projSubProj (b3 : F) (a b : Proj F) : Proj F := addProj b3 a b.neg
/-- `&affine - &affine` (`macros/curve.rs` lines 42-48): `*self - *rhs`. -/
def affSubAffRR (b3 : F) (a b : Aff F) : Proj F := affSubAff b3 a b
/-- `affine - &affine` (`macros/curve.rs` lines 50-56): `&self - rhs`. -/
def affSubAffVR (b3 : F) (a b : Aff F) : Proj F := affSubAffRR b3 a b
/-- `&affine - affine` (`macros/curve.rs` lines 58-64): `self - &rhs`. -/
def affSubAffRV (b3 : F) (a b : Aff F) : Proj F := affSubAffRR b3 a b
/-- `&projective - &projective` (`macros/curve.rs` lines 42-48). -/
def projSubProjRR (b3 : F) (a b : Proj F) : Proj F := projSubProj b3 a b
/-- `projective - &projective` (`macros/curve.rs` lines 50-56). -/
def projSubProjVR (b3 : F) (a b : Proj F) : Proj F := projSubProjRR b3 a b
/-- `&projective - projective` (`macros/curve.rs` lines 58-64). -/
def projSubProjRV (b3 : F) (a b : Proj F) : Proj F := projSubProjRR b3 a b
/-- `affine - projective` (`macros/curve.rs` lines 151-157). -/
def affSubProj (b3 : F) (a : Aff F) (b : Proj F) : Proj F := addMixed b3 a b.neg
/-- `affine + projective` (`macros/curve.rs` lines 119-125). -/
def affAddProj (b3 : F) (a : Aff F) (b : Proj F) : Proj F := addMixed b3 a b
/-- `&affine + &projective` (`macros/curve.rs` lines 127-133). -/
def affAddProjRR (b3 : F) (a : Aff F) (b : Proj F) : Proj F := affAddProj b3 a b
/-- `&affine - &projective` (`macros/curve.rs` lines 159-165): the body is `*self + *rhs`. -/
def affSubProjRR (b3 : F) (a : Aff F) (b : Proj F) : Proj F := affAddProj b3 a b
/-- `affine - &projective` (`macros/curve.rs` lines 167-173): the body is `&self + rhs`. -/
def affSubProjVR (b3 : F) (a : Aff F) (b : Proj F) : Proj F := affAddProjRR b3 a b
/-- `&affine - projective` (`macros/curve.rs` lines 175-181): the body is `self + &rhs`. -/
def affSubProjRV (b3 : F) (a : Aff F) (b : Proj F) : Proj F := affAddProjRR b3 a b
/-- `projective - affine` (`macros/curve.rs` lines 215-221). -/
def projSubAff (b3 : F) (a : Proj F) (b : Aff F) : Proj F := addMixed b3 b.neg a
/-- `&projective - &affine` (`macros/curve.rs` lines 223-229). -/
def projSubAffRR (b3 : F) (a : Proj F) (b : Aff F) : Proj F := projSubAff b3 a b
/-- `projective - &affine` (`macros/curve.rs` lines 231-237). -/
def projSubAffVR (b3 : F) (a : Proj F) (b : Aff F) : Proj F := projSubAffRR b3 a b
/-- `&projective - affine` (`macros/curve.rs` lines 239-245). -/
def projSubAffRV (b3 : F) (a : Proj F) (b : Aff F) : Proj F := projSubAffRR b3 a b
/-- `projective -= projective` (`group.rs` lines 185-189), also through a reference (190-194). -/
def projSubAssign (b3 : F) (a b : Proj F) : Proj F := projSubProj b3 a b
/-- `projective -= affine` (`macros/curve.rs` lines 259-263), also through a reference (265-269). -/
def projSubAssignAff (b3 : F) (a : Proj F) (b : Aff F) : Proj F := addMixed b3 b.neg a
/-- `projective + affine` (`macros/curve.rs` lines 183-189), `+=` (247-257). -/
def projAddAff (b3 : F) (a : Proj F) (b : Aff F) : Proj F := addMixed b3 b a

/-! ### Subgroup check of G1 -/

/-- The loop of `mul_by_x` (`bn254/src/g1.rs` lines 128-142): `fuel` bounds the number of bits of `x`
(64 is enough for a `u64`). -/
def mulByXLoop (b3 : F) : Nat → Nat → Proj F → Proj F → Proj F
  | 0, _, _, acc => acc
  | fuel + 1, x, tmp, acc =>
    if x = 0 then acc
    else
      let tmp := doubleProj b3 tmp
      let acc := if x % 2 = 1 then addProj b3 acc tmp else acc
      mulByXLoop b3 fuel (x / 2) tmp acc

/-- `BN_X` (`bn254/src/params.rs` line 4). -/
def BN_X : Nat := 4965661367192848881

/-- `mul_by_x` (`bn254/src/g1.rs` lines 126-143, `g2.rs` lines 86-104); `BN_X_IS_NEGATIVE` is true. -/
def mulByX (b3 : F) (p : Proj F) : Proj F := (mulByXLoop b3 64 (BN_X / 2) p Proj.identity).neg

/-- `G1Affine::is_torsion_free` (`bn254/src/g1.rs` lines 61-70, `endomorphism` 25-32); `beta` is the value of
the constant `BETA`. -/
def isTorsionFree (b3 beta : F) (p : Aff F) : Bool :=
  Proj.eq (mulByX b3 (mulByX b3 p.toExtended)).neg (Aff.toExtended ⟨p.x * beta, p.y, p.inf⟩)

end Kogarashi.Curve
