import Mathlib.Algebra.Field.Basic
import Verif.Limbs.Represent
import Verif.Field.Params

/-!
# Twisted Edwards points (`zkstd/src/arithmetic/points/edwards.rs`, `zkstd/src/macros/curve/edwards.rs`,
`zkstd/src/macros/curve/edwards/group.rs`)

Curves `-x² + y² = 1 + d x² y²` over an arbitrary field.
-/

namespace Kogarashi.Edwards

variable {F : Type} [_root_.Field F] [DecidableEq F]

/-- `$affine` (fields `x`, `y`; the test curve is `zkstd/tests/jubjub.rs`). -/
structure EAff (F : Type) where
  x : F
  y : F
  deriving DecidableEq

/-- `$extended` (fields `x`, `y`, `t`, `z`; `edwards.rs` lines 48-51). -/
structure EExt (F : Type) where
  x : F
  y : F
  t : F
  z : F

/-- `ADDITIVE_IDENTITY` (`edwards/group.rs` lines 15-18). -/
def EAff.identity : EAff F := ⟨0, 1⟩
/-- `ADDITIVE_IDENTITY` (`edwards/group.rs` lines 89-94). -/
def EExt.identity : EExt F := ⟨0, 1, 0, 1⟩

/-- `is_identity` (`edwards/group.rs` lines 42-44). -/
def EAff.isIdentity (p : EAff F) : Bool := p = EAff.identity
/-- `is_identity` (`edwards/group.rs` lines 126-128). -/
def EExt.isIdentity (p : EExt F) : Bool := decide (p.x = 0) && decide (p.y = p.z)

/-- `PartialEq` (`edwards/group.rs` lines 6-8). -/
def EAff.eq (p q : EAff F) : Bool := decide (p.x = q.x) && decide (p.y = q.y)
/-- `PartialEq` (`edwards/group.rs` lines 77-79). -/
def EExt.eq (p q : EExt F) : Bool := decide (p.x * q.z = q.x * p.z) && decide (p.y * q.z = q.y * p.z)

/-- `invert` (`edwards/group.rs` lines 20-28). -/
def EAff.invert (p : EAff F) : Option (EAff F) := if p.x = 0 then none else some ⟨-p.x, p.y⟩
/-- `invert` (`edwards/group.rs` lines 96-106). -/
def EExt.invert (p : EExt F) : Option (EExt F) := if p.z = 0 then none else some ⟨-p.x, p.y, -p.t, p.z⟩

/-- `is_on_curve` (`edwards/group.rs` lines 46-54). -/
def EAff.isOnCurve (d : F) (p : EAff F) : Bool :=
  if p.x = 0 then true
  else decide (p.y * p.y = 1 + d * (p.x * p.x) * (p.y * p.y) + p.x * p.x)

/-- `to_extended` (`edwards.rs` lines 30-37). -/
def EAff.toExtended (p : EAff F) : EExt F := ⟨p.x, p.y, p.x * p.y, 1⟩

/-- `to_affine` (`edwards.rs` lines 60-66); `invert().unwrap()` panics on `z = 0`. -/
def EExt.toAffine (p : EExt F) : Option (EAff F) :=
  if p.z = 0 then none else some ⟨p.x * p.z⁻¹, p.y * p.z⁻¹⟩

/-- `is_on_curve` (`edwards/group.rs` lines 130-137). -/
def EExt.isOnCurve (d : F) (p : EExt F) : Bool :=
  match p.toAffine with
  | none => true
  | some a => a.isOnCurve d

/-- `add_affine_point` (`edwards.rs` lines 7-26). -/
def addAffine (d : F) (p q : EAff F) : EExt F :=
  let a := p.x * q.x
  let b := p.y * q.y
  let c := d * a * b
  let h := a + b
  let e := (p.x + p.y) * (q.x + q.y) - h
  let f := 1 - c
  let g := 1 + c
  ⟨e * f, g * h, e * h, f * g⟩

/-- `double_affine_point` (`edwards.rs` lines 31-48). -/
def doubleAffine (d : F) (p : EAff F) : EExt F :=
  let a := p.x * p.x
  let b := p.y * p.y
  let c := d * a * b
  let h := a + b
  let e := (p.x + p.y) * (p.x + p.y) - h
  let f := 1 - c
  let g := 1 + c
  ⟨e * f, g * h, e * h, f * g⟩

/-- `add_mixed_point` (`edwards.rs` lines 53-71). -/
def addMixed (d : F) (p : EAff F) (q : EExt F) : EExt F :=
  let a := p.x * q.x
  let b := p.y * q.y
  let c := d * p.x * p.y * q.t
  let h := a + b
  let e := (p.x + p.y) * (q.x + q.y) - h
  let f := q.z - c
  let g := q.z + c
  ⟨e * f, g * h, e * h, f * g⟩

/-- `add_projective_point` (`edwards.rs` lines 76-95). -/
def addExt (d : F) (p q : EExt F) : EExt F :=
  let a := p.x * q.x
  let b := p.y * q.y
  let c := d * p.t * q.t
  let dd := p.z * q.z
  let h := a + b
  let e := (p.x + p.y) * (q.x + q.y) - h
  let f := dd - c
  let g := dd + c
  ⟨e * f, g * h, e * h, f * g⟩

/-- `double_projective_point` (`edwards.rs` lines 100-117). -/
def doubleExt (p : EExt F) : EExt F :=
  let a := -(p.x * p.x)
  let b := p.y * p.y
  let c := p.z * p.z + p.z * p.z
  let dd := a - b
  let e := p.x * p.y + p.x * p.y
  let g := a + b
  let f := g - c
  ⟨e * f, g * dd, e * dd, f * g⟩

/-- `Neg for JubjubAffine` (`zkstd/tests/jubjub.rs` lines 258-267): the macros leave the by-value operators to the user of the library, and
these are the ones of its test curve. -/
def EAff.neg (p : EAff F) : EAff F := ⟨-p.x, p.y⟩

/-- `Neg for JubjubExtended` (`zkstd/tests/jubjub.rs` lines 309-320). -/
def EExt.neg (p : EExt F) : EExt F := ⟨-p.x, p.y, -p.t, p.z⟩

/-- One iteration of `scalar_point` (`arithmetic/points/edwards.rs` lines 122-129); `res += point` is `res + point` and `res -= point` is
`res + (-point)` (`edwards/group.rs` lines 153-169, `zkstd/tests/jubjub.rs` lines 301-328). -/
def scalarStep (d : F) (point res : EExt F) (naf : Limbs.Naf) : EExt F :=
  let res := doubleExt res
  match naf with
  | .plus => addExt d res point
  | .minus => addExt d res point.neg
  | .zero => res

/-- `scalar_point` (`arithmetic/points/edwards.rs` lines 119-131), given the digits `scalar.to_nafs()`. -/
def scalarPoint (d : F) (point : EExt F) (nafs : List Limbs.Naf) : EExt F := nafs.foldl (scalarStep d point) EExt.identity

/-- `Group::random` of an extended type (`edwards/group.rs` lines 109-111): the generator times a random scalar of the field `S`. -/
def randomExt (S : Field.FieldParams) (d : F) (gen : EExt F) (rand : Nat → Nat) : Option (EExt F) :=
  (S.toNafs (S.random rand)).map fun nafs => scalarPoint d gen nafs

/-- `Group::random` of an affine type (`edwards/group.rs` lines 29-31); `into` is `to_affine` and panics on `z = 0`. -/
def randomAff (S : Field.FieldParams) (d : F) (gen : EAff F) (rand : Nat → Nat) : Option (EAff F) :=
  (S.toNafs (S.random rand)).bind fun nafs => (scalarPoint d gen.toExtended nafs).toAffine

/-- `from_x_and_y` of an affine type (`edwards/group.rs` lines 37-39). -/
def affFromXY (x y : F) : EAff F := ⟨x, y⟩

/-- `from_x_and_y` of an extended type (`edwards/group.rs` lines 117-124). -/
def extFromXY (x y : F) : EExt F := ⟨x, y, x * y, 1⟩

end Kogarashi.Edwards
