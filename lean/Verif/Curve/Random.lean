import Verif.Curve.Weierstrass
import Verif.Field.Params

/-!
# Random points and points from coordinates (`zkstd/src/macros/curve/weierstrass/group.rs`)
-/

namespace Kogarashi.Curve

open Limbs Kogarashi.Field

variable {F : Type} [_root_.Field F] [DecidableEq F]

/-- `ADDITIVE_GENERATOR` of the projective type (`group.rs` lines 100-104) from the coordinates of the affine one. -/
def projGenerator (gen : Aff F) : Proj F := ⟨gen.x, gen.y, 1⟩

/-- `Group::random` of an affine type (`group.rs` lines 39-41): the generator times a random scalar, normalised. `S` is the
scalar field, `rand` the words the generator of random numbers returns; `none` is a panic of the recoding. -/
def randomAff (S : FieldParams) (b3 : F) (gen : Aff F) (rand : Nat → Nat) : Option (Aff F) :=
  (S.toNafs (S.random rand)).map fun nafs => (scalarPoint b3 gen.toExtended nafs).toAffine

/-- `Group::random` of a projective type (`group.rs` lines 123-125). -/
def randomProj (S : FieldParams) (b3 : F) (gen : Proj F) (rand : Nat → Nat) : Option (Proj F) :=
  (S.toNafs (S.random rand)).map fun nafs => scalarPoint b3 gen nafs

/-- `from_x_and_y` of an affine type (`group.rs` lines 47-53). -/
def affFromXY (x y : F) : Aff F := ⟨x, y, false⟩

/-- `from_x_and_y` of a projective type (`group.rs` lines 131-137). -/
def projFromXY (x y : F) : Proj F := ⟨x, y, 1⟩

end Kogarashi.Curve
