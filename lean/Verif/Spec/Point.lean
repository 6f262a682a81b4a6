import Verif.R1cs.Point
import Verif.Spec.R1cs
import Verif.Spec.Curve

/-! # Specification vocabulary for in-circuit points -/

namespace Kogarashi.Spec

open Curve

variable {F : Type} [Field F] [DecidableEq F]

/-- The coordinates the point rows carry under an assignment. -/
def ptVal (z : Assignment F) (p : PointRow F) : Proj F := ⟨rowVal z p.x, rowVal z p.y, rowVal z p.z⟩

/-- The projective coordinates carry the point, as circuits represent it: the identity is `(0 : y : 0)` with
`y ≠ 0`. -/
def CircRep (b : F) (v : Proj F) : (curve b).Point → Prop
  | .zero => v.x = 0 ∧ v.z = 0 ∧ v.y ≠ 0
  | .some x y _ => v.z ≠ 0 ∧ v.x = x * v.z ∧ v.y = y * v.z

/-- The three rows are rows the circuit code may hold. -/
structure PtOk (cs : CS F) (p : PointRow F) : Prop where
  x : RowOk cs p.x
  y : RowOk cs p.y
  z : RowOk cs p.z

/-- The curve `y² = x³ + b` has no rational point of order two. -/
def NoOrderTwo (b : F) : Prop := ∀ x : F, x ^ 3 + b ≠ 0

end Kogarashi.Spec
