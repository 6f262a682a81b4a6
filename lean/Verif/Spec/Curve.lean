import Verif.Curve.Weierstrass
import Verif.Spec.Digits
import Mathlib.AlgebraicGeometry.EllipticCurve.Affine.Point

/-!
# Specification vocabulary for curve points

The group is Mathlib's group of points of the Weierstrass curve `y² = x³ + b`; a coordinate tuple
*represents* a point of it.
-/

namespace Kogarashi.Spec

open Curve

variable {F : Type} [Field F] [DecidableEq F]

/-- The curve `y² = x³ + b`. -/
abbrev curve (b : F) : WeierstrassCurve.Affine F := { a₁ := 0, a₂ := 0, a₃ := 0, a₄ := 0, a₆ := b }

/-- The affine struct stands for the point. -/
def AffRep (b : F) (p : Aff F) : (curve b).Point → Prop
  | .zero => p.inf = true
  | .some x y _ => p.inf = false ∧ p.x = x ∧ p.y = y

/-- The projective struct stands for the point: `z = 0` for the identity, otherwise `x/z` and `y/z` are the
coordinates. -/
def ProjRep (b : F) (p : Proj F) : (curve b).Point → Prop
  | .zero => p.z = 0
  | .some x y _ => p.z ≠ 0 ∧ p.x = x * p.z ∧ p.y = y * p.z

end Kogarashi.Spec
