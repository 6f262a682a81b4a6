import Verif.Curve.Weierstrass

/-!
# Model: the point operations a scalar multiplication executes (`zkstd/src/arithmetic/points/weierstrass.rs`)
-/

namespace Kogarashi.Curve

open Limbs

variable {F : Type} [_root_.Field F] [DecidableEq F]

/-- The calls in the loop of `scalar_point`: `double_projective_point`, `+=`, `-=`. -/
inductive PointOp where
  | double
  | add
  | sub
deriving DecidableEq, Repr

/-- One iteration of `scalar_point` (`arithmetic/points/weierstrass.rs` lines 169-176), with the calls it makes appended to a log. -/
def loggedStep (b3 : F) (point : Proj F) (s : Proj F × List PointOp) (naf : Naf) : Proj F × List PointOp :=
  let res := doubleProj b3 s.1
  let log := s.2 ++ [.double]
  match naf with
  | .plus => (addProj b3 res point, log ++ [.add])
  | .minus => (addProj b3 res point.neg, log ++ [.sub])
  | .zero => (res, log)

/-- `scalar_point` (`arithmetic/points/weierstrass.rs` lines 167-178), given the digits, with its log. -/
def scalarPointLogged (b3 : F) (point : Proj F) (nafs : List Naf) : Proj F × List PointOp :=
  nafs.foldl (loggedStep b3 point) (Proj.identity, [])

end Kogarashi.Curve
