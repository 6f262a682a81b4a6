import Verif.Curve.Edwards
import Mathlib.Algebra.Group.Even

/-!
# Specification vocabulary for twisted Edwards points

The curve `-x² + y² = 1 + d x² y²` and its addition law (Hisil, Wong, Carter, Dawson 2008, with `a = -1`).
-/

namespace Kogarashi.Spec

open Edwards

variable {F : Type} [Field F]

/-- The pair satisfies the curve equation. -/
def OnEdwards (d : F) (A : F × F) : Prop := -A.1 ^ 2 + A.2 ^ 2 = 1 + d * A.1 ^ 2 * A.2 ^ 2

/-- The Edwards sum. -/
def edSum (d : F) (A B : F × F) : F × F :=
  ((A.1 * B.2 + A.2 * B.1) / (1 + d * A.1 * B.1 * A.2 * B.2),
    (A.2 * B.2 + A.1 * B.1) / (1 - d * A.1 * B.1 * A.2 * B.2))

/-- `n` copies of a point, added one after the other to `(0, 1)`. -/
def edMul (d : F) : Nat → F × F → F × F
  | 0, _ => (0, 1)
  | n + 1, A => edSum d (edMul d n A) A

/-- The extended struct stands for the pair, with a consistent auxiliary coordinate. -/
def ExtRep (p : EExt F) (A : F × F) : Prop :=
  p.z ≠ 0 ∧ p.x = A.1 * p.z ∧ p.y = A.2 * p.z ∧ p.t = A.1 * A.2 * p.z

end Kogarashi.Spec
