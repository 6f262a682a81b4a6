import Mathlib.Algebra.Polynomial.Eval.Defs
import Mathlib.Algebra.Polynomial.Eval.Degree

/-! # Specification vocabulary for polynomials -/

namespace Kogarashi.Spec

open Polynomial

variable {F : Type} [Field F]

/-- The polynomial with the listed coefficients, constant term first. -/
noncomputable def polyOf : List F → F[X]
  | [] => 0
  | c :: cs => C c + X * polyOf cs

/-- The list has no trailing zero, so its length is the degree plus one (or zero for the zero polynomial). -/
def Trimmed (l : List F) : Prop := ∀ c, l.getLast? = some c → c ≠ 0

end Kogarashi.Spec
