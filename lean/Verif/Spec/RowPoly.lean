import Verif.Spec.R1cs
import Mathlib.Algebra.Polynomial.Basic

/-! # The polynomial a list of rows stands for -/

namespace Kogarashi

namespace Spec

open Polynomial

/-- The polynomial whose coefficients are what the rows carry under the assignment. -/
noncomputable def rowPoly {F : Type} [Field F] (z : Assignment F) : List (Row F) → F[X]
  | [] => 0
  | r :: rs => C (rowVal z r) + X * rowPoly z rs

end Spec

end Kogarashi
