import Verif.Limbs.Represent

/-!
# Specification vocabulary for digit strings
-/

namespace Kogarashi.Spec

open Kogarashi.Limbs

/-- The integer denoted by a digit string in base `b`, most significant digit first. -/
def beValue (b : Nat) (ds : List Nat) : Nat := ds.foldl (fun acc d => b * acc + d) 0

/-- The integer denoted by a digit string in base `b`, least significant digit first. -/
def leValue (b : Nat) : List Nat → Nat
  | [] => 0
  | d :: ds => d + b * leValue b ds

/-- The integer a signed digit stands for. -/
def nafDigit : Naf → Int
  | .zero => 0
  | .plus => 1
  | .minus => -1

/-- The integer denoted by signed binary digits, most significant first. -/
def nafValue (ds : List Naf) : Int := ds.foldl (fun acc d => 2 * acc + nafDigit d) 0

/-- No two adjacent digits are both non-zero. -/
def NonAdjacent : List Naf → Prop
  | d :: e :: rest => (d = .zero ∨ e = .zero) ∧ NonAdjacent (e :: rest)
  | _ => True

instance NonAdjacent.dec : (ds : List Naf) → Decidable (NonAdjacent ds)
  | [] => isTrue trivial
  | [_] => isTrue trivial
  | d :: e :: rest =>
    have := NonAdjacent.dec (e :: rest)
    inferInstanceAs (Decidable ((d = .zero ∨ e = .zero) ∧ NonAdjacent (e :: rest)))

end Kogarashi.Spec
