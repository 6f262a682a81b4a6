import Verif.Spec.Curve

/-!
# Specification vocabulary for the pairing

Miller's algorithm and the optimal ate pairing as in the literature, over one field `K` and one curve `y² = x³ + b`:
values of lines through points, with the group law of Mathlib. No coordinates other than affine ones appear.
-/

namespace Kogarashi.Spec

variable {K : Type} [Field K] [DecidableEq K] {b : K}

/-- The value at `(px, py)` of the line through two points (the tangent when they coincide),
`(py - y₁) - λ (px - x₁)` with `λ` the slope. -/
def lineValue (T U : (curve b).Point) (px py : K) : K :=
  match T, U with
  | .some x₁ y₁ _, .some x₂ y₂ _ => (py - y₁) - (curve b).slope x₁ x₂ y₁ y₂ * (px - x₁)
  | _, _ => 1

/-- One digit of Miller's algorithm: square, tangent, doubling, and for a digit `±1` the chord through `±Q` and the
addition. -/
def millerStep (Q : (curve b).Point) (px py : K) (st : (curve b).Point × K) (d : Int) : (curve b).Point × K :=
  let f := st.2 ^ 2 * lineValue st.1 st.1 px py
  let T := st.1 + st.1
  if d = 1 then (T + Q, f * lineValue T Q px py)
  else if d = -1 then (T + -Q, f * lineValue T (-Q) px py)
  else (T, f)

/-- Miller's algorithm over the digits below the leading one, most significant first. -/
def miller (digits : List Int) (Q : (curve b).Point) (px py : K) : (curve b).Point × K :=
  digits.foldl (millerStep Q px py) (Q, 1)

/-- The number the digits (leading one included) stand for. -/
def digitsValue (digits : List Int) : Int := digits.foldl (fun n d => 2 * n + d) 1

/-- The optimal ate pairing of a BN curve, before the final exponentiation: Miller's algorithm and the two lines
through the Frobenius images `π Q` and `-π² Q`. -/
def optimalAte (digits : List Int) (frob : (curve b).Point → (curve b).Point) (Q : (curve b).Point) (px py : K) : K :=
  let m := miller digits Q px py
  m.2 * lineValue m.1 (frob Q) px py * lineValue (m.1 + frob Q) (-frob (frob Q)) px py

end Kogarashi.Spec
