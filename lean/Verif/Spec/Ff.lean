import Mathlib.GroupTheory.OrderOfElement
import Verif.Spec.Field
import Verif.Field.Extra

/-!
# The documented contract of the `ff::PrimeField` constants
-/

namespace Kogarashi.Spec

open Kogarashi.Limbs Kogarashi.Field

/-- What the documentation of `ff::PrimeField` requires of the constants of a field with modulus `P.m`, where
`P.m - 1 = 2^S * t` with `t` odd. -/
structure FfContract (P : FieldParams) (c : FfConsts) (t : Nat) : Prop where
  modulus : c.modulus = P.m
  numBits : 2 ^ (c.numBits - 1) ≤ P.m ∧ P.m < 2 ^ c.numBits
  capacity : c.capacity = c.numBits - 1
  twoInv : 2 * denote P c.twoInv = 1
  odd : t % 2 = 1
  split : 2 ^ c.s * t = P.m - 1
  generator : orderOf (denote P c.multiplicativeGenerator) = P.m - 1
  nonresidue : ¬ IsSquare (denote P c.multiplicativeGenerator)
  root : denote P c.rootOfUnity = denote P c.multiplicativeGenerator ^ t
  rootInv : denote P c.rootOfUnity * denote P c.rootOfUnityInv = 1
  delta : denote P c.delta = denote P c.multiplicativeGenerator ^ 2 ^ c.s

end Kogarashi.Spec
