import Mathlib.Data.ZMod.Basic
import Verif.Field.Params

/-!
# Specification vocabulary for prime fields

What an element of a field type *means*, independently of how the operations are implemented.
-/

namespace Kogarashi.Spec

open Kogarashi.Limbs Kogarashi.Field

/-- The constants describe a Montgomery representation of an odd modulus that fits in 255 bits. -/
structure ValidParams (P : FieldParams) : Prop where
  p_words : P.p.Wf
  p_val : P.p.val = P.m
  r_words : P.r.Wf
  r2_words : P.r2.Wf
  r3_words : P.r3.Wf
  p_odd : P.m % 2 = 1
  p_gt_two : 2 < P.m
  p_bound : 2 * P.m ≤ 2^256
  inv_eq : (P.p.l0 * P.inv + 1) % 2^64 = 0
  r_eq : P.r.val = 2^256 % P.m
  r2_eq : P.r2.val = 2^512 % P.m
  r3_eq : P.r3.val = 2^768 % P.m

/-- A canonical element: four 64-bit words denoting an integer below the modulus. -/
def Canonical (P : FieldParams) (a : L4) : Prop := a.Wf ∧ a.val < P.m

/-- The Montgomery radix `2^256` (sealed so that the elaborator does not unfold it). -/
@[irreducible] def montR : Nat := 2^256

/-- The residue class an element denotes: the Montgomery representative divided by `2^256`. -/
def denote (P : FieldParams) (a : L4) : ZMod P.m := (a.val : ZMod P.m) * (montR : ZMod P.m)⁻¹

/-- The canonical integer value of an element: the representative of its residue class in `[0, p)`. -/
def value (P : FieldParams) (a : L4) : Nat := (denote P a).val

end Kogarashi.Spec
