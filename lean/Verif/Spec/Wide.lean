import Verif.Field.WideParams
import Mathlib.Data.ZMod.Basic

/-!
# What a 384-bit limb array denotes
-/

set_option exponentiation.threshold 1600

namespace Kogarashi.Wide

open Kogarashi.Limbs

/-- The constants belong to the odd modulus `m`, which leaves a bit free. -/
structure ValidParams (P : WideParams) : Prop where
  p_words : P.p.Wf
  p_val : P.p.val = P.m
  r_words : P.r.Wf
  r2_words : P.r2.Wf
  r3_words : P.r3.Wf
  p_odd : P.m % 2 = 1
  p_gt_two : 2 < P.m
  p_bound : 2 * P.m ≤ 2^384
  inv_eq : (P.p.l0 * P.inv + 1) % 2^64 = 0
  r_eq : P.r.val = 2^384 % P.m
  r2_eq : P.r2.val = 2^768 % P.m
  r3_eq : P.r3.val = 2^1152 % P.m

/-- A canonical element: six 64-bit words denoting an integer below the modulus. -/
def Canonical (P : WideParams) (a : L6) : Prop := a.Wf ∧ a.val < P.m

/-- The Montgomery radix `2^384` (sealed so that the elaborator does not unfold it). -/
@[irreducible] def montR : Nat := 2^384

/-- The residue class an element denotes. -/
def denote (P : WideParams) (a : L6) : ZMod P.m := (a.val : ZMod P.m) * (montR : ZMod P.m)⁻¹

/-- The canonical integer value of an element. -/
def value (P : WideParams) (a : L6) : Nat := (denote P a).val

end Kogarashi.Wide
