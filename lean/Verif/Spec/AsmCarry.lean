import Verif.Limbs.Asm

/-!
# Which carries of a straight-line block are used

Specification vocabulary for the assembly back end: an addition *keeps* its carry when the carry is zero or
when the next instruction that touches the carry flag reads it. Nothing here models code.
-/

namespace Kogarashi.Spec.AsmCarry

open Kogarashi.Limbs Kogarashi.Limbs.Asm

/-- Does the rest of the block read the carry flag before overwriting it? -/
def readsCarry : List Ins → Bool
  | [] => false
  | .mov _ _ :: is => readsCarry is
  | .mulx _ _ _ :: is => readsCarry is
  | .cmove _ _ :: is => readsCarry is
  | .adc _ _ :: _ => true
  | .adcx _ _ :: _ => true
  | .sbb _ _ :: _ => true
  | .cmovc _ _ :: _ => true
  | _ :: _ => false

/-- Is the instruction an addition? -/
def isAdd : Ins → Bool
  | .add _ _ => true
  | .adc _ _ => true
  | .adcx _ _ => true
  | _ => false

/-- No addition of the block, run from `st`, sets a carry that nobody reads. -/
def keepsCarries (mem : Mem) : List Ins → St → Bool
  | [], _ => true
  | i :: is, st =>
    (!isAdd i || readsCarry is || (step mem st i).cf == 0) && keepsCarries mem is (step mem st i)

end Kogarashi.Spec.AsmCarry
