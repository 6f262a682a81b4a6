import Verif.Pallet.Pallet

/-!
# Specification vocabulary for the pallets

Which calls of a history count, told from the calls alone (no state): a call counts as a write of item 1 when it is
a `set_thing_1` call by a signed origin with an accepted proof, as a write of item 2 when it is a `set_thing_2` call
by a signed origin.
-/

namespace Kogarashi.Spec

open Pallet

variable {Account Proof Params : Type}

/-- The effective write of a call: the item's index and the value. -/
def write (check : Params → Proof → Option Bool) : Call Account Proof Params → Option Event
  | .setThing1 (.signed _) v pf pp => if check pp pf = some true then some ⟨1, v⟩ else none
  | .setThing2 (.signed _) v => some ⟨2, v⟩
  | _ => none

/-- The effective writes of a history, oldest first. -/
def writes (check : Params → Proof → Option Bool) (calls : List (Call Account Proof Params)) : List Event :=
  calls.filterMap (write check)

/-- The latest value written to an item, `default` if there is none. -/
def latest (index default : Nat) (ws : List Event) : Nat :=
  (((ws.filter fun e => e.index == index).getLast?).map Event.value).getD default

end Kogarashi.Spec
