import Verif.Nova.Ivc

/-!
# The verification pallet and the sample pallet (`pallet/nova/src/lib.rs`, `sample/src/lib.rs`)

Storage and events are the part of the chain state the two pallets can reach. The runtime around them (FRAME) is not
in the repository: `ensure_signed`, `StorageValue::put/get` and `deposit_event` are modelled by their documentation.
Weights and post-dispatch information are left out.
-/

namespace Kogarashi.Pallet

open Nova

/-- `frame_system::RawOrigin` (not in the repository; the first argument of the calls of `pallet/nova/src/lib.rs` and `sample/src/lib.rs`): the origins `OriginFor<T>` ranges over. -/
inductive Origin (Account : Type) where
  | root
  | signed (who : Account)
  | none
  deriving DecidableEq

/-- The errors the modelled calls return: `ensure_signed` gives `BadOrigin`, the verifier `Other` with a message
(`pallet/nova/src/lib.rs` lines 108-114). -/
inductive DispatchError where
  | badOrigin
  | other (msg : String)
  deriving DecidableEq

/-- `frame_system::ensure_signed` (not in the repository; called at `pallet/nova/src/lib.rs` line 95, `sample/src/lib.rs` line 74). -/
def ensureSigned {Account : Type} : Origin Account → Except DispatchError Account
  | .signed who => .ok who
  | _ => .error .badOrigin

/-- `IvcVerifier::verify` of the pallet (`pallet/nova/src/lib.rs` lines 102-115) on the result of `proof.verify(&pp)`. -/
def apiVerify (accepted : Bool) : Except DispatchError Unit :=
  if accepted then .ok () else .error (.other "invalid proof")

/-- The `verify` call (`pallet/nova/src/lib.rs` lines 85-97). `check` is `RecursiveProof::verify`; the outer `none` is
a panic inside it. The arguments are evaluated in the order of the source: the origin first. -/
def novaVerify {Account Proof Params : Type} (check : Params → Proof → Option Bool) (origin : Origin Account)
    (proof : Proof) (pp : Params) : Option (Except DispatchError Unit) :=
  match ensureSigned origin with
  | .error e => some (.error e)
  | .ok _ => do
    let b ← check pp proof
    some (apiVerify b)

/-- `Event::ValueSet` (`sample/src/lib.rs` lines 31-33). -/
structure Event where
  index : Nat
  value : Nat
  deriving DecidableEq

/-- The storage of the sample pallet (`sample/src/lib.rs` lines 39-45, `ValueQuery`: zero until set) and the events
deposited so far. The values are `u32`. -/
structure State where
  thing1 : Nat
  thing2 : Nat
  events : List Event
  deriving DecidableEq

/-- `set_thing_1` (`sample/src/lib.rs` lines 54-69). -/
def setThing1 {Account Proof Params : Type} (check : Params → Proof → Option Bool) (origin : Origin Account)
    (val : Nat) (proof : Proof) (pp : Params) (st : State) : Option (Except DispatchError Unit × State) := do
  let r ← novaVerify check origin proof pp
  match r with
  | .error e => some (.error e, st)
  | .ok _ =>
    let st := { st with thing1 := val }
    let st := { st with events := st.events ++ [⟨1, val⟩] }
    some (.ok (), st)

/-- `set_thing_2` (`sample/src/lib.rs` lines 71-80). -/
def setThing2 {Account : Type} (origin : Origin Account) (val : Nat) (st : State) :
    Except DispatchError Unit × State :=
  match ensureSigned origin with
  | .error e => (.error e, st)
  | .ok _ =>
    let st := { st with thing2 := val }
    let st := { st with events := st.events ++ [⟨2, val⟩] }
    (.ok (), st)

/-- `get_sum` (`sample/src/lib.rs` lines 84-88): `u32` addition, which panics with overflow checks and wraps without. -/
def getSum (overflowChecks : Bool) (st : State) : Option Nat :=
  if st.thing1 + st.thing2 < 2 ^ 32 then some (st.thing1 + st.thing2)
  else if overflowChecks then none
  else some ((st.thing1 + st.thing2) % 2 ^ 32)

/-- A call to one of the two pallets. -/
inductive Call (Account Proof Params : Type) where
  | verify (origin : Origin Account) (proof : Proof) (pp : Params)
  | setThing1 (origin : Origin Account) (val : Nat) (proof : Proof) (pp : Params)
  | setThing2 (origin : Origin Account) (val : Nat)

/-- Executing one call. The state after a panic is the state before the call: the block containing it is rejected. -/
def dispatch {Account Proof Params : Type} (check : Params → Proof → Option Bool) (st : State) :
    Call Account Proof Params → Option (Except DispatchError Unit) × State
  | .verify o pf pp => (novaVerify check o pf pp, st)
  | .setThing1 o v pf pp =>
    match Pallet.setThing1 check o v pf pp st with
    | none => (none, st)
    | some (r, st) => (some r, st)
  | .setThing2 o v =>
    let (r, st) := Pallet.setThing2 o v st
    (some r, st)

/-- A history of calls from a state. -/
def run {Account Proof Params : Type} (check : Params → Proof → Option Bool) (st : State)
    (calls : List (Call Account Proof Params)) : State :=
  calls.foldl (fun st c => (dispatch check st c).2) st

end Kogarashi.Pallet
