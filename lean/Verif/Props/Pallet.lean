import Verif.Spec.Pallet
import Verif.Props.Ivc

/-!
# Properties C64, C65, C70: the verification pallet and the sample pallet
-/

namespace Kogarashi.Props

open Kogarashi Spec Pallet Nova Field

section
variable {Account Proof Params : Type} (check : Params → Proof → Option Bool)

/-- **C64.** A signed call succeeds exactly with an accepted proof and returns "invalid proof" exactly with a
rejected one; any other origin is refused whatever the proof; no call changes the storage or the events. -/
theorem C64_verify (st : State) (who : Account) (proof : Proof) (pp : Params) :
    (novaVerify check (.signed who) proof pp = some (.ok ()) ↔ check pp proof = some true) ∧
      (novaVerify check (.signed who) proof pp = some (.error (.other "invalid proof")) ↔ check pp proof = some false) ∧
      (novaVerify check (.signed who) proof pp = none ↔ check pp proof = none) ∧
      (∀ o : Origin Account, (∀ w, o ≠ .signed w) → novaVerify check o proof pp = some (.error .badOrigin)) ∧
      ∀ o : Origin Account, (dispatch check st (.verify o proof pp)).2 = st := by
  refine ⟨?_, ?_, ?_, ?_, fun o => rfl⟩
  · rcases h : check pp proof with _ | b <;> simp [novaVerify, ensureSigned, h, apiVerify]
  · rcases h : check pp proof with _ | b <;> simp [novaVerify, ensureSigned, h, apiVerify]
  · rcases h : check pp proof with _ | b <;> simp [novaVerify, ensureSigned, h]
  · intro o ho
    cases o with
    | signed w => exact absurd rfl (ho w)
    | root => rfl
    | none => rfl

/-- A verifier accepting exactly `7`, panicking on `9`. -/
def demoCheck (_ : Unit) (pf : Nat) : Option Bool := if pf = 9 then none else some (pf == 7)

example : novaVerify demoCheck (.signed "alice") 7 () = some (.ok ()) ∧
    novaVerify demoCheck (.signed "alice") 8 () = some (.error (.other "invalid proof")) ∧
    novaVerify demoCheck (.root : Origin String) 7 () = some (.error .badOrigin) ∧
    novaVerify demoCheck (.signed "alice") 9 () = none := by decide

theorem dispatch_eq (st : State) (c : Call Account Proof Params) :
    (dispatch check st c).2 = match write check c with
      | none => st
      | some e => ⟨if e.index = 1 then e.value else st.thing1, if e.index = 2 then e.value else st.thing2,
          st.events ++ [e]⟩ := by
  cases c with
  | verify o pf pp => rfl
  | setThing1 o v pf pp =>
    cases o with
    | root => rfl
    | none => rfl
    | signed w =>
      rcases h : check pp pf with _ | b
      · simp [dispatch, Pallet.setThing1, novaVerify, ensureSigned, write, h]
      · cases b <;> simp [dispatch, Pallet.setThing1, novaVerify, ensureSigned, write, h, apiVerify]
  | setThing2 o v => cases o <;> rfl

theorem write_index {c : Call Account Proof Params} {e : Event} (h : write check c = some e) :
    e.index = 1 ∨ e.index = 2 := by
  cases c with
  | verify o pf pp => simp [write] at h
  | setThing1 o v pf pp =>
    cases o <;> simp [write] at h
    left; rw [← h.2]
  | setThing2 o v =>
    cases o <;> simp [write] at h
    right; rw [← h]

/-- **C65.** After any history of calls by any origins: each item holds the value of the latest write that counts
(for the first item: a signed call with an accepted proof; for the second: a signed call), and the events are
exactly those writes, in order. -/
theorem C65_history (st : State) (calls : List (Call Account Proof Params)) :
    (run check st calls).thing1 = latest 1 st.thing1 (writes check calls) ∧
      (run check st calls).thing2 = latest 2 st.thing2 (writes check calls) ∧
      (run check st calls).events = st.events ++ writes check calls := by
  induction calls using List.reverseRecOn with
  | nil => simp [run, writes, latest]
  | append_singleton calls c ih =>
    have hr : run check st (calls ++ [c]) = (dispatch check (run check st calls) c).2 := by
      simp [run, List.foldl_append]
    rw [hr, dispatch_eq]
    have hw : writes check (calls ++ [c]) = writes check calls ++ (write check c).toList := by
      simp only [writes, List.filterMap_append]
      cases h : write check c <;> simp [h]
    rw [hw]
    cases h : write check c with
    | none => simpa using ih
    | some e =>
      obtain ⟨h1, h2, h3⟩ := ih
      rcases write_index check h with hi | hi
      · refine ⟨?_, ?_, ?_⟩
        · simp [hi, latest]
        · simp only [hi, h2]; simp [latest, hi]
        · simp [h3]
      · refine ⟨?_, ?_, ?_⟩
        · simp only [hi, h1]; simp [latest, hi]
        · simp [hi, latest]
        · simp [h3]

/-- **C65.** A call that returns an error or panics leaves storage and events unchanged. -/
theorem C65_failing (st : State) (c : Call Account Proof Params)
    (h : (dispatch check st c).1 ≠ some (.ok ())) : (dispatch check st c).2 = st := by
  cases c with
  | verify o pf pp => rfl
  | setThing1 o v pf pp =>
    cases o with
    | root => rfl
    | none => rfl
    | signed w =>
      rcases hc : check pp pf with _ | b
      · simp [dispatch, Pallet.setThing1, novaVerify, ensureSigned, hc]
      · cases b
        · simp [dispatch, Pallet.setThing1, novaVerify, ensureSigned, hc, apiVerify]
        · simp [dispatch, Pallet.setThing1, novaVerify, ensureSigned, hc, apiVerify] at h
  | setThing2 o v =>
    cases o with
    | root => rfl
    | none => rfl
    | signed w => simp [dispatch, Pallet.setThing2, ensureSigned] at h

/-- **C65 is false of the sum query** when the sum does not fit 32 bits: with overflow checks it panics, without it
returns something else. Two signed calls (one with an accepted proof) reach such a state. -/
theorem C65_sum_refuted (w : Account) {pp : Params} {pf : Proof} (h : check pp pf = some true) :
    ∃ calls : List (Call Account Proof Params),
      let st := run check ⟨0, 0, []⟩ calls
      st.thing1 < 2 ^ 32 ∧ st.thing2 < 2 ^ 32 ∧ getSum true st = none ∧
        getSum false st ≠ some (st.thing1 + st.thing2) := by
  refine ⟨[.setThing1 (.signed w) (2 ^ 32 - 1) pf pp, .setThing2 (.signed w) 1], ?_⟩
  have : run check ⟨0, 0, []⟩ [.setThing1 (.signed w) (2 ^ 32 - 1) pf pp, .setThing2 (.signed w) 1] =
      (⟨2 ^ 32 - 1, 1, [⟨1, 2 ^ 32 - 1⟩, ⟨2, 1⟩]⟩ : State) := by
    simp [run, dispatch, Pallet.setThing1, Pallet.setThing2, novaVerify, ensureSigned, h, apiVerify]
  simp only [this]
  decide

/-- **C65, the sum query**, whenever the sum of the latest values fits 32 bits. -/
theorem C65_sum_partial (checks : Bool) (calls : List (Call Account Proof Params))
    (h : latest 1 0 (writes check calls) + latest 2 0 (writes check calls) < 2 ^ 32) :
    getSum checks (run check ⟨0, 0, []⟩ calls) =
      some (latest 1 0 (writes check calls) + latest 2 0 (writes check calls)) := by
  obtain ⟨h1, h2, -⟩ := C65_history check ⟨0, 0, []⟩ calls
  simp only [getSum, h1, h2]
  rw [if_pos h]

/-- A history mixing rejected and effective calls. -/
example : run demoCheck ⟨0, 0, []⟩ [.setThing1 (.signed "a") 5 7 (), .setThing1 (.signed "a") 6 8 (),
      .setThing2 .root 3, .setThing2 (.signed "b") 4, .setThing1 .none 9 7 (), .setThing1 (.signed "b") 2 9 ()] =
    ⟨5, 4, [⟨1, 5⟩, ⟨2, 4⟩]⟩ ∧
    writes demoCheck [.setThing1 (.signed "a") 5 7 (), .setThing1 (.signed "a") 6 8 (),
      .setThing2 .root 3, .setThing2 (.signed "b") 4, .setThing1 .none 9 7 (), .setThing1 (.signed "b") 2 9 ()] =
    [⟨1, 5⟩, ⟨2, 4⟩] := by decide

end

/-- **C70 is false of the code**: the gate of `set_thing_1` does not require a computation to have happened. With the
real verifier and the parameters of an honest setup, every signed account can write every value, with a proof
claiming any number of steps from any start to any end. -/
theorem C70_gate_refuted (fp : CarryBits) (k1 : List FrV) (k2 : List FqV) {gen1 : Nat → List (curve g1B).Point}
    {gen2 : Nat → List (curve grumpkinB).Point} {pp : PublicParams frParams.m fqParams.m (curve g1B).Point (curve grumpkinB).Point}
    (h : setup (bn254Cycle fp k1 k2) gen1 gen2 = some pp) (st : State) (who : String) (val i : Nat)
    (z01 zi1 : List FrV) (z02 zi2 : List FqV) :
    ∃ pf : RecursiveProof frParams.m fqParams.m (curve g1B).Point (curve grumpkinB).Point,
      pf.i = i ∧ pf.z01 = z01 ∧ pf.z02 = z02 ∧ pf.zi1 = zi1 ∧ pf.zi2 = zi2 ∧
      (dispatch (fun pp pf => RecursiveProof.verify (bn254Cycle fp k1 k2) pp pf) st
        (.setThing1 (.signed who) val pf pp)).2.thing1 = val := by
  obtain ⟨pf, h1, h2, h3, h4, h5, h6⟩ := C62_refuted (bn254Cycle_ok fp k1 k2) h i z01 zi1 z02 zi2
  refine ⟨pf, h2, h3, h4, h5, h6, ?_⟩
  rw [dispatch_eq]
  simp [write, h1]

/-- The hypothesis is met: setup succeeds, for every choice of generators. -/
example (fp : CarryBits) (k1 : List FrV) (k2 : List FqV) (gen1 : Nat → List (curve g1B).Point)
    (gen2 : Nat → List (curve grumpkinB).Point) : ∃ pp, setup (bn254Cycle fp k1 k2) gen1 gen2 = some pp :=
  (setup_some (bn254Cycle_ok fp k1 k2) gen1 gen2).imp fun _ h => h.1

/-- **C70, what the gate does enforce** (`C65_history` with the real verifier): a first-item write needs a signed
origin and a proof `RecursiveProof::verify` accepts. -/
theorem C70_gate_partial (fp : CarryBits) {Account : Type} (k1 : List FrV) (k2 : List FqV) (st : State)
    (c : Call Account (RecursiveProof frParams.m fqParams.m (curve g1B).Point (curve grumpkinB).Point)
      (PublicParams frParams.m fqParams.m (curve g1B).Point (curve grumpkinB).Point))
    (h : (dispatch (fun pp pf => RecursiveProof.verify (bn254Cycle fp k1 k2) pp pf) st c).2.thing1 ≠ st.thing1) :
    ∃ who val pf pp, c = .setThing1 (.signed who) val pf pp ∧ pf.verify (bn254Cycle fp k1 k2) pp = some true := by
  rw [dispatch_eq] at h
  cases c with
  | verify o pf pp => simp [write] at h
  | setThing2 o v => cases o <;> simp [write] at h
  | setThing1 o v pf pp =>
    cases o with
    | root => simp [write] at h
    | none => simp [write] at h
    | signed w =>
      refine ⟨w, v, pf, pp, rfl, ?_⟩
      by_contra hc
      simp [write, hc] at h

end Kogarashi.Props
