import Verif.R1cs.System
import Verif.Spec.Digits
import Mathlib.Algebra.BigOperators.Group.List.Basic

/-!
# Specification vocabulary for constraint systems

An assignment gives a value to every wire, with no relation to any run of the circuit builder: this is
what a cheating prover chooses.  A sparse row denotes a linear form; a system is satisfied when wire
`ONE` is 1 and every constraint holds.
-/

namespace Kogarashi.Spec

variable {F : Type} [Field F] [DecidableEq F]

/-- A value for every wire. -/
abbrev Assignment (F : Type) := Wire → F

/-- The linear form a row denotes. -/
def rowVal (z : Assignment F) (r : Row F) : F := (r.map (fun e => z e.1 * e.2)).sum

/-- The constraint holds under the assignment. -/
def Holds (z : Assignment F) (k : Constraint F) : Prop := rowVal z k.a * rowVal z k.b = rowVal z k.c

/-- The assignment satisfies the system. -/
def Satisfies (z : Assignment F) (cs : CS F) : Prop := z Wire.ONE = 1 ∧ ∀ k ∈ cs.cons, Holds z k

/-- The wire has been allocated in the system. -/
def Allocated (cs : CS F) : Wire → Prop
  | .inst i => i < cs.x.length
  | .wit i => i < cs.w.length

/-- No wire occurs twice in the row. -/
def DistinctWires (r : Row F) : Prop := (r.map Prod.fst).Nodup

/-- A row the circuit code may hold: distinct, allocated wires. -/
structure RowOk (cs : CS F) (r : Row F) : Prop where
  distinct : DistinctWires r
  allocated : ∀ e ∈ r, Allocated cs e.1

/-- The rows of a constraint only mention allocated wires. -/
structure ConstraintOk (cs : CS F) (k : Constraint F) : Prop where
  a : RowOk cs k.a
  b : RowOk cs k.b
  c : RowOk cs k.c

/-- A system in use: the instance starts with the constant one, constraints mention allocated wires. -/
structure Wf (cs : CS F) : Prop where
  one : cs.x[0]? = some 1
  rows : ∀ k ∈ cs.cons, ConstraintOk cs k

/-- The assignment stored in the system by the circuit builder (the honest prover's assignment). -/
def stored (cs : CS F) : Assignment F := fun w => (cs.get w).getD 0

/-- The two assignments coincide on the wires of the system. -/
def AgreeOn (cs : CS F) (z z' : Assignment F) : Prop := ∀ w, Allocated cs w → z w = z' w

/-- The system only grew: everything in `cs` is still there, in place, in `cs'`. -/
structure Extends (cs cs' : CS F) : Prop where
  x : cs.x <+: cs'.x
  w : cs.w <+: cs'.w
  cons : cs.cons <+: cs'.cons

/-- Two systems with the same matrices and the same numbers of wires (values may differ). -/
structure SameShape (cs cs' : CS F) : Prop where
  x : cs.x.length = cs'.x.length
  w : cs.w.length = cs'.w.length
  cons : cs.cons = cs'.cons

/-- The two circuit-building programs, run on systems of the same shape, produce the same output and
the same shape (or both panic), whatever values the wires carry. -/
def Uniform {α : Type} (g h : Circ F α) : Prop := ∀ c1 c2, SameShape c1 c2 →
  (g c1 = none ∧ h c2 = none) ∨
  ∃ a c1' c2', g c1 = some (a, c1') ∧ h c2 = some (a, c2') ∧ SameShape c1' c2'

/-- Under the assignment the wires (most significant first) are boolean and spell `n` in binary. -/
def SpellBits (z : Assignment F) (bs : List Wire) (n : Nat) : Prop :=
  ∃ ds : List Nat, (∀ d ∈ ds, d = 0 ∨ d = 1) ∧ bs.map z = ds.map (fun d : Nat => (d : F)) ∧ beValue 2 ds = n

/-- What it means for a gadget that took the system from `cs` to `cs'` to implement the relation `S`
between wires: every satisfying assignment of the new system satisfies the old one and `S` (soundness);
every satisfying assignment of the old one for which the gadget's precondition `Pre` holds extends,
without changing a wire of the old system, to one of the new (completeness); and the values the builder
itself stored do so (honest prover). -/
structure Implements (cs cs' : CS F) (S Pre : Assignment F → Prop) : Prop where
  grows : Extends cs cs'
  wf : Wf cs'
  sound : ∀ z, Satisfies z cs' → Satisfies z cs ∧ S z
  complete : ∀ z, Satisfies z cs → Pre z → ∃ z', AgreeOn cs z z' ∧ Satisfies z' cs'
  honest : Satisfies (stored cs) cs → Pre (stored cs) → Satisfies (stored cs') cs'

end Kogarashi.Spec
