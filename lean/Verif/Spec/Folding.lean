import Verif.Nova.Folding
import Verif.Spec.R1cs
import Mathlib.Algebra.BigOperators.Group.Finset.Basic

/-!
# Specification vocabulary for relaxed constraint systems and vector commitments
-/

namespace Kogarashi.Spec

open Nova

/-- The assignment given by a value for the constant wire, the public inputs and the witness
(wires beyond the vectors read 0). -/
def relaxedAsg {F : Type} [Field F] (u : F) (x w : List F) : Assignment F
  | .inst 0 => u
  | .inst (i + 1) => x.getD i 0
  | .wit i => w.getD i 0

/-- The wire lies inside the vectors. -/
def Readable {F : Type} (x w : List F) : Wire → Prop
  | .inst i => i ≤ x.length
  | .wit i => i < w.length

/-- Every wire mentioned by the shape lies inside the vectors, and the shape has at most `m` rows. -/
structure Fits {F : Type} (S : Shape F) (x w : List F) : Prop where
  wires : ∀ r ∈ S.a ++ S.b ++ S.c, ∀ e ∈ r, Readable x w e.1
  a : S.a.length ≤ S.m
  b : S.b.length ≤ S.m
  c : S.c.length ≤ S.m

/-- Relaxed satisfaction: in every row `i`, `(A z)ᵢ (B z)ᵢ = u (C z)ᵢ + eᵢ`. -/
def RelaxedHolds {F : Type} [Field F] (S : Shape F) (u : F) (x w e : List F) : Prop :=
  ∀ i < S.m, rowVal (relaxedAsg u x w) (S.a.getD i []) * rowVal (relaxedAsg u x w) (S.b.getD i []) =
    u * rowVal (relaxedAsg u x w) (S.c.getD i []) + e.getD i 0

/-- Plain satisfaction. -/
def PlainHolds {F : Type} [Field F] (S : Shape F) (x w : List F) : Prop :=
  ∀ i < S.m, rowVal (relaxedAsg 1 x w) (S.a.getD i []) * rowVal (relaxedAsg 1 x w) (S.b.getD i []) =
    rowVal (relaxedAsg 1 x w) (S.c.getD i [])

/-- `a + r b`, entry by entry. -/
def axpy {F : Type} [Field F] (r : F) (a b : List F) : List F := List.zipWith (fun s t => s + r * t) a b

/-- The multi-scalar sum `Σ mᵢ gᵢ` over the indices covered by both lists. -/
def msum {F G : Type} [Field F] [AddCommGroup G] [Module F G] (m : List F) (g : List G) : G :=
  ∑ i ∈ Finset.range (min m.length g.length), m.getD i 0 • g.getD i 0

end Kogarashi.Spec
