import Verif.Tower.Fqn
import Verif.Limbs.B256

/-!
# The integers by which extension-field elements are ordered

An element is read as one long integer, its coefficients (in Montgomery form) being the digits, the highest coefficient
of the tower the most significant.
-/

namespace Kogarashi.Spec

open Kogarashi.Limbs Kogarashi.Tower

/-- All words are 64-bit words. -/
def WordsOk2 (a : Fq2 L4) : Prop := a.c0.Wf ∧ a.c1.Wf
def WordsOk6 (a : Fq6 L4) : Prop := WordsOk2 a.c0 ∧ WordsOk2 a.c1 ∧ WordsOk2 a.c2
def WordsOk12 (a : Fq12 L4) : Prop := WordsOk6 a.c0 ∧ WordsOk6 a.c1

/-- The integer of an element of `Fq2`. -/
def rank2 (a : Fq2 L4) : Nat := a.c0.val + 2 ^ 256 * a.c1.val
/-- The integer of an element of `Fq6`. -/
def rank6 (a : Fq6 L4) : Nat := rank2 a.c0 + 2 ^ 512 * rank2 a.c1 + 2 ^ 1024 * rank2 a.c2
/-- The integer of an element of `Fq12`. -/
def rank12 (a : Fq12 L4) : Nat := rank6 a.c0 + 2 ^ 1536 * rank6 a.c1

end Kogarashi.Spec
