import Mathlib.Algebra.Field.Defs

/-!
# Specification: a Feistel network with the round function `x ↦ (x + c)^7`

Independent of the model: one round, the network, and the network run backwards.
-/

namespace Kogarashi.Spec

variable {F : Type} [_root_.Field F]

/-- One round with constant `c`. -/
def feistelRound (x : F × F) (c : F) : F × F := ((x.1 + c) ^ 7 + x.2, x.1)

/-- One round undone. -/
def feistelUndo (y : F × F) (c : F) : F × F := (y.2, y.1 - (y.2 + c) ^ 7)

/-- All rounds, in the order of the constants. -/
def feistel (cs : List F) (x : F × F) : F × F := cs.foldl feistelRound x

/-- All rounds undone, the last first. -/
def feistelInv (cs : List F) (y : F × F) : F × F := cs.reverse.foldl feistelUndo y

end Kogarashi.Spec
