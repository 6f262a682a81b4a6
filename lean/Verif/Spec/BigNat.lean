import Verif.Nova.BigNat
import Verif.Spec.R1cs
import Verif.Spec.Digits
import Verif.R1cs.Honest

/-!
# Specification vocabulary for big integers in a circuit
-/

namespace Kogarashi.Spec

open Nova

variable {p : Nat} [Fact p.Prime]

/-- The values the builder stored in the limbs, as natural numbers. -/
def limbVals (c : CS (ZMod p)) (a : BigNat (ZMod p)) : List Nat := a.limbs.map (fun r => (rowVal (stored c) r).val)

/-- The limb rows are usable, limb values are at most `max_word`, and the bookkeeping fields are those every constructor
of the library sets (`min_bits = 0`, `n_limbs` the number of limbs). -/
structure Held (c : CS (ZMod p)) (a : BigNat (ZMod p)) : Prop where
  ok : ∀ r ∈ a.limbs, RowOk c r
  le : ∀ n ∈ limbVals c a, (n : Int) ≤ a.maxWord
  minBits : a.minBits = 0
  count : a.nLimbs = a.limbs.length

/-- The assignment encodes `n` in four limbs below `2^64`, the format of every big integer in the folding circuit
(`LIMB_WIDTH`, `N_LIMBS`, `big_nat.rs:8-9`). -/
structure Encodes (c : CS (ZMod p)) (a : BigNat (ZMod p)) (n : Nat) : Prop extends Held c a where
  width : a.limbWidth = 64
  max : a.maxWord = 2 ^ 64 - 1
  limbs : a.limbs.length = 4
  value : leValue (2 ^ 64) (limbVals c a) = n

end Kogarashi.Spec
