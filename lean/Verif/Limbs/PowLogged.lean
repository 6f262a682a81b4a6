import Verif.Limbs.Represent

/-!
# Model: the field operations an exponentiation executes (`zkstd/src/arithmetic/limbs/bits_256/normal.rs`)
-/

namespace Kogarashi.Limbs

/-- The calls in the loop of `pow`: `square`, `mul`. -/
inductive LimbOp where
  | square
  | mul
deriving DecidableEq, Repr

namespace B256

/-- One iteration of the loop of `pow` (`bits_256/normal.rs` lines 280-285), with the calls it makes appended to a log. -/
def powStepLogged (a p : L4) (inv : Nat) (s : L4 × List LimbOp) (bit : Nat) : L4 × List LimbOp :=
  let acc := square s.1 p inv
  let log := s.2 ++ [.square]
  if bit = 1 then (mul acc a p inv, log ++ [.mul]) else (acc, log)

/-- `pow` (`bits_256/normal.rs` lines 272-287) with its log. -/
def powLogged (a b identity p : L4) (inv : Nat) : L4 × List LimbOp :=
  if b = zero then (identity, [])
  else if a = zero then (zero, [])
  else (toBits b).foldl (powStepLogged a p inv) (identity, [])

/-- `invert` (`bits_256/normal.rs` lines 256-269) with its log. -/
def invertLogged (a littleFermat identity p : L4) (inv : Nat) : Option L4 × List LimbOp :=
  if a = zero then (none, [])
  else
    let r := powLogged a littleFermat identity p inv
    (some r.1, r.2)

end B256

end Kogarashi.Limbs
