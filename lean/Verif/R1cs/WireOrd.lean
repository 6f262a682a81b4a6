import Verif.R1cs.Row

/-!
# Ordering of wires (`zkstd/src/r1cs/wire.rs`)
-/

namespace Kogarashi

/-- `Ord::cmp` of `Wire` (`zkstd/src/r1cs/wire.rs` lines 17-29; `partial_cmp`, lines 31-35, wraps it). -/
def Wire.cmp (a b : Wire) : Ordering :=
  let rhs := match a with
    | .inst i => i
    | .wit i => i
  let lhs := match b with
    | .inst i => i
    | .wit i => i
  compare rhs lhs

end Kogarashi
