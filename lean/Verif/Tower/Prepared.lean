import Verif.Tower.Pairing

/-!
# Model: equality of prepared G2 points (`bn254/src/g2.rs`)
-/

namespace Kogarashi.Tower

variable {R : Type} [DecidableEq R]

/-- `PartialEq for G2PairingAffine` (`bn254/src/g2.rs` lines 203-207), with the derived equality of `PairingCoeff` (lines 193-194). -/
def G2Pairing.eq (p q : G2Pairing R) : Bool := decide (p.coeffs = q.coeffs) && (p.isInfinity == q.isInfinity)

/-- `G2PairingAffine::is_identity` (`bn254/src/g2.rs` lines 316-320). -/
def G2Pairing.isIdentity (p : G2Pairing R) : Bool := p.isInfinity

end Kogarashi.Tower
