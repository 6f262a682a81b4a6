import Verif.Wire.Scale
import Verif.Tower.Pairing

/-!
# The SCALE codec of the structs of BN254
-/

namespace Kogarashi.Scale

open Limbs Curve Tower

/-- `Fq2`: a struct around an array of coefficients (`zkstd/src/macros/extension_field.rs` lines 16-17,
`bn254/src/fqn.rs` lines 12-21). -/
def fq2C : Codec (Fq2 L4) := (fieldC.pair fieldC).iso (fun p => ⟨p.1, p.2⟩) fun a => (a.c0, a.c1)

/-- `Fq6` (the same lines). -/
def fq6C : Codec (Fq6 L4) :=
  (fq2C.pair (fq2C.pair fq2C)).iso (fun p => ⟨p.1, p.2.1, p.2.2⟩) fun a => (a.c0, a.c1, a.c2)

/-- `Fq12` (the same lines). -/
def fq12C : Codec (Fq12 L4) := (fq6C.pair fq6C).iso (fun p => ⟨p.1, p.2⟩) fun a => (a.c0, a.c1)

/-- `G1Projective` (`bn254/src/g1.rs` lines 118-123), `Projective` (`grumpkin/src/curve.rs` lines 107-112). -/
def projC : Codec (Proj L4) :=
  (fieldC.pair (fieldC.pair fieldC)).iso (fun p => ⟨p.1, p.2.1, p.2.2⟩) fun a => (a.x, a.y, a.z)

/-- `G2Affine` (`bn254/src/g2.rs` lines 15-20). -/
def g2AffC : Codec (Aff (Fq2 L4)) :=
  (fq2C.pair (fq2C.pair boolC)).iso (fun p => ⟨p.1, p.2.1, p.2.2⟩) fun a => (a.x, a.y, a.inf)

/-- `G2Projective` (`bn254/src/g2.rs` lines 81-86). -/
def g2ProjC : Codec (Proj (Fq2 L4)) :=
  (fq2C.pair (fq2C.pair fq2C)).iso (fun p => ⟨p.1, p.2.1, p.2.2⟩) fun a => (a.x, a.y, a.z)

/-- `PairingCoeff` (`bn254/src/g2.rs` lines 193-194). -/
def coeffC : Codec (PairingCoeff L4) :=
  (fq2C.pair (fq2C.pair fq2C)).iso (fun p => ⟨p.1, p.2.1, p.2.2⟩) fun a => (a.e0, a.e1, a.e2)

/-- `G2PairingAffine` (`bn254/src/g2.rs` lines 197-201). -/
def g2PairingC : Codec (G2Pairing L4) := (coeffC.vec.pair boolC).iso (fun p => ⟨p.1, p.2⟩) fun a => (a.coeffs, a.isInfinity)

end Kogarashi.Scale
