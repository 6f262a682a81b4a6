import Verif.Groth16.Protocol
import Verif.Spec.R1cs

/-!
# Specification: provers who combine the published parameters

Such a prover fixes coefficients before the parameters are made and returns the combinations of the published points with them.  A
prover whose coefficients depend on the parameters it sees is not of this kind: against it nothing holds without a hardness assumption.
-/

namespace Kogarashi.Spec

open Kogarashi Groth16

variable {F G1 G2 : Type} [_root_.Field F] [AddCommGroup G1] [Module F G1] [AddCommGroup G2] [Module F G2]

/-- `Σ cᵢ Pᵢ`. -/
def combo {G : Type} [AddCommGroup G] [Module F G] (cs : List F) (Ps : List G) : G := (List.zipWith (fun c P => c • P) cs Ps).sum

/-- Coefficients on the points of the first group: the generator and every field of `Parameters` and its `VerifyingKey`. -/
structure G1Comb (F : Type) where
  one : F
  alpha : F
  beta : F
  delta : F
  ic : List F
  h : List F
  l : List F
  a : List F
  b : List F

/-- Coefficients on the points of the second group. -/
structure G2Comb (F : Type) where
  one : F
  beta : F
  gamma : F
  delta : F
  b : List F

def G1Comb.point (c : G1Comb F) (g1 : G1) (p : Params G1 G2) : G1 :=
  c.one • g1 + c.alpha • p.vk.alphaG1 + c.beta • p.vk.betaG1 + c.delta • p.vk.deltaG1 + combo c.ic p.vk.ic + combo c.h p.h + combo c.l p.l +
    combo c.a p.a + combo c.b p.bG1

def G2Comb.point (c : G2Comb F) (g2 : G2) (p : Params G1 G2) : G2 :=
  c.one • g2 + c.beta • p.vk.betaG2 + c.gamma • p.vk.gammaG2 + c.delta • p.vk.deltaG2 + combo c.b p.bG2

/-- A prover: coefficients for the three elements of a proof. -/
structure AffineProver (F : Type) where
  a : G1Comb F
  b : G2Comb F
  c : G1Comb F

/-- The proof the prover returns under the parameters `p`. -/
def AffineProver.prove (P : AffineProver F) (g1 : G1) (g2 : G2) (p : Params G1 G2) : Groth16.Proof G1 G2 :=
  { a := P.a.point g1 p, b := P.b.point g2 p, c := P.c.point g1 p }

/-- The assignment with public inputs `x` and witness `w`. -/
def assign (x w : List F) : Assignment F
  | .inst 0 => 1
  | .inst (i + 1) => x.getD i 0
  | .wit i => w.getD i 0

end Kogarashi.Spec
