import Verif.Groth16.Protocol

/-!
# Model: Groth16 on circuits as programs (`groth16/src/circuit.rs`, `zksnark.rs`, `prover.rs`)
-/

namespace Kogarashi.Groth16

variable {F G1 G2 GT : Type} [Field F] [DecidableEq F]
variable [AddCommGroup G1] [Module F G1] [AddCommGroup G2] [Module F G2] [AddCommGroup GT] [Module F GT]
variable [DecidableEq G1] [DecidableEq G2] [DecidableEq GT]

/-- A type that implements `Circuit` (`circuit.rs:10-12`): `Default::default` and `synthesize`, which either returns an error or has
built a constraint system.  Simplification: the partly built system that `synthesize` leaves behind with an error is dropped, as both callers do. -/
structure CircuitType (F C : Type) where
  default : C
  synthesize : C → Except GErr (CS F)

/-- `zksnark.rs:17-127` `ZkSnark::setup::<C>`, with the `?` of line 21. -/
def CircuitType.setup {C : Type} (T : CircuitType F C) (S : Nat) (root gen : F) (g1 : G1) (g2 : G2) (e : G1 →ₗ[F] G2 →ₗ[F] GT) (t : Trapdoor F) :
    Option (Except GErr (Params G1 G2 × PVKey G1 G2 GT)) :=
  match T.synthesize T.default with
  | .error err => some (.error err)
  | .ok cs => Groth16.setup S root gen g1 g2 e t cs

/-- `prover.rs:20-99` `Prover::create_proof::<C, R>`, with the `?` of line 26.  `C` is any circuit type, not only that of `setup`. -/
def CircuitType.createProof {C : Type} (T : CircuitType F C) (S : Nat) (root gen : F) (params : Params G1 G2) (r s : F) (circuit : C) :
    Option (Except GErr (Proof G1 G2)) :=
  match T.synthesize circuit with
  | .error err => some (.error err)
  | .ok cs => Groth16.createProof S root gen params r s cs

end Kogarashi.Groth16
