import Verif.Groth16.Fft
import Verif.R1cs.System
import Mathlib.Algebra.Module.LinearMap.End
import Mathlib.LinearAlgebra.BilinearMap
import Mathlib.Data.Nat.Log

/-!
# Model: the Groth16 protocol (`groth16/src/{zksnark,prover,proof,verifier,params}.rs`)

Simplifications.
* The scalar field is any field with a root of unity; `G1`, `G2`, `Gt` are modules over it and the pairing
  `final_exp ∘ multi_miller_loop` is the sum of a bilinear map `e` over the pairs.  Affine, projective and prepared
  (`G2PairingAffine`) forms of a point are one group element (C20, C26 relate them for the curve model).
* `msm_curve_addition` is the sum over the common prefix (this is C42).
* Random elements are arguments: `alpha beta gamma delta tau` of `setup`, `r s` of `create_proof`.
* `Circuit::synthesize` is represented by the constraint system it builds (`CS`, from `R1cs/System.lean`);
  circuits that return an error are in Groth16/Synth.lean.
* A panic is `none`; `Err(_)` is `.error _`.
-/

namespace Kogarashi.Groth16

variable {F G1 G2 GT : Type} [Field F] [DecidableEq F]
variable [AddCommGroup G1] [Module F G1] [AddCommGroup G2] [Module F G2] [AddCommGroup GT] [Module F GT]
variable [DecidableEq G1] [DecidableEq G2] [DecidableEq GT]

/-- `error.rs`: the errors these functions return. -/
inductive GErr where
  | proverSubVersionCrsAttack
  | proverInversionFailed
  | proofVerificationError
  | inconsistentPublicInputsLen (expected provided : Nat)
deriving DecidableEq

/-- `verifier.rs:19-45` `VerifyingKey`. -/
structure VKey (G1 G2 : Type) where
  alphaG1 : G1
  betaG1 : G1
  betaG2 : G2
  gammaG2 : G2
  deltaG1 : G1
  deltaG2 : G2
  ic : List G1

/-- `verifier.rs:66-75` `PreparedVerifyingKey`. -/
structure PVKey (G1 G2 GT : Type) where
  alphaBeta : GT
  negGamma : G2
  negDelta : G2
  ic : List G1

/-- `params.rs:7-29` `Parameters`. -/
structure Params (G1 G2 : Type) where
  vk : VKey G1 G2
  h : List G1
  l : List G1
  a : List G1
  bG1 : List G1
  bG2 : List G2

/-- `proof.rs:7-11` `Proof`. -/
structure Proof (G1 G2 : Type) where
  a : G1
  b : G2
  c : G1
deriving DecidableEq

/-- `msm_curve_addition` (`groth16/src/msm.rs` lines 6-48, see C42) on group elements. -/
def msmSum {G : Type} [AddCommGroup G] [Module F G] (bases : List G) (coeffs : List F) : G :=
  (List.zipWith (fun (c : F) (P : G) => c • P) coeffs bases).sum

/-- `cs.m().next_power_of_two().trailing_zeros()` (`zksnark.rs:23-24`, `prover.rs:28-29`). -/
def domainLog (m : Nat) : Nat := Nat.clog 2 m

/-- `zksnark.rs:196-200` `eval_at_tau`; the index is out of range for a list `idft` has trimmed: `none`. -/
def evalAtTau (powersOfTau : List F) (p : List (F × Nat)) : Option F :=
  p.foldlM (fun acc e => (powersOfTau[e.2]?).map (fun v => acc + v * e.1)) 0

/-- What `eval` writes for one wire (`zksnark.rs` lines 131-194): `(a, b_g1, b_g2, ext)`. -/
structure Query (G1 G2 : Type) where
  a : G1
  bG1 : G1
  bG2 : G2
  ext : G1

/-- `zksnark.rs:131-194` `eval`; unequal lengths fail the assertions (`none`). -/
def evalCols (g1 : G1) (g2 : G2) (pt : List F) (inv alpha beta : F) :
    List (List (F × Nat)) → List (List (F × Nat)) → List (List (F × Nat)) → Option (List (Query G1 G2))
  | ca :: cas, cb :: cbs, cc :: ccs => do
    let at_ ← evalAtTau pt ca
    let bt ← evalAtTau pt cb
    let ct ← evalAtTau pt cc
    let rest ← evalCols g1 g2 pt inv alpha beta cas cbs ccs
    some ({ a := if at_ ≠ 0 then at_ • g1 else 0
            bG1 := if bt ≠ 0 then bt • g1 else 0
            bG2 := if bt ≠ 0 then bt • g2 else 0
            ext := ((at_ * beta + bt * alpha + ct) * inv) • g1 } :: rest)
  | [], [], [] => some []
  | _, _, _ => none

/-- `verifier.rs:48-62` `prepare`. -/
def VKey.prepare (e : G1 →ₗ[F] G2 →ₗ[F] GT) (vk : VKey G1 G2) : PVKey G1 G2 GT :=
  { alphaBeta := e vk.alphaG1 vk.betaG2, negGamma := -vk.gammaG2, negDelta := -vk.deltaG2, ic := vk.ic }

/-- `zksnark.rs:27-32`: the toxic waste. -/
structure Trapdoor (F : Type) where
  alpha : F
  beta : F
  gamma : F
  delta : F
  tau : F

/-- `zksnark.rs:17-127` `ZkSnark::setup`; `cs` is the system `C::default()` builds.  `u64` subtraction `cs.m() - 1`
never underflows here: `Fft::new` has panicked for `m ≤ 1`. -/
def setup (S : Nat) (root gen : F) (g1 : G1) (g2 : G2) (e : G1 →ₗ[F] G2 →ₗ[F] GT) (t : Trapdoor F) (cs : CS F) :
    Option (Except GErr (Params G1 G2 × PVKey G1 G2 GT)) := do
  let fft ← Fft.new S root gen (domainLog cs.m)
  if t.gamma = 0 then some (.error .proverInversionFailed)
  else if t.delta = 0 then some (.error .proverInversionFailed)
  else
    let powersOfTau := powersFrom t.tau cs.m 1
    let coeff := fft.z t.tau * t.delta⁻¹
    let h := (powersOfTau.take (cs.m - 1)).map (fun p => (p * coeff) • g1)
    let pt := idft fft powersOfTau
    let (ax, aw) ← Matrix.xAndW cs.matA cs.l cs.w.length
    let (bx, bw) ← Matrix.xAndW cs.matB cs.l cs.w.length
    let (cx, cw) ← Matrix.xAndW cs.matC cs.l cs.w.length
    let inputs ← evalCols g1 g2 pt t.gamma⁻¹ t.alpha t.beta ax bx cx
    let aux ← evalCols g1 g2 pt t.delta⁻¹ t.alpha t.beta aw bw cw
    let vk : VKey G1 G2 :=
      { alphaG1 := t.alpha • g1, betaG1 := t.beta • g1, betaG2 := t.beta • g2, gammaG2 := t.gamma • g2
        deltaG1 := t.delta • g1, deltaG2 := t.delta • g2, ic := inputs.map (·.ext) }
    let params : Params G1 G2 :=
      { vk := vk, h := h, l := aux.map (·.ext), a := inputs.map (·.a) ++ aux.map (·.a)
        bG1 := inputs.map (·.bG1) ++ aux.map (·.bG1), bG2 := inputs.map (·.bG2) ++ aux.map (·.bG2) }
    some (.ok (params, vk.prepare e))

/-- `prover.rs:33-47`: the coefficients of `H`. -/
def quotient (fft : Fft F) (a b c : List F) : Option (List F) := do
  let a := cosetDft fft (idft fft a)
  let b := cosetDft fft (idft fft b)
  let c := cosetDft fft (idft fft c)
  let h := pointsSub (pointsMul a b) c
  let q ← divideByZOnCoset fft h
  some (cosetIdft fft q)

/-- A slice `v[n..]`, which panics when `n` exceeds the length. -/
def sliceFrom {α : Type} (v : List α) (n : Nat) : Option (List α) := if n ≤ v.length then some (v.drop n) else none

/-- `prover.rs:20-99` `create_proof`; `cs` is the system the prover's circuit builds. -/
def createProof (S : Nat) (root gen : F) (params : Params G1 G2) (r s : F) (cs : CS F) :
    Option (Except GErr (Proof G1 G2)) := do
  let vk := params.vk
  let fft ← Fft.new S root gen (domainLog cs.m)
  let (a, b, c) ← cs.evaluate
  let q ← quotient fft a b c
  let q := msmSum params.h q
  let l := msmSum params.l cs.w
  let aInputs := msmSum params.a cs.x
  let aAux := msmSum (← sliceFrom params.a cs.l) cs.w
  let b1Inputs := msmSum params.bG1 cs.x
  let b1Aux := msmSum (← sliceFrom params.bG1 cs.l) cs.w
  let b2Inputs := msmSum params.bG2 cs.x
  let b2Aux := msmSum (← sliceFrom params.bG2 cs.l) cs.w
  if vk.deltaG1 = 0 ∨ vk.deltaG2 = 0 then some (.error .proverSubVersionCrsAttack)
  else
    let gA := r • vk.deltaG1 + vk.alphaG1
    let gB := s • vk.deltaG2 + vk.betaG2
    let gC := s • (r • vk.deltaG1) + s • vk.alphaG1 + r • vk.betaG1
    let aAnswer := aInputs + aAux
    let gA := gA + aAnswer
    let gC := gC + s • aAnswer
    let b1Answer := b1Inputs + b1Aux
    let b2Answer := b2Inputs + b2Aux
    let gB := gB + b2Answer
    let gC := gC + r • b1Answer
    let gC := gC + (q + l)
    some (.ok { a := gA, b := gB, c := gC })

/-- `proof.rs:25-29`: the public-input combination. -/
def icAcc (ic : List G1) (inputs : List F) : G1 :=
  (inputs.zip (ic.drop 1)).foldl (fun acc e => acc + e.1 • e.2) (ic.headD 0)

/-- `proof.rs:14-50` `verify` (and `verifier.rs:14-16`).  The empty key, on which `ic[0]` and `len() - 1` panic, never
passes the length test with `public_inputs.len() + 1`. -/
def verify (e : G1 →ₗ[F] G2 →ₗ[F] GT) (vk : PVKey G1 G2 GT) (proof : Proof G1 G2) (inputs : List F) : Except GErr Unit :=
  if inputs.length + 1 ≠ vk.ic.length then .error (.inconsistentPublicInputsLen (vk.ic.length - 1) inputs.length)
  else
    let acc := icAcc vk.ic inputs
    let pairing := e proof.a proof.b + e acc vk.negGamma + e proof.c vk.negDelta
    if pairing ≠ vk.alphaBeta then .error .proofVerificationError else .ok ()

end Kogarashi.Groth16
