import Verif.R1cs.Gadget
import Verif.Groth16.Synth

/-!
# Model: the circuit of the example (`groth16/examples/simple.rs`) and of the test (`groth16/src/lib.rs`)
-/

namespace Kogarashi.Groth16

variable {F : Type} [_root_.Field F] [DecidableEq F]

/-- `DummyCircuit::synthesize` (`groth16/examples/simple.rs` lines 31-52, `groth16/src/lib.rs` lines 49-63). -/
def dummyCircuit (x o : F) : Circ F Unit := do
  let x ← Circ.inst x
  let o ← Circ.inst o
  let c := Circ.const 5
  let sym1 ← Circ.mul x x
  let y ← Circ.mul sym1 x
  let sym2 ← Circ.add y x
  Circ.enforceEq (sym2.add c) o

/-- `DummyCircuit` with its `Default` (`groth16/examples/simple.rs` lines 13-29) as a circuit type. -/
def dummyType : CircuitType F (F × F) where
  default := (0, 0)
  synthesize c := match dummyCircuit c.1 c.2 CS.init with
    | some (_, cs) => .ok cs
    | none => .error .proofVerificationError

end Kogarashi.Groth16
