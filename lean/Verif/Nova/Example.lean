import Verif.Nova.IvcProof
import Verif.Curve.Order

/-!
# The step function of the test suite and the BN254/Grumpkin cycle

They meet the hypotheses of the theorems about the incremental prover.
-/

namespace Kogarashi.Nova

open Spec Curve Props Field

/-- `nova/src/test.rs:14-30` (and `sample/src/client.rs:11-34`) `ExampleFunction`: `z ↦ z³ + z + 5` and its circuit.  `z[0]` on an empty vector panics; the
native function is total in the model, reading 0 there (it is only used on vectors of length one). -/
def exampleFn (F : Type) [Field F] [DecidableEq F] : FnCircuit F where
  invoke z := [z.getD 0 0 * z.getD 0 0 * z.getD 0 0 + z.getD 0 0 + 5]
  invokeCs z := do
    let z0 ← Circ.lift z[0]?
    let sq ← Circ.mul z0 z0
    let cube ← Circ.mul sq z0
    pure [Row.add (Row.add cube z0) (Circ.const 5)]

theorem exampleFn_ok {q : Nat} [Fact q.Prime] : (exampleFn (ZMod q)).Ok where
  honest := by
    intro cs rows vals wf hl h
    obtain ⟨v, rfl⟩ := List.length_eq_one_iff.mp hl
    obtain ⟨r, rfl⟩ := List.length_eq_one_iff.mp (List.Forall₂.length_eq h)
    · cases h with
      | cons h1 _ =>
        show HP cs (do
          let z0 ← Circ.lift [r][0]?
          let sq ← Circ.mul z0 z0
          let cube ← Circ.mul sq z0
          pure [Row.add (Row.add cube z0) (Circ.const 5)]) _
        refine HP.bind (HP.lift' (a := r) wf rfl) (fun z0 c1 e1 w1 hz => ?_)
        subst hz
        have k1 := h1.mono e1
        refine HP.bind (HP.mul w1 k1 k1) (fun s c2 e2 w2 hs => ?_)
        refine HP.bind (HP.mul w2 hs (k1.mono e2)) (fun t c3 e3 w3 ht => HP.pure w3 ?_)
        exact .cons ((ht.add ((k1.mono e2).mono e3)).add (Has.const w3 5)) .nil
  shaped := by
    intro rows
    exact Coh.lift_self fun _ => Coh.bindU (Uniform.mul _ _) fun _ => Coh.bindU (Uniform.mul _ _) fun _ => Coh.pure rfl
  noInst := by
    intro rows
    exact (NoInst.lift _).bind fun _ => (NoInst.mul _ _).bind fun _ => (NoInst.mul _ _).bind fun _ => NoInst.pure _
  length := fun _ _ => rfl

/-- The coordinates of a commitment. -/
def envOf {q : Nat} [Fact q.Prime] (b : ZMod q) (consts : List (ZMod q)) : Env q (curve b).Point where
  coordX P := (canon P).x
  coordY P := (canon P).y
  isId P := decide (P = 0)
  consts := consts

theorem envOf_ok {q : Nat} [Fact q.Prime] (b : ZMod q) (consts : List (ZMod q)) : CurveEnv (envOf b consts) := by
  intro P
  cases P with
  | zero => rfl
  | some x y h =>
    have : decide (WeierstrassCurve.Affine.Point.some x y h = 0) = false :=
      decide_eq_false (WeierstrassCurve.Affine.Point.some_ne_zero _)
    simp only [envOf, canon, this]
    rfl

theorem fq254 : BitParams fqParams.m 254 := ⟨by norm_num, by decide +kernel, by decide +kernel⟩
theorem fr254 : BitParams frParams.m 254 := ⟨by norm_num, by decide +kernel, by decide +kernel⟩

/-- `driver.rs:12-42`: the cycle of BN254 G1 and Grumpkin with the example function on both sides; the MiMC constants
and the floating-point unit are arbitrary. -/
def bn254Cycle (fp : CarryBits) (k1 : List FrV) (k2 : List FqV) : Cycle frParams.m fqParams.m (curve g1B).Point (curve grumpkinB).Point where
  D1 := ⟨254, grumpkinB + grumpkinB + grumpkinB, envOf grumpkinB k1, fp⟩
  D2 := ⟨254, g1B + g1B + g1B, envOf g1B k2, fp⟩
  FC1 := exampleFn FrV
  FC2 := exampleFn FqV

theorem bn254Cycle_ok (fp : CarryBits) (k1 : List FrV) (k2 : List FqV) : (bn254Cycle fp k1 k2).Ok where
  D1 := ⟨fr254, fq254, grumpkin_noOrderTwo, rfl, rfl, envOf_ok _ _⟩
  D2 := ⟨fq254, fr254, g1_noOrderTwo, rfl, rfl, envOf_ok _ _⟩
  FC1 := exampleFn_ok
  FC2 := exampleFn_ok

end Kogarashi.Nova
