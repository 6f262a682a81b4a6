import Verif.Props.Programs
import Verif.Props.Groth16Struct
import Verif.Props.Ivc
import Verif.Nova.Example

/-!
# Property C119: arithmetic programs proved with Groth16 on BN254 and iterated with Nova
-/

namespace Kogarashi

namespace Nova

open Circ Spec Curve Props Kogarashi.Field

/-- A step function given by an expression in the state, with the circuit a caller writes for it (`nova/src/function.rs:7-16`
`FunctionCircuit`, in the manner of `nova/src/test.rs:14-30`).  Native function on an empty vector: as in `exampleFn`. -/
def exprFn {F : Type} [_root_.Field F] [DecidableEq F] (e : Expr F 0 1) : FnCircuit F where
  invoke z := [e.eval Fin.elim0 (fun _ => z.getD 0 0)]
  invokeCs z := do
    let z0 ← Circ.lift z[0]?
    let o ← Circ.build [] [z0] e
    pure [o]

theorem add_noInst {F : Type} [_root_.Field F] [DecidableEq F] (x y : Row F) : NoInst (Circ.add x y) := by
  unfold Circ.add
  split
  · exact NoInst.pure _
  · split
    · exact NoInst.pure _
    · exact (NoInst.value _).bind fun _ => (NoInst.value _).bind fun _ => (NoInst.wit _).bind fun _ =>
        (show NoInst (Circ.addGate x y _) from NoInst.mulGate _ _ _).bind fun _ => NoInst.pure _

theorem build_noInst {F : Type} [_root_.Field F] [DecidableEq F] {np nw : Nat} (px pw : List (Row F)) (e : Expr F np nw) : NoInst (Circ.build px pw e) := by
  induction e with
  | pub i => exact NoInst.pure _
  | priv i => exact NoInst.pure _
  | const c => exact NoInst.pure _
  | add a b iha ihb => exact iha.bind fun _ => ihb.bind fun _ => NoInst.pure _
  | sub a b iha ihb => exact iha.bind fun _ => ihb.bind fun _ => NoInst.pure _
  | neg a ih => exact ih.bind fun _ => NoInst.pure _
  | scale a k ih => exact ih.bind fun _ => NoInst.pure _
  | mul a b iha ihb => exact iha.bind fun _ => ihb.bind fun _ => NoInst.mul _ _
  | square a ih => exact ih.bind fun _ => NoInst.mul _ _
  | sum a b iha ihb => exact iha.bind fun _ => ihb.bind fun _ => add_noInst _ _

theorem exprFn_ok {q : Nat} [Fact q.Prime] (e : Expr (ZMod q) 0 1) : (exprFn e).Ok where
  honest := by
    intro cs rows vals wf hl h
    obtain ⟨v, rfl⟩ := List.length_eq_one_iff.mp hl
    obtain ⟨r, rfl⟩ := List.length_eq_one_iff.mp (List.Forall₂.length_eq h)
    cases h with
    | cons h1 _ =>
      show HP cs (do
        let z0 ← Circ.lift [r][0]?
        let o ← Circ.build [] [z0] e
        pure [o]) _
      refine HP.bind (HP.lift' (a := r) wf rfl) (fun z0 c1 e1 w1 hz => ?_)
      subst hz
      have k1 := h1.mono e1
      have okr : ∀ i : Fin 1, RowOk c1 ([z0].getD i []) := by
        intro i
        rw [Subsingleton.elim i 0]
        exact k1.ok
      obtain ⟨o, c2, hb, -, ok, run⟩ := Circ.build_run (px := []) e w1 (fun i => i.elim0) okr
      refine HP.bind (P := fun a c => Has c a (e.eval Fin.elim0 (fun _ => v))) ⟨o, c2, hb, ⟨ok, ?_⟩, run.weaken (fun _ _ _ => trivial) id⟩
        (fun a c _ w ha => HP.pure w (.cons ha .nil))
      rw [run.at_stored trivial, Circ.exprAt_ext run.ext (fun i => i.elim0) okr]
      unfold Circ.exprAt
      congr 1
      · funext i; exact i.elim0
      · funext i
        rw [Subsingleton.elim i 0]
        exact k1.val
  shaped := by
    intro rows
    exact Coh.lift_self fun _ => Coh.bindU (Circ.build_uniform _ _ _) fun _ => Coh.pure rfl
  noInst := by
    intro rows
    exact (NoInst.lift _).bind fun _ => (build_noInst _ _ _).bind fun _ => NoInst.pure _
  length := fun _ _ => rfl

/-- The cycle of BN254 G1 and Grumpkin with step functions given by expressions (`nova/src/driver.rs:12-42`); the MiMC constants and the
floating-point unit are arbitrary. -/
def exprCycle (fp : CarryBits) (k1 : List FrV) (k2 : List FqV) (e1 : Expr FrV 0 1) (e2 : Expr FqV 0 1) :
    Cycle frParams.m fqParams.m (curve g1B).Point (curve grumpkinB).Point :=
  { bn254Cycle fp k1 k2 with FC1 := exprFn e1, FC2 := exprFn e2 }

theorem exprCycle_ok (fp : CarryBits) (k1 : List FrV) (k2 : List FqV) (e1 : Expr FrV 0 1) (e2 : Expr FqV 0 1) : (exprCycle fp k1 k2 e1 e2).Ok where
  D1 := (bn254Cycle_ok fp k1 k2).D1
  D2 := (bn254Cycle_ok fp k1 k2).D2
  FC1 := exprFn_ok e1
  FC2 := exprFn_ok e2

theorem iterate_singleton {α : Type} (f : α → α) (d : α) (n : Nat) (z : α) : (fun l : List α => [f (l.getD 0 d)])^[n] [z] = [f^[n] z] := by
  induction n generalizing z with
  | zero => rfl
  | succ n ih => rw [Function.iterate_succ_apply, Function.iterate_succ_apply]; exact ih (f z)

end Nova

namespace Props

open Kogarashi Spec Nova Curve Kogarashi.Field Groth16

/-- **C119, iterated.** For every pair of expressions as step functions on the BN254 cycle: parameters, initial state and any number of steps below
`2^64` succeed, and the `n`-th proof is accepted and reports `n` and the results of applying the expressions `n` times. -/
theorem C119_ivc (fp : CarryBits) (k1 : List FrV) (k2 : List FqV) (e1 : Expr FrV 0 1) (e2 : Expr FqV 0 1)
    (gen1 : Nat → List (curve g1B).Point) (gen2 : Nat → List (curve grumpkinB).Point) (a : FrV) (b : FqV) (N : Nat) (hN : N < 2 ^ 64) :
    ∃ pp st pfs, Nova.setup (exprCycle fp k1 k2 e1 e2) gen1 gen2 = some pp ∧ ivcInit (exprCycle fp k1 k2 e1 e2) pp [a] [b] = some st ∧
      steps (exprCycle fp k1 k2 e1 e2) pp N st = some pfs ∧ pfs.length = N ∧ ∀ n pf, pfs[n]? = some pf →
        pf.verify (exprCycle fp k1 k2 e1 e2) pp = some true ∧ pf.i = n + 1 ∧ pf.z01 = [a] ∧ pf.z02 = [b] ∧
        pf.zi1 = [(fun z => e1.eval Fin.elim0 (fun _ => z))^[n + 1] a] ∧ pf.zi2 = [(fun z => e2.eval Fin.elim0 (fun _ => z))^[n + 1] b] := by
  obtain ⟨pp, st, pfs, h1, h2, h3, h4, h5⟩ := C60_complete (exprCycle_ok fp k1 k2 e1 e2) gen1 gen2 a b N hN
  refine ⟨pp, st, pfs, h1, h2, h3, h4, fun n pf hp => ?_⟩
  have g := h5 n pf hp
  refine ⟨g.accepted, g.i, g.start1, g.start2, g.out1.trans ?_, g.out2.trans ?_⟩
  · exact iterate_singleton (fun z => e1.eval Fin.elim0 (fun _ => z)) 0 (n + 1) a
  · exact iterate_singleton (fun z => e2.eval Fin.elim0 (fun _ => z)) 0 (n + 1) b

/-- **C119, Groth16 on BN254 with the code's own structs, for programs whose circuit has a power of two constraints** and whose wires fit `usize`.
Keys made from any inputs: a solution gives an accepted proof; inputs that are no solution give a proof that is rejected, for all but `2n - 2`
values of `τ`.  Missing: other numbers of constraints (`C80_completeness_all_refuted`, `C80_unsat_all_refuted`). -/
theorem C119_bn254_partial {np nw : Nat} (P : Program FrW np nw) {x0 : Fin np → FrW} {w0 : Fin nw → FrW} {cs0 : CS FrW}
    (hc0 : Circ.program P x0 w0 CS.init = some ((), cs0)) {k : Nat} (hm : cs0.m = 2 ^ k) (hl : cs0.x.length + cs0.w.length < 2 ^ 64)
    (x : Fin np → FrW) (w : Fin nw → FrW) : ∃ cs, Circ.program P x w CS.init = some ((), cs) ∧
    (P.Holds x w → ∀ t p vk, bnSetup t cs0 = some (.ok (p, vk)) → ∀ r s, ∃ π, bnProve p r s cs = some (.ok π) ∧
      bnVerify vk π (List.ofFn x) = some (.ok ())) ∧
    (¬ P.Holds x w → ∃ bad : Finset FrW, bad.card ≤ 2 * 2 ^ k - 2 ∧ ∀ t : Trapdoor FrW, t.tau ∉ bad → ∀ p vk, bnSetup t cs0 = some (.ok (p, vk)) →
      ∀ r s π, bnProve p r s cs = some (.ok π) → bnVerify vk π (List.ofFn x) = some (.error .proofVerificationError)) := by
  obtain ⟨cs, ec, wf, hx, ⟨b, hb, hi⟩, -, -⟩ := C119_program P x w
  have sh := C119_shape P x0 x w0 w hc0 ec
  have hm' : cs.m = 2 ^ k := by rw [← hm, CS.m, CS.m, sh.cons]
  have ht : cs.x.tail = List.ofFn x := by rw [hx]; rfl
  obtain ⟨b', hb', hi'⟩ := C31_is_sat (cs := cs) (fun k hk r hr e he => by
      have ok := wf.rows k hk
      simp only [List.mem_cons, List.not_mem_nil, or_false] at hr
      rcases hr with rfl | rfl | rfl
      · exact ok.a.allocated e he
      · exact ok.b.allocated e he
      · exact ok.c.allocated e he)
  obtain rfl := Option.some.inj (hb.symm.trans hb')
  have key : P.Holds x w ↔ ∀ c ∈ cs.cons, Holds (stored cs) c := hi.symm.trans hi'
  refine ⟨cs, ec, fun h t p vk hs r s => ?_, fun h => ?_⟩
  · rw [← ht]
    exact C80_completeness_partial sh wf k hm' ⟨wf.stored_one, key.mp h⟩ hl hs r s
  · rw [← ht]
    rw [key] at h
    push Not at h
    obtain ⟨c, hc, hv⟩ := h
    exact C80_unsat_partial sh wf k hm' hl hc hv

/-- `z ↦ z³ + z + 5`, as in the test suite, is one of the expressions. -/
example (z : FrV) : (Expr.add (.add (.mul (.square (.priv 0)) (.priv 0)) (.priv 0)) (.const 5) : Expr FrV 0 1).eval Fin.elim0 (fun _ => z) =
    z * z * z + z + 5 := rfl

/-- `w₀·(w₁ + 3) = x₀` and `w₀² - w₁ = x₁` over BN254. -/
def demoProgramBn : Program FrW 2 2 :=
  [(.mul (.priv 0) (.add (.priv 1) (.const 3)), .pub 0), (.sub (.square (.priv 0)) (.priv 1), .pub 1)]

/-- Every choice of the private inputs is a solution for some public inputs; the circuit has four constraints. -/
example (a b : FrW) : demoProgramBn.Holds ![a * (b + 3), a * a - b] ![a, b] := by
  unfold Program.Holds demoProgramBn
  simp only [List.mem_cons, List.not_mem_nil, or_false, forall_eq_or_imp, forall_eq, Expr.eval]
  exact ⟨rfl, rfl⟩

example : ∃ cs, Circ.program demoProgramBn ![0, 0] ![0, 0] CS.init = some ((), cs) ∧ cs.m = 2 ^ 2 ∧ cs.x.length + cs.w.length < 2 ^ 64 :=
  ⟨_, rfl, by decide +kernel, by decide +kernel⟩

end Props

end Kogarashi
