import Verif.R1cs.Run
import Verif.R1cs.Point
import Verif.R1cs.Program
import Verif.Nova.Circuit
import Verif.Nova.Example
import Verif.Props.R1cs

/-! # C124: circuit code only appends

Whatever the arguments and whatever the state of the constraint system, a call that returns has kept all public inputs, witnesses and constraints that
were there, at their places. -/

namespace Kogarashi.Props

open Kogarashi Spec Circ Nova

set_option linter.unusedSectionVars false
set_option linter.unusedVariables false

variable {F : Type} [Field F] [DecidableEq F] {α β : Type}

/-- Every call that returns leaves what was there in place: old public inputs, witnesses and constraints are the first ones of the new system. -/
def Appends (g : Circ F α) : Prop := ∀ cs a cs', g cs = some (a, cs') → cs.x <+: cs'.x ∧ cs.w <+: cs'.w ∧ cs.cons <+: cs'.cons

namespace Appends

theorem pure (a : α) : Appends (Pure.pure a : Circ F α) := by
  intro cs b cs' h
  have h : some (a, cs) = some (b, cs') := h
  injection h with h
  injection h with h1 h2
  subst h2
  exact ⟨List.prefix_refl _, List.prefix_refl _, List.prefix_refl _⟩

theorem bind {g : Circ F α} {f : α → Circ F β} (hg : Appends g) (hf : ∀ a, Appends (f a)) : Appends (g >>= f) := by
  intro cs b cs' h
  have h : (g cs).bind (fun r => f r.1 r.2) = some (b, cs') := h
  obtain ⟨⟨a, c⟩, e1, e2⟩ := Option.bind_eq_some_iff.1 h
  obtain ⟨x1, w1, k1⟩ := hg _ _ _ e1
  obtain ⟨x2, w2, k2⟩ := hf _ _ _ _ e2
  exact ⟨x1.trans x2, w1.trans w2, k1.trans k2⟩

theorem failure : Appends (Alternative.failure : Circ F α) := by
  intro cs b cs' h
  have h : (none : Option (α × CS F)) = some (b, cs') := h
  simp at h

theorem ofRead {o : CS F → Option α} : Appends (fun cs => (o cs).map (fun a => (a, cs)) : Circ F α) := by
  intro cs b cs' h
  obtain ⟨a, -, e⟩ := Option.map_eq_some_iff.1 h
  injection e with h1 h2
  subst h2
  exact ⟨List.prefix_refl _, List.prefix_refl _, List.prefix_refl _⟩

theorem lift (o : Option α) : Appends (Circ.lift o : Circ F α) := ofRead (o := fun _ => o)
theorem value (r : Row F) : Appends (Circ.value r) := ofRead (o := fun cs => r.evaluate cs.x cs.w)
theorem read (b : Wire) : Appends (Circ.read b : Circ F F) := ofRead (o := fun cs => cs.get b)

theorem ofStep {v : CS F → α} {s : CS F → CS F} (h : ∀ cs, cs.x <+: (s cs).x ∧ cs.w <+: (s cs).w ∧ cs.cons <+: (s cs).cons) :
    Appends (fun cs => some (v cs, s cs) : Circ F α) := by
  intro cs b cs' e
  injection e with e
  injection e with e1 e2
  subst e2
  exact h cs

theorem inst (v : F) : Appends (Circ.inst v) := ofStep fun _ => ⟨List.prefix_append _ _, List.prefix_refl _, List.prefix_refl _⟩
theorem wit (v : F) : Appends (Circ.wit v) := ofStep fun _ => ⟨List.prefix_refl _, List.prefix_append _ _, List.prefix_refl _⟩
theorem witWire (v : F) : Appends (Circ.witWire v) := ofStep fun _ => ⟨List.prefix_refl _, List.prefix_append _ _, List.prefix_refl _⟩
theorem binInst (v : Nat) : Appends (Circ.binInst v : Circ F Bin) := ofStep fun _ => ⟨List.prefix_append _ _, List.prefix_refl _, List.prefix_refl _⟩
theorem binWit (v : Nat) : Appends (Circ.binWit v : Circ F Bin) := ofStep fun _ => ⟨List.prefix_refl _, List.prefix_append _ _, List.prefix_refl _⟩
theorem mulGate (x y z : Row F) : Appends (Circ.mulGate x y z) := ofStep fun _ => ⟨List.prefix_refl _, List.prefix_refl _, List.prefix_append _ _⟩
theorem addGate (x y z : Row F) : Appends (Circ.addGate x y z) := ofStep fun _ => ⟨List.prefix_refl _, List.prefix_refl _, List.prefix_append _ _⟩
theorem enforceEq (x y : Row F) : Appends (Circ.enforceEq x y) := mulGate _ _ _
theorem enforceEqConstant (x : Row F) (c : F) : Appends (Circ.enforceEqConstant x c) := mulGate _ _ _

/-- Closes goals about code made of parts known to append. -/
syntax "app" ("[" term,* "]")? : tactic
macro_rules
  | `(tactic| app) => `(tactic| app [])
  | `(tactic| app [$ts,*]) => `(tactic|
      repeat' with_reducible (first
        | assumption
        $[| exact $ts]*
        | exact pure _ | exact failure | exact lift _ | exact value _ | exact read _ | exact inst _ | exact wit _ | exact witWire _
        | exact binInst _ | exact binWit _ | exact mulGate _ _ _ | exact addGate _ _ _ | exact enforceEq _ _ | exact enforceEqConstant _ _
        | refine bind ?_ (fun _ => ?_)
        | dsimp only
        | split))

theorem mul (x y : Row F) : Appends (Circ.mul x y) := by unfold Circ.mul; app
theorem square (x : Row F) : Appends (Circ.square x) := mul x x
theorem add (x y : Row F) : Appends (Circ.add x y) := by unfold Circ.add; app
theorem inputize (x : Row F) : Appends (Circ.inputize x) := by unfold Circ.inputize; app
theorem weightedSum : ∀ (bs : List Bin) (f : F) (acc : Row F), Appends (Circ.weightedSum bs f acc)
  | [], _, _ => pure _
  | b :: bs, f, acc => bind (mul _ _) fun _ => weightedSum bs _ _
theorem enforceEqBits (x : Row F) (bs : List Bin) : Appends (Circ.enforceEqBits x bs) := bind (weightedSum _ _ _) fun _ => enforceEq _ _
theorem conditionalEnforceEqual (x y : Row F) (s : Bin) : Appends (Circ.conditionalEnforceEqual x y s) := bind (mul _ _) fun _ => enforceEqConstant _ _
theorem conditionalSelect (a b : Row F) (s : Bin) : Appends (Circ.conditionalSelect a b s) := by unfold Circ.conditionalSelect; app [mul _ _]
theorem not (b : Bin) : Appends (Circ.not b : Circ F Bin) := by unfold Circ.not; app
theorem and (a b : Bin) : Appends (Circ.and a b : Circ F Bin) := by unfold Circ.and; app
theorem isNeq (x y : Row F) : Appends (Circ.isNeq x y) := by unfold Circ.isNeq; app [mul _ _, not _]
theorem isEq (x y : Row F) : Appends (Circ.isEq x y) := by unfold Circ.isEq; app [isNeq _ _, not _]

section Points
theorem ptInst (a : Curve.Aff F) : Appends (Circ.ptInst a) := by unfold Circ.ptInst; app
theorem ptWit (x y : F) (i : Bool) : Appends (Circ.ptWit x y i) := by unfold Circ.ptWit; app
theorem ptSelectIdentity (P : PointRow F) (b : Bin) : Appends (Circ.ptSelectIdentity P b) := by unfold Circ.ptSelectIdentity; app [mul _ _]
theorem ptDescale (P : PointRow F) : Appends (Circ.ptDescale P) := by unfold Circ.ptDescale; app [mul _ _, isNeq _ _, ptSelectIdentity _ _]
theorem ptAssertEqualPublic (P : PointRow F) (v : Curve.Proj F) : Appends (Circ.ptAssertEqualPublic P v) := by
  unfold Circ.ptAssertEqualPublic; app [mul _ _]
theorem ptAdd (b3 : F) (P Q : PointRow F) : Appends (Circ.ptAdd b3 P Q) := by unfold Circ.ptAdd; app [mul _ _]
theorem ptDouble (b3 : F) (P : PointRow F) : Appends (Circ.ptDouble b3 P) := by unfold Circ.ptDouble; app [mul _ _]
theorem ptSelect (P Q : PointRow F) (b : Bin) : Appends (Circ.ptSelect P Q b) := by unfold Circ.ptSelect; app [conditionalSelect _ _ _]
theorem ptScalarLoop (b3 : F) (P : PointRow F) : ∀ (bs : List Bin) (res : PointRow F), Appends (Circ.ptScalarLoop b3 P bs res)
  | [], _ => pure _
  | b :: bs, res => bind (ptDouble _ _) fun _ => bind (ptSelectIdentity _ _) fun _ => bind (ptAdd _ _ _) fun _ => ptScalarLoop b3 P bs _
end Points

section Lists
theorem allocInst : ∀ vs : List F, Appends (Circ.allocInst vs)
  | [] => pure _
  | _ :: vs => bind (inst _) fun _ => bind (allocInst vs) fun _ => pure _
theorem allocWit : ∀ vs : List F, Appends (Circ.allocWit vs)
  | [] => pure _
  | _ :: vs => bind (wit _) fun _ => bind (allocWit vs) fun _ => pure _
theorem witList : ∀ vs : List F, Appends (Nova.witList vs)
  | [] => pure _
  | _ :: vs => bind (wit _) fun _ => bind (witList vs) fun _ => pure _
theorem valueList : ∀ vs : List (Row F), Appends (Nova.valueList vs)
  | [] => pure _
  | _ :: vs => bind (value _) fun _ => bind (valueList vs) fun _ => pure _
theorem selectLoop (c : Bin) : ∀ l : List (Row F × Row F), Appends (Nova.selectLoop c l)
  | [] => pure _
  | (_, _) :: l => bind (conditionalSelect _ _ _) fun _ => bind (selectLoop c l) fun _ => pure _
theorem zeroLoop : ∀ l : List (Row F), Appends (Nova.zeroLoop l)
  | [] => pure _
  | _ :: l => bind (enforceEqConstant _ _) fun _ => zeroLoop l
theorem mulInner (a : Row F) : ∀ (k : Nat) (bs pr : List (Row F)), Appends (Nova.mulInner a k bs pr)
  | _, [], _ => pure _
  | k, _ :: bs, pr => bind (mul _ _) fun _ => mulInner a (k + 1) bs _
theorem mulOuter (bs : List (Row F)) : ∀ (i : Nat) (as pr : List (Row F)), Appends (Nova.mulOuter bs i as pr)
  | _, [], _ => pure _
  | i, _ :: as, pr => bind (mulInner _ _ _ _) fun _ => mulOuter bs (i + 1) as _
theorem evalRow (x : F) : ∀ (cs : List (Row F)) (i : F) (acc : Row F), Appends (Nova.evalRow x cs i acc)
  | [], _, _ => pure _
  | _ :: cs, _, _ => bind (mul _ _) fun _ => evalRow x cs _ _
theorem mulCheck (as bs cs : List (Row F)) : ∀ (n : Nat) (x : F), Appends (Nova.mulCheck as bs cs n x)
  | 0, _ => pure _
  | n + 1, x => bind (evalRow _ _ _ _) fun _ => bind (evalRow _ _ _ _) fun _ => bind (evalRow _ _ _ _) fun _ => bind (mul _ _) fun _ =>
      bind (enforceEq _ _) fun _ => mulCheck as bs cs n _
theorem polyMul (as bs : List (Row F)) : Appends (Nova.polyMul as bs) := by unfold Nova.polyMul; app [mulOuter _ _ _ _, mulCheck _ _ _ _ _]
end Lists

section Programs
theorem build {np nw : Nat} (px pw : List (Row F)) : ∀ e : Expr F np nw, Appends (Circ.build px pw e)
  | .pub _ => pure _
  | .priv _ => pure _
  | .const _ => pure _
  | .add a b => bind (build px pw a) fun _ => bind (build px pw b) fun _ => pure _
  | .sub a b => bind (build px pw a) fun _ => bind (build px pw b) fun _ => pure _
  | .neg a => bind (build px pw a) fun _ => pure _
  | .scale a _ => bind (build px pw a) fun _ => pure _
  | .mul a b => bind (build px pw a) fun _ => bind (build px pw b) fun _ => mul _ _
  | .square a => bind (build px pw a) fun _ => square _
  | .sum a b => bind (build px pw a) fun _ => bind (build px pw b) fun _ => add _ _
theorem enforceAll {np nw : Nat} (px pw : List (Row F)) : ∀ P : Program F np nw, Appends (Circ.enforceAll px pw P)
  | [] => pure _
  | _ :: P => bind (build _ _ _) fun _ => bind (build _ _ _) fun _ => bind (enforceEq _ _) fun _ => enforceAll px pw P
theorem program {np nw : Nat} (P : Program F np nw) (x : Fin np → F) (w : Fin nw → F) : Appends (Circ.program P x w) :=
  bind (allocInst _) fun _ => bind (allocWit _) fun _ => enforceAll _ _ P
end Programs

section Bits
variable {p : Nat} [Fact p.Prime]
theorem enforceZeros : ∀ bs : List Bin, Appends (Circ.enforceZeros (p := p) bs)
  | [] => pure _
  | _ :: bs => bind (enforceEqConstant _ _) fun _ => enforceZeros bs
theorem runs : ∀ (l : List (Bin × Nat)) (ps : List (Row (ZMod p))) (last : Row (ZMod p)), Appends (Circ.runs l ps last)
  | [], _, _ => pure _
  | (_, _) :: l, ps, last => by
    unfold Circ.runs
    app [mul _ _, runs l _ _]
theorem boolOne (ps : List (Row (ZMod p))) (i : Nat) (a : Bin) (c : Nat) : Appends (Circ.boolOne ps i a c) := by
  unfold Circ.boolOne; app [mul _ _]
theorem boolLoop (ps : List (Row (ZMod p))) : ∀ (i : Nat) (l : List (Bin × Nat)), Appends (Circ.boolLoop ps i l)
  | _, [] => pure _
  | i, (_, _) :: l => bind (boolOne _ _ _ _) fun _ => boolLoop ps (i + 1) l
theorem rangeCheck (bs : List Bin) (c : ZMod p) : Appends (Circ.rangeCheck bs c) := by
  unfold Circ.rangeCheck
  app [enforceZeros _, runs _ _ _, boolLoop _ _ _]
theorem rangeCheckBits (bs : List Bin) (n : Nat) : Appends (Circ.rangeCheckBits (p := p) bs n) := rangeCheck _ _
theorem binWits : ∀ l : List Nat, Appends (Circ.binWits (p := p) l)
  | [] => pure _
  | _ :: l => bind (binWit _) fun _ => bind (binWits l) fun _ => pure _
theorem toBits (nb : Nat) (x : Row (ZMod p)) (n : Nat) : Appends (Circ.toBits nb x n) := by
  unfold Circ.toBits
  app [binWits _, rangeCheckBits _ _, rangeCheck _ _]
theorem ptScalar (nb : Nat) (b3 : ZMod p) (P : PointRow (ZMod p)) (s : Row (ZMod p)) : Appends (Circ.ptScalar nb b3 P s) :=
  bind (toBits _ _ _) fun _ => ptScalarLoop _ _ _ _
theorem bnWitness (n : Int) (w k : Nat) : Appends (Nova.bnWitness (p := p) n w k) := by unfold Nova.bnWitness; app [witList _]
theorem decomposeLoop (nb w : Nat) : ∀ l : List (Row (ZMod p)), Appends (Nova.decomposeLoop nb w l)
  | [] => pure _
  | _ :: l => bind (toBits _ _ _) fun _ => bind (decomposeLoop nb w l) fun _ => pure _
theorem bnDecompose (nb : Nat) (a : BigNat (ZMod p)) : Appends (Nova.bnDecompose nb a) := decomposeLoop _ _ _
theorem bnOfField (nb : Nat) (f : Row (ZMod p)) (w k : Nat) : Appends (Nova.bnOfField nb f w k) := by
  unfold Nova.bnOfField; app [bnWitness _ _ _, bnDecompose _ _, enforceEqBits _ _]
theorem wellFormedLoop (nb w : Nat) : ∀ l : List (Row (ZMod p)), Appends (Nova.wellFormedLoop nb w l)
  | [] => pure _
  | _ :: l => bind (toBits _ _ _) fun _ => bind (rangeCheckBits _ _) fun _ => wellFormedLoop nb w l
theorem bnWellFormed (nb : Nat) (a : BigNat (ZMod p)) : Appends (Nova.bnWellFormed nb a) := wellFormedLoop _ _ _
theorem bnValue (a : BigNat (ZMod p)) : Appends (Nova.bnValue a) := bind (valueList _) fun _ => pure _
theorem bnSelect (a b : BigNat (ZMod p)) (c : Bin) : Appends (Nova.bnSelect a b c) := by unfold Nova.bnSelect; app [selectLoop _ _]
theorem groupLoop (g : Nat) (block : Row (ZMod p)) : ∀ (i : Nat) (l : List (Row (ZMod p))) (s : Row (ZMod p)) (acc : List (Row (ZMod p))),
    Appends (Nova.groupLoop g block i l s acc)
  | _, [], _, _ => pure _
  | i, _ :: l, s, acc => bind (mul _ _) fun _ => bind (mul _ _) fun _ => groupLoop g block (i + 1) l _ _
theorem bnGroup (a : BigNat (ZMod p)) (g : Nat) : Appends (Nova.bnGroup a g) := by unfold Nova.bnGroup; app [groupLoop _ _ _ _ _ _]
theorem carryLoop (nb w : Nat) (mw : Int) (cb : Nat) : ∀ (l : List (Row (ZMod p) × Row (ZMod p))) (c : Row (ZMod p)) (e : Int),
    Appends (Nova.carryLoop nb w mw cb l c e)
  | [], _, _ => pure _
  | (_, _) :: l, c, e => by
    unfold Nova.carryLoop
    app [mul _ _, toBits _ _ _, rangeCheckBits _ _, carryLoop nb w mw cb _ _ _]
theorem bnEqualCarried (fp : CarryBits) (nb : Nat) (a b : BigNat (ZMod p)) : Appends (Nova.bnEqualCarried fp nb a b) := by
  unfold Nova.bnEqualCarried; app [carryLoop _ _ _ _ _ _ _, zeroLoop _]
theorem bnEqualRegroup (fp : CarryBits) (nb : Nat) (a b : BigNat (ZMod p)) : Appends (Nova.bnEqualRegroup fp nb a b) := by
  unfold Nova.bnEqualRegroup; app [bnGroup _ _, bnEqualCarried _ _ _ _]
theorem bnMultMod (fp : CarryBits) (nb : Nat) (a b m : BigNat (ZMod p)) : Appends (Nova.bnMultMod fp nb a b m) := by
  unfold Nova.bnMultMod; app [bnValue _, bnWitness _ _ _, bnWellFormed _ _, polyMul _ _, bnEqualRegroup _ _ _ _]
theorem bnRedMod (fp : CarryBits) (nb : Nat) (a m : BigNat (ZMod p)) : Appends (Nova.bnRedMod fp nb a m) := by
  unfold Nova.bnRedMod; app [bnValue _, bnWitness _ _ _, bnWellFormed _ _, polyMul _ _, bnEqualRegroup _ _ _ _]
end Bits

section Augmented
variable {p q : Nat} [Fact p.Prime] [Fact q.Prime] {G : Type} [AddCommGroup G] [Module (ZMod p) G] [DecidableEq G]
theorem mimcCirc : ∀ (cs : List (ZMod q)) (l r : Row (ZMod q)), Appends (Nova.mimcCirc cs l r)
  | [], _, _ => pure _
  | _ :: cs, _, _ => bind (square _) fun _ => bind (square _) fun _ => bind (mul _ _) fun _ => bind (mul _ _) fun _ => mimcCirc cs _ _
theorem spongeCirc (k : List (ZMod q)) : ∀ (l : List (Row (ZMod q))) (acc : Row (ZMod q)), Appends (Nova.spongeCirc k l acc)
  | [], _ => pure _
  | _ :: l, _ => bind (mimcCirc _ _ _) fun _ => spongeCirc k l _
theorem packLoop : ∀ (l : List Bin) (m v : Row (ZMod q)), Appends (Nova.packLoop l m v)
  | [], _, _ => pure _
  | _ :: l, _, _ => bind (conditionalSelect _ _ _) fun _ => packLoop l _ _
theorem squeezeCirc (nb : Nat) (k : List (ZMod q)) (s : List (Row (ZMod q))) (n : Nat) : Appends (Nova.squeezeCirc nb k s n) :=
  bind (spongeCirc _ _ _) fun _ => bind (toBits _ _ _) fun _ => packLoop _ _ _
theorem envWitness (E : Env q G) (P : G) : Appends (E.witness P) := ptWit _ _ _
theorem instWitness (E : Env q G) (i : Inst (ZMod p) G) : Appends (Nova.instWitness E i) := by unfold Nova.instWitness; app [envWitness _ _]
theorem rinstWitness (E : Env q G) (i : RInst (ZMod p) G) : Appends (Nova.rinstWitness E i) := by
  unfold Nova.rinstWitness; app [envWitness _ _, bnWitness _ _ _]
theorem rinstOfInst (nb : Nat) (i : InstRow q) : Appends (Nova.rinstOfInst nb i) := by unfold Nova.rinstOfInst; app [bnOfField _ _ _ _]
theorem rinstSelect (a b : RInstRow q) (c : Bin) : Appends (Nova.rinstSelect a b c) := by
  unfold Nova.rinstSelect; app [ptSelect _ _ _, conditionalSelect _ _ _, bnSelect _ _ _]
theorem rinstAbsorb (i : RInstRow q) : Appends (Nova.rinstAbsorb i) := by unfold Nova.rinstAbsorb; app [ptDescale _]
theorem rinstHash (nb : Nat) (k : List (ZMod q)) (r : RInstRow q) (i : Row (ZMod q)) (z0 zi : List (Row (ZMod q))) :
    Appends (Nova.rinstHash nb k r i z0 zi) := bind (rinstAbsorb _) fun _ => squeezeCirc _ _ _ _
theorem challengeCirc (nb : Nat) (k : List (ZMod q)) (u : RInstRow q) (t : PointRow (ZMod q)) : Appends (Nova.challengeCirc nb k u t) :=
  bind (rinstAbsorb _) fun _ => squeezeCirc _ _ _ _
theorem foldX (fp : CarryBits) (nb : Nat) (r m : BigNat (ZMod q)) (s : Row (ZMod q)) (g : BigNat (ZMod q)) : Appends (Nova.foldX fp nb r m s g) := by
  unfold Nova.foldX; app [bnWitness _ _ _, bnMultMod _ _ _ _ _, bnRedMod _ _ _ _]
theorem nifsVerify (fp : CarryBits) (nb : Nat) (b3 : ZMod q) (o : Nat) (r : Row (ZMod q)) (g : RInstRow q) (s : InstRow q) (t : PointRow (ZMod q)) :
    Appends (Nova.nifsVerify fp nb b3 o r g s t) := by
  unfold Nova.nifsVerify; app [ptScalar _ _ _ _, ptAdd _ _ _, bnOfField _ _ _ _, bnWitness _ _ _, foldX _ _ _ _ _ _]
theorem baseInst (nb : Nat) (b : Bool) (d : RInstRow q) (s : InstRow q) : Appends (Nova.baseInst nb b d s) := by
  unfold Nova.baseInst; app [rinstOfInst _ _]
theorem generate (D : Driver p q G) (FC : FnCircuit (ZMod q)) (hFC : ∀ z, Appends (FC.invokeCs z)) (A : Augmented p q G) : Appends (A.generate D FC) := by
  have hb : Appends (A.body D FC) := by
    unfold Augmented.body
    app [hFC _, witList _, rinstWitness _ _, instWitness _ _, envWitness _ _, isEq _ _, isNeq _ _, baseInst _ _ _ _, rinstHash _ _ _ _ _ _,
      conditionalEnforceEqual _ _ _, challengeCirc _ _ _ _, nifsVerify _ _ _ _ _ _ _ _, rinstSelect _ _ _]
  unfold Augmented.generate
  app [inputize _]
end Augmented

end Appends

/-- **C124, gadgets on field elements and bits**, for all arguments (also wires that were never allocated). -/
theorem C124_field (x y : Row F) (s t : Bin) (bs : List Bin) (v c : F) (n : Nat) :
    Appends (Circ.inst v) ∧ Appends (Circ.wit v) ∧ Appends (Circ.binInst n : Circ F Bin) ∧ Appends (Circ.binWit n : Circ F Bin) ∧
    Appends (Circ.inputize x) ∧ Appends (Circ.mul x y) ∧ Appends (Circ.square x) ∧ Appends (Circ.add x y) ∧ Appends (Circ.enforceEq x y) ∧
    Appends (Circ.enforceEqConstant x c) ∧ Appends (Circ.enforceEqBits x bs) ∧ Appends (Circ.conditionalEnforceEqual x y s) ∧
    Appends (Circ.conditionalSelect x y s) ∧ Appends (Circ.isEq x y) ∧ Appends (Circ.isNeq x y) ∧ Appends (Circ.not s : Circ F Bin) ∧
    Appends (Circ.and s t : Circ F Bin) :=
  ⟨.inst v, .wit v, .binInst n, .binWit n, .inputize x, .mul x y, .square x, .add x y, .enforceEq x y, .enforceEqConstant x c, .enforceEqBits x bs,
    .conditionalEnforceEqual x y s, .conditionalSelect x y s, .isEq x y, .isNeq x y, .not s, .and s t⟩

/-- **C124, range checks and bit decomposition.** -/
theorem C124_bits {p : Nat} [Fact p.Prime] (nb n : Nat) (x : Row (ZMod p)) (c : ZMod p) (bs : List Bin) :
    Appends (Circ.rangeCheck bs c) ∧ Appends (Circ.rangeCheckBits (p := p) bs n) ∧ Appends (Circ.toBits nb x n) :=
  ⟨.rangeCheck bs c, .rangeCheckBits bs n, .toBits nb x n⟩

/-- **C124, points.** -/
theorem C124_points (b3 x y : F) (i : Bool) (a : Curve.Aff F) (v : Curve.Proj F) (P Q : PointRow F) (s : Bin) {p : Nat} [Fact p.Prime] (nb : Nat)
    (b : ZMod p) (R : PointRow (ZMod p)) (k : Row (ZMod p)) :
    Appends (Circ.ptInst a) ∧ Appends (Circ.ptWit x y i) ∧ Appends (Circ.ptAdd b3 P Q) ∧ Appends (Circ.ptDouble b3 P) ∧
    Appends (Circ.ptSelect P Q s) ∧ Appends (Circ.ptSelectIdentity P s) ∧ Appends (Circ.ptDescale P) ∧ Appends (Circ.ptAssertEqualPublic P v) ∧
    Appends (Circ.ptScalar nb b R k) :=
  ⟨.ptInst a, .ptWit x y i, .ptAdd b3 P Q, .ptDouble b3 P, .ptSelect P Q s, .ptSelectIdentity P s, .ptDescale P, .ptAssertEqualPublic P v,
    .ptScalar nb b R k⟩

/-- **C124, non-native arithmetic and the transcript of recursive proofs.** -/
theorem C124_bignat {p : Nat} [Fact p.Prime] (fp : CarryBits) (nb w k n : Nat) (z : Int) (f : Row (ZMod p)) (s : Bin) (a b m : BigNat (ZMod p))
    (consts : List (ZMod p)) (state as bs : List (Row (ZMod p))) :
    Appends (Nova.bnWitness (p := p) z w k) ∧ Appends (Nova.bnOfField nb f w k) ∧ Appends (Nova.bnDecompose nb a) ∧
    Appends (Nova.bnWellFormed nb a) ∧ Appends (Nova.bnSelect a b s) ∧ Appends (Nova.bnGroup a n) ∧ Appends (Nova.bnEqualCarried fp nb a b) ∧
    Appends (Nova.bnEqualRegroup fp nb a b) ∧ Appends (Nova.bnMultMod fp nb a b m) ∧ Appends (Nova.bnRedMod fp nb a m) ∧
    Appends (Nova.polyMul as bs) ∧ Appends (Nova.squeezeCirc nb consts state n) :=
  ⟨.bnWitness z w k, .bnOfField nb f w k, .bnDecompose nb a, .bnWellFormed nb a, .bnSelect a b s, .bnGroup a n, .bnEqualCarried fp nb a b,
    .bnEqualRegroup fp nb a b, .bnMultMod fp nb a b m, .bnRedMod fp nb a m, .polyMul as bs, .squeezeCirc nb consts state n⟩

/-- **C124, sequencing**: code that calls such code and goes on with such code appends, and so does code that branches or panics; the circuit of every
arithmetic program appends; the circuit of a recursive step appends when the user's step function does. -/
theorem C124_compose {g : Circ F α} {f : α → Circ F β} (hg : Appends g) (hf : ∀ a, Appends (f a)) (a : α) (o : Option α)
    {np nw : Nat} (P : Program F np nw) (x : Fin np → F) (w : Fin nw → F) {p q : Nat} [Fact p.Prime] [Fact q.Prime] {G : Type} [AddCommGroup G]
    [Module (ZMod p) G] [DecidableEq G] (D : Driver p q G) (FC : FnCircuit (ZMod q)) (hFC : ∀ z, Appends (FC.invokeCs z)) (A : Augmented p q G) :
    Appends (g >>= f) ∧ Appends (Pure.pure a : Circ F α) ∧ Appends (Circ.lift o : Circ F α) ∧ Appends (Circ.program P x w) ∧
    Appends (A.generate D FC) :=
  ⟨.bind hg hf, .pure a, .lift o, .program P x w, .generate D FC hFC A⟩

/-- **C124, what follows**: after a call of such code every wire there was holds the value it held, whatever satisfies the new system satisfies the
old one, and `is_sat` cannot turn from false to true (nor, by a satisfied new system, have been false before). -/
theorem C124_sat {g : Circ F α} (hg : Appends g) {cs cs' : CS F} {a : α} (h : g cs = some (a, cs'))
    (hcs : ∀ k ∈ cs.cons, ∀ r ∈ [k.a, k.b, k.c], ∀ e ∈ r, Allocated cs e.1) (hcs' : ∀ k ∈ cs'.cons, ∀ r ∈ [k.a, k.b, k.c], ∀ e ∈ r, Allocated cs' e.1) :
    (∀ w, Allocated cs w → cs'.get w = cs.get w) ∧ (∀ z, Satisfies z cs' → Satisfies z cs) ∧ (cs'.isSat = some true → cs.isSat = some true) ∧
    (cs.isSat = some false → cs'.isSat = some false) := by
  obtain ⟨hx, hw, hk⟩ := hg _ _ _ h
  have e : Extends cs cs' := ⟨hx, hw, hk⟩
  obtain ⟨b, e1, i1⟩ := C31_is_sat hcs
  obtain ⟨b', e2, i2⟩ := C31_is_sat hcs'
  have key : b' = true → b = true := by
    intro hb
    refine i1.2 fun k hkm => ?_
    have := i2.1 hb k (hk.subset hkm)
    have c : ∀ r ∈ [k.a, k.b, k.c], rowVal (stored cs') r = rowVal (stored cs) r := fun r hr =>
      Row.rowVal_congr fun t ht => e.stored_eq (hcs k hkm r hr t ht)
    rwa [c k.a (by simp), c k.b (by simp), c k.c (by simp)] at this
  refine ⟨fun w hw' => ?_, fun z hz => ⟨hz.1, fun k hkm => hz.2 k (hk.subset hkm)⟩, ?_, ?_⟩
  · cases w with
    | inst i => exact getElem?_prefix hx hw'
    | wit i => exact getElem?_prefix hw hw'
  · rw [e1, e2]
    intro hb
    rw [key (Option.some.inj hb)]
  · rw [e1, e2]
    intro hb
    have hb := Option.some.inj hb
    cases b' with
    | false => rfl
    | true => rw [key rfl] at hb; exact absurd hb (by decide)

/-- A system with a violated constraint, `2 * 3 = 2`. -/
def violatedCs : CS (ZMod 13) := ⟨[1, 2], [3], [⟨Row.ofWire (.inst 1), Row.ofWire (.wit 0), Row.ofConst 2⟩]⟩

/-- A call of `mul` on it returns, the hypotheses of `C124_sat` hold, and the result is still violated. -/
example : ∃ a cs', Circ.mul (Row.ofWire (.inst 1)) (Row.ofWire (.wit 0)) violatedCs = some (a, cs') ∧
    (∀ k ∈ violatedCs.cons, ∀ r ∈ [k.a, k.b, k.c], ∀ e ∈ r, Allocated violatedCs e.1) ∧
    (∀ k ∈ cs'.cons, ∀ r ∈ [k.a, k.b, k.c], ∀ e ∈ r, Allocated cs' e.1) ∧ violatedCs.isSat = some false ∧ cs'.isSat = some false := by
  have e : Circ.mul (Row.ofWire (.inst 1)) (Row.ofWire (.wit 0)) violatedCs = some (Row.ofWire (.wit 1),
      (⟨[1, 2], [3, 6], [⟨Row.ofWire (.inst 1), Row.ofWire (.wit 0), Row.ofConst 2⟩,
        ⟨Row.ofWire (.inst 1), Row.ofWire (.wit 0), Row.ofWire (.wit 1)⟩]⟩ : CS (ZMod 13))) := rfl
  have h1 : ∀ k ∈ violatedCs.cons, ∀ r ∈ [k.a, k.b, k.c], ∀ e ∈ r, Allocated violatedCs e.1 := by
    simp [violatedCs, Row.ofWire, Row.ofConst, Row.mk, Allocated, Wire.ONE]
  refine ⟨_, _, e, h1, ?_, by decide +kernel, ?_⟩
  · simp [Row.ofWire, Row.ofConst, Row.mk, Allocated, Wire.ONE]
  · exact (C124_sat (Appends.mul _ _) e h1 (by simp [Row.ofWire, Row.ofConst, Row.mk, Allocated, Wire.ONE])).2.2.2 (by decide +kernel)

/-- The step function of the Nova example appends, so its recursive circuit does. -/
example {q : Nat} [Fact q.Prime] (z : List (Row (ZMod q))) : Appends ((exampleFn (ZMod q)).invokeCs z) :=
  .bind (.lift _) fun _ => .bind (.mul _ _) fun _ => .bind (.mul _ _) fun _ => .pure _

end Kogarashi.Props
