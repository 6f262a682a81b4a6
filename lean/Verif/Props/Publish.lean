import Verif.R1cs.Run
import Verif.R1cs.Point
import Verif.R1cs.Program
import Verif.Nova.Circuit
import Verif.Nova.Example
import Verif.Props.R1cs

/-! # C125: only `instance` and `inputize` publish

Whatever the arguments and whatever the state of the constraint system, the other gadgets leave the public inputs as they were. -/

namespace Kogarashi.Props

open Kogarashi Spec Circ Nova

set_option linter.unusedSectionVars false
set_option linter.unusedVariables false

variable {F : Type} [Field F] [DecidableEq F] {α β : Type}

/-- Every call that returns has left the public inputs as they were. -/
def Private (g : Circ F α) : Prop := ∀ cs a cs', g cs = some (a, cs') → cs'.x = cs.x

namespace Private

theorem pure (a : α) : Private (Pure.pure a : Circ F α) := by
  intro cs b cs' h
  have h : some (a, cs) = some (b, cs') := h
  injection h with h
  injection h with h1 h2
  subst h2
  exact rfl

theorem bind {g : Circ F α} {f : α → Circ F β} (hg : Private g) (hf : ∀ a, Private (f a)) : Private (g >>= f) := by
  intro cs b cs' h
  have h : (g cs).bind (fun r => f r.1 r.2) = some (b, cs') := h
  obtain ⟨⟨a, c⟩, e1, e2⟩ := Option.bind_eq_some_iff.1 h
  exact (hf _ _ _ _ e2).trans (hg _ _ _ e1)

theorem failure : Private (Alternative.failure : Circ F α) := by
  intro cs b cs' h
  have h : (none : Option (α × CS F)) = some (b, cs') := h
  simp at h

theorem ofRead {o : CS F → Option α} : Private (fun cs => (o cs).map (fun a => (a, cs)) : Circ F α) := by
  intro cs b cs' h
  obtain ⟨a, -, e⟩ := Option.map_eq_some_iff.1 h
  injection e with h1 h2
  subst h2
  exact rfl

theorem lift (o : Option α) : Private (Circ.lift o : Circ F α) := ofRead (o := fun _ => o)
theorem value (r : Row F) : Private (Circ.value r) := ofRead (o := fun cs => r.evaluate cs.x cs.w)
theorem read (b : Wire) : Private (Circ.read b : Circ F F) := ofRead (o := fun cs => cs.get b)

theorem ofStep {v : CS F → α} {s : CS F → CS F} (h : ∀ cs, (s cs).x = cs.x) :
    Private (fun cs => some (v cs, s cs) : Circ F α) := by
  intro cs b cs' e
  injection e with e
  injection e with e1 e2
  subst e2
  exact h cs

theorem wit (v : F) : Private (Circ.wit v) := ofStep fun _ => rfl
theorem witWire (v : F) : Private (Circ.witWire v) := ofStep fun _ => rfl
theorem binWit (v : Nat) : Private (Circ.binWit v : Circ F Bin) := ofStep fun _ => rfl
theorem mulGate (x y z : Row F) : Private (Circ.mulGate x y z) := ofStep fun _ => rfl
theorem addGate (x y z : Row F) : Private (Circ.addGate x y z) := ofStep fun _ => rfl
theorem enforceEq (x y : Row F) : Private (Circ.enforceEq x y) := mulGate _ _ _
theorem enforceEqConstant (x : Row F) (c : F) : Private (Circ.enforceEqConstant x c) := mulGate _ _ _

/-- Closes goals about code made of parts known to append. -/
syntax "priv" ("[" term,* "]")? : tactic
macro_rules
  | `(tactic| priv) => `(tactic| priv [])
  | `(tactic| priv [$ts,*]) => `(tactic|
      repeat' with_reducible (first
        | assumption
        $[| exact $ts]*
        | exact pure _ | exact failure | exact lift _ | exact value _ | exact read _ | exact wit _ | exact witWire _
        | exact binWit _ | exact mulGate _ _ _ | exact addGate _ _ _ | exact enforceEq _ _ | exact enforceEqConstant _ _
        | refine bind ?_ (fun _ => ?_)
        | dsimp only
        | split))

theorem mul (x y : Row F) : Private (Circ.mul x y) := by unfold Circ.mul; priv
theorem square (x : Row F) : Private (Circ.square x) := mul x x
theorem add (x y : Row F) : Private (Circ.add x y) := by unfold Circ.add; priv
theorem weightedSum : ∀ (bs : List Bin) (f : F) (acc : Row F), Private (Circ.weightedSum bs f acc)
  | [], _, _ => pure _
  | b :: bs, f, acc => bind (mul _ _) fun _ => weightedSum bs _ _
theorem enforceEqBits (x : Row F) (bs : List Bin) : Private (Circ.enforceEqBits x bs) := bind (weightedSum _ _ _) fun _ => enforceEq _ _
theorem conditionalEnforceEqual (x y : Row F) (s : Bin) : Private (Circ.conditionalEnforceEqual x y s) := bind (mul _ _) fun _ => enforceEqConstant _ _
theorem conditionalSelect (a b : Row F) (s : Bin) : Private (Circ.conditionalSelect a b s) := by unfold Circ.conditionalSelect; priv [mul _ _]
theorem not (b : Bin) : Private (Circ.not b : Circ F Bin) := by unfold Circ.not; priv
theorem and (a b : Bin) : Private (Circ.and a b : Circ F Bin) := by unfold Circ.and; priv
theorem isNeq (x y : Row F) : Private (Circ.isNeq x y) := by unfold Circ.isNeq; priv [mul _ _, not _]
theorem isEq (x y : Row F) : Private (Circ.isEq x y) := by unfold Circ.isEq; priv [isNeq _ _, not _]

section Points
theorem ptWit (x y : F) (i : Bool) : Private (Circ.ptWit x y i) := by unfold Circ.ptWit; priv
theorem ptSelectIdentity (P : PointRow F) (b : Bin) : Private (Circ.ptSelectIdentity P b) := by unfold Circ.ptSelectIdentity; priv [mul _ _]
theorem ptDescale (P : PointRow F) : Private (Circ.ptDescale P) := by unfold Circ.ptDescale; priv [mul _ _, isNeq _ _, ptSelectIdentity _ _]
theorem ptAssertEqualPublic (P : PointRow F) (v : Curve.Proj F) : Private (Circ.ptAssertEqualPublic P v) := by
  unfold Circ.ptAssertEqualPublic; priv [mul _ _]
theorem ptAdd (b3 : F) (P Q : PointRow F) : Private (Circ.ptAdd b3 P Q) := by unfold Circ.ptAdd; priv [mul _ _]
theorem ptDouble (b3 : F) (P : PointRow F) : Private (Circ.ptDouble b3 P) := by unfold Circ.ptDouble; priv [mul _ _]
theorem ptSelect (P Q : PointRow F) (b : Bin) : Private (Circ.ptSelect P Q b) := by unfold Circ.ptSelect; priv [conditionalSelect _ _ _]
theorem ptScalarLoop (b3 : F) (P : PointRow F) : ∀ (bs : List Bin) (res : PointRow F), Private (Circ.ptScalarLoop b3 P bs res)
  | [], _ => pure _
  | b :: bs, res => bind (ptDouble _ _) fun _ => bind (ptSelectIdentity _ _) fun _ => bind (ptAdd _ _ _) fun _ => ptScalarLoop b3 P bs _
end Points

section Lists
theorem allocWit : ∀ vs : List F, Private (Circ.allocWit vs)
  | [] => pure _
  | _ :: vs => bind (wit _) fun _ => bind (allocWit vs) fun _ => pure _
theorem witList : ∀ vs : List F, Private (Nova.witList vs)
  | [] => pure _
  | _ :: vs => bind (wit _) fun _ => bind (witList vs) fun _ => pure _
theorem valueList : ∀ vs : List (Row F), Private (Nova.valueList vs)
  | [] => pure _
  | _ :: vs => bind (value _) fun _ => bind (valueList vs) fun _ => pure _
theorem selectLoop (c : Bin) : ∀ l : List (Row F × Row F), Private (Nova.selectLoop c l)
  | [] => pure _
  | (_, _) :: l => bind (conditionalSelect _ _ _) fun _ => bind (selectLoop c l) fun _ => pure _
theorem zeroLoop : ∀ l : List (Row F), Private (Nova.zeroLoop l)
  | [] => pure _
  | _ :: l => bind (enforceEqConstant _ _) fun _ => zeroLoop l
theorem mulInner (a : Row F) : ∀ (k : Nat) (bs pr : List (Row F)), Private (Nova.mulInner a k bs pr)
  | _, [], _ => pure _
  | k, _ :: bs, pr => bind (mul _ _) fun _ => mulInner a (k + 1) bs _
theorem mulOuter (bs : List (Row F)) : ∀ (i : Nat) (as pr : List (Row F)), Private (Nova.mulOuter bs i as pr)
  | _, [], _ => pure _
  | i, _ :: as, pr => bind (mulInner _ _ _ _) fun _ => mulOuter bs (i + 1) as _
theorem evalRow (x : F) : ∀ (cs : List (Row F)) (i : F) (acc : Row F), Private (Nova.evalRow x cs i acc)
  | [], _, _ => pure _
  | _ :: cs, _, _ => bind (mul _ _) fun _ => evalRow x cs _ _
theorem mulCheck (as bs cs : List (Row F)) : ∀ (n : Nat) (x : F), Private (Nova.mulCheck as bs cs n x)
  | 0, _ => pure _
  | n + 1, x => bind (evalRow _ _ _ _) fun _ => bind (evalRow _ _ _ _) fun _ => bind (evalRow _ _ _ _) fun _ => bind (mul _ _) fun _ =>
      bind (enforceEq _ _) fun _ => mulCheck as bs cs n _
theorem polyMul (as bs : List (Row F)) : Private (Nova.polyMul as bs) := by unfold Nova.polyMul; priv [mulOuter _ _ _ _, mulCheck _ _ _ _ _]
end Lists

section Programs
theorem build {np nw : Nat} (px pw : List (Row F)) : ∀ e : Expr F np nw, Private (Circ.build px pw e)
  | .pub _ => pure _
  | .priv _ => pure _
  | .const _ => pure _
  | .add a b => bind (build px pw a) fun _ => bind (build px pw b) fun _ => pure _
  | .sub a b => bind (build px pw a) fun _ => bind (build px pw b) fun _ => pure _
  | .neg a => bind (build px pw a) fun _ => pure _
  | .scale a _ => bind (build px pw a) fun _ => pure _
  | .mul a b => bind (build px pw a) fun _ => bind (build px pw b) fun _ => mul _ _
  | .square a => bind (build px pw a) fun _ => square _
  | .sum a b => bind (build px pw a) fun _ => bind (build px pw b) fun _ => add _ _
theorem enforceAll {np nw : Nat} (px pw : List (Row F)) : ∀ P : Program F np nw, Private (Circ.enforceAll px pw P)
  | [] => pure _
  | _ :: P => bind (build _ _ _) fun _ => bind (build _ _ _) fun _ => bind (enforceEq _ _) fun _ => enforceAll px pw P
end Programs

section Bits
variable {p : Nat} [Fact p.Prime]
theorem enforceZeros : ∀ bs : List Bin, Private (Circ.enforceZeros (p := p) bs)
  | [] => pure _
  | _ :: bs => bind (enforceEqConstant _ _) fun _ => enforceZeros bs
theorem runs : ∀ (l : List (Bin × Nat)) (ps : List (Row (ZMod p))) (last : Row (ZMod p)), Private (Circ.runs l ps last)
  | [], _, _ => pure _
  | (_, _) :: l, ps, last => by
    unfold Circ.runs
    priv [mul _ _, runs l _ _]
theorem boolOne (ps : List (Row (ZMod p))) (i : Nat) (a : Bin) (c : Nat) : Private (Circ.boolOne ps i a c) := by
  unfold Circ.boolOne; priv [mul _ _]
theorem boolLoop (ps : List (Row (ZMod p))) : ∀ (i : Nat) (l : List (Bin × Nat)), Private (Circ.boolLoop ps i l)
  | _, [] => pure _
  | i, (_, _) :: l => bind (boolOne _ _ _ _) fun _ => boolLoop ps (i + 1) l
theorem rangeCheck (bs : List Bin) (c : ZMod p) : Private (Circ.rangeCheck bs c) := by
  unfold Circ.rangeCheck
  priv [enforceZeros _, runs _ _ _, boolLoop _ _ _]
theorem rangeCheckBits (bs : List Bin) (n : Nat) : Private (Circ.rangeCheckBits (p := p) bs n) := rangeCheck _ _
theorem binWits : ∀ l : List Nat, Private (Circ.binWits (p := p) l)
  | [] => pure _
  | _ :: l => bind (binWit _) fun _ => bind (binWits l) fun _ => pure _
theorem toBits (nb : Nat) (x : Row (ZMod p)) (n : Nat) : Private (Circ.toBits nb x n) := by
  unfold Circ.toBits
  priv [binWits _, rangeCheckBits _ _, rangeCheck _ _]
theorem ptScalar (nb : Nat) (b3 : ZMod p) (P : PointRow (ZMod p)) (s : Row (ZMod p)) : Private (Circ.ptScalar nb b3 P s) :=
  bind (toBits _ _ _) fun _ => ptScalarLoop _ _ _ _
theorem bnWitness (n : Int) (w k : Nat) : Private (Nova.bnWitness (p := p) n w k) := by unfold Nova.bnWitness; priv [witList _]
theorem decomposeLoop (nb w : Nat) : ∀ l : List (Row (ZMod p)), Private (Nova.decomposeLoop nb w l)
  | [] => pure _
  | _ :: l => bind (toBits _ _ _) fun _ => bind (decomposeLoop nb w l) fun _ => pure _
theorem bnDecompose (nb : Nat) (a : BigNat (ZMod p)) : Private (Nova.bnDecompose nb a) := decomposeLoop _ _ _
theorem bnOfField (nb : Nat) (f : Row (ZMod p)) (w k : Nat) : Private (Nova.bnOfField nb f w k) := by
  unfold Nova.bnOfField; priv [bnWitness _ _ _, bnDecompose _ _, enforceEqBits _ _]
theorem wellFormedLoop (nb w : Nat) : ∀ l : List (Row (ZMod p)), Private (Nova.wellFormedLoop nb w l)
  | [] => pure _
  | _ :: l => bind (toBits _ _ _) fun _ => bind (rangeCheckBits _ _) fun _ => wellFormedLoop nb w l
theorem bnWellFormed (nb : Nat) (a : BigNat (ZMod p)) : Private (Nova.bnWellFormed nb a) := wellFormedLoop _ _ _
theorem bnValue (a : BigNat (ZMod p)) : Private (Nova.bnValue a) := bind (valueList _) fun _ => pure _
theorem bnSelect (a b : BigNat (ZMod p)) (c : Bin) : Private (Nova.bnSelect a b c) := by unfold Nova.bnSelect; priv [selectLoop _ _]
theorem groupLoop (g : Nat) (block : Row (ZMod p)) : ∀ (i : Nat) (l : List (Row (ZMod p))) (s : Row (ZMod p)) (acc : List (Row (ZMod p))),
    Private (Nova.groupLoop g block i l s acc)
  | _, [], _, _ => pure _
  | i, _ :: l, s, acc => bind (mul _ _) fun _ => bind (mul _ _) fun _ => groupLoop g block (i + 1) l _ _
theorem bnGroup (a : BigNat (ZMod p)) (g : Nat) : Private (Nova.bnGroup a g) := by unfold Nova.bnGroup; priv [groupLoop _ _ _ _ _ _]
theorem carryLoop (nb w : Nat) (mw : Int) (cb : Nat) : ∀ (l : List (Row (ZMod p) × Row (ZMod p))) (c : Row (ZMod p)) (e : Int),
    Private (Nova.carryLoop nb w mw cb l c e)
  | [], _, _ => pure _
  | (_, _) :: l, c, e => by
    unfold Nova.carryLoop
    priv [mul _ _, toBits _ _ _, rangeCheckBits _ _, carryLoop nb w mw cb _ _ _]
theorem bnEqualCarried (fp : CarryBits) (nb : Nat) (a b : BigNat (ZMod p)) : Private (Nova.bnEqualCarried fp nb a b) := by
  unfold Nova.bnEqualCarried; priv [carryLoop _ _ _ _ _ _ _, zeroLoop _]
theorem bnEqualRegroup (fp : CarryBits) (nb : Nat) (a b : BigNat (ZMod p)) : Private (Nova.bnEqualRegroup fp nb a b) := by
  unfold Nova.bnEqualRegroup; priv [bnGroup _ _, bnEqualCarried _ _ _ _]
theorem bnMultMod (fp : CarryBits) (nb : Nat) (a b m : BigNat (ZMod p)) : Private (Nova.bnMultMod fp nb a b m) := by
  unfold Nova.bnMultMod; priv [bnValue _, bnWitness _ _ _, bnWellFormed _ _, polyMul _ _, bnEqualRegroup _ _ _ _]
theorem bnRedMod (fp : CarryBits) (nb : Nat) (a m : BigNat (ZMod p)) : Private (Nova.bnRedMod fp nb a m) := by
  unfold Nova.bnRedMod; priv [bnValue _, bnWitness _ _ _, bnWellFormed _ _, polyMul _ _, bnEqualRegroup _ _ _ _]
end Bits

section Augmented
variable {p q : Nat} [Fact p.Prime] [Fact q.Prime] {G : Type} [AddCommGroup G] [Module (ZMod p) G] [DecidableEq G]
theorem mimcCirc : ∀ (cs : List (ZMod q)) (l r : Row (ZMod q)), Private (Nova.mimcCirc cs l r)
  | [], _, _ => pure _
  | _ :: cs, _, _ => bind (square _) fun _ => bind (square _) fun _ => bind (mul _ _) fun _ => bind (mul _ _) fun _ => mimcCirc cs _ _
theorem spongeCirc (k : List (ZMod q)) : ∀ (l : List (Row (ZMod q))) (acc : Row (ZMod q)), Private (Nova.spongeCirc k l acc)
  | [], _ => pure _
  | _ :: l, _ => bind (mimcCirc _ _ _) fun _ => spongeCirc k l _
theorem packLoop : ∀ (l : List Bin) (m v : Row (ZMod q)), Private (Nova.packLoop l m v)
  | [], _, _ => pure _
  | _ :: l, _, _ => bind (conditionalSelect _ _ _) fun _ => packLoop l _ _
theorem squeezeCirc (nb : Nat) (k : List (ZMod q)) (s : List (Row (ZMod q))) (n : Nat) : Private (Nova.squeezeCirc nb k s n) :=
  bind (spongeCirc _ _ _) fun _ => bind (toBits _ _ _) fun _ => packLoop _ _ _
theorem envWitness (E : Env q G) (P : G) : Private (E.witness P) := ptWit _ _ _
theorem instWitness (E : Env q G) (i : Inst (ZMod p) G) : Private (Nova.instWitness E i) := by unfold Nova.instWitness; priv [envWitness _ _]
theorem rinstWitness (E : Env q G) (i : RInst (ZMod p) G) : Private (Nova.rinstWitness E i) := by
  unfold Nova.rinstWitness; priv [envWitness _ _, bnWitness _ _ _]
theorem rinstOfInst (nb : Nat) (i : InstRow q) : Private (Nova.rinstOfInst nb i) := by unfold Nova.rinstOfInst; priv [bnOfField _ _ _ _]
theorem rinstSelect (a b : RInstRow q) (c : Bin) : Private (Nova.rinstSelect a b c) := by
  unfold Nova.rinstSelect; priv [ptSelect _ _ _, conditionalSelect _ _ _, bnSelect _ _ _]
theorem rinstAbsorb (i : RInstRow q) : Private (Nova.rinstAbsorb i) := by unfold Nova.rinstAbsorb; priv [ptDescale _]
theorem rinstHash (nb : Nat) (k : List (ZMod q)) (r : RInstRow q) (i : Row (ZMod q)) (z0 zi : List (Row (ZMod q))) :
    Private (Nova.rinstHash nb k r i z0 zi) := bind (rinstAbsorb _) fun _ => squeezeCirc _ _ _ _
theorem challengeCirc (nb : Nat) (k : List (ZMod q)) (u : RInstRow q) (t : PointRow (ZMod q)) : Private (Nova.challengeCirc nb k u t) :=
  bind (rinstAbsorb _) fun _ => squeezeCirc _ _ _ _
theorem foldX (fp : CarryBits) (nb : Nat) (r m : BigNat (ZMod q)) (s : Row (ZMod q)) (g : BigNat (ZMod q)) : Private (Nova.foldX fp nb r m s g) := by
  unfold Nova.foldX; priv [bnWitness _ _ _, bnMultMod _ _ _ _ _, bnRedMod _ _ _ _]
theorem nifsVerify (fp : CarryBits) (nb : Nat) (b3 : ZMod q) (o : Nat) (r : Row (ZMod q)) (g : RInstRow q) (s : InstRow q) (t : PointRow (ZMod q)) :
    Private (Nova.nifsVerify fp nb b3 o r g s t) := by
  unfold Nova.nifsVerify; priv [ptScalar _ _ _ _, ptAdd _ _ _, bnOfField _ _ _ _, bnWitness _ _ _, foldX _ _ _ _ _ _]
theorem baseInst (nb : Nat) (b : Bool) (d : RInstRow q) (s : InstRow q) : Private (Nova.baseInst nb b d s) := by
  unfold Nova.baseInst; priv [rinstOfInst _ _]
theorem body (D : Driver p q G) (FC : FnCircuit (ZMod q)) (hFC : ∀ z, Private (FC.invokeCs z)) (A : Augmented p q G) : Private (A.body D FC) := by
    unfold Augmented.body
    priv [hFC _, witList _, rinstWitness _ _, instWitness _ _, envWitness _ _, isEq _ _, isNeq _ _, baseInst _ _ _ _, rinstHash _ _ _ _ _ _,
      conditionalEnforceEqual _ _ _, challengeCirc _ _ _ _, nifsVerify _ _ _ _ _ _ _ _, rinstSelect _ _ _]
end Augmented

end Private

/-- **C125, gadgets on field elements and bits**: none publishes anything, for all arguments and in every state. -/
theorem C125_field (x y : Row F) (s t : Bin) (bs : List Bin) (v c : F) (n : Nat) :
    Private (Circ.wit v) ∧ Private (Circ.binWit n : Circ F Bin) ∧ Private (Circ.value x) ∧ Private (Circ.mul x y) ∧ Private (Circ.square x) ∧
    Private (Circ.add x y) ∧ Private (Circ.enforceEq x y) ∧ Private (Circ.enforceEqConstant x c) ∧ Private (Circ.enforceEqBits x bs) ∧
    Private (Circ.conditionalEnforceEqual x y s) ∧ Private (Circ.conditionalSelect x y s) ∧ Private (Circ.isEq x y) ∧ Private (Circ.isNeq x y) ∧
    Private (Circ.not s : Circ F Bin) ∧ Private (Circ.and s t : Circ F Bin) :=
  ⟨.wit v, .binWit n, .value x, .mul x y, .square x, .add x y, .enforceEq x y, .enforceEqConstant x c, .enforceEqBits x bs,
    .conditionalEnforceEqual x y s, .conditionalSelect x y s, .isEq x y, .isNeq x y, .not s, .and s t⟩

/-- **C125, range checks, bits, points and non-native arithmetic.** -/
theorem C125_gadgets (b3 x y : F) (i : Bool) (v : Curve.Proj F) (P Q : PointRow F) (s : Bin) {p : Nat} [Fact p.Prime] (fp : CarryBits) (nb w k n : Nat)
    (z : Int) (b c : ZMod p) (R : PointRow (ZMod p)) (f : Row (ZMod p)) (bits : List Bin) (a a' m : BigNat (ZMod p)) (consts : List (ZMod p))
    (state as bs : List (Row (ZMod p))) :
    (Private (Circ.rangeCheck bits c) ∧ Private (Circ.rangeCheckBits (p := p) bits n) ∧ Private (Circ.toBits nb f n)) ∧
    (Private (Circ.ptWit x y i) ∧ Private (Circ.ptAdd b3 P Q) ∧ Private (Circ.ptDouble b3 P) ∧ Private (Circ.ptSelect P Q s) ∧
      Private (Circ.ptSelectIdentity P s) ∧ Private (Circ.ptDescale P) ∧ Private (Circ.ptAssertEqualPublic P v) ∧ Private (Circ.ptScalar nb b R f)) ∧
    Private (Nova.bnWitness (p := p) z w k) ∧ Private (Nova.bnOfField nb f w k) ∧ Private (Nova.bnDecompose nb a) ∧
    Private (Nova.bnWellFormed nb a) ∧ Private (Nova.bnSelect a a' s) ∧ Private (Nova.bnGroup a n) ∧ Private (Nova.bnEqualCarried fp nb a a') ∧
    Private (Nova.bnEqualRegroup fp nb a a') ∧ Private (Nova.bnMultMod fp nb a a' m) ∧ Private (Nova.bnRedMod fp nb a m) ∧
    Private (Nova.polyMul as bs) ∧ Private (Nova.squeezeCirc nb consts state n) :=
  ⟨⟨.rangeCheck bits c, .rangeCheckBits bits n, .toBits nb f n⟩,
    ⟨.ptWit x y i, .ptAdd b3 P Q, .ptDouble b3 P, .ptSelect P Q s, .ptSelectIdentity P s, .ptDescale P, .ptAssertEqualPublic P v, .ptScalar nb b R f⟩,
    .bnWitness z w k, .bnOfField nb f w k, .bnDecompose nb a, .bnWellFormed nb a, .bnSelect a a' s, .bnGroup a n, .bnEqualCarried fp nb a a',
    .bnEqualRegroup fp nb a a', .bnMultMod fp nb a a' m, .bnRedMod fp nb a m, .polyMul as bs, .squeezeCirc nb consts state n⟩

/-- **C125, what publishes**: `instance` publishes its argument, `inputize` the value its argument has, a public point its coordinates and whether it is
the identity; nothing else is added. -/
theorem C125_publish (cs : CS F) (v : F) (n : Nat) (r : Row F) (P : Curve.Aff F) :
    (∃ a cs', Circ.inst v cs = some (a, cs') ∧ cs'.x = cs.x ++ [v]) ∧ (∃ a cs', Circ.binInst n cs = some (a, cs') ∧ cs'.x = cs.x ++ [(n : F)]) ∧
    (∀ a cs', Circ.inputize r cs = some (a, cs') → ∃ u, r.evaluate cs.x cs.w = some u ∧ cs'.x = cs.x ++ [u]) ∧
    (∃ a cs', Circ.ptInst P cs = some (a, cs') ∧ cs'.x = cs.x ++ [P.x, P.y, if P.isIdentity then 0 else 1]) := by
  refine ⟨⟨_, _, rfl, rfl⟩, ⟨_, _, rfl, rfl⟩, fun a cs' h => ?_, ⟨_, _, rfl, by simp⟩⟩
  have h : ((r.evaluate cs.x cs.w).map (fun v => (v, cs))).bind (fun s => Circ.inst s.1 s.2) = some (a, cs') := h
  obtain ⟨⟨u, c⟩, e1, e2⟩ := Option.bind_eq_some_iff.1 h
  obtain ⟨u1, e0, e1⟩ := Option.map_eq_some_iff.1 e1
  obtain ⟨rfl, rfl⟩ := Prod.mk.inj e1
  have e2 : some (Row.ofWire (.inst cs.x.length), { cs with x := cs.x ++ [u1] }) = some (a, cs') := e2
  obtain ⟨-, rfl⟩ := Prod.mk.inj (Option.some.inj e2)
  exact ⟨u1, e0, rfl⟩

/-- **C125, sequencing**: code made of calls that publish nothing publishes nothing. -/
theorem C125_compose {g : Circ F α} {f : α → Circ F β} (hg : Private g) (hf : ∀ a, Private (f a)) (a : α) (o : Option α) :
    Private (g >>= f) ∧ Private (Pure.pure a : Circ F α) ∧ Private (Circ.lift o : Circ F α) := ⟨.bind hg hf, .pure a, .lift o⟩

/-- **C125, the recursive step**: if the user's step function publishes nothing, the circuit of a step publishes exactly two elements, whatever the
witness. -/
theorem C125_step {p q : Nat} [Fact p.Prime] [Fact q.Prime] {G : Type} [AddCommGroup G] [Module (ZMod p) G] [DecidableEq G] (D : Driver p q G)
    (FC : FnCircuit (ZMod q)) (hFC : ∀ z, Private (FC.invokeCs z)) (A : Augmented p q G) {cs cs' : CS (ZMod q)} {z : List (Row (ZMod q))}
    (h : A.generate D FC cs = some (z, cs')) : ∃ a b, cs'.x = cs.x ++ [a, b] := by
  have h : (A.body D FC cs).bind (fun r => (Circ.inputize r.1.1 r.2).bind (fun s => (Circ.inputize r.1.2.1 s.2).bind
      (fun t => some (r.1.2.2, t.2)))) = some (z, cs') := h
  obtain ⟨⟨r, c⟩, e1, h⟩ := Option.bind_eq_some_iff.1 h
  obtain ⟨⟨s, c1⟩, e2, h⟩ := Option.bind_eq_some_iff.1 h
  obtain ⟨⟨t, c2⟩, e3, h⟩ := Option.bind_eq_some_iff.1 h
  obtain ⟨-, rfl⟩ := Prod.mk.inj (Option.some.inj h)
  have h1 := Private.body D FC hFC A _ _ _ e1
  obtain ⟨u, -, h2⟩ := (C125_publish c 0 0 r.1 ⟨0, 0, false⟩).2.2.1 _ _ e2
  obtain ⟨v, -, h3⟩ := (C125_publish c1 0 0 r.2.1 ⟨0, 0, false⟩).2.2.1 _ _ e3
  exact ⟨u, v, by rw [h3, h2, h1, List.append_assoc]; rfl⟩

/-- The step function of the Nova example publishes nothing. -/
example {q : Nat} [Fact q.Prime] (z : List (Row (ZMod q))) : Private ((exampleFn (ZMod q)).invokeCs z) :=
  .bind (.lift _) fun _ => .bind (.mul _ _) fun _ => .bind (.mul _ _) fun _ => .pure _

/-- Not everything is private: `instance` is not. -/
example : ¬ Private (Circ.inst (1 : ZMod 13)) := fun h => by
  have := congrArg List.length (h ⟨[], [], []⟩ _ _ rfl)
  simp at this

end Kogarashi.Props
