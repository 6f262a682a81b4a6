import Verif.Nova.Circuit
import Verif.R1cs.Run

/-!
# Gadgets allocate no public inputs

Only `instance`, `inputize` and their variants extend the public vector.
-/

namespace Kogarashi

open Spec Circ

/-- The program leaves the public inputs as they are. -/
def NoInst {F : Type} [Field F] [DecidableEq F] {α : Type} (g : Circ F α) : Prop :=
  ∀ c a c', g c = some (a, c') → c'.x = c.x

namespace NoInst

section
variable {F : Type} [Field F] [DecidableEq F] {α β : Type}

theorem pure (a : α) : NoInst (Pure.pure a : Circ F α) := by
  intro c a1 c' h
  have h' : some (a, c) = some (a1, c') := h
  cases h'; rfl

theorem fail : NoInst (Alternative.failure : Circ F α) := by
  intro c a1 c' h
  have h' : none = some (a1, c') := h
  simp at h'

theorem bind {g : Circ F α} {f : α → Circ F β} (hg : NoInst g) (hf : ∀ a, NoInst (f a)) : NoInst (g >>= f) := by
  intro c a1 c' h
  cases e : g c with
  | none => rw [bind_none e] at h; simp at h
  | some v =>
    obtain ⟨x, d⟩ := v
    rw [bind_eq e] at h
    rw [hf x _ _ _ h, hg _ _ _ e]

theorem value (r : Row F) : NoInst (Circ.value r) := by
  intro c a c' h
  have e : (r.evaluate c.x c.w).map (fun v => (v, c)) = some (a, c') := h
  simp only [Option.map_eq_some_iff, Prod.mk.injEq] at e
  obtain ⟨_, _, _, rfl⟩ := e; rfl

theorem read (b : Wire) : NoInst (Circ.read b : Circ F F) := by
  intro c a c' h
  have e : (c.get b).map (fun v => (v, c)) = some (a, c') := h
  simp only [Option.map_eq_some_iff, Prod.mk.injEq] at e
  obtain ⟨_, _, _, rfl⟩ := e; rfl

theorem lift (o : Option α) : NoInst (Circ.lift o : Circ F α) := by
  intro c a c' h
  have e : o.map (fun v => (v, c)) = some (a, c') := h
  simp only [Option.map_eq_some_iff, Prod.mk.injEq] at e
  obtain ⟨_, _, _, rfl⟩ := e; rfl

theorem wit (v : F) : NoInst (Circ.wit v) := by
  intro c a c' h
  have h' : some _ = some (a, c') := h
  cases h'; rfl
theorem witWire (v : F) : NoInst (Circ.witWire v) := by
  intro c a c' h
  have h' : some _ = some (a, c') := h
  cases h'; rfl
theorem binWit (v : Nat) : NoInst (Circ.binWit v : Circ F Bin) := by
  intro c a c' h
  have h' : some _ = some (a, c') := h
  cases h'; rfl
theorem mulGate (x y z : Row F) : NoInst (Circ.mulGate x y z) := by
  intro c a c' h
  have h' : some _ = some (a, c') := h
  cases h'; rfl
theorem enforceEq (x y : Row F) : NoInst (Circ.enforceEq x y) := mulGate _ _ _
theorem enforceEqConstant (x : Row F) (v : F) : NoInst (Circ.enforceEqConstant x v) := mulGate _ _ _

theorem mul (x y : Row F) : NoInst (Circ.mul x y) := by
  unfold Circ.mul
  split
  · exact pure _
  · split
    · exact pure _
    · exact (value _).bind fun _ => (value _).bind fun _ => (wit _).bind fun _ => (mulGate _ _ _).bind fun _ => pure _

end

end NoInst

/-- Discharge `NoInst` goals compositionally. -/
macro "noinst" : tactic => `(tactic| repeat' (first
  | assumption | exact NoInst.pure _ | exact NoInst.fail | exact NoInst.value _ | exact NoInst.read _ | exact NoInst.lift _
  | exact NoInst.wit _ | exact NoInst.witWire _ | exact NoInst.binWit _ | exact NoInst.mulGate _ _ _ | exact NoInst.enforceEq _ _
  | exact NoInst.enforceEqConstant _ _ | exact NoInst.mul _ _
  | refine NoInst.bind ?_ ?_ | split | intro _))

namespace NoInst

section
variable {F : Type} [Field F] [DecidableEq F]

theorem square (x : Row F) : NoInst (Circ.square x) := mul _ _
theorem conditionalSelect (a b : Row F) (s : Bin) : NoInst (Circ.conditionalSelect a b s) := by
  unfold Circ.conditionalSelect; noinst
theorem conditionalEnforceEqual (a b : Row F) (s : Bin) : NoInst (Circ.conditionalEnforceEqual a b s) := by
  unfold Circ.conditionalEnforceEqual; noinst
theorem not (b : Bin) : NoInst (Circ.not b : Circ F Bin) := by unfold Circ.not; noinst
theorem isNeq (x y : Row F) : NoInst (Circ.isNeq x y) := by
  have := NoInst.not (F := F)
  unfold Circ.isNeq; noinst; all_goals exact this _
theorem isEq (x y : Row F) : NoInst (Circ.isEq x y) := (isNeq _ _).bind fun _ => not _
theorem weightedSum : ∀ (bs : List Bin) (f : F) (acc : Row F), NoInst (Circ.weightedSum bs f acc)
  | [], _, _ => pure _
  | b :: bs, f, acc => (mul _ _).bind fun _ => weightedSum bs _ _
theorem enforceEqBits (x : Row F) (bs : List Bin) : NoInst (Circ.enforceEqBits x bs) :=
  (weightedSum _ _ _).bind fun _ => enforceEq _ _
theorem ptWit (x y : F) (i : Bool) : NoInst (Circ.ptWit x y i) := by unfold Circ.ptWit; noinst
theorem ptSelectIdentity (p : PointRow F) (b : Bin) : NoInst (Circ.ptSelectIdentity p b) := by
  unfold Circ.ptSelectIdentity; noinst
theorem ptDescale (p : PointRow F) : NoInst (Circ.ptDescale p) := by
  unfold Circ.ptDescale
  exact (isNeq _ _).bind fun _ => (value _).bind fun _ => (wit _).bind fun _ => (mul _ _).bind fun _ =>
    (mul _ _).bind fun _ => ptSelectIdentity _ _
theorem ptAdd (b3 : F) (p q : PointRow F) : NoInst (Circ.ptAdd b3 p q) := by unfold Circ.ptAdd; noinst
theorem ptDouble (b3 : F) (p : PointRow F) : NoInst (Circ.ptDouble b3 p) := by unfold Circ.ptDouble; noinst
theorem ptSelect (a b : PointRow F) (s : Bin) : NoInst (Circ.ptSelect a b s) := by
  unfold Circ.ptSelect
  exact (conditionalSelect _ _ _).bind fun _ => (conditionalSelect _ _ _).bind fun _ => (conditionalSelect _ _ _).bind fun _ => pure _
theorem ptScalarLoop (b3 : F) (p : PointRow F) : ∀ (bs : List Bin) (r : PointRow F), NoInst (Circ.ptScalarLoop b3 p bs r)
  | [], _ => pure _
  | b :: bs, r => (ptDouble _ _).bind fun _ => (ptSelectIdentity _ _).bind fun _ => (ptAdd _ _ _).bind fun _ => ptScalarLoop b3 p bs _
end

section
variable {p : Nat} [Fact p.Prime]

theorem enforceZeros : ∀ (bs : List Bin), NoInst (Circ.enforceZeros bs : Circ (ZMod p) Unit)
  | [] => pure _
  | b :: bs => (enforceEqConstant _ _).bind fun _ => enforceZeros bs
theorem runs : ∀ (l : List (Bin × Nat)) (ps : List (Row (ZMod p))) (last : Row (ZMod p)), NoInst (Circ.runs l ps last)
  | [], _, _ => by unfold Circ.runs; exact pure _
  | (a, c) :: l, ps, last => by
    unfold Circ.runs
    split
    · exact (mul _ _).bind fun _ => runs l _ _
    · exact runs l _ _
theorem boolOne (ps : List (Row (ZMod p))) (i : Nat) (a : Bin) (c : Nat) : NoInst (Circ.boolOne ps i a c) := by
  unfold Circ.boolOne
  split
  · exact (mul _ _).bind fun _ => enforceEq _ _
  · split
    · split
      · exact fail
      · split
        · exact fail
        · exact (mul _ _).bind fun _ => enforceEq _ _
    · exact pure _
theorem boolLoop (ps : List (Row (ZMod p))) : ∀ (l : List (Bin × Nat)) (i : Nat), NoInst (Circ.boolLoop ps i l)
  | [], _ => by unfold Circ.boolLoop; exact pure _
  | (a, c) :: l, i => (boolOne _ _ _ _).bind fun _ => boolLoop ps l _
theorem rangeCheck (bs : List Bin) (c : ZMod p) : NoInst (Circ.rangeCheck bs c) := by
  unfold Circ.rangeCheck
  dsimp only
  split
  · exact pure _
  · refine (enforceZeros _).bind fun _ => ?_
    split
    · exact fail
    · exact (runs _ _ _).bind fun _ => boolLoop _ _ _
theorem rangeCheckBits (bs : List Bin) (n : Nat) : NoInst (Circ.rangeCheckBits bs n : Circ (ZMod p) Unit) := rangeCheck _ _
theorem binWits : ∀ (l : List Nat), NoInst (Circ.binWits l : Circ (ZMod p) (List Bin))
  | [] => pure _
  | b :: l => (binWit _).bind fun _ => (binWits l).bind fun _ => pure _
theorem toBits (nb : Nat) (x : Row (ZMod p)) (n : Nat) : NoInst (Circ.toBits nb x n) := by
  unfold Circ.toBits
  split
  · exact fail
  · refine (value _).bind fun _ => (binWits _).bind fun _ => ?_
    dsimp only
    split
    · exact (rangeCheckBits _ _).bind fun _ => pure _
    · exact (rangeCheck _ _).bind fun _ => pure _
theorem ptScalar (nb : Nat) (b3 : ZMod p) (P : PointRow (ZMod p)) (s : Row (ZMod p)) : NoInst (Circ.ptScalar nb b3 P s) :=
  (toBits _ _ _).bind fun _ => ptScalarLoop _ _ _ _

open Nova

theorem witList {F : Type} [Field F] [DecidableEq F] : ∀ (l : List F), NoInst (Nova.witList l)
  | [] => pure _
  | v :: l => (wit _).bind fun _ => (witList l).bind fun _ => pure _
theorem bnWitness (n : Int) (w k : Nat) : NoInst (Nova.bnWitness n w k : Circ (ZMod p) _) :=
  (lift _).bind fun _ => (witList _).bind fun _ => pure _
theorem decomposeLoop (nb w : Nat) : ∀ (rs : List (Row (ZMod p))), NoInst (Nova.decomposeLoop nb w rs)
  | [] => pure _
  | r :: rs => (toBits _ _ _).bind fun _ => (decomposeLoop nb w rs).bind fun _ => pure _
theorem bnOfField (nb : Nat) (f : Row (ZMod p)) (w k : Nat) : NoInst (Nova.bnOfField nb f w k) :=
  (value _).bind fun _ => (bnWitness _ _ _).bind fun _ => (decomposeLoop _ _ _).bind fun _ => (enforceEqBits _ _).bind fun _ => pure _
theorem wellFormedLoop (nb w : Nat) : ∀ (rs : List (Row (ZMod p))), NoInst (Nova.wellFormedLoop nb w rs)
  | [] => pure _
  | r :: rs => (toBits _ _ _).bind fun _ => (rangeCheckBits _ _).bind fun _ => wellFormedLoop nb w rs
theorem valueList {F : Type} [Field F] [DecidableEq F] : ∀ (l : List (Row F)), NoInst (Nova.valueList l)
  | [] => pure _
  | v :: l => (value _).bind fun _ => (valueList l).bind fun _ => pure _
theorem bnValue (a : BigNat (ZMod p)) : NoInst (Nova.bnValue a) := (valueList _).bind fun _ => pure _
theorem selectLoop {F : Type} [Field F] [DecidableEq F] (s : Bin) : ∀ (l : List (Row F × Row F)), NoInst (Nova.selectLoop s l)
  | [] => pure _
  | (_, _) :: l => (conditionalSelect _ _ _).bind fun _ => (selectLoop s l).bind fun _ => pure _
theorem bnSelect (a b : BigNat (ZMod p)) (s : Bin) : NoInst (Nova.bnSelect a b s) := by
  unfold Nova.bnSelect
  split
  · exact (selectLoop _ _).bind fun _ => pure _
  · exact fail
theorem groupLoop (g : Nat) (block : Row (ZMod p)) : ∀ (ls : List (Row (ZMod p))) (i : Nat) (s : Row (ZMod p)) (acc : List (Row (ZMod p))),
    NoInst (Nova.groupLoop g block i ls s acc)
  | [], _, _, _ => pure _
  | l :: ls, i, s, acc => by
    unfold Nova.groupLoop
    exact (mul _ _).bind fun _ => (mul _ _).bind fun _ => groupLoop g block ls _ _ _
theorem bnGroup (a : BigNat (ZMod p)) (g : Nat) : NoInst (Nova.bnGroup a g) := by
  unfold Nova.bnGroup
  split
  · exact fail
  · exact (wit _).bind fun _ => (groupLoop _ _ _ _ _ _).bind fun _ => pure _
theorem carryLoop (nb w : Nat) (M : Int) (cb : Nat) : ∀ (l : List (Row (ZMod p) × Row (ZMod p))) (ci : Row (ZMod p)) (e : Int),
    NoInst (Nova.carryLoop nb w M cb l ci e)
  | [], _, _ => by unfold Nova.carryLoop; exact pure _
  | (a, b) :: rest, ci, e => by
    unfold Nova.carryLoop
    refine (value _).bind fun _ => (value _).bind fun _ => (value _).bind fun _ => (lift _).bind fun _ => (wit _).bind fun _ =>
      (lift _).bind fun _ => (wit _).bind fun _ => (mul _ _).bind fun _ => (lift _).bind fun _ => (wit _).bind fun _ =>
      (lift _).bind fun _ => (wit _).bind fun _ => (enforceEqConstant _ _).bind fun _ => ?_
    cases rest with
    | nil => exact (lift _).bind fun _ => (wit _).bind fun _ => (enforceEqConstant _ _).bind fun _ => carryLoop nb w M cb [] _ _
    | cons h t => exact (toBits _ _ _).bind fun _ => (rangeCheckBits _ _).bind fun _ => carryLoop nb w M cb (h :: t) _ _
theorem zeroLoop {F : Type} [Field F] [DecidableEq F] : ∀ (l : List (Row F)), NoInst (Nova.zeroLoop l)
  | [] => pure _
  | v :: l => (enforceEqConstant _ _).bind fun _ => zeroLoop l
theorem bnEqualCarried (fp : CarryBits) (nb : Nat) (a b : BigNat (ZMod p)) : NoInst (Nova.bnEqualCarried fp nb a b) := by
  unfold Nova.bnEqualCarried
  split
  · exact (carryLoop _ _ _ _ _ _ _).bind fun _ => (zeroLoop _).bind fun _ => zeroLoop _
  · exact fail
theorem bnEqualRegroup (fp : CarryBits) (nb : Nat) (a b : BigNat (ZMod p)) : NoInst (Nova.bnEqualRegroup fp nb a b) := by
  unfold Nova.bnEqualRegroup
  dsimp only
  split
  · exact (bnGroup _ _).bind fun _ => (bnGroup _ _).bind fun _ => bnEqualCarried _ _ _ _
  · exact fail
theorem mulInner {F : Type} [Field F] [DecidableEq F] (a : Row F) : ∀ (bs : List (Row F)) (k : Nat) (l : List (Row F)),
    NoInst (Nova.mulInner a k bs l)
  | [], _, _ => pure _
  | b :: bs, _, _ => (mul _ _).bind fun _ => mulInner a bs _ _
theorem mulOuter {F : Type} [Field F] [DecidableEq F] (bs : List (Row F)) : ∀ (as : List (Row F)) (k : Nat) (l : List (Row F)),
    NoInst (Nova.mulOuter bs k as l)
  | [], _, _ => pure _
  | a :: as, _, _ => (mulInner _ _ _ _).bind fun _ => mulOuter bs as _ _
theorem evalRow {F : Type} [Field F] [DecidableEq F] (x : F) : ∀ (l : List (Row F)) (i : F) (acc : Row F), NoInst (Nova.evalRow x l i acc)
  | [], _, _ => pure _
  | c :: l, _, _ => (mul _ _).bind fun _ => evalRow x l _ _
theorem mulCheck {F : Type} [Field F] [DecidableEq F] (as bs cs : List (Row F)) : ∀ (n : Nat) (x : F), NoInst (Nova.mulCheck as bs cs n x)
  | 0, _ => pure _
  | n + 1, _ => (evalRow _ _ _ _).bind fun _ => (evalRow _ _ _ _).bind fun _ => (evalRow _ _ _ _).bind fun _ =>
    (mul _ _).bind fun _ => (enforceEq _ _).bind fun _ => mulCheck as bs cs n _
theorem polyMul {F : Type} [Field F] [DecidableEq F] (as bs : List (Row F)) : NoInst (Nova.polyMul as bs) := by
  unfold Nova.polyMul
  split
  · exact fail
  · exact (mulOuter _ _ _ _).bind fun _ => (mulCheck _ _ _ _ _).bind fun _ => pure _
theorem bnMultMod (fp : CarryBits) (nb : Nat) (a b m : BigNat (ZMod p)) : NoInst (Nova.bnMultMod fp nb a b m) := by
  unfold Nova.bnMultMod Nova.bnWellFormed
  split
  · exact (bnValue _).bind fun _ => (bnValue _).bind fun _ => (bnValue _).bind fun _ => (lift _).bind fun _ =>
      (bnWitness _ _ _).bind fun _ => (wellFormedLoop _ _ _).bind fun _ => (bnWitness _ _ _).bind fun _ =>
      (wellFormedLoop _ _ _).bind fun _ => (polyMul _ _).bind fun _ => (polyMul _ _).bind fun _ =>
      (bnEqualRegroup _ _ _ _).bind fun _ => pure _
  · exact fail
theorem bnRedMod (fp : CarryBits) (nb : Nat) (a m : BigNat (ZMod p)) : NoInst (Nova.bnRedMod fp nb a m) := by
  unfold Nova.bnRedMod Nova.bnWellFormed
  split
  · exact (bnValue _).bind fun _ => (bnValue _).bind fun _ => (lift _).bind fun _ =>
      (bnWitness _ _ _).bind fun _ => (wellFormedLoop _ _ _).bind fun _ => (bnWitness _ _ _).bind fun _ =>
      (wellFormedLoop _ _ _).bind fun _ => (polyMul _ _).bind fun _ => (bnEqualRegroup _ _ _ _).bind fun _ => pure _
  · exact fail
theorem mimcCirc : ∀ (consts : List (ZMod p)) (xl xr : Row (ZMod p)), NoInst (Nova.mimcCirc consts xl xr)
  | [], _, _ => pure _
  | k :: consts, xl, xr => by
    unfold Nova.mimcCirc
    exact (square _).bind fun _ => (square _).bind fun _ => (mul _ _).bind fun _ => (mul _ _).bind fun _ => mimcCirc consts _ _
theorem spongeCirc (consts : List (ZMod p)) : ∀ (ss : List (Row (ZMod p))) (acc : Row (ZMod p)), NoInst (Nova.spongeCirc consts ss acc)
  | [], _ => pure _
  | s :: ss, _ => (mimcCirc _ _ _).bind fun _ => spongeCirc consts ss _
theorem packLoop : ∀ (bs : List Bin) (m v : Row (ZMod p)), NoInst (Nova.packLoop bs m v)
  | [], _, _ => pure _
  | b :: bs, _, _ => (conditionalSelect _ _ _).bind fun _ => packLoop bs _ _
theorem squeezeCirc (nb : Nat) (consts : List (ZMod p)) (s : List (Row (ZMod p))) (n : Nat) : NoInst (Nova.squeezeCirc nb consts s n) :=
  (spongeCirc _ _ _).bind fun _ => (toBits _ _ _).bind fun _ => packLoop _ _ _

variable {q : Nat} [Fact q.Prime] {G : Type} [AddCommGroup G] [Module (ZMod p) G] [DecidableEq G]

theorem envWitness (E : Env q G) (P : G) : NoInst (E.witness P) := ptWit _ _ _
theorem instWitness (E : Env q G) (i : Inst (ZMod p) G) : NoInst (Nova.instWitness E i) :=
  (envWitness _ _).bind fun _ => (lift _).bind fun _ => (wit _).bind fun _ => (lift _).bind fun _ => (wit _).bind fun _ => pure _
theorem rinstWitness (E : Env q G) (i : RInst (ZMod p) G) : NoInst (Nova.rinstWitness E i) :=
  (envWitness _ _).bind fun _ => (envWitness _ _).bind fun _ => (wit _).bind fun _ => (lift _).bind fun _ =>
    (bnWitness _ _ _).bind fun _ => (lift _).bind fun _ => (bnWitness _ _ _).bind fun _ => pure _
theorem rinstOfInst (nb : Nat) (i : InstRow q) : NoInst (Nova.rinstOfInst nb i) :=
  (bnOfField _ _ _ _).bind fun _ => (bnOfField _ _ _ _).bind fun _ => pure _
theorem rinstSelect (a b : RInstRow q) (s : Bin) : NoInst (Nova.rinstSelect a b s) :=
  (ptSelect _ _ _).bind fun _ => (ptSelect _ _ _).bind fun _ => (conditionalSelect _ _ _).bind fun _ =>
    (bnSelect _ _ _).bind fun _ => (bnSelect _ _ _).bind fun _ => pure _
theorem rinstAbsorb (i : RInstRow q) : NoInst (Nova.rinstAbsorb i) :=
  (ptDescale _).bind fun _ => (ptDescale _).bind fun _ => pure _
theorem rinstHash (nb : Nat) (consts : List (ZMod q)) (r : RInstRow q) (i : Row (ZMod q)) (z0 zi : List (Row (ZMod q))) :
    NoInst (Nova.rinstHash nb consts r i z0 zi) := (rinstAbsorb _).bind fun _ => squeezeCirc _ _ _ _
theorem challengeCirc (nb : Nat) (consts : List (ZMod q)) (r : RInstRow q) (t : PointRow (ZMod q)) :
    NoInst (Nova.challengeCirc nb consts r t) := (rinstAbsorb _).bind fun _ => squeezeCirc _ _ _ _
theorem foldX (fp : CarryBits) (nb : Nat) (r m : BigNat (ZMod q)) (s : Row (ZMod q)) (a : BigNat (ZMod q)) : NoInst (Nova.foldX fp nb r m s a) :=
  (value _).bind fun _ => (bnWitness _ _ _).bind fun _ => (bnMultMod _ _ _ _ _).bind fun _ => (lift _).bind fun _ => bnRedMod _ _ _ _
theorem nifsVerify (fp : CarryBits) (nb : Nat) (b3 : ZMod q) (order : Nat) (r : Row (ZMod q)) (range : RInstRow q) (single : InstRow q)
    (t : PointRow (ZMod q)) : NoInst (Nova.nifsVerify fp nb b3 order r range single t) :=
  (ptScalar _ _ _ _).bind fun _ => (ptAdd _ _ _).bind fun _ => (ptScalar _ _ _ _).bind fun _ => (ptAdd _ _ _).bind fun _ =>
    (bnOfField _ _ _ _).bind fun _ => (bnWitness _ _ _).bind fun _ => (value _).bind fun _ => (value _).bind fun _ =>
    (wit _).bind fun _ => (enforceEqConstant _ _).bind fun _ => (foldX _ _ _ _ _ _).bind fun _ => (foldX _ _ _ _ _ _).bind fun _ => pure _
theorem baseInst (nb : Nat) (b : Bool) (d : RInstRow q) (s : InstRow q) : NoInst (Nova.baseInst nb b d s) := by
  unfold Nova.baseInst
  split
  · exact pure _
  · exact rinstOfInst _ _
theorem body (D : Driver p q G) {FC : FnCircuit (ZMod q)} (hF : ∀ rows, NoInst (FC.invokeCs rows)) (A : Augmented p q G) :
    NoInst (A.body D FC) :=
  (wit _).bind fun _ => (witList _).bind fun _ => (witList _).bind fun _ => (rinstWitness _ _).bind fun _ =>
    (instWitness _ _).bind fun _ => (rinstWitness _ _).bind fun _ => (envWitness _ _).bind fun _ => (isEq _ _).bind fun _ =>
    (isNeq _ _).bind fun _ => (baseInst _ _ _ _).bind fun _ => (rinstHash _ _ _ _ _ _).bind fun _ =>
    (conditionalEnforceEqual _ _ _).bind fun _ => (challengeCirc _ _ _ _).bind fun _ => (nifsVerify _ _ _ _ _ _ _ _).bind fun _ =>
    (rinstSelect _ _ _).bind fun _ => (hF _).bind fun _ => (rinstHash _ _ _ _ _ _).bind fun _ => pure _

end

end NoInst

end Kogarashi
