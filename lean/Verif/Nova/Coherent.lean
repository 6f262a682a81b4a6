import Verif.Nova.Circuit
import Verif.R1cs.PointProof

/-!
# The shape of the augmented circuit does not depend on the values

`Coh g h R`: whenever two circuit-building programs started from systems of the same shape both succeed, their
outputs are related by `R` and the resulting systems have the same shape.
-/

namespace Kogarashi

open Spec Circ

def Coh {F : Type} [Field F] [DecidableEq F] {α : Type} (g h : Circ F α) (R : α → α → Prop) : Prop :=
  ∀ c1 c2 a1 a2 c1' c2', SameShape c1 c2 → g c1 = some (a1, c1') → h c2 = some (a2, c2') →
    R a1 a2 ∧ SameShape c1' c2'

namespace Coh

section
variable {F : Type} [Field F] [DecidableEq F] {α β : Type}

theorem of_uniform {g h : Circ F α} (u : Uniform g h) : Coh g h Eq := by
  intro c1 c2 a1 a2 c1' c2' hs h1 h2
  rcases u c1 c2 hs with ⟨e, _⟩ | ⟨a, d1, d2, e1, e2, hs'⟩
  · rw [e] at h1; simp at h1
  · rw [e1] at h1; rw [e2] at h2
    simp only [Option.some.injEq, Prod.mk.injEq] at h1 h2
    obtain ⟨rfl, rfl⟩ := h1
    obtain ⟨rfl, rfl⟩ := h2
    exact ⟨rfl, hs'⟩

theorem pure {R : α → α → Prop} {a b : α} (h : R a b) : Coh (Pure.pure a : Circ F α) (Pure.pure b) R := by
  intro c1 c2 a1 a2 c1' c2' hs h1 h2
  have h1' : some (a, c1) = some (a1, c1') := h1
  have h2' : some (b, c2) = some (a2, c2') := h2
  simp only [Option.some.injEq, Prod.mk.injEq] at h1' h2'
  obtain ⟨rfl, rfl⟩ := h1'
  obtain ⟨rfl, rfl⟩ := h2'
  exact ⟨h, hs⟩

theorem fail {R : α → α → Prop} (h : Circ F α) : Coh (Alternative.failure : Circ F α) h R := by
  intro c1 c2 a1 a2 c1' c2' _ h1 _
  have h1' : none = some (a1, c1') := h1
  simp at h1'

theorem bind {g h : Circ F α} {f k : α → Circ F β} {R : α → α → Prop} {S : β → β → Prop} (hg : Coh g h R)
    (hf : ∀ a b, R a b → Coh (f a) (k b) S) : Coh (g >>= f) (h >>= k) S := by
  intro c1 c2 a1 a2 c1' c2' hs h1 h2
  cases e1 : g c1 with
  | none => rw [bind_none e1] at h1; simp at h1
  | some v1 =>
    cases e2 : h c2 with
    | none => rw [bind_none e2] at h2; simp at h2
    | some v2 =>
      obtain ⟨x1, d1⟩ := v1
      obtain ⟨x2, d2⟩ := v2
      rw [bind_eq e1] at h1
      rw [bind_eq e2] at h2
      obtain ⟨r, hs'⟩ := hg _ _ _ _ _ _ hs e1 e2
      exact hf x1 x2 r _ _ _ _ _ _ hs' h1 h2

theorem bindE {g h : Circ F α} {f k : α → Circ F β} {S : β → β → Prop} (hg : Coh g h Eq)
    (hf : ∀ a, Coh (f a) (k a) S) : Coh (g >>= f) (h >>= k) S :=
  hg.bind fun a b e => by subst e; exact hf a

theorem bindU {g h : Circ F α} {f k : α → Circ F β} {S : β → β → Prop} (hg : Uniform g h)
    (hf : ∀ a, Coh (f a) (k a) S) : Coh (g >>= f) (h >>= k) S := (of_uniform hg).bindE hf

theorem value (r r' : Row F) {f k : F → Circ F β} {S : β → β → Prop} (hf : ∀ a b, Coh (f a) (k b) S) :
    Coh (Circ.value r >>= f) (Circ.value r' >>= k) S := by
  refine bind (R := fun _ _ => True) ?_ (fun a b _ => hf a b)
  intro c1 c2 a1 a2 c1' c2' hs h1 h2
  have e1 : (r.evaluate c1.x c1.w).map (fun v => (v, c1)) = some (a1, c1') := h1
  have e2 : (r'.evaluate c2.x c2.w).map (fun v => (v, c2)) = some (a2, c2') := h2
  simp only [Option.map_eq_some_iff, Prod.mk.injEq] at e1 e2
  obtain ⟨_, _, rfl, rfl⟩ := e1
  obtain ⟨_, _, rfl, rfl⟩ := e2
  exact ⟨trivial, hs⟩

theorem lift {o o' : Option α} {f k : α → Circ F β} {S : β → β → Prop}
    (hf : ∀ a b, o = some a → o' = some b → Coh (f a) (k b) S) :
    Coh (Circ.lift o >>= f) (Circ.lift o' >>= k) S := by
  refine bind (R := fun a b => o = some a ∧ o' = some b) ?_ (fun a b h => hf a b h.1 h.2)
  intro c1 c2 a1 a2 c1' c2' hs h1 h2
  have e1 : o.map (fun v => (v, c1)) = some (a1, c1') := h1
  have e2 : o'.map (fun v => (v, c2)) = some (a2, c2') := h2
  simp only [Option.map_eq_some_iff, Prod.mk.injEq] at e1 e2
  obtain ⟨_, e1, rfl, rfl⟩ := e1
  obtain ⟨_, e2, rfl, rfl⟩ := e2
  exact ⟨⟨e1, e2⟩, hs⟩

theorem liftT {o o' : Option α} {f k : α → Circ F β} {S : β → β → Prop}
    (hf : ∀ a b, Coh (f a) (k b) S) : Coh (Circ.lift o >>= f) (Circ.lift o' >>= k) S := lift fun a b _ _ => hf a b

theorem lift_self {o : Option α} {f k : α → Circ F β} {S : β → β → Prop}
    (hf : ∀ a, Coh (f a) (k a) S) : Coh (Circ.lift o >>= f) (Circ.lift o >>= k) S :=
  lift fun a b h1 h2 => by
    rw [h1] at h2; cases h2; exact hf a

end

end Coh

namespace Nova

variable {p q : Nat} [Fact p.Prime] [Fact q.Prime]

theorem limbLoop_length {w : Nat} : ∀ {k : Nat} {n : Int} {l : List (ZMod p)}, limbLoop w k n = some l → l.length = k
  | 0, _, _, h => by
    have h' : some [] = some _ := h
    cases h'; rfl
  | k + 1, n, l, h => by
    unfold limbLoop at h
    simp only [Option.bind_eq_bind, Option.bind_eq_some_iff, Option.some.injEq] at h
    obtain ⟨a, _, b, hb, rfl⟩ := h
    simp [limbLoop_length hb]

theorem natToLimbs_length {n : Int} {w k : Nat} {l : List (ZMod p)} (h : natToLimbs n w k = some l) : l.length = k := by
  unfold natToLimbs at h
  split at h
  · exact limbLoop_length h
  · simp at h

theorem witList_coh {F : Type} [Field F] [DecidableEq F] : ∀ {l l' : List F}, l.length = l'.length →
    Coh (witList l) (witList l') Eq
  | [], [], _ => Coh.pure rfl
  | a :: l, b :: l', h => by
    unfold witList
    exact Coh.bindU (Uniform.wit _ _) fun _ => (witList_coh (by simpa using h)).bindE fun _ => Coh.pure rfl

theorem bnWitness_coh (n n' : Int) (w k : Nat) : Coh (bnWitness n w k : Circ (ZMod p) _) (bnWitness n' w k) Eq := by
  unfold bnWitness
  exact Coh.lift fun a b ha hb => (witList_coh (by rw [natToLimbs_length ha, natToLimbs_length hb])).bindE fun _ => Coh.pure rfl

theorem decomposeLoop_coh (nb w : Nat) : ∀ (rs : List (Row (ZMod p))), Coh (decomposeLoop nb w rs) (decomposeLoop nb w rs) Eq
  | [] => Coh.pure rfl
  | r :: rs => by
    unfold decomposeLoop
    exact Coh.bindU (Uniform.toBits _ _ _) fun _ => (decomposeLoop_coh nb w rs).bindE fun _ => Coh.pure rfl

theorem bnOfField_coh (nb : Nat) (f : Row (ZMod p)) (w k : Nat) : Coh (bnOfField nb f w k) (bnOfField nb f w k) Eq := by
  unfold bnOfField bnDecompose
  exact Coh.value _ _ fun _ _ => (bnWitness_coh _ _ _ _).bindE fun _ => (decomposeLoop_coh _ _ _).bindE fun _ =>
    Coh.bindU (Uniform.enforceEqBits _ _) fun _ => Coh.pure rfl

theorem rangeCheckBits_uniform (bs : List Bin) (w : Nat) :
    Uniform (rangeCheckBits bs w : Circ (ZMod p) Unit) (rangeCheckBits bs w) := by
  unfold rangeCheckBits
  exact Uniform.rangeCheck _ _

theorem wellFormedLoop_coh (nb w : Nat) : ∀ (rs : List (Row (ZMod p))), Coh (wellFormedLoop nb w rs) (wellFormedLoop nb w rs) Eq
  | [] => Coh.pure rfl
  | r :: rs => by
    unfold wellFormedLoop
    exact Coh.bindU (Uniform.toBits _ _ _) fun _ => Coh.bindU (rangeCheckBits_uniform _ _) fun _ => wellFormedLoop_coh nb w rs

theorem valueList_coh {F : Type} [Field F] [DecidableEq F] : ∀ (rs : List (Row F)), Coh (valueList rs) (valueList rs) (fun _ _ => True)
  | [] => Coh.pure trivial
  | r :: rs => by
    unfold valueList
    exact Coh.value _ _ fun _ _ => (valueList_coh rs).bind fun _ _ _ => Coh.pure trivial

theorem bnValue_coh (a : BigNat (ZMod p)) : Coh (bnValue a) (bnValue a) (fun _ _ => True) := by
  unfold bnValue
  exact (valueList_coh _).bind fun _ _ _ => Coh.pure trivial

theorem selectLoop_coh {F : Type} [Field F] [DecidableEq F] (s : Bin) : ∀ (l : List (Row F × Row F)),
    Coh (selectLoop s l) (selectLoop s l) Eq
  | [] => Coh.pure rfl
  | (a, b) :: l => by
    unfold selectLoop
    exact Coh.bindU (Uniform.conditionalSelect _ _ _) fun _ => (selectLoop_coh s l).bindE fun _ => Coh.pure rfl

theorem bnSelect_coh (a b : BigNat (ZMod p)) (s : Bin) : Coh (bnSelect a b s) (bnSelect a b s) Eq := by
  unfold bnSelect
  split
  · exact (selectLoop_coh _ _).bindE fun _ => Coh.pure rfl
  · exact Coh.fail _

theorem groupLoop_coh (g : Nat) (block : Row (ZMod p)) : ∀ (ls : List (Row (ZMod p))) (i : Nat) (shift : Row (ZMod p))
    (acc : List (Row (ZMod p))), Coh (groupLoop g block i ls shift acc) (groupLoop g block i ls shift acc) Eq
  | [], _, _, _ => Coh.pure rfl
  | l :: ls, i, shift, acc => by
    unfold groupLoop
    exact Coh.bindU (Uniform.mul _ _) fun _ => Coh.bindU (Uniform.mul _ _) fun _ => groupLoop_coh g block ls _ _ _

theorem bnGroup_coh (a : BigNat (ZMod p)) (g : Nat) : Coh (bnGroup a g) (bnGroup a g) Eq := by
  unfold bnGroup
  split
  · exact Coh.fail _
  · exact Coh.bindU (Uniform.wit _ _) fun _ => (groupLoop_coh _ _ _ _ _ _).bindE fun _ => Coh.pure rfl

theorem carryLoop_coh (nb w : Nat) (M : Int) (cb : Nat) : ∀ (l : List (Row (ZMod p) × Row (ZMod p))) (ci : Row (ZMod p)) (e : Int),
    Coh (carryLoop nb w M cb l ci e) (carryLoop nb w M cb l ci e) Eq
  | [], _, _ => by unfold carryLoop; exact Coh.pure rfl
  | (a, b) :: rest, ci, e => by
    unfold carryLoop
    refine Coh.value _ _ fun _ _ => Coh.value _ _ fun _ _ => Coh.value _ _ fun _ _ => Coh.liftT fun _ _ =>
      Coh.bindU (Uniform.wit _ _) fun _ => Coh.liftT fun _ _ => Coh.bindU (Uniform.wit _ _) fun _ =>
      Coh.bindU (Uniform.mul _ _) fun _ => Coh.liftT fun _ _ => Coh.bindU (Uniform.wit _ _) fun _ => Coh.liftT fun _ _ =>
      Coh.bindU (Uniform.wit _ _) fun _ => Coh.bindU (Uniform.enforceEqConstant _ _) fun _ => ?_
    cases rest with
    | nil =>
      exact Coh.liftT fun _ _ => Coh.bindU (Uniform.wit _ _) fun _ => Coh.bindU (Uniform.enforceEqConstant _ _) fun _ =>
        carryLoop_coh nb w M cb [] _ _
    | cons h t =>
      exact Coh.bindU (Uniform.toBits _ _ _) fun _ => Coh.bindU (rangeCheckBits_uniform _ _) fun _ =>
        carryLoop_coh nb w M cb (h :: t) _ _

theorem zeroLoop_coh {F : Type} [Field F] [DecidableEq F] : ∀ (rs : List (Row F)), Coh (zeroLoop rs) (zeroLoop rs) Eq
  | [] => Coh.pure rfl
  | r :: rs => by
    unfold zeroLoop
    exact Coh.bindU (Uniform.enforceEqConstant _ _) fun _ => zeroLoop_coh rs

theorem bnEqualCarried_coh (fp : CarryBits) (nb : Nat) (a b : BigNat (ZMod p)) : Coh (bnEqualCarried fp nb a b) (bnEqualCarried fp nb a b) Eq := by
  unfold bnEqualCarried
  split
  · exact (carryLoop_coh _ _ _ _ _ _ _).bindE fun _ => (zeroLoop_coh _).bindE fun _ => zeroLoop_coh _
  · exact Coh.fail _

theorem bnEqualRegroup_coh (fp : CarryBits) (nb : Nat) (a b : BigNat (ZMod p)) : Coh (bnEqualRegroup fp nb a b) (bnEqualRegroup fp nb a b) Eq := by
  unfold bnEqualRegroup
  dsimp only
  split
  · exact (bnGroup_coh _ _).bindE fun _ => (bnGroup_coh _ _).bindE fun _ => bnEqualCarried_coh _ _ _ _
  · exact Coh.fail _

theorem mulInner_coh {F : Type} [Field F] [DecidableEq F] (a : Row F) : ∀ (bs : List (Row F)) (k : Nat) (prod : List (Row F)),
    Coh (mulInner a k bs prod) (mulInner a k bs prod) Eq
  | [], _, _ => Coh.pure rfl
  | b :: bs, k, prod => by
    unfold mulInner
    exact Coh.bindU (Uniform.mul _ _) fun _ => mulInner_coh a bs _ _

theorem mulOuter_coh {F : Type} [Field F] [DecidableEq F] (bs : List (Row F)) : ∀ (as : List (Row F)) (k : Nat) (prod : List (Row F)),
    Coh (mulOuter bs k as prod) (mulOuter bs k as prod) Eq
  | [], _, _ => Coh.pure rfl
  | a :: as, k, prod => by
    unfold mulOuter
    exact (mulInner_coh _ _ _ _).bindE fun _ => mulOuter_coh bs as _ _

theorem evalRow_coh {F : Type} [Field F] [DecidableEq F] (x : F) : ∀ (cs : List (Row F)) (i : F) (acc : Row F),
    Coh (evalRow x cs i acc) (evalRow x cs i acc) Eq
  | [], _, _ => Coh.pure rfl
  | c :: cs, i, acc => by
    unfold evalRow
    exact Coh.bindU (Uniform.mul _ _) fun _ => evalRow_coh x cs _ _

theorem mulCheck_coh {F : Type} [Field F] [DecidableEq F] (as bs cs : List (Row F)) : ∀ (n : Nat) (x : F),
    Coh (mulCheck as bs cs n x) (mulCheck as bs cs n x) Eq
  | 0, _ => Coh.pure rfl
  | n + 1, x => by
    unfold mulCheck
    exact (evalRow_coh _ _ _ _).bindE fun _ => (evalRow_coh _ _ _ _).bindE fun _ => (evalRow_coh _ _ _ _).bindE fun _ =>
      Coh.bindU (Uniform.mul _ _) fun _ => Coh.bindU (Uniform.enforceEq _ _) fun _ => mulCheck_coh as bs cs n _

theorem polyMul_coh {F : Type} [Field F] [DecidableEq F] (as bs : List (Row F)) : Coh (polyMul as bs) (polyMul as bs) Eq := by
  unfold polyMul
  split
  · exact Coh.fail _
  · exact (mulOuter_coh _ _ _ _).bindE fun _ => (mulCheck_coh _ _ _ _ _).bindE fun _ => Coh.pure rfl

theorem bnMultMod_coh (fp : CarryBits) (nb : Nat) (a b m : BigNat (ZMod p)) : Coh (bnMultMod fp nb a b m) (bnMultMod fp nb a b m) Eq := by
  unfold bnMultMod bnWellFormed
  split
  · exact (bnValue_coh _).bind fun _ _ _ => (bnValue_coh _).bind fun _ _ _ => (bnValue_coh _).bind fun _ _ _ =>
      Coh.liftT fun _ _ => (bnWitness_coh _ _ _ _).bindE fun _ => (wellFormedLoop_coh _ _ _).bindE fun _ =>
      (bnWitness_coh _ _ _ _).bindE fun _ => (wellFormedLoop_coh _ _ _).bindE fun _ => (polyMul_coh _ _).bindE fun _ =>
      (polyMul_coh _ _).bindE fun _ => (bnEqualRegroup_coh _ _ _ _).bindE fun _ => Coh.pure rfl
  · exact Coh.fail _

theorem bnRedMod_coh (fp : CarryBits) (nb : Nat) (a m : BigNat (ZMod p)) : Coh (bnRedMod fp nb a m) (bnRedMod fp nb a m) Eq := by
  unfold bnRedMod bnWellFormed
  split
  · exact (bnValue_coh _).bind fun _ _ _ => (bnValue_coh _).bind fun _ _ _ =>
      Coh.liftT fun _ _ => (bnWitness_coh _ _ _ _).bindE fun _ => (wellFormedLoop_coh _ _ _).bindE fun _ =>
      (bnWitness_coh _ _ _ _).bindE fun _ => (wellFormedLoop_coh _ _ _).bindE fun _ =>
      (polyMul_coh _ _).bindE fun _ => (bnEqualRegroup_coh _ _ _ _).bindE fun _ => Coh.pure rfl
  · exact Coh.fail _

/-! ## transcript and instances -/

theorem mimcCirc_coh : ∀ (consts : List (ZMod q)) (xl xr : Row (ZMod q)), Coh (mimcCirc consts xl xr) (mimcCirc consts xl xr) Eq
  | [], _, _ => Coh.pure rfl
  | k :: consts, xl, xr => by
    unfold mimcCirc square
    exact Coh.bindU (Uniform.mul _ _) fun _ => Coh.bindU (Uniform.mul _ _) fun _ => Coh.bindU (Uniform.mul _ _) fun _ =>
      Coh.bindU (Uniform.mul _ _) fun _ => mimcCirc_coh consts _ _

theorem spongeCirc_coh (consts : List (ZMod q)) : ∀ (ss : List (Row (ZMod q))) (acc : Row (ZMod q)),
    Coh (spongeCirc consts ss acc) (spongeCirc consts ss acc) Eq
  | [], _ => Coh.pure rfl
  | s :: ss, acc => by
    unfold spongeCirc
    exact (mimcCirc_coh _ _ _).bindE fun _ => spongeCirc_coh consts ss _

theorem packLoop_coh : ∀ (bs : List Bin) (m v : Row (ZMod q)), Coh (packLoop bs m v) (packLoop bs m v) Eq
  | [], _, _ => Coh.pure rfl
  | b :: bs, m, v => by
    unfold packLoop
    exact Coh.bindU (Uniform.conditionalSelect _ _ _) fun _ => packLoop_coh bs _ _

theorem squeezeCirc_coh (nb : Nat) (consts : List (ZMod q)) (s : List (Row (ZMod q))) (n : Nat) :
    Coh (squeezeCirc nb consts s n) (squeezeCirc nb consts s n) Eq := by
  unfold squeezeCirc
  exact (spongeCirc_coh _ _ _).bindE fun _ => Coh.bindU (Uniform.toBits _ _ _) fun _ => packLoop_coh _ _ _

variable {G : Type} [AddCommGroup G] [Module (ZMod p) G] [DecidableEq G]

theorem witness_uniform (E : Env q G) (P P' : G) : Uniform (E.witness P) (E.witness P') := Uniform.ptWit _ _ _ _ _ _

theorem instWitness_coh (E : Env q G) (i i' : Inst (ZMod p) G) : Coh (instWitness E i) (instWitness E i') Eq := by
  unfold instWitness
  exact Coh.bindU (witness_uniform _ _ _) fun _ => Coh.liftT fun _ _ => Coh.bindU (Uniform.wit _ _) fun _ => Coh.liftT fun _ _ =>
    Coh.bindU (Uniform.wit _ _) fun _ => Coh.pure rfl

theorem rinstWitness_coh (E : Env q G) (i i' : RInst (ZMod p) G) : Coh (rinstWitness E i) (rinstWitness E i') Eq := by
  unfold rinstWitness
  exact Coh.bindU (witness_uniform _ _ _) fun _ => Coh.bindU (witness_uniform _ _ _) fun _ => Coh.bindU (Uniform.wit _ _) fun _ =>
    Coh.liftT fun _ _ => (bnWitness_coh _ _ _ _).bindE fun _ => Coh.liftT fun _ _ => (bnWitness_coh _ _ _ _).bindE fun _ => Coh.pure rfl

theorem rinstOfInst_coh (nb : Nat) (i : InstRow q) : Coh (rinstOfInst nb i) (rinstOfInst nb i) Eq := by
  unfold rinstOfInst
  exact (bnOfField_coh _ _ _ _).bindE fun _ => (bnOfField_coh _ _ _ _).bindE fun _ => Coh.pure rfl

theorem rinstSelect_coh (a b : RInstRow q) (s : Bin) : Coh (rinstSelect a b s) (rinstSelect a b s) Eq := by
  unfold rinstSelect
  exact Coh.bindU (Uniform.ptSelect _ _ _) fun _ => Coh.bindU (Uniform.ptSelect _ _ _) fun _ =>
    Coh.bindU (Uniform.conditionalSelect _ _ _) fun _ => (bnSelect_coh _ _ _).bindE fun _ => (bnSelect_coh _ _ _).bindE fun _ => Coh.pure rfl

theorem rinstAbsorb_coh (i : RInstRow q) : Coh (rinstAbsorb i) (rinstAbsorb i) Eq := by
  unfold rinstAbsorb
  exact Coh.bindU (Uniform.ptDescale _) fun _ => Coh.bindU (Uniform.ptDescale _) fun _ => Coh.pure rfl

theorem rinstHash_coh (nb : Nat) (consts : List (ZMod q)) (r : RInstRow q) (i : Row (ZMod q)) (z0 zi : List (Row (ZMod q))) :
    Coh (rinstHash nb consts r i z0 zi) (rinstHash nb consts r i z0 zi) Eq := by
  unfold rinstHash
  exact (rinstAbsorb_coh _).bindE fun _ => squeezeCirc_coh _ _ _ _

theorem challengeCirc_coh (nb : Nat) (consts : List (ZMod q)) (r : RInstRow q) (t : PointRow (ZMod q)) :
    Coh (challengeCirc nb consts r t) (challengeCirc nb consts r t) Eq := by
  unfold challengeCirc
  exact (rinstAbsorb_coh _).bindE fun _ => squeezeCirc_coh _ _ _ _

theorem foldX_coh (fp : CarryBits) (nb : Nat) (r m : BigNat (ZMod q)) (s : Row (ZMod q)) (a : BigNat (ZMod q)) :
    Coh (foldX fp nb r m s a) (foldX fp nb r m s a) Eq := by
  unfold foldX
  exact Coh.value _ _ fun _ _ => (bnWitness_coh _ _ _ _).bindE fun _ => (bnMultMod_coh _ _ _ _ _).bindE fun _ =>
    Coh.lift_self fun _ => bnRedMod_coh _ _ _ _

theorem nifsVerify_coh (fp : CarryBits) (nb : Nat) (b3 : ZMod q) (order : Nat) (r : Row (ZMod q)) (range : RInstRow q) (single : InstRow q)
    (t : PointRow (ZMod q)) : Coh (nifsVerify fp nb b3 order r range single t) (nifsVerify fp nb b3 order r range single t) Eq := by
  unfold nifsVerify
  exact Coh.bindU (Uniform.ptScalar _ _ _ _) fun _ => Coh.bindU (Uniform.ptAdd _ _ _) fun _ =>
    Coh.bindU (Uniform.ptScalar _ _ _ _) fun _ => Coh.bindU (Uniform.ptAdd _ _ _) fun _ => (bnOfField_coh _ _ _ _).bindE fun _ =>
    (bnWitness_coh _ _ _ _).bindE fun _ => Coh.value _ _ fun _ _ => Coh.value _ _ fun _ _ => Coh.bindU (Uniform.wit _ _) fun _ =>
    Coh.bindU (Uniform.enforceEqConstant _ _) fun _ => (foldX_coh _ _ _ _ _ _).bindE fun _ => (foldX_coh _ _ _ _ _ _).bindE fun _ =>
    Coh.pure rfl

theorem baseInst_coh (nb : Nat) (b : Bool) (d : RInstRow q) (s : InstRow q) : Coh (baseInst nb b d s) (baseInst nb b d s) Eq := by
  unfold baseInst
  split
  · exact Coh.pure rfl
  · exact rinstOfInst_coh _ _

/-- The function circuit's shape does not depend on the values its inputs carry. -/
def FnCircuit.Shaped (FC : FnCircuit (ZMod q)) : Prop := ∀ rows, Coh (FC.invokeCs rows) (FC.invokeCs rows) Eq

theorem generate_coh (D : Driver p q G) {FC : FnCircuit (ZMod q)} (hF : FC.Shaped) {A A' : Augmented p q G}
    (hp : A.isPrimary = A'.isPrimary) (h0 : A.z0.length = A'.z0.length)
    (hi : (A.zi.getD A.z0).length = (A'.zi.getD A'.z0).length) : Coh (A.generate D FC) (A'.generate D FC) Eq := by
  unfold Augmented.generate
  refine Coh.bindE ?_ fun o => Coh.bindU (Uniform.inputize _) fun _ => Coh.bindU (Uniform.inputize _) fun _ => Coh.pure rfl
  unfold Augmented.body
  rw [hp]
  exact Coh.bindU (Uniform.wit _ _) fun _ => (witList_coh h0).bindE fun _ => (witList_coh hi).bindE fun _ =>
    (rinstWitness_coh _ _ _).bindE fun _ => (instWitness_coh _ _ _).bindE fun _ => (rinstWitness_coh _ _ _).bindE fun _ =>
    Coh.bindU (witness_uniform _ _ _) fun _ => Coh.bindU (Uniform.isEq _ _) fun _ => Coh.bindU (Uniform.isNeq _ _) fun _ =>
    (baseInst_coh _ _ _ _).bindE fun _ => (rinstHash_coh _ _ _ _ _ _).bindE fun _ =>
    Coh.bindU (Uniform.conditionalEnforceEqual _ _ _) fun _ => (challengeCirc_coh _ _ _ _).bindE fun _ =>
    (nifsVerify_coh _ _ _ _ _ _ _ _).bindE fun _ => (rinstSelect_coh _ _ _).bindE fun _ => (hF _).bindE fun _ =>
    (rinstHash_coh _ _ _ _ _ _).bindE fun _ => Coh.pure rfl

end Nova

end Kogarashi
