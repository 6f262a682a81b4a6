import Verif.R1cs.Run
import Verif.R1cs.Point
import Verif.Nova.Circuit
import Verif.Props.R1cs

/-! # C126: what a gadget costs -/

namespace Kogarashi.Props

open Kogarashi Spec Circ

set_option linter.unusedSectionVars false

variable {F : Type} [Field F] [DecidableEq F] {α β : Type}

/-- Every call that returns has added at most `a` witnesses and at most `b` constraints; what it returns has the property `Q`. -/
def CostQ (a b : Nat) (Q : α → Prop) (g : Circ F α) : Prop := ∀ cs r cs', g cs = some (r, cs') →
  cs'.w.length ≤ cs.w.length + a ∧ cs'.cons.length ≤ cs.cons.length + b ∧ Q r

/-- Every call that returns has added at most `a` witnesses and at most `b` constraints, whatever its arguments and the state. -/
def Cost (a b : Nat) (g : Circ F α) : Prop := ∀ cs r cs', g cs = some (r, cs') → cs'.w.length ≤ cs.w.length + a ∧ cs'.cons.length ≤ cs.cons.length + b

theorem Cost.q {a b : Nat} {g : Circ F α} (h : Cost a b g) : CostQ a b (fun _ => True) g := fun cs r cs' e => ⟨(h cs r cs' e).1, (h cs r cs' e).2, trivial⟩

theorem Cost.weaken {a b a' b' : Nat} {g : Circ F α} (h : Cost a b g) (ha : a ≤ a') (hb : b ≤ b') : Cost a' b' g := fun cs r cs' e =>
  ⟨(h cs r cs' e).1.trans (by omega), (h cs r cs' e).2.trans (by omega)⟩

theorem CostQ.bind {a b a' b' : Nat} {Q : α → Prop} {g : Circ F α} {f : α → Circ F β} (hg : CostQ a b Q g) (hf : ∀ r, Q r → Cost a' b' (f r)) :
    Cost (a + a') (b + b') (g >>= f) := by
  intro cs r cs' h
  have h : (g cs).bind (fun r => f r.1 r.2) = some (r, cs') := h
  obtain ⟨⟨s, c⟩, e1, e2⟩ := Option.bind_eq_some_iff.1 h
  obtain ⟨w1, c1, q⟩ := hg _ _ _ e1
  obtain ⟨w2, c2⟩ := hf _ q _ _ _ e2
  simp only at *
  exact ⟨by omega, by omega⟩

theorem CostQ.bindQ {a b a' b' : Nat} {Q : α → Prop} {R : β → Prop} {g : Circ F α} {f : α → Circ F β} (hg : CostQ a b Q g)
    (hf : ∀ r, Q r → CostQ a' b' R (f r)) : CostQ (a + a') (b + b') R (g >>= f) := by
  intro cs r cs' h
  have h : (g cs).bind (fun r => f r.1 r.2) = some (r, cs') := h
  obtain ⟨⟨s, c⟩, e1, e2⟩ := Option.bind_eq_some_iff.1 h
  obtain ⟨w1, c1, q⟩ := hg _ _ _ e1
  obtain ⟨w2, c2, q2⟩ := hf _ q _ _ _ e2
  simp only at *
  exact ⟨by omega, by omega, q2⟩

theorem CostQ.pure {Q : α → Prop} {r : α} (h : Q r) : CostQ 0 0 Q (Pure.pure r : Circ F α) := by
  intro cs s cs' e
  have e : some (r, cs) = some (s, cs') := e
  injection e with e
  injection e with e1 e2
  subst e1 e2
  exact ⟨le_refl _, le_refl _, h⟩

theorem CostQ.weaken {a b a' b' : Nat} {Q : α → Prop} {g : Circ F α} (h : CostQ a b Q g) (ha : a ≤ a') (hb : b ≤ b') : CostQ a' b' Q g := fun cs r cs' e =>
  ⟨(h cs r cs' e).1.trans (by omega), (h cs r cs' e).2.1.trans (by omega), (h cs r cs' e).2.2⟩

theorem Cost.bind {a b a' b' : Nat} {g : Circ F α} {f : α → Circ F β} (hg : Cost a b g) (hf : ∀ r, Cost a' b' (f r)) :
    Cost (a + a') (b + b') (g >>= f) := hg.q.bind fun r _ => hf r

theorem Cost.step {a b : Nat} {v : CS F → α} {s : CS F → CS F} (h : ∀ cs, (s cs).w.length ≤ cs.w.length + a ∧ (s cs).cons.length ≤ cs.cons.length + b) :
    Cost a b (fun cs => some (v cs, s cs) : Circ F α) := by
  intro cs r cs' e
  injection e with e
  injection e with e1 e2
  subst e2
  exact h cs

theorem Cost.pure (r : α) : Cost 0 0 (Pure.pure r : Circ F α) := Cost.step (v := fun _ => r) (s := id) fun _ => ⟨le_refl _, le_refl _⟩

theorem Cost.failure {a b : Nat} : Cost a b (Alternative.failure : Circ F α) := by
  intro cs r cs' h
  have h : (none : Option (α × CS F)) = some (r, cs') := h
  simp at h

theorem Cost.reads {o : CS F → Option α} : Cost 0 0 (fun cs => (o cs).map (fun a => (a, cs)) : Circ F α) := by
  intro cs r cs' h
  obtain ⟨a, -, e⟩ := Option.map_eq_some_iff.1 h
  injection e with h1 h2
  subst h2
  exact ⟨le_refl _, le_refl _⟩

theorem Cost.bindLe {a b A B : Nat} {g : Circ F α} {f : α → Circ F β} (hg : Cost a b g) (ha : a ≤ A) (hb : b ≤ B) (hf : ∀ r, Cost (A - a) (B - b) (f r)) :
    Cost A B (g >>= f) := (hg.bind hf).weaken (by omega) (by omega)

/-- Walks through circuit code with the given costs of its calls. -/
syntax "cst" "[" term,* "]" : tactic
macro_rules
  | `(tactic| cst [$ts,*]) => `(tactic|
      repeat' with_reducible (first
        | omega
        | exact Cost.failure
        | refine Cost.weaken (Cost.pure _) ?_ ?_
        $[| refine Cost.bindLe $ts ?_ ?_ (fun _ => ?_)]*
        $[| refine Cost.weaken $ts ?_ ?_]*
        | dsimp only
        | split))

theorem cost_value (x : Row F) : Cost 0 0 (Circ.value x) := Cost.reads (o := fun cs => x.evaluate cs.x cs.w)
theorem cost_read (b : Wire) : Cost 0 0 (Circ.read b : Circ F F) := Cost.reads (o := fun cs => cs.get b)
theorem cost_wit (v : F) : Cost 1 0 (Circ.wit v) := Cost.step fun cs => by simp
theorem cost_witWire (v : F) : Cost 1 0 (Circ.witWire v) := Cost.step fun cs => by simp
theorem cost_binWit (n : Nat) : Cost 1 0 (Circ.binWit n : Circ F Bin) := Cost.step fun cs => by simp
theorem cost_mulGate (x y z : Row F) : Cost 0 1 (Circ.mulGate x y z) := Cost.step fun cs => by simp [CS.mulGate, CS.append]
theorem cost_addGate (x y z : Row F) : Cost 0 1 (Circ.addGate x y z) := Cost.step fun cs => by simp [CS.addGate, CS.append]
theorem cost_enforceEq (x y : Row F) : Cost 0 1 (Circ.enforceEq x y) := cost_mulGate _ _ _
theorem cost_enforceEqConstant (x : Row F) (c : F) : Cost 0 1 (Circ.enforceEqConstant x c) := cost_mulGate _ _ _

theorem cost_mul (x y : Row F) : Cost 1 1 (Circ.mul x y) := by
  unfold Circ.mul; cst [cost_value _, cost_wit _, cost_mulGate _ _ _]

theorem cost_add' (x y : Row F) : Cost 1 1 (Circ.add x y) := by
  unfold Circ.add; cst [cost_value _, cost_wit _, cost_addGate _ _ _]

/-- Multiplication by a constant is free. -/
theorem cost_mul_const (x : Row F) (c : F) : Cost 0 0 (Circ.mul x (const c)) := by
  unfold Circ.mul
  split
  · exact Cost.pure _
  · exact Cost.pure _

theorem cost_const_mul (c : F) (x : Row F) : Cost 0 0 (Circ.mul (const c) x) := Cost.pure _

theorem cost_weightedSum : ∀ (bs : List Bin) (f : F) (acc : Row F), Cost 0 0 (Circ.weightedSum bs f acc)
  | [], _, _ => by unfold Circ.weightedSum; cst []
  | _ :: bs, _, _ => by unfold Circ.weightedSum; cst [cost_const_mul _ _, cost_weightedSum bs _ _]

theorem cost_enforceEqBits (x : Row F) (bs : List Bin) : Cost 0 1 (Circ.enforceEqBits x bs) := by
  unfold Circ.enforceEqBits; cst [cost_weightedSum _ _ _, cost_enforceEq _ _]
theorem cost_conditionalEnforceEqual (x y : Row F) (s : Bin) : Cost 1 2 (Circ.conditionalEnforceEqual x y s) := by
  unfold Circ.conditionalEnforceEqual; cst [cost_mul _ _, cost_enforceEqConstant _ _]
theorem cost_conditionalSelect (x y : Row F) (s : Bin) : Cost 2 2 (Circ.conditionalSelect x y s) := by
  unfold Circ.conditionalSelect; cst [cost_mul _ _]
theorem cost_not (b : Bin) : Cost 1 0 (Circ.not b : Circ F Bin) := by unfold Circ.not; cst [cost_read _, cost_witWire _]
theorem cost_and (a b : Bin) : Cost 1 0 (Circ.and a b : Circ F Bin) := by unfold Circ.and; cst [cost_read _, cost_witWire _]
theorem cost_isNeq (x y : Row F) : Cost 5 4 (Circ.isNeq x y) := by
  unfold Circ.isNeq; cst [cost_value _, cost_binWit _, cost_wit _, cost_mul _ _, cost_enforceEq _ _, cost_not _]
theorem cost_isEq (x y : Row F) : Cost 6 4 (Circ.isEq x y) := by unfold Circ.isEq; cst [cost_isNeq _ _, cost_not _]

theorem cost_ptSelectIdentity (P : PointRow F) (b : Bin) : Cost 3 3 (Circ.ptSelectIdentity P b) := by
  unfold Circ.ptSelectIdentity; cst [cost_mul _ _]
theorem cost_ptAdd (b3 : F) (P Q : PointRow F) : Cost 12 12 (Circ.ptAdd b3 P Q) := by
  unfold Circ.ptAdd; cst [cost_mul_const _ _, cost_mul _ _]
set_option maxHeartbeats 1000000 in
theorem cost_ptDouble (b3 : F) (P : PointRow F) : Cost 8 8 (Circ.ptDouble b3 P) := by
  unfold Circ.ptDouble
  cst [cost_mul_const _ _, cost_mul _ _]
theorem cost_ptDescale (P : PointRow F) : Cost 11 9 (Circ.ptDescale P) := by
  unfold Circ.ptDescale; cst [cost_isNeq _ _, cost_value _, cost_wit _, cost_mul _ _, cost_ptSelectIdentity _ _]
theorem cost_ptScalarLoop (b3 : F) (P : PointRow F) : ∀ (bs : List Bin) (res : PointRow F),
    Cost (23 * bs.length) (23 * bs.length) (Circ.ptScalarLoop b3 P bs res)
  | [], _ => by unfold Circ.ptScalarLoop; cst []
  | _ :: bs, _ => by
    unfold Circ.ptScalarLoop
    rw [List.length_cons]
    cst [cost_ptDouble _ _, cost_ptSelectIdentity _ _, cost_ptAdd _ _ _, cost_ptScalarLoop b3 P bs _]

section
variable {p : Nat} [Fact p.Prime]

theorem cost_enforceZeros : ∀ bs : List Bin, Cost 0 bs.length (Circ.enforceZeros (p := p) bs)
  | [] => Cost.pure _
  | _ :: bs => ((cost_enforceEqConstant _ _).bind fun _ => cost_enforceZeros bs).weaken (by omega) (by simp only [List.length_cons]; omega)

theorem cost_runs : ∀ (l : List (Bin × Nat)) (ps : List (Row (ZMod p))) (last : Row (ZMod p)), Cost l.length l.length (Circ.runs l ps last)
  | [], _, _ => Cost.pure _
  | (a, c) :: l, ps, last => by
    unfold Circ.runs
    split
    · rw [List.length_cons]; cst [cost_mul _ _, cost_runs l _ _]
    · exact (cost_runs l _ _).weaken (by simp) (by simp)

theorem cost_boolOne (ps : List (Row (ZMod p))) (i : Nat) (a : Bin) (c : Nat) : Cost 1 2 (Circ.boolOne ps i a c) := by
  unfold Circ.boolOne; cst [cost_mul _ _, cost_enforceEq _ _]

theorem cost_boolLoop (ps : List (Row (ZMod p))) : ∀ (i : Nat) (l : List (Bin × Nat)), Cost l.length (2 * l.length) (Circ.boolLoop ps i l)
  | _, [] => Cost.pure _
  | i, (_, _) :: l => ((cost_boolOne _ _ _ _).bind fun _ => cost_boolLoop ps (i + 1) l).weaken (by simp only [List.length_cons]; omega)
      (by simp only [List.length_cons]; omega)

theorem cost_rangeCheck (bs : List Bin) (c : ZMod p) : Cost (2 * bs.length) (3 * bs.length) (Circ.rangeCheck bs c) := by
  unfold Circ.rangeCheck
  dsimp only
  split
  · exact (Cost.pure _).weaken (by omega) (by omega)
  · rename_i hlt
    generalize hc : (bits256 c.val).dropWhile (· = 0) = cb at hlt ⊢
    have hz : (bs.take (bs.length - cb.length)).length = bs.length - cb.length := by rw [List.length_take]; omega
    have hd : (bs.drop (bs.length - cb.length)).length = cb.length := by rw [List.length_drop]; omega
    refine ((cost_enforceZeros _).bind (a' := 2 * cb.length) (b' := 3 * cb.length) fun _ => ?_).weaken (by omega) (by omega)
    generalize bs.drop (bs.length - cb.length) = as at hd ⊢
    split
    · exact Cost.failure
    · rename_i a0 tl
      have hl : ∀ k, (((a0 :: tl).drop 1).zip ((cb.drop 1).take k)).length ≤ cb.length := fun k => by
        rw [List.length_zip, List.length_drop]; omega
      have hm : ((a0 :: tl).zip cb).length ≤ cb.length := by rw [List.length_zip]; omega
      refine ((cost_runs _ _ _).weaken (hl _) (hl _)).bind (a' := cb.length) (b' := 2 * cb.length) (fun _ => ?_) |>.weaken (by omega) (by omega)
      exact (cost_boolLoop _ _ _).weaken hm (by omega)

theorem cost_rangeCheckBits (bs : List Bin) (n : Nat) : Cost (2 * bs.length) (3 * bs.length) (Circ.rangeCheckBits (p := p) bs n) := cost_rangeCheck _ _

theorem cost_binWits : ∀ l : List Nat, CostQ l.length 0 (fun r => r.length = l.length) (Circ.binWits (p := p) l)
  | [] => fun cs r cs' h => by
    have h : some ([], cs) = some (r, cs') := h
    obtain ⟨rfl, rfl⟩ := Prod.mk.inj (Option.some.inj h)
    exact ⟨le_refl _, le_refl _, rfl⟩
  | b :: l => fun cs r cs' h => by
    have h : (Circ.binWits l { cs with w := cs.w ++ [((b : Nat) : ZMod p)] }).bind (fun s => some (Wire.wit cs.w.length :: s.1, s.2)) = some (r, cs') := h
    obtain ⟨⟨s, c⟩, e1, e2⟩ := Option.bind_eq_some_iff.1 h
    obtain ⟨w, k, q⟩ := cost_binWits l _ _ _ e1
    obtain ⟨rfl, rfl⟩ := Prod.mk.inj (Option.some.inj e2)
    simp only [List.length_append, List.length_cons, List.length_nil] at *
    exact ⟨by omega, by omega, by omega⟩

theorem cost_toBits (nb : Nat) (x : Row (ZMod p)) (n : Nat) : CostQ (256 + 2 * n) (3 * n) (fun r => r.length = n) (Circ.toBits nb x n) := by
  unfold Circ.toBits
  with_reducible split
  · intro cs r cs' h
    exact absurd h (by rintro h; have h : (none : Option (List Bin × CS (ZMod p))) = some (r, cs') := h; simp at h)
  · rename_i hn
    refine CostQ.weaken (a := 0 + (256 + 2 * n)) (b := 0 + (0 + 3 * n)) ?_ (by omega) (by omega)
    with_reducible refine CostQ.bindQ (cost_value x).q (fun v _ => ?_)
    have hb : (bits256 v.val).length = 256 := by simp [bits256]
    have hw := cost_binWits (p := p) (bits256 v.val)
    rw [hb] at hw
    with_reducible refine CostQ.bindQ hw (fun bs hbs => ?_)
    have hl : (bs.drop (256 - n)).length = n := by rw [List.length_drop]; omega
    dsimp only
    generalize bs.drop (256 - n) = d at hl ⊢
    have h3 : Cost (2 * n) (3 * n) (if n < nb then Circ.rangeCheckBits d n else Circ.rangeCheck d (-1) : Circ (ZMod p) Unit) := by
      with_reducible split
      · rw [← hl]; exact cost_rangeCheckBits _ _
      · rw [← hl]; exact cost_rangeCheck _ _
    refine CostQ.weaken (a := 2 * n + 0) (b := 3 * n + 0) ?_ (by omega) (by omega)
    with_reducible refine CostQ.bindQ h3.q (fun _ _ => CostQ.pure hl)

/-- Scalar multiplication: 256 bits, each with a doubling, a selection and an addition. -/
theorem cost_ptScalar (nb : Nat) (b3 : ZMod p) (P : PointRow (ZMod p)) (s : Row (ZMod p)) : Cost 6656 6656 (Circ.ptScalar nb b3 P s) := by
  unfold Circ.ptScalar
  refine Cost.weaken (a := 256 + 2 * 256 + 23 * 256) (b := 3 * 256 + 23 * 256) ?_ (by norm_num) (by norm_num)
  with_reducible refine CostQ.bind (cost_toBits nb s 256) (fun bs hbs => ?_)
  rw [← hbs]
  exact cost_ptScalarLoop b3 P bs Circ.ptIdentity

/-- C126: what the bit gadgets cost, by the number of bits. -/
theorem C126_bits (nb : Nat) (x : Row (ZMod p)) (n : Nat) (bs : List Bin) (c : ZMod p) :
    Cost (256 + 2 * n) (3 * n) (Circ.toBits nb x n) ∧ Cost (2 * bs.length) (3 * bs.length) (Circ.rangeCheck bs c) ∧
      Cost (2 * bs.length) (3 * bs.length) (Circ.rangeCheckBits (p := p) bs n) :=
  ⟨fun cs r cs' h => ⟨(cost_toBits nb x n cs r cs' h).1, (cost_toBits nb x n cs r cs' h).2.1⟩, cost_rangeCheck _ _, cost_rangeCheckBits _ _⟩

/-- C126: a scalar multiplication costs at most 6656 witnesses and as many constraints, whatever the point and the scalar. -/
theorem C126_scalar (nb : Nat) (b3 : ZMod p) (P : PointRow (ZMod p)) (s : Row (ZMod p)) : Cost 6656 6656 (Circ.ptScalar nb b3 P s) :=
  cost_ptScalar nb b3 P s

end

/-- C126: what the field gadgets cost. -/
theorem C126_field (x y : Row F) (s : Bin) (bs : List Bin) (c : F) :
    Cost 1 1 (Circ.mul x y) ∧ Cost 1 1 (Circ.add x y) ∧ Cost 0 0 (Circ.mul x (const c)) ∧ Cost 0 0 (Circ.mul (const c) x) ∧
      Cost 0 1 (Circ.enforceEq x y) ∧ Cost 0 1 (Circ.enforceEqBits x bs) ∧ Cost 1 2 (Circ.conditionalEnforceEqual x y s) ∧
      Cost 2 2 (Circ.conditionalSelect x y s) ∧ Cost 5 4 (Circ.isNeq x y) ∧ Cost 6 4 (Circ.isEq x y) :=
  ⟨cost_mul _ _, cost_add' _ _, cost_mul_const _ _, cost_const_mul _ _, cost_enforceEq _ _, cost_enforceEqBits _ _,
    cost_conditionalEnforceEqual _ _ _, cost_conditionalSelect _ _ _, cost_isNeq _ _, cost_isEq _ _⟩

/-- C126: what the point gadgets cost. -/
theorem C126_points (b3 : F) (P Q : PointRow F) (b : Bin) :
    Cost 12 12 (Circ.ptAdd b3 P Q) ∧ Cost 8 8 (Circ.ptDouble b3 P) ∧ Cost 3 3 (Circ.ptSelectIdentity P b) ∧ Cost 11 9 (Circ.ptDescale P) :=
  ⟨cost_ptAdd _ _ _, cost_ptDouble _ _, cost_ptSelectIdentity _ _, cost_ptDescale _⟩

/-- C126: costs add up along a sequence of calls. -/
theorem C126_compose {a b a' b' : Nat} {g : Circ F α} {f : α → Circ F β} (hg : Cost a b g) (hf : ∀ r, Cost a' b' (f r)) :
    Cost (a + a') (b + b') (g >>= f) := hg.bind hf

/-- Two wires of different value. -/
def twoWires : CS (ZMod 13) := ⟨[1], [3, 5], []⟩

/-- The bounds are attained: these calls return and add exactly as much. -/
example : (Circ.isNeq (Row.ofWire (.wit 0)) (Row.ofWire (.wit 1)) twoWires).map (fun r => (r.2.w.length, r.2.cons.length)) = some (2 + 5, 4) := by
  decide +kernel
example : (Circ.ptAdd 9 ⟨Row.ofWire (.wit 0), Row.ofWire (.wit 1), Row.ofWire (.wit 0)⟩ ⟨Row.ofWire (.wit 1), Row.ofWire (.wit 1), Row.ofWire (.wit 0)⟩
    twoWires).map (fun r => (r.2.w.length, r.2.cons.length)) = some (2 + 12, 12) := by
  decide +kernel
example : (Circ.ptDouble 9 ⟨Row.ofWire (.wit 0), Row.ofWire (.wit 1), Row.ofWire (.wit 0)⟩
    twoWires).map (fun r => (r.2.w.length, r.2.cons.length)) = some (2 + 8, 8) := by
  decide +kernel

/-- A smaller bound fails: `mul` is not free. -/
example : ¬ Cost 0 0 (Circ.mul (Row.ofWire (.wit 0)) (Row.ofWire (.wit 1)) : Circ (ZMod 13) _) := fun h => by
  have := (h twoWires _ ⟨[1], [3, 5, 15], [⟨Row.ofWire (.wit 0), Row.ofWire (.wit 1), Row.ofWire (.wit 2)⟩]⟩ rfl).2
  simp [twoWires] at this

end Kogarashi.Props
