import Verif.Nova.NoInst
import Verif.R1cs.Bits

/-!
# Bounds on the constraints a gadget emits

`Few k g`: from every state, `g` emits at most `k` constraints and forgets no wire.
-/

namespace Kogarashi

open Spec Circ

/-- The program emits at most `k` constraints and keeps the wires. -/
def Few {F : Type} [Field F] [DecidableEq F] {α : Type} (k : Nat) (g : Circ F α) : Prop :=
  ∀ c a c', g c = some (a, c') → c'.cons.length ≤ c.cons.length + k ∧ c.w.length ≤ c'.w.length

namespace Few

section
variable {F : Type} [Field F] [DecidableEq F] {α β : Type}

theorem mono {k j : Nat} {g : Circ F α} (h : Few k g) (hj : k ≤ j) : Few j g := by
  intro c a c' e
  have := h c a c' e
  omega

theorem pure (a : α) : Few 0 (Pure.pure a : Circ F α) := by
  intro c a1 c' h
  have h' : some (a, c) = some (a1, c') := h
  cases h'; exact ⟨le_rfl, le_rfl⟩

theorem fail : Few 0 (Alternative.failure : Circ F α) := by
  intro c a1 c' h
  have h' : none = some (a1, c') := h
  simp at h'

theorem bindP {k j : Nat} {g : Circ F α} {f : α → Circ F β} (P : α → Prop) (hg : Few k g)
    (hp : ∀ c a c', g c = some (a, c') → P a) (hf : ∀ a, P a → Few j (f a)) : Few (k + j) (g >>= f) := by
  intro c a1 c' h
  cases e : g c with
  | none => rw [bind_none e] at h; simp at h
  | some v =>
    obtain ⟨x, d⟩ := v
    rw [bind_eq e] at h
    have h1 := hf x (hp _ _ _ e) _ _ _ h
    have h2 := hg _ _ _ e
    omega

theorem bind {k j : Nat} {g : Circ F α} {f : α → Circ F β} (hg : Few k g) (hf : ∀ a, Few j (f a)) : Few (k + j) (g >>= f) :=
  hg.bindP (fun _ => True) (fun _ _ _ _ => trivial) fun a _ => hf a

theorem value (r : Row F) : Few 0 (Circ.value r) := by
  intro c a c' h
  have e : (r.evaluate c.x c.w).map (fun v => (v, c)) = some (a, c') := h
  simp only [Option.map_eq_some_iff, Prod.mk.injEq] at e
  obtain ⟨_, _, _, rfl⟩ := e; exact ⟨le_rfl, le_rfl⟩

theorem read (b : Wire) : Few 0 (Circ.read b : Circ F F) := by
  intro c a c' h
  have e : (c.get b).map (fun v => (v, c)) = some (a, c') := h
  simp only [Option.map_eq_some_iff, Prod.mk.injEq] at e
  obtain ⟨_, _, _, rfl⟩ := e; exact ⟨le_rfl, le_rfl⟩

theorem wit (v : F) : Few 0 (Circ.wit v) := by
  intro c a c' h
  have h' : some _ = some (a, c') := h
  cases h'; simp
theorem witWire (v : F) : Few 0 (Circ.witWire v) := by
  intro c a c' h
  have h' : some _ = some (a, c') := h
  cases h'; simp
theorem binWit (v : Nat) : Few 0 (Circ.binWit v : Circ F Bin) := by
  intro c a c' h
  have h' : some _ = some (a, c') := h
  cases h'; simp
theorem mulGate (x y z : Row F) : Few 1 (Circ.mulGate x y z) := by
  intro c a c' h
  have h' : some _ = some (a, c') := h
  cases h'; simp [CS.mulGate, CS.append]
theorem enforceEq (x y : Row F) : Few 1 (Circ.enforceEq x y) := mulGate _ _ _
theorem enforceEqConstant (x : Row F) (v : F) : Few 1 (Circ.enforceEqConstant x v) := mulGate _ _ _

theorem mul (x y : Row F) : Few 1 (Circ.mul x y) := by
  unfold Circ.mul
  split
  · exact (pure _).mono (by omega)
  · split
    · exact (pure _).mono (by omega)
    · exact ((value _).bind fun _ => (value _).bind fun _ => (wit _).bind fun _ => (mulGate _ _ _).bind fun _ => pure _).mono (by omega)

theorem square (x : Row F) : Few 1 (Circ.square x) := mul _ _
theorem conditionalSelect (a b : Row F) (s : Bin) : Few 2 (Circ.conditionalSelect a b s) :=
  ((mul _ _).bind fun _ => (mul _ _).bind fun _ => pure _).mono (by omega)
theorem not (b : Bin) : Few 0 (Circ.not b : Circ F Bin) := ((read _).bind fun _ => witWire _).mono (by omega)
theorem isNeq (x y : Row F) : Few 4 (Circ.isNeq x y) :=
  ((value _).bind fun _ => (value _).bind fun _ => (binWit _).bind fun _ => (wit _).bind fun _ => (mul _ _).bind fun _ =>
    (enforceEq _ _).bind fun _ => (not _).bind fun _ => (mul _ _).bind fun _ => (enforceEq _ _).bind fun _ => pure _).mono (by omega)
theorem ptSelectIdentity (p : PointRow F) (b : Bin) : Few 3 (Circ.ptSelectIdentity p b) :=
  ((mul _ _).bind fun _ => (mul _ _).bind fun _ => (mul _ _).bind fun _ => pure _).mono (by omega)
theorem ptDescale (p : PointRow F) : Few 9 (Circ.ptDescale p) :=
  ((isNeq _ _).bind fun _ => (value _).bind fun _ => (wit _).bind fun _ => (mul _ _).bind fun _ =>
    (mul _ _).bind fun _ => ptSelectIdentity _ _).mono (by omega)
theorem inputize (r : Row F) : Few 0 (Circ.inputize r) := by
  unfold Circ.inputize
  refine ((value _).bind (j := 0) fun v => ?_).mono (by omega)
  intro c a c' h
  have h' : some _ = some (a, c') := h
  cases h'; simp

end

section
variable {p : Nat} [Fact p.Prime]

theorem enforceZeros : ∀ (bs : List Bin), Few bs.length (Circ.enforceZeros bs : Circ (ZMod p) Unit)
  | [] => pure _
  | b :: bs => ((enforceEqConstant _ _).bind fun _ => enforceZeros bs).mono (by simp; omega)
theorem runs : ∀ (l : List (Bin × Nat)) (ps : List (Row (ZMod p))) (last : Row (ZMod p)), Few l.length (Circ.runs l ps last)
  | [], _, _ => by unfold Circ.runs; exact pure _
  | (a, c) :: l, ps, last => by
    unfold Circ.runs
    split
    · exact ((mul _ _).bind fun _ => runs l _ _).mono (by simp; omega)
    · exact (runs l _ _).mono (by simp)
theorem boolOne (ps : List (Row (ZMod p))) (i : Nat) (a : Bin) (c : Nat) : Few 2 (Circ.boolOne ps i a c) := by
  unfold Circ.boolOne
  split
  · exact (mul _ _).bind fun _ => enforceEq _ _
  · split
    · split
      · exact fail.mono (by omega)
      · split
        · exact fail.mono (by omega)
        · exact (mul _ _).bind fun _ => enforceEq _ _
    · exact (pure _).mono (by omega)
theorem boolLoop (ps : List (Row (ZMod p))) : ∀ (l : List (Bin × Nat)) (i : Nat), Few (2 * l.length) (Circ.boolLoop ps i l)
  | [], _ => by unfold Circ.boolLoop; exact pure _
  | (a, c) :: l, i => ((boolOne _ _ _ _).bind fun _ => boolLoop ps l _).mono (by simp; omega)
theorem rangeCheck (bs : List Bin) (c : ZMod p) : Few (4 * bs.length) (Circ.rangeCheck bs c) := by
  unfold Circ.rangeCheck
  dsimp only
  split
  · exact (pure _).mono (by omega)
  · refine ((enforceZeros _).bind (j := 3 * bs.length) fun _ => ?_).mono (by rw [List.length_take]; omega)
    split
    · exact fail.mono (by omega)
    · rename_i a0 l e
      have hl : (a0 :: l).length ≤ bs.length := by rw [← e, List.length_drop]; omega
      rw [e]
      refine ((runs _ _ _).bind fun _ => boolLoop _ _ _).mono ?_
      rw [List.length_zip, List.length_zip, List.length_drop]
      omega
theorem rangeCheckBits (bs : List Bin) (n : Nat) : Few (4 * bs.length) (Circ.rangeCheckBits bs n : Circ (ZMod p) Unit) := rangeCheck _ _
theorem binWits : ∀ (l : List Nat), Few 0 (Circ.binWits l : Circ (ZMod p) (List Bin))
  | [] => pure _
  | b :: l => ((binWit _).bind fun _ => (binWits l).bind fun _ => pure _).mono (by omega)
theorem binWits_length : ∀ (l : List Nat) {c c' : CS (ZMod p)} {bs : List Bin}, Circ.binWits l c = some (bs, c') → bs.length = l.length
  | [], c, c', bs, h => by
    have h' : some ([], c) = some (bs, c') := h
    cases h'; rfl
  | b :: l, c, c', bs, h => by
    unfold Circ.binWits at h
    rw [bind_eq (a := Wire.wit c.w.length) (c1 := { c with w := c.w ++ [(b : ZMod p)] }) rfl] at h
    cases e : (Circ.binWits l : Circ (ZMod p) _) { c with w := c.w ++ [(b : ZMod p)] } with
    | none => rw [bind_none e] at h; simp at h
    | some v =>
      obtain ⟨x, d⟩ := v
      rw [bind_eq e] at h
      have h' : some (_ :: x, d) = some (bs, c') := h
      cases h'
      rw [List.length_cons, List.length_cons, binWits_length l e]
theorem toBits (nb : Nat) (x : Row (ZMod p)) (n : Nat) : Few 1024 (Circ.toBits nb x n) := by
  unfold Circ.toBits
  split
  · exact fail.mono (by omega)
  · refine ((value _).bind fun v => (binWits _).bindP (j := 1024) (fun bs => bs.length = 256)
      (fun _ _ _ e => by rw [binWits_length _ e, bits256_length]) fun bs hb => ?_).mono (by omega)
    dsimp only
    have hl : (bs.drop (256 - n)).length ≤ 256 := by rw [List.length_drop]; omega
    split
    · exact ((rangeCheckBits _ _).bind fun _ => pure _).mono (by omega)
    · exact ((rangeCheck _ _).bind fun _ => pure _).mono (by omega)

open Nova

theorem mimcCirc : ∀ (consts : List (ZMod p)) (xl xr : Row (ZMod p)), Few (4 * consts.length) (Nova.mimcCirc consts xl xr)
  | [], _, _ => pure _
  | k :: consts, xl, xr => by
    unfold Nova.mimcCirc
    exact ((square _).bind fun _ => (square _).bind fun _ => (mul _ _).bind fun _ => (mul _ _).bind fun _ => mimcCirc consts _ _).mono
      (by simp; omega)
theorem spongeCirc (consts : List (ZMod p)) : ∀ (ss : List (Row (ZMod p))) (acc : Row (ZMod p)),
    Few (4 * consts.length * ss.length) (Nova.spongeCirc consts ss acc)
  | [], _ => pure _
  | s :: ss, _ => ((mimcCirc _ _ _).bind fun _ => spongeCirc consts ss _).mono (by rw [List.length_cons, Nat.mul_succ]; omega)
theorem packLoop : ∀ (bs : List Bin) (m v : Row (ZMod p)), Few (2 * bs.length) (Nova.packLoop bs m v)
  | [], _, _ => pure _
  | b :: bs, _, _ => ((conditionalSelect _ _ _).bind fun _ => packLoop bs _ _).mono (by simp; omega)
theorem squeezeCirc (nb : Nat) (consts : List (ZMod p)) (s : List (Row (ZMod p))) (n : Nat) :
    Few (4 * consts.length * s.length + (1024 + 2 * n)) (Nova.squeezeCirc nb consts s n) := by
  refine (spongeCirc _ _ _).bind fun _ => (toBits _ _ _).bind fun bs => (packLoop _ _ _).mono ?_
  rw [List.length_take]
  omega

theorem rinstAbsorb (r : RInstRow p) : Few 18 (Nova.rinstAbsorb r) :=
  ((ptDescale _).bind fun _ => (ptDescale _).bind fun _ => pure _).mono (by omega)
theorem rinstAbsorb_length {r : RInstRow p} {c c' : CS (ZMod p)} {a : List (Row (ZMod p))} (h : Nova.rinstAbsorb r c = some (a, c')) :
    a.length = 7 + r.x0.limbs.length + r.x1.limbs.length := by
  unfold Nova.rinstAbsorb at h
  cases e : Circ.ptDescale r.commitE c with
  | none => rw [bind_none e] at h; simp at h
  | some v =>
    obtain ⟨x, d⟩ := v
    rw [bind_eq e] at h
    cases e' : Circ.ptDescale r.commitW d with
    | none => rw [bind_none e'] at h; simp at h
    | some v =>
      obtain ⟨y, d'⟩ := v
      rw [bind_eq e'] at h
      have h' : some (_, d') = some (a, c') := h
      cases h'
      simp only [ptRows, List.length_append, List.length_cons, List.length_nil]
/-- The in-circuit hash emits a number of constraints that the lengths of its inputs bound. -/
theorem rinstHash (nb : Nat) (consts : List (ZMod p)) (r : RInstRow p) (i : Row (ZMod p)) (z0 zi : List (Row (ZMod p))) :
    ∃ k, Few k (Nova.rinstHash nb consts r i z0 zi) := by
  refine ⟨_, (rinstAbsorb r).bindP (j := 4 * consts.length * (1 + (z0.length + zi.length + (7 + r.x0.limbs.length + r.x1.limbs.length))) +
    (1024 + 2 * hashBits)) (fun a => a.length = 7 + r.x0.limbs.length + r.x1.limbs.length) (fun _ _ _ e => rinstAbsorb_length e)
    fun a ha => (squeezeCirc _ _ _ _).mono ?_⟩
  rw [List.length_cons, List.length_append, List.length_append, ha, Nat.add_comm 1]

theorem witList {F : Type} [Field F] [DecidableEq F] : ∀ (l : List F) {c c' : CS F} {rs : List (Row F)},
    Nova.witList l c = some (rs, c') → c'.cons = c.cons ∧ c'.w.length = c.w.length + l.length
  | [], c, c', rs, h => by
    have h' : some ([], c) = some (rs, c') := h
    cases h'; simp
  | v :: l, c, c', rs, h => by
    unfold Nova.witList at h
    rw [bind_eq (a := Row.ofWire (.wit c.w.length)) (c1 := { c with w := c.w ++ [v] }) rfl] at h
    cases e : Nova.witList l { c with w := c.w ++ [v] } with
    | none => rw [bind_none e] at h; simp at h
    | some u =>
      obtain ⟨x, d⟩ := u
      rw [bind_eq e] at h
      have h' : some (_, d) = some (rs, c') := h
      cases h'
      obtain ⟨h1, h2⟩ := witList l e
      refine ⟨h1, ?_⟩
      rw [h2, List.length_append, List.length_cons, List.length_cons, List.length_nil]
      omega

end

end Few

end Kogarashi
