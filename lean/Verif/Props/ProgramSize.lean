import Verif.Props.Programs

/-! # C119: the size of the circuit of a program -/

namespace Kogarashi.Props

open Kogarashi Spec Circ

variable {F : Type} [Field F] [DecidableEq F] {α β : Type} {np nw : Nat}

/-- The products, squares and gate additions written in an expression. -/
def gates : Expr F np nw → Nat
  | .pub _ => 0
  | .priv _ => 0
  | .const _ => 0
  | .add a b => gates a + gates b
  | .sub a b => gates a + gates b
  | .neg a => gates a
  | .scale a _ => gates a
  | .mul a b => gates a + gates b + 1
  | .square a => gates a + 1
  | .sum a b => gates a + gates b + 1

/-- The same for the equations of a program. -/
def programGates : Program F np nw → Nat
  | [] => 0
  | p :: ps => gates p.1 + gates p.2 + programGates ps

/-- The code adds no public wire, between `0` and `n` witnesses, and as many constraints plus `m`. -/
def Costs (n m : Nat) (g : Circ F α) : Prop := ∀ cs a cs', g cs = some (a, cs') → cs'.x = cs.x ∧
  ∃ k ≤ n, cs'.w.length = cs.w.length + k ∧ cs'.cons.length = cs.cons.length + k + m

omit [Field F] [DecidableEq F] in
theorem Costs.pure (a : α) : Costs 0 0 (Pure.pure a : Circ F α) := by
  intro cs b cs' h
  have h : some (a, cs) = some (b, cs') := h
  injection h with h
  injection h with h1 h2
  subst h2
  exact ⟨rfl, 0, le_refl _, rfl, rfl⟩

omit [Field F] [DecidableEq F] in
theorem Costs.bind {g : Circ F α} {f : α → Circ F β} {n m n' m' : Nat} (hg : Costs n m g) (hf : ∀ a, Costs n' m' (f a)) :
    Costs (n + n') (m + m') (g >>= f) := by
  intro cs b cs' h
  have h : (g cs).bind (fun r => f r.1 r.2) = some (b, cs') := h
  obtain ⟨⟨a, c⟩, e1, e2⟩ := Option.bind_eq_some_iff.1 h
  obtain ⟨x1, k1, l1, w1, c1⟩ := hg _ _ _ e1
  obtain ⟨x2, k2, l2, w2, c2⟩ := hf _ _ _ _ e2
  exact ⟨x2.trans x1, k1 + k2, by omega, by simp only at *; omega, by simp only at *; omega⟩

theorem costs_gate {x y : Row F} {h : F → F → F} {gate : CS F → Row F → Row F → Row F → CS F}
    (hx : ∀ cs z, (gate cs x y z).x = cs.x) (hw : ∀ cs z, (gate cs x y z).w = cs.w) (hc : ∀ cs z, (gate cs x y z).cons.length = cs.cons.length + 1) :
    Costs 1 0 (do
      let vx ← Circ.value x
      let vy ← Circ.value y
      let z ← Circ.wit (h vx vy)
      (fun cs => some ((), gate cs x y z) : Circ F Unit)
      Pure.pure z) := by
  intro cs b cs' e
  have e : ((x.evaluate cs.x cs.w).map (fun v => (v, cs))).bind (fun r => ((y.evaluate r.2.x r.2.w).map (fun v => (v, r.2))).bind (fun s =>
      some (Row.ofWire (.wit s.2.w.length), gate { s.2 with w := s.2.w ++ [h r.1 s.1] } x y (Row.ofWire (.wit s.2.w.length))))) = some (b, cs') := e
  obtain ⟨⟨v, c⟩, e1, e⟩ := Option.bind_eq_some_iff.1 e
  obtain ⟨v1, -, e1⟩ := Option.map_eq_some_iff.1 e1
  obtain ⟨⟨u, d⟩, e2, e⟩ := Option.bind_eq_some_iff.1 e
  obtain ⟨u1, -, e2⟩ := Option.map_eq_some_iff.1 e2
  obtain ⟨rfl, rfl⟩ := Prod.mk.inj e1
  obtain ⟨rfl, rfl⟩ := Prod.mk.inj e2
  obtain ⟨rfl, rfl⟩ := Prod.mk.inj (Option.some.inj e)
  refine ⟨hx _ _, 1, le_refl _, ?_, ?_⟩
  · rw [hw]; simp
  · rw [hc]

omit [Field F] [DecidableEq F] in
theorem Costs.weaken {g : Circ F α} {n n' m : Nat} (h : Costs n m g) (hn : n ≤ n') : Costs n' m g := fun cs a cs' e =>
  let ⟨x, k, l, r⟩ := h cs a cs' e
  ⟨x, k, l.trans hn, r⟩

theorem costs_mul (x y : Row F) : Costs 1 0 (Circ.mul x y) := by
  unfold Circ.mul
  split
  · exact (Costs.pure _).weaken (by omega)
  · split
    · exact (Costs.pure _).weaken (by omega)
    · exact costs_gate (h := (· * ·)) (gate := CS.mulGate) (fun _ _ => rfl) (fun _ _ => rfl) (fun _ _ => by simp [CS.mulGate, CS.append])

theorem costs_add (x y : Row F) : Costs 1 0 (Circ.add x y) := by
  unfold Circ.add
  split
  · exact (Costs.pure _).weaken (by omega)
  · split
    · exact (Costs.pure _).weaken (by omega)
    · exact costs_gate (h := (· + ·)) (gate := CS.addGate) (fun _ _ => rfl) (fun _ _ => rfl) (fun _ _ => by simp [CS.addGate, CS.append])

theorem costs_build (px pw : List (Row F)) : ∀ e : Expr F np nw, Costs (gates e) 0 (Circ.build px pw e)
  | .pub _ => .pure _
  | .priv _ => .pure _
  | .const _ => .pure _
  | .add a b => (costs_build px pw a).bind fun _ => (costs_build px pw b).bind fun _ => .pure _
  | .sub a b => (costs_build px pw a).bind fun _ => (costs_build px pw b).bind fun _ => .pure _
  | .neg a => (costs_build px pw a).bind fun _ => .pure _
  | .scale a _ => (costs_build px pw a).bind fun _ => .pure _
  | .mul a b => ((costs_build px pw a).bind fun _ => (costs_build px pw b).bind fun _ => costs_mul _ _).weaken (by simp only [gates]; omega)
  | .square a => (costs_build px pw a).bind fun _ => costs_mul _ _
  | .sum a b => ((costs_build px pw a).bind fun _ => (costs_build px pw b).bind fun _ => costs_add _ _).weaken (by simp only [gates]; omega)

theorem costs_enforceEq (x y : Row F) : Costs 0 1 (Circ.enforceEq x y) := by
  intro cs a cs' h
  have h : some ((), cs.mulGate x Row.one y) = some (a, cs') := h
  obtain ⟨-, rfl⟩ := Prod.mk.inj (Option.some.inj h)
  exact ⟨rfl, 0, le_refl _, rfl, by simp [CS.mulGate, CS.append]⟩

theorem costs_enforceAll (px pw : List (Row F)) : ∀ P : Program F np nw, Costs (programGates P) P.length (Circ.enforceAll px pw P)
  | [] => .pure _
  | p :: P => by
    have h := (costs_build px pw p.1).bind fun a => (costs_build px pw p.2).bind fun b => (costs_enforceEq a b).bind fun _ => costs_enforceAll px pw P
    have e : 0 + (0 + (1 + P.length)) = (p :: P).length := by simp; omega
    rw [e] at h
    exact Costs.weaken h (by simp only [programGates]; omega)

/-- **C119, the size.** The circuit of a program has exactly the public inputs of the program after the constant one; it has one constraint per
equation plus `k` more, and `k` witnesses besides the private inputs, where `k` is at most the number of products, squares and gate additions the
program writes. -/
theorem C119_size (P : Program F np nw) (x : Fin np → F) (w : Fin nw → F) {cs : CS F} (h : Circ.program P x w CS.init = some ((), cs)) :
    cs.x = 1 :: List.ofFn x ∧ ∃ k ≤ programGates P, cs.w.length = nw + k ∧ cs.cons.length = P.length + k := by
  unfold Circ.program at h
  rw [Circ.bind_eq (Circ.allocInst_eq _ _), Circ.bind_eq (Circ.allocWit_eq _ _)] at h
  obtain ⟨hx, k, hk, hw, hc⟩ := costs_enforceAll _ _ P _ _ _ h
  refine ⟨by rw [hx]; rfl, k, hk, ?_, ?_⟩
  · rw [hw]; simp [CS.init]
  · rw [hc]; simp [CS.init]; omega

/-- `x·x·x + x + 5 = o` with `x` private and `o` public: two products, so between one and three constraints. -/
example : programGates ([(.add (.add (.mul (.mul (.priv 0) (.priv 0)) (.priv 0)) (.priv 0)) (.const 5), .pub 0)] : Program (ZMod 13) 1 1) = 2 := rfl

end Kogarashi.Props
