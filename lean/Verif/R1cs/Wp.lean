import Verif.R1cs.Run

/-! # Composing run lemmas -/

namespace Kogarashi

open Spec

variable {F : Type} [Field F] [DecidableEq F] {α β : Type}

/-- The program runs from `cs` without panicking; its result and final system satisfy `Post`, its constraints
force `S`, and the stored values satisfy them when `H` holds. -/
def WP (cs : CS F) (g : Circ F α) (Post : α → CS F → Prop) (S : α → Assignment F → Prop) (H : Prop) : Prop :=
  ∃ a c, g cs = some (a, c) ∧ Post a c ∧ Run cs c (S a) H

namespace WP

theorem pure {cs : CS F} (wf : Wf cs) {a : α} {Post : α → CS F → Prop} {S : α → Assignment F → Prop} {H : Prop}
    (hp : Post a cs) (hs : ∀ z, z Wire.ONE = 1 → S a z) : WP cs (Pure.pure a : Circ F α) Post S H :=
  ⟨a, cs, rfl, hp, (Run.refl wf).weaken (fun z hz _ => hs z hz) (fun _ => trivial)⟩

theorem bind {cs : CS F} {g : Circ F α} {k : α → Circ F β} {Post0 : α → CS F → Prop}
    {S0 : α → Assignment F → Prop} {H0 : Prop} {Post : β → CS F → Prop} {S : β → Assignment F → Prop} {H : Prop}
    (h : WP cs g Post0 S0 H0) (hH : H → H0)
    (hk : ∀ a c, Extends cs c → Wf c → Post0 a c → (H → S0 a (stored c)) →
      WP c (k a) Post (fun b z => S0 a z → S b z) H) : WP cs (g >>= k) Post S H := by
  obtain ⟨a, c, e, hp, r⟩ := h
  obtain ⟨b, c', e', hp', r'⟩ := hk a c r.ext r.wf hp (fun h => r.at_stored (hH h))
  refine ⟨b, c', by rw [Circ.bind_eq e]; exact e', hp', (r.trans r').weaken (fun z hz h => h.2 h.1)
    (fun h => ⟨hH h, h⟩)⟩

theorem weaken {cs : CS F} {g : Circ F α} {Post Post' : α → CS F → Prop} {S S' : α → Assignment F → Prop}
    {H H' : Prop} (h : WP cs g Post S H) (hp : ∀ a c, Extends cs c → Wf c → Post a c → (H' → S a (stored c)) → Post' a c)
    (hs : ∀ a z, z Wire.ONE = 1 → S a z → S' a z) (hh : H' → H) : WP cs g Post' S' H' := by
  obtain ⟨a, c, e, p, r⟩ := h
  exact ⟨a, c, e, hp a c r.ext r.wf p (fun h => r.at_stored (hh h)), r.weaken (hs a) hh⟩

/-- From run lemmas for every content of the wires to the correctness statement. -/
theorem implements {g : Circ F α} (hu : Uniform g g) {cs : CS F} (wf : Wf cs) {Post : α → CS F → Prop}
    {S : α → Assignment F → Prop} {Pre : Assignment F → Prop}
    (h : ∀ c, SameShape cs c → Wf c → WP c g Post S (Pre (stored c)))
    (hc : ∀ z, Satisfies z cs → Pre z → Pre (stored (cs.withValues z))) :
    ∃ a cs', g cs = some (a, cs') ∧ Post a cs' ∧ Implements cs cs' (S a) Pre := by
  obtain ⟨a, c, e, hp, r⟩ := h cs ⟨rfl, rfl, rfl⟩ wf
  refine ⟨a, c, e, hp, Circ.implements hu wf e r (fun z hz hpre => ?_)⟩
  obtain ⟨a', c', e', -, r'⟩ := h (cs.withValues z) (Circ.sameShape_withValues cs z) (Circ.wf_withValues wf hz.1)
  exact ⟨a', c', _, _, e', r', hc z hz hpre⟩

theorem mul {cs : CS F} (wf : Wf cs) {x y : Row F} (hx : RowOk cs x) (hy : RowOk cs y) :
    WP cs (Circ.mul x y) (fun o c => RowOk c o) (fun o z => rowVal z o = rowVal z x * rowVal z y) True :=
  Circ.mul_run wf hx hy

theorem add {cs : CS F} (wf : Wf cs) {x y : Row F} (hx : RowOk cs x) (hy : RowOk cs y) :
    WP cs (Circ.add x y) (fun o c => RowOk c o) (fun o z => rowVal z o = rowVal z x + rowVal z y) True :=
  Circ.add_run wf hx hy

theorem wit {cs : CS F} (wf : Wf cs) (v : F) :
    WP cs (Circ.wit v) (fun o c => RowOk c o ∧ rowVal (stored c) o = v) (fun _ _ => True) True := by
  obtain ⟨o, c, e, h1, h2, r⟩ := Circ.wit_run wf v
  exact ⟨o, c, e, ⟨h1, h2⟩, r⟩

theorem inst {cs : CS F} (wf : Wf cs) (v : F) :
    WP cs (Circ.inst v) (fun o c => RowOk c o ∧ rowVal (stored c) o = v) (fun _ _ => True) True := by
  obtain ⟨o, c, e, h1, h2, r⟩ := Circ.inst_run wf v
  exact ⟨o, c, e, ⟨h1, h2⟩, r⟩

theorem value {cs : CS F} (wf : Wf cs) {r : Row F} (h : RowOk cs r) :
    WP cs (Circ.value r) (fun v c => v = rowVal (stored c) r) (fun _ _ => True) True :=
  ⟨_, cs, Circ.value_eq h, rfl, Run.refl wf⟩

theorem enforceEq {cs : CS F} (wf : Wf cs) {x y : Row F} (hx : RowOk cs x) (hy : RowOk cs y) :
    WP cs (Circ.enforceEq x y) (fun _ _ => True) (fun _ z => rowVal z x = rowVal z y)
      (rowVal (stored cs) x = rowVal (stored cs) y) := by
  obtain ⟨c, e, r⟩ := Circ.enforceEq_run wf hx hy
  exact ⟨(), c, e, trivial, r⟩

theorem isNeq {cs : CS F} (wf : Wf cs) {x y : Row F} (hx : RowOk cs x) (hy : RowOk cs y) :
    WP cs (Circ.isNeq x y) (fun o c => Allocated c o ∧
        stored c o = (if rowVal (stored cs) x = rowVal (stored cs) y then 0 else 1))
      (fun o z => rowVal z x = rowVal z y → z o = 0) True := by
  obtain ⟨o, c, e, h1, h2, r⟩ := Circ.isNeq_run wf hx hy
  exact ⟨o, c, e, ⟨h1, h2⟩, r⟩

theorem conditionalSelect {cs : CS F} (wf : Wf cs) {a b : Row F} {s : Bin} (ha : RowOk cs a) (hb : RowOk cs b)
    (hs : Allocated cs s) :
    WP cs (Circ.conditionalSelect a b s) (fun o c => RowOk c o)
      (fun o z => rowVal z o = rowVal z a * z s + rowVal z b * (1 - z s)) True :=
  Circ.conditionalSelect_run wf ha hb hs

end WP

theorem Circ.distinct_const (c : F) : DistinctWires (Circ.const c : Row F) := by simp [DistinctWires, Circ.const]
theorem Circ.distinct_ofBin (b : Bin) : DistinctWires (Circ.ofBin b : Row F) := Row.distinct_ofWire b

end Kogarashi

/-- Solves `RowOk c r` from hypotheses `RowOk c' r'`, walking back along `Extends` hypotheses. -/
syntax "rowok" : tactic
macro_rules
  | `(tactic| rowok) => `(tactic| first
      | assumption
      | exact Kogarashi.Circ.const_ok (by assumption) _
      | exact Kogarashi.Spec.RowOk.ofConst (by assumption) _
      | exact Kogarashi.Spec.RowOk.one (by assumption)
      | (apply Kogarashi.Spec.RowOk.add <;> rowok)
      | (apply Kogarashi.Spec.RowOk.sub <;> rowok)
      | (apply Kogarashi.Spec.RowOk.smul; rowok)
      | (apply Kogarashi.Circ.ofBin_ok; rowok)
      | (refine Kogarashi.Spec.RowOk.mono ?_ (by assumption); rowok)
      | (refine Kogarashi.Spec.Extends.alloc (by assumption) ?_; rowok))

/-- Proves `Uniform` of a sequence of gadgets. -/
syntax "uniform" : tactic
macro_rules
  | `(tactic| uniform) => `(tactic| first
      | assumption
      | exact Kogarashi.Spec.Uniform.mul _ _
      | exact Kogarashi.Spec.Uniform.add _ _
      | exact Kogarashi.Spec.Uniform.wit _ _
      | exact Kogarashi.Spec.Uniform.inst _ _
      | exact Kogarashi.Spec.Uniform.pure _
      | exact Kogarashi.Spec.Uniform.enforceEq _ _
      | exact Kogarashi.Spec.Uniform.isNeq _ _
      | exact Kogarashi.Spec.Uniform.isEq _ _
      | exact Kogarashi.Spec.Uniform.conditionalSelect _ _ _
      | (refine Kogarashi.Spec.Uniform.value (fun _ _ => ?_); uniform)
      | (refine Kogarashi.Spec.Uniform.bind ?_ (fun _ => ?_) <;> uniform))
