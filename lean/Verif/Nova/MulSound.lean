import Verif.Nova.BigNat
import Verif.R1cs.Wp
import Verif.Spec.RowPoly
import Mathlib.Tactic.Ring
import Mathlib.Tactic.LinearCombination

/-! # What the constraints of the in-circuit polynomial product force, whoever filled the wires -/

namespace Kogarashi

namespace Nova

open Spec Circ Polynomial

variable {F : Type} [Field F] [DecidableEq F]

def Rows (c : CS F) (rs : List (Row F)) : Prop := ∀ r ∈ rs, RowOk c r

theorem Rows.mono {c c' : CS F} {rs : List (Row F)} (h : Rows c rs) (e : Extends c c') : Rows c' rs :=
  fun r hr => (h r hr).mono e

theorem Rows.modify {c : CS F} {m : Row F} (hm : RowOk c m) : ∀ {rs : List (Row F)} (k : Nat), Rows c rs →
    Rows c (rs.modify k (fun r => Row.add r m))
  | [], k, _ => by cases k <;> simp [Rows]
  | r :: rs, 0, h => by
    intro x hx
    simp only [List.modify_zero_cons, List.mem_cons] at hx
    rcases hx with rfl | hx
    · exact (h r (by simp)).add hm
    · exact h x (by simp [hx])
  | r :: rs, k + 1, h => by
    intro x hx
    simp only [List.modify_succ_cons, List.mem_cons] at hx
    rcases hx with rfl | hx
    · exact h x (by simp)
    · exact Rows.modify hm k (fun y hy => h y (by simp [hy])) x hx

theorem rowPoly_modify {c : CS F} {m : Row F} (hm : RowOk c m) (z : Assignment F) : ∀ {rs : List (Row F)} (k : Nat), Rows c rs →
    k < rs.length → rowPoly z (rs.modify k (fun r => Row.add r m)) = rowPoly z rs + X ^ k * C (rowVal z m)
  | r :: rs, 0, h, _ => by
    have hr := h r (by simp)
    rw [List.modify_zero_cons, rowPoly, rowPoly, Row.rowVal_add _ hr.distinct hm.distinct, C_add, pow_zero]
    ring
  | r :: rs, k + 1, h, hk => by
    rw [List.modify_succ_cons, rowPoly, rowPoly, rowPoly_modify hm z k (fun y hy => h y (by simp [hy])) (by simpa using hk), pow_succ]
    ring

theorem mulInner_wp {a : Row F} : ∀ (bs : List (Row F)) (k : Nat) {prod : List (Row F)} {cs : CS F}, Wf cs → RowOk cs a →
    Rows cs bs → Rows cs prod → k + bs.length ≤ prod.length →
    WP cs (mulInner a k bs prod) (fun o c => Rows c o ∧ o.length = prod.length)
      (fun o z => rowPoly z o = rowPoly z prod + X ^ k * (C (rowVal z a) * rowPoly z bs)) True
  | [], k, prod, cs, wf, _, _, hp, _ => WP.pure wf ⟨hp, rfl⟩ (fun z _ => by simp [rowPoly])
  | b :: bs, k, prod, cs, wf, ha, hb, hp, hl => by
    unfold mulInner
    have hl' : k + 1 + bs.length ≤ prod.length := by simp only [List.length_cons] at hl; omega
    refine WP.bind (WP.mul wf ha (hb b (by simp))) id (fun m c e w hm _ => ?_)
    have hm' : RowOk c m := hm
    refine (mulInner_wp bs (k + 1) w (ha.mono e) (fun y hy => (hb y (by simp [hy])).mono e)
      (Rows.modify hm' k (hp.mono e)) (by simpa using hl')).weaken (fun o c' _ _ h _ => ⟨h.1, by rw [h.2]; simp⟩)
      (fun o z _ h hz => ?_) id
    rw [h, rowPoly_modify hm' z k (hp.mono e) (by omega), hz, rowPoly, C_mul, pow_succ]
    ring

theorem mulOuter_wp {bs : List (Row F)} : ∀ (as : List (Row F)) (k : Nat) {prod : List (Row F)} {cs : CS F}, Wf cs → Rows cs as →
    Rows cs bs → Rows cs prod → k + as.length + bs.length ≤ prod.length + 1 →
    WP cs (mulOuter bs k as prod) (fun o c => Rows c o ∧ o.length = prod.length)
      (fun o z => rowPoly z o = rowPoly z prod + X ^ k * (rowPoly z as * rowPoly z bs)) True
  | [], k, prod, cs, wf, _, _, hp, _ => WP.pure wf ⟨hp, rfl⟩ (fun z _ => by simp [rowPoly])
  | a :: as, k, prod, cs, wf, ha, hb, hp, hl => by
    unfold mulOuter
    simp only [List.length_cons] at hl
    refine WP.bind (mulInner_wp bs k wf (ha a (by simp)) hb hp (by omega)) id (fun pr c e w hpr _ => ?_)
    refine (mulOuter_wp as (k + 1) w (fun y hy => (ha y (by simp [hy])).mono e) (hb.mono e) hpr.1
      (by rw [hpr.2]; omega)).weaken (fun o c' _ _ h _ => ⟨h.1, by rw [h.2, hpr.2]⟩) (fun o z _ h hz => ?_) id
    rw [h, hz, rowPoly, pow_succ]
    ring

theorem evalRow_wp {x : F} : ∀ (rs : List (Row F)) (i : F) {acc : Row F} {cs : CS F}, Wf cs → Rows cs rs → RowOk cs acc →
    WP cs (evalRow x rs i acc) (fun o c => RowOk c o) (fun _ _ => True) True
  | [], i, acc, cs, wf, _, ha => WP.pure wf ha (fun _ _ => trivial)
  | r :: rs, i, acc, cs, wf, hr, ha => by
    unfold evalRow
    refine WP.bind (WP.mul wf (hr r (by simp)) (Circ.const_ok wf _)) id (fun m c e w hm _ => ?_)
    have hm' : RowOk c m := hm
    exact (evalRow_wp rs (i * x) w (fun y hy => (hr y (by simp [hy])).mono e) ((ha.mono e).add hm')).weaken
      (fun _ _ _ _ h _ => h) (fun _ _ _ _ _ => trivial) id

theorem mulCheck_wp {as bs os : List (Row F)} : ∀ (n : Nat) (x : F) {cs : CS F}, Wf cs → Rows cs as → Rows cs bs → Rows cs os →
    WP cs (mulCheck as bs os n x) (fun _ _ => True) (fun _ _ => True) False
  | 0, x, cs, wf, _, _, _ => WP.pure wf trivial (fun _ _ => trivial)
  | n + 1, x, cs, wf, ha, hb, ho => by
    unfold mulCheck
    dsimp only
    refine WP.bind (evalRow_wp as 1 wf ha (Circ.const_ok wf _)) (fun _ => trivial) (fun a c1 e1 w1 h1 _ => ?_)
    refine WP.bind (evalRow_wp bs 1 w1 (hb.mono e1) (Circ.const_ok w1 _)) (fun _ => trivial) (fun b c2 e2 w2 h2 _ => ?_)
    have e12 := e1.trans e2
    refine WP.bind (evalRow_wp os 1 w2 (ho.mono e12) (Circ.const_ok w2 _)) (fun _ => trivial) (fun o c3 e3 w3 h3 _ => ?_)
    have h1' : RowOk c1 a := h1
    have h2' : RowOk c2 b := h2
    refine WP.bind (WP.mul w3 ((h1'.mono e2).mono e3) (h2'.mono e3)) (fun _ => trivial) (fun ab c4 e4 w4 h4 _ => ?_)
    have h3' : RowOk c3 o := h3
    have h4' : RowOk c4 ab := h4
    refine WP.bind (WP.enforceEq w4 h4' (h3'.mono e4)) False.elim (fun _ c5 e5 w5 _ _ => ?_)
    have e := ((e12.trans e3).trans e4).trans e5
    exact (mulCheck_wp n (x + 1) w5 (ha.mono e) (hb.mono e) (ho.mono e)).weaken (fun _ _ _ _ _ _ => trivial)
      (fun _ _ _ _ _ _ _ _ _ => trivial) id

theorem rowPoly_replicate (z : Assignment F) : ∀ n, rowPoly z (List.replicate n (Circ.const 0 : Row F)) = 0
  | 0 => rfl
  | n + 1 => by
    rw [List.replicate_succ, rowPoly, rowPoly_replicate z n, Circ.rowVal_const]
    simp

theorem polyMul_wp {as bs : List (Row F)} {cs : CS F} (wf : Wf cs) (ha : Rows cs as) (hb : Rows cs bs)
    (h0 : as.length + bs.length ≠ 0) :
    WP cs (polyMul as bs) (fun o c => Rows c o ∧ o.length = as.length + bs.length - 1)
      (fun o z => rowPoly z o = rowPoly z as * rowPoly z bs) False := by
  unfold polyMul
  rw [if_neg h0]
  dsimp only
  refine WP.bind (mulOuter_wp as 0 wf ha hb (fun r hr => ?_) (by simp; omega)) (fun _ => trivial) (fun pr c e w hpr _ => ?_)
  · rw [List.eq_of_mem_replicate hr]; exact Circ.const_ok wf _
  refine WP.bind (mulCheck_wp _ 0 w (ha.mono e) (hb.mono e) hpr.1) id (fun _ c2 e2 w2 _ _ => ?_)
  refine WP.pure w2 ⟨hpr.1.mono e2, by rw [hpr.2]; simp⟩ (fun z _ _ hz => ?_)
  rw [hz, rowPoly_replicate, pow_zero, one_mul, zero_add]

theorem selectLoop_wp {s : Bin} : ∀ (l : List (Row F × Row F)) {cs : CS F}, Wf cs → (∀ x ∈ l, RowOk cs x.1 ∧ RowOk cs x.2) →
    Allocated cs s → WP cs (selectLoop s l) (fun o c => Rows c o)
      (fun o z => o.map (rowVal z) = l.map (fun x => rowVal z x.1 * z s + rowVal z x.2 * (1 - z s))) True
  | [], cs, wf, _, _ => WP.pure wf (by simp [Rows]) (fun _ _ => rfl)
  | (a, b) :: l, cs, wf, h, hs => by
    unfold selectLoop
    have h0 := h (a, b) (by simp)
    refine WP.bind (WP.conditionalSelect wf h0.1 h0.2 hs) id (fun m c e w hm _ => ?_)
    have hm' : RowOk c m := hm
    refine WP.bind (selectLoop_wp l w (fun x hx => ⟨(h x (by simp [hx])).1.mono e, (h x (by simp [hx])).2.mono e⟩) (e.alloc hs))
      id (fun rs c2 e2 w2 hrs _ => ?_)
    refine WP.pure w2 ?_ (fun z _ h2 h1 => ?_)
    · intro r hr
      rcases List.mem_cons.mp hr with rfl | hr
      · exact hm'.mono e2
      · exact hrs r hr
    · rw [List.map_cons, List.map_cons, h1, h2]

end Nova

end Kogarashi
