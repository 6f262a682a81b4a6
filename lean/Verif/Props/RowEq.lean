import Verif.Props.R1cs

/-!
# Property C122: equality and constancy of linear combinations
-/

namespace Kogarashi.Props

open Kogarashi Spec

variable {F : Type} [_root_.Field F] [DecidableEq F]

omit [DecidableEq F] in
theorem rowVal_add_assignment (z z' : Assignment F) (r : Row F) : rowVal (fun w => z w + z' w) r = rowVal z r + rowVal z' r := by
  unfold rowVal
  induction r with
  | nil => simp
  | cons e r ih => simp only [List.map_cons, List.sum_cons, ih]; ring

theorem rowVal_unit {r : Row F} (h : DistinctWires r) (w : Wire) : rowVal (fun v => if v = w then 1 else 0) r = (Row.coeff w r).getD 0 := by
  unfold rowVal
  induction r with
  | nil => rfl
  | cons e r ih =>
    unfold DistinctWires at h
    rw [List.map_cons, List.nodup_cons] at h
    simp only [List.map_cons, List.sum_cons, ih h.2, Row.coeff]
    by_cases he : w = e.1
    · subst he
      have hn : Row.coeff e.1 r = none := by
        have : ∀ r : Row F, e.1 ∉ r.map Prod.fst → Row.coeff e.1 r = none := by
          intro r hr
          induction r with
          | nil => rfl
          | cons d r ih =>
            simp only [List.map_cons, List.mem_cons, not_or] at hr
            simp only [Row.coeff, if_neg hr.1]
            exact ih hr.2
        exact this r h.1
      simp [hn]
    · simp [he, Ne.symm he]

theorem coeff_mem {r : Row F} (h : DistinctWires r) (w : Wire) (c : F) : Row.coeff w r = some c ↔ (w, c) ∈ r := by
  induction r with
  | nil => simp [Row.coeff]
  | cons e r ih =>
    unfold DistinctWires at h
    rw [List.map_cons, List.nodup_cons] at h
    simp only [Row.coeff, List.mem_cons]
    by_cases he : w = e.1
    · subst he
      simp only [if_true, Option.some.injEq]
      constructor
      · rintro rfl; left; rfl
      · rintro (h1 | h1)
        · exact (Prod.mk.inj h1).2.symm
        · exact absurd (List.mem_map.mpr ⟨_, h1, rfl⟩) h.1
    · rw [if_neg he, ih h.2]
      constructor
      · exact Or.inr
      · rintro (h1 | h1)
        · exact absurd (congrArg Prod.fst h1) he
        · exact h1

/-- The coefficients of a row are determined by its values on the assignments with the constant wire at one. -/
theorem coeff_of_values {a b : Row F} (ha : DistinctWires a) (hb : DistinctWires b)
    (h : ∀ z : Assignment F, z Wire.ONE = 1 → rowVal z a = rowVal z b) (w : Wire) : (Row.coeff w a).getD 0 = (Row.coeff w b).getD 0 := by
  have h0 := h (fun v => if v = Wire.ONE then 1 else 0) (by simp)
  rw [rowVal_unit ha, rowVal_unit hb] at h0
  by_cases hw : w = Wire.ONE
  · rw [hw]; exact h0
  · have h1 := h (fun v => (if v = Wire.ONE then 1 else 0) + (if v = w then 1 else 0)) (by simp [Ne.symm hw])
    rw [rowVal_add_assignment (fun v => if v = Wire.ONE then 1 else 0), rowVal_add_assignment (fun v => if v = Wire.ONE then 1 else 0),
      rowVal_unit ha, rowVal_unit hb, rowVal_unit ha, rowVal_unit hb, h0] at h1
    exact add_left_cancel h1

theorem rowVal_nonzero (z : Assignment F) (r : Row F) : rowVal z (r.filter (fun e => decide (e.2 ≠ 0))) = rowVal z r := by
  unfold rowVal
  induction r with
  | nil => rfl
  | cons e r ih =>
    by_cases he : e.2 = 0
    · rw [List.filter_cons_of_neg (by simp [he]), ih, List.map_cons, List.sum_cons, he, mul_zero, zero_add]
    · rw [List.filter_cons_of_pos (by simp [he]), List.map_cons, List.sum_cons, ih, List.map_cons, List.sum_cons]

/-- **C122, what equality means.** Two linear combinations built with the operations have the same value under all assignments exactly when they
have the same terms with non-zero coefficients, in whatever order.  Missing: that `==` decides this, which is false (`C122_order_refuted`). -/
theorem C122_same_partial {a b : Row F} (ha : ApiRow a) (hb : ApiRow b) :
    (∀ z : Assignment F, z Wire.ONE = 1 → rowVal z a = rowVal z b) ↔ ∀ w c, c ≠ 0 → ((w, c) ∈ a ↔ (w, c) ∈ b) := by
  have da := C30_distinct ha
  have db := C30_distinct hb
  constructor
  · intro h w c hc
    have e := coeff_of_values da db h w
    rw [← coeff_mem da, ← coeff_mem db]
    constructor
    · intro h1
      rw [h1] at e
      cases hb' : Row.coeff w b with
      | none => rw [hb'] at e; exact absurd e hc
      | some d => rw [hb'] at e; exact congrArg some e.symm
    · intro h1
      rw [h1] at e
      cases ha' : Row.coeff w a with
      | none => rw [ha'] at e; exact absurd e.symm hc
      | some d => rw [ha'] at e; exact congrArg some e
  · intro h z _
    rw [← rowVal_nonzero z a, ← rowVal_nonzero z b]
    have na : (a.filter (fun e => decide (e.2 ≠ 0))).Nodup := (List.Nodup.of_map _ da).filter _
    have nb : (b.filter (fun e => decide (e.2 ≠ 0))).Nodup := (List.Nodup.of_map _ db).filter _
    have p : (a.filter (fun e => decide (e.2 ≠ 0))).Perm (b.filter (fun e => decide (e.2 ≠ 0))) := by
      rw [List.perm_ext_iff_of_nodup na nb]
      rintro ⟨w, c⟩
      simp only [List.mem_filter, decide_eq_true_eq]
      constructor
      · rintro ⟨h1, h2⟩; exact ⟨(h w c h2).mp h1, h2⟩
      · rintro ⟨h1, h2⟩; exact ⟨(h w c h2).mpr h1, h2⟩
    exact (p.map _).sum_eq

theorem mk_nonzero (l : List (Wire × F)) : ∀ e ∈ Row.mk l, e.2 ≠ 0 := by
  intro e he
  unfold Row.mk at he
  simpa using (List.mem_filter.mp he).2

theorem ApiRow.terms {a : Row F} (h : ApiRow a) : (∀ e ∈ a, e.2 ≠ 0) ∨ a = [(Wire.ONE, 0)] := by
  cases h with
  | wire w => exact .inl (mk_nonzero _)
  | const c => exact .inl (mk_nonzero _)
  | constAssignment c =>
    by_cases hc : c = 0
    · right; rw [hc]; rfl
    · left; intro e he; simp only [Circ.const, List.mem_singleton] at he; rw [he]; exact hc
  | add _ _ => exact .inl (mk_nonzero _)
  | sub _ _ => exact .inl (mk_nonzero _)
  | neg _ => exact .inl (mk_nonzero _)
  | smul k _ => exact .inl (mk_nonzero _)

/-- **C122, constants.** A linear combination built with the operations has the value `c` under all assignments exactly when `as_constant` returns
`c`, or `c` is zero and it has no terms.  Missing: the row without terms, for which `as_constant` returns nothing (`C122_zero_refuted`). -/
theorem C122_constant_partial {a : Row F} (ha : ApiRow a) (c : F) :
    (∀ z : Assignment F, z Wire.ONE = 1 → rowVal z a = c) ↔ a.asConstant = some c ∨ (c = 0 ∧ a = []) := by
  constructor
  · intro h
    have e : ∀ z : Assignment F, z Wire.ONE = 1 → rowVal z a = rowVal z (Circ.const c) := by
      intro z hz; rw [h z hz]; simp [rowVal, Circ.const, hz]
    have s := (C122_same_partial ha (.constAssignment c)).mp e
    rcases ha.terms with ht | rfl
    · by_cases hc : c = 0
      · right
        refine ⟨hc, List.eq_nil_iff_forall_not_mem.mpr ?_⟩
        rintro ⟨w, d⟩ hd
        have := (s w d (ht _ hd)).mp hd
        simp only [Circ.const, List.mem_singleton, Prod.mk.injEq] at this
        exact ht _ hd (this.2.trans hc)
      · left
        have m : (Wire.ONE, c) ∈ a := (s _ _ hc).mpr (by simp [Circ.const])
        have n : ∀ e ∈ a, e = (Wire.ONE, c) := by
          rintro ⟨w, d⟩ hd
          have := (s w d (ht _ hd)).mp hd
          simpa [Circ.const] using this
        have nd : a.Nodup := List.Nodup.of_map _ (C30_distinct ha)
        have : a = [(Wire.ONE, c)] := by
          cases a with
          | nil => simp at m
          | cons d l =>
            obtain rfl := n d (by simp)
            cases l with
            | nil => rfl
            | cons d' l =>
              obtain rfl := n d' (by simp)
              simp at nd
        rw [this]
        simp [Row.asConstant, Row.coeff]
    · left
      have h0 := h (fun _ => 1) rfl
      simp only [rowVal, List.map_cons, List.map_nil, List.sum_cons, List.sum_nil, mul_zero, add_zero] at h0
      rw [← h0]
      simp [Row.asConstant, Row.coeff]
  · rintro (h | ⟨rfl, rfl⟩) z hz
    · rw [Row.asConstant_eq h]
      simp [rowVal, hz]
    · rfl

/-- **C122 is false of the code for `==`**: the same sum written in two orders gives two different vectors of terms. -/
theorem C122_order_refuted {v w : Wire} (h : v ≠ w) : (Row.ofWire v : Row F).add (Row.ofWire w) ≠ (Row.ofWire w).add (Row.ofWire v) ∧
    ∀ z : Assignment F, rowVal z ((Row.ofWire v).add (Row.ofWire w)) = rowVal z ((Row.ofWire w).add (Row.ofWire v)) := by
  have e : ∀ {v w : Wire}, v ≠ w → (Row.ofWire v : Row F).add (Row.ofWire w) = [(v, 1), (w, 1)] := by
    intro v w h
    simp [Row.ofWire, Row.mk, Row.add, Row.coeff, Row.addTerm, h, Ne.symm h]
  rw [e h, e h.symm]
  refine ⟨fun hh => h (by simpa using congrArg (fun l => l.map Prod.fst) hh : v = w ∧ _).1, fun z => ?_⟩
  simp [rowVal, add_comm]

/-- **C122 is false of the code for `as_constant`**: `x - x` is the constant zero and `as_constant` returns nothing. -/
theorem C122_zero_refuted (w : Wire) : ((Row.ofWire w : Row F).sub (Row.ofWire w)).asConstant = none ∧
    ∀ z : Assignment F, rowVal z ((Row.ofWire w).sub (Row.ofWire w)) = 0 := by
  have e : (Row.ofWire w : Row F).sub (Row.ofWire w) = [] := by
    simp [Row.ofWire, Row.mk, Row.sub, Row.neg, Row.smul, Row.add, Row.coeff, Row.addTerm]
  rw [e]
  exact ⟨rfl, fun z => rfl⟩

/-- `2·(w₀ + 3) - 2·w₀` is recognised as the constant 6. -/
example : ApiRow ((((Row.ofWire (.wit 0)).add (Row.ofConst (3 : ZMod 13))).smul 2).sub ((Row.ofWire (.wit 0)).smul 2)) ∧
    ((((Row.ofWire (.wit 0)).add (Row.ofConst (3 : ZMod 13))).smul 2).sub ((Row.ofWire (.wit 0)).smul 2)).asConstant = some 6 :=
  ⟨.sub (.smul _ (.add (.wire _) (.const _))) (.smul _ (.wire _)), by decide⟩

end Kogarashi.Props
