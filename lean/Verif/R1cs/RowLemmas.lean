import Verif.Spec.R1cs
import Mathlib.Tactic.Ring
import Mathlib.Tactic.LinearCombination

/-! # Row algebra -/

namespace Kogarashi

open Spec

variable {F : Type} [Field F] [DecidableEq F]

namespace Row

@[simp] theorem rowVal_nil (z : Assignment F) : rowVal z ([] : Row F) = 0 := rfl
@[simp] theorem rowVal_cons (z : Assignment F) (e : Wire × F) (r : Row F) :
    rowVal z (e :: r) = z e.1 * e.2 + rowVal z r := by simp [rowVal]
@[simp] theorem rowVal_append (z : Assignment F) (r s : Row F) :
    rowVal z (r ++ s) = rowVal z r + rowVal z s := by simp [rowVal]

@[simp] theorem rowVal_mk (z : Assignment F) (r : List (Wire × F)) : rowVal z (mk r) = rowVal z r := by
  induction r with
  | nil => rfl
  | cons e r ih =>
    unfold mk at *
    by_cases h : e.2 = 0
    · simp [List.filter_cons, h] at *
      exact ih
    · simp [List.filter_cons, h] at *
      exact ih

@[simp] theorem rowVal_ofConst (z : Assignment F) (v : F) : rowVal z (ofConst v) = z Wire.ONE * v := by
  simp [ofConst]
@[simp] theorem rowVal_ofWire (z : Assignment F) (w : Wire) : rowVal z (ofWire w) = z w := by
  simp [ofWire]
@[simp] theorem rowVal_one (z : Assignment F) : rowVal z one = z Wire.ONE := by simp [one]
@[simp] theorem rowVal_smul (z : Assignment F) (r : Row F) (k : F) :
    rowVal z (r.smul k) = rowVal z r * k := by
  unfold smul
  rw [rowVal_mk]
  induction r with
  | nil => simp
  | cons e r ih => simp [ih]; ring
@[simp] theorem rowVal_neg (z : Assignment F) (r : Row F) : rowVal z r.neg = - rowVal z r := by
  simp [neg]

theorem coeff_none_iff {i : Wire} {r : List (Wire × F)} : coeff i r = none ↔ ∀ e ∈ r, e.1 ≠ i := by
  induction r with
  | nil => simp [coeff]
  | cons e r ih =>
    unfold coeff
    by_cases h : i = e.1
    · simp [h]
    · simp [h, ih, Ne.symm h]

theorem coeff_isNone {i : Wire} {r : List (Wire × F)} :
    (coeff i r).isNone = true ↔ i ∉ r.map Prod.fst := by
  rw [Option.isNone_iff_eq_none, coeff_none_iff]
  simp only [List.mem_map, not_exists, not_and]

/-- splitting off one wire from a row without repetitions -/
theorem rowVal_filter_ne (z : Assignment F) (r : Row F) (hd : DistinctWires r) (i : Wire) :
    rowVal z r = rowVal z (r.filter (fun e => e.1 ≠ i)) + z i * (coeff i r).getD 0 := by
  induction r with
  | nil => simp [coeff]
  | cons e r ih =>
    have hd' := List.nodup_cons.mp (show (e.1 :: r.map Prod.fst).Nodup from hd)
    have ih := ih hd'.2
    by_cases h : e.1 = i
    · have hn : coeff i r = none := coeff_none_iff.mpr (fun e' he' hc =>
        hd'.1 (h ▸ hc ▸ List.mem_map_of_mem he'))
      have : (e :: r).filter (fun e => e.1 ≠ i) = r.filter (fun e => e.1 ≠ i) := by simp [h]
      rw [this]
      rw [hn] at ih
      simp only [coeff, h, if_true, Option.getD_some, rowVal_cons, Option.getD_none, mul_zero, add_zero] at *
      rw [ih]; ring
    · have : (e :: r).filter (fun e => e.1 ≠ i) = e :: r.filter (fun e => e.1 ≠ i) := by simp [h]
      rw [this]
      simp only [coeff, Ne.symm h, if_false, rowVal_cons]
      rw [ih]; ring

theorem distinct_filter {r : Row F} (hd : DistinctWires r) (q : Wire × F → Bool) :
    DistinctWires (r.filter q) := by
  unfold DistinctWires at *
  exact hd.sublist (List.Sublist.map _ List.filter_sublist)

theorem coeff_filter_ne {i j : Wire} (h : i ≠ j) (r : Row F) :
    coeff i (r.filter (fun e => e.1 ≠ j)) = coeff i r := by
  induction r with
  | nil => rfl
  | cons e r ih =>
    by_cases he : e.1 = j
    · have : (e :: r).filter (fun e => e.1 ≠ j) = r.filter (fun e => e.1 ≠ j) := by simp [he]
      rw [this, ih]
      simp [coeff, he, h]
    · have : (e :: r).filter (fun e => e.1 ≠ j) = e :: r.filter (fun e => e.1 ≠ j) := by simp [he]
      rw [this]
      unfold coeff
      rw [ih]

theorem rowVal_add_raw (z : Assignment F) (a b : Row F) (ha : DistinctWires a) (hb : DistinctWires b) :
    rowVal z (a.filter (fun e => (coeff e.1 b).isNone)) +
      rowVal z (b.map (addTerm a)) = rowVal z a + rowVal z b := by
  induction b generalizing a with
  | nil => simp [coeff]
  | cons e b ih =>
    have hb' := List.nodup_cons.mp (show (e.1 :: b.map Prod.fst).Nodup from hb)
    have ha' := distinct_filter ha (fun t => decide (t.1 ≠ e.1))
    have ih := ih _ ha' hb'.2
    rw [List.filter_filter] at ih
    have h1 : (a.filter (fun t => (coeff t.1 (e :: b)).isNone)) =
        a.filter (fun t => (coeff t.1 b).isNone && decide (t.1 ≠ e.1)) := by
      apply List.filter_congr
      intro t _
      by_cases h : t.1 = e.1 <;> simp [coeff, h]
    have h2 : b.map (addTerm (a.filter (fun t => decide (t.1 ≠ e.1)))) = b.map (addTerm a) := by
      apply List.map_congr_left
      intro t ht
      have : t.1 ≠ e.1 := fun hc => hb'.1 (hc ▸ List.mem_map_of_mem ht)
      unfold addTerm
      rw [coeff_filter_ne this]
    rw [h2] at ih
    rw [h1, List.map_cons, rowVal_cons, rowVal_cons]
    unfold addTerm at ih ⊢
    have h3 := rowVal_filter_ne z a ha e.1
    cases hc : coeff e.1 a with
    | none =>
      rw [hc] at h3
      simp only [Option.getD_none, mul_zero, add_zero] at h3
      rw [h3]
      linear_combination ih
    | some ca =>
      rw [hc] at h3
      simp only [Option.getD_some] at h3
      rw [h3]
      linear_combination ih

theorem rowVal_add (z : Assignment F) {a b : Row F} (ha : DistinctWires a) (hb : DistinctWires b) :
    rowVal z (a.add b) = rowVal z a + rowVal z b := by
  unfold add
  rw [rowVal_mk, rowVal_append, rowVal_add_raw z a b ha hb]

theorem mem_mk {e : Wire × F} {r : List (Wire × F)} (h : e ∈ mk r) : e ∈ r := List.mem_of_mem_filter h

theorem distinct_mk {r : List (Wire × F)} (h : DistinctWires r) : DistinctWires (mk r) :=
  distinct_filter h _

theorem distinct_ofWire (w : Wire) : DistinctWires (ofWire w : Row F) :=
  distinct_mk (r := [(w, 1)]) (by simp [DistinctWires])
theorem distinct_ofConst (v : F) : DistinctWires (ofConst v : Row F) :=
  distinct_mk (r := [(Wire.ONE, v)]) (by simp [DistinctWires])
theorem distinct_smul {r : Row F} (h : DistinctWires r) (k : F) : DistinctWires (r.smul k) := by
  apply distinct_mk
  unfold DistinctWires at *
  rw [List.map_map]
  exact h
theorem distinct_neg {r : Row F} (h : DistinctWires r) : DistinctWires r.neg := distinct_smul h _

theorem map_fst_addTail (a b : Row F) : (b.map (addTerm a)).map Prod.fst = b.map Prod.fst := by
  rw [List.map_map]
  apply List.map_congr_left
  intro e _
  simp only [Function.comp, addTerm]
  cases coeff e.1 a <;> rfl

theorem distinct_add {a b : Row F} (ha : DistinctWires a) (hb : DistinctWires b) :
    DistinctWires (a.add b) := by
  apply distinct_mk
  unfold DistinctWires
  rw [List.map_append, map_fst_addTail, List.nodup_append]
  refine ⟨distinct_filter ha _, hb, ?_⟩
  intro w hw w' hw' heq
  subst heq
  obtain ⟨e, he, rfl⟩ := List.mem_map.mp hw
  have := (List.mem_filter.mp he).2
  exact (coeff_isNone.mp (by simpa using this)) hw'
theorem distinct_sub {a b : Row F} (ha : DistinctWires a) (hb : DistinctWires b) :
    DistinctWires (a.sub b) := distinct_add ha (distinct_neg hb)

theorem rowVal_sub (z : Assignment F) {a b : Row F} (ha : DistinctWires a) (hb : DistinctWires b) :
    rowVal z (a.sub b) = rowVal z a - rowVal z b := by
  unfold sub
  rw [rowVal_add z ha (distinct_neg hb), rowVal_neg]; ring

theorem wires_add {a b : Row F} {e : Wire × F} (h : e ∈ a.add b) :
    e.1 ∈ a.map Prod.fst ∨ e.1 ∈ b.map Prod.fst := by
  have h := mem_mk h
  rw [List.mem_append] at h
  rcases h with h | h
  · exact Or.inl (List.mem_map_of_mem (List.mem_of_mem_filter h))
  · right
    rw [← map_fst_addTail a b]
    exact List.mem_map_of_mem h

theorem asConstant_eq {r : Row F} {c : F} (h : r.asConstant = some c) : r = [(Wire.ONE, c)] := by
  unfold asConstant at h
  split at h
  · rename_i hl
    obtain ⟨e, rfl⟩ := List.length_eq_one_iff.mp hl
    unfold coeff at h
    split at h
    · rename_i he
      obtain ⟨w, v⟩ := e
      simp at h he
      simp [h, he]
    · simp [coeff] at h
  · simp at h

theorem rowVal_asConstant (z : Assignment F) {r : Row F} {c : F} (h : r.asConstant = some c)
    (hz : z Wire.ONE = 1) : rowVal z r = c := by
  rw [asConstant_eq h]; simp [hz]

/-! ## evaluation -/

theorem evaluate_aux {x w : List F} {z : Assignment F} (r : Row F)
    (h : ∀ e ∈ r, readWire x w e.1 = some (z e.1)) (acc : F) :
    r.foldlM (fun sum e => (readWire x w e.1).map (fun v => sum + v * e.2)) acc
      = some (acc + rowVal z r) := by
  induction r generalizing acc with
  | nil => simp
  | cons e r ih =>
    rw [List.foldlM_cons, h e (by simp)]
    simp only [Option.map_some, Option.bind_eq_bind, Option.bind_some]
    rw [ih (fun e he => h e (by simp [he]))]
    simp; ring

theorem evaluate_eq {x w : List F} {z : Assignment F} {r : Row F}
    (h : ∀ e ∈ r, readWire x w e.1 = some (z e.1)) : r.evaluate x w = some (rowVal z r) := by
  unfold evaluate
  rw [evaluate_aux r h, zero_add]

theorem readWire_isSome {cs : CS F} {w : Wire} : (readWire cs.x cs.w w).isSome ↔ Allocated cs w := by
  cases w <;> simp [readWire, Allocated]

theorem evaluate_none_aux {x w : List F} (r : Row F) (acc : F) {e : Wire × F} (he : e ∈ r)
    (h : readWire x w e.1 = none) :
    r.foldlM (fun sum e => (readWire x w e.1).map (fun v => sum + v * e.2)) acc = none := by
  induction r generalizing acc with
  | nil => simp at he
  | cons d r ih =>
    rw [List.foldlM_cons]
    rcases List.mem_cons.mp he with rfl | he
    · simp [h]
    · cases hd : readWire x w d.1 with
      | none => simp
      | some v =>
        simp only [Option.map_some, Option.bind_eq_bind, Option.bind_some]
        exact ih _ he

theorem readWire_stored {cs : CS F} {w : Wire} (h : Allocated cs w) :
    readWire cs.x cs.w w = some (stored cs w) := by
  have := readWire_isSome.mpr h
  unfold stored CS.get
  cases hr : readWire cs.x cs.w w with
  | none => rw [hr] at this; simp at this
  | some v => simp

theorem evaluate_stored {cs : CS F} {r : Row F} (h : RowOk cs r) :
    r.evaluate cs.x cs.w = some (rowVal (stored cs) r) :=
  evaluate_eq (fun e he => readWire_stored (h.allocated e he))

theorem rowVal_congr {z z' : Assignment F} {r : Row F} (h : ∀ e ∈ r, z e.1 = z' e.1) :
    rowVal z r = rowVal z' r := by
  unfold rowVal
  congr 1
  apply List.map_congr_left
  intro e he
  rw [h e he]

end Row

namespace Spec.RowOk

variable {cs cs' : CS F} {a b : Row F}

theorem add (ha : RowOk cs a) (hb : RowOk cs b) : RowOk cs (a.add b) := by
  refine ⟨Row.distinct_add ha.1 hb.1, fun e he => ?_⟩
  rcases Row.wires_add he with h | h
  · obtain ⟨d, hd, h⟩ := List.mem_map.mp h; exact h ▸ ha.2 d hd
  · obtain ⟨d, hd, h⟩ := List.mem_map.mp h; exact h ▸ hb.2 d hd
theorem smul (ha : RowOk cs a) (k : F) : RowOk cs (a.smul k) := by
  refine ⟨Row.distinct_smul ha.1 k, fun e he => ?_⟩
  obtain ⟨d, hd, rfl⟩ := List.mem_map.mp (Row.mem_mk he)
  exact ha.2 d hd
theorem neg (ha : RowOk cs a) : RowOk cs a.neg := ha.smul _
theorem sub (ha : RowOk cs a) (hb : RowOk cs b) : RowOk cs (a.sub b) := ha.add hb.neg
theorem ofWire {w : Wire} (h : Allocated cs w) : RowOk cs (Row.ofWire w) := by
  refine ⟨Row.distinct_ofWire w, fun e he => ?_⟩
  have := Row.mem_mk he
  simp at this; subst this; exact h
theorem ofConst (h : Wf cs) (c : F) : RowOk cs (Row.ofConst c) := by
  refine ⟨Row.distinct_ofConst c, fun e he => ?_⟩
  have := Row.mem_mk he
  simp at this; subst this
  have := h.one
  show 0 < cs.x.length
  by_contra hc
  simp at hc; simp [hc] at this
theorem one (h : Wf cs) : RowOk cs Row.one := ofConst h 1
theorem mono (ha : RowOk cs a) (h : Extends cs cs') : RowOk cs' a := by
  refine ⟨ha.1, fun e he => ?_⟩
  have := ha.2 e he
  cases hw : e.1 with
  | inst i => rw [hw] at this; exact lt_of_lt_of_le this h.x.length_le
  | wit i => rw [hw] at this; exact lt_of_lt_of_le this h.w.length_le

end Spec.RowOk

end Kogarashi
