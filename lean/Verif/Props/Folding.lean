import Verif.Nova.FoldingProof
import Verif.Props.R1cs
import Verif.Props.Curve
import Verif.Props.Poly
import Mathlib.Tactic.FieldSimp

/-!
# Properties C49-C55: commitments, folding, conversions between the two fields
-/

namespace Kogarashi.Props

open Spec Nova

section generic
variable {F G : Type} [Field F] [DecidableEq F] [AddCommGroup G] [Module F G] [DecidableEq G]

/-! ## C49: the commitment is linear -/

/-- C49: `commit` is the multi-scalar sum over the indices covered by both vector and key. -/
theorem C49_sum (ck : List G) (a : List F) : commit ck a = msum a ck := commit_eq_msum ck a

/-- C49: `commit(a + r b) = commit(a) + r commit(b)` for vectors of the same length. -/
theorem C49_linear (ck : List G) {a b : List F} (h : a.length = b.length) (r : F) :
    commit ck (axpy r a b) = commit ck a + r • commit ck b := commit_axpy ck h r

/-- C49: only the prefix covered by the key matters, and only the part of the key covering the vector. -/
theorem C49_prefix (ck : List G) (a : List F) :
    commit ck (a.take ck.length) = commit ck a ∧ commit (ck.take a.length) a = commit ck a := by
  exact ⟨by rw [commit, commit, zip_take_left], by rw [commit, commit, zip_take_len]⟩

/-- C49, consequence: an entry beyond the key is not committed to. -/
theorem C49_beyond_key (ck : List G) (a t t' : List F) (h : a.length = ck.length) :
    commit ck (a ++ t) = commit ck (a ++ t') := by
  rw [← (C49_prefix ck (a ++ t)).1, ← (C49_prefix ck (a ++ t')).1]
  simp [← h]

example : commit (G := ZMod 13) [2, 5] [(1 : ZMod 13), 3, 7] = 4 := by decide +kernel

/-! ## C50-C52: folding -/

/-- What `is_sat_relaxed` decides: when the vectors cover the wires of the shape and the error vector has one
entry per row it does not panic and tests relaxed satisfaction (nothing about commitments). -/
theorem C50_is_sat_relaxed {S : Shape F} {i : RInst F G} {w : RWit F} (h : Fits S i.x w.w) (he : w.e.length = S.m) :
    ∃ b, isSatRelaxed S i w = some b ∧ (b = true ↔ RelaxedHolds S i.u i.x w.w w.e) := by
  have rd : ∀ rows, (∀ r ∈ rows, r ∈ S.a ++ S.b ++ S.c) → rows.length ≤ S.m →
      Reads rows S.m (i.x.length + 1) (i.u :: (i.x ++ w.w)) := fun rows hr hl =>
    ⟨hl, fun r hr' e he => (zAsg_relaxed (h.wires r (hr r hr') e he)).2⟩
  obtain ⟨b, hb, hiff⟩ := isSatRelaxed_of (G := G) (i := i) (w := w) (S := S)
    ⟨rd S.a (by intro r hr; simp [hr]) h.a, rd S.b (by intro r hr; simp [hr]) h.b, rd S.c (by intro r hr; simp [hr]) h.c⟩ he
  refine ⟨b, hb, hiff.trans ?_⟩
  have ev : ∀ rows : List (Row F), (∀ r ∈ rows, r ∈ S.a ++ S.b ++ S.c) → ∀ k,
      rowVal (zAsg (i.x.length + 1) (i.u :: (i.x ++ w.w))) (rows.getD k []) =
        rowVal (relaxedAsg i.u i.x w.w) (rows.getD k []) := by
    intro rows hr k
    refine Row.rowVal_congr fun e he => ?_
    rw [List.getD_eq_getElem?_getD] at he
    cases hk : rows[k]? with
    | none => simp [hk] at he
    | some r =>
      rw [hk] at he
      exact (zAsg_relaxed (h.wires r (hr r (List.mem_of_getElem? hk)) e he)).1
  unfold HoldsZ RelaxedHolds
  refine forall₂_congr fun k _ => ?_
  rw [ev S.a (by intro r hr; simp [hr]), ev S.b (by intro r hr; simp [hr]), ev S.c (by intro r hr; simp [hr])]

/-- What `is_sat` decides: plain satisfaction and that the witness opens the commitment. -/
theorem C50_is_sat {S : Shape F} {ck : List G} {i : Inst F G} {w : List F} (h : Fits S i.x w) :
    ∃ b, isSat S ck i w = some b ∧ (b = true ↔ PlainHolds S i.x w ∧ i.commitW = commit ck w) := by
  have rd : ∀ rows, (∀ r ∈ rows, r ∈ S.a ++ S.b ++ S.c) → rows.length ≤ S.m →
      Reads rows S.m (i.x.length + 1) (1 :: (i.x ++ w)) := fun rows hr hl =>
    ⟨hl, fun r hr' e he => (zAsg_relaxed (h.wires r (hr r hr') e he)).2⟩
  obtain ⟨b, hb, hiff⟩ := isSat_of (G := G) (i := i) (w := w) (S := S) (ck := ck)
    ⟨rd S.a (by intro r hr; simp [hr]) h.a, rd S.b (by intro r hr; simp [hr]) h.b, rd S.c (by intro r hr; simp [hr]) h.c⟩
  refine ⟨b, hb, hiff.trans (and_congr ?_ Iff.rfl)⟩
  have ev : ∀ rows : List (Row F), (∀ r ∈ rows, r ∈ S.a ++ S.b ++ S.c) → ∀ k,
      rowVal (zAsg (i.x.length + 1) (1 :: (i.x ++ w))) (rows.getD k []) =
        rowVal (relaxedAsg 1 i.x w) (rows.getD k []) := by
    intro rows hr k
    refine Row.rowVal_congr fun e he => ?_
    rw [List.getD_eq_getElem?_getD] at he
    cases hk : rows[k]? with
    | none => simp [hk] at he
    | some r =>
      rw [hk] at he
      exact (zAsg_relaxed (h.wires r (hr r (List.mem_of_getElem? hk)) e he)).1
  unfold HoldsZ PlainHolds
  refine forall₂_congr fun k _ => ?_
  rw [ev S.a (by intro r hr; simp [hr]), ev S.b (by intro r hr; simp [hr]), ev S.c (by intro r hr; simp [hr])]
  simp

/-- The folded pair, as functions of the challenge. -/
theorem fold_holds {S : Shape F} {i1 i' : RInst F G} {w1 w' : RWit F} {i2 : Inst F G} {w2 t : List F} {r : F} {T : G}
    (hx : i1.x.length = i2.x.length) (hw : w1.w.length = w2.length) (ht : w1.e.length = t.length)
    (hi : i1.fold i2 r T = some i') (hw' : w1.fold w2 r t = some w') :
    (HoldsZ S (i'.x.length + 1) (i'.u :: (i'.x ++ w'.w)) i'.u w'.e ↔ ∀ k < S.m,
      (rowVal (zAsg (i1.x.length + 1) (i1.u :: (i1.x ++ w1.w))) (S.a.getD k []) +
        r * rowVal (zAsg (i1.x.length + 1) (1 :: (i2.x ++ w2))) (S.a.getD k [])) *
      (rowVal (zAsg (i1.x.length + 1) (i1.u :: (i1.x ++ w1.w))) (S.b.getD k []) +
        r * rowVal (zAsg (i1.x.length + 1) (1 :: (i2.x ++ w2))) (S.b.getD k [])) =
      (i1.u + r) * (rowVal (zAsg (i1.x.length + 1) (i1.u :: (i1.x ++ w1.w))) (S.c.getD k []) +
        r * rowVal (zAsg (i1.x.length + 1) (1 :: (i2.x ++ w2))) (S.c.getD k [])) +
        (w1.e.getD k 0 + r * t.getD k 0)) ∧
    (i'.u :: (i'.x ++ w'.w)).length = (i1.u :: (i1.x ++ w1.w)).length ∧ i'.x.length = i1.x.length ∧
    w'.w.length = w1.w.length ∧ w'.e.length = w1.e.length := by
  obtain ⟨-, rfl⟩ := RInst.fold_some hi
  rw [RWit.fold_eq hw ht] at hw'
  cases hw'
  dsimp only
  rw [length_axpy hx, fold_z hx]
  have hl : (i1.u :: (i1.x ++ w1.w)).length = (1 :: (i2.x ++ w2)).length := by simp [hx, hw]
  refine ⟨?_, length_axpy hl, rfl, length_axpy hw, length_axpy ht⟩
  unfold HoldsZ
  refine forall₂_congr fun k _ => ?_
  rw [rowVal_axpy (zAsg_axpy hl), rowVal_axpy (zAsg_axpy hl), rowVal_axpy (zAsg_axpy hl), getD_axpy ht]

/-- C50, one fold, every challenge: a satisfying relaxed pair and a satisfying plain pair of the same lengths
fold, with the cross term the prover computes and any challenge `r`, into a satisfying relaxed pair. -/
theorem C50_fold {S : Shape F} {ck : List G} {i1 : RInst F G} {w1 : RWit F} {i2 : Inst F G} {w2 : List F}
    (h1 : isSatRelaxed S i1 w1 = some true) (h2 : isSat S ck i2 w2 = some true)
    (hx : i1.x.length = i2.x.length) (hw : w1.w.length = w2.length) :
    ∃ t, crossTerm S i1 w1 i2 w2 = some t ∧ ∀ (r : F) (T : G), ∃ i' w', i1.fold i2 r T = some i' ∧
      w1.fold w2 r t = some w' ∧ isSatRelaxed S i' w' = some true := by
  obtain ⟨r1, he, s1⟩ := isSatRelaxed_some h1
  obtain ⟨r2, s2⟩ := isSat_some h2
  obtain ⟨t, ht, tl, tv⟩ := crossTerm_of r1 r2
  refine ⟨t, ht, fun r T => ?_⟩
  have ht' : w1.e.length = t.length := by rw [he, tl]
  refine ⟨_, _, RInst.fold_eq hx, RWit.fold_eq hw ht', ?_⟩
  obtain ⟨hiff, hlen, hlx, hlw, hle⟩ := fold_holds (S := S) (r := r) (T := T) hx hw ht' (RInst.fold_eq hx) (RWit.fold_eq hw ht')
  obtain ⟨b, hb, hb'⟩ := isSatRelaxed_of (G := G) (S := S)
    (i := ⟨i1.commitW + r • i2.commitW, i1.commitE + r • T, i1.u + r, axpy r i1.x i2.x⟩)
    (w := ⟨axpy r w1.w w2, axpy r w1.e t⟩)
    ⟨by rw [hlx]; exact r1.a.length_eq hlen.symm, by rw [hlx]; exact r1.b.length_eq hlen.symm,
      by rw [hlx]; exact r1.c.length_eq hlen.symm⟩ (by rw [hle, he])
  rw [hb, hb'.mpr (hiff.mpr fun k hk => ?_)]
  have e1 := s1.mp rfl k hk
  have e2 := (s2.mp rfl).1 k hk
  have e3 := tv k
  rw [← hx] at e2 e3
  rw [e3]
  simp only [List.getD_nil] at e2
  linear_combination e1 + r ^ 2 * e2

/-- C52, special soundness with fixed witness vectors: if for three different challenges the fold of
`(i1, w1)`, `(i2, w2)` with error term `t` satisfies the shape, then `(i1, w1)` does, the constraints hold for
`(i2, w2)` (which passes `is_sat` as soon as it opens its commitment), and `t` is the cross term. -/
theorem C52_special_soundness {S : Shape F} {ck : List G} {i1 : RInst F G} {w1 : RWit F} {i2 : Inst F G}
    {w2 t : List F} {T : G} {ra rb rc : F} (hab : ra ≠ rb) (hac : ra ≠ rc) (hbc : rb ≠ rc)
    (hx : i1.x.length = i2.x.length) (hw : w1.w.length = w2.length) (ht : w1.e.length = t.length)
    (h : ∀ r ∈ [ra, rb, rc], ∃ i' w', i1.fold i2 r T = some i' ∧ w1.fold w2 r t = some w' ∧
      isSatRelaxed S i' w' = some true) :
    isSatRelaxed S i1 w1 = some true ∧
    isSatRelaxed S (RInst.ofInst i2) (RWit.ofWit S w2) = some true ∧
    (i2.commitW = commit ck w2 → isSat S ck i2 w2 = some true) ∧
    crossTerm S i1 w1 i2 w2 = some t := by
  have key : ∀ r ∈ [ra, rb, rc], ReadsAll S (i1.x.length + 1) (i1.u :: (i1.x ++ w1.w)) ∧ w1.e.length = S.m ∧ ∀ k < S.m,
      (rowVal (zAsg (i1.x.length + 1) (i1.u :: (i1.x ++ w1.w))) (S.a.getD k []) +
        r * rowVal (zAsg (i1.x.length + 1) (1 :: (i2.x ++ w2))) (S.a.getD k [])) *
      (rowVal (zAsg (i1.x.length + 1) (i1.u :: (i1.x ++ w1.w))) (S.b.getD k []) +
        r * rowVal (zAsg (i1.x.length + 1) (1 :: (i2.x ++ w2))) (S.b.getD k [])) =
      (i1.u + r) * (rowVal (zAsg (i1.x.length + 1) (i1.u :: (i1.x ++ w1.w))) (S.c.getD k []) +
        r * rowVal (zAsg (i1.x.length + 1) (1 :: (i2.x ++ w2))) (S.c.getD k [])) +
        (w1.e.getD k 0 + r * t.getD k 0) := by
    intro r hr
    obtain ⟨i', w', hi, hw', hs⟩ := h r hr
    obtain ⟨hiff, hlen, hlx, hlw, hle⟩ := fold_holds (S := S) hx hw ht hi hw'
    obtain ⟨rd, he, s⟩ := isSatRelaxed_some hs
    rw [hlx] at rd
    exact ⟨⟨rd.a.length_eq hlen, rd.b.length_eq hlen, rd.c.length_eq hlen⟩, by rw [← hle, he], hiff.mp (s.mp rfl)⟩
  obtain ⟨r1, he, ka⟩ := key ra (by simp)
  obtain ⟨-, -, kb⟩ := key rb (by simp)
  obtain ⟨-, -, kc⟩ := key rc (by simp)
  have hlen : (i1.u :: (i1.x ++ w1.w)).length = (1 :: (i2.x ++ w2)).length := by simp [hx, hw]
  have r2 : ReadsAll S (i2.x.length + 1) (1 :: (i2.x ++ w2)) := by
    rw [← hx]
    exact ⟨r1.a.length_eq hlen, r1.b.length_eq hlen, r1.c.length_eq hlen⟩
  have hpoly : ∀ a1 a2 b1 b2 c1 c2 u e t' : F,
      (∀ r ∈ [ra, rb, rc], (a1 + r * a2) * (b1 + r * b2) = (u + r) * (c1 + r * c2) + (e + r * t')) →
      a1 * b1 = u * c1 + e ∧ a2 * b2 = c2 ∧ t' = a2 * b1 + a1 * b2 - c2 * u - c1 := by
    intro a1 a2 b1 b2 c1 c2 u e t' hr
    have ha := hr ra (by simp)
    have hb := hr rb (by simp)
    have hc := hr rc (by simp)
    have e1 : (ra - rb) * ((a1 * b2 + a2 * b1 - u * c2 - c1 - t') + (ra + rb) * (a2 * b2 - c2)) = 0 := by
      linear_combination ha - hb
    have e2 : (ra - rc) * ((a1 * b2 + a2 * b1 - u * c2 - c1 - t') + (ra + rc) * (a2 * b2 - c2)) = 0 := by
      linear_combination ha - hc
    have e1' := (mul_eq_zero.mp e1).resolve_left (sub_ne_zero.mpr hab)
    have e2' := (mul_eq_zero.mp e2).resolve_left (sub_ne_zero.mpr hac)
    have e3 : (rb - rc) * (a2 * b2 - c2) = 0 := by linear_combination e1' - e2'
    have e3' := (mul_eq_zero.mp e3).resolve_left (sub_ne_zero.mpr hbc)
    refine ⟨?_, sub_eq_zero.mp e3', ?_⟩
    · linear_combination ha - ra * e1' + ra * rb * e3'
    · linear_combination -e1' + (ra + rb) * e3'
  have all := fun k hk => hpoly _ _ _ _ _ _ _ _ _ (by
    intro r hr
    simp only [List.mem_cons, List.not_mem_nil, or_false] at hr
    rcases hr with rfl | rfl | rfl
    · exact ka k hk
    · exact kb k hk
    · exact kc k hk)
  have plain : HoldsZ S (i2.x.length + 1) (1 :: (i2.x ++ w2)) 1 [] := by
    intro k hk
    rw [← hx]
    simpa using (all k hk).2.1
  refine ⟨?_, ?_, ?_, ?_⟩
  · obtain ⟨b, hb, hb'⟩ := isSatRelaxed_of (G := G) (i := i1) (w := w1) r1 he
    rw [hb, hb'.mpr fun k hk => (all k hk).1]
  · obtain ⟨b, hb, hb'⟩ := isSatRelaxed_of (G := G) (S := S) (i := RInst.ofInst i2) (w := RWit.ofWit S w2) r2
      (by simp [RWit.ofWit])
    rw [hb, hb'.mpr]
    intro k hk
    have := plain k hk
    simp only [RInst.ofInst, RWit.ofWit]
    rw [this]
    simp [List.getD_eq_getElem?_getD, List.getElem?_replicate, hk]
  · intro hc
    obtain ⟨b, hb, hb'⟩ := isSat_of (G := G) (ck := ck) (S := S) (i := i2) (w := w2) r2
    rw [hb, hb'.mpr ⟨plain, hc⟩]
  · obtain ⟨t', ht', tl, tv⟩ := crossTerm_of r1 r2
    rw [ht']
    congr 1
    refine List.ext_getElem (by rw [tl, ← ht, he]) fun k h1 h2 => ?_
    have := tv k
    rw [← hx, ← (all k (by omega)).2.2] at this
    simpa [h1, h2] using this

theorem ext_getD {a b : List F} (h : a.length = b.length) (h' : ∀ i, a.getD i 0 = b.getD i 0) : a = b := by
  refine List.ext_getElem h fun k h1 h2 => ?_
  simpa [h1, h2] using h' k

/-- A relation between the elements of a commitment key with not all coefficients zero. -/
def KeyRelation (ck : List G) (v : List F) : Prop := v.length ≤ ck.length ∧ (∃ c ∈ v, c ≠ 0) ∧ msum v ck = 0

/-- Two different vectors with the same commitment give a relation between the key elements. -/
theorem relation_of_ne {ck : List G} {a b : List F} (h : a.length = b.length) (hk : a.length ≤ ck.length)
    (hc : commit ck a = commit ck b) (hn : a ≠ b) : ∃ v : List F, KeyRelation ck v := by
  refine ⟨axpy (-1) a b, by rw [length_axpy h]; exact hk, ?_, ?_⟩
  · by_contra hcon
    push Not at hcon
    refine hn (ext_getD h fun i => ?_)
    have hi := getD_axpy (r := (-1 : F)) h i
    have : (axpy (-1) a b).getD i 0 = 0 := by
      rw [List.getD_eq_getElem?_getD]
      cases hx : (axpy (-1) a b)[i]? with
      | none => rfl
      | some y => exact hcon y (List.mem_of_getElem? hx)
    rw [this] at hi
    linear_combination -hi
  · rw [← commit_eq_msum, commit_axpy ck h, hc]; module

/-- Solving for the two folded vectors from two folds. -/
theorem unfold_vec {va vb : List F} (h : va.length = vb.length) {ra rb : F} (hr : ra ≠ rb) :
    ∃ v1 v2 : List F, v1.length = va.length ∧ v2.length = va.length ∧ va = axpy ra v1 v2 ∧ vb = axpy rb v1 v2 := by
  have hne : ra - rb ≠ 0 := sub_ne_zero.mpr hr
  have l2 : (vecScale (axpy (-1) va vb) (ra - rb)⁻¹).length = va.length := by rw [length_vecScale, length_axpy h]
  have l1 : (axpy (-ra) va (vecScale (axpy (-1) va vb) (ra - rb)⁻¹)).length = va.length := length_axpy l2.symm
  refine ⟨_, _, l1, l2, ext_getD (by rw [length_axpy (l1.trans l2.symm), l1]) fun i => ?_,
    ext_getD (by rw [length_axpy (l1.trans l2.symm), l1, h]) fun i => ?_⟩
  · rw [getD_axpy (l1.trans l2.symm), getD_axpy l2.symm]; ring
  · rw [getD_axpy (l1.trans l2.symm), getD_axpy l2.symm, getD_vecScale, getD_axpy h]
    field_simp; ring

/-- C52, extraction: from openings `(w_r, e_r)` of the folded instance for three different challenges, chosen
freely by the prover for each challenge, either one obtains vectors opening the commitments of both original
instances and satisfying them, or a non-trivial relation between the elements of the commitment key. -/
theorem C52_extraction {S : Shape F} {ck : List G} {i1 : RInst F G} {i2 : Inst F G} {T : G} {n : Nat}
    {ra rb rc : F} (hab : ra ≠ rb) (hac : ra ≠ rc) (hbc : rb ≠ rc) (hn : n ≤ ck.length) (hm : S.m ≤ ck.length)
    (hx : i1.x.length = i2.x.length)
    (h : ∀ r ∈ [ra, rb, rc], ∃ i' w', i1.fold i2 r T = some i' ∧ isSatRelaxed S i' w' = some true ∧ w'.w.length = n ∧
      commit ck w'.w = i'.commitW ∧ commit ck w'.e = i'.commitE) :
    (∃ v : List F, KeyRelation ck v) ∨
    ∃ (w1 : RWit F) (w2 : List F), isSatRelaxed S i1 w1 = some true ∧ commit ck w1.w = i1.commitW ∧
      commit ck w1.e = i1.commitE ∧ isSat S ck i2 w2 = some true := by
  obtain ⟨ia, wa, fa, sa, na, ca, ea⟩ := h ra (by simp)
  obtain ⟨ib, wb, fb, sb, nb, cb, eb⟩ := h rb (by simp)
  obtain ⟨ic, wc, fc, sc, nc, cc, ec⟩ := h rc (by simp)
  obtain ⟨-, rfl⟩ := RInst.fold_some fa
  obtain ⟨-, rfl⟩ := RInst.fold_some fb
  obtain ⟨-, rfl⟩ := RInst.fold_some fc
  dsimp only at ca cb cc ea eb ec
  have ma := (isSatRelaxed_some sa).2.1
  have mb := (isSatRelaxed_some sb).2.1
  have mc := (isSatRelaxed_some sc).2.1
  obtain ⟨w1, w2, lw1, lw2, hwa, hwb⟩ := unfold_vec (na.trans nb.symm) hab
  obtain ⟨e1, t, le1, lt, hea, heb⟩ := unfold_vec (ma.trans mb.symm) hab
  have lw : w1.length = w2.length := lw1.trans lw2.symm
  have le : e1.length = t.length := le1.trans lt.symm
  -- the commitments of the extracted vectors
  have solve : ∀ {v1 v2 : List F} {A B : G}, v1.length = v2.length → commit ck (axpy ra v1 v2) = A + ra • B →
      commit ck (axpy rb v1 v2) = A + rb • B → commit ck v1 = A ∧ commit ck v2 = B := by
    intro v1 v2 A B hl h1 h2
    rw [commit_axpy ck hl] at h1 h2
    have h3 : (ra - rb) • (commit ck v2 - B) = 0 := by
      have : (ra - rb) • (commit ck v2 - B) = (commit ck v1 + ra • commit ck v2) - (commit ck v1 + rb • commit ck v2)
        - ((A + ra • B) - (A + rb • B)) := by module
      rw [this, h1, h2]; simp
    have h4 : commit ck v2 = B := by
      have h5 : (ra - rb)⁻¹ • ((ra - rb) • (commit ck v2 - B)) = commit ck v2 - B := by
        rw [smul_smul, inv_mul_cancel₀ (sub_ne_zero.mpr hab), one_smul]
      rw [h3, smul_zero] at h5
      exact sub_eq_zero.mp h5.symm
    refine ⟨?_, h4⟩
    rw [h4] at h1
    exact add_right_cancel h1
  obtain ⟨cw1, cw2⟩ := solve lw (hwa ▸ ca) (hwb ▸ cb)
  obtain ⟨ce1, ct⟩ := solve le (hea ▸ ea) (heb ▸ eb)
  by_cases h1 : wc.w = axpy rc w1 w2
  swap
  · exact Or.inl (relation_of_ne (by rw [length_axpy lw, lw1, nc, na]) (by omega)
      (by rw [cc, commit_axpy ck lw, cw1, cw2]) h1)
  by_cases h2 : wc.e = axpy rc e1 t
  swap
  · exact Or.inl (relation_of_ne (by rw [length_axpy le, le1, mc, ma]) (by omega)
      (by rw [ec, commit_axpy ck le, ce1, ct]) h2)
  refine Or.inr ⟨⟨w1, e1⟩, w2, ?_⟩
  have wit : ∀ {r : F} {w : RWit F}, w.w = axpy r w1 w2 → w.e = axpy r e1 t →
      (⟨w1, e1⟩ : RWit F).fold w2 r t = some w := by
    intro r w hw he
    rw [RWit.fold_eq lw le, ← hw, ← he]
  obtain ⟨s1, -, s2, -⟩ := C52_special_soundness (S := S) (ck := ck) (i1 := i1) (w1 := ⟨w1, e1⟩) (i2 := i2) (w2 := w2)
    (t := t) (T := T) hab hac hbc hx lw le (by
      intro r hr
      simp only [List.mem_cons, List.not_mem_nil, or_false] at hr
      rcases hr with rfl | rfl | rfl
      · exact ⟨_, _, fa, wit hwa hea, sa⟩
      · exact ⟨_, _, fb, wit hwb heb, sb⟩
      · exact ⟨_, _, fc, wit h1 h2, sc⟩)
  exact ⟨s1, cw1, ce1, s2 cw2.symm⟩

end generic

section protocol
variable {p q : Nat} [Fact p.Prime] [Fact q.Prime] {G : Type} [AddCommGroup G] [Module (ZMod p) G] [DecidableEq G]

/-- C50, `Prover::prove`: it does not panic and returns a satisfying pair of the same lengths. -/
theorem C50_prove (hp : p ≤ 2 ^ 256) (E : Env q G) {S : Shape (ZMod p)} {ck : List G} {i1 : RInst (ZMod p) G}
    {w1 : RWit (ZMod p)} {i2 : Inst (ZMod p) G} {w2 : List (ZMod p)}
    (h1 : isSatRelaxed S i1 w1 = some true) (h2 : isSat S ck i2 w2 = some true)
    (hx : i1.x.length = i2.x.length) (hw : w1.w.length = w2.length) :
    ∃ i' w' T, prove E S ck i1 w1 i2 w2 = some (i', w', T) ∧ isSatRelaxed S i' w' = some true ∧
      i'.x.length = i1.x.length ∧ w'.w.length = w1.w.length := by
  obtain ⟨t, ht, hall⟩ := C50_fold (G := G) h1 h2 hx hw
  obtain ⟨r, hr⟩ := challenge_isSome hp E (commit ck t) i1
  obtain ⟨i', w', hi, hw', hs⟩ := hall r (commit ck t)
  refine ⟨i', w', commit ck t, ?_, hs, ?_, ?_⟩
  · unfold prove
    rw [ht]
    simp only [Option.bind_eq_bind, Option.bind_some]
    rw [hr]
    simp only [Option.bind_some]
    rw [hi]
    simp only [Option.bind_some]
    rw [hw']
    rfl
  · obtain ⟨-, rfl⟩ := RInst.fold_some hi
    exact length_axpy hx
  · unfold RWit.fold at hw'
    simp only [Option.bind_eq_bind, Option.bind_eq_some_iff] at hw'
    obtain ⟨e, he, w, hw'', h'⟩ := hw'
    cases h'
    obtain ⟨-, rfl⟩ := zipVec_some hw''
    simp [hw]

/-- Successive folds by the prover. -/
def proveAll (E : Env q G) (S : Shape (ZMod p)) (ck : List G) : RInst (ZMod p) G → RWit (ZMod p) →
    List (Inst (ZMod p) G × List (ZMod p)) → Option (RInst (ZMod p) G × RWit (ZMod p))
  | i, w, [] => some (i, w)
  | i, w, (i2, w2) :: rest => do
    let (i', w', _) ← prove E S ck i w i2 w2
    proveAll E S ck i' w' rest

/-- C50: any number of successive folds of satisfying pairs into a satisfying pair stays satisfying. -/
theorem C50_history (hp : p ≤ 2 ^ 256) (E : Env q G) {S : Shape (ZMod p)} {ck : List G}
    (hist : List (Inst (ZMod p) G × List (ZMod p))) : ∀ {i1 : RInst (ZMod p) G} {w1 : RWit (ZMod p)},
    isSatRelaxed S i1 w1 = some true →
    (∀ e ∈ hist, isSat S ck e.1 e.2 = some true ∧ e.1.x.length = i1.x.length ∧ e.2.length = w1.w.length) →
    ∃ i' w', proveAll E S ck i1 w1 hist = some (i', w') ∧ isSatRelaxed S i' w' = some true := by
  induction hist with
  | nil => intro i1 w1 h1 _; exact ⟨i1, w1, rfl, h1⟩
  | cons e hist ih =>
    intro i1 w1 h1 h2
    obtain ⟨he, hx, hw⟩ := h2 e (by simp)
    obtain ⟨i', w', T, hpr, hs, hlx, hlw⟩ := C50_prove hp E h1 he hx.symm hw.symm
    obtain ⟨i'', w'', h3, h4⟩ := ih hs (fun e he => by
      obtain ⟨a, b, c⟩ := h2 e (by simp [he])
      exact ⟨a, by rw [b, hlx], by rw [c, hlw]⟩)
    refine ⟨i'', w'', ?_, h4⟩
    obtain ⟨i2, w2⟩ := e
    unfold proveAll
    rw [hpr]
    exact h3

/-- C51: on the commitment the prover returns, the verifier recomputes the prover's folded instance. -/
theorem C51_agree {E : Env q G} {S : Shape (ZMod p)} {ck : List G} {i1 i' : RInst (ZMod p) G}
    {w1 w' : RWit (ZMod p)} {i2 : Inst (ZMod p) G} {w2 : List (ZMod p)} {T : G}
    (h : prove E S ck i1 w1 i2 w2 = some (i', w', T)) : verify E T i1 i2 = some i' := by
  unfold prove at h
  simp only [Option.bind_eq_bind, Option.bind_eq_some_iff] at h
  obtain ⟨t, ht, r, hr, i, hi, w, hw, he⟩ := h
  cases he
  unfold verify
  rw [hr]
  exact hi

/-- C51: if the inputs' commitments open, so do the folded ones. -/
theorem C51_openings {E : Env q G} {S : Shape (ZMod p)} {ck : List G} {i1 i' : RInst (ZMod p) G}
    {w1 w' : RWit (ZMod p)} {i2 : Inst (ZMod p) G} {w2 : List (ZMod p)} {T : G}
    (h : prove E S ck i1 w1 i2 w2 = some (i', w', T)) (hw : commit ck w1.w = i1.commitW)
    (he : commit ck w1.e = i1.commitE) (hw2 : commit ck w2 = i2.commitW) :
    commit ck w'.w = i'.commitW ∧ commit ck w'.e = i'.commitE := by
  unfold prove at h
  simp only [Option.bind_eq_bind, Option.bind_eq_some_iff] at h
  obtain ⟨t, ht, r, hr, i, hi, w, hwf, h'⟩ := h
  cases h'
  obtain ⟨-, rfl⟩ := RInst.fold_some hi
  unfold RWit.fold at hwf
  simp only [Option.bind_eq_bind, Option.bind_eq_some_iff] at hwf
  obtain ⟨e, hze, w, hzw, h'⟩ := hwf
  cases h'
  obtain ⟨l1, rfl⟩ := zipVec_some hze
  obtain ⟨l2, rfl⟩ := zipVec_some hzw
  rw [length_vecScale] at l1 l2
  dsimp only
  rw [axpy_eq, axpy_eq, commit_axpy ck l1, commit_axpy ck l2, hw, he, hw2]
  exact ⟨rfl, rfl⟩

/-! ## C53: the challenge -/

/-- C53 is false: the challenge (the increment of `u`) computed by `Verifier::verify` does not depend on the new
instance at all; only the running instance and the cross-term commitment are absorbed. -/
theorem C53_challenge_refuted {E : Env q G} {T : G} {i1 o o' : RInst (ZMod p) G} {i2 i2' : Inst (ZMod p) G}
    (h : verify E T i1 i2 = some o) (h' : verify E T i1 i2' = some o') : o.u = o'.u := by
  unfold verify at h h'
  simp only [Option.bind_eq_bind, Option.bind_eq_some_iff] at h h'
  obtain ⟨r, hr, hf⟩ := h
  obtain ⟨r', hr', hf'⟩ := h'
  rw [hr] at hr'
  cases hr'
  obtain ⟨-, rfl⟩ := RInst.fold_some hf
  obtain ⟨-, rfl⟩ := RInst.fold_some hf'
  rfl

/-- The instance a cheating prover folds in: it makes the folded assignment a multiple of a known solution. -/
def forgedX (u r : ZMod p) (x s : List (ZMod p)) : List (ZMod p) :=
  vecScale (axpy (-1) (vecScale s (u + r)) x) r⁻¹

theorem axpy_forgedX {u r : ZMod p} (hr : r ≠ 0) {x s : List (ZMod p)} (h : x.length = s.length) :
    axpy r x (forgedX u r x s) = vecScale s (u + r) ∧ (forgedX u r x s).length = x.length := by
  have l1 : (vecScale s (u + r)).length = x.length := by simp [h]
  have l2 : (forgedX u r x s).length = x.length := by simp [forgedX, length_axpy l1, h]
  refine ⟨ext_getD (by rw [length_axpy l2.symm, l1]) fun i => ?_, l2⟩
  rw [getD_axpy l2.symm, forgedX, getD_vecScale, getD_axpy l1]
  field_simp; ring

/-- C53, consequence: because the challenge is known before the new instance is chosen, a cheating prover who
knows one solution `(s, sw)` of the shape can, for every running pair with zero error vector, choose a new
instance that the verifier folds into a satisfied pair with matching commitments, whether or not the new
instance is satisfiable. -/
theorem C53_forgery_refuted {E : Env q G} {S : Shape (ZMod p)} {ck : List G} {i1 : RInst (ZMod p) G}
    {w1 : List (ZMod p)} {s : Inst (ZMod p) G} {sw : List (ZMod p)} {r : ZMod p}
    (hs : isSat S ck s sw = some true) (hr : challenge E 0 i1 = some r) (h0 : r ≠ 0)
    (hx : i1.x.length = s.x.length) (hl : w1.length = sw.length) (hw : commit ck w1 = i1.commitW)
    (he : i1.commitE = 0) :
    ∃ i' : RInst (ZMod p) G,
      verify E 0 i1 ⟨commit ck (forgedX i1.u r w1 sw), forgedX i1.u r i1.x s.x⟩ = some i' ∧
      isSatRelaxed S i' ⟨vecScale sw (i1.u + r), List.replicate S.m (0 : ZMod p)⟩ = some true ∧
      commit ck (vecScale sw (i1.u + r)) = i'.commitW ∧ commit ck (List.replicate S.m (0 : ZMod p)) = i'.commitE := by
  obtain ⟨fx, lx⟩ := axpy_forgedX (u := i1.u) h0 hx
  obtain ⟨fw, lw⟩ := axpy_forgedX (u := i1.u) h0 hl
  refine ⟨_, by unfold verify; rw [hr]; exact RInst.fold_eq lx.symm, ?_, ?_, ?_⟩
  · obtain ⟨rd, hiff⟩ := isSat_some hs
    have hplain := (hiff.mp rfl).1
    dsimp only
    rw [fx]
    have hz : (i1.u + r) :: (vecScale s.x (i1.u + r) ++ vecScale sw (i1.u + r)) =
        vecScale (1 :: (s.x ++ sw)) (i1.u + r) := by simp [vecScale]
    have hlen : (vecScale (1 :: (s.x ++ sw)) (i1.u + r)).length = (1 :: (s.x ++ sw)).length := by simp
    obtain ⟨b, hb, hb'⟩ := isSatRelaxed_of (G := G) (S := S)
      (i := ⟨i1.commitW + r • commit ck (forgedX i1.u r w1 sw), i1.commitE + r • 0, i1.u + r, vecScale s.x (i1.u + r)⟩)
      (w := ⟨vecScale sw (i1.u + r), List.replicate S.m (0 : ZMod p)⟩)
      (by
        dsimp only
        rw [hz, length_vecScale]
        exact ⟨rd.a.length_eq hlen.symm, rd.b.length_eq hlen.symm, rd.c.length_eq hlen.symm⟩) (by simp)
    rw [hb, hb'.mpr]
    intro k hk
    dsimp only
    rw [hz, length_vecScale]
    have hasg : ∀ row : Row (ZMod p), rowVal (zAsg (s.x.length + 1) (vecScale (1 :: (s.x ++ sw)) (i1.u + r))) row =
        rowVal (zAsg (s.x.length + 1) (1 :: (s.x ++ sw))) row * (i1.u + r) := by
      intro row
      have hk : ∀ k, zAsg (s.x.length + 1) (vecScale (1 :: (s.x ++ sw)) (i1.u + r)) k =
          zAsg (s.x.length + 1) (1 :: (s.x ++ sw)) k * (i1.u + r) := by
        intro k
        cases k with
        | inst i => simpa [zAsg, Matrix.readZ, List.getD_eq_getElem?_getD] using getD_vecScale (1 :: (s.x ++ sw)) (i1.u + r) i
        | wit i =>
          simpa [zAsg, Matrix.readZ, List.getD_eq_getElem?_getD] using
            getD_vecScale (1 :: (s.x ++ sw)) (i1.u + r) (i + (s.x.length + 1))
      induction row with
      | nil => simp [rowVal]
      | cons e row ih =>
        have h3 : ∀ z : Assignment (ZMod p), rowVal z (e :: row) = z e.1 * e.2 + rowVal z row := fun z => by simp [rowVal]
        rw [h3, h3, ih, hk]; ring
    rw [hasg, hasg, hasg]
    have := hplain k hk
    simp only [List.getD_nil] at this
    have hz0 : (List.replicate S.m (0 : ZMod p)).getD k 0 = 0 := by
      simp [List.getD_eq_getElem?_getD, List.getElem?_replicate, hk]
    rw [hz0]
    linear_combination (i1.u + r) ^ 2 * this
  · dsimp only
    rw [← fw, commit_axpy ck lw.symm, hw]
  · dsimp only
    rw [he, smul_zero, add_zero, commit_eq_msum, msum]
    refine Finset.sum_eq_zero fun k hk => ?_
    have : (List.replicate S.m (0 : ZMod p)).getD k 0 = 0 := by
      rw [List.getD_eq_getElem?_getD, List.getElem?_replicate]; split <;> rfl
    rw [this, zero_smul]

/-! ## C55: reading an element of one field in the other -/

/-- C55: `scalar_as_base` and `base_as_scalar` reduce the integer modulo the other prime. -/
theorem C55_value (hp : p ≤ 2 ^ 256) (x : ZMod p) : (reread x : ZMod q) = ((x.val : Nat) : ZMod q) := reread_eq hp x

/-- C55: integers below both primes are unchanged and come back. -/
theorem C55_round_trip (hp : p ≤ 2 ^ 256) (hq : q ≤ 2 ^ 256) {x : ZMod p} (h : x.val < q) :
    (reread x : ZMod q).val = x.val ∧ (reread (reread x : ZMod q) : ZMod p) = x := by
  have h1 : (reread x : ZMod q).val = x.val := by rw [reread_eq hp, ZMod.val_natCast, Nat.mod_eq_of_lt h]
  exact ⟨h1, by rw [reread_eq hq, h1]; simp⟩

/-- C55: a value not below the other prime does not come back. -/
theorem C55_round_trip_only (hp : p ≤ 2 ^ 256) (hq : q ≤ 2 ^ 256) {x : ZMod p} (h : q ≤ x.val) :
    (reread (reread x : ZMod q) : ZMod p) ≠ x := by
  rw [reread_eq hq]
  intro hc
  have h1 : (reread x : ZMod q).val < q := ZMod.val_lt _
  have := congrArg ZMod.val hc
  rw [ZMod.val_natCast, Nat.mod_eq_of_lt (h1.trans_le (h.trans x.val_lt.le))] at this
  omega

/-- C55: a transcript output of `n` bits is the integer `sponge mod 2^n`; when `2^n` is below both primes it is
the same integer in the two fields. -/
theorem C55_squeeze (hp : p ≤ 2 ^ 256) (consts state : List (ZMod q)) {n : Nat} (hn : n ≤ 256) (h1 : 2 ^ n ≤ p)
    (h2 : 2 ^ n ≤ q) :
    (squeeze consts state n : ZMod p).val = (sponge consts state).val % 2 ^ n ∧
    (reread (squeeze consts state n : ZMod p) : ZMod q).val = (sponge consts state).val % 2 ^ n := by
  have hlt : (sponge consts state).val % 2 ^ n < 2 ^ n := Nat.mod_lt _ (by positivity)
  have e : (squeeze consts state n : ZMod p).val = (sponge consts state).val % 2 ^ n := by
    rw [squeeze_eq consts state hn, ZMod.val_natCast, Nat.mod_eq_of_lt (by omega)]
  refine ⟨e, ?_⟩
  rw [reread_eq hp, e, ZMod.val_natCast, Nat.mod_eq_of_lt (by omega)]

/-! ## C57: limbs -/

theorem limbsToNat_eq (ls : List (ZMod p)) (w : Nat) :
    limbsToNat ls w = (leValue (2 ^ w) (ls.map ZMod.val) : Nat) := by
  unfold limbsToNat
  have : ∀ (l : List (ZMod p)), l.reverse.foldl (fun acc x => acc * 2 ^ w + fToNat x) 0 =
      ((leValue (2 ^ w) (l.map ZMod.val) : Nat) : Int) := by
    intro l
    induction l with
    | nil => rfl
    | cons x l ih =>
      rw [List.reverse_cons, List.foldl_append, ih]
      simp only [List.foldl_cons, List.foldl_nil, List.map_cons, leValue, fToNat]
      push_cast; ring
  exact this ls

theorem map_val_cast {w k n : Nat} (h : 2 ^ w ≤ p) :
    ((limbsOf w k n).map (fun d : Nat => (d : ZMod p))).map ZMod.val = limbsOf w k n := by
  rw [List.map_map]
  conv_rhs => rw [← List.map_id (limbsOf w k n)]
  refine List.map_congr_left fun d hd => ?_
  simp only [Function.comp, id, ZMod.val_natCast]
  exact Nat.mod_eq_of_lt (lt_of_lt_of_le (limbsOf_lt d hd) h)

/-- C57: an integer that fits has `k` limbs below `2^w`, and `limbs_to_nat` returns it. -/
theorem C57_encode {w k n : Nat} (hw : w ≤ 511) (hp : 2 ^ w ≤ p) (h : n < 2 ^ (k * w)) :
    ∃ ls : List (ZMod p), natToLimbs (n : Int) w k = some ls ∧ ls.length = k ∧ (∀ l ∈ ls, l.val < 2 ^ w) ∧
      limbsToNat ls w = (n : Int) := by
  refine ⟨_, natToLimbs_eq hw h, by simp [limbsOf], ?_, ?_⟩
  · intro l hl
    obtain ⟨d, hd, rfl⟩ := List.mem_map.mp hl
    rw [ZMod.val_natCast]
    exact lt_of_le_of_lt (Nat.mod_le _ _) (limbsOf_lt d hd)
  · rw [limbsToNat_eq, map_val_cast hp, limbsOf_value, Nat.mod_eq_of_lt h]

/-- C57: `nat_to_limbs` panics exactly on the natural numbers that do not fit. -/
theorem C57_panics (w k n : Nat) (hw : w ≤ 511) :
    (natToLimbs (n : Int) w k : Option (List (ZMod p))) = none ↔ 2 ^ (k * w) ≤ n := by
  constructor
  · intro h
    by_contra hc
    rw [natToLimbs_eq hw (not_le.mp hc)] at h
    cases h
  · intro h
    unfold natToLimbs
    rw [if_neg]
    have := Nat.lt_size.mpr h
    simp only [Int.natAbs_natCast]
    omega

/-- C57: limbs below `2^w` are recovered from the integer they encode. -/
theorem C57_decode {w : Nat} (hw : w ≤ 511) (ls : List (ZMod p)) (h : ∀ l ∈ ls, l.val < 2 ^ w) :
    natToLimbs (limbsToNat ls w) w ls.length = some ls := by
  have h' : ∀ d ∈ ls.map ZMod.val, d < 2 ^ w := by
    intro d hd
    obtain ⟨l, hl, rfl⟩ := List.mem_map.mp hd
    exact h l hl
  have hlen : ls.length = (ls.map ZMod.val).length := by simp
  have hlt : leValue (2 ^ w) (ls.map ZMod.val) < 2 ^ (ls.length * w) := by
    have := limbsOf_value w ls.length (leValue (2 ^ w) (ls.map ZMod.val))
    conv at this => lhs; rw [hlen, limbsOf_leValue _ h']
    rw [this]
    exact Nat.mod_lt _ (Nat.pos_of_ne_zero (pow_ne_zero _ (by norm_num)))
  rw [limbsToNat_eq, natToLimbs_eq hw hlt]
  conv_lhs => rw [hlen, limbsOf_leValue _ h', List.map_map]
  congr 1
  conv_rhs => rw [← List.map_id ls]
  refine List.map_congr_left fun l _ => ?_
  simp

/-! ## C53: what the challenge does bind -/

theorem absorbX_inj (hp : p ≤ 2 ^ 256) (h64 : 2 ^ 64 ≤ p) (hq : 2 ^ 64 ≤ q) {x y : ZMod p} {a b : List (ZMod q)}
    (ha : absorbX x = some a) (hb : absorbX y = some b) : a.length = 4 ∧ (a = b → x = y) := by
  have key : ∀ {x : ZMod p} {a : List (ZMod q)}, absorbX x = some a → a.map ZMod.val = limbsOf 64 4 x.val := by
    intro x a ha
    rw [absorbX_eq hp] at ha
    cases ha
    rw [List.map_map, List.map_map]
    conv_rhs => rw [← List.map_id (limbsOf 64 4 x.val)]
    refine List.map_congr_left fun d hd => ?_
    have hd' := limbsOf_lt d hd
    simp only [Function.comp, id]
    have e : ((d : Nat) : ZMod p).val = d := by rw [ZMod.val_natCast, Nat.mod_eq_of_lt (by omega)]
    rw [reread_eq hp, e, ZMod.val_natCast, Nat.mod_eq_of_lt (by omega)]
  refine ⟨?_, ?_⟩
  · have := congrArg List.length (key ha)
    simpa [limbsOf] using this
  · rintro rfl
    have h : limbsOf 64 4 x.val = limbsOf 64 4 y.val := by rw [← key ha, key hb]
    have h2 := congrArg (leValue (2 ^ 64)) h
    rw [limbsOf_value, limbsOf_value, Nat.mod_eq_of_lt, Nat.mod_eq_of_lt] at h2
    · exact ZMod.val_injective p h2
    · exact lt_of_lt_of_le y.val_lt (by simpa using hp)
    · exact lt_of_lt_of_le x.val_lt (by simpa using hp)

theorem mapM_absorbX_inj (hp : p ≤ 2 ^ 256) (h64 : 2 ^ 64 ≤ p) (hq : 2 ^ 64 ≤ q) : ∀ {xs ys : List (ZMod p)}
    {as bs : List (List (ZMod q))}, xs.length = ys.length → xs.mapM absorbX = some as → ys.mapM absorbX = some bs →
    as.flatten = bs.flatten → xs = ys
  | [], [], _, _, _, _, _, _ => rfl
  | x :: xs, y :: ys, as, bs, hl, ha, hb, h => by
    rw [List.mapM_cons] at ha hb
    simp only [Option.pure_def, Option.bind_eq_bind, Option.bind_eq_some_iff] at ha hb
    obtain ⟨a, ha1, as', ha2, e1⟩ := ha
    obtain ⟨b, hb1, bs', hb2, e2⟩ := hb
    cases e1; cases e2
    obtain ⟨l1, h1⟩ := absorbX_inj hp h64 hq ha1 hb1
    obtain ⟨l2, -⟩ := absorbX_inj hp h64 hq hb1 ha1
    rw [List.flatten_cons, List.flatten_cons] at h
    obtain ⟨e1, e2⟩ := List.append_inj h (by rw [l1, l2])
    rw [h1 e1, mapM_absorbX_inj hp h64 hq (by simpa using hl) ha2 hb2 e2]
  | [], _ :: _, _, _, h, _, _, _ => by simp at h
  | _ :: _, [], _, _, h, _, _, _ => by simp at h

/-- C53, true part: the challenge is the 128-bit output of the sponge on an encoding of the cross-term commitment
and the running instance which is injective (for instances with equally many public inputs and `u` below the
base field's modulus, which C54 provides).  What is missing from C53 is the new instance: see
`C53_challenge_refuted`. -/
theorem C53_running_instance_partial (E : Env q G) (hE : ∀ P Q, E.point P = E.point Q → P = Q) (hp : p ≤ 2 ^ 256)
    (h64 : 2 ^ 64 ≤ p) (hq : 2 ^ 64 ≤ q) :
    ∃ A : G → RInst (ZMod p) G → List (ZMod q),
      (∀ T i, challenge E T i = some (squeeze E.consts (A T i) 128)) ∧
      ∀ T T' i i', i.x.length = i'.x.length → i.u.val < q → i'.u.val < q → A T i = A T' i' → T = T' ∧ i = i' := by
  refine ⟨fun T i => E.point T ++ (i.absorb E).getD [], ?_, ?_⟩
  · intro T i
    obtain ⟨a, ha⟩ := absorb_isSome hp E i
    unfold challenge
    simp [ha, challengeBits]
  · intro T T' i i' hl hu hu' h
    obtain ⟨a, ha⟩ := absorb_isSome hp E i
    obtain ⟨b, hb⟩ := absorb_isSome hp E i'
    dsimp only at h
    rw [ha, hb] at h
    obtain ⟨e1, e2⟩ := List.append_inj h rfl
    refine ⟨hE _ _ e1, ?_⟩
    simp only [Option.getD_some] at e2
    subst e2
    unfold RInst.absorb at ha hb
    simp only [Option.bind_eq_bind, Option.bind_eq_some_iff] at ha hb
    obtain ⟨xs, hx, e3⟩ := ha
    obtain ⟨ys, hy, e4⟩ := hb
    rw [← e4] at e3
    have e5 := Option.some.inj e3
    obtain ⟨e6, e7⟩ := List.append_inj e5 rfl
    obtain ⟨e8, e9⟩ := List.append_inj e6 rfl
    obtain ⟨e10, e11⟩ := List.append_inj e8 rfl
    have hxx := mapM_absorbX_inj hp h64 hq hl hx hy e7
    have huu : i.u = i'.u := by
      have e := List.head_eq_of_cons_eq e9
      have := congrArg ZMod.val e
      rw [reread_eq hp, reread_eq hp, ZMod.val_natCast, ZMod.val_natCast, Nat.mod_eq_of_lt hu, Nat.mod_eq_of_lt hu'] at this
      exact ZMod.val_injective p this
    obtain ⟨w, e, u, x⟩ := i
    obtain ⟨w', e', u', x'⟩ := i'
    dsimp only at hxx huu e10 e11
    rw [hxx, huu, hE _ _ e10, hE _ _ e11]

/-! ## C54: the relaxed scalar never wraps -/

/-- Successive folds by the verifier. -/
def verifyAll (E : Env q G) : RInst (ZMod p) G → List (G × Inst (ZMod p) G) → Option (RInst (ZMod p) G)
  | i, [] => some i
  | i, (T, i2) :: rest => do
    let i' ← verify E T i i2
    verifyAll E i' rest

theorem verifyAll_u (hp2 : 2 ^ 128 ≤ p) (E : Env q G) (hist : List (G × Inst (ZMod p) G)) :
    ∀ {i o : RInst (ZMod p) G}, verifyAll E i hist = some o →
    ∃ rs : List Nat, rs.length = hist.length ∧ (∀ r ∈ rs, r < 2 ^ 128) ∧ o.u = i.u + ((rs.sum : Nat) : ZMod p) := by
  induction hist with
  | nil => intro i o h; cases h; exact ⟨[], rfl, by simp, by simp⟩
  | cons e hist ih =>
    intro i o h
    obtain ⟨T, i2⟩ := e
    unfold verifyAll at h
    simp only [Option.bind_eq_bind, Option.bind_eq_some_iff] at h
    obtain ⟨i', hv, h⟩ := h
    obtain ⟨rs, hl, hb, hu⟩ := ih h
    unfold verify challenge at hv
    simp only [Option.bind_eq_bind, Option.bind_eq_some_iff] at hv
    obtain ⟨r, ⟨a, ha, hr⟩, hf⟩ := hv
    cases hr
    obtain ⟨-, rfl⟩ := RInst.fold_some hf
    refine ⟨((sponge E.consts (E.point T ++ a)).val % 2 ^ 128) :: rs, by simp [hl], ?_, ?_⟩
    · intro r hr
      rcases List.mem_cons.mp hr with rfl | hr
      · exact Nat.mod_lt _ (by positivity)
      · exact hb r hr
    · rw [hu]
      dsimp only
      rw [squeeze_eq _ _ (by decide), List.sum_cons]
      unfold challengeBits
      push_cast; ring

theorem verifyAll_isSome (hp : p ≤ 2 ^ 256) (E : Env q G) (hist : List (G × Inst (ZMod p) G)) :
    ∀ {i : RInst (ZMod p) G}, (∀ e ∈ hist, e.2.x.length = i.x.length) → ∃ o, verifyAll E i hist = some o := by
  induction hist with
  | nil => intro i _; exact ⟨i, rfl⟩
  | cons e hist ih =>
    intro i h
    obtain ⟨T, i2⟩ := e
    obtain ⟨r, hr⟩ := challenge_isSome hp E T i
    have hl : i2.x.length = i.x.length := h (T, i2) (by simp)
    have hv : verify E T i i2 = some ⟨i.commitW + r • i2.commitW, i.commitE + r • T, i.u + r, axpy r i.x i2.x⟩ := by
      unfold verify; rw [hr]; exact RInst.fold_eq hl.symm
    unfold verifyAll
    rw [hv]
    refine ih fun e he => ?_
    rw [h e (by simp [he])]
    exact (length_axpy hl.symm).symm

/-- C54: starting from `u ∈ {0, 1}`, after fewer than `2^125` folds the scalar `u` is, as an integer, the sum of
the initial value and the challenges; it stays below `2^253`, hence below both primes, and its base-field
image is the same integer. -/
theorem C54_no_wrap (hp : 2 ^ 253 ≤ p) (hq : 2 ^ 253 ≤ q) (hp' : p ≤ 2 ^ 256) (E : Env q G)
    {hist : List (G × Inst (ZMod p) G)} (hn : hist.length < 2 ^ 125) {i o : RInst (ZMod p) G}
    (hi : i.u = 0 ∨ i.u = 1) (h : verifyAll E i hist = some o) :
    ∃ rs : List Nat, rs.length = hist.length ∧ (∀ r ∈ rs, r < 2 ^ 128) ∧ o.u.val = i.u.val + rs.sum ∧
      o.u.val < 2 ^ 253 ∧ (reread o.u : ZMod q).val = o.u.val := by
  obtain ⟨rs, hl, hb, hu⟩ := verifyAll_u (le_trans (by norm_num) hp) E hist h
  have hsum : ∀ l : List Nat, (∀ r ∈ l, r < 2 ^ 128) → l.sum ≤ l.length * (2 ^ 128 - 1) := by
    intro l
    induction l with
    | nil => simp
    | cons r l ih =>
      intro h
      have h1 := h r (by simp)
      have h2 := ih (fun r hr => h r (by simp [hr]))
      rw [List.sum_cons, List.length_cons, Nat.add_mul]
      omega
  have hs := hsum rs hb
  rw [hl] at hs
  have hs2 : rs.sum ≤ (2 ^ 125 - 1) * (2 ^ 128 - 1) := hs.trans (Nat.mul_le_mul_right _ (by omega))
  have hi' : i.u.val ≤ 1 := by
    rcases hi with h | h
    · simp [h]
    · rw [h]
      have : Fact (1 < p) := ⟨(Fact.out : p.Prime).one_lt⟩
      rw [ZMod.val_one]
  have hlt : i.u.val + rs.sum < 2 ^ 253 := by
    have : (2 ^ 125 - 1) * (2 ^ 128 - 1) + 1 < 2 ^ 253 := by norm_num
    omega
  have hval : o.u.val = i.u.val + rs.sum := by
    have : o.u = ((i.u.val + rs.sum : Nat) : ZMod p) := by rw [hu]; push_cast; simp
    rw [this, ZMod.val_natCast, Nat.mod_eq_of_lt (by omega)]
  refine ⟨rs, hl, hb, hval, by omega, ?_⟩
  rw [reread_eq hp', ZMod.val_natCast, Nat.mod_eq_of_lt (by omega)]

end protocol

/-! ## Concrete cases -/

/-- The shape of the demonstration circuit, a key, and an environment over `ZMod 17`. -/
def foldShape : Shape (ZMod 13) := Shape.ofCS demo
def foldCk : List (ZMod 13) := [1, 2, 3, 4, 5]
def foldEnv : Env 17 (ZMod 13) := ⟨fun P => (P.val : ZMod 17), fun P => (P.val : ZMod 17) + 1, fun P => P = 0, [1, 2, 3]⟩
def foldInst : Inst (ZMod 13) (ZMod 13) := ⟨commit foldCk demo.w, [3]⟩
/-- Another solution of the same shape: `2 * 6 = 12`. -/
def foldW2 : List (ZMod 13) := [6, 12, 0, 4, 9]
def foldInst2 : Inst (ZMod 13) (ZMod 13) := ⟨commit foldCk foldW2, [2]⟩

/-- C50, C51: the running pair and the new pair satisfy their relations, and the fold of the two is computed and
satisfies the relaxed relation with a non-zero error vector and `u ≠ 1`. -/
example : isSatRelaxed foldShape (RInst.ofInst foldInst : RInst (ZMod 13) (ZMod 13)) (RWit.ofWit foldShape demo.w) = some true ∧
    isSat foldShape foldCk foldInst2 foldW2 = some true ∧
    (prove foldEnv foldShape foldCk (RInst.ofInst foldInst) (RWit.ofWit foldShape demo.w) foldInst2 foldW2).map
      (fun r => (isSatRelaxed foldShape r.1 r.2.1, decide (r.1.u = 1), decide (r.2.1.e = [0]))) =
        some (some true, false, false) := by decide +kernel

/-- C52: three different challenges for the same two pairs. -/
example : ∀ r ∈ [(1 : ZMod 13), 2, 3], ((RInst.ofInst foldInst).fold foldInst2 r 5).isSome ∧
    ((RWit.ofWit foldShape demo.w).fold foldW2 r [7]).isSome := by decide +kernel

/-- C53: a forged instance: the running instance is the demonstration instance, the challenge is not zero, the
forged new instance is not satisfied by the vector it commits to, yet the fold is satisfied. -/
example : ∃ r, challenge foldEnv 0 (RInst.ofInst foldInst : RInst (ZMod 13) (ZMod 13)) = some r ∧ r ≠ 0 ∧
    isSat foldShape foldCk ⟨commit foldCk (forgedX 1 r demo.w foldW2), forgedX 1 r [3] [2]⟩
      (forgedX 1 r demo.w foldW2) = some false ∧
    (∃ i', verify foldEnv 0 (RInst.ofInst foldInst)
        ⟨commit foldCk (forgedX 1 r demo.w foldW2), forgedX 1 r [3] [2]⟩ = some i' ∧
      isSatRelaxed foldShape i' ⟨vecScale foldW2 (1 + r), [0]⟩ = some true) := by
  obtain ⟨r, hr, h0, hf⟩ : ∃ r, challenge foldEnv 0 (RInst.ofInst foldInst : RInst (ZMod 13) (ZMod 13)) = some r ∧ r ≠ 0 ∧
      isSat foldShape foldCk ⟨commit foldCk (forgedX 1 r demo.w foldW2), forgedX 1 r [3] [2]⟩
        (forgedX 1 r demo.w foldW2) = some false := by decide +kernel
  refine ⟨r, hr, h0, hf, ?_⟩
  obtain ⟨i', h1, h2, -⟩ := C53_forgery_refuted (S := foldShape) (ck := foldCk) (i1 := RInst.ofInst foldInst)
    (w1 := demo.w) (s := foldInst2) (sw := foldW2) (r := r) (E := foldEnv) (by decide +kernel) hr h0 rfl rfl rfl rfl
  exact ⟨i', h1, h2⟩

/-- C54, C53: the moduli of the two curves meet the size hypotheses. -/
example : 2 ^ 253 ≤ Field.frParams.m ∧ 2 ^ 253 ≤ Field.fqParams.m ∧ Field.frParams.m ≤ 2 ^ 256 ∧
    Field.fqParams.m ≤ 2 ^ 256 := by decide

/-- C54: a history of two folds exists from the dummy instance. -/
example (E : Env Field.fqParams.m FrV) : (∃ o, verifyAll E (RInst.dummy 2 : RInst FrV FrV)
    [(5, ⟨7, [1, 2]⟩), (6, ⟨8, [3, 4]⟩)] = some o) ∧ (RInst.dummy 2 : RInst FrV FrV).u = 0 :=
  ⟨verifyAll_isSome (by decide) E _ (by simp [RInst.dummy]), rfl⟩

/-- C55: a value below both moduli, and one that is not. -/
example : (5 : ZMod 17).val < 13 ∧ (13 : Nat) ≤ (15 : ZMod 17).val ∧
    (reread (reread (5 : ZMod 17) : ZMod 13) : ZMod 17) = 5 ∧
    (reread (reread (15 : ZMod 17) : ZMod 13) : ZMod 17) = 2 := by decide +kernel

/-- C57: 4 limbs of 2 bits in `ZMod 13`. -/
example : (natToLimbs 200 2 4 : Option (List (ZMod 13))) = some [0, 2, 0, 3] ∧ limbsToNat [0, 2, 0, (3 : ZMod 13)] 2 = 200 ∧
    (natToLimbs 256 2 4 : Option (List (ZMod 13))) = none := by decide +kernel



end Kogarashi.Props
