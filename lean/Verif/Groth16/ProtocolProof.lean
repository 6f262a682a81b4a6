import Verif.Groth16.Protocol
import Verif.Groth16.FftProof
import Verif.R1cs.RowLemmas
import Verif.R1cs.Sat
import Mathlib.Tactic.Module
import Mathlib.Tactic.LinearCombination

/-! # Algebra of the Groth16 protocol -/

namespace Kogarashi.Groth16

open Spec Polynomial

section Columns
variable {F : Type} [Field F] [DecidableEq F]

/-! ### Columns of the matrices -/

/-- Value of a column under weights `φ` on the rows. -/
def colVal (φ : Nat → F) (col : List (F × Nat)) : F := (col.map (fun e => φ e.2 * e.1)).sum

/-- `Σ_k x_k · (value of column k)`. -/
def dotCols (φ : Nat → F) (x : List F) (cols : List (List (F × Nat))) : F :=
  (List.zipWith (fun c col => c * colVal φ col) x cols).sum

theorem dotCols_replicate (φ : Nat → F) (x : List F) (n : Nat) : dotCols φ x (List.replicate n []) = 0 := by
  unfold dotCols
  induction x generalizing n with
  | nil => simp
  | cons c cs ih =>
    cases n with
    | zero => simp
    | succ n => simp only [List.replicate_succ, List.zipWith_cons_cons, List.sum_cons, ih n]; simp [colVal]

theorem dotCols_modify (φ : Nat → F) (x : List F) (cols : List (List (F × Nat))) (k : Nat) (hk : k < cols.length) (c : F) (i : Nat) :
    dotCols φ x (cols.modify k (fun col => col ++ [(c, i)])) = dotCols φ x cols + x.getD k 0 * c * φ i := by
  unfold dotCols
  induction x generalizing cols k with
  | nil => simp
  | cons a as ih =>
    cases cols with
    | nil => simp at hk
    | cons col cols =>
      cases k with
      | zero =>
        simp only [List.modify_zero_cons, List.zipWith_cons_cons, List.sum_cons, colVal, List.map_append, List.sum_append,
          List.map_cons, List.map_nil, List.sum_nil, List.getD_cons_zero]
        ring
      | succ k =>
        simp only [List.modify_succ_cons, List.zipWith_cons_cons, List.sum_cons, List.getD_cons_succ]
        rw [ih cols k (by simpa using hk)]
        ring

/-- Reading a wire, zero out of range. -/
def readD (x w : List F) : Assignment F
  | .inst i => x.getD i 0
  | .wit i => w.getD i 0

theorem pushTerms_spec (φ : Nat → F) (x w : List F) (i : Nat) : ∀ (r : Row F) (X W : List (List (F × Nat))) (n : Nat),
    i < n → (∀ col ∈ X ++ W, ∀ e ∈ col, e.2 < n) → ∀ {X' W'}, Matrix.pushTerms i r X W = some (X', W') →
    X'.length = X.length ∧ W'.length = W.length ∧ (∀ col ∈ X' ++ W', ∀ e ∈ col, e.2 < n) ∧
    dotCols φ x X' + dotCols φ w W' = dotCols φ x X + dotCols φ w W + rowVal (readD x w) r * φ i := by
  have mem_modify : ∀ (L : List (List (F × Nat))) (k : Nat) (c : F) (col : List (F × Nat)),
      col ∈ L.modify k (fun col => col ++ [(c, i)]) → col ∈ L ∨ ∃ col' ∈ L, col = col' ++ [(c, i)] := by
    intro L
    induction L with
    | nil => intro k c col h; simp at h
    | cons l L ih =>
      intro k c col h
      cases k with
      | zero =>
        rw [List.modify_zero_cons, List.mem_cons] at h
        rcases h with h | h
        · exact .inr ⟨l, by simp, h⟩
        · exact .inl (by simp [h])
      | succ k =>
        rw [List.modify_succ_cons, List.mem_cons] at h
        rcases h with h | h
        · exact .inl (by simp [h])
        · rcases ih k c col h with h | ⟨c', h1, h2⟩
          · exact .inl (by simp [h])
          · exact .inr ⟨c', by simp [h1], h2⟩
  intro r
  induction r with
  | nil =>
    intro X W n _ hb X' W' h
    simp only [Matrix.pushTerms, Option.some.injEq, Prod.mk.injEq] at h
    obtain ⟨rfl, rfl⟩ := h
    exact ⟨rfl, rfl, hb, by simp [rowVal]⟩
  | cons e r ih =>
    obtain ⟨wire, c⟩ := e
    intro X W n hi hb X' W' h
    cases wire with
    | inst k =>
      simp only [Matrix.pushTerms] at h
      split at h
      · rename_i hk
        obtain ⟨h1, h2, h3, h4⟩ := ih _ _ n hi (by
          intro col hc e he
          rw [List.mem_append] at hc
          rcases hc with hc | hc
          · rcases mem_modify X k c col hc with hc | ⟨col', h1, rfl⟩
            · exact hb col (by simp [hc]) e he
            · rw [List.mem_append] at he
              rcases he with he | he
              · exact hb col' (by simp [h1]) e he
              · simp at he; rw [he]; exact hi
          · exact hb col (by simp [hc]) e he) h
        refine ⟨by simpa using h1, h2, h3, ?_⟩
        rw [h4, dotCols_modify φ x X k hk]
        simp only [rowVal, List.map_cons, List.sum_cons, readD]
        ring
      · simp at h
    | wit k =>
      simp only [Matrix.pushTerms] at h
      split at h
      · rename_i hk
        obtain ⟨h1, h2, h3, h4⟩ := ih _ _ n hi (by
          intro col hc e he
          rw [List.mem_append] at hc
          rcases hc with hc | hc
          · exact hb col (by simp [hc]) e he
          · rcases mem_modify W k c col hc with hc | ⟨col', h1, rfl⟩
            · exact hb col (by simp [hc]) e he
            · rw [List.mem_append] at he
              rcases he with he | he
              · exact hb col' (by simp [h1]) e he
              · simp at he; rw [he]; exact hi) h
        refine ⟨h1, by simpa using h2, h3, ?_⟩
        rw [h4, dotCols_modify φ w W k hk]
        simp only [rowVal, List.map_cons, List.sum_cons, readD]
        ring
      · simp at h

/-- `Σ_j rowVal(row_j) · φ(i + j)`. -/
def rowsDot (φ : Nat → F) (z : Assignment F) : Nat → List (Row F) → F
  | _, [] => 0
  | i, r :: rs => rowVal z r * φ i + rowsDot φ z (i + 1) rs

theorem pushRows_spec (φ : Nat → F) (x w : List F) : ∀ (rs : List (Row F)) (i : Nat) (X W : List (List (F × Nat))) (n : Nat),
    i + rs.length ≤ n → (∀ col ∈ X ++ W, ∀ e ∈ col, e.2 < n) → ∀ {X' W'}, Matrix.pushRows i rs X W = some (X', W') →
    X'.length = X.length ∧ W'.length = W.length ∧ (∀ col ∈ X' ++ W', ∀ e ∈ col, e.2 < n) ∧
    dotCols φ x X' + dotCols φ w W' = dotCols φ x X + dotCols φ w W + rowsDot φ (readD x w) i rs := by
  intro rs
  induction rs with
  | nil =>
    intro i X W n _ hb X' W' h
    simp only [Matrix.pushRows, Option.some.injEq, Prod.mk.injEq] at h
    obtain ⟨rfl, rfl⟩ := h
    exact ⟨rfl, rfl, hb, by simp [rowsDot]⟩
  | cons r rs ih =>
    intro i X W n hi hb X' W' h
    rw [List.length_cons] at hi
    simp only [Matrix.pushRows, Option.bind_eq_bind, Option.bind_eq_some_iff] at h
    obtain ⟨⟨X1, W1⟩, h1, h2⟩ := h
    obtain ⟨a1, a2, a3, a4⟩ := pushTerms_spec φ x w i r X W n (by omega) hb h1
    obtain ⟨b1, b2, b3, b4⟩ := ih (i + 1) X1 W1 n (by omega) a3 h2
    refine ⟨b1.trans a1, b2.trans a2, b3, ?_⟩
    rw [b4, a4, rowsDot]
    ring

theorem pushTerms_run (i : Nat) : ∀ (r : Row F) (X W : List (List (F × Nat))) {cs : CS F}, X.length = cs.x.length →
    W.length = cs.w.length → (∀ e ∈ r, Allocated cs e.1) → ∃ X' W', Matrix.pushTerms i r X W = some (X', W') ∧
      X'.length = cs.x.length ∧ W'.length = cs.w.length := by
  intro r
  induction r with
  | nil => intro X W cs h1 h2 _; exact ⟨X, W, rfl, h1, h2⟩
  | cons e r ih =>
    obtain ⟨wire, c⟩ := e
    intro X W cs h1 h2 h
    have h0 := h (wire, c) (by simp)
    have h' : ∀ e ∈ r, Allocated cs e.1 := fun e he => h e (by simp [he])
    cases wire with
    | inst k =>
      simp only [Matrix.pushTerms]
      simp only [Allocated] at h0
      rw [if_pos (by omega)]
      exact ih _ _ (by simpa using h1) h2 h'
    | wit k =>
      simp only [Matrix.pushTerms]
      simp only [Allocated] at h0
      rw [if_pos (by omega)]
      exact ih _ _ h1 (by simpa using h2) h'

theorem pushRows_run : ∀ (rs : List (Row F)) (i : Nat) (X W : List (List (F × Nat))) {cs : CS F}, X.length = cs.x.length →
    W.length = cs.w.length → (∀ r ∈ rs, ∀ e ∈ r, Allocated cs e.1) → ∃ X' W', Matrix.pushRows i rs X W = some (X', W') := by
  intro rs
  induction rs with
  | nil => intro i X W cs _ _ _; exact ⟨X, W, rfl⟩
  | cons r rs ih =>
    intro i X W cs h1 h2 h
    obtain ⟨X1, W1, e1, l1, l2⟩ := pushTerms_run i r X W h1 h2 (h r (by simp))
    obtain ⟨X2, W2, e2⟩ := ih (i + 1) X1 W1 l1 l2 (fun r' hr => h r' (by simp [hr]))
    exact ⟨X2, W2, by simp only [Matrix.pushRows, e1, Option.bind_eq_bind, Option.bind_some]; exact e2⟩

theorem xAndW_run {cs : CS F} {rows : List (Row F)} (h : ∀ r ∈ rows, ∀ e ∈ r, Allocated cs e.1) :
    ∃ X W, Matrix.xAndW rows cs.l cs.w.length = some (X, W) :=
  pushRows_run rows 0 _ _ (by simp [CS.l]) (by simp) h

theorem xAndW_spec {rows : List (Row F)} {l n : Nat} {X W : List (List (F × Nat))} (h : Matrix.xAndW rows l n = some (X, W)) :
    X.length = l ∧ W.length = n ∧ (∀ col ∈ X ++ W, ∀ e ∈ col, e.2 < rows.length) ∧
    ∀ (φ : Nat → F) (x w : List F), dotCols φ x X + dotCols φ w W = rowsDot φ (readD x w) 0 rows := by
  have key := fun (φ : Nat → F) (x w : List F) => pushRows_spec φ x w rows 0 _ _ rows.length (by omega)
    (by
      intro col hc e he
      simp only [List.mem_append, List.mem_replicate] at hc
      rcases hc with ⟨-, rfl⟩ | ⟨-, rfl⟩ <;> simp at he) h
  obtain ⟨h1, h2, h3, -⟩ := key (fun _ => 0) [] []
  refine ⟨by simpa using h1, by simpa using h2, h3, fun φ x w => ?_⟩
  have := (key φ x w).2.2.2
  rw [this, dotCols_replicate, dotCols_replicate]; ring

/-! ### `eval_at_tau` -/

theorem evalAtTau_aux (pt : List F) : ∀ (p : List (F × Nat)) (acc v : F),
    p.foldlM (fun acc e => (pt[e.2]?).map (fun v => acc + v * e.1)) acc = some v →
    v = acc + colVal (fun j => pt.getD j 0) p := by
  intro p
  induction p with
  | nil => intro acc v h; simp at h; simp [colVal, h]
  | cons e es ih =>
    intro acc v h
    rw [List.foldlM_cons] at h
    cases hg : pt[e.2]? with
    | none => rw [hg] at h; simp at h
    | some u =>
      rw [hg] at h
      simp only [Option.map_some, Option.bind_eq_bind, Option.bind_some] at h
      rw [ih _ v h]
      simp only [colVal, List.map_cons, List.sum_cons, List.getD_eq_getElem?_getD, hg, Option.getD_some]
      ring

theorem evalAtTau_eq {pt : List F} {p : List (F × Nat)} {v : F} (h : evalAtTau pt p = some v) :
    v = colVal (fun j => pt.getD j 0) p := by
  have := evalAtTau_aux pt p 0 v h
  rwa [zero_add] at this

theorem evalAtTau_run {pt : List F} {p : List (F × Nat)} (h : ∀ e ∈ p, e.2 < pt.length) : ∃ v, evalAtTau pt p = some v := by
  unfold evalAtTau
  generalize (0 : F) = acc
  induction p generalizing acc with
  | nil => exact ⟨acc, rfl⟩
  | cons e es ih =>
    obtain ⟨v, hv⟩ := ih (fun e' he => h e' (by simp [he])) (acc + pt[e.2]'(h e (by simp)) * e.1)
    refine ⟨v, ?_⟩
    rw [List.foldlM_cons, List.getElem?_eq_getElem (h e (by simp))]
    exact hv

end Columns

variable {F G1 G2 GT : Type} [Field F] [DecidableEq F]
variable [AddCommGroup G1] [Module F G1] [AddCommGroup G2] [Module F G2] [AddCommGroup GT] [Module F GT]

/-! ### Queries -/

/-- The query for a wire whose three columns have values `u v w`. -/
def queryOf (g1 : G1) (g2 : G2) (inv alpha beta : F) (u v w : F) : Query G1 G2 :=
  { a := u • g1, bG1 := v • g1, bG2 := v • g2, ext := ((u * beta + v * alpha + w) * inv) • g1 }

theorem evalCols_eq {g1 : G1} {g2 : G2} {pt : List F} {inv alpha beta : F} : ∀ {A B C : List (List (F × Nat))}
    {qs : List (Query G1 G2)}, evalCols g1 g2 pt inv alpha beta A B C = some qs →
    ∃ us vs ws : List F, us = A.map (colVal (fun j => pt.getD j 0)) ∧ vs = B.map (colVal (fun j => pt.getD j 0)) ∧
      ws = C.map (colVal (fun j => pt.getD j 0)) ∧ us.length = vs.length ∧ us.length = ws.length ∧
      qs.map (·.a) = us.map (· • g1) ∧ qs.map (·.bG1) = vs.map (· • g1) ∧ qs.map (·.bG2) = vs.map (· • g2) ∧
      qs.map (·.ext) = (List.zipWith (fun p w => (p + w) * inv) (List.zipWith (fun u v => u * beta + v * alpha) us vs) ws).map (· • g1) := by
  intro A
  induction A with
  | nil =>
    intro B C qs h
    cases B <;> cases C <;> simp [evalCols] at h
    subst h
    exact ⟨[], [], [], by simp⟩
  | cons a as ih =>
    intro B C qs h
    cases B with
    | nil => cases C <;> simp [evalCols] at h
    | cons b bs =>
      cases C with
      | nil => simp [evalCols] at h
      | cons c cs =>
        simp only [evalCols, Option.bind_eq_bind, Option.bind_eq_some_iff, Option.some.injEq] at h
        obtain ⟨u, hu, v, hv, w, hw, rest, hr, rfl⟩ := h
        obtain ⟨us, vs, ws, e1, e2, e3, e4, e5, e6, e7, e8, e9⟩ := ih hr
        refine ⟨u :: us, v :: vs, w :: ws, ?_, ?_, ?_, by simp [e4], by simp [e5], ?_, ?_, ?_, ?_⟩
        · rw [List.map_cons, ← e1, evalAtTau_eq hu]
        · rw [List.map_cons, ← e2, evalAtTau_eq hv]
        · rw [List.map_cons, ← e3, evalAtTau_eq hw]
        · simp only [List.map_cons, e6]
          congr 1
          split
          · rfl
          · rename_i h0; rw [not_not.mp h0, zero_smul]
        · simp only [List.map_cons, e7]
          congr 1
          split
          · rfl
          · rename_i h0; rw [not_not.mp h0, zero_smul]
        · simp only [List.map_cons, e8]
          congr 1
          split
          · rfl
          · rename_i h0; rw [not_not.mp h0, zero_smul]
        · simp only [List.map_cons, e9, List.zipWith_cons_cons]

theorem evalCols_run {g1 : G1} {g2 : G2} {pt : List F} {inv alpha beta : F} : ∀ {A B C : List (List (F × Nat))},
    A.length = B.length → A.length = C.length → (∀ col ∈ A ++ B ++ C, ∀ e ∈ col, e.2 < pt.length) →
    ∃ qs, evalCols g1 g2 pt inv alpha beta A B C = some qs := by
  intro A
  induction A with
  | nil =>
    intro B C hb hc _
    simp at hb hc
    rw [List.length_eq_zero_iff.mp hb.symm, List.length_eq_zero_iff.mp hc.symm]
    exact ⟨[], rfl⟩
  | cons a as ih =>
    intro B C hb hc h
    cases B with
    | nil => simp at hb
    | cons b bs =>
      cases C with
      | nil => simp at hc
      | cons c cs =>
        obtain ⟨u, hu⟩ := evalAtTau_run (pt := pt) (p := a) (h a (by simp))
        obtain ⟨v, hv⟩ := evalAtTau_run (pt := pt) (p := b) (h b (by simp))
        obtain ⟨w, hw⟩ := evalAtTau_run (pt := pt) (p := c) (h c (by simp))
        obtain ⟨qs, hq⟩ := ih (B := bs) (C := cs) (by simpa using hb) (by simpa using hc) (by
          intro col hcol
          refine h col ?_
          simp only [List.mem_append, List.mem_cons] at hcol ⊢
          tauto)
        exact ⟨_, by simp only [evalCols, hu, hv, hw, hq, Option.bind_eq_bind, Option.bind_some]; rfl⟩

/-! ### Sums -/

/-- `Σ cᵢ·vᵢ` over the common prefix. -/
def dot (cs vs : List F) : F := (List.zipWith (· * ·) cs vs).sum

theorem msmSum_smul {G : Type} [AddCommGroup G] [Module F G] (g : G) (vs : List F) : ∀ cs : List F,
    msmSum (vs.map (· • g)) cs = dot cs vs • g := by
  unfold msmSum dot
  induction vs with
  | nil => intro cs; simp
  | cons v vs ih =>
    intro cs
    cases cs with
    | nil => simp
    | cons c cs => simp only [List.map_cons, List.zipWith_cons_cons, List.sum_cons, ih cs, add_smul, mul_smul]

theorem dot_append_left (cs vs vs' : List F) (h : cs.length = vs.length) : dot cs (vs ++ vs') = dot cs vs := by
  unfold dot
  congr 1
  induction cs generalizing vs with
  | nil => simp
  | cons c cs ih =>
    cases vs with
    | nil => simp at h
    | cons v vs => simp only [List.cons_append, List.zipWith_cons_cons]; rw [ih vs (by simpa using h)]

theorem dot_map_colVal (φ : Nat → F) (x : List F) (cols : List (List (F × Nat))) : dot x (cols.map (colVal φ)) = dotCols φ x cols := by
  unfold dot dotCols
  rw [List.zipWith_map_right]

theorem dot_ext (xs us vs ws : List F) (alpha beta inv : F) (h1 : us.length = vs.length) (h2 : us.length = ws.length) :
    dot xs (List.zipWith (fun p w => (p + w) * inv) (List.zipWith (fun u v => u * beta + v * alpha) us vs) ws) =
      (dot xs us * beta + dot xs vs * alpha + dot xs ws) * inv := by
  unfold dot
  induction xs generalizing us vs ws with
  | nil => simp
  | cons x xs ih =>
    cases us with
    | nil =>
      simp at h1 h2
      rw [List.length_eq_zero_iff.mp h1.symm, List.length_eq_zero_iff.mp h2.symm]; simp
    | cons u us =>
      cases vs with
      | nil => simp at h1
      | cons v vs =>
        cases ws with
        | nil => simp at h2
        | cons w ws =>
          simp only [List.zipWith_cons_cons, List.sum_cons]
          rw [ih us vs ws (by simpa using h1) (by simpa using h2)]
          ring

theorem icAcc_eq (g : G1) (v : F) (vs : List F) (inputs : List F) :
    icAcc ((v :: vs).map (· • g)) inputs = dot (1 :: inputs) (v :: vs) • g := by
  unfold icAcc
  simp only [List.map_cons, List.drop_succ_cons, List.drop_zero, List.headD_cons]
  have : ∀ (is vs : List F) (P : G1), (is.zip (vs.map (· • g))).foldl (fun acc e => acc + e.1 • e.2) P = P + dot is vs • g := by
    intro is
    induction is with
    | nil => intro vs P; simp [dot]
    | cons i is ih =>
      intro vs P
      cases vs with
      | nil => simp [dot]
      | cons v vs =>
        simp only [List.map_cons, List.zip_cons_cons, List.foldl_cons]
        rw [ih vs]
        simp only [dot, List.zipWith_cons_cons, List.sum_cons, add_smul, mul_smul]
        abel
  rw [this]
  simp only [dot, List.zipWith_cons_cons, List.sum_cons, add_smul, mul_smul, one_smul]

end Kogarashi.Groth16
