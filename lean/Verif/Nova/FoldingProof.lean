import Verif.Spec.Folding
import Verif.R1cs.Sat
import Verif.R1cs.Bits
import Mathlib.Data.List.GetD
import Mathlib.Tactic.LinearCombination
import Mathlib.Tactic.Ring
import Mathlib.Tactic.Module
import Mathlib.Data.ZMod.Basic

/-! # Folding: lemmas -/

namespace Kogarashi.Nova

open Spec

section vec
variable {F : Type} [Field F]

theorem zipVec_some {f : F → F → F} {a b v : List F} (h : zipVec f a b = some v) :
    a.length = b.length ∧ v = List.zipWith f a b := by
  unfold zipVec at h
  split at h
  · exact ⟨by assumption, (Option.some.inj h).symm⟩
  · cases h

theorem zipVec_eq {f : F → F → F} {a b : List F} (h : a.length = b.length) :
    zipVec f a b = some (List.zipWith f a b) := by simp [zipVec, h]

theorem getD_zipWith {f : F → F → F} {a b : List F} (h : a.length = b.length) (h0 : f 0 0 = 0) (i : Nat) :
    (List.zipWith f a b).getD i 0 = f (a.getD i 0) (b.getD i 0) := by
  simp only [List.getD_eq_getElem?_getD, List.getElem?_zipWith]
  by_cases hi : i < a.length
  · rw [List.getElem?_eq_getElem hi, List.getElem?_eq_getElem (h ▸ hi)]; rfl
  · rw [List.getElem?_eq_none (by omega), List.getElem?_eq_none (by omega)]; simp [h0]

theorem getD_vecScale (a : List F) (r : F) (i : Nat) : (vecScale a r).getD i 0 = a.getD i 0 * r := by
  simp only [vecScale, List.getD_eq_getElem?_getD, List.getElem?_map]
  cases a[i]? <;> simp

@[simp] theorem length_vecScale (a : List F) (r : F) : (vecScale a r).length = a.length := by simp [vecScale]

theorem axpy_eq (r : F) (a b : List F) : List.zipWith (· + ·) a (vecScale b r) = axpy r a b := by
  unfold axpy vecScale
  rw [List.zipWith_map_right]
  congr 1
  funext s t; ring

theorem getD_axpy {r : F} {a b : List F} (h : a.length = b.length) (i : Nat) :
    (axpy r a b).getD i 0 = a.getD i 0 + r * b.getD i 0 := by
  unfold axpy
  exact getD_zipWith h (by simp) i

theorem length_axpy {r : F} {a b : List F} (h : a.length = b.length) : (axpy r a b).length = a.length := by
  simp [axpy, h]

/-- The assignment read by `prod` in the concatenated vector. -/
def zAsg (l : Nat) (z : List F) : Assignment F := fun k => (Matrix.readZ l z k).getD 0

theorem zAsg_relaxed {u : F} {x w : List F} {k : Wire} (h : Readable x w k) :
    zAsg (x.length + 1) (u :: (x ++ w)) k = relaxedAsg u x w k ∧
      (Matrix.readZ (x.length + 1) (u :: (x ++ w)) k).isSome := by
  unfold zAsg
  cases k with
  | inst i =>
    cases i with
    | zero => simp [Matrix.readZ, relaxedAsg]
    | succ i =>
      have hi : i < x.length := h
      simp only [Matrix.readZ, relaxedAsg, List.getElem?_cons_succ, List.getD_eq_getElem?_getD]
      rw [List.getElem?_append_left hi]
      simp [hi]
  | wit i =>
    have hi : i < w.length := h
    simp only [Matrix.readZ, relaxedAsg]
    rw [show i + (x.length + 1) = (x.length + i) + 1 by omega, List.getElem?_cons_succ,
      List.getElem?_append_right (by omega)]
    simp [hi]

theorem zAsg_axpy {l : Nat} {z1 z2 : List F} {r : F} (h : z1.length = z2.length) (k : Wire) :
    zAsg l (axpy r z1 z2) k = zAsg l z1 k + r * zAsg l z2 k := by
  cases k with
  | inst i => simpa [zAsg, Matrix.readZ, List.getD_eq_getElem?_getD] using getD_axpy (r := r) h i
  | wit i => simpa [zAsg, Matrix.readZ, List.getD_eq_getElem?_getD] using getD_axpy (r := r) h (i + l)

theorem rowVal_axpy {z1 z2 z3 : Assignment F} {r : F} (h : ∀ k, z3 k = z1 k + r * z2 k) (row : Row F) :
    rowVal z3 row = rowVal z1 row + r * rowVal z2 row := by
  induction row with
  | nil => simp [rowVal]
  | cons e row ih =>
    have h3 : ∀ z : Assignment F, rowVal z (e :: row) = z e.1 * e.2 + rowVal z row := fun z => by simp [rowVal]
    rw [h3, h3, h3, ih, h]; ring

end vec

section mat
variable {F : Type} [Field F] [DecidableEq F]

theorem rowProd_none_aux {l : Nat} {z : List F} (r : Row F) (acc : F) {v : F}
    (h : r.foldlM (fun sum e => (Matrix.readZ l z e.1).map (fun v => sum + e.2 * v)) acc = some v) :
    ∀ e ∈ r, (Matrix.readZ l z e.1).isSome := by
  induction r generalizing acc with
  | nil => simp
  | cons e r ih =>
    rw [List.foldlM_cons] at h
    cases hz : Matrix.readZ l z e.1 with
    | none => simp [hz] at h
    | some y =>
      simp only [hz, Option.map_some, Option.bind_eq_bind, Option.bind_some] at h
      simp only [List.mem_cons, forall_eq_or_imp, hz, Option.isSome_some, true_and]
      exact ih _ h

theorem rowProd_of {l : Nat} {z : List F} {r : Row F} (h : ∀ e ∈ r, (Matrix.readZ l z e.1).isSome) :
    Matrix.rowProd l z r = some (rowVal (zAsg l z) r) := by
  unfold Matrix.rowProd
  rw [Matrix.rowProd_aux (z := zAsg l z) r, zero_add]
  intro e he
  obtain ⟨y, hy⟩ := Option.isSome_iff_exists.mp (h e he)
  simp [zAsg, hy]

theorem prodLoop_some {l : Nat} {z : List F} (rows : List (Row F)) : ∀ {i : Nat} {v o : List F},
    i ≤ v.length → Matrix.prodLoop l z rows i v = some o →
    i + rows.length ≤ v.length ∧ ∀ r ∈ rows, ∀ e ∈ r, (Matrix.readZ l z e.1).isSome := by
  induction rows with
  | nil => intro i v o hi _; simpa using hi
  | cons r rows ih =>
    intro i v o hi h
    unfold Matrix.prodLoop at h
    cases hr : Matrix.rowProd l z r with
    | none => simp [hr] at h
    | some s =>
      simp only [hr, Option.bind_eq_bind, Option.bind_some] at h
      by_cases hv : i < v.length
      · rw [if_pos hv] at h
        obtain ⟨h1, h2⟩ := ih (by simpa using hv) h
        simp only [List.length_set] at h1
        refine ⟨by simp; omega, ?_⟩
        intro r' hr'
        rcases List.mem_cons.mp hr' with rfl | h'
        · exact rowProd_none_aux _ _ hr
        · exact h2 r' h'
      · rw [if_neg hv] at h; cases h

/-- The rows fit in `m` entries and read inside `z`. -/
structure Reads (rows : List (Row F)) (m l : Nat) (z : List F) : Prop where
  le : rows.length ≤ m
  read : ∀ r ∈ rows, ∀ e ∈ r, (Matrix.readZ l z e.1).isSome

/-- The product of the matrix with the assignment. -/
def mv (rows : List (Row F)) (m l : Nat) (z : List F) : List F :=
  rows.map (rowVal (zAsg l z)) ++ List.replicate (m - rows.length) 0

theorem prod_of {rows : List (Row F)} {m l : Nat} {z : List F} (h : Reads rows m l z) :
    Matrix.prod rows m l z = some (mv rows m l z) := by
  unfold Matrix.prod
  rw [Matrix.prodLoop_eq (f := rowVal (zAsg l z)) rows (fun r hr => rowProd_of (h.read r hr)) 0 _ (by simpa using h.le)]
  simp [mv]

theorem prod_some {rows : List (Row F)} {m l : Nat} {z v : List F} (h : Matrix.prod rows m l z = some v) :
    Reads rows m l z ∧ v = mv rows m l z := by
  have hr : Reads rows m l z := by
    obtain ⟨h1, h2⟩ := prodLoop_some rows (Nat.zero_le _) h
    exact ⟨by simpa using h1, h2⟩
  rw [prod_of hr] at h
  exact ⟨hr, (Option.some.inj h).symm⟩

theorem length_mv {rows : List (Row F)} {m l : Nat} {z : List F} (h : rows.length ≤ m) : (mv rows m l z).length = m := by
  simp [mv, h]

theorem getD_mv {rows : List (Row F)} {m l : Nat} {z : List F} (i : Nat) :
    (mv rows m l z).getD i 0 = rowVal (zAsg l z) (rows.getD i []) := by
  unfold mv
  simp only [List.getD_eq_getElem?_getD]
  by_cases hi : i < rows.length
  · rw [List.getElem?_append_left (by simpa using hi)]
    simp [hi]
  · rw [List.getElem?_append_right (by simpa using hi), List.getElem?_eq_none (l := rows) (by omega)]
    simp only [List.getElem?_replicate, List.length_map, Option.getD_none]
    split <;> simp [rowVal]

theorem Reads.length_eq {rows : List (Row F)} {m l : Nat} {z z' : List F} (h : Reads rows m l z)
    (hz : z.length = z'.length) : Reads rows m l z' :=
  ⟨h.le, fun r hr e he => by
    have := h.read r hr e he
    cases hk : e.1 <;> simp [hk, Matrix.readZ] at this ⊢ <;> omega⟩

/-- Entry-wise equality as the code tests it. -/
theorem all_zip_iff {a b : List F} (h : a.length = b.length) :
    (a.zip b).all (fun p => p.1 == p.2) = true ↔ ∀ i < a.length, a.getD i 0 = b.getD i 0 := by
  induction a generalizing b with
  | nil => simp
  | cons s a ih =>
    cases b with
    | nil => simp at h
    | cons t b =>
      simp only [List.length_cons, Nat.add_right_cancel_iff] at h
      simp only [List.zip_cons_cons, List.all_cons, Bool.and_eq_true, beq_iff_eq, ih h, List.length_cons]
      constructor
      · rintro ⟨rfl, h'⟩ i hi
        cases i with
        | zero => simp
        | succ i => simpa using h' i (by omega)
      · intro h'
        exact ⟨by simpa using h' 0 (by omega), fun i hi => by simpa using h' (i + 1) (by omega)⟩

/-- All three matrices. -/
structure ReadsAll (S : Shape F) (l : Nat) (z : List F) : Prop where
  a : Reads S.a S.m l z
  b : Reads S.b S.m l z
  c : Reads S.c S.m l z

/-- Relaxed satisfaction with the assignment the code reads. -/
def HoldsZ (S : Shape F) (l : Nat) (z : List F) (u : F) (e : List F) : Prop :=
  ∀ i < S.m, rowVal (zAsg l z) (S.a.getD i []) * rowVal (zAsg l z) (S.b.getD i []) =
    u * rowVal (zAsg l z) (S.c.getD i []) + e.getD i 0

variable {G : Type}

theorem isSatRelaxed_of {S : Shape F} {i : RInst F G} {w : RWit F}
    (h : ReadsAll S (i.x.length + 1) (i.u :: (i.x ++ w.w))) (he : w.e.length = S.m) :
    ∃ b, isSatRelaxed S i w = some b ∧
      (b = true ↔ HoldsZ S (i.x.length + 1) (i.u :: (i.x ++ w.w)) i.u w.e) := by
  unfold isSatRelaxed
  simp only [prod_of h.a, prod_of h.b, prod_of h.c, Option.bind_eq_bind, Option.bind_some]
  rw [zipVec_eq (by rw [length_mv h.a.le, length_mv h.b.le]),
    zipVec_eq (by rw [length_vecScale, length_mv h.c.le, he])]
  simp only [Option.bind_some]
  refine ⟨_, rfl, ?_⟩
  rw [all_zip_iff (by simp [length_mv h.a.le, length_mv h.b.le, length_mv h.c.le, he])]
  simp only [List.length_zipWith, length_mv h.a.le, length_mv h.b.le, min_self]
  unfold HoldsZ
  refine forall₂_congr fun k _ => ?_
  rw [getD_zipWith (by rw [length_mv h.a.le, length_mv h.b.le]) (by simp),
    getD_zipWith (by rw [length_vecScale, length_mv h.c.le, he]) (by simp), getD_vecScale, getD_mv, getD_mv, getD_mv,
    mul_comm i.u]

theorem isSatRelaxed_some {S : Shape F} {i : RInst F G} {w : RWit F} {b : Bool} (h : isSatRelaxed S i w = some b) :
    ReadsAll S (i.x.length + 1) (i.u :: (i.x ++ w.w)) ∧ w.e.length = S.m ∧
      (b = true ↔ HoldsZ S (i.x.length + 1) (i.u :: (i.x ++ w.w)) i.u w.e) := by
  have key : ReadsAll S (i.x.length + 1) (i.u :: (i.x ++ w.w)) ∧ w.e.length = S.m := by
    unfold isSatRelaxed at h
    simp only [Option.bind_eq_bind, Option.bind_eq_some_iff] at h
    obtain ⟨az, ha, bz, hb, cz, hc, ab, hab, ce, hce, -⟩ := h
    obtain ⟨ra, rfl⟩ := prod_some ha
    obtain ⟨rb, rfl⟩ := prod_some hb
    obtain ⟨rc, rfl⟩ := prod_some hc
    obtain ⟨hl, -⟩ := zipVec_some hce
    rw [length_vecScale, length_mv rc.le] at hl
    exact ⟨⟨ra, rb, rc⟩, hl.symm⟩
  obtain ⟨b', hb', hiff⟩ := isSatRelaxed_of (G := G) key.1 key.2
  rw [h] at hb'
  cases hb'
  exact ⟨key.1, key.2, hiff⟩

variable [AddCommGroup G] [Module F G] [DecidableEq G]

theorem isSat_of {S : Shape F} {ck : List G} {i : Inst F G} {w : List F}
    (h : ReadsAll S (i.x.length + 1) (1 :: (i.x ++ w))) :
    ∃ b, isSat S ck i w = some b ∧
      (b = true ↔ HoldsZ S (i.x.length + 1) (1 :: (i.x ++ w)) 1 [] ∧ i.commitW = commit ck w) := by
  unfold isSat
  simp only [prod_of h.a, prod_of h.b, prod_of h.c, Option.bind_eq_bind, Option.bind_some]
  rw [zipVec_eq (by rw [length_mv h.a.le, length_mv h.b.le])]
  simp only [Option.bind_some]
  refine ⟨_, rfl, ?_⟩
  rw [Bool.and_eq_true, decide_eq_true_iff,
    all_zip_iff (by simp [length_mv h.a.le, length_mv h.b.le, length_mv h.c.le])]
  simp only [List.length_zipWith, length_mv h.a.le, length_mv h.b.le, min_self]
  unfold HoldsZ
  refine and_congr (forall₂_congr fun k _ => ?_) Iff.rfl
  rw [getD_zipWith (by rw [length_mv h.a.le, length_mv h.b.le]) (by simp), getD_mv, getD_mv, getD_mv]
  simp

theorem isSat_some {S : Shape F} {ck : List G} {i : Inst F G} {w : List F} {b : Bool} (h : isSat S ck i w = some b) :
    ReadsAll S (i.x.length + 1) (1 :: (i.x ++ w)) ∧
      (b = true ↔ HoldsZ S (i.x.length + 1) (1 :: (i.x ++ w)) 1 [] ∧ i.commitW = commit ck w) := by
  have key : ReadsAll S (i.x.length + 1) (1 :: (i.x ++ w)) := by
    unfold isSat at h
    simp only [Option.bind_eq_bind, Option.bind_eq_some_iff] at h
    obtain ⟨az, ha, bz, hb, cz, hc, -⟩ := h
    exact ⟨(prod_some ha).1, (prod_some hb).1, (prod_some hc).1⟩
  obtain ⟨b', hb', hiff⟩ := isSat_of (G := G) (ck := ck) key
  rw [h] at hb'
  cases hb'
  exact ⟨key, hiff⟩

omit [AddCommGroup G] [Module F G] [DecidableEq G] in
theorem crossTerm_of {S : Shape F} {i1 : RInst F G} {w1 : RWit F} {i2 : Inst F G} {w2 : List F}
    (h1 : ReadsAll S (i1.x.length + 1) (i1.u :: (i1.x ++ w1.w))) (h2 : ReadsAll S (i2.x.length + 1) (1 :: (i2.x ++ w2))) :
    ∃ t, crossTerm S i1 w1 i2 w2 = some t ∧ t.length = S.m ∧ ∀ k, t.getD k 0 =
      rowVal (zAsg (i2.x.length + 1) (1 :: (i2.x ++ w2))) (S.a.getD k []) *
        rowVal (zAsg (i1.x.length + 1) (i1.u :: (i1.x ++ w1.w))) (S.b.getD k []) +
      rowVal (zAsg (i1.x.length + 1) (i1.u :: (i1.x ++ w1.w))) (S.a.getD k []) *
        rowVal (zAsg (i2.x.length + 1) (1 :: (i2.x ++ w2))) (S.b.getD k []) -
      rowVal (zAsg (i2.x.length + 1) (1 :: (i2.x ++ w2))) (S.c.getD k []) * i1.u -
      rowVal (zAsg (i1.x.length + 1) (i1.u :: (i1.x ++ w1.w))) (S.c.getD k []) := by
  unfold crossTerm
  simp only [prod_of h1.a, prod_of h1.b, prod_of h1.c, prod_of h2.a, prod_of h2.b, prod_of h2.c,
    Option.bind_eq_bind, Option.bind_some]
  have la1 := length_mv (l := i1.x.length + 1) (z := i1.u :: (i1.x ++ w1.w)) h1.a.le
  have lb1 := length_mv (l := i1.x.length + 1) (z := i1.u :: (i1.x ++ w1.w)) h1.b.le
  have lc1 := length_mv (l := i1.x.length + 1) (z := i1.u :: (i1.x ++ w1.w)) h1.c.le
  have la2 := length_mv (l := i2.x.length + 1) (z := 1 :: (i2.x ++ w2)) h2.a.le
  have lb2 := length_mv (l := i2.x.length + 1) (z := 1 :: (i2.x ++ w2)) h2.b.le
  have lc2 := length_mv (l := i2.x.length + 1) (z := 1 :: (i2.x ++ w2)) h2.c.le
  rw [zipVec_eq (by rw [la2, lb1]), Option.bind_some, zipVec_eq (by rw [la1, lb2]), Option.bind_some,
    zipVec_eq (by simp [la1, lb2, la2, lb1]), Option.bind_some,
    zipVec_eq (by simp [la1, lb2, la2, lb1, lc2]), Option.bind_some,
    zipVec_eq (by simp [la1, lb2, la2, lb1, lc2, lc1])]
  refine ⟨_, rfl, by simp [la1, lb2, la2, lb1, lc2, lc1], fun k => ?_⟩
  rw [getD_zipWith (by simp [la1, lb2, la2, lb1, lc2, lc1]) (by simp),
    getD_zipWith (by simp [la1, lb2, la2, lb1, lc2, lc1]) (by simp),
    getD_zipWith (by simp [la1, lb2, la2, lb1, lc2, lc1]) (by simp),
    getD_zipWith (by simp [la1, lb2, la2, lb1, lc2, lc1]) (by simp),
    getD_zipWith (by simp [la1, lb2, la2, lb1, lc2, lc1]) (by simp)]
  simp only [getD_vecScale, getD_mv, mul_one]

theorem fold_z {u1 r : F} {x1 x2 w1 w2 : List F} (hx : x1.length = x2.length) :
    (u1 + r) :: (axpy r x1 x2 ++ axpy r w1 w2) = axpy r (u1 :: (x1 ++ w1)) (1 :: (x2 ++ w2)) := by
  unfold axpy
  rw [List.zipWith_cons_cons, List.zipWith_append hx, mul_one]

theorem RInst.fold_eq {i1 : RInst F G} {i2 : Inst F G} {r : F} {T : G} (hx : i1.x.length = i2.x.length) :
    i1.fold i2 r T = some ⟨i1.commitW + r • i2.commitW, i1.commitE + r • T, i1.u + r, axpy r i1.x i2.x⟩ := by
  unfold RInst.fold
  rw [zipVec_eq (by simpa using hx), axpy_eq]; rfl

theorem RInst.fold_some {i1 : RInst F G} {i2 : Inst F G} {r : F} {T : G} {o : RInst F G} (h : i1.fold i2 r T = some o) :
    i1.x.length = i2.x.length ∧
    o = ⟨i1.commitW + r • i2.commitW, i1.commitE + r • T, i1.u + r, axpy r i1.x i2.x⟩ := by
  have hx : i1.x.length = i2.x.length := by
    unfold RInst.fold at h
    simp only [Option.bind_eq_bind, Option.bind_eq_some_iff] at h
    obtain ⟨x, hx, -⟩ := h
    simpa using (zipVec_some hx).1
  rw [RInst.fold_eq hx] at h
  exact ⟨hx, (Option.some.inj h).symm⟩

theorem RWit.fold_eq {w1 : RWit F} {w2 t : List F} {r : F} (hw : w1.w.length = w2.length) (he : w1.e.length = t.length) :
    w1.fold w2 r t = some ⟨axpy r w1.w w2, axpy r w1.e t⟩ := by
  unfold RWit.fold
  rw [zipVec_eq (by simpa using he), zipVec_eq (by simpa using hw), axpy_eq, axpy_eq]; rfl

theorem foldl_msum {g : List G} : ∀ (m : List F) (acc : G),
    (m.zip g).foldl (fun sum ve => sum + ve.1 • ve.2) acc = acc + msum m g := by
  induction g with
  | nil => intro m acc; simp [msum]
  | cons e g ih =>
    intro m acc
    cases m with
    | nil => simp [msum]
    | cons v m =>
      rw [List.zip_cons_cons, List.foldl_cons, ih]
      unfold msum
      rw [show min (v :: m).length (e :: g).length = min m.length g.length + 1 by simp, Finset.sum_range_succ']
      simp only [List.getD_cons_succ, List.getD_cons_zero]
      rw [add_assoc, add_comm (v • e)]

theorem commit_eq_msum (g : List G) (m : List F) : commit g m = msum m g := by
  unfold commit; rw [foldl_msum, zero_add]

theorem commit_axpy (g : List G) {a b : List F} (h : a.length = b.length) (r : F) :
    commit g (axpy r a b) = commit g a + r • commit g b := by
  rw [commit_eq_msum, commit_eq_msum, commit_eq_msum]
  unfold msum
  rw [length_axpy h, ← h, Finset.smul_sum, ← Finset.sum_add_distrib]
  refine Finset.sum_congr rfl fun i _ => ?_
  rw [getD_axpy h, add_smul, smul_smul]

end mat

section bits
variable {p q : Nat}

theorem readBitsLE_eq (bs : List Nat) (hb : ∀ b ∈ bs, b = 0 ∨ b = 1) : ∀ (mult val : ZMod p),
    readBitsLE bs mult val = val + mult * ((beValue 2 bs.reverse : Nat) : ZMod p) := by
  induction bs with
  | nil => intro m v; simp [readBitsLE, beValue]
  | cons b bs ih =>
    intro m v
    unfold readBitsLE
    rw [ih (fun b hb' => hb b (by simp [hb'])), List.reverse_cons, beValue_append]
    rcases hb b (by simp) with rfl | rfl <;> simp [beValue] <;> ring

theorem reread_eq (hp : p ≤ 2 ^ 256) [NeZero p] (x : ZMod p) : (reread x : ZMod q) = ((x.val : Nat) : ZMod q) := by
  unfold reread
  rw [readBitsLE_eq _ (by intro b hb; exact bits256_bit _ b (List.mem_reverse.mp hb)), List.reverse_reverse,
    bits256_value (lt_of_lt_of_le x.val_lt hp)]
  simp

theorem squeeze_eq [Fact q.Prime] (consts state : List (ZMod q)) {n : Nat} (h : n ≤ 256) :
    (squeeze consts state n : ZMod p) = (((sponge consts state).val % 2 ^ n : Nat) : ZMod p) := by
  unfold squeeze
  rw [readBitsLE_eq]
  · rw [show (List.take n (bits256 (sponge consts state).val).reverse).reverse =
      (bits256 (sponge consts state).val).drop (256 - n) from by
        rw [List.take_reverse, List.reverse_reverse, bits256_length], bits256_drop_value _ _ h]
    simp
  · intro b hb
    exact bits256_bit _ b (List.mem_reverse.mp (List.mem_of_mem_take hb))

theorem natToF_nat {n : Nat} (h : n < 2 ^ 511) : (natToF (n : Int) : Option (ZMod p)) = some (n : ZMod p) := by
  have hs : signedBytesLen (n : Int) = n.size / 8 + 1 := by simp [signedBytesLen]
  unfold natToF
  have hk : ∀ k, n < 2 ^ k → n.size ≤ k := fun k hk => Nat.size_le.mpr hk
  have hle : n.size ≤ 511 := hk 511 h
  rw [hs, if_neg (by omega)]
  congr 1
  have hlt : n < 2 ^ (8 * (n.size / 8 + 1)) :=
    lt_of_lt_of_le (Nat.lt_size_self n) (Nat.pow_le_pow_right (by norm_num) (by omega))
  have : ((n : Int) % 2 ^ (8 * (n.size / 8 + 1)) : Int) = (n : Int) :=
    Int.emod_eq_of_lt (Int.natCast_nonneg n) (by exact_mod_cast hlt)
  rw [this]; simp

theorem natToF_big {n : Nat} (h : 2 ^ 511 ≤ n) : (natToF (n : Int) : Option (ZMod p)) = none := by
  have hs : signedBytesLen (n : Int) = n.size / 8 + 1 := by simp [signedBytesLen]
  have hk : ∀ k, 2 ^ k ≤ n → k < n.size := fun k hk => Nat.lt_size.mpr hk
  have : 511 < n.size := hk 511 h
  unfold natToF
  rw [hs, if_pos (by omega)]

theorem zip_take_left {α β : Type} : ∀ (a : List α) (b : List β), (a.take b.length).zip b = a.zip b
  | [], b => by simp
  | _ :: _, [] => by simp
  | x :: a, y :: b => by simp [zip_take_left a b]

theorem zip_take_len {α β : Type} : ∀ (a : List α) (b : List β), a.zip (b.take a.length) = a.zip b
  | [], b => by simp
  | _ :: _, [] => by simp
  | x :: a, y :: b => by simp [zip_take_len a b]

/-- The limbs of a natural number. -/
def limbsOf (w k n : Nat) : List Nat := (List.range k).map (fun i => n / 2 ^ (w * i) % 2 ^ w)

theorem limbLoop_eq {w : Nat} (hw : w ≤ 511) (k : Nat) : ∀ n : Nat,
    (limbLoop w k (n : Int) : Option (List (ZMod p))) = some ((limbsOf w k n).map (fun d : Nat => (d : ZMod p))) := by
  induction k with
  | zero => intro n; rfl
  | succ k ih =>
    intro n
    unfold limbLoop
    have h1 : ((n : Int) % 2 ^ w : Int) = ((n % 2 ^ w : Nat) : Int) := by push_cast; rfl
    have h2 : ((n : Int) / 2 ^ w : Int) = ((n / 2 ^ w : Nat) : Int) := by push_cast; rfl
    rw [h1, h2, natToF_nat (lt_of_lt_of_le (Nat.mod_lt _ (by positivity)) (Nat.pow_le_pow_right (by norm_num) hw)), ih]
    simp only [Option.bind_eq_bind, Option.bind_some, limbsOf, List.range_succ_eq_map, List.map_cons, List.map_map,
      Nat.mul_zero, pow_zero, Nat.div_one]
    congr 2
    refine List.map_congr_left fun i _ => ?_
    simp only [Function.comp, Nat.succ_eq_add_one, Nat.mul_add, Nat.mul_one, pow_add]
    rw [Nat.div_div_eq_div_mul, Nat.mul_comm (2 ^ w)]

theorem limbsOf_succ (w k n : Nat) : limbsOf w (k + 1) n = n % 2 ^ w :: limbsOf w k (n / 2 ^ w) := by
  simp only [limbsOf, List.range_succ_eq_map, List.map_cons, List.map_map, Nat.mul_zero, pow_zero, Nat.div_one]
  congr 1
  refine List.map_congr_left fun i _ => ?_
  simp only [Function.comp, Nat.succ_eq_add_one, Nat.mul_add, Nat.mul_one, pow_add]
  rw [Nat.div_div_eq_div_mul, Nat.mul_comm (2 ^ w)]

theorem limbsOf_lt {w k n : Nat} : ∀ d ∈ limbsOf w k n, d < 2 ^ w := by
  intro d hd
  obtain ⟨i, -, rfl⟩ := List.mem_map.mp hd
  exact Nat.mod_lt _ (by positivity)

theorem limbsOf_value (w k : Nat) : ∀ n, leValue (2 ^ w) (limbsOf w k n) = n % 2 ^ (k * w) := by
  induction k with
  | zero => intro n; simp [limbsOf, leValue, Nat.mod_one]
  | succ k ih =>
    intro n
    rw [limbsOf_succ, leValue, ih, Nat.succ_mul, Nat.add_comm (k * w), pow_add, Nat.mod_mul]

theorem limbsOf_leValue {w : Nat} : ∀ (ds : List Nat), (∀ d ∈ ds, d < 2 ^ w) →
    limbsOf w ds.length (leValue (2 ^ w) ds) = ds := by
  intro ds
  induction ds with
  | nil => intro _; rfl
  | cons d ds ih =>
    intro h
    have hd : d < 2 ^ w := h d (by simp)
    rw [List.length_cons, limbsOf_succ, leValue, Nat.add_mul_mod_self_left, Nat.mod_eq_of_lt hd,
      Nat.add_mul_div_left _ _ (by positivity), Nat.div_eq_of_lt hd, Nat.zero_add, ih (fun x hx => h x (by simp [hx]))]

theorem natToLimbs_eq {w k n : Nat} (hw : w ≤ 511) (h : n < 2 ^ (k * w)) :
    (natToLimbs (n : Int) w k : Option (List (ZMod p))) = some ((limbsOf w k n).map (fun d : Nat => (d : ZMod p))) := by
  unfold natToLimbs
  rw [if_pos (by simpa using Nat.size_le.mpr h), limbLoop_eq hw]

theorem absorbX_eq [NeZero p] (hp : p ≤ 2 ^ 256) (x : ZMod p) : (absorbX x : Option (List (ZMod q))) =
    some (((limbsOf 64 4 x.val).map (fun d : Nat => (d : ZMod p))).map reread) := by
  unfold absorbX fToNat limbWidth nLimbs
  rw [natToLimbs_eq (by norm_num) (lt_of_lt_of_le x.val_lt (by simpa using hp))]; rfl

theorem absorb_isSome {G : Type} [NeZero p] [Fact q.Prime] (hp : p ≤ 2 ^ 256) (E : Env q G) (i : RInst (ZMod p) G) :
    ∃ a, i.absorb E = some a := by
  unfold RInst.absorb
  have : ∃ xs, i.x.mapM (absorbX (p := p) (q := q)) = some xs := by
    induction i.x with
    | nil => exact ⟨[], rfl⟩
    | cons x l ih =>
      obtain ⟨xs, hxs⟩ := ih
      rw [List.mapM_cons, absorbX_eq hp, hxs]
      exact ⟨_, rfl⟩
  obtain ⟨xs, h⟩ := this
  rw [h]
  exact ⟨_, rfl⟩

theorem challenge_isSome {G : Type} [NeZero p] [Fact q.Prime] (hp : p ≤ 2 ^ 256) (E : Env q G) (T : G)
    (i : RInst (ZMod p) G) : ∃ r, challenge E T i = some r := by
  obtain ⟨a, h⟩ := absorb_isSome hp E i
  unfold challenge
  rw [h]; exact ⟨_, rfl⟩

end bits
end Kogarashi.Nova
