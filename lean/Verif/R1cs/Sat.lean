import Verif.R1cs.RowLemmas

/-! # Matrix-vector products and `is_sat` -/

namespace Kogarashi

open Spec

variable {F : Type} [Field F] [DecidableEq F]

namespace Matrix

theorem readZ_eq {cs : CS F} {w : Wire} (h : Allocated cs w) :
    readZ cs.l (cs.x ++ cs.w) w = some (stored cs w) := by
  rw [← Row.readWire_stored h]
  cases w with
  | inst i => simp only [readZ, Row.readWire]; exact List.getElem?_append_left h
  | wit i =>
    simp only [readZ, Row.readWire, CS.l]
    rw [List.getElem?_append_right (by omega)]
    simp

theorem rowProd_aux {l : Nat} {zz : List F} {z : Assignment F} (r : Row F)
    (h : ∀ e ∈ r, readZ l zz e.1 = some (z e.1)) (acc : F) :
    r.foldlM (fun sum e => (readZ l zz e.1).map (fun v => sum + e.2 * v)) acc
      = some (acc + rowVal z r) := by
  induction r generalizing acc with
  | nil => simp
  | cons e r ih =>
    rw [List.foldlM_cons, h e (by simp)]
    simp only [Option.map_some, Option.bind_eq_bind, Option.bind_some]
    rw [ih (fun e he => h e (by simp [he]))]
    simp; ring

theorem rowProd_eq {cs : CS F} {r : Row F} (h : ∀ e ∈ r, Allocated cs e.1) :
    rowProd cs.l (cs.x ++ cs.w) r = some (rowVal (stored cs) r) := by
  unfold rowProd
  rw [rowProd_aux r (fun e he => readZ_eq (h e he)), zero_add]

theorem prodLoop_eq {l : Nat} {z : List F} {f : Row F → F} (rows : List (Row F))
    (h : ∀ r ∈ rows, rowProd l z r = some (f r)) : ∀ (i : Nat) (v : List F), i + rows.length ≤ v.length →
    prodLoop l z rows i v = some (v.take i ++ rows.map f ++ v.drop (i + rows.length)) := by
  induction rows with
  | nil => intro i v _; simp [prodLoop]
  | cons r rows ih =>
    intro i v hv
    unfold prodLoop
    rw [h r (by simp)]
    simp only [List.length_cons] at hv
    simp only [Option.bind_eq_bind, Option.bind_some]
    rw [if_pos (by omega), ih (fun r hr => h r (by simp [hr])) (i + 1) _ (by simp; omega)]
    congr 1
    rw [List.take_set, List.drop_set_of_lt (by omega)]
    rw [List.take_succ_eq_append_getElem (by omega)]
    simp only [List.map_cons, List.length_cons, List.append_assoc]
    rw [List.set_append]
    simp only [List.length_take, min_eq_left (show i ≤ v.length by omega), lt_irrefl, if_false, Nat.sub_self,
      List.set_cons_zero, List.append_assoc, List.singleton_append]
    rw [show i + (rows.length + 1) = i + 1 + rows.length by omega, List.cons_append]

theorem prod_eq {cs : CS F} {rows : List (Row F)} (h : ∀ r ∈ rows, ∀ e ∈ r, Allocated cs e.1) {m : Nat}
    (hm : rows.length ≤ m) :
    prod rows m cs.l (cs.x ++ cs.w) =
      some (rows.map (rowVal (stored cs)) ++ List.replicate (m - rows.length) 0) := by
  unfold prod
  rw [prodLoop_eq (f := rowVal (stored cs)) rows (fun r hr => rowProd_eq (h r hr)) 0 _ (by simpa using hm)]
  simp

theorem evaluateWithZ_eq {cs : CS F} {rows : List (Row F)} (h : ∀ r ∈ rows, ∀ e ∈ r, Allocated cs e.1) :
    evaluateWithZ rows cs.x cs.w = some (rows.map (rowVal (stored cs))) := by
  unfold evaluateWithZ
  induction rows with
  | nil => rfl
  | cons r rows ih =>
    rw [List.mapM_cons, Row.evaluate_eq (fun e he => Row.readWire_stored (h r (by simp) e he)),
      ih (fun r hr => h r (by simp [hr]))]
    rfl

end Matrix

theorem zip_all_iff (l : List (Constraint F)) (z : Assignment F) :
    ((List.zipWith (· * ·) (l.map (fun k => rowVal z k.a)) (l.map (fun k => rowVal z k.b))).zip
      (l.map (fun k => rowVal z k.c))).all (fun p => p.1 == p.2) = true ↔ ∀ k ∈ l, Holds z k := by
  induction l with
  | nil => simp
  | cons k l ih =>
    simp only [List.map_cons, List.zipWith_cons_cons, List.zip_cons_cons, List.all_cons,
      Bool.and_eq_true, beq_iff_eq, List.forall_mem_cons, ih]
    rfl

theorem CS.isSat_eq {cs : CS F}
    (h : ∀ k ∈ cs.cons, ∀ r ∈ [k.a, k.b, k.c], ∀ e ∈ r, Allocated cs e.1) :
    ∃ b, cs.isSat = some b ∧ (b = true ↔ ∀ k ∈ cs.cons, Holds (stored cs) k) := by
  have hA : ∀ r ∈ cs.matA, ∀ e ∈ r, Allocated cs e.1 := by
    intro r hr; obtain ⟨k, hk, rfl⟩ := List.mem_map.mp hr; exact h k hk _ (by simp)
  have hB : ∀ r ∈ cs.matB, ∀ e ∈ r, Allocated cs e.1 := by
    intro r hr; obtain ⟨k, hk, rfl⟩ := List.mem_map.mp hr; exact h k hk _ (by simp)
  have hC : ∀ r ∈ cs.matC, ∀ e ∈ r, Allocated cs e.1 := by
    intro r hr; obtain ⟨k, hk, rfl⟩ := List.mem_map.mp hr; exact h k hk _ (by simp)
  have lA : cs.matA.length = cs.m := by simp [CS.matA, CS.m]
  have lB : cs.matB.length = cs.m := by simp [CS.matB, CS.m]
  have lC : cs.matC.length = cs.m := by simp [CS.matC, CS.m]
  refine ⟨((List.zipWith (· * ·) (cs.matA.map (rowVal (stored cs))) (cs.matB.map (rowVal (stored cs)))).zip
      (cs.matC.map (rowVal (stored cs)))).all (fun p => p.1 == p.2), ?_, ?_⟩
  · unfold CS.isSat
    simp only []
    rw [Matrix.prod_eq hA lA.le, Matrix.prod_eq hB lB.le, Matrix.prod_eq hC lC.le]
    simp only [lA, lB, lC, Nat.sub_self, List.replicate_zero, List.append_nil, Option.bind_eq_bind,
      Option.bind_some]
    unfold zipVec
    rw [if_pos (by simp [lA, lB])]
    rfl
  · rw [← zip_all_iff cs.cons (stored cs)]
    simp only [CS.matA, CS.matB, CS.matC, List.map_map]
    rfl

end Kogarashi
