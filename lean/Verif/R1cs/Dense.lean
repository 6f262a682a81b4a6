import Verif.R1cs.Row

/-!
# Model: dense vectors

Model of `zkstd/src/matrix/vector.rs`.  A vector is the `Vec` it wraps; a panic is `none`.
-/

namespace Kogarashi.Dense

variable {F : Type}

/-- `vector.rs:44-47` `DenseVectorsIterator`: the vector (a copy) and the position of the next entry. -/
structure Iter (F : Type) where
  vec : List F
  index : Nat

/-- `vector.rs:27-32` `iter`. -/
def iter (v : List F) : Iter F := ⟨v, 0⟩

/-- `vector.rs:62-68` `index`: panics outside the vector. -/
def index (v : List F) (i : Nat) : Option F := v[i]?

/-- `vector.rs:70-74` `index_mut`, as an assignment through it. -/
def setIndex (v : List F) (i : Nat) (x : F) : Option (List F) := if i < v.length then some (v.set i x) else none

/-- `vector.rs:16-18` `push`. -/
def push (v : List F) (x : F) : List F := v ++ [x]

/-- `vector.rs:34-36` `one` and `vector.rs:38-40` `zero`, by the entry repeated. -/
def constant (x : F) (m : Nat) : List F := List.replicate m x

/-- `vector.rs:52-60` `next`: the outer `Option` is a panic (of the index), the inner one the end of the iteration. -/
def next (it : Iter F) : Option (Option (F × Iter F)) :=
  if it.index < it.vec.length then (index it.vec it.index).map fun x => some (x, ⟨it.vec, it.index + 1⟩) else some none

/-- `iter().map(f).collect()`: `next` until the end (`vector.rs:80`, `88`). -/
def collectMap (f : F → F) (it : Iter F) : Option (List F) :=
  if h : it.index < it.vec.length then
    (index it.vec it.index).bind fun x => (collectMap f ⟨it.vec, it.index + 1⟩).map (f x :: ·)
  else some []
termination_by it.vec.length - it.index

/-- `a.iter().zip(b.iter()).map(f).collect()` (`vector.rs:99`, `109`, `119`, `129`): ends with the first iterator to end. -/
def collectZip (f : F → F → F) (a b : Iter F) : Option (List F) :=
  if h : a.index < a.vec.length then
    (index a.vec a.index).bind fun x =>
      if b.index < b.vec.length then
        (index b.vec b.index).bind fun y => (collectZip f ⟨a.vec, a.index + 1⟩ ⟨b.vec, b.index + 1⟩).map (f x y :: ·)
      else some []
  else some []
termination_by a.vec.length - a.index

/-- `vector.rs:76-91` multiplication by a field element. -/
def scale [Mul F] (v : List F) (r : F) : Option (List F) := collectMap (· * r) (iter v)

/-- `vector.rs:93-132` the component-wise operators: `assert_eq!` on the lengths, then the zip. -/
def zipped (f : F → F → F) (a b : List F) : Option (List F) :=
  if a.length = b.length then collectZip f (iter a) (iter b) else none

/-- `vector.rs:102-122` `+`. -/
def add [Add F] (a b : List F) : Option (List F) := zipped (fun x y => x + y) a b
/-- `vector.rs:124-132` `-`. -/
def sub [Sub F] (a b : List F) : Option (List F) := zipped (fun x y => x - y) a b
/-- `vector.rs:93-101` `*`. -/
def mul [Mul F] (a b : List F) : Option (List F) := zipped (fun x y => x * y) a b

theorem collectMap_eq (f : F → F) (v : List F) : ∀ (k i : Nat), v.length - i = k → collectMap f ⟨v, i⟩ = some ((v.drop i).map f)
  | 0, i, h => by
    unfold collectMap
    rw [dif_neg (by simp only; omega), List.drop_eq_nil_of_le (by omega)]
    rfl
  | k + 1, i, h => by
    have hi : i < v.length := by omega
    unfold collectMap
    rw [dif_pos (by simpa using hi)]
    simp only [index, List.getElem?_eq_getElem hi, Option.bind_some, collectMap_eq f v k (i + 1) (by omega), Option.map_some]
    rw [List.drop_eq_getElem_cons hi, List.map_cons]

theorem collectZip_eq (f : F → F → F) (a b : List F) : ∀ (k i : Nat), a.length - i = k → a.length = b.length →
    collectZip f ⟨a, i⟩ ⟨b, i⟩ = some (List.zipWith f (a.drop i) (b.drop i))
  | 0, i, h, hl => by
    unfold collectZip
    rw [dif_neg (by simp only; omega), List.drop_eq_nil_of_le (by omega)]
    rfl
  | k + 1, i, h, hl => by
    have hi : i < a.length := by omega
    have hj : i < b.length := by omega
    unfold collectZip
    rw [dif_pos (by simpa using hi)]
    simp only [index, List.getElem?_eq_getElem hi, List.getElem?_eq_getElem hj, Option.bind_some, if_pos hj,
      collectZip_eq f a b k (i + 1) (by omega) hl, Option.map_some]
    rw [List.drop_eq_getElem_cons hi, List.drop_eq_getElem_cons hj, List.zipWith_cons_cons]

theorem scale_eq [Mul F] (v : List F) (r : F) : scale v r = some (v.map (· * r)) := collectMap_eq _ v _ 0 rfl

/-- The operators are the `zipVec` used by the models of matrices and folding. -/
theorem zipped_eq (f : F → F → F) (a b : List F) : zipped f a b = zipVec f a b := by
  unfold zipped zipVec
  split_ifs with h
  · exact collectZip_eq f a b _ 0 rfl h
  · rfl

end Kogarashi.Dense
