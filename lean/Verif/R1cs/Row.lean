import Mathlib.Algebra.Field.Basic
import Mathlib.Data.List.Nodup

/-!
# Model: wires, sparse rows, matrices

Model of `zkstd/src/r1cs/wire.rs`, `zkstd/src/matrix/row.rs`, `zkstd/src/matrix.rs` and the part of
`zkstd/src/matrix/vector.rs` used by them.  The field is an arbitrary Mathlib field with decidable
equality (the limb level is `Verif/Field`); `u64` indices are natural numbers (no circuit has `2^64`
wires); out-of-range indexing, which panics in the code, is `none`.
-/

namespace Kogarashi

/-- `zkstd/src/r1cs/wire.rs:7-11` `enum Wire { Instance(u64), Witness(u64) }`. -/
inductive Wire where
  | inst : Nat → Wire
  | wit : Nat → Wire
deriving DecidableEq, Repr

/-- `zkstd/src/r1cs/wire.rs:13-15` `Wire::ONE = Wire::Instance(0)`. -/
def Wire.ONE : Wire := .inst 0

/-- `zkstd/src/matrix/row.rs:8-9` `SparseRow(Vec<(Wire, F)>)`. -/
abbrev Row (F : Type) := List (Wire × F)

namespace Row

variable {F : Type} [Field F] [DecidableEq F]

/-- `row.rs:13-20` `SparseRow::new`: drops the zero coefficients. -/
def mk (coefficients : List (Wire × F)) : Row F := coefficients.filter (fun e => e.2 ≠ 0)

/-- `row.rs:66-70` `From<F>`. -/
def ofConst (v : F) : Row F := mk [(Wire.ONE, v)]

/-- `row.rs:54-58` `From<Wire>`. -/
def ofWire (w : Wire) : Row F := mk [(w, 1)]

/-- `row.rs:26-28` `SparseRow::one`. -/
def one : Row F := ofConst 1

/-- `row.rs:196-203` `get_value_from_wire`: coefficient of the first term with that wire. -/
def coeff (index : Wire) : List (Wire × F) → Option F
  | [] => none
  | e :: es => if index = e.1 then some e.2 else coeff index es

/-- `row.rs:35-41` `as_constant`. -/
def asConstant (r : Row F) : Option F := if r.length = 1 then coeff Wire.ONE r else none

/-- The match on the wire at `row.rs:45-48` (and `r1cs.rs:182-191` `Index<Wire>`): reading a wire of
the instance/witness vectors, `none` when the index is out of range. -/
def readWire (x w : List F) : Wire → Option F
  | .inst i => x[i]?
  | .wit i => w[i]?

/-- `row.rs:43-51` `evaluate`. -/
def evaluate (x w : List F) (r : Row F) : Option F :=
  r.foldlM (fun sum e => (readWire x w e.1).map (fun v => sum + v * e.2)) 0

/-- The pair pushed at `row.rs:107-110` for a term of the right operand. -/
def addTerm (a : Row F) (e : Wire × F) : Wire × F :=
  match coeff e.1 a with
  | some ca => (e.1, ca + e.2)
  | none => (e.1, e.2)

/-- `row.rs:96-114` `&a + &b`. -/
def add (a b : Row F) : Row F :=
  mk (a.filter (fun e => (coeff e.1 b).isNone) ++ b.map (addTerm a))

/-- `row.rs:187-193` `&row * &f`. -/
def smul (a : Row F) (k : F) : Row F := mk (a.map (fun e => (e.1, e.2 * k)))

/-- `row.rs:149-155` `-&row`. -/
def neg (a : Row F) : Row F := smul a (-1)

/-- `row.rs:141-147` `&a - &b`. -/
def sub (a b : Row F) : Row F := add a (neg b)

end Row

namespace Matrix

variable {F : Type} [Field F] [DecidableEq F]

/-- The wire match at `matrix.rs:40-43`: reading a wire in the concatenation `z` of instance (length
`l`) and witness. -/
def readZ (l : Nat) (z : List F) : Wire → Option F
  | .inst i => z[i]?
  | .wit i => z[i + l]?

/-- The inner fold of `prod`, `matrix.rs:39-45`. -/
def rowProd (l : Nat) (z : List F) (r : Row F) : Option F :=
  r.foldlM (fun sum e => (readZ l z e.1).map (fun v => sum + e.2 * v)) 0

/-- The outer loop of `prod`, `matrix.rs:38-46`: `vectors[index] = …`. -/
def prodLoop (l : Nat) (z : List F) : List (Row F) → Nat → List F → Option (List F)
  | [], _, v => some v
  | r :: rs, i, v => do
    let s ← rowProd l z r
    if i < v.length then prodLoop l z rs (i + 1) (v.set i s) else none

/-- `matrix.rs:35-48` `prod(m, l, z)`. -/
def prod (rows : List (Row F)) (m l : Nat) (z : List F) : Option (List F) :=
  prodLoop l z rows 0 (List.replicate m 0)

/-- `matrix.rs:31-33` `evaluate_with_z`. -/
def evaluateWithZ (rows : List (Row F)) (x w : List F) : Option (List F) :=
  rows.mapM (fun r => r.evaluate x w)

/-- One row of the loop of `x_and_w`, `matrix.rs:22-26`: push `(coeff, i)` on the column of the wire. -/
def pushTerms (i : Nat) : Row F → List (List (F × Nat)) → List (List (F × Nat)) →
    Option (List (List (F × Nat)) × List (List (F × Nat)))
  | [], x, w => some (x, w)
  | (.inst k, c) :: r, x, w =>
    if k < x.length then pushTerms i r (x.modify k (fun col => col ++ [(c, i)])) w else none
  | (.wit k, c) :: r, x, w =>
    if k < w.length then pushTerms i r x (w.modify k (fun col => col ++ [(c, i)])) else none

/-- The outer loop of `x_and_w`, `matrix.rs:22`. -/
def pushRows : Nat → List (Row F) → List (List (F × Nat)) → List (List (F × Nat)) →
    Option (List (List (F × Nat)) × List (List (F × Nat)))
  | _, [], x, w => some (x, w)
  | i, r :: rs, x, w => do
    let (x, w) ← pushTerms i r x w
    pushRows (i + 1) rs x w

/-- `matrix.rs:15-29` `x_and_w(l, m_l_1)`: the matrix by columns. -/
def xAndW (rows : List (Row F)) (l m_l_1 : Nat) :
    Option (List (List (F × Nat)) × List (List (F × Nat))) :=
  pushRows 0 rows (List.replicate l []) (List.replicate m_l_1 [])

end Matrix

/-- `vector.rs:93-132`: component-wise operations assert equal lengths. -/
def zipVec {F : Type} (f : F → F → F) (a b : List F) : Option (List F) :=
  if a.length = b.length then some (List.zipWith f a b) else none

end Kogarashi
