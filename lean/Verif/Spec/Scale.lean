import Verif.Wire.Scale
import Mathlib.Data.Nat.Log

/-!
# Specification: the bytes of a proof and of the public parameters

Written from the SCALE documentation, without the codec combinators of the model.
-/

namespace Kogarashi.Spec.Scale

open Limbs Nova Curve Kogarashi.Scale

/-- The `k` bytes of `n`, least significant first. -/
def le (k n : Nat) : List Byte := List.ofFn fun i : Fin k => Fin.ofNat 256 (n / 256 ^ i.val)

/-- Compact integer: the two low bits of the first byte give the mode (one, two, four bytes, or a byte count). -/
def compact (n : Nat) : List Byte :=
  if n < 2 ^ 6 then le 1 (4 * n)
  else if n < 2 ^ 14 then le 2 (4 * n + 1)
  else if n < 2 ^ 30 then le 4 (4 * n + 2)
  else
    let k := Nat.log 256 n + 1
    le 1 (4 * (k - 4) + 3) ++ le k n

/-- A vector: the number of elements, then the elements. -/
def vec {α : Type} (f : α → List Byte) (l : List α) : List Byte := compact l.length ++ l.flatMap f

/-- A field element: 32 bytes, the four words of its representation. -/
def field (a : L4) : List Byte := le 8 a.l0 ++ le 8 a.l1 ++ le 8 a.l2 ++ le 8 a.l3

/-- A point: 65 bytes. -/
def point (p : RawAff) : List Byte := field p.x ++ field p.y ++ [if p.inf then 1 else 0]

/-- A relaxed instance. -/
def rinst (u : RInst L4 RawAff) : List Byte := point u.commitW ++ point u.commitE ++ field u.u ++ vec field u.x

/-- A proof. -/
def proof (q : WireProof) : List Byte :=
  compact q.i ++ vec field q.z01 ++ vec field q.z02 ++ vec field q.zi1 ++ vec field q.zi2 ++
  point q.single2.commitW ++ vec field q.single2.x ++ vec field q.wsingle2 ++
  rinst q.range1 ++ vec field q.wrange1.w ++ vec field q.wrange1.e ++
  rinst q.range2 ++ vec field q.wrange2.w ++ vec field q.wrange2.e

/-- One coefficient of a constraint. -/
def term (t : Wire × L4) : List Byte :=
  (match t.1 with
    | .inst i => 0 :: compact i
    | .wit i => 1 :: compact i) ++ field t.2

/-- A constraint system. -/
def shape (s : Shape L4) : List Byte :=
  compact s.m ++ compact s.instanceLength ++ compact s.witnessLength ++
  vec (vec term) s.a ++ vec (vec term) s.b ++ vec (vec term) s.c

/-- Public parameters. -/
def params (q : WireParams) : List Byte :=
  shape q.shape1 ++ shape q.shape2 ++ vec point q.ck1 ++ vec point q.ck2

/-- All elements are arrays of 64-bit words. -/
def Words (l : List L4) : Prop := ∀ a ∈ l, a.Wf

/-- The coordinates are arrays of 64-bit words. -/
def PointWords (p : RawAff) : Prop := p.x.Wf ∧ p.y.Wf

/-- A relaxed instance of the types of the struct. -/
def RInstWords (u : RInst L4 RawAff) : Prop :=
  PointWords u.commitW ∧ PointWords u.commitE ∧ u.u.Wf ∧ Words u.x

/-- The values of the Rust type `RecursiveProof`: every integer is a `u64`. -/
structure ProofTyped (q : WireProof) : Prop where
  i : q.i < 2 ^ 64
  z01 : Words q.z01
  z02 : Words q.z02
  zi1 : Words q.zi1
  zi2 : Words q.zi2
  single2 : PointWords q.single2.commitW ∧ Words q.single2.x
  wsingle2 : Words q.wsingle2
  range1 : RInstWords q.range1
  wrange1 : Words q.wrange1.w ∧ Words q.wrange1.e
  range2 : RInstWords q.range2
  wrange2 : Words q.wrange2.w ∧ Words q.wrange2.e

/-- The length of every vector is a `u32`. -/
def ProofFits (q : WireProof) : Prop :=
  ∀ l ∈ [q.z01, q.z02, q.zi1, q.zi2, q.single2.x, q.wsingle2, q.range1.x, q.wrange1.w, q.wrange1.e, q.range2.x,
    q.wrange2.w, q.wrange2.e], l.length < 2 ^ 32

/-- The index of a wire is a `u64`. -/
def WireTyped : Wire → Prop
  | .inst i => i < 2 ^ 64
  | .wit i => i < 2 ^ 64

/-- The values of the Rust type `SparseMatrix`. -/
def MatTyped (m : List (List (Wire × L4))) : Prop := ∀ r ∈ m, ∀ t ∈ r, WireTyped t.1 ∧ t.2.Wf

/-- The lengths are `u32`. -/
def MatFits (m : List (List (Wire × L4))) : Prop := m.length < 2 ^ 32 ∧ ∀ r ∈ m, r.length < 2 ^ 32

/-- The values of the Rust type `R1csShape`. -/
structure ShapeTyped (s : Shape L4) : Prop where
  m : s.m < 2 ^ 64
  l : s.instanceLength < 2 ^ 64
  w : s.witnessLength < 2 ^ 64
  mats : MatTyped s.a ∧ MatTyped s.b ∧ MatTyped s.c

/-- The lengths are `u32`. -/
def ShapeFits (s : Shape L4) : Prop := MatFits s.a ∧ MatFits s.b ∧ MatFits s.c

/-- The values of the Rust type `PublicParams`. -/
structure ParamsTyped (q : WireParams) : Prop where
  shapes : ShapeTyped q.shape1 ∧ ShapeTyped q.shape2
  ck1 : ∀ p ∈ q.ck1, PointWords p
  ck2 : ∀ p ∈ q.ck2, PointWords p

/-- The lengths are `u32`. -/
def ParamsFits (q : WireParams) : Prop :=
  ShapeFits q.shape1 ∧ ShapeFits q.shape2 ∧ q.ck1.length < 2 ^ 32 ∧ q.ck2.length < 2 ^ 32

end Kogarashi.Spec.Scale
