import Mathlib.Data.List.Basic

/-!
# Model: multi-scalar multiplication (`groth16/src/msm.rs`)

`A` is the affine type, `E` its extended type; their operators are given by `MsmOps`.  A scalar is given by its
`to_raw_bytes` (32 bytes, lowest first).  `rayon` evaluates the segments in any order: they share no data.
-/

namespace Kogarashi.Groth16

/-- The operators `msm.rs` uses on `C: BNAffine` and `C::Extended`. -/
structure MsmOps (A E : Type) where
  /-- `C::Extended::ADDITIVE_IDENTITY` -/
  zero : E
  /-- `C + &C` -/
  addAA : A → A → E
  /-- `C::Extended + &C` -/
  addEA : E → A → E
  /-- `C::Extended + C::Extended`, `+=` -/
  addEE : E → E → E
  /-- `C::Extended::double` -/
  dbl : E → E

variable {A E : Type}

/-- `msm.rs:50-54` `enum Bucket`. -/
inductive Bucket (A E : Type) where
  | none : Bucket A E
  | affine : A → Bucket A E
  | proj : E → Bucket A E

/-- `msm.rs:57-63` `Bucket::add_assign`. -/
def Bucket.addAssign (ops : MsmOps A E) (other : A) : Bucket A E → Bucket A E
  | .none => .affine other
  | .affine a => .proj (ops.addAA a other)
  | .proj a => .proj (ops.addEA a other)

/-- `msm.rs:65-71` `Bucket::add`. -/
def Bucket.add (ops : MsmOps A E) (other : E) : Bucket A E → E
  | .none => other
  | .affine a => ops.addEA other a
  | .proj a => ops.addEE other a

/-- `u64::from_le_bytes` of the bytes, missing ones being zero. -/
def u64OfBytes (bytes : List Nat) : Nat := bytes.foldr (fun b acc => b + 256 * acc) 0

/-- `msm.rs:74-91` `get_at`. -/
def getAt (segment c : Nat) (bytes : List Nat) : Nat :=
  let skipBits := segment * c
  let skipBytes := skipBits / 8
  if 32 ≤ skipBytes then 0
  else
    let tmp := u64OfBytes ((bytes.drop skipBytes).take 8)
    let tmp := tmp / 2 ^ (skipBits - skipBytes * 8)
    tmp % 2 ^ c

/-- `usize::BITS - n.leading_zeros()`, for `0 < n < 2^64`. -/
def bitLength (n : Nat) : Nat := n.log2 + 1

/-- `msm.rs:7-14`: the window width. -/
def windowSize (len : Nat) : Nat :=
  if len < 4 then 1 else if len < 32 then 3 else bitLength len * 69 / 100 + 2

/-- `msm.rs:26-31`: one round of the filling loop. -/
def fillStep (ops : MsmOps A E) (i c : Nat) (bucket : List (Bucket A E)) (e : List Nat × A) : List (Bucket A E) :=
  let seg := getAt i c e.1
  if seg ≠ 0 then bucket.modify (seg - 1) (Bucket.addAssign ops e.2) else bucket

/-- `msm.rs:36-42`: one round of the summation by parts; the state is `(acc, sum)`. -/
def partsStep (ops : MsmOps A E) (s : E × E) (b : Bucket A E) : E × E :=
  let sum := b.add ops s.2
  (ops.addEE s.1 sum, sum)

/-- `msm.rs:43`: doubling `n` times. -/
def dblTimes (ops : MsmOps A E) : Nat → E → E
  | 0, acc => acc
  | n + 1, acc => dblTimes ops n (ops.dbl acc)

/-- `msm.rs:25-45`: the work done for segment `i`. -/
def segment (ops : MsmOps A E) (c : Nat) (coeffs : List (List Nat)) (bases : List A) (i : Nat) : E :=
  let bucket := (coeffs.zip bases).foldl (fillStep ops i c) (List.replicate (2 ^ c - 1) .none)
  let acc := (bucket.reverse.foldl (partsStep ops) (ops.zero, ops.zero)).1
  dblTimes ops (c * i) acc

/-- `msm.rs:6-48` `msm_curve_addition`. -/
def msm (ops : MsmOps A E) (bases : List A) (coeffs : List (List Nat)) : E :=
  let c := windowSize bases.length
  (((List.range (256 / c + 1)).reverse).map (segment ops c coeffs bases)).foldl ops.addEE ops.zero

end Kogarashi.Groth16
