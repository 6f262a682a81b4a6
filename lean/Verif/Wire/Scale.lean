import Verif.Curve.Raw
import Verif.Nova.Folding

/-!
# The SCALE codec of the proof and parameter structs

`#[derive(Encode, Decode)]` of `parity-scale-codec` 2 on the structs of the code: the fields one after the other in the
order of the declaration, nothing in between.  The crate itself is not in the repository; its primitives (words, flags,
compact integers, vectors) are modelled by the format it documents.  A byte is an element of `Fin 256`, a word is a
natural number with the bound in the specification, `none` from `dec` is `Err`, `none` from `enc` is the panic on a
vector with more than `u32::MAX` elements.
-/

namespace Kogarashi.Scale

open Limbs Nova Curve

/-- `u8`. -/
abbrev Byte := Fin 256

/-- `as u8`. -/
def byte (n : Nat) : Byte := Fin.ofNat 256 n

/-- `to_le_bytes` on `k` bytes (Rust standard library). -/
def leBytes : Nat → Nat → List Byte
  | 0, _ => []
  | k + 1, n => byte n :: leBytes k (n / 256)

/-- `from_le_bytes` (Rust standard library). -/
def leNat : List Byte → Nat
  | [] => 0
  | b :: bs => b.val + 256 * leNat bs

/-- `Input::read` of `k` bytes: an error when fewer are left (parity-scale-codec, `impl Input for &[u8]`). -/
def readN (k : Nat) (bs : List Byte) : Option (List Byte × List Byte) :=
  if bs.length < k then none else some (bs.take k, bs.drop k)

/-- `Encode` and `Decode` of a type (`zkstd/src/common.rs` line 14). -/
structure Codec (α : Type) where
  enc : α → Option (List Byte)
  dec : List Byte → Option (α × List Byte)

/-- `u64` (parity-scale-codec: little endian). -/
def u64C : Codec Nat where
  enc n := some (leBytes 8 n)
  dec bs := (readN 8 bs).map fun p => (leNat p.1, p.2)

/-- `bool` (parity-scale-codec: one byte, anything but 0 and 1 is an error). -/
def boolC : Codec Bool where
  enc b := some [if b then 1 else 0]
  dec
    | [] => none
    | b :: r => if b = 0 then some (false, r) else if b = 1 then some (true, r) else none

/-- `bytes_needed = 8 - leading_zeros / 8` of a non-zero `u64`. -/
def bytesNeeded (n : Nat) : Nat := 8 - (64 - (n.log2 + 1)) / 8

/-- `Compact<u64>` (parity-scale-codec, `compact.rs`; `#[codec(compact)]` of `nova/src/proof.rs` line 19,
`nova/src/relaxed_r1cs.rs` lines 13-18, `zkstd/src/r1cs/wire.rs` lines 9-10). -/
def compact64 : Codec Nat where
  enc n :=
    if n ≤ 0x3f then some [byte (n * 4)]
    else if n ≤ 0x3fff then some (leBytes 2 (n * 4 + 1))
    else if n ≤ 0x3fffffff then some (leBytes 4 (n * 4 + 2))
    else some (byte (3 + (bytesNeeded n - 4) * 4) :: leBytes (bytesNeeded n) n)
  dec
    | [] => none
    | b :: r =>
      if b.val % 4 = 0 then some (b.val / 4, r)
      else if b.val % 4 = 1 then do
        let (c, r) ← readN 1 r
        let x := leNat (b :: c) / 4
        if 0x3f < x ∧ x ≤ 0x3fff then some (x, r) else none
      else if b.val % 4 = 2 then do
        let (c, r) ← readN 3 r
        let x := leNat (b :: c) / 4
        if 0x3fff < x ∧ x ≤ 0x3fffffff then some (x, r) else none
      else if b.val / 4 + 4 = 4 then do
        let (c, r) ← readN 4 r
        if 0x3fffffff < leNat c then some (leNat c, r) else none
      else if b.val / 4 + 4 = 8 then do
        let (c, r) ← readN 8 r
        if (2 ^ 64 - 1) / 2 ^ 8 < leNat c then some (leNat c, r) else none
      else if 8 < b.val / 4 + 4 then none
      else do
        let k := b.val / 4 + 4
        let (c, r) ← readN k r
        if (2 ^ 64 - 1) / 2 ^ ((8 - k + 1) * 8) < leNat c then some (leNat c, r) else none

/-- `Compact<u32>` (parity-scale-codec, `compact.rs`): the length prefix of a vector. -/
def compact32 : Codec Nat where
  enc n :=
    if n ≤ 0x3f then some [byte (n * 4)]
    else if n ≤ 0x3fff then some (leBytes 2 (n * 4 + 1))
    else if n ≤ 0x3fffffff then some (leBytes 4 (n * 4 + 2))
    else if n ≤ 0xffffffff then some (3 :: leBytes 4 n)
    else none
  dec
    | [] => none
    | b :: r =>
      if b.val % 4 = 0 then some (b.val / 4, r)
      else if b.val % 4 = 1 then do
        let (c, r) ← readN 1 r
        let x := leNat (b :: c) / 4
        if 0x3f < x ∧ x ≤ 0x3fff then some (x, r) else none
      else if b.val % 4 = 2 then do
        let (c, r) ← readN 3 r
        let x := leNat (b :: c) / 4
        if 0x3fff < x ∧ x ≤ 0x3fffffff then some (x, r) else none
      else if b.val / 4 = 0 then do
        let (c, r) ← readN 4 r
        if 0x3fffffff < leNat c then some (leNat c, r) else none
      else none

section
variable {α β : Type}

/-- Two fields in a row (parity-scale-codec-derive, and the tuples of `nova/src/proof.rs` lines 25-32). -/
def Codec.pair (c : Codec α) (d : Codec β) : Codec (α × β) where
  enc p := do
    let x ← c.enc p.1
    let y ← d.enc p.2
    some (x ++ y)
  dec bs := do
    let (a, bs) ← c.dec bs
    let (b, bs) ← d.dec bs
    some ((a, b), bs)

/-- A struct with the given fields (parity-scale-codec-derive). -/
def Codec.iso (c : Codec α) (f : α → β) (g : β → α) : Codec β where
  enc b := c.enc (g b)
  dec bs := (c.dec bs).map fun p => (f p.1, p.2)

/-- The elements of a vector, one after the other. -/
def encAll (c : Codec α) : List α → Option (List Byte)
  | [] => some []
  | a :: l => do
    let x ← c.enc a
    let y ← encAll c l
    some (x ++ y)

/-- Reads `n` elements. -/
def decAll (c : Codec α) : Nat → List Byte → Option (List α × List Byte)
  | 0, bs => some ([], bs)
  | n + 1, bs => do
    let (a, bs) ← c.dec bs
    let (l, bs) ← decAll c n bs
    some (a :: l, bs)

/-- `Vec<T>` (parity-scale-codec: compact length, then the elements). -/
def Codec.vec (c : Codec α) : Codec (List α) where
  enc l := do
    let n ← compact32.enc l.length
    let x ← encAll c l
    some (n ++ x)
  dec bs := do
    let (n, bs) ← compact32.dec bs
    decAll c n bs

end

/-- `Fr`, `Fq`: a struct around `[u64; 4]` (`bn254/src/fr.rs` lines 70-71, `bn254/src/fq.rs` lines 47-48). -/
def fieldC : Codec L4 :=
  (u64C.pair (u64C.pair (u64C.pair u64C))).iso (fun p => ⟨p.1, p.2.1, p.2.2.1, p.2.2.2⟩)
    fun a => (a.l0, a.l1, a.l2, a.l3)

/-- `G1Affine` (`bn254/src/g1.rs` lines 17-22), `Affine` (`grumpkin/src/curve.rs` lines 10-15). -/
def affC : Codec RawAff :=
  (fieldC.pair (fieldC.pair boolC)).iso (fun p => ⟨p.1, p.2.1, p.2.2⟩) fun a => (a.x, a.y, a.inf)

/-- `DenseVectors` (`zkstd/src/matrix/vector.rs` lines 4-5). -/
def denseC : Codec (List L4) := fieldC.vec

/-- `Wire` (`zkstd/src/r1cs/wire.rs` lines 7-11): the index of the variant, then its field. -/
def wireC : Codec Wire where
  enc
    | .inst i => do
      let x ← compact64.enc i
      some (0 :: x)
    | .wit i => do
      let x ← compact64.enc i
      some (1 :: x)
  dec
    | [] => none
    | b :: bs =>
      if b = 0 then (compact64.dec bs).map fun p => (.inst p.1, p.2)
      else if b = 1 then (compact64.dec bs).map fun p => (.wit p.1, p.2)
      else none

/-- `SparseRow` (`zkstd/src/matrix/row.rs` lines 8-9). -/
def rowC : Codec (List (Wire × L4)) := (wireC.pair fieldC).vec

/-- `SparseMatrix` (`zkstd/src/matrix.rs` lines 10-11). -/
def matC : Codec (List (List (Wire × L4))) := rowC.vec

/-- `R1csShape` (`nova/src/relaxed_r1cs.rs` lines 11-22). -/
def shapeC : Codec (Shape L4) :=
  (compact64.pair (compact64.pair (compact64.pair (matC.pair (matC.pair matC))))).iso
    (fun p => ⟨p.1, p.2.1, p.2.2.1, p.2.2.2.1, p.2.2.2.2.1, p.2.2.2.2.2⟩)
    fun s => (s.m, s.instanceLength, s.witnessLength, s.a, s.b, s.c)

/-- `R1csInstance` (`nova/src/relaxed_r1cs/instance.rs` lines 9-15). -/
def instC : Codec (Inst L4 RawAff) := (affC.pair denseC).iso (fun p => ⟨p.1, p.2⟩) fun u => (u.commitW, u.x)

/-- `RelaxedR1csInstance` (`instance.rs` lines 38-48). -/
def rinstC : Codec (RInst L4 RawAff) :=
  (affC.pair (affC.pair (fieldC.pair denseC))).iso (fun p => ⟨p.1, p.2.1, p.2.2.1, p.2.2.2⟩)
    fun u => (u.commitW, u.commitE, u.u, u.x)

/-- `R1csWitness` (`nova/src/relaxed_r1cs/witness.rs` lines 7-10): its only field. -/
def witC : Codec (List L4) := denseC

/-- `RelaxedR1csWitness` (`witness.rs` lines 29-35). -/
def rwitC : Codec (RWit L4) := (denseC.pair denseC).iso (fun p => ⟨p.1, p.2⟩) fun u => (u.w, u.e)

/-- `PedersenCommitment` (`nova/src/pedersen.rs` lines 4-7): its only field. -/
def ckC : Codec (List RawAff) := affC.vec

/-- `RecursiveProof` (`nova/src/proof.rs` lines 11-34) with its field elements as limbs and its points as structs. -/
structure WireProof where
  i : Nat
  z01 : List L4
  z02 : List L4
  zi1 : List L4
  zi2 : List L4
  single2 : Inst L4 RawAff
  wsingle2 : List L4
  range1 : RInst L4 RawAff
  wrange1 : RWit L4
  range2 : RInst L4 RawAff
  wrange2 : RWit L4
  deriving DecidableEq

/-- The codec of `RecursiveProof` (`nova/src/proof.rs` lines 11-34); the marker takes no bytes. -/
def proofC : Codec WireProof :=
  (compact64.pair (denseC.pair (denseC.pair (denseC.pair (denseC.pair
    ((instC.pair witC).pair ((rinstC.pair rwitC).pair (rinstC.pair rwitC)))))))).iso
    (fun p => ⟨p.1, p.2.1, p.2.2.1, p.2.2.2.1, p.2.2.2.2.1, p.2.2.2.2.2.1.1, p.2.2.2.2.2.1.2, p.2.2.2.2.2.2.1.1,
      p.2.2.2.2.2.2.1.2, p.2.2.2.2.2.2.2.1, p.2.2.2.2.2.2.2.2⟩)
    fun q => (q.i, q.z01, q.z02, q.zi1, q.zi2, (q.single2, q.wsingle2), (q.range1, q.wrange1), (q.range2, q.wrange2))

/-- `PublicParams` (`nova/src/ivc.rs` lines 250-263) with limbs and structs. -/
structure WireParams where
  shape1 : Shape L4
  shape2 : Shape L4
  ck1 : List RawAff
  ck2 : List RawAff

/-- The codec of `PublicParams` (`nova/src/ivc.rs` lines 250-263). -/
def paramsC : Codec WireParams :=
  (shapeC.pair (shapeC.pair (ckC.pair ckC))).iso (fun p => ⟨p.1, p.2.1, p.2.2.1, p.2.2.2⟩)
    fun q => (q.shape1, q.shape2, q.ck1, q.ck2)

end Kogarashi.Scale
