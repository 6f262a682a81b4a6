import Verif.Field.Params

/-!
# Square roots, variable-time exponentiation, the `ff` layer and remaining scalar helpers

The square-root algorithms are written over any element type with the operations they use, so that the
same text is run on limbs and reasoned about in a field. `sq` is the squaring function the code calls.
-/

namespace Kogarashi.Field

open Kogarashi.Limbs

section Generic

variable {α : Type} [DecidableEq α] (one : α) (mul : α → α → α) (sq : α → α)

/-- The double loop of `pow_vartime` over the exponent bits, most significant first
(`bn254/src/fr.rs` lines 151-163, `bn254/src/fq.rs` lines 106-118). -/
def powVartimeBits (a : α) (bits : List Nat) : α :=
  bits.foldl (fun res bit => let res := sq res; if bit = 1 then mul res a else res) one

/-- The mutable variables of the outer loop of `Fr::sqrt` (`bn254/src/fr.rs` lines 173-176). -/
structure TSState (α : Type) where
  v : Nat
  x : α
  b : α
  z : α

/-- The mutable variables of the inner loop (`bn254/src/fr.rs` lines 179-181, and `z`). -/
structure TSInner (α : Type) where
  k : Nat
  b2k : α
  jLessThanV : Bool
  z : α

/-- One iteration of the inner loop (`bn254/src/fr.rs` lines 183-193). -/
def tsInnerStep (v : Nat) (s : TSInner α) (j : Nat) : TSInner α :=
  let jlt := s.jLessThanV && decide (j ≠ v)
  if s.b2k = one then
    { s with jLessThanV := jlt, z := if jlt then sq s.z else s.z }
  else
    { s with jLessThanV := jlt, b2k := sq s.b2k, k := j }

/-- The inner loop `for j in 2..max_v` (`bn254/src/fr.rs` lines 179-193). -/
def tsInner (maxV v : Nat) (b z : α) : TSInner α :=
  (List.range' 2 (maxV - 2)).foldl (tsInnerStep one sq v) ⟨1, sq b, true, z⟩

/-- One iteration of the outer loop (`bn254/src/fr.rs` lines 178-201). -/
def tsStep (maxV : Nat) (s : TSState α) : TSState α :=
  let i := tsInner one sq maxV s.v s.b s.z
  let x := if s.b ≠ one then mul s.x i.z else s.x
  let z := sq i.z
  ⟨i.k, x, mul s.b z, z⟩

/-- The outer loop `for max_v in (1..=n).rev()` (`bn254/src/fr.rs` lines 178-201). -/
def tsLoop : Nat → TSState α → TSState α
  | 0, s => s
  | n + 1, s => tsLoop n (tsStep one mul sq (n + 1) s)

/-- `Fr::sqrt` (`bn254/src/fr.rs` lines 165-208): `wBits` are the bits of the exponent literal, `s` is
`S`, `root` is `ROOT_OF_UNITY`. -/
def tonelliShanks (wBits : List Nat) (s : Nat) (root a : α) : Option α :=
  let w := powVartimeBits one mul sq a wBits
  let x := mul w a
  let b := mul x w
  let r := tsLoop one mul sq s ⟨s, x, b, root⟩
  if sq r.x = a then some r.x else none

/-- `Fq::sqrt` (`bn254/src/fq.rs` lines 121-133): `eBits` are the bits of the exponent literal. -/
def sqrtByPow (eBits : List Nat) (a : α) : Option α :=
  let r := powVartimeBits one mul sq a eBits
  if sq r = a then some r else none

end Generic

/-- The exponent literal of `Fr::sqrt` (`bn254/src/fr.rs` lines 166-171). -/
def frSqrtExp : L4 := ⟨0xcdcb848a1f0fac9f, 0x0c0ac2e9419f4243, 0x098d014dc2822db4, 0x0000000183227397⟩

/-- The exponent literal of `Fq::sqrt` (`bn254/src/fq.rs` lines 122-127). -/
def fqSqrtExp : L4 := ⟨0x4f082305b61f3f52, 0x65e05aa45a1c72a3, 0x6e14116da0605617, 0x0c19139cb84c680a⟩

/-- `S` (`bn254/src/fr.rs` line 53). -/
def frS : Nat := 28

/-- `ROOT_OF_UNITY` (`bn254/src/fr.rs` lines 60-65). -/
def frRootOfUnity : L4 :=
  frParams.toMontForm ⟨0xd34f1ed960c37c9c, 0x3215cf6dd39329c8, 0x98865ea93dd31f74, 0x03ddb9f5166d18b7⟩

/-- `pow_vartime` (`bn254/src/fr.rs` lines 151-163, `bn254/src/fq.rs` lines 106-118): the limbs from the
top, each from bit 63 down, are the bits of the exponent most significant first. -/
def FieldParams.powVartime (P : FieldParams) (a by_ : L4) : L4 :=
  powVartimeBits P.one P.mul P.square a (B256.toBits by_)

/-- `Fr::sqrt` (`bn254/src/fr.rs` lines 165-208), with the squaring function as a parameter; the code's function is `frParams.square`. -/
def frSqrtWith (sq : L4 → L4) (a : L4) : Option L4 :=
  tonelliShanks frParams.one frParams.mul sq (B256.toBits frSqrtExp) frS frRootOfUnity a

/-- `Fq::sqrt` (`bn254/src/fq.rs` lines 121-133), with the squaring function as a parameter; the code's function is `fqParams.square`. -/
def fqSqrtWith (sq : L4 → L4) (a : L4) : Option L4 :=
  sqrtByPow fqParams.one fqParams.mul sq (B256.toBits fqSqrtExp) a

/-- `Fr::sqrt` (`bn254/src/fr.rs` lines 165-208). -/
def frSqrt (a : L4) : Option L4 := frSqrtWith frParams.square a

/-- `Fq::sqrt` (`bn254/src/fq.rs` lines 121-133). -/
def fqSqrt (a : L4) : Option L4 := fqSqrtWith fqParams.square a

/-- `Fr::is_odd` (`bn254/src/fr.rs` lines 146-149). -/
def frIsOdd (a : L4) : Bool := decide ((frParams.montgomeryReduce a).l0 % 2 ≠ 0)

/-- `Fq::lexicographically_largest` (`bn254/src/fq.rs` lines 135-156). -/
def fqLexLargest (a : L4) : Bool :=
  let tmp := fqParams.montgomeryReduce a
  let borrow0 := (sbb tmp.l0 0x9e10460b6c3e7ea4 0).2
  let borrow1 := (sbb tmp.l1 0xcbc0b548b438e546 borrow0).2
  let borrow2 := (sbb tmp.l2 0xdc2822db40c0ac2e borrow1).2
  let borrow3 := (sbb tmp.l3 0x183227397098d014 borrow2).2
  decide (borrow3 &&& 1 = 0)

/-- `ff::Field::invert` (`bn254/src/ff_compat.rs` lines 66-69 for Fr, 233-236 for Fq):
`unwrap_or_default` followed by a non-zero test; `none` models a `CtOption` whose choice is false. -/
def FieldParams.ffInvert (P : FieldParams) (a : L4) : Option L4 :=
  let tmp := (P.invert a).getD P.default
  if tmp = B256.zero then none else some tmp

/-- `ff::PrimeField::from_repr` (`bn254/src/ff_compat.rs` lines 79-90, 246-257): the choice is always true. -/
def FieldParams.ffFromRepr (P : FieldParams) (bytes : Nat → Nat) : Option L4 :=
  some (P.toMontForm ⟨FieldParams.leU64 bytes 0, FieldParams.leU64 bytes 8, FieldParams.leU64 bytes 16,
    FieldParams.leU64 bytes 24⟩)

/-- `ff::PrimeField::to_repr` (`bn254/src/ff_compat.rs` lines 92-102, 259-269). -/
def FieldParams.ffToRepr (P : FieldParams) (a : L4) : List Nat := P.toBytes a

/-- `pow_of_2` (`zkstd/src/macros/field.rs` lines 69-81). -/
def FieldParams.powOf2 (P : FieldParams) (by_ : Nat) : L4 :=
  ((List.range 64).reverse).foldl (fun res i =>
    let res := P.square res
    let tmp := P.mul res (P.fromU64 2)
    if by_ / 2^i % 2 = 1 then tmp else res) P.one

/-- `is_even` (`zkstd/src/macros/field.rs` lines 175-177): tests the raw (Montgomery) limb. -/
def FieldParams.isEven (a : L4) : Bool := decide (a.l0 % 2 = 0)

/-- `Fq2::lexicographically_largest` (`bn254/src/fqn.rs` lines 255-265), the element `c0 + c1·u`; `is_zero` tests the limbs. -/
def fq2LexLargest (c0 c1 : L4) : Bool :=
  fqLexLargest c1 || (decide (c1 = B256.zero) && fqLexLargest c0)

end Kogarashi.Field
