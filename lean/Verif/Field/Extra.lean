import Verif.Field.Sqrt

/-!
# Remaining functions of the field types

Bitwise operators, iterator sums and products, base-4 digits, the windowed readings of `FftField`, and the rest of the
`ff` compatibility layer with its constants.
-/

namespace Kogarashi.Field

open Kogarashi.Limbs

namespace FieldParams

variable (P : FieldParams)

/-- `BitXor` (`bn254/src/fr.rs` lines 211-234; the by-value operator calls the by-reference one). -/
def bitXor (a b : L4) : L4 :=
  let x := P.montgomeryReduce a
  let y := P.montgomeryReduce b
  P.toMontForm ⟨x.l0 ^^^ y.l0, x.l1 ^^^ y.l1, x.l2 ^^^ y.l2, x.l3 ^^^ y.l3⟩

/-- `BitAnd` (`bn254/src/fr.rs` lines 236-258). -/
def bitAnd (a b : L4) : L4 :=
  let x := P.montgomeryReduce a
  let y := P.montgomeryReduce b
  P.toMontForm ⟨x.l0 &&& y.l0, x.l1 &&& y.l1, x.l2 &&& y.l2, x.l3 &&& y.l3⟩

/-- `Product::product` (`bn254/src/fr.rs` lines 260-270, `bn254/src/fq.rs` lines 159-169). -/
def product (items : List L4) : L4 := items.foldl (fun acc item => P.mul acc item) P.one

/-- `Sum::sum` (`bn254/src/fr.rs` lines 272-282, `bn254/src/fq.rs` lines 171-181). -/
def sum (items : List L4) : L4 := items.foldl (fun acc item => P.add acc item) zero

/-- The inner loops of `to_costomized_repr` for one limb (`bn254/src/fr.rs` lines 134-139), in visiting order. -/
def limbQuads (limb : Nat) : List Nat :=
  (leBytes8 limb).flatMap fun byte => (List.range 4).map fun i => byte / 2^(i * 2) &&& 3

/-- `to_costomized_repr` (`bn254/src/fr.rs` lines 130-144). The loop fills the array from index 127 down to 0. -/
def toCustomRepr (a : L4) : List Nat :=
  let v := P.montgomeryReduce a
  (([v.l0, v.l1, v.l2, v.l3].flatMap limbQuads).reverse).dropWhile (fun b => b == 0)

/-- `reduce` (`zkstd/src/macros/field.rs` lines 167-173): leaves Montgomery form but keeps the element type. -/
def reduce (a : L4) : L4 := B256.mont ⟨a.l0, a.l1, a.l2, a.l3, 0, 0, 0, 0⟩ P.p P.inv

/-- The swap loop of `divn` (`zkstd/src/macros/field.rs` lines 136-139) over the limbs from the top. -/
def swapPass : Nat → List Nat → List Nat
  | _, [] => []
  | t, i :: rest => t :: swapPass i rest

/-- The `while n >= 64` loop of `divn` (`zkstd/src/macros/field.rs` lines 135-141), `k` iterations. -/
def wordShifts : Nat → List Nat → List Nat
  | 0, l => l
  | k + 1, l => wordShifts k (swapPass 0 l)

/-- The bit loop of `divn` (`zkstd/src/macros/field.rs` lines 144-150) over the limbs from the top. -/
def shiftPass (n : Nat) : Nat → List Nat → List Nat
  | _, [] => []
  | t, i :: rest => (i / 2^n ||| t) :: shiftPass n (i * 2^(64 - n) % 2^64) rest

/-- The limbs of a list that starts at the top. -/
def ofTop : List Nat → L4
  | [l3, l2, l1, l0] => ⟨l0, l1, l2, l3⟩
  | _ => B256.zero

/-- `divn` (`zkstd/src/macros/field.rs` lines 129-152): the while loop runs `n / 64` times and leaves `n % 64`. -/
def divn (a : L4) (n : Nat) : L4 :=
  if n ≥ 256 then P.fromU64 0
  else
    let limbs := wordShifts (n / 64) [a.l3, a.l2, a.l1, a.l0]
    if n % 64 > 0 then ofTop (shiftPass (n % 64) 0 limbs) else ofTop limbs

/-- `mod_2_pow_k` (`zkstd/src/macros/field.rs` lines 179-181); `none` is the shift-overflow panic of `1 << k`. -/
def mod2PowK (a : L4) (k : Nat) : Option Nat :=
  if k < 64 then some ((a.l0 &&& (2^k - 1)) % 2^8) else none

/-- `x as i8` for `x : u8`. -/
def asI8 (x : Nat) : Int := if x < 128 then (x : Int) else (x : Int) - 256

/-- `mods_2_pow_k` (`zkstd/src/macros/field.rs` lines 183-192). `none` is a panic: the assertion, or an arithmetic
overflow (`w - 1` at 0, `1i8 << (w - 1)` for a shift of 8 or more, `1u8 << w` for 8 or more, and the last subtraction),
as in a build with overflow checks. -/
def mods2PowK (a : L4) (w : Nat) : Option Int :=
  if ¬ w < 32 then none
  else
    match mod2PowK a w with
    | none => none
    | some m =>
      let modulus := asI8 m
      if w = 0 ∨ 8 ≤ w - 1 then none
      else
        let half := asI8 (2^(w - 1))
        if modulus ≥ half then
          if 8 ≤ w then none
          else
            let d := modulus - asI8 (2^w)
            if -128 ≤ d ∧ d ≤ 127 then some d else none
        else some modulus

/-! ### The `ff` layer -/

/-- `ConstantTimeEq::ct_eq` (`bn254/src/ff_compat.rs` lines 41-48, 208-215). -/
def ctEq (a b : L4) : Bool :=
  decide (a.l0 = b.l0) && decide (a.l1 = b.l1) && decide (a.l2 = b.l2) && decide (a.l3 = b.l3)

/-- `ConditionallySelectable::conditional_select` (`bn254/src/ff_compat.rs` lines 30-39, 197-206): `b` when the choice
is set. -/
def condSelect (a b : L4) (choice : Bool) : L4 :=
  let sel (x y : Nat) := if choice then y else x
  ⟨sel a.l0 b.l0, sel a.l1 b.l1, sel a.l2 b.l2, sel a.l3 b.l3⟩

/-- `ff::PrimeField::is_odd` (`bn254/src/ff_compat.rs` lines 104-106, 271-273). -/
def ffIsOdd (a : L4) : Bool := decide ((P.ffToRepr a).getD 0 0 &&& 1 = 1)

/-- `to_le_bits` (`bn254/src/ff_compat.rs` lines 124-135, 291-302): the four words handed to `FieldBits`, which reads
them from the lowest bit of the first word. -/
def ffToLeBits (a : L4) : L4 :=
  let bytes := fun i => (P.ffToRepr a).getD i 0
  ⟨leU64 bytes 0, leU64 bytes 8, leU64 bytes 16, leU64 bytes 24⟩

/-- `char_le_bits` (`bn254/src/ff_compat.rs` lines 137-139, 304-306). -/
def ffCharLeBits : L4 := P.p

end FieldParams

/-- The constants of `ff::PrimeField` (`bn254/src/ff_compat.rs` lines 108-118, 275-285). -/
structure FfConsts where
  /-- `MODULUS`, read as a number -/
  modulus : Nat
  numBits : Nat
  capacity : Nat
  twoInv : L4
  multiplicativeGenerator : L4
  s : Nat
  rootOfUnity : L4
  rootOfUnityInv : L4
  delta : L4

/-- The constants for `Fr` (`bn254/src/ff_compat.rs` lines 9-28, 108-118; `bn254/src/fr.rs` lines 18-21). -/
def frFf : FfConsts where
  modulus := 0x30644e72e131a029b85045b68181585d2833e84879b9709143e1f593f0000001
  numBits := 254
  capacity := 253
  twoInv := frParams.toMontForm ⟨0xa1f0fac9f8000001, 0x9419f4243cdcb848, 0xdc2822db40c0ac2e, 0x183227397098d014⟩
  multiplicativeGenerator := frParams.toMontForm ⟨7, 0, 0, 0⟩
  s := frS
  rootOfUnity := frRootOfUnity
  rootOfUnityInv := frParams.toMontForm ⟨0x0ed3e50a414e6dba, 0xb22625f59115aba7, 0x1bbe587180f34361, 0x048127174daabc26⟩
  delta := frParams.toMontForm ⟨0x870e56bbe533e9a2, 0x5b5f898e5e963f25, 0x64ec26aad4c86e71, 0x09226b6e22c6f0ca⟩

/-- The constants for `Fq` (`bn254/src/ff_compat.rs` lines 171-195, 275-285; `bn254/src/fq.rs` line 17). The generator is
`Fq(GENERATOR)`: the limbs are not put in Montgomery form. -/
def fqFf : FfConsts where
  modulus := 0x30644e72e131a029b85045b68181585d97816a916871ca8d3c208c16d87cfd47
  numBits := 254
  capacity := 253
  twoInv := fqParams.toMontForm ⟨0x9e10460b6c3e7ea4, 0xcbc0b548b438e546, 0xdc2822db40c0ac2e, 0x183227397098d014⟩
  multiplicativeGenerator := ⟨3, 0, 0, 0⟩
  s := 0
  rootOfUnity := fqParams.toMontForm ⟨0x3c208c16d87cfd46, 0x97816a916871ca8d, 0xb85045b68181585d, 0x30644e72e131a029⟩
  rootOfUnityInv := fqParams.toMontForm ⟨0x3c208c16d87cfd46, 0x97816a916871ca8d, 0xb85045b68181585d, 0x30644e72e131a029⟩
  delta := fqParams.toMontForm ⟨9, 0, 0, 0⟩

/-- `TWO_ADACITY` (`bn254/src/fr.rs` line 67). -/
def frTwoAdicity : Nat := 32

/-- `ff::Field::sqrt_ratio` (`bn254/src/ff_compat.rs` lines 71-73, 238-240) with at most `depth` nested calls; `none`
when the bound is reached. The body is `ff::helpers::sqrt_ratio_generic` of `ff` 0.13.0 and the roots it takes are
`ff::Field::sqrt`, which the crate does not override, so that it is the trait's `sqrt_ratio(self, ONE)`. Both are
transcribed from the published crate, which is not in the repository. The panic of its assertion is not modelled. -/
def ffSqrtRatio (P : FieldParams) (c : FfConsts) : Nat → L4 → L4 → Option (Bool × L4)
  | 0, _, _ => none
  | depth + 1, num, div =>
    let a := P.mul ((P.ffInvert div).getD FieldParams.zero) num
    let b := P.mul a c.rootOfUnity
    match ffSqrtRatio P c depth a P.one, ffSqrtRatio P c depth b P.one with
    | some (okA, rootA), some (okB, rootB) =>
      let root := FieldParams.condSelect (if okB then rootB else FieldParams.zero)
        (if okA then rootA else FieldParams.zero) okA
      some (okA && (decide (num = FieldParams.zero) || !decide (div = FieldParams.zero)), root)
    | _, _ => none

/-- `ff::Field::sqrt` as the crate inherits it (see `ffSqrtRatio`); the outer `none` is the exhausted bound. -/
def ffSqrt (P : FieldParams) (c : FfConsts) (depth : Nat) (a : L4) : Option (Option L4) :=
  (ffSqrtRatio P c depth a P.one).map fun r => if r.1 then some r.2 else none

end Kogarashi.Field
