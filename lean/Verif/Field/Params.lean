import Verif.Limbs.Represent

/-!
# Prime-field types

A 256-bit prime field type produced by `prime_field_operation!` / `fft_field_operation!`
(`zkstd/src/macros/field.rs`) is given by its constants. `FieldParams` collects them; the element
type is `L4` (the Rust newtype over `[u64; 4]`, Montgomery form).
-/

namespace Kogarashi.Field

open Kogarashi.Limbs

/-- The constants a 256-bit prime field is instantiated with
(`zkstd/src/macros/field.rs` lines 11-13: `$p`, `$inv`, `$r`, `$r2`, `$r3`). -/
structure FieldParams where
  /-- the modulus as an integer; not a Rust constant, tied to the limbs `p` by `Spec.ValidParams` -/
  m : Nat
  /-- modulus limbs `$p` -/
  p : L4
  /-- `$inv` -/
  inv : Nat
  /-- `$r` -/
  r : L4
  /-- `$r2` -/
  r2 : L4
  /-- `$r3` -/
  r3 : L4

/-- `bn254/src/fr.rs` lines 11-51: the constants of the BN254 scalar field. -/
def frParams : FieldParams where
  m := 0x30644e72e131a029b85045b68181585d2833e84879b9709143e1f593f0000001
  p := ⟨0x43e1f593f0000001, 0x2833e84879b97091, 0xb85045b68181585d, 0x30644e72e131a029⟩
  inv := 0xc2e1f593efffffff
  r := ⟨0xac96341c4ffffffb, 0x36fc76959f60cd29, 0x666ea36f7879462e, 0x0e0a77c19a07df2f⟩
  r2 := ⟨0x1bb8e645ae216da7, 0x53fe3ab1e35c59e3, 0x8c49833d53bb8085, 0x0216d0b17f4e44a5⟩
  r3 := ⟨0x5e94d8e1b4bf0040, 0x2a489cbe1cfbb6b8, 0x893cc664a19fcfed, 0x0cf8594b7fcc657c⟩

/-- `bn254/src/fq.rs` lines 10-44: the constants of the BN254 base field. -/
def fqParams : FieldParams where
  m := 0x30644e72e131a029b85045b68181585d97816a916871ca8d3c208c16d87cfd47
  p := ⟨0x3c208c16d87cfd47, 0x97816a916871ca8d, 0xb85045b68181585d, 0x30644e72e131a029⟩
  inv := 0x87d20782e4866389
  r := ⟨0xd35d438dc58f0d9d, 0x0a78eb28f5c70b3d, 0x666ea36f7879462c, 0x0e0a77c19a07df2f⟩
  r2 := ⟨0xf32cfc5b538afa89, 0xb5e71911d44501fb, 0x47ab1eff0a417ff6, 0x06d89f71cab8351f⟩
  r3 := ⟨0xb1cd6dafda1530df, 0x62f210e6a7283db6, 0xef7f0b0c0ada0afb, 0x20fd6e902d592544⟩

namespace FieldParams

variable (P : FieldParams)

/-- `+` (`zkstd/src/macros/field/group.rs` lines 35-71, 135-139; all by-value, by-reference and assigning
variants have this body). -/
def add (a b : L4) : L4 := B256.add a b P.p

/-- `-` (`zkstd/src/macros/field/group.rs` lines 81-87, 141-175; all variants have this body). -/
def sub (a b : L4) : L4 := B256.sub a b P.p

/-- Unary `-` on values (`zkstd/src/macros/field/group.rs` lines 73-79). -/
def neg (a : L4) : L4 := B256.neg a P.p

/-- `*` (`zkstd/src/macros/field/group.rs` lines 89-125, 177-181; all variants have this body). -/
def mul (a b : L4) : L4 := B256.mul a b P.p P.inv

/-- `double`, `double_assign` (`zkstd/src/macros/field.rs` lines 53-55, 61-63). -/
def double (a : L4) : L4 := B256.double a P.p

/-- `square`, `square_assign` (`zkstd/src/macros/field.rs` lines 57-59, 65-67). -/
def square (a : L4) : L4 := B256.square a P.p P.inv

/-- `zero()` (`zkstd/src/macros/field/group.rs` lines 22-24, 184-186). -/
def zero : L4 := B256.zero

/-- `one()` (`zkstd/src/macros/field/group.rs` lines 188-190, `ring.rs` lines 8-13). -/
def one : L4 := P.r

/-- `Default::default()` (`zkstd/src/macros/field/ring.rs` lines 15-19). -/
def default : L4 := P.one

/-- `Group::ADDITIVE_IDENTITY` (`zkstd/src/macros/field/group.rs` line 7, where the macro parameter `$r`
is bound to the Montgomery form of one by `field.rs` line 13). -/
def additiveIdentity : L4 := P.r

/-- `invert` (`zkstd/src/macros/field/group.rs` lines 9-14). -/
def invert (a : L4) : Option L4 := B256.invert a (B256.littleFermat P.p) P.r P.p P.inv

/-- `FftField::pow` (`zkstd/src/macros/field.rs` lines 122-124). -/
def powU64 (a : L4) (val : Nat) : L4 := B256.pow a ⟨val, 0, 0, 0⟩ P.r P.p P.inv

/-- `From<u64>` (`zkstd/src/macros/field.rs` lines 30-34). -/
def fromU64 (val : Nat) : L4 := B256.fromU64 val P.r2 P.p P.inv

/-- `to_mont_form` (`bn254/src/fr.rs` lines 114-116, `bn254/src/fq.rs` lines 90-92). -/
def toMontForm (val : L4) : L4 := B256.toMontForm val P.r2 P.p P.inv

/-- `montgomery_reduce` (`bn254/src/fr.rs` lines 122-128, `bn254/src/fq.rs` lines 94-100). -/
def montgomeryReduce (a : L4) : L4 :=
  B256.mont ⟨a.l0, a.l1, a.l2, a.l3, 0, 0, 0, 0⟩ P.p P.inv

/-- `random` (`zkstd/src/macros/field/group.rs` lines 16-18). -/
def random (rand : Nat → Nat) : L4 := B256.randomLimbs rand P.r2 P.r3 P.p P.inv

/-- `to_bits` (`zkstd/src/macros/field.rs` lines 45-47). -/
def toBits (a : L4) : List Nat := B256.toBits (P.montgomeryReduce a)

/-- `to_nafs` (`zkstd/src/macros/field.rs` lines 49-51). -/
def toNafs (a : L4) : Option (List Naf) := B256.toNafs (P.montgomeryReduce a)

/-- `div` (`zkstd/src/macros/field.rs` lines 213-221); `none` is the `unwrap` panic. -/
def div (a b : L4) : Option L4 := (P.invert b).map fun i => P.mul a i

/-- `u64::from_le_bytes` on eight bytes starting at `off` of a slice (Rust standard library). -/
def leU64 (bytes : Nat → Nat) (off : Nat) : Nat :=
  bytes off + bytes (off + 1) * 2^8 + bytes (off + 2) * 2^16 + bytes (off + 3) * 2^24 +
  bytes (off + 4) * 2^32 + bytes (off + 5) * 2^40 + bytes (off + 6) * 2^48 + bytes (off + 7) * 2^56

/-- `from_bytes_wide` (`zkstd/src/macros/field.rs` lines 83-100). The 64-byte array is a function of the
index. -/
def fromBytesWide (bytes : Nat → Nat) : L4 :=
  B256.fromU512 ⟨leU64 bytes 0, leU64 bytes 8, leU64 bytes 16, leU64 bytes 24,
    leU64 bytes 32, leU64 bytes 40, leU64 bytes 48, leU64 bytes 56⟩ P.r2 P.r3 P.p P.inv

/-- `from_hash` (`zkstd/src/macros/field.rs` lines 151-165). -/
def fromHash (bytes : Nat → Nat) : L4 :=
  let d0 : L4 := ⟨leU64 bytes 0, leU64 bytes 8, leU64 bytes 16, leU64 bytes 24⟩
  let d1 : L4 := ⟨leU64 bytes 32, leU64 bytes 40, leU64 bytes 48, leU64 bytes 56⟩
  P.add (P.mul d0 P.r2) (P.mul d1 P.r3)

/-- `to_bytes` (`bn254/src/fr.rs` lines 74-84, `bn254/src/fq.rs` lines 51-61). -/
def toBytes (a : L4) : List Nat :=
  let tmp := P.montgomeryReduce a
  leBytes8 tmp.l0 ++ leBytes8 tmp.l1 ++ leBytes8 tmp.l2 ++ leBytes8 tmp.l3

/-- `from_bytes` (`bn254/src/fr.rs` lines 86-103, `bn254/src/fq.rs` lines 63-79). -/
def fromBytes (bytes : Nat → Nat) : Option L4 :=
  let l0 := leU64 bytes 0
  let l1 := leU64 bytes 8
  let l2 := leU64 bytes 16
  let l3 := leU64 bytes 24
  let borrow0 := (sbb l0 P.p.l0 0).2
  let borrow1 := (sbb l1 P.p.l1 borrow0).2
  let borrow2 := (sbb l2 P.p.l2 borrow1).2
  let borrow3 := (sbb l3 P.p.l3 borrow2).2
  if borrow3 &&& 1 = 1 then some (P.mul ⟨l0, l1, l2, l3⟩ P.r2) else none

/-- `PartialEq::eq` (`zkstd/src/macros/field/group.rs` lines 27-31). -/
def eq (a b : L4) : Bool :=
  ([a.l0, a.l1, a.l2, a.l3].zip [b.l0, b.l1, b.l2, b.l3]).all fun x => x.1 == x.2

/-- The comparison loop shared by `lt`, `le`, `gt`, `ge` (`zkstd/src/macros/field/ring.rs` lines 26-61): at the first differing limb (from the top)
the strict comparison decides, otherwise the default is returned. -/
def cmpLoop (onDiff : Nat → Nat → Bool) (dflt : Bool) : List (Nat × Nat) → Bool
  | [] => dflt
  | (x, y) :: rest => if x ≠ y then onDiff x y else cmpLoop onDiff dflt rest

/-- The limb pairs in the order the comparisons visit them (`zkstd/src/macros/field/ring.rs` lines 26-61): `iter().rev().zip(iter().rev())`. -/
def limbPairs (a b : L4) : List (Nat × Nat) :=
  [(a.l3, b.l3), (a.l2, b.l2), (a.l1, b.l1), (a.l0, b.l0)]

/-- `PartialOrd::lt` (`zkstd/src/macros/field/ring.rs` lines 26-33). -/
def lt (a b : L4) : Bool := cmpLoop (fun x y => decide (x < y)) false (limbPairs a b)

/-- `PartialOrd::le` (`zkstd/src/macros/field/ring.rs` lines 35-42). -/
def le (a b : L4) : Bool := cmpLoop (fun x y => decide (x < y)) true (limbPairs a b)

/-- `PartialOrd::gt` (`zkstd/src/macros/field/ring.rs` lines 44-51). -/
def gt (a b : L4) : Bool := cmpLoop (fun x y => decide (x > y)) false (limbPairs a b)

/-- `PartialOrd::ge` (`zkstd/src/macros/field/ring.rs` lines 53-60). -/
def ge (a b : L4) : Bool := cmpLoop (fun x y => decide (x > y)) true (limbPairs a b)

/-- The loop of `Ord::cmp` (`zkstd/src/macros/field/ring.rs` lines 64-73). -/
def cmpOrd : List (Nat × Nat) → Ordering
  | [] => .eq
  | (x, y) :: rest => if x < y then .lt else if x > y then .gt else cmpOrd rest

/-- `Ord::cmp` (`zkstd/src/macros/field/ring.rs` lines 63-74). -/
def cmp (a b : L4) : Ordering := cmpOrd (limbPairs a b)

end FieldParams

/-- `From<Fr> for Fq` (`bn254/src/fq.rs` lines 185-189). -/
def fqFromFr (val : L4) : L4 :=
  B256.toMontForm (frParams.montgomeryReduce val) fqParams.r2 fqParams.p fqParams.inv

/-- `From<Fq> for Fr` (`bn254/src/fr.rs` lines 294-298). -/
def frFromFq (val : L4) : L4 :=
  B256.toMontForm (fqParams.montgomeryReduce val) frParams.r2 frParams.p frParams.inv

end Kogarashi.Field
