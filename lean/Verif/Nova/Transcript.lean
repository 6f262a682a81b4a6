import Verif.R1cs.Gadget
import Mathlib.Data.Nat.Size

/-!
# Model: field conversions, limb encoding of integers, native transcript

Model of the free functions of `nova/src/gadget/big_nat.rs`, of `nova/src/driver.rs` and of
`nova/src/hash.rs`.  `C::Base = ZMod q` and `C::Scalar = ZMod p`; an element's `to_bits` is `bits256` of its
representative, `to_raw_bytes` its little-endian representative and `from_bytes_wide` reduction modulo the
prime (the limb-level theorems are C07, C08, C09).  `num_bigint::BigInt` is `Int`.
The MiMC round constants (BLAKE2b output reduced by `from_bytes_wide`, `hash.rs:19-29`) are a parameter.
-/

namespace Kogarashi.Nova

/-- `big_nat.rs:12-14` `f_to_nat`. -/
def fToNat {p : Nat} (f : ZMod p) : Int := (f.val : Int)

/-- Number of bytes of `BigInt::to_signed_bytes_le` (used at `big_nat.rs:18`): the shortest two's complement
encoding with room for the sign bit. -/
def signedBytesLen (n : Int) : Nat := (if 0 ≤ n then Nat.size n.toNat else Nat.size (-n - 1).toNat) / 8 + 1

/-- `big_nat.rs:17-28` `nat_to_f`: the signed bytes, padded with zeros to 64 bytes, read as an unsigned
integer and reduced; panics on more than 64 bytes. -/
def natToF {p : Nat} (n : Int) : Option (ZMod p) :=
  if 64 < signedBytesLen n then none
  else some ((n % 2 ^ (8 * signedBytesLen n) : Int) : ZMod p)

/-- The closure of `nat_to_limbs`, `big_nat.rs:36-42`: mask, shift, convert. -/
def limbLoop {p : Nat} (w : Nat) : Nat → Int → Option (List (ZMod p))
  | 0, _ => some []
  | k + 1, n => do
    let r ← natToF (n % 2 ^ w)
    let rs ← limbLoop w k (n / 2 ^ w)
    some (r :: rs)

/-- `big_nat.rs:32-46` `nat_to_limbs`. -/
def natToLimbs {p : Nat} (n : Int) (w k : Nat) : Option (List (ZMod p)) :=
  if Nat.size n.natAbs ≤ k * w then limbLoop w k n else none

/-- `big_nat.rs:57-66` `limbs_to_nat`: fold from the last limb. -/
def limbsToNat {p : Nat} (ls : List (ZMod p)) (w : Nat) : Int :=
  ls.reverse.foldl (fun acc l => acc * 2 ^ w + fToNat l) 0

/-- The loop shared by `driver.rs:49-54`, `driver.rs:63-68` and `hash.rs:95-100`: bits least significant
first, `mult` doubling. -/
def readBitsLE {p : Nat} : List Nat → ZMod p → ZMod p → ZMod p
  | [], _, val => val
  | b :: bs, mult, val => readBitsLE bs (mult + mult) (if b = 1 then val + mult else val)

/-- `driver.rs:45-56` `scalar_as_base` and `driver.rs:59-70` `base_as_scalar` (the same code with the two
fields exchanged). -/
def reread {p q : Nat} (x : ZMod p) : ZMod q := readBitsLE (bits256 x.val).reverse 1 0

/-- The body of `Mimc::hash`, `hash.rs:36-45`, over the round constants. -/
def mimc {F : Type} [Field F] : List F → F → F → F
  | [], xl, _ => xl
  | c :: cs, xl, xr =>
    let cxl := xl + c
    let ccxl := cxl * cxl
    let cccxl := ccxl * ccxl
    mimc cs (ccxl * cccxl * cxl + xr) xl

/-- The fold of `squeeze`, `hash.rs:88-91`, with `key = 0` (`hash.rs:55-63`). -/
def sponge {F : Type} [Field F] (consts : List F) (state : List F) : F :=
  state.foldl (fun acc s => acc + s + mimc consts s acc) 0

/-- `hash.rs:87-102` `squeeze`. -/
def squeeze {p q : Nat} [Fact q.Prime] (consts state : List (ZMod q)) (numBits : Nat) : ZMod p :=
  readBitsLE ((bits256 (sponge consts state).val).reverse.take numBits) 1 0

/-- `hash.rs:12` -/
def challengeBits : Nat := 128
/-- `hash.rs:13` -/
def hashBits : Nat := 252
/-- `big_nat.rs:8` -/
def limbWidth : Nat := 64
/-- `big_nat.rs:9` -/
def nLimbs : Nat := 4

end Kogarashi.Nova
