import Verif.Limbs.B256
import Verif.Limbs.B384

/-!
# Representation functions of the limb back ends

Models `zkstd/src/arithmetic/limbs/bits_{256,384}/represent.rs`, the exponentiation functions at the
end of `normal.rs`, and `zkstd/src/arithmetic/utils.rs`.
-/

namespace Kogarashi.Limbs

/-- Models `zkstd/src/arithmetic/utils.rs` lines 4-7 (`sbb`): subtraction with a borrow word. -/
def sbb (a b brw : Nat) : Nat × Nat :=
  let t := wsub128 a (b + brw / 2^63)
  (lo t, hi t)

/-- Models `zkstd/src/arithmetic/utils.rs` lines 9-14 (`Naf`). -/
inductive Naf where
  | zero
  | plus
  | minus
deriving DecidableEq, Repr

/-- Models `zkstd/src/arithmetic/utils.rs` lines 16-25 (`From<i8> for Naf`); `none` is the
`unimplemented!()` panic. -/
def Naf.ofInt (i : Int) : Option Naf :=
  if i = 0 then some .zero else if i = 1 then some .plus else if i = -1 then some .minus else none

/-- `limb.to_le_bytes()`: the eight bytes of a word, least significant first (Rust standard library). -/
def leBytes8 (limb : Nat) : List Nat :=
  (List.range 8).map fun i => limb / 2^(8 * i) % 2^8

/-- The inner loop of `to_bits`/`to_nafs` for one limb:
`for byte in limb.to_le_bytes() { for i in 0..8 { byte >> i & 1 } }`, in visiting order. -/
def limbBits (limb : Nat) : List Nat :=
  (leBytes8 limb).flatMap fun byte => (List.range 8).map fun i => byte / 2^i % 2

/-- The recoding closure of `to_nafs` (bits_256/represent.rs lines 62-70, bits_384/represent.rs lines
71-79), as a left-to-right pass that threads `carry`. `none` is the panic of `Naf::from`. -/
def nafPass : Nat → List Nat → Option (List Naf)
  | _, [] => some []
  | carry, bit :: bits =>
    let triple := bit * 3
    let bit3 := (triple + carry) % 2
    let carry' := (triple + carry) / 2
    match Naf.ofInt ((bit3 : Int) - bit), nafPass carry' bits with
    | some d, some ds => some (d :: ds)
    | _, _ => none

namespace B256

/-- Models `bits_256/represent.rs` lines 6-8 (`zero`). -/
def zero : L4 := ⟨0, 0, 0, 0⟩

/-- Models `bits_256/represent.rs` lines 30-32 (`to_mont_form`). -/
def toMontForm (val r2 p : L4) (inv : Nat) : L4 := mul val r2 p inv

/-- Models `bits_256/represent.rs` lines 10-12 (`one`). -/
def one (r2 p : L4) (inv : Nat) : L4 := toMontForm ⟨1, 0, 0, 0⟩ r2 p inv

/-- Models `bits_256/represent.rs` lines 14-16 (`from_u64`). -/
def fromU64 (val : Nat) (r2 p : L4) (inv : Nat) : L4 := toMontForm ⟨val, 0, 0, 0⟩ r2 p inv

/-- Models `bits_256/represent.rs` lines 18-28 (`from_u512`). -/
def fromU512 (limbs : L8) (r2 r3 p : L4) (inv : Nat) : L4 :=
  let a := mul ⟨limbs.l0, limbs.l1, limbs.l2, limbs.l3⟩ r2 p inv
  let b := mul ⟨limbs.l4, limbs.l5, limbs.l6, limbs.l7⟩ r3 p inv
  add a b p

/-- Models `bits_256/represent.rs` lines 80-103 (`random_limbs`): the generator is the stream of the
`u64` values that successive `next_u64` calls return. -/
def randomLimbs (rand : Nat → Nat) (r2 r3 p : L4) (inv : Nat) : L4 :=
  fromU512 ⟨rand 0, rand 1, rand 2, rand 3, rand 4, rand 5, rand 6, rand 7⟩ r2 r3 p inv

/-- Models `bits_256/represent.rs` lines 36-48 (`to_bits`). The Rust loop writes the visited bits from
index 255 down to 0; the array read from index 0 is the reverse of the visiting order. -/
def toBits (val : L4) : List Nat :=
  ([val.l0, val.l1, val.l2, val.l3].flatMap limbBits).reverse

/-- Models `bits_256/represent.rs` lines 51-78 (`to_nafs`): 256 bits least significant first, padded
to 258, recoded, reversed, leading zeros skipped, last digit popped (`pop` on an empty vector is a
no-op, as `List.dropLast`). -/
def toNafs (val : L4) : Option (List Naf) :=
  (nafPass 0 ([val.l0, val.l1, val.l2, val.l3].flatMap limbBits ++ [0, 0])).map fun ds =>
    (ds.reverse.dropWhile (fun d => d = Naf.zero)).dropLast

/-- Models `bits_256/represent.rs` lines 105-107 (`little_fermat`). -/
def littleFermat (p : L4) : L4 := sub zero ⟨2, 0, 0, 0⟩ p

/-- One iteration of the loop of `pow` (`bits_256/normal.rs` lines 280-285). -/
def powStep (a p : L4) (inv : Nat) (acc : L4) (bit : Nat) : L4 :=
  let acc := square acc p inv
  if bit = 1 then mul acc a p inv else acc

/-- Models `bits_256/normal.rs` lines 272-287 (`pow`). -/
def pow (a b identity p : L4) (inv : Nat) : L4 :=
  if b = zero then identity
  else if a = zero then zero
  else (toBits b).foldl (powStep a p inv) identity

/-- Models `bits_256/normal.rs` lines 256-269 (`invert`). -/
def invert (a littleFermat identity p : L4) (inv : Nat) : Option L4 :=
  if a = zero then none else some (pow a littleFermat identity p inv)

end B256

namespace B384

/-- Models `bits_384/represent.rs` lines 6-8 (`zero`). -/
def zero : L6 := ⟨0, 0, 0, 0, 0, 0⟩

/-- Models `bits_384/represent.rs` lines 40-42 (`to_mont_form`). -/
def toMontForm (val r2 p : L6) (inv : Nat) : L6 := mul val r2 p inv

/-- Models `bits_384/represent.rs` lines 14-16 (`from_u64`). -/
def fromU64 (val : Nat) (r2 p : L6) (inv : Nat) : L6 := toMontForm ⟨val, 0, 0, 0, 0, 0⟩ r2 p inv

/-- Models `bits_384/represent.rs` lines 18-38 (`from_u512`, which takes 768 bits). -/
def fromU512 (limbs : L12) (r2 r3 p : L6) (inv : Nat) : L6 :=
  let a := mul ⟨limbs.l0, limbs.l1, limbs.l2, limbs.l3, limbs.l4, limbs.l5⟩ r2 p inv
  let b := mul ⟨limbs.l6, limbs.l7, limbs.l8, limbs.l9, limbs.l10, limbs.l11⟩ r3 p inv
  add a b p

/-- Models `bits_384/represent.rs` lines 45-57 (`to_bits`). -/
def toBits (val : L6) : List Nat :=
  ([val.l0, val.l1, val.l2, val.l3, val.l4, val.l5].flatMap limbBits).reverse

/-- Models `bits_384/represent.rs` lines 60-88 (`to_nafs`): as the 256-bit version, followed by a
final `reverse`. -/
def toNafs (val : L6) : Option (List Naf) :=
  (nafPass 0 ([val.l0, val.l1, val.l2, val.l3, val.l4, val.l5].flatMap limbBits ++ [0, 0])).map fun ds =>
    ((ds.reverse.dropWhile (fun d => d = Naf.zero)).dropLast).reverse

end B384

end Kogarashi.Limbs
