import Verif.Field.Params
import Verif.Tower.Fqn
import Verif.R1cs.Row

/-!
# The text printed for field elements and wires

Models the `Debug` and `Display` implementations written by hand in the repository. The formatting
machinery of the Rust standard library is represented by what the format strings used here mean:
literal text is copied, `{:02x}` prints a byte as two lower-case hexadecimal digits, and `{:?}` of a
`u64` prints it in decimal without leading zeros.
-/

namespace Kogarashi.Text

open Limbs Kogarashi.Field

/-- One lower-case hexadecimal digit (Rust standard library, used by `{:02x}`). -/
def hexDigit (n : Nat) : Char := if n < 10 then Char.ofNat (48 + n) else Char.ofNat (87 + n)

/-- `write!(f, "{:02x}", byte)`: zkstd/src/macros/field.rs line 23. -/
def hex02 (byte : Nat) : List Char := [hexDigit (byte / 16), hexDigit (byte % 16)]

/-- `limb.to_be_bytes()`: the eight bytes of a word, most significant first (Rust standard library). -/
def beBytes8 (limb : Nat) : List Nat := (List.range 8).map fun i => limb / 2 ^ (8 * (7 - i)) % 2 ^ 8

/-- Models `zkstd/src/macros/field.rs` lines 21-25: the loop over the limbs from the last to the
first, each as its big-endian bytes. -/
def hexLimbs (r : L4) : List Char :=
  [r.l0, r.l1, r.l2, r.l3].reverse.flatMap fun limb => (beBytes8 limb).flatMap hex02

/-- Models `zkstd/src/macros/field.rs` lines 18-28 (`Debug for $field`): `0x`, then the limbs of
`self.montgomery_reduce()`. -/
def debugField (P : FieldParams) (a : L4) : List Char :=
  '0' :: 'x' :: hexLimbs (P.montgomeryReduce a)

/-- Models `bn254/src/fqn.rs` lines 325-329 (`Debug for Fq2`). The printer of the base field is a
parameter. -/
def debugFq2 {R : Type} (d : R → List Char) (a : Tower.Fq2 R) : List Char :=
  d a.c0 ++ " + ".toList ++ d a.c1 ++ " u".toList

/-- Models `bn254/src/fqn.rs` lines 331-339 (`Debug for Fq6`). -/
def debugFq6 {R : Type} (d : R → List Char) (a : Tower.Fq6 R) : List Char :=
  debugFq2 d a.c0 ++ " + (".toList ++ debugFq2 d a.c1 ++ ") v + (".toList ++ debugFq2 d a.c2 ++ ") v^2".toList

/-- Models `bn254/src/fqn.rs` lines 341-345 (`Debug for Fq12`). -/
def debugFq12 {R : Type} (d : R → List Char) (a : Tower.Fq12 R) : List Char :=
  debugFq6 d a.c0 ++ " + (".toList ++ debugFq6 d a.c1 ++ ") w".toList

/-- Models `zkstd/src/r1cs/wire.rs` lines 37-44 (`Display for Wire`). -/
def displayWire : Wire → List Char
  | .inst i => "instance ".toList ++ Nat.toDigits 10 i
  | .wit i => "witness ".toList ++ Nat.toDigits 10 i

end Kogarashi.Text
