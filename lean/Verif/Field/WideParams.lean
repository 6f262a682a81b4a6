import Verif.Limbs.Represent

/-!
# The rest of the 384-bit back end

`zkstd/src/arithmetic/limbs/bits_384/{normal,represent}.rs`.  No crate of the repository instantiates a field type over it; the
functions are public and the crate's tests (`zkstd/tests/limbs.rs`, `zkstd/tests/jubjub.rs`) call them with the constants of
BLS12-381.  `WideParams` collects the constants the functions are called with.
-/

namespace Kogarashi.Limbs.B384

/-- Models `bits_384/represent.rs` lines 10-12 (`one`). -/
def one (r2 p : L6) (inv : Nat) : L6 := toMontForm ⟨1, 0, 0, 0, 0, 0⟩ r2 p inv

/-- Models `bits_384/represent.rs` lines 90-117 (`random_limbs`); the generator is the stream of its words. -/
def randomLimbs (rand : Nat → Nat) (r2 r3 p : L6) (inv : Nat) : L6 :=
  fromU512 ⟨rand 0, rand 1, rand 2, rand 3, rand 4, rand 5, rand 6, rand 7, rand 8, rand 9, rand 10, rand 11⟩ r2 r3 p inv

/-- Models `bits_384/represent.rs` lines 119-121 (`little_fermat`). -/
def littleFermat (p : L6) : L6 := sub zero ⟨2, 0, 0, 0, 0, 0⟩ p

/-- One iteration of the loop of `pow` (`bits_384/normal.rs` lines 421-426). -/
def powStep (a p : L6) (inv : Nat) (acc : L6) (bit : Nat) : L6 :=
  let acc := square acc p inv
  if bit = 1 then mul acc a p inv else acc

/-- Models `bits_384/normal.rs` lines 412-428 (`pow`). -/
def pow (a b identity p : L6) (inv : Nat) : L6 :=
  if b = zero then identity
  else if a = zero then zero
  else (toBits b).foldl (powStep a p inv) identity

/-- Models `bits_384/normal.rs` lines 396-410 (`invert`). -/
def invert (a littleFermat identity p : L6) (inv : Nat) : Option L6 :=
  if a = zero then none else some (pow a littleFermat identity p inv)

end Kogarashi.Limbs.B384

namespace Kogarashi.Wide

open Kogarashi.Limbs

/-- The constants the 384-bit functions are called with (`zkstd/tests/jubjub.rs` lines 432-460). -/
structure WideParams where
  /-- the modulus as an integer -/
  m : Nat
  /-- modulus limbs -/
  p : L6
  /-- `-p⁻¹` modulo `2^64` -/
  inv : Nat
  /-- the Montgomery form of one -/
  r : L6
  /-- `2^768` modulo `p` -/
  r2 : L6
  /-- `2^1152` modulo `p` -/
  r3 : L6

/-- `zkstd/tests/jubjub.rs` lines 432-460: the constants of BLS12-381; `r` is what `one` returns. -/
def blsParams : WideParams where
  m := 0x1a0111ea397fe69a4b1ba7b6434bacd764774b84f38512bf6730d2a0f6b0f6241eabfffeb153ffffb9feffffffffaaab
  p := ⟨0xb9feffffffffaaab, 0x1eabfffeb153ffff, 0x6730d2a0f6b0f624, 0x64774b84f38512bf, 0x4b1ba7b6434bacd7, 0x1a0111ea397fe69a⟩
  inv := 0x89f3fffcfffcfffd
  r := ⟨0x760900000002fffd, 0xebf4000bc40c0002, 0x5f48985753c758ba, 0x77ce585370525745, 0x5c071a97a256ec6d, 0x15f65ec3fa80e493⟩
  r2 := ⟨0xf4df1f341c341746, 0x0a76e6a609d104f1, 0x8de5476c4c95b6d5, 0x67eb88a9939d83c0, 0x9a793e85b519952d, 0x11988fe592cae3aa⟩
  r3 := ⟨0xed48ac6bd94ca1e0, 0x315f831e03a7adf8, 0x9a53352a615e29dd, 0x34c04e5e921e1761, 0x2512d43565724728, 0x0aa6346091755d4d⟩

namespace WideParams

variable (P : WideParams)

/-- `add` (`bits_384/normal.rs`) with the constants. -/
def add (a b : L6) : L6 := B384.add a b P.p
/-- `sub` (`bits_384/normal.rs` line 46) with the constants. -/
def sub (a b : L6) : L6 := B384.sub a b P.p
/-- `neg` (`bits_384/normal.rs` line 276) with the constants. -/
def neg (a : L6) : L6 := B384.neg a P.p
/-- `double` (`bits_384/normal.rs` line 76) with the constants. -/
def double (a : L6) : L6 := B384.double a P.p
/-- `mul` (`bits_384/normal.rs` line 113) with the constants. -/
def mul (a b : L6) : L6 := B384.mul a b P.p P.inv
/-- `square` (`bits_384/normal.rs` line 196) with the constants. -/
def square (a : L6) : L6 := B384.square a P.p P.inv
/-- `to_mont_form` (`bits_384/represent.rs` line 40) with the constants. -/
def toMontForm (v : L6) : L6 := B384.toMontForm v P.r2 P.p P.inv
/-- `mont` (`bits_384/normal.rs` line 297) on a number of six limbs. -/
def montgomeryReduce (a : L6) : L6 := B384.mont ⟨a.l0, a.l1, a.l2, a.l3, a.l4, a.l5, 0, 0, 0, 0, 0, 0⟩ P.p P.inv
/-- The Montgomery form of one (`one`, `bits_384/represent.rs` line 10). -/
def one : L6 := P.r
/-- `invert` (`bits_384/normal.rs` line 397) with the constants. -/
def invert (a : L6) : Option L6 := B384.invert a (B384.littleFermat P.p) P.r P.p P.inv

end WideParams
end Kogarashi.Wide
