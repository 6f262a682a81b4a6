import Verif.Curve.Weierstrass
import Verif.Limbs.Represent

/-!
# Raw affine point serialisation (`grumpkin/src/curve.rs` lines 17-61, `bn254/src/g1.rs` lines 33-59)
-/

namespace Kogarashi.Curve

open Limbs

/-- `G1Affine` (`bn254/src/g1.rs` lines 18-22) with its coordinates as raw limbs. -/
abbrev RawAff := Aff L4

/-- `u64::from_le_bytes` (Rust standard library). -/
def u64FromLe (c : List Nat) : Nat := c.foldr (fun byte acc => byte + 256 * acc) 0

/-- `bytes.chunks_exact(8)` (Rust standard library): the trailing incomplete chunk is dropped. -/
def chunksExact8 : List Nat → List (List Nat)
  | a :: b :: c :: d :: e :: f :: g :: h :: rest => [a, b, c, d, e, f, g, h] :: chunksExact8 rest
  | _ => []

/-- `RAW_SIZE` (`grumpkin/src/curve.rs` line 18, `bn254/src/g1.rs` line 34). -/
def RAW_SIZE : Nat := 97

/-- `from_slice_unchecked` (`grumpkin/src/curve.rs` lines 20-43, `bn254/src/g1.rs` lines 36-59): the words of
`x` then of `y` are overwritten chunk by chunk, and stay zero where there is no chunk. -/
def fromSliceUnchecked (bytes : List Nat) : RawAff :=
  let words := (chunksExact8 bytes).map u64FromLe
  let w := fun i => words.getD i 0
  ⟨⟨w 0, w 1, w 2, w 3⟩, ⟨w 4, w 5, w 6, w 7⟩,
    if RAW_SIZE ≤ bytes.length then decide (bytes.getD (RAW_SIZE - 1) 0 = 1) else false⟩

/-- `to_raw_bytes` (`grumpkin/src/curve.rs` lines 45-60): eight words, then untouched zeros, then the flag. -/
def toRawBytes (p : RawAff) : List Nat :=
  ([p.x.l0, p.x.l1, p.x.l2, p.x.l3, p.y.l0, p.y.l1, p.y.l2, p.y.l3].flatMap leBytes8) ++
    List.replicate 32 0 ++ [if p.inf then 1 else 0]

end Kogarashi.Curve
