import Verif.Nova.RawRun
import Verif.Groth16.CodeVerify
import Verif.Wire.Scale

/-!
# Recursive verification on decoded bytes

`Nova/Raw.lean` verifies structs of canonical limb arrays.  A decoded proof holds any 64-bit words (C82).  Here is
`RecursiveProof::verify` on such words, with the routines of the code and no requirement on the limbs, and the proof that on
canonical limbs it is `recVerifyS`.
-/

namespace Kogarashi.Nova.OnWire

open Kogarashi Spec Curve Kogarashi.Field Limbs Groth16 Raw Scale

section
variable (P Q : FieldParams)

/-! ### Conversions -/

/-- The loop shared by `driver.rs:49-54`, `driver.rs:63-68` and `hash.rs:95-100`. -/
def readBitsL : List Nat → L4 → L4 → L4
  | [], _, val => val
  | b :: bs, mult, val => readBitsL bs (P.add mult mult) (if b = 1 then P.add val mult else val)

/-- `driver.rs:45-56` `scalar_as_base`: an element of `P` read again in `Q`. -/
def rereadL (x : L4) : L4 := readBitsL Q (P.toBits x).reverse Q.one FieldParams.zero

/-- `big_nat.rs:12-14` `f_to_nat`. -/
def fToNatL (x : L4) : Int := (leValue 256 (P.toBytes x) : Nat)

/-- `big_nat.rs:17-28` `nat_to_f`. -/
def natToFL (n : Int) : Option L4 := if 64 < signedBytesLen n then none else some (P.fromBytesWide (signedByte n))

/-- The closure of `nat_to_limbs`, `big_nat.rs:36-42`. -/
def limbLoopL (w : Nat) : Nat → Int → Option (List L4)
  | 0, _ => some []
  | k + 1, n => (natToFL P (n % 2 ^ w)).bind fun r => (limbLoopL w k (n / 2 ^ w)).map fun rs => r :: rs

/-- `big_nat.rs:32-46` `nat_to_limbs`. -/
def natToLimbsL (n : Int) (w k : Nat) : Option (List L4) := if Nat.size n.natAbs ≤ k * w then limbLoopL P w k n else none

/-! ### Transcript: scalars in `P`, coordinates in `Q` -/

/-- `hash.rs:71-79` `append_point`. -/
def pointL (a : RawAff) : List L4 := [a.x, a.y, if a.inf then FieldParams.zero else Q.one]

/-- The limbs absorbed for one public input, `instance.rs:110-115`. -/
def absorbXL (x : L4) : Option (List L4) := (natToLimbsL P (fToNatL P x) limbWidth nLimbs).map fun ls => ls.map (rereadL P Q)

/-- The loop over the public inputs, `instance.rs:110-115`. -/
def absorbXsL : List L4 → Option (List L4)
  | [] => some []
  | x :: xs => (absorbXL P Q x).bind fun a => (absorbXsL xs).map fun as => a ++ as

/-- `instance.rs:103-116` `absorb_by_transcript`. -/
def absorbL (i : RInst L4 RawAff) : Option (List L4) :=
  (absorbXsL P Q i.x).map fun xs => pointL Q i.commitW ++ pointL Q i.commitE ++ [rereadL P Q i.u] ++ xs

/-- `squeeze` (`nova/src/hash.rs` lines 87-102). -/
def squeezeL (consts state : List L4) (numBits : Nat) : L4 :=
  readBitsL P ((Q.toBits (spongeL Q.add Q.mul Q.square consts state FieldParams.zero)).reverse.take numBits) P.one FieldParams.zero

/-- `RelaxedR1csInstance::hash` (`instance.rs:118-130`); the counter is a `u64`. -/
def hashL (consts : List L4) (i : RInst L4 RawAff) (n : Nat) (z0 zi : List L4) : Option L4 :=
  (absorbL P Q i).map fun a => squeezeL P Q consts (Q.fromU64 (n % 2 ^ 64) :: (z0 ++ zi ++ a)) hashBits

/-! ### Satisfaction -/

/-- The inner fold of `prod`, `matrix.rs:39-45`, from the sum `acc` on. -/
def rowProdL (l : Nat) (z : List L4) : List (Wire × L4) → L4 → Option L4
  | [], acc => some acc
  | e :: es, acc => (Matrix.readZ l z e.1).bind fun v => rowProdL l z es (P.add acc (P.mul e.2 v))

/-- The outer loop of `prod`, `matrix.rs:38-46`. -/
def prodLoopL (l : Nat) (z : List L4) : List (List (Wire × L4)) → Nat → List L4 → Option (List L4)
  | [], _, v => some v
  | r :: rs, i, v => (rowProdL P l z r FieldParams.zero).bind fun s =>
    if i < v.length then prodLoopL l z rs (i + 1) (v.set i s) else none

/-- `matrix.rs:35-48` `prod(m, l, z)`. -/
def prodL (rows : List (List (Wire × L4))) (m l : Nat) (z : List L4) : Option (List L4) :=
  prodLoopL P l z rows 0 (List.replicate m FieldParams.zero)

/-- `relaxed_r1cs.rs:81-114` `is_sat_relaxed`. -/
def isSatRelaxedL (S : Shape L4) (i : RInst L4 RawAff) (w : RWit L4) : Option Bool := do
  let l : Nat := i.x.length + 1
  let z := i.u :: (i.x ++ w.w)
  let az ← prodL P S.a S.m l z
  let bz ← prodL P S.b S.m l z
  let cz ← prodL P S.c S.m l z
  let azbz ← zipVec P.mul az bz
  let ucze ← zipVec P.add (cz.map fun c => P.mul c i.u) w.e
  some ((azbz.zip ucze).all (fun p => p.1 == p.2))

/-- `commit` (`nova/src/pedersen.rs:15-20`). -/
def commitL (b : L4) (g : List RawAff) (m : List L4) : Option RawAff :=
  (accLoop Q P (Q.add (Q.add b b) b) (m.zip g) ⟨FieldParams.zero, Q.one, FieldParams.zero⟩).map (Limb.toAffine Q)

/-- `PartialEq` of affine points (`macros/curve/weierstrass/group.rs` lines 5-13). -/
def affEqL (p q : RawAff) : Bool := if p.inf || q.inf then p.inf && q.inf else decide (p.x = q.x) && decide (p.y = q.y)

/-- `is_sat` (`relaxed_r1cs.rs:117-146`). -/
def isSatL (b : L4) (S : Shape L4) (ck : List RawAff) (i : Inst L4 RawAff) (w : List L4) : Option Bool := do
  let l : Nat := i.x.length + 1
  let z := P.one :: (i.x ++ w)
  let az ← prodL P S.a S.m l z
  let bz ← prodL P S.b S.m l z
  let cz ← prodL P S.c S.m l z
  let azbz ← zipVec P.mul az bz
  let c ← commitL P Q b ck w
  some ((azbz.zip cz).all (fun p => p.1 == p.2) && affEqL i.commitW c)

/-- `RecursiveProof::verify` (`proof.rs:44-80`); `P` is the scalar field of `E1`, `Q` that of `E2`, `b2` the constant of `E2`. -/
def verifyL (k1 k2 : List L4) (b2 : L4) (pp : WireParams) (pf : WireProof) : Option Bool :=
  if pf.single2.x.length ≠ 2 ∨ pf.range1.x.length ≠ 2 ∨ pf.range2.x.length ≠ 2 then some false
  else do
    let h1 ← hashL Q P k1 pf.range2 pf.i pf.z01 pf.zi1
    let h2 ← hashL P Q k2 pf.range1 pf.i pf.z02 pf.zi2
    let x0 ← pf.single2.x[0]?
    let x1 ← pf.single2.x[1]?
    if h1 ≠ x0 ∨ h2 ≠ rereadL Q P x1 then some false
    else do
      let a ← isSatRelaxedL P pp.shape1 pf.range1 pf.wrange1
      if !a then some false
      else do
        let b ← isSatRelaxedL Q pp.shape2 pf.range2 pf.wrange2
        if !b then some false
        else isSatL Q P b2 pp.shape2 pp.ck2 pf.single2 pf.wsingle2

end

end Kogarashi.Nova.OnWire
