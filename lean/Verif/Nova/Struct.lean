import Verif.Nova.Ivc
import Verif.Groth16.Struct
import Verif.Tower.Words

/-!
# Nova on limbs and point structs

`Nova/Folding.lean` and `Nova/Ivc.lean` work over residues and an abstract group.  Here are `PedersenCommitment::commit`,
the transcript, the folding prover and verifier, the satisfaction checks and `RecursiveProof::verify` over limb arrays and
affine structs: `Words P` is `C::Scalar`, `Words Q` is `C::Base`, an affine struct `Aff (Words Q)` is `C::Affine`, and a
point is multiplied by a scalar through its signed digits.  `square` is the product (C03).
-/

namespace Kogarashi.Nova

open Kogarashi Spec Curve Kogarashi.Field Limbs Groth16

/-- Canonical limb arrays are limb scalars. -/
instance (priority := low) wordsScalar {P : FieldParams} [hv : ValidWords P] : LimbScalar P (Words P) :=
  ⟨hv.valid, Words.limbs, Words.canonical⟩

section
variable {P Q : FieldParams} [hvP : ValidWords P] [hvQ : ValidWords Q]

/-! ### Conversions -/

/-- The loop shared by `driver.rs:49-54`, `driver.rs:63-68` and `hash.rs:95-100`. -/
def wReadBits : List Nat → Words P → Words P → Words P
  | [], _, val => val
  | b :: bs, mult, val => wReadBits bs (mult + mult) (if b = 1 then val + mult else val)

/-- `driver.rs:45-56` `scalar_as_base` and `driver.rs:59-70` `base_as_scalar`. -/
def wReread (x : Words P) : Words Q := wReadBits (P.toBits x.limbs).reverse 1 0

/-- `big_nat.rs:12-14` `f_to_nat`: `to_raw_bytes` is `to_bytes` (`zkstd/src/macros/field.rs` lines 102-104);
`BigInt::from_bytes_le` of the `num-bigint` crate is `leValue 256`. -/
def wFToNat (x : Words P) : Int := (leValue 256 (P.toBytes x.limbs) : Nat)

/-- Byte `i` of `BigInt::to_signed_bytes_le` padded with zeros (`big_nat.rs:18-22`). -/
def signedByte (n : Int) (i : Nat) : Nat :=
  if i < signedBytesLen n then (n % 2 ^ (8 * signedBytesLen n)).toNat / 256 ^ i % 256 else 0

theorem signedByte_lt (n : Int) (i : Nat) : signedByte n i < 256 := by
  unfold signedByte; split
  · exact Nat.mod_lt _ (by norm_num)
  · norm_num

/-- `big_nat.rs:17-28` `nat_to_f`. -/
def wNatToF (n : Int) : Option (Words P) :=
  if 64 < signedBytesLen n then none
  else some ⟨P.fromBytesWide (signedByte n), (Props.C06_from_bytes_wide hvP.valid fun i _ => signedByte_lt n i).1⟩

/-- The closure of `nat_to_limbs`, `big_nat.rs:36-42`. -/
def wLimbLoop (w : Nat) : Nat → Int → Option (List (Words P))
  | 0, _ => some []
  | k + 1, n => do
    let r ← wNatToF (n % 2 ^ w)
    let rs ← wLimbLoop w k (n / 2 ^ w)
    some (r :: rs)

/-- `big_nat.rs:32-46` `nat_to_limbs`. -/
def wNatToLimbs (n : Int) (w k : Nat) : Option (List (Words P)) :=
  if Nat.size n.natAbs ≤ k * w then wLimbLoop w k n else none

theorem fromU64_spec {n : Nat} (h : n < 2 ^ 64) : Canonical P (P.fromU64 n) ∧ denote P (P.fromU64 n) = (n : ZMod P.m) := by
  have h1 := toMontForm_denote hvP.valid (v := ⟨n, 0, 0, 0⟩) ⟨h, by norm_num, by norm_num, by norm_num⟩
  have e : (⟨n, 0, 0, 0⟩ : L4).val = n := by simp [L4.val]
  rw [e] at h1
  exact h1

/-- `From<u64>` of the fields (`zkstd/src/macros/field.rs` lines 30-34), used at `instance.rs:125`; the argument is a `u64`. -/
def wOfU64 (n : Nat) : Words P := ⟨P.fromU64 (n % 2 ^ 64), (fromU64_spec (Nat.mod_lt _ (by norm_num))).1⟩

/-! ### Transcript -/

/-- `hash.rs:87-102` `squeeze`. -/
def wSqueeze (consts state : List (Words Q)) (numBits : Nat) : Words P :=
  wReadBits ((Q.toBits (sponge consts state).limbs).reverse.take numBits) 1 0

/-- `hash.rs:71-79` `append_point`. -/
def wPoint (a : Aff (Words Q)) : List (Words Q) := [a.x, a.y, if a.isIdentity then 0 else 1]

/-- The limbs absorbed for one public input, `instance.rs:110-115`. -/
def wAbsorbX (x : Words P) : Option (List (Words Q)) := do
  let ls ← wNatToLimbs (P := P) (wFToNat x) limbWidth nLimbs
  some (ls.map wReread)

/-- `instance.rs:103-116` `absorb_by_transcript`. -/
def wAbsorb (i : RInst (Words P) (Aff (Words Q))) : Option (List (Words Q)) := do
  let xs ← i.x.mapM (wAbsorbX (Q := Q))
  some (wPoint i.commitW ++ wPoint i.commitE ++ [wReread i.u] ++ xs.flatten)

/-- The challenge computed at `prover.rs:31-38` and `verifier.rs:17-22`. -/
def wChallenge (consts : List (Words Q)) (commitT : Aff (Words Q)) (i1 : RInst (Words P) (Aff (Words Q))) : Option (Words P) := do
  let a ← wAbsorb i1
  some (wSqueeze consts (wPoint commitT ++ a) challengeBits)

/-- `instance.rs:118-130` `RelaxedR1csInstance::hash`. -/
def wHash (consts : List (Words Q)) (i : RInst (Words P) (Aff (Words Q))) (n : Nat) (z0 zi : List (Words Q)) : Option (Words P) := do
  let a ← wAbsorb i
  some (wSqueeze consts (wOfU64 n :: (z0 ++ zi ++ a)) hashBits)

/-! ### Commitments, folding, satisfaction -/

/-- `nova/src/pedersen.rs:15-20` `commit`. -/
def wCommit (b : Words Q) (g : List (Aff (Words Q))) (m : List (Words P)) : Option (Aff (Words Q)) :=
  ((m.zip g).foldlM (fun sum ve => (mulAffW b ve.2 ve.1).map (addProj (b + b + b) sum)) Proj.identity).map Proj.toAffine

/-- `instance.rs:81-101` `RelaxedR1csInstance::fold`. -/
def wFold (b : Words Q) (i1 : RInst (Words P) (Aff (Words Q))) (i2 : Inst (Words P) (Aff (Words Q))) (r : Words P)
    (commitT : Aff (Words Q)) : Option (RInst (Words P) (Aff (Words Q))) := do
  let e ← mulAffW b commitT r
  let w ← mulAffW b i2.commitW r
  let x ← zipVec (· + ·) i1.x (vecScale i2.x r)
  some ⟨(affAddProj (b + b + b) i1.commitW w).toAffine, (affAddProj (b + b + b) i1.commitE e).toAffine, i1.u + r, x⟩

/-- `relaxed_r1cs.rs:117-146` `is_sat`. -/
def wIsSat (b : Words Q) (S : Shape (Words P)) (ck : List (Aff (Words Q))) (i : Inst (Words P) (Aff (Words Q)))
    (w : List (Words P)) : Option Bool := do
  let l : Nat := i.x.length + 1
  let z := 1 :: (i.x ++ w)
  let az ← Matrix.prod S.a S.m l z
  let bz ← Matrix.prod S.b S.m l z
  let cz ← Matrix.prod S.c S.m l z
  let azbz ← zipVec (· * ·) az bz
  let c ← wCommit b ck w
  some ((azbz.zip cz).all (fun p => p.1 == p.2) && i.commitW.eq c)

/-- `relaxed_r1cs.rs:24-40` `r1cs_instance_and_witness`. -/
def wInstanceAndWitness (b : Words Q) (cs : CS (Words P)) (S : Shape (Words P)) (ck : List (Aff (Words Q))) :
    Option (Inst (Words P) (Aff (Words Q)) × List (Words P)) := do
  let c ← wCommit b ck cs.w
  if cs.w.length = S.witnessLength ∧ cs.m = S.m ∧ (cs.x.drop 1).length = S.instanceLength then
    some (⟨c, cs.x.drop 1⟩, cs.w)
  else none

/-- `prover.rs:24-50` `Prover::prove`. -/
def wProve (consts : List (Words Q)) (b : Words Q) (S : Shape (Words P)) (ck : List (Aff (Words Q)))
    (i1 : RInst (Words P) (Aff (Words Q))) (w1 : RWit (Words P)) (i2 : Inst (Words P) (Aff (Words Q))) (w2 : List (Words P)) :
    Option (RInst (Words P) (Aff (Words Q)) × RWit (Words P) × Aff (Words Q)) := do
  let t ← crossTerm S i1 w1 i2 w2
  let commitT ← wCommit b ck t
  let r ← wChallenge consts commitT i1
  let i ← wFold b i1 i2 r commitT
  let w ← w1.fold w2 r t
  some (i, w, commitT)

/-- `verifier.rs:12-25` `Verifier::verify`. -/
def wVerify (consts : List (Words Q)) (b : Words Q) (commitT : Aff (Words Q)) (i1 : RInst (Words P) (Aff (Words Q)))
    (i2 : Inst (Words P) (Aff (Words Q))) : Option (RInst (Words P) (Aff (Words Q))) := do
  let r ← wChallenge consts commitT i1
  wFold b i1 i2 r commitT

end

/-! ### The recursive proof -/

section
variable {P S : FieldParams} [ValidWords P] [ValidWords S]

/-- `proof.rs:12-35` `RecursiveProof`: `E1` has scalars `Words P` and coordinates `Words S`, `E2` the other way round. -/
structure WRecursiveProof (P S : FieldParams) where
  i : Nat
  z01 : List (Words P)
  z02 : List (Words S)
  zi1 : List (Words P)
  zi2 : List (Words S)
  single2 : Inst (Words S) (Aff (Words P))
  wsingle2 : List (Words S)
  range1 : RInst (Words P) (Aff (Words S))
  wrange1 : RWit (Words P)
  range2 : RInst (Words S) (Aff (Words P))
  wrange2 : RWit (Words S)

/-- `proof.rs:44-80` `verify`; `k1`, `k2` are the MiMC constants over the base fields of `E2` and `E1`, `b2` is the curve
constant of `E2`. -/
def WRecursiveProof.verify (k1 : List (Words P)) (k2 : List (Words S)) (b2 : Words P) (shape1 : Shape (Words P))
    (shape2 : Shape (Words S)) (ck2 : List (Aff (Words P))) (pf : WRecursiveProof P S) : Option Bool :=
  if pf.single2.x.length ≠ 2 ∨ pf.range1.x.length ≠ 2 ∨ pf.range2.x.length ≠ 2 then some false
  else do
    let h1 ← wHash k1 pf.range2 pf.i pf.z01 pf.zi1
    let h2 ← wHash k2 pf.range1 pf.i pf.z02 pf.zi2
    let x0 ← pf.single2.x[0]?
    let x1 ← pf.single2.x[1]?
    if h1 ≠ x0 ∨ h2 ≠ wReread x1 then some false
    else do
      let a ← isSatRelaxed shape1 pf.range1 pf.wrange1
      if !a then some false
      else do
        let b ← isSatRelaxed shape2 pf.range2 pf.wrange2
        if !b then some false
        else wIsSat b2 shape2 ck2 pf.single2 pf.wsingle2

end

end Kogarashi.Nova
