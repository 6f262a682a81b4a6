import Verif.Nova.Struct
import Verif.Nova.Blake
import Verif.Field.Square

/-!
# Nova with the code's own squaring

`Nova/Struct.lean` takes `square` as the product and the inverse as exact.  Here the same functions take the two routines as
arguments: with `exactOps` they are those of `Nova/Struct.lean`, with `codeOps` they run `square` (`bits_256/normal.rs`, which
may lose a carry, C03) and `invert` built on it (`bits_256/normal.rs`, C04).  All the other operations of `Words P` are the
limb routines themselves.
-/

namespace Kogarashi.Nova.Raw

open Kogarashi Spec Curve Kogarashi.Field Limbs Groth16

/-! ### The two arithmetics -/

/-- A squaring, an inversion and what the inversion squares. -/
structure SqOps (F : Type) where
  sq : F → F
  inv : F → F
  invSq : F → List F

/-- Exact squaring and inversion. -/
def exactOps {F : Type} [_root_.Field F] : SqOps F := ⟨Curve.sq, fun a => a⁻¹, fun _ => []⟩

/-- One iteration of `pow` (`zkstd/src/arithmetic/limbs/bits_256/normal.rs`). -/
def powStepS {F : Type} [Mul F] (s : F → F) (a acc : F) (bit : Nat) : F := if bit = 1 then s acc * a else s acc

/-- The accumulators the loop of `pow` squares. -/
def sqPow {F : Type} [Mul F] (s : F → F) (a : F) : List Nat → F → List F
  | [], _ => []
  | bit :: bits, acc => acc :: sqPow s a bits (powStepS s a acc bit)

/-- `invert` (`zkstd/src/arithmetic/limbs/bits_256/normal.rs`), the power whose exponent has the given bits; zero stands for
`None`, which the callers test first. -/
def invS {F : Type} [_root_.Field F] [DecidableEq F] (bits : List Nat) (s : F → F) (a : F) : F :=
  if a = 0 then 0 else bits.foldl (powStepS s a) 1

/-- What `invert` squares. -/
def sqInvS {F : Type} [_root_.Field F] [DecidableEq F] (bits : List Nat) (s : F → F) (a : F) : List F :=
  if a = 0 then [] else sqPow s a bits 1

section
variable {P : FieldParams} [hv : ValidWords P]

/-- `square` (`zkstd/src/arithmetic/limbs/bits_256/normal.rs`, `Limbs/B256.lean`); its result is canonical. -/
def csq (a : Words P) : Words P := ⟨P.square a.limbs, by
  obtain ⟨_, _, _, h, _⟩ := square_denote hv.valid a.canonical
  exact h⟩

/-- The exponent of `invert`: the modulus minus two (`zkstd/src/arithmetic/limbs/bits_256/normal.rs`). -/
def invBits (P : FieldParams) : List Nat := B256.toBits (B256.littleFermat P.p)

/-- The code's squaring and inversion. -/
def codeOps : SqOps (Words P) := ⟨csq, invS (invBits P) csq, sqInvS (invBits P) csq⟩

end

/-- No squaring in the list loses a carry: the squaring is the product. -/
def Exact {F : Type} [Mul F] (s : F → F) (l : List F) : Prop := ∀ x ∈ l, s x = x * x

/-! ### Point arithmetic -/

section
variable {F : Type} [_root_.Field F] [DecidableEq F] (s : F → F)

/-- `double_affine_point` (`weierstrass.rs` lines 39-60). -/
def doubleAffineS (b3 : F) (p : Aff F) : Proj F :=
  let t0 := s p.y
  let z3 := dbl (dbl (dbl t0))
  let x3 := b3 * z3
  let y3 := t0 + b3
  let z3 := p.y * z3
  let t1 := dbl b3
  let t2 := t1 + b3
  let t0 := t0 - t2
  let y3 := t0 * y3
  let y3 := x3 + y3
  let t1 := p.x * p.y
  let x3 := t0 * t1
  let x3 := dbl x3
  ⟨x3, y3, z3⟩

/-- `double_projective_point` (`arithmetic/points/weierstrass.rs` lines 140-163). -/
def doubleProjS (b3 : F) (p : Proj F) : Proj F :=
  let t0 := s p.y
  let z3 := dbl (dbl (dbl t0))
  let t1 := p.y * p.z
  let t2 := s p.z
  let t2 := t2 * b3
  let x3 := t2 * z3
  let y3 := t0 + t2
  let z3 := t1 * z3
  let t1 := dbl t2
  let t2 := t1 + t2
  let t0 := t0 - t2
  let y3 := t0 * y3
  let y3 := x3 + y3
  let t1 := p.x * p.y
  let x3 := t0 * t1
  let x3 := dbl x3
  ⟨x3, y3, z3⟩

/-- `add_mixed_point` (`weierstrass.rs` lines 63-99). -/
def addMixedS (b3 : F) (lhs : Aff F) (rhs : Proj F) : Proj F :=
  if lhs.isIdentity then rhs
  else if rhs.isIdentity then lhs.toExtended
  else
    let s1 := lhs.y * rhs.z
    let u1 := lhs.x * rhs.z
    if u1 = rhs.x then
      if s1 = rhs.y then doubleAffineS s b3 lhs else (Aff.identity : Aff F).toExtended
    else
      let u := s1 - rhs.y
      let uu := s u
      let v := u1 - rhs.x
      let vv := s v
      let vvv := vv * v
      let r := vv * rhs.x
      let a := uu * rhs.z - vvv - dbl r
      ⟨v * a, u * (r - a) - vvv * rhs.y, vvv * rhs.z⟩

/-- What `add_mixed_point` squares. -/
def sqMixed (lhs : Aff F) (rhs : Proj F) : List F :=
  if lhs.isIdentity then [] else if rhs.isIdentity then []
  else if lhs.x * rhs.z = rhs.x then (if lhs.y * rhs.z = rhs.y then [lhs.y] else [])
  else [lhs.y * rhs.z - rhs.y, lhs.x * rhs.z - rhs.x]

/-- `add_projective_point` (`weierstrass.rs` lines 102-139). -/
def addProjS (b3 : F) (lhs rhs : Proj F) : Proj F :=
  if lhs.isIdentity then rhs
  else if rhs.isIdentity then lhs
  else
    let s1 := lhs.y * rhs.z
    let s2 := rhs.y * lhs.z
    let u1 := lhs.x * rhs.z
    let u2 := rhs.x * lhs.z
    if u1 = u2 then
      if s1 = s2 then doubleProjS s b3 lhs else Proj.identity
    else
      let d := s1 - s2
      let u := u1 - u2
      let uu := s u
      let v := lhs.z * rhs.z
      let w := s d * v - uu * (u1 + u2)
      let uuu := uu * u
      ⟨u * w, d * (u1 * uu - w) - s1 * uuu, uuu * v⟩

/-- What `add_projective_point` squares. -/
def sqAdd (lhs rhs : Proj F) : List F :=
  if lhs.isIdentity then [] else if rhs.isIdentity then []
  else if lhs.x * rhs.z = rhs.x * lhs.z then (if lhs.y * rhs.z = rhs.y * lhs.z then [lhs.y, lhs.z] else [])
  else [lhs.y * rhs.z - rhs.y * lhs.z, lhs.x * rhs.z - rhs.x * lhs.z]

/-- One iteration of `scalar_point` (`arithmetic/points/weierstrass.rs` lines 169-176). -/
def scalarStepS (b3 : F) (point res : Proj F) (naf : Naf) : Proj F :=
  let res := doubleProjS s b3 res
  match naf with
  | .plus => addProjS s b3 res point
  | .minus => addProjS s b3 res point.neg
  | .zero => res

/-- What one iteration squares. -/
def sqScalarStep (b3 : F) (point res : Proj F) (naf : Naf) : List F :=
  res.y :: res.z :: match naf with
  | .plus => sqAdd (doubleProjS s b3 res) point
  | .minus => sqAdd (doubleProjS s b3 res) point.neg
  | .zero => []

/-- `scalar_point` (`arithmetic/points/weierstrass.rs` lines 167-178). -/
def scalarPointS (b3 : F) (point : Proj F) (nafs : List Naf) : Proj F := nafs.foldl (scalarStepS s b3 point) Proj.identity

/-- What `scalar_point` squares from the accumulator `res` on. -/
def sqScalar (b3 : F) (point : Proj F) : List Naf → Proj F → List F
  | [], _ => []
  | d :: ds, res => sqScalarStep s b3 point res d ++ sqScalar b3 point ds (scalarStepS s b3 point res d)

end

section
variable {F : Type} [_root_.Field F] [DecidableEq F] (o : SqOps F)

/-- `to_affine` (`macros/curve/weierstrass.rs` lines 57-66). -/
def toAffineS (p : Proj F) : Aff F := if p.z = 0 then Aff.identity else ⟨p.x * o.inv p.z, p.y * o.inv p.z, false⟩

/-! ### Transcript -/

/-- The body of `Mimc::hash` (`nova/src/hash.rs` lines 36-45). -/
def mimcS (s : F → F) : List F → F → F → F
  | [], xl, _ => xl
  | c :: cs, xl, xr =>
    let cxl := xl + c
    let ccxl := s cxl
    let cccxl := s ccxl
    mimcS s cs (ccxl * cccxl * cxl + xr) xl

/-- What `Mimc::hash` squares. -/
def sqMimc (s : F → F) : List F → F → F → List F
  | [], _, _ => []
  | c :: cs, xl, xr => (xl + c) :: s (xl + c) :: sqMimc s cs (s (xl + c) * s (s (xl + c)) * (xl + c) + xr) xl

/-- The fold of `squeeze` (`nova/src/hash.rs` lines 88-91) from the accumulator `acc` on. -/
def spongeS (s : F → F) (consts : List F) : List F → F → F
  | [], acc => acc
  | x :: xs, acc => spongeS s consts xs (acc + x + mimcS s consts x acc)

/-- What the fold squares. -/
def sqSponge (s : F → F) (consts : List F) : List F → F → List F
  | [], _ => []
  | x :: xs, acc => sqMimc s consts x acc ++ sqSponge s consts xs (acc + x + mimcS s consts x acc)

end

/-! ### The parts without squarings -/

/-- The conversions between the scalars `K` and the coordinates `F` of a curve, none of which squares: signed digits of a
scalar (`to_nafs`), the elements absorbed for an instance (`instance.rs:103-116`), `From<u64>`, and the reading of the low bits
of an element (`hash.rs:93-101`). -/
structure Conv (F K : Type) where
  nafs : K → Option (List Naf)
  absorb : RInst K (Aff F) → Option (List F)
  ofU64 : Nat → F
  lowBits : F → Nat → K

/-- The conversions of `Nova/Struct.lean`. -/
def conv (P Q : FieldParams) [ValidWords P] [ValidWords Q] : Conv (Words Q) (Words P) where
  nafs k := P.toNafs k.limbs
  absorb := wAbsorb
  ofU64 := wOfU64
  lowBits x n := wReadBits ((Q.toBits x.limbs).reverse.take n) 1 0

section
variable {F K : Type} [_root_.Field F] [DecidableEq F] [_root_.Field K] [DecidableEq K] (o : SqOps F) (c : Conv F K)

/-- `append_point` (`hash.rs:71-79`). -/
def pointS (a : Aff F) : List F := [a.x, a.y, if a.isIdentity then 0 else 1]

/-- `squeeze` (`nova/src/hash.rs` lines 87-102). -/
def squeezeS (consts state : List F) (numBits : Nat) : K := c.lowBits (spongeS o.sq consts state 0) numBits

/-- The challenge computed at `prover.rs:31-38` and `verifier.rs:17-22`. -/
def challengeS (consts : List F) (commitT : Aff F) (i1 : RInst K (Aff F)) : Option K :=
  (c.absorb i1).map fun a => squeezeS o c consts (pointS commitT ++ a) challengeBits

/-- What the challenge squares. -/
def sqChallenge (consts : List F) (commitT : Aff F) (i1 : RInst K (Aff F)) : List F :=
  (c.absorb i1).elim [] fun a => sqSponge o.sq consts (pointS commitT ++ a) 0

/-- `RelaxedR1csInstance::hash` (`instance.rs:118-130`). -/
def hashS (consts : List F) (i : RInst K (Aff F)) (n : Nat) (z0 zi : List F) : Option K :=
  (c.absorb i).map fun a => squeezeS o c consts (c.ofU64 n :: (z0 ++ zi ++ a)) hashBits

/-- What the hash squares. -/
def sqHash (consts : List F) (i : RInst K (Aff F)) (n : Nat) (z0 zi : List F) : List F :=
  (c.absorb i).elim [] fun a => sqSponge o.sq consts (c.ofU64 n :: (z0 ++ zi ++ a)) 0

/-! ### Commitments, folding, satisfaction -/

/-- `Mul<Fr>` of an affine point (`bn254/src/g1.rs` lines 101-107). -/
def mulAffS (b : F) (a : Aff F) (k : K) : Option (Proj F) := (c.nafs k).map (scalarPointS o.sq (b + b + b) a.toExtended)

/-- What the product squares. -/
def sqMulAff (b : F) (a : Aff F) (k : K) : List F :=
  (c.nafs k).elim [] fun nafs => sqScalar o.sq (b + b + b) a.toExtended nafs Proj.identity

/-- The loop of `commit` (`nova/src/pedersen.rs:15-20`). -/
def commitLoopS (b : F) : List (K × Aff F) → Proj F → Option (Proj F)
  | [], acc => some acc
  | (k, g) :: rest, acc => (mulAffS o c b g k).bind fun r => commitLoopS b rest (addProjS o.sq (b + b + b) acc r)

/-- What the loop of `commit` squares, with the conversion at the end. -/
def sqCommitLoop (b : F) : List (K × Aff F) → Proj F → List F
  | [], acc => o.invSq acc.z
  | (k, g) :: rest, acc => (mulAffS o c b g k).elim [] fun r =>
    sqMulAff o c b g k ++ (sqAdd acc r ++ sqCommitLoop b rest (addProjS o.sq (b + b + b) acc r))

/-- `commit` (`nova/src/pedersen.rs:15-20`). -/
def commitS (b : F) (g : List (Aff F)) (m : List K) : Option (Aff F) :=
  (commitLoopS o c b (m.zip g) Proj.identity).map (toAffineS o)

/-- What `commit` squares. -/
def sqCommit (b : F) (g : List (Aff F)) (m : List K) : List F := sqCommitLoop o c b (m.zip g) Proj.identity

/-- `acc + k * a` as an affine struct (`instance.rs:89-92`). -/
def foldPointS (b : F) (acc a : Aff F) (k : K) : Option (Aff F) :=
  (mulAffS o c b a k).map fun r => toAffineS o (addMixedS o.sq (b + b + b) acc r)

/-- What it squares. -/
def sqFoldPoint (b : F) (acc a : Aff F) (k : K) : List F :=
  (mulAffS o c b a k).elim [] fun r =>
    sqMulAff o c b a k ++ (sqMixed acc r ++ o.invSq (addMixedS o.sq (b + b + b) acc r).z)

/-- `RelaxedR1csInstance::fold` (`instance.rs:81-101`). -/
def foldS (b : F) (i1 : RInst K (Aff F)) (i2 : Inst K (Aff F)) (r : K) (commitT : Aff F) : Option (RInst K (Aff F)) := do
  let e ← foldPointS o c b i1.commitE commitT r
  let w ← foldPointS o c b i1.commitW i2.commitW r
  let x ← zipVec (· + ·) i1.x (vecScale i2.x r)
  some ⟨w, e, i1.u + r, x⟩

/-- What `fold` squares. -/
def sqFold (b : F) (i1 : RInst K (Aff F)) (i2 : Inst K (Aff F)) (r : K) (commitT : Aff F) : List F :=
  sqFoldPoint o c b i1.commitE commitT r ++ sqFoldPoint o c b i1.commitW i2.commitW r

/-- `is_sat` (`relaxed_r1cs.rs:117-146`). -/
def isSatS (b : F) (S : Shape K) (ck : List (Aff F)) (i : Inst K (Aff F)) (w : List K) : Option Bool := do
  let l : Nat := i.x.length + 1
  let z := 1 :: (i.x ++ w)
  let az ← Matrix.prod S.a S.m l z
  let bz ← Matrix.prod S.b S.m l z
  let cz ← Matrix.prod S.c S.m l z
  let azbz ← zipVec (· * ·) az bz
  let c ← commitS o c b ck w
  some ((azbz.zip cz).all (fun p => p.1 == p.2) && i.commitW.eq c)

/-- `Prover::prove` (`prover.rs:24-50`). -/
def proveS (consts : List F) (b : F) (S : Shape K) (ck : List (Aff F)) (i1 : RInst K (Aff F)) (w1 : RWit K) (i2 : Inst K (Aff F))
    (w2 : List K) : Option (RInst K (Aff F) × RWit K × Aff F) := do
  let t ← crossTerm S i1 w1 i2 w2
  let commitT ← commitS o c b ck t
  let r ← challengeS o c consts commitT i1
  let i ← foldS o c b i1 i2 r commitT
  let w ← w1.fold w2 r t
  some (i, w, commitT)

/-- `Verifier::verify` (`verifier.rs:12-25`). -/
def verifyS (consts : List F) (b : F) (commitT : Aff F) (i1 : RInst K (Aff F)) (i2 : Inst K (Aff F)) : Option (RInst K (Aff F)) := do
  let r ← challengeS o c consts commitT i1
  foldS o c b i1 i2 r commitT

end

/-! ### The recursive proof -/

section
variable {P S : FieldParams} [ValidWords P] [ValidWords S]

/-- `RecursiveProof::verify` (`proof.rs:44-80`). -/
def recVerifyS (o : SqOps (Words P)) (o' : SqOps (Words S)) (k1 : List (Words P)) (k2 : List (Words S)) (b2 : Words P)
    (shape1 : Shape (Words P)) (shape2 : Shape (Words S)) (ck2 : List (Aff (Words P))) (pf : WRecursiveProof P S) : Option Bool :=
  if pf.single2.x.length ≠ 2 ∨ pf.range1.x.length ≠ 2 ∨ pf.range2.x.length ≠ 2 then some false
  else do
    let h1 ← hashS o (conv S P) k1 pf.range2 pf.i pf.z01 pf.zi1
    let h2 ← hashS o' (conv P S) k2 pf.range1 pf.i pf.z02 pf.zi2
    let x0 ← pf.single2.x[0]?
    let x1 ← pf.single2.x[1]?
    if h1 ≠ x0 ∨ h2 ≠ wReread x1 then some false
    else do
      let a ← isSatRelaxed shape1 pf.range1 pf.wrange1
      if !a then some false
      else do
        let b ← isSatRelaxed shape2 pf.range2 pf.wrange2
        if !b then some false
        else isSatS o (conv S P) b2 shape2 ck2 pf.single2 pf.wsingle2

end

/-! ### The round constants -/

theorem digest_byte (s : List Nat) (i : Nat) : (Blake.digest s).getD i 0 < 256 := by
  have h : ∀ x ∈ Blake.digest s, x < 256 := by
    intro x hx
    unfold Blake.digest at hx
    obtain ⟨w, -, hw⟩ := List.mem_flatMap.mp hx
    obtain ⟨j, -, rfl⟩ := List.mem_map.mp hw
    exact Nat.mod_lt _ (by norm_num)
  rw [List.getD_eq_getElem?_getD]
  cases e : (Blake.digest s)[i]? with
  | none => exact Nat.zero_lt_succ _
  | some x => exact h x (List.mem_of_getElem? e)

theorem constLoop_byte : ∀ (k : Nat) (s : List Nat), ∀ d ∈ Blake.constLoop k s, ∀ i, d.getD i 0 < 256
  | 0, _, _, h, _ => absurd h (List.not_mem_nil)
  | k + 1, s, d, h, i => by
    rcases List.mem_cons.mp h with rfl | h
    · exact digest_byte _ i
    · exact constLoop_byte k _ d h i

theorem mimcConstants_canonical (P : FieldParams) [hv : ValidWords P] : ∀ a ∈ Blake.mimcConstants P, Canonical P a := by
  intro a ha
  obtain ⟨d, hd, rfl⟩ := List.mem_map.mp ha
  exact (Props.C06_from_bytes_wide hv.valid fun i _ => constLoop_byte _ _ d hd i).1

/-- `Mimc::default` (`nova/src/hash.rs` lines 19-31), the constants with their canonicity. -/
def mimcWords (P : FieldParams) [ValidWords P] : List (Words P) :=
  (Blake.mimcConstants P).attach.map fun a => ⟨a.1, mimcConstants_canonical P a.1 a.2⟩

end Kogarashi.Nova.Raw
