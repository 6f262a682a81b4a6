import Verif.Nova.Transcript
import Mathlib.Algebra.Module.Defs

/-!
# Model: Pedersen commitments, relaxed R1CS, the folding prover and verifier

Model of `nova/src/pedersen.rs`, `nova/src/relaxed_r1cs.rs`, `nova/src/relaxed_r1cs/{instance,witness}.rs`,
`nova/src/prover.rs`, `nova/src/verifier.rs` and the dense vectors of `zkstd/src/matrix/vector.rs`.
The group of commitments is an abstract module `G` over the scalar field (conversion between affine and
projective points is the identity on it, C21-C25); an assertion that fails is `none`.
-/

namespace Kogarashi.Nova

/-- `vector.rs:77-91` multiplication by a scalar. -/
def vecScale {F : Type} [Field F] (a : List F) (r : F) : List F := a.map (· * r)

/-- `nova/src/pedersen.rs:15-20` `commit`: zip (stops at the shorter of vector and key) and sum. -/
def commit {F G : Type} [Field F] [AddCommGroup G] [Module F G] (g : List G) (m : List F) : G :=
  (m.zip g).foldl (fun sum ve => sum + ve.1 • ve.2) 0

/-- `nova/src/relaxed_r1cs.rs:11-22` `R1csShape`. -/
structure Shape (F : Type) where
  m : Nat
  instanceLength : Nat
  witnessLength : Nat
  a : List (Row F)
  b : List (Row F)
  c : List (Row F)

/-- `relaxed_r1cs.rs:42-54` `From<R1cs>`. -/
def Shape.ofCS {F : Type} [Field F] [DecidableEq F] (cs : CS F) : Shape F :=
  { m := cs.m, instanceLength := cs.l - 1, witnessLength := cs.w.length, a := cs.matA, b := cs.matB, c := cs.matC }

/-- `relaxed_r1cs/instance.rs:9-15` `R1csInstance`. -/
structure Inst (F G : Type) where
  commitW : G
  x : List F
deriving DecidableEq

/-- `instance.rs:38-48` `RelaxedR1csInstance`. -/
structure RInst (F G : Type) where
  commitW : G
  commitE : G
  u : F
  x : List F
deriving DecidableEq

/-- `witness.rs:29-35` `RelaxedR1csWitness`. -/
structure RWit (F : Type) where
  w : List F
  e : List F
deriving DecidableEq

section
variable {F G : Type} [Field F] [DecidableEq F] [AddCommGroup G] [Module F G] [DecidableEq G]

/-- `relaxed_r1cs.rs:24-40` `r1cs_instance_and_witness`, with the assertions of `R1csInstance::new`
(`instance.rs:18-24`) and `R1csWitness::new` (`witness.rs:13-18`); the witness is the vector `w`. -/
def instanceAndWitness (cs : CS F) (S : Shape F) (ck : List G) : Option (Inst F G × List F) :=
  if cs.w.length = S.witnessLength ∧ cs.m = S.m ∧ (cs.x.drop 1).length = S.instanceLength then
    some (⟨commit ck cs.w, cs.x.drop 1⟩, cs.w)
  else none

/-- `instance.rs:26-31` `R1csInstance::dummy`. -/
def Inst.dummy (n : Nat) : Inst F G := ⟨0, List.replicate n 0⟩

/-- `instance.rs:64-71` `RelaxedR1csInstance::dummy`. -/
def RInst.dummy (n : Nat) : RInst F G := ⟨0, 0, 0, List.replicate n 0⟩

/-- `instance.rs:52-62` `from_r1cs_instance`: the dummy with `commit_w`, `u = 1` and `x` replaced. -/
def RInst.ofInst (i : Inst F G) : RInst F G := ⟨i.commitW, 0, 1, i.x⟩

/-- `witness.rs:38-43` `from_r1cs_witness`. -/
def RWit.ofWit (S : Shape F) (w : List F) : RWit F := ⟨w, List.replicate S.m 0⟩

/-- `witness.rs:49-54` `RelaxedR1csWitness::dummy`. -/
def RWit.dummy (n m : Nat) : RWit F := ⟨List.replicate n 0, List.replicate m 0⟩

/-- `instance.rs:81-101` `RelaxedR1csInstance::fold`; the vector sum asserts equal lengths. -/
def RInst.fold (i1 : RInst F G) (i2 : Inst F G) (r : F) (commitT : G) : Option (RInst F G) := do
  let x ← zipVec (· + ·) i1.x (vecScale i2.x r)
  some ⟨i1.commitW + r • i2.commitW, i1.commitE + r • commitT, i1.u + r, x⟩

/-- `witness.rs:56-70` `RelaxedR1csWitness::fold`. -/
def RWit.fold (w1 : RWit F) (w2 : List F) (r : F) (t : List F) : Option (RWit F) := do
  let e ← zipVec (· + ·) w1.e (vecScale t r)
  let w ← zipVec (· + ·) w1.w (vecScale w2 r)
  some ⟨w, e⟩

/-- `relaxed_r1cs.rs:117-146` `is_sat`. -/
def isSat (S : Shape F) (ck : List G) (i : Inst F G) (w : List F) : Option Bool := do
  let l : Nat := i.x.length + 1
  let z := 1 :: (i.x ++ w)
  let az ← Matrix.prod S.a S.m l z
  let bz ← Matrix.prod S.b S.m l z
  let cz ← Matrix.prod S.c S.m l z
  let azbz ← zipVec (· * ·) az bz
  some ((azbz.zip cz).all (fun p => p.1 == p.2) && decide (i.commitW = commit ck w))

end

section
variable {F G : Type} [Field F] [DecidableEq F]

/-- `relaxed_r1cs.rs:81-114` `is_sat_relaxed`. -/
def isSatRelaxed (S : Shape F) (i : RInst F G) (w : RWit F) : Option Bool := do
  let l : Nat := i.x.length + 1
  let z := i.u :: (i.x ++ w.w)
  let az ← Matrix.prod S.a S.m l z
  let bz ← Matrix.prod S.b S.m l z
  let cz ← Matrix.prod S.c S.m l z
  let azbz ← zipVec (· * ·) az bz
  let ucze ← zipVec (· + ·) (vecScale cz i.u) w.e
  some ((azbz.zip ucze).all (fun p => p.1 == p.2))

/-- `prover.rs:53-90` `compute_cross_term`. -/
def crossTerm (S : Shape F) (i1 : RInst F G) (w1 : RWit F) (i2 : Inst F G) (w2 : List F) : Option (List F) := do
  let z1 := i1.u :: (i1.x ++ w1.w)
  let l1 : Nat := i1.x.length + 1
  let z2 := 1 :: (i2.x ++ w2)
  let l2 : Nat := i2.x.length + 1
  let az2 ← Matrix.prod S.a S.m l2 z2
  let bz1 ← Matrix.prod S.b S.m l1 z1
  let az1 ← Matrix.prod S.a S.m l1 z1
  let bz2 ← Matrix.prod S.b S.m l2 z2
  let cz2 ← Matrix.prod S.c S.m l2 z2
  let cz1 ← Matrix.prod S.c S.m l1 z1
  let az2bz1 ← zipVec (· * ·) az2 bz1
  let az1bz2 ← zipVec (· * ·) az1 bz2
  let s ← zipVec (· + ·) az2bz1 az1bz2
  let s ← zipVec (· - ·) s (vecScale cz2 i1.u)
  zipVec (· - ·) s (vecScale cz1 1)

end

/-- What the transcript reads of a commitment (`hash.rs:71-79`): affine coordinates and the identity flag;
and the MiMC round constants. -/
structure Env (q : Nat) (G : Type) where
  coordX : G → ZMod q
  coordY : G → ZMod q
  isId : G → Bool
  consts : List (ZMod q)

section
variable {p q : Nat} [Fact p.Prime] [Fact q.Prime] {G : Type} [AddCommGroup G] [Module (ZMod p) G] [DecidableEq G]

/-- `hash.rs:71-79` `append_point`: the three elements pushed. -/
def Env.point (E : Env q G) (P : G) : List (ZMod q) := [E.coordX P, E.coordY P, if E.isId P then 0 else 1]

/-- The limbs absorbed for one public input, `instance.rs:110-115`. -/
def absorbX (x : ZMod p) : Option (List (ZMod q)) := do
  let ls ← natToLimbs (p := p) (fToNat x) limbWidth nLimbs
  some (ls.map reread)

/-- `instance.rs:103-116` `absorb_by_transcript`: the elements pushed. -/
def RInst.absorb (E : Env q G) (i : RInst (ZMod p) G) : Option (List (ZMod q)) := do
  let xs ← i.x.mapM (absorbX (q := q))
  some (E.point i.commitW ++ E.point i.commitE ++ [reread i.u] ++ xs.flatten)

/-- The challenge computed at `prover.rs:31-38` and `verifier.rs:17-22`. -/
def challenge (E : Env q G) (commitT : G) (i1 : RInst (ZMod p) G) : Option (ZMod p) := do
  let a ← i1.absorb E
  some (squeeze E.consts (E.point commitT ++ a) challengeBits)

/-- `instance.rs:118-130` `RelaxedR1csInstance::hash`. -/
def RInst.hash (E : Env q G) (i : RInst (ZMod p) G) (n : Nat) (z0 zi : List (ZMod q)) : Option (ZMod p) := do
  let a ← i.absorb E
  some (squeeze E.consts ((n : ZMod q) :: (z0 ++ zi ++ a)) hashBits)

/-- `prover.rs:24-50` `Prover::prove`. -/
def prove (E : Env q G) (S : Shape (ZMod p)) (ck : List G) (i1 : RInst (ZMod p) G) (w1 : RWit (ZMod p))
    (i2 : Inst (ZMod p) G) (w2 : List (ZMod p)) : Option (RInst (ZMod p) G × RWit (ZMod p) × G) := do
  let t ← crossTerm S i1 w1 i2 w2
  let commitT := commit ck t
  let r ← challenge E commitT i1
  let i ← i1.fold i2 r commitT
  let w ← w1.fold w2 r t
  some (i, w, commitT)

/-- `verifier.rs:12-25` `Verifier::verify`. -/
def verify (E : Env q G) (commitT : G) (i1 : RInst (ZMod p) G) (i2 : Inst (ZMod p) G) :
    Option (RInst (ZMod p) G) := do
  let r ← challenge E commitT i1
  i1.fold i2 r commitT

end

end Kogarashi.Nova
