import Verif.Nova.Circuit

/-!
# Model: incrementally verifiable computation (`nova/src/ivc.rs`, `nova/src/proof.rs`)

`E1` has scalar field `ZMod P`, base field `ZMod S` and commitment group `G1`; `E2` has scalar field `ZMod S`,
base field `ZMod P` and commitment group `G2`.  The primary circuit is built over `ZMod P` and verifies instances
of `E2` (driver `D1`), the secondary one the other way round (driver `D2`).
-/

namespace Kogarashi.Nova

open Circ

/-- Everything the type parameters `E1, E2, FC1, FC2` of `Ivc` (`ivc.rs:15-42`) fix. -/
structure Cycle (P S : Nat) [Fact P.Prime] [Fact S.Prime] (G1 G2 : Type) where
  D1 : Driver S P G2
  D2 : Driver P S G1
  FC1 : FnCircuit (ZMod P)
  FC2 : FnCircuit (ZMod S)

/-- `ivc.rs:250-263` `PublicParams`. -/
structure PublicParams (P S : Nat) (G1 G2 : Type) where
  shape1 : Shape (ZMod P)
  shape2 : Shape (ZMod S)
  ck1 : List G1
  ck2 : List G2

/-- `ivc.rs:15-42` `Ivc`.  The two `Prover` fields hold copies of the public parameters' shapes and keys
(`ivc.rs:71`, `88-89`); the model reads them from the public parameters, i.e. every call is made with the same
`pp`; `Nova/IvcKeys.lean` keeps the copies. -/
structure Ivc (P S : Nat) (G1 G2 : Type) where
  i : Nat
  z01 : List (ZMod P)
  z02 : List (ZMod S)
  zi1 : List (ZMod P)
  zi2 : List (ZMod S)
  single2 : Inst (ZMod S) G2
  wsingle2 : List (ZMod S)
  range1 : RInst (ZMod P) G1
  wrange1 : RWit (ZMod P)
  range2 : RInst (ZMod S) G2
  wrange2 : RWit (ZMod S)

/-- `proof.rs:12-35` `RecursiveProof`. -/
structure RecursiveProof (P S : Nat) (G1 G2 : Type) where
  i : Nat
  z01 : List (ZMod P)
  z02 : List (ZMod S)
  zi1 : List (ZMod P)
  zi2 : List (ZMod S)
  single2 : Inst (ZMod S) G2
  wsingle2 : List (ZMod S)
  range1 : RInst (ZMod P) G1
  wrange1 : RWit (ZMod P)
  range2 : RInst (ZMod S) G2
  wrange2 : RWit (ZMod S)

variable {P S : Nat} [Fact P.Prime] [Fact S.Prime] {G1 G2 : Type} [AddCommGroup G1] [Module (ZMod P) G1] [DecidableEq G1]
  [AddCommGroup G2] [Module (ZMod S) G2] [DecidableEq G2]

/-- `k` of `ivc.rs:304` and `ivc.rs:307-310`: `m.next_power_of_two().trailing_zeros()`. -/
def keyLog (m : Nat) : Nat := Nat.clog 2 m

/-- One shape of `setup`, `ivc.rs:274-287` and `289-302`. -/
def setupShape {p q : Nat} [Fact p.Prime] [Fact q.Prime] {G : Type} [AddCommGroup G] [Module (ZMod p) G] [DecidableEq G]
    (D : Driver p q G) (FC : FnCircuit (ZMod q)) (isPrimary : Bool) : Option (Shape (ZMod q)) := do
  let (_, cs) ← (Augmented.generate D FC (⟨isPrimary, 0, [0], none, none, none, none⟩ : Augmented p q G)) CS.init
  some (Shape.ofCS cs)

/-- `ivc.rs:272-319` `setup`; `gen1`, `gen2` are `PedersenCommitment::new` with the caller's randomness. -/
def setup (C : Cycle P S G1 G2) (gen1 : Nat → List G1) (gen2 : Nat → List G2) : Option (PublicParams P S G1 G2) := do
  let s1 ← setupShape C.D1 C.FC1 true
  let s2 ← setupShape C.D2 C.FC2 false
  some ⟨s1, s2, gen1 (keyLog s1.m), gen2 (keyLog s2.m)⟩

/-- One augmented circuit run from an empty system: `generate`, `r1cs_instance_and_witness` and the values of
the output rows (`ivc.rs:56-68` with `107-112`, and the three similar places). -/
def runCircuit {p q : Nat} [Fact p.Prime] [Fact q.Prime] {G G' : Type} [AddCommGroup G] [Module (ZMod p) G] [DecidableEq G]
    [AddCommGroup G'] [Module (ZMod q) G']
    (D : Driver p q G) (FC : FnCircuit (ZMod q)) (A : Augmented p q G) (shape : Shape (ZMod q)) (ck : List G') :
    Option (Inst (ZMod q) G' × List (ZMod q) × List (ZMod q)) := do
  let (rows, cs) ← A.generate D FC CS.init
  let (u, w) ← instanceAndWitness cs shape ck
  let (z, _) ← valueList rows cs
  some (u, w, z)

/-- `ivc.rs:51-130` `init`. -/
def ivcInit (C : Cycle P S G1 G2) (pp : PublicParams P S G1 G2) (z01 : List (ZMod P)) (z02 : List (ZMod S)) :
    Option (Ivc P S G1 G2) := do
  let (u1, w1, zi1) ← runCircuit C.D1 C.FC1 ⟨true, 0, z01, none, none, none, none⟩ pp.shape1 pp.ck1
  let (u2, w2, zi2) ← runCircuit C.D2 C.FC2 ⟨false, 0, z02, none, some u1, none, none⟩ pp.shape2 pp.ck2
  some { i := 0, z01 := z01, z02 := z02, zi1 := zi1, zi2 := zi2, single2 := u2, wsingle2 := w2
         range1 := RInst.ofInst u1, wrange1 := RWit.ofWit pp.shape1 w1
         range2 := RInst.dummy pp.shape2.instanceLength, wrange2 := RWit.dummy pp.shape2.witnessLength pp.shape2.m }

/-- The struct literals of `ivc.rs:138-156` and `ivc.rs:228-246`. -/
def Ivc.proof (st : Ivc P S G1 G2) : RecursiveProof P S G1 G2 :=
  ⟨st.i, st.z01, st.z02, st.zi1, st.zi2, st.single2, st.wsingle2, st.range1, st.wrange1, st.range2, st.wrange2⟩

/-- `ivc.rs:132-247` `prove_step`.  `FC1::invoke` at line 158 is called but its result is not used.  The `u64`
counter is a natural number; `Nova/IvcKeys.lean` represents its overflow after `2^64 - 1` steps. -/
def proveStep (C : Cycle P S G1 G2) (pp : PublicParams P S G1 G2) (st : Ivc P S G1 G2) :
    Option (Ivc P S G1 G2 × RecursiveProof P S G1 G2) :=
  if st.i = 0 then
    let st := { st with i := 1 }
    some (st, st.proof)
  else do
    let (r2, wr2, t2) ← prove C.D1.env pp.shape2 pp.ck2 st.range2 st.wrange2 st.single2 st.wsingle2
    let (u1, w1, zi1) ← runCircuit C.D1 C.FC1 ⟨true, st.i, st.z01, some st.zi1, some st.single2, some st.range2, some t2⟩
      pp.shape1 pp.ck1
    let (r1, wr1, t1) ← prove C.D2.env pp.shape1 pp.ck1 st.range1 st.wrange1 u1 w1
    let (u2, w2, zi2) ← runCircuit C.D2 C.FC2 ⟨false, st.i, st.z02, some st.zi2, some u1, some st.range1, some t1⟩
      pp.shape2 pp.ck2
    let st := { st with i := st.i + 1, range1 := r1, wrange1 := wr1, range2 := r2, wrange2 := wr2, single2 := u2
                        wsingle2 := w2, zi1 := zi1, zi2 := zi2 }
    some (st, st.proof)

/-- `proof.rs:44-80` `verify`. -/
def RecursiveProof.verify (C : Cycle P S G1 G2) (pp : PublicParams P S G1 G2) (pf : RecursiveProof P S G1 G2) :
    Option Bool :=
  if pf.single2.x.length ≠ 2 ∨ pf.range1.x.length ≠ 2 ∨ pf.range2.x.length ≠ 2 then some false
  else do
    let h1 ← pf.range2.hash C.D1.env pf.i pf.z01 pf.zi1
    let h2 ← pf.range1.hash C.D2.env pf.i pf.z02 pf.zi2
    let x0 ← pf.single2.x[0]?
    let x1 ← pf.single2.x[1]?
    if h1 ≠ x0 ∨ h2 ≠ reread x1 then some false
    else do
      let a ← isSatRelaxed pp.shape1 pf.range1 pf.wrange1
      if !a then some false
      else do
        let b ← isSatRelaxed pp.shape2 pf.range2 pf.wrange2
        if !b then some false
        else isSat pp.shape2 pp.ck2 pf.single2 pf.wsingle2

end Kogarashi.Nova
