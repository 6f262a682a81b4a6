import Verif.Nova.Ivc

/-!
# Model: the `Ivc` value with its own copies of the keys and a machine counter

`Nova/Ivc.lean` reads shapes and keys from the parameters of the call and counts in the natural numbers. Here `prove_step` folds
with the copies `init` stored (`nova/src/ivc.rs` lines 71 and 88-89), commits and checks lengths with the parameters it is
given, and counts in `u64`.
-/

namespace Kogarashi.Nova

open Circ

/-- `nova/src/prover.rs:12-23` `Prover` and `Prover::new`. -/
structure ProverKey (F G : Type) where
  shape : Shape F
  ck : List G

/-- `ivc.rs:15-42` `Ivc` with the fields `prover_primary` and `prover_secondary`. -/
structure KeyedIvc (P S : Nat) (G1 G2 : Type) where
  base : Ivc P S G1 G2
  prover1 : ProverKey (ZMod P) G1
  prover2 : ProverKey (ZMod S) G2

/-- `self.i += 1` (`ivc.rs:208`) on `u64`: with overflow checks (debug builds) it panics at the maximum, without (the release
profile, `Cargo.toml:17`) it wraps. -/
def bump (checked : Bool) (i : Nat) : Option Nat :=
  if i + 1 < 2 ^ 64 then some (i + 1) else if checked then none else some 0

variable {P S : Nat} [Fact P.Prime] [Fact S.Prime] {G1 G2 : Type} [AddCommGroup G1] [Module (ZMod P) G1] [DecidableEq G1]
  [AddCommGroup G2] [Module (ZMod S) G2] [DecidableEq G2]

/-- `ivc.rs:51-130` `init`, lines 71 and 88-89 included. -/
def keyedInit (C : Cycle P S G1 G2) (pp : PublicParams P S G1 G2) (z01 : List (ZMod P)) (z02 : List (ZMod S)) :
    Option (KeyedIvc P S G1 G2) := do
  let st ← ivcInit C pp z01 z02
  some ⟨st, ⟨pp.shape1, pp.ck1⟩, ⟨pp.shape2, pp.ck2⟩⟩

/-- `ivc.rs:132-247` `prove_step`: the two `prove` calls (lines 159-165 and 183-189) use the stored copies, the rest `pp`. -/
def keyedStep (checked : Bool) (C : Cycle P S G1 G2) (pp : PublicParams P S G1 G2) (s : KeyedIvc P S G1 G2) :
    Option (KeyedIvc P S G1 G2 × RecursiveProof P S G1 G2) :=
  if s.base.i = 0 then
    let st := { s.base with i := 1 }
    some ({ s with base := st }, st.proof)
  else do
    let (r2, wr2, t2) ← prove C.D1.env s.prover2.shape s.prover2.ck s.base.range2 s.base.wrange2 s.base.single2 s.base.wsingle2
    let (u1, w1, zi1) ← runCircuit C.D1 C.FC1
      ⟨true, s.base.i, s.base.z01, some s.base.zi1, some s.base.single2, some s.base.range2, some t2⟩ pp.shape1 pp.ck1
    let (r1, wr1, t1) ← prove C.D2.env s.prover1.shape s.prover1.ck s.base.range1 s.base.wrange1 u1 w1
    let (u2, w2, zi2) ← runCircuit C.D2 C.FC2
      ⟨false, s.base.i, s.base.z02, some s.base.zi2, some u1, some s.base.range1, some t1⟩ pp.shape2 pp.ck2
    let i ← bump checked s.base.i
    let st := { s.base with i := i, range1 := r1, wrange1 := wr1, range2 := r2, wrange2 := wr2, single2 := u2
                            wsingle2 := w2, zi1 := zi1, zi2 := zi2 }
    some ({ s with base := st }, st.proof)

/-- One `prove_step` call with each of the parameters in turn: the proofs, and the final state. -/
def keyedRun (checked : Bool) (C : Cycle P S G1 G2) : List (PublicParams P S G1 G2) → KeyedIvc P S G1 G2 →
    Option (List (RecursiveProof P S G1 G2) × KeyedIvc P S G1 G2)
  | [], s => some ([], s)
  | pp :: pps, s => do
    let (s', pf) ← keyedStep checked C pp s
    let (pfs, s'') ← keyedRun checked C pps s'
    some (pf :: pfs, s'')

end Kogarashi.Nova
