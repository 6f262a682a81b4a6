import Verif.Props.IvcPanic

/-!
C61, C62, more. One accepted recursive proof gives an accepted proof of every other claim: replacing the step count, the initial
values, the claimed outputs, the running commitments and the running public inputs needs no new witness, only the two public
inputs of the last secondary instance, which no constraint of the circuit mentions.
-/
namespace Kogarashi.Props

open Kogarashi Spec Nova Curve Kogarashi.Field

section
variable {F : Type} [_root_.Field F] [DecidableEq F]

/-- A circuit whose constraints mention no public input besides the constant one does not see the public inputs. -/
theorem relaxed_any_x {S : Shape F} (h : ShapeOk S) {u : F} {x w e : List F} (x' : List F) (hr : RelaxedHolds S u x w e) :
    RelaxedHolds S u x' w e := by
  intro i hi
  rw [h.rowVal_getD u x' x w (l := S.a) (by intro r hr; simp [hr]), h.rowVal_getD u x' x w (l := S.b) (by intro r hr; simp [hr]),
    h.rowVal_getD u x' x w (l := S.c) (by intro r hr; simp [hr])]
  exact hr i hi
end

variable {P S : Nat} [Fact P.Prime] [Fact S.Prime] {b1 : ZMod S} {b2 : ZMod P}
  [Module (ZMod P) (curve b1).Point] [Module (ZMod S) (curve b2).Point]

/-- **C62: every accepted proof proves every claim.** Take any accepted proof and any other step count, initial values, claimed
outputs, running commitments and pairs of running public inputs. Put them in the proof, keeping its witnesses, its error vectors, its
two scalars and the commitment of its last instance: for a suitable pair of public inputs of the last instance it is accepted. -/
theorem C62_retarget {C : Cycle P S (curve b1).Point (curve b2).Point} (hC : C.Ok) {gen1 : Nat → List (curve b1).Point}
    {gen2 : Nat → List (curve b2).Point} {pp : PublicParams P S (curve b1).Point (curve b2).Point}
    (h : setup C gen1 gen2 = some pp) {pf : RecursiveProof P S (curve b1).Point (curve b2).Point}
    (hv : pf.verify C pp = some true) (i : Nat) (z01 zi1 : List (ZMod P)) (z02 zi2 : List (ZMod S))
    (cw1 ce1 : (curve b1).Point) (cw2 ce2 : (curve b2).Point) (x1 y1 : ZMod P) (x2 y2 : ZMod S) :
    ∃ h0 h1 : ZMod S, (⟨i, z01, z02, zi1, zi2, ⟨pf.single2.commitW, [h0, h1]⟩, pf.wsingle2,
      ⟨cw1, ce1, pf.range1.u, [x1, y1]⟩, pf.wrange1, ⟨cw2, ce2, pf.range2.u, [x2, y2]⟩, pf.wrange2⟩ :
        RecursiveProof P S (curve b1).Point (curve b2).Point).verify C pp = some true := by
  have hpp := setup_ok hC h
  rw [C62_accepts_exact hC h] at hv
  obtain ⟨-, ⟨h1, h2, h3⟩, ⟨h4, h5, h6⟩, h7, h8, h9⟩ := hv
  refine ⟨((hashNat C.D1.env (⟨cw2, ce2, pf.range2.u, [x2, y2]⟩ : RInst (ZMod S) (curve b2).Point) i z01 zi1 : Nat) : ZMod S),
    ((hashNat C.D2.env (⟨cw1, ce1, pf.range1.u, [x1, y1]⟩ : RInst (ZMod P) (curve b1).Point) i z02 zi2 : Nat) : ZMod S), ?_⟩
  rw [C62_accepts_exact hC h]
  refine ⟨⟨_, _, rfl, rfl, rfl, hash_eq hC.D2.q254.lt256 _ _ _ _ _, ?_⟩, ⟨h1, h2, relaxed_any_x hpp.ok1 _ h3⟩,
    ⟨h4, h5, relaxed_any_x hpp.ok2 _ h6⟩, h7, hpp.ok2.plain _ h8, h9⟩
  rw [hash_eq hC.D1.q254.lt256,
    reread_nat hC.D2.q254.lt256 (lt_trans (hashNat_lt _ _ _ _ _) (hC.D2.q254.big (by norm_num)))]

/-- **C61: the running commitments of an accepted proof are free.** Every accepted proof stays accepted when its four running
commitments are replaced by arbitrary group elements, once the two public inputs of its last instance are recomputed: the witnesses,
the claim and everything else stay as they are. -/
theorem C61_any_commitments {C : Cycle P S (curve b1).Point (curve b2).Point} (hC : C.Ok) {gen1 : Nat → List (curve b1).Point}
    {gen2 : Nat → List (curve b2).Point} {pp : PublicParams P S (curve b1).Point (curve b2).Point}
    (h : setup C gen1 gen2 = some pp) {pf : RecursiveProof P S (curve b1).Point (curve b2).Point}
    (hv : pf.verify C pp = some true) (cw1 ce1 : (curve b1).Point) (cw2 ce2 : (curve b2).Point) :
    ∃ h0 h1 : ZMod S, ({ pf with
      single2 := ⟨pf.single2.commitW, [h0, h1]⟩
      range1 := { pf.range1 with commitW := cw1, commitE := ce1 }
      range2 := { pf.range2 with commitW := cw2, commitE := ce2 } } :
        RecursiveProof P S (curve b1).Point (curve b2).Point).verify C pp = some true := by
  obtain ⟨⟨-, -, -, l1, l2, -⟩, -⟩ := (C62_accepts_exact hC h pf).mp hv
  obtain ⟨x1, y1, e1⟩ := List.length_eq_two.mp l1
  obtain ⟨x2, y2, e2⟩ := List.length_eq_two.mp l2
  dsimp only
  rw [e1, e2]
  exact C62_retarget hC h hv pf.i pf.z01 pf.zi1 pf.z02 pf.zi2 cw1 ce1 cw2 ce2 x1 y1 x2 y2

/-- Consequence: for every accepted proof and every point there is an accepted proof of the same claim with the same witnesses whose
primary running commitment is off by that point. -/
theorem C61_shift_refuted {C : Cycle P S (curve b1).Point (curve b2).Point} (hC : C.Ok) {gen1 : Nat → List (curve b1).Point}
    {gen2 : Nat → List (curve b2).Point} {pp : PublicParams P S (curve b1).Point (curve b2).Point}
    (h : setup C gen1 gen2 = some pp) {pf : RecursiveProof P S (curve b1).Point (curve b2).Point}
    (hv : pf.verify C pp = some true) (D : (curve b1).Point) :
    ∃ pf' : RecursiveProof P S (curve b1).Point (curve b2).Point, pf'.verify C pp = some true ∧
      pf'.i = pf.i ∧ pf'.z01 = pf.z01 ∧ pf'.z02 = pf.z02 ∧ pf'.zi1 = pf.zi1 ∧ pf'.zi2 = pf.zi2 ∧ pf'.wrange1 = pf.wrange1 ∧
      pf'.range1.commitW = commit pp.ck1 pf'.wrange1.w + D := by
  obtain ⟨h0, h1, hf⟩ := C61_any_commitments hC h hv (commit pp.ck1 pf.wrange1.w + D) pf.range1.commitE pf.range2.commitW pf.range2.commitE
  exact ⟨_, hf, rfl, rfl, rfl, rfl, rfl, rfl, rfl⟩

/-- The honest proof of three steps of the library's own cycle, turned into an accepted proof of a thousand steps from 5 to 7 (and 6
to 8) with the generator as its primary running commitments. -/
example (fp : CarryBits) (k1 : List FrV) (k2 : List FqV) (gen1 : Nat → List (curve g1B).Point) (gen2 : Nat → List (curve grumpkinB).Point) :
    ∃ pp, setup (bn254Cycle fp k1 k2) gen1 gen2 = some pp ∧
      ∃ pf pf' : RecursiveProof _ _ _ _, pf.verify (bn254Cycle fp k1 k2) pp = some true ∧ pf.i = 3 ∧ pf.zi1 = [2460515] ∧
        pf'.verify (bn254Cycle fp k1 k2) pp = some true ∧ pf'.wsingle2 = pf.wsingle2 ∧ pf'.wrange1 = pf.wrange1 ∧
        pf'.i = 1000 ∧ pf'.z01 = [5] ∧ pf'.zi1 = [7] ∧ pf'.z02 = [6] ∧ pf'.zi2 = [8] ∧ pf'.range1.commitW = g1Point := by
  obtain ⟨pp, st, pfs, e1, e2, e3, e4, e5⟩ := C60_complete (bn254Cycle_ok fp k1 k2) gen1 gen2 0 1 3 (by norm_num)
  have := List.getElem?_eq_getElem (l := pfs) (i := 2) (by omega)
  have g := e5 2 _ this
  obtain ⟨h0, h1, hf⟩ := C62_retarget (bn254Cycle_ok fp k1 k2) e1 g.accepted 1000 [5] [7] [6] [8] g1Point g1Point 0 0 1 2 3 4
  exact ⟨pp, e1, _, _, g.accepted, g.i, g.out1.trans (show (exampleFn FrV).invoke^[3] [0] = _ by decide +kernel), hf,
    rfl, rfl, rfl, rfl, rfl, rfl, rfl, rfl⟩

end Kogarashi.Props
