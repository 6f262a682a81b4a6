import Verif.Props.Ivc

/-!
# C62, C63 for every proof, whatever the lengths of its vectors

`Props/Ivc.lean` describes `verify` on proofs whose vectors have the prescribed lengths.  Here the lengths are arbitrary: the
proofs on which it panics and the proofs it accepts are characterised exactly.
-/

set_option exponentiation.threshold 1600

namespace Kogarashi.Props

open Kogarashi Spec Nova Curve Field

section shape
variable {F G : Type} [_root_.Field F] [DecidableEq F] [AddCommGroup G] [Module F G] [DecidableEq G]

/-- Every witness wire the constraints mention has a value in `w`. -/
def Covers (S : Shape F) (w : List F) : Prop :=
  ∀ r ∈ S.a ++ S.b ++ S.c, ∀ e ∈ r, ∀ i, e.1 = .wit i → i < w.length

theorem fits_of_covers {S : Shape F} (h : ShapeOk S) (x : List F) {w : List F} (hw : Covers S w) : Fits S x w := by
  refine ⟨fun r hr e he => ?_, h.a.le, h.b.le, h.c.le⟩
  rcases h.wires r hr e he with h1 | ⟨i, h1, -⟩
  · rw [h1]; exact Nat.zero_le _
  · have := hw r hr e he i h1
    rw [h1]; exact this

theorem covers_of_reads {S : Shape F} {u : F} {x w : List F} (h : ReadsAll S (x.length + 1) (u :: (x ++ w))) : Covers S w := by
  have one : ∀ rows, Reads rows S.m (x.length + 1) (u :: (x ++ w)) → ∀ r ∈ rows, ∀ e ∈ r, ∀ i, e.1 = .wit i → i < w.length := by
    intro rows hr r hm e he i hi
    have := hr.read r hm e he
    rw [hi] at this
    simp [Matrix.readZ] at this
    omega
  intro r hr
  rw [List.mem_append, List.mem_append] at hr
  rcases hr with (hr | hr) | hr
  · exact one _ h.a r hr
  · exact one _ h.b r hr
  · exact one _ h.c r hr

/-- `is_sat_relaxed` returns exactly when the witness covers the wires and the error vector has one entry per row. -/
theorem relaxed_returns {S : Shape F} (h : ShapeOk S) {i : RInst F G} {w : RWit F} :
    isSatRelaxed S i w = none ↔ ¬ (Covers S w.w ∧ w.e.length = S.m) := by
  constructor
  · rintro hn ⟨h1, h2⟩
    obtain ⟨b, hb, -⟩ := C50_is_sat_relaxed (G := G) (i := i) (fits_of_covers h i.x h1) h2
    rw [hn] at hb; cases hb
  · intro hn
    cases hr : isSatRelaxed S i w with
    | none => rfl
    | some b =>
      obtain ⟨h1, h2, -⟩ := isSatRelaxed_some hr
      exact absurd ⟨covers_of_reads h1, h2⟩ hn

theorem relaxed_accepts {S : Shape F} (h : ShapeOk S) {i : RInst F G} {w : RWit F} :
    isSatRelaxed S i w = some true ↔ Covers S w.w ∧ w.e.length = S.m ∧ RelaxedHolds S i.u i.x w.w w.e := by
  constructor
  · intro hr
    obtain ⟨h1, h2, -⟩ := isSatRelaxed_some hr
    have hc := covers_of_reads h1
    obtain ⟨b, hb, hiff⟩ := C50_is_sat_relaxed (G := G) (i := i) (fits_of_covers h i.x hc) h2
    rw [hr] at hb; cases hb
    exact ⟨hc, h2, hiff.mp rfl⟩
  · rintro ⟨hc, h2, h3⟩
    obtain ⟨b, hb, hiff⟩ := C50_is_sat_relaxed (G := G) (i := i) (fits_of_covers h i.x hc) h2
    rw [hb, hiff.mpr h3]

theorem isSat_covers {S : Shape F} {ck : List G} {i : Inst F G} {w : List F} {b : Bool} (h : isSat S ck i w = some b) :
    Covers S w := by
  unfold isSat at h
  simp only [Option.bind_eq_bind, Option.bind_eq_some_iff] at h
  obtain ⟨az, ha, bz, hb, cz, hc, -⟩ := h
  exact covers_of_reads (u := 1) (x := i.x) ⟨(prod_some ha).1, (prod_some hb).1, (prod_some hc).1⟩

theorem plain_returns {S : Shape F} (h : ShapeOk S) {ck : List G} {i : Inst F G} {w : List F} :
    isSat S ck i w = none ↔ ¬ Covers S w := by
  constructor
  · intro hn h1
    obtain ⟨b, hb, -⟩ := C50_is_sat (ck := ck) (i := i) (fits_of_covers h i.x h1)
    rw [hn] at hb; cases hb
  · intro hn
    cases hr : isSat S ck i w with
    | none => rfl
    | some b => exact absurd (isSat_covers hr) hn

theorem plain_accepts {S : Shape F} (h : ShapeOk S) {ck : List G} {i : Inst F G} {w : List F} :
    isSat S ck i w = some true ↔ Covers S w ∧ PlainHolds S i.x w ∧ i.commitW = commit ck w := by
  constructor
  · intro hr
    have hc := isSat_covers hr
    obtain ⟨b, hb, hiff⟩ := C50_is_sat (ck := ck) (i := i) (fits_of_covers h i.x hc)
    rw [hr] at hb; cases hb
    exact ⟨hc, hiff.mp rfl⟩
  · rintro ⟨hc, h3⟩
    obtain ⟨b, hb, hiff⟩ := C50_is_sat (ck := ck) (i := i) (fits_of_covers h i.x hc)
    rw [hb, hiff.mpr h3]

end shape

variable {P S : Nat} [Fact P.Prime] [Fact S.Prime] {b1 : ZMod S} {b2 : ZMod P}
  [Module (ZMod P) (curve b1).Point] [Module (ZMod S) (curve b2).Point]

/-- What `verify` checks before it looks at a witness: two public inputs each, and the hashes of the claimed data. -/
def HashesMatch (C : Cycle P S (curve b1).Point (curve b2).Point) (pf : RecursiveProof P S (curve b1).Point (curve b2).Point) : Prop :=
  ∃ x0 x1, pf.single2.x = [x0, x1] ∧ pf.range1.x.length = 2 ∧ pf.range2.x.length = 2 ∧
    pf.range2.hash C.D1.env pf.i pf.z01 pf.zi1 = some x0 ∧ pf.range1.hash C.D2.env pf.i pf.z02 pf.zi2 = some (reread x1)

theorem verify_of_not_match {C : Cycle P S (curve b1).Point (curve b2).Point} (hC : C.Ok)
    {pp : PublicParams P S (curve b1).Point (curve b2).Point} {pf : RecursiveProof P S (curve b1).Point (curve b2).Point}
    (hm : ¬ HashesMatch C pf) : pf.verify C pp = some false := by
  unfold RecursiveProof.verify
  unfold HashesMatch at hm
  rw [hash_eq hC.D2.q254.lt256, hash_eq hC.D1.q254.lt256] at hm ⊢
  split
  · rfl
  · rename_i hx
    push_neg at hx
    obtain ⟨x0, x1, hx0⟩ := List.length_eq_two.mp hx.1
    rw [hx0]
    simp only [Option.bind_eq_bind, Option.bind_some, List.getElem?_cons_zero, List.getElem?_cons_succ]
    rw [if_pos]
    by_contra hc
    push_neg at hc
    exact hm ⟨x0, x1, hx0, hx.2.1, hx.2.2, by rw [hc.1], by rw [hc.2]⟩

theorem verify_of_match {C : Cycle P S (curve b1).Point (curve b2).Point}
    {pp : PublicParams P S (curve b1).Point (curve b2).Point} {pf : RecursiveProof P S (curve b1).Point (curve b2).Point}
    (hm : HashesMatch C pf) : pf.verify C pp = (isSatRelaxed pp.shape1 pf.range1 pf.wrange1).bind (fun a => if !a then some false
      else (isSatRelaxed pp.shape2 pf.range2 pf.wrange2).bind (fun b => if !b then some false
        else isSat pp.shape2 pp.ck2 pf.single2 pf.wsingle2)) := by
  obtain ⟨x0, x1, h0, h1, h2, h3, h4⟩ := hm
  unfold RecursiveProof.verify
  rw [if_neg (by rw [h0, h1, h2]; simp), h3, h4]
  simp only [h0, Option.bind_eq_bind, Option.bind_some, List.getElem?_cons_zero, List.getElem?_cons_succ]
  rw [if_neg (by simp)]

/-- **C63, exactly.** Whatever the lengths and contents of the vectors of a proof, `verify` panics if and only if the instances
have two public inputs each, the two hashes match, and the first of the three satisfaction checks that does not succeed
cannot be evaluated: its witness is too short to cover the wires of the constraints, or its error vector does not have one entry
per constraint.  On every other proof it returns. -/
theorem C63_exact {C : Cycle P S (curve b1).Point (curve b2).Point} (hC : C.Ok) {gen1 : Nat → List (curve b1).Point}
    {gen2 : Nat → List (curve b2).Point} {pp : PublicParams P S (curve b1).Point (curve b2).Point}
    (h : setup C gen1 gen2 = some pp) (pf : RecursiveProof P S (curve b1).Point (curve b2).Point) :
    pf.verify C pp = none ↔ HashesMatch C pf ∧
      (¬ (Covers pp.shape1 pf.wrange1.w ∧ pf.wrange1.e.length = pp.shape1.m) ∨
       RelaxedHolds pp.shape1 pf.range1.u pf.range1.x pf.wrange1.w pf.wrange1.e ∧
        (¬ (Covers pp.shape2 pf.wrange2.w ∧ pf.wrange2.e.length = pp.shape2.m) ∨
         RelaxedHolds pp.shape2 pf.range2.u pf.range2.x pf.wrange2.w pf.wrange2.e ∧ ¬ Covers pp.shape2 pf.wsingle2)) := by
  have hpp := setup_ok hC h
  by_cases hm : HashesMatch C pf
  · rw [verify_of_match hm]
    have r1 := relaxed_returns hpp.ok1 (i := pf.range1) (w := pf.wrange1)
    have a1 := relaxed_accepts hpp.ok1 (i := pf.range1) (w := pf.wrange1)
    have r2 := relaxed_returns hpp.ok2 (i := pf.range2) (w := pf.wrange2)
    have a2 := relaxed_accepts hpp.ok2 (i := pf.range2) (w := pf.wrange2)
    have r3 := plain_returns hpp.ok2 (ck := pp.ck2) (i := pf.single2) (w := pf.wsingle2)
    revert r1 a1 r2 a2 r3
    generalize isSatRelaxed pp.shape1 pf.range1 pf.wrange1 = o1
    generalize isSatRelaxed pp.shape2 pf.range2 pf.wrange2 = o2
    generalize isSat pp.shape2 pp.ck2 pf.single2 pf.wsingle2 = o3
    intro r1 a1 r2 a2 r3
    rcases o1 with _ | _ | _
    · simp only [Option.bind_none, true_iff]
      exact ⟨hm, Or.inl (r1.mp rfl)⟩
    · simp at r1 a1 ⊢
      tauto
    · simp only [Option.bind_some, Bool.not_true, Bool.false_eq_true, if_false]
      rcases o2 with _ | _ | _
      · simp at r1 a1 r2 a2 ⊢
        tauto
      · simp at r1 a1 r2 a2 ⊢
        tauto
      · simp at r1 a1 r2 a2 ⊢
        tauto
  · rw [verify_of_not_match hC hm]
    simp [hm]

/-- **C62: what acceptance means, for every proof.** No assumption on the lengths: a proof is accepted if and only if the hashes
match, the three witnesses cover the wires of their constraint systems and satisfy them, the two error vectors have one entry per
constraint, and the commitment of the last secondary instance is the one to its witness. -/
theorem C62_accepts_exact {C : Cycle P S (curve b1).Point (curve b2).Point} (hC : C.Ok) {gen1 : Nat → List (curve b1).Point}
    {gen2 : Nat → List (curve b2).Point} {pp : PublicParams P S (curve b1).Point (curve b2).Point}
    (h : setup C gen1 gen2 = some pp) (pf : RecursiveProof P S (curve b1).Point (curve b2).Point) :
    pf.verify C pp = some true ↔ HashesMatch C pf ∧
      (Covers pp.shape1 pf.wrange1.w ∧ pf.wrange1.e.length = pp.shape1.m ∧
        RelaxedHolds pp.shape1 pf.range1.u pf.range1.x pf.wrange1.w pf.wrange1.e) ∧
      (Covers pp.shape2 pf.wrange2.w ∧ pf.wrange2.e.length = pp.shape2.m ∧
        RelaxedHolds pp.shape2 pf.range2.u pf.range2.x pf.wrange2.w pf.wrange2.e) ∧
      Covers pp.shape2 pf.wsingle2 ∧ PlainHolds pp.shape2 pf.single2.x pf.wsingle2 ∧
      pf.single2.commitW = commit pp.ck2 pf.wsingle2 := by
  have hpp := setup_ok hC h
  by_cases hm : HashesMatch C pf
  · rw [verify_of_match hm, ← relaxed_accepts hpp.ok1 (i := pf.range1) (w := pf.wrange1),
      ← relaxed_accepts hpp.ok2 (i := pf.range2) (w := pf.wrange2), ← plain_accepts hpp.ok2 (ck := pp.ck2) (i := pf.single2) (w := pf.wsingle2)]
    generalize isSatRelaxed pp.shape1 pf.range1 pf.wrange1 = o1
    generalize isSatRelaxed pp.shape2 pf.range2 pf.wrange2 = o2
    generalize isSat pp.shape2 pp.ck2 pf.single2 pf.wsingle2 = o3
    rcases o1 with _ | _ | _ <;> rcases o2 with _ | _ | _ <;> simp [hm]
  · rw [verify_of_not_match hC hm]
    simp [hm]

/-- Values past the wires the constraints mention are not looked at: an accepted proof whose two running witnesses are lengthened by
arbitrary values is accepted too (the witness of the last instance is bound by its commitment, up to the length of the key). -/
theorem C63_longer {C : Cycle P S (curve b1).Point (curve b2).Point} (hC : C.Ok) {gen1 : Nat → List (curve b1).Point}
    {gen2 : Nat → List (curve b2).Point} {pp : PublicParams P S (curve b1).Point (curve b2).Point}
    (h : setup C gen1 gen2 = some pp) {pf : RecursiveProof P S (curve b1).Point (curve b2).Point}
    (hv : pf.verify C pp = some true) (t1 : List (ZMod P)) (t2 : List (ZMod S)) :
    ({ pf with wrange1 := ⟨pf.wrange1.w ++ t1, pf.wrange1.e⟩
               wrange2 := ⟨pf.wrange2.w ++ t2, pf.wrange2.e⟩ } : RecursiveProof P S (curve b1).Point (curve b2).Point).verify C pp =
      some true := by
  have ext : ∀ {F : Type} [_root_.Field F] [DecidableEq F] {S : Shape F} (u : F) (x w e t : List F), Covers S w →
      RelaxedHolds S u x w e → Covers S (w ++ t) ∧ RelaxedHolds S u x (w ++ t) e := by
    intro F _ _ S u x w e t hc hr
    have hrow : ∀ l : List (Row F), (∀ r ∈ l, r ∈ S.a ++ S.b ++ S.c) → ∀ i,
        rowVal (relaxedAsg u x (w ++ t)) (l.getD i []) = rowVal (relaxedAsg u x w) (l.getD i []) := by
      intro l hl i
      rcases getD_mem_or l [] i with h1 | h1
      · refine Row.rowVal_congr fun e he => ?_
        cases hk : e.1 with
        | inst j => cases j <;> rfl
        | wit j =>
          have hj := hc _ (hl _ h1) e he j hk
          simp [relaxedAsg, List.getD_eq_getElem?_getD, List.getElem?_append_left hj]
      · rw [h1]; rfl
    refine ⟨fun r hr e he i hi => ?_, fun i hi => ?_⟩
    · have := hc r hr e he i hi
      rw [List.length_append]; omega
    · rw [hrow S.a (by intro r hr; simp [hr]), hrow S.b (by intro r hr; simp [hr]), hrow S.c (by intro r hr; simp [hr])]
      exact hr i hi
  rw [C62_accepts_exact hC h] at hv ⊢
  obtain ⟨h0, ⟨h1, h2, h3⟩, ⟨h4, h5, h6⟩, h7⟩ := hv
  obtain ⟨c1, r1⟩ := ext _ _ _ _ t1 h1 h3
  obtain ⟨c2, r2⟩ := ext _ _ _ _ t2 h4 h6
  exact ⟨h0, ⟨c1, h2, r1⟩, ⟨c2, h5, r2⟩, h7⟩

/-- The hypotheses are met under the library's own cycle, by a proof that is accepted and by one on which `verify` panics. -/
example (fp : CarryBits) (k1 : List FrV) (k2 : List FqV) (gen1 : Nat → List (curve g1B).Point) (gen2 : Nat → List (curve grumpkinB).Point) :
    ∃ pp, setup (bn254Cycle fp k1 k2) gen1 gen2 = some pp ∧
      (∃ pf : RecursiveProof _ _ _ _, pf.verify (bn254Cycle fp k1 k2) pp = some true) ∧
      ∃ pf : RecursiveProof _ _ _ _, pf.verify (bn254Cycle fp k1 k2) pp = none := by
  obtain ⟨pp, hs, -⟩ := setup_some (bn254Cycle_ok fp k1 k2) gen1 gen2
  obtain ⟨pf, h2, -⟩ := C61_refuted (bn254Cycle_ok fp k1 k2) hs (X := g1Point) (WeierstrassCurve.Affine.Point.some_ne_zero _)
  obtain ⟨pf', h', -⟩ := C63_refuted (bn254Cycle_ok fp k1 k2) hs
  exact ⟨pp, hs, ⟨pf, h2⟩, pf', h'⟩

end Kogarashi.Props
