import Verif.Curve.Limb
import Verif.Curve.Order

/-!
# Property C77: point arithmetic on machine words

The routines of `Curve/Limb.lean` work on coordinates `[u64; 4]` with the code's own field operations.
`HoldsAff`, `HoldsProj`: the coordinates are canonical and stand for the point of Mathlib's curve group.
-/

namespace Kogarashi.Props

open Kogarashi Spec Curve Kogarashi.Field Limbs

/-- The struct holds the point. -/
def HoldsAff (P : FieldParams) [Fact P.m.Prime] (b : ZMod P.m) (p : Aff L4) (Q : (curve b).Point) : Prop :=
  Canonical P p.x ∧ Canonical P p.y ∧ AffRep b ⟨denote P p.x, denote P p.y, p.inf⟩ Q

/-- The struct holds the point. -/
def HoldsProj (P : FieldParams) [Fact P.m.Prime] (b : ZMod P.m) (p : Proj L4) (Q : (curve b).Point) : Prop :=
  Canonical P p.x ∧ Canonical P p.y ∧ Canonical P p.z ∧ ProjRep b ⟨denote P p.x, denote P p.y, denote P p.z⟩ Q

section
variable {P : FieldParams} [Fact P.m.Prime] {b : ZMod P.m}

theorem HoldsAff.el {p : Aff L4} {Q : (curve b).Point} (h : HoldsAff P b p Q) :
    Limb.AEl P p ⟨denote P p.x, denote P p.y, p.inf⟩ := ⟨⟨h.1, rfl⟩, ⟨h.2.1, rfl⟩, rfl⟩
theorem HoldsProj.el {p : Proj L4} {Q : (curve b).Point} (h : HoldsProj P b p Q) :
    Limb.PEl P p ⟨denote P p.x, denote P p.y, denote P p.z⟩ := ⟨⟨h.1, rfl⟩, ⟨h.2.1, rfl⟩, ⟨h.2.2.1, rfl⟩⟩

theorem holds_of_el {p : Proj L4} {q : Proj (ZMod P.m)} (h : Limb.PEl P p q) {Q : (curve b).Point} (hq : ProjRep b q Q) :
    HoldsProj P b p Q := by
  refine ⟨h.x.1, h.y.1, h.z.1, ?_⟩
  rw [h.x.2, h.y.2, h.z.2]
  exact hq

theorem holdsAff_of_el {p : Aff L4} {q : Aff (ZMod P.m)} (h : Limb.AEl P p q) {Q : (curve b).Point} (hq : AffRep b q Q) :
    HoldsAff P b p Q := by
  refine ⟨h.x.1, h.y.1, ?_⟩
  rw [h.x.2, h.y.2, h.inf]
  exact hq

theorem exact_of (hP : ValidParams P) {l : List L4} (hc : ∀ a ∈ l, Canonical P a) (h : ∀ a ∈ l, ¬ SquareLosesCarry a) :
    Limb.Exact P l := fun a ha => (C03_square_partial hP (hc a ha)).mpr (h a ha)

/-- **C77**, doubling of a projective point, when the two squarings lose no carry.  Missing: the others, on which it is false
(`C77_double_refuted`). -/
theorem C77_double_partial (hP : ValidParams P) (h2 : (2 : ZMod P.m) ≠ 0) {b3 : L4} (hb3 : Canonical P b3)
    (hb : denote P b3 = b + b + b) {p : Proj L4} {Q : (curve b).Point} (hp : HoldsProj P b p Q)
    (hs : ¬ SquareLosesCarry p.y ∧ ¬ SquareLosesCarry p.z) : HoldsProj P b (Limb.doubleProj P b3 p) (Q + Q) := by
  refine holds_of_el (Limb.doubleProj_el hP ⟨hb3, hb⟩ hp.el (exact_of hP ?_ ?_)) (doubleProj_rep h2 hp.2.2.2)
  · intro a ha
    rcases List.mem_cons.mp ha with rfl | ha
    · exact hp.2.1
    · rw [List.mem_singleton.mp ha]; exact hp.2.2.1
  · intro a ha
    rcases List.mem_cons.mp ha with rfl | ha
    · exact hs.1
    · rw [List.mem_singleton.mp ha]; exact hs.2

/-- **C77**, addition of projective points, when the squarings agree with multiplication.  Missing: as above. -/
theorem C77_add_partial (hP : ValidParams P) (h2 : (2 : ZMod P.m) ≠ 0) {b3 : L4} (hb3 : Canonical P b3)
    (hb : denote P b3 = b + b + b) {p q : Proj L4} {Q R : (curve b).Point} (hp : HoldsProj P b p Q) (hq : HoldsProj P b q R)
    (hs : ∀ a ∈ Limb.sqAddProj P p q, P.square a = P.mul a a) : HoldsProj P b (Limb.addProj P b3 p q) (Q + R) :=
  holds_of_el (Limb.addProj_el hP ⟨hb3, hb⟩ hp.el hq.el hs) (addProj_rep h2 hp.2.2.2 hq.2.2.2)

/-- **C77**, addition of affine points.  Missing: as above. -/
theorem C77_add_affine_partial (hP : ValidParams P) (h2 : (2 : ZMod P.m) ≠ 0) {b3 : L4} (hb3 : Canonical P b3)
    (hb : denote P b3 = b + b + b) {p q : Aff L4} {Q R : (curve b).Point} (hp : HoldsAff P b p Q) (hq : HoldsAff P b q R)
    (hs : ∀ a ∈ Limb.sqAddAffine P p q, P.square a = P.mul a a) : HoldsProj P b (Limb.addAffine P b3 p q) (Q + R) :=
  holds_of_el (Limb.addAffine_el hP ⟨hb3, hb⟩ hp.el hq.el hs) (addAffine_rep h2 hp.2.2 hq.2.2)

/-- **C77**, scalar multiplication, when no squaring of the run differs from multiplication.  Missing: as above. -/
theorem C77_scalar_partial (hP : ValidParams P) (h2 : (2 : ZMod P.m) ≠ 0) {b3 : L4} (hb3 : Canonical P b3)
    (hb : denote P b3 = b + b + b) {S : FieldParams} (hS : ValidParams S) {k : L4} (hk : Canonical S k) {p : Proj L4}
    {Q : (curve b).Point} (hp : HoldsProj P b p Q) :
    ∃ nafs, S.toNafs k = some nafs ∧
      ((∀ a ∈ Limb.sqScalar P b3 p nafs ⟨FieldParams.zero, P.one, FieldParams.zero⟩, P.square a = P.mul a a) →
        HoldsProj P b (Limb.scalarPoint P b3 p nafs) (value S k • Q)) := by
  obtain ⟨nafs, e1, e2⟩ := C22_scalar_mul (b := b) h2 hS hk hp.2.2.2
  refine ⟨nafs, e1, fun hs => ?_⟩
  exact holds_of_el (Limb.scalar_el hP ⟨hb3, hb⟩ hp.el nafs _ _ (Limb.identity_el hP) hs) e2

/-- **C77**, conversion to affine, when the inversion squares correctly.  Missing: as above. -/
theorem C77_to_affine_partial (hP : ValidParams P) {p : Proj L4} {Q : (curve b).Point} (hp : HoldsProj P b p Q)
    (hs : ∀ a ∈ squaredBy P p.z (B256.toBits (B256.littleFermat P.p)) P.one, P.square a = P.mul a a) :
    HoldsAff P b (Limb.toAffine P p) Q :=
  holdsAff_of_el (Limb.toAffine_el hP hp.el hs) (toAffine_rep hp.2.2.2)

/-- **C77**, `is_on_curve` of an affine point decides the equation, when the two squarings lose no carry.  Missing: the
others, on which it is false (`C77_double_refuted`). -/
theorem C77_on_curve_affine_partial (hP : ValidParams P) {bl : L4} (hb : Canonical P bl) (hbd : denote P bl = b) {p : Aff L4}
    (hx : Canonical P p.x) (hy : Canonical P p.y) (hs : ¬ SquareLosesCarry p.x ∧ ¬ SquareLosesCarry p.y) :
    Limb.affIsOnCurve P bl p = true ↔ p.inf = true ∨ denote P p.y ^ 2 = denote P p.x ^ 3 + b := by
  have eB : Limb.El P bl b := ⟨hb, hbd⟩
  have ex : Limb.El P p.x (denote P p.x) := ⟨hx, rfl⟩
  have ey : Limb.El P p.y (denote P p.y) := ⟨hy, rfl⟩
  have sx := ex.sq hP ((C03_square_partial hP hx).mpr hs.1)
  have sy := ey.sq hP ((C03_square_partial hP hy).mpr hs.2)
  have hi := sy.inj hP ((sx.mul hP ex).add hP eB)
  unfold Limb.affIsOnCurve
  cases p.inf with
  | true => simp
  | false =>
    simp only [Bool.false_eq_true, if_false, decide_eq_true_eq, false_or, hi, Curve.sq]
    rw [pow_two, pow_succ, pow_two]

/-- **C77**, `is_on_curve` of a projective point.  Missing: as above. -/
theorem C77_on_curve_projective_partial (hP : ValidParams P) {bl : L4} (hb : Canonical P bl) (hbd : denote P bl = b)
    {p : Proj L4} (hx : Canonical P p.x) (hy : Canonical P p.y) (hz : Canonical P p.z)
    (hs : ¬ SquareLosesCarry p.x ∧ ¬ SquareLosesCarry p.y ∧ ¬ SquareLosesCarry p.z) :
    Limb.projIsOnCurve P bl p = true ↔
      denote P p.z = 0 ∨ denote P p.y ^ 2 * denote P p.z = denote P p.x ^ 3 + b * denote P p.z ^ 3 := by
  have eB : Limb.El P bl b := ⟨hb, hbd⟩
  have ex : Limb.El P p.x (denote P p.x) := ⟨hx, rfl⟩
  have ey : Limb.El P p.y (denote P p.y) := ⟨hy, rfl⟩
  have ez : Limb.El P p.z (denote P p.z) := ⟨hz, rfl⟩
  have sx := ex.sq hP ((C03_square_partial hP hx).mpr hs.1)
  have sy := ey.sq hP ((C03_square_partial hP hy).mpr hs.2.1)
  have sz := ez.sq hP ((C03_square_partial hP hz).mpr hs.2.2)
  have hi := (sy.mul hP ez).inj hP ((sx.mul hP ex).add hP ((eB.mul hP sz).mul hP ez))
  have h0 := ez.inj hP (Limb.El.zero hP)
  unfold Limb.projIsOnCurve
  by_cases hz0 : p.z = FieldParams.zero
  · rw [if_pos hz0]
    exact ⟨fun _ => Or.inl (h0.mp hz0), fun _ => rfl⟩
  · rw [if_neg hz0, decide_eq_true_eq, hi, or_iff_right (fun h => hz0 (h0.mpr h))]
    simp only [Curve.sq]
    ring_nf

/-- A struct that holds a point satisfies the curve equation, computed with multiplications only. -/
theorem HoldsProj.eqn (hP : ValidParams P) {bl : L4} (hb : Canonical P bl) (hbd : denote P bl = b) {p : Proj L4}
    {Q : (curve b).Point} (h : HoldsProj P b p Q) (hz : p.z ≠ FieldParams.zero) :
    P.mul (P.mul p.y p.y) p.z = P.add (P.mul (P.mul p.x p.x) p.x) (P.mul bl (P.mul (P.mul p.z p.z) p.z)) := by
  have e := h.el
  have hB : Limb.El P bl b := ⟨hb, hbd⟩
  refine (((e.y.mul hP e.y).mul hP e.z).inj hP (((e.x.mul hP e.x).mul hP e.x).add hP
    (hB.mul hP ((e.z.mul hP e.z).mul hP e.z)))).mpr ?_
  have hr := h.2.2.2
  have hz0 : denote P p.z ≠ 0 := fun h0 => hz ((e.z.inj hP (Limb.El.zero hP)).mpr h0)
  cases Q with
  | zero => exact (hz0 hr).elim
  | some x y hn =>
    obtain ⟨-, hx, hy⟩ := hr
    dsimp only at hx hy ⊢
    rw [hx, hy]
    have he := (WeierstrassCurve.Affine.equation_iff (W := curve b) x y).mp hn.1
    dsimp only [curve] at he
    linear_combination (denote P p.z) ^ 3 * he

end

/-- `G1_PARAM_B` and `PARAM_B3` of G1 (`bn254/src/params.rs` lines 10-12). -/
def g1BL : L4 := fqParams.toMontForm ⟨3, 0, 0, 0⟩
/-- `PARAM_B3`. -/
def g1B3L : L4 := fqParams.add (fqParams.add g1BL g1BL) g1BL

theorem g1BL_el : Limb.El fqParams g1BL g1B := by
  obtain ⟨h1, h2⟩ := toMontForm_denote fqParams_valid (v := ⟨3, 0, 0, 0⟩) (by decide)
  exact ⟨h1, h2.trans (by decide +kernel)⟩

theorem g1B3L_el : Limb.El fqParams g1B3L (g1B + g1B + g1B) :=
  (g1BL_el.add fqParams_valid g1BL_el).add fqParams_valid g1BL_el

/-- A point of G1 whose `y`, as limbs, loses a carry when squared. -/
def badPoint : Aff L4 :=
  ⟨⟨0x64bc3fe7276276c5, 0xd38d4efab27255de, 0x826f46e407268210, 0xe58ea4fdae3941d⟩,
   ⟨0x254b0c4e010c4759, 0x90fbbd119c1caaf7, 0xa8c4543964d4706a, 0x17a1d9bb88daf401⟩, false⟩

theorem badPoint_holds : ∃ Q, HoldsAff fqParams g1B badPoint Q := by
  have cx : Canonical fqParams badPoint.x := by unfold Canonical; decide +kernel
  have cy : Canonical fqParams badPoint.y := by unfold Canonical; decide +kernel
  have ex : Limb.El fqParams badPoint.x (denote fqParams badPoint.x) := ⟨cx, rfl⟩
  have ey : Limb.El fqParams badPoint.y (denote fqParams badPoint.y) := ⟨cy, rfl⟩
  have e : denote fqParams badPoint.y * denote fqParams badPoint.y =
      denote fqParams badPoint.x * denote fqParams badPoint.x * denote fqParams badPoint.x + g1B :=
    ((ey.mul fqParams_valid ey).inj fqParams_valid
      (((ex.mul fqParams_valid ex).mul fqParams_valid ex).add fqParams_valid g1BL_el)).mp (by decide +kernel)
  have hn := nonsingular_of_eq g1_two g1_three g1_b (x := denote fqParams badPoint.x) (y := denote fqParams badPoint.y)
    (by linear_combination e)
  exact ⟨.some _ _ hn, cx, cy, rfl, rfl, rfl⟩

/-- **C77 is false of the code.** There is a struct that holds a point of G1, with canonical coordinates, such that
`is_on_curve` answers false, and `double`, `+ itself` and `* 2` return structs that hold no point of the curve at all. -/
theorem C77_double_refuted : ∃ (p : Aff L4) (Q : (curve g1B).Point), HoldsAff fqParams g1B p Q ∧
    Limb.affIsOnCurve fqParams g1BL p = false ∧
    (∀ R, ¬ HoldsProj fqParams g1B (Limb.doubleAffine fqParams g1B3L p) R) ∧
    (∀ R, ¬ HoldsProj fqParams g1B (Limb.doubleProj fqParams g1B3L (Limb.toExtended fqParams p)) R) ∧
    (∀ R, ¬ HoldsProj fqParams g1B (Limb.addAffine fqParams g1B3L p p) R) ∧
    ∃ nafs, frParams.toNafs (frParams.fromU64 2) = some nafs ∧
      ∀ R, ¬ HoldsProj fqParams g1B (Limb.scalarPoint fqParams g1B3L (Limb.toExtended fqParams p) nafs) R := by
  obtain ⟨Q, hQ⟩ := badPoint_holds
  have no {p : Proj L4} (hz : p.z ≠ FieldParams.zero) (h : fqParams.mul (fqParams.mul p.y p.y) p.z ≠
      fqParams.add (fqParams.mul (fqParams.mul p.x p.x) p.x) (fqParams.mul g1BL (fqParams.mul (fqParams.mul p.z p.z) p.z))) :
      ∀ R, ¬ HoldsProj fqParams g1B p R :=
    fun R hR => h (hR.eqn fqParams_valid g1BL_el.1 g1BL_el.2 hz)
  refine ⟨badPoint, Q, hQ, by decide +kernel, no (by decide +kernel) (by decide +kernel),
    no (by decide +kernel) (by decide +kernel), no (by decide +kernel) (by decide +kernel),
    (frParams.toNafs (frParams.fromU64 2)).getD [], by decide +kernel, no (by decide +kernel) (by decide +kernel)⟩

/-- Non-vacuity of the partial theorems: the generator of G1, whose run for the scalar 5 loses no carry. -/
def g1GenL : Aff L4 := ⟨fqParams.one, fqParams.toMontForm ⟨2, 0, 0, 0⟩, false⟩

theorem g1GenL_el : Limb.El fqParams (fqParams.toMontForm ⟨2, 0, 0, 0⟩) g1Gen.y := by
  obtain ⟨h1, h2⟩ := toMontForm_denote fqParams_valid (v := ⟨2, 0, 0, 0⟩) (by decide)
  exact ⟨h1, h2.trans (by decide +kernel)⟩

theorem g1GenL_holds : HoldsAff fqParams g1B g1GenL g1Point := by
  have h : Limb.AEl fqParams g1GenL g1Gen := by
    constructor
    · exact Limb.El.one fqParams_valid
    · exact g1GenL_el
    · exact Eq.refl false
  exact holdsAff_of_el h g1Gen_rep

example : ∀ a ∈ Limb.sqScalar fqParams g1B3L (Limb.toExtended fqParams g1GenL)
    ((frParams.toNafs (frParams.fromU64 5)).getD []) ⟨FieldParams.zero, fqParams.one, FieldParams.zero⟩,
    fqParams.square a = fqParams.mul a a := by decide +kernel

end Kogarashi.Props
