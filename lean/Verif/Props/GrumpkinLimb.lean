import Verif.Props.Rare

/-!
# Properties C77 and C108 on Grumpkin

The other curve of the cycle, with the same functions over `Fr`.
-/

set_option exponentiation.threshold 600

namespace Kogarashi.Props

open Kogarashi Spec Curve Kogarashi.Field Limbs

/-- `PARAM_B` of Grumpkin (`grumpkin/src/params.rs` lines 13-18). -/
def grumpkinBL : L4 := ⟨0xdd7056026000005a, 0x223fa97acb319311, 0xcc388229877910c0, 0x034394632b724eaa⟩
/-- `PARAM_B3` of Grumpkin (`grumpkin/src/params.rs` line 19). -/
def grumpkinB3L : L4 := frParams.add (frParams.add grumpkinBL grumpkinBL) grumpkinBL

theorem grumpkinBL_el : Limb.El frParams grumpkinBL grumpkinB := by
  have h : denote frParams grumpkinBL = grumpkinB := grumpkin_params.1
  exact ⟨by unfold Canonical; decide +kernel, h⟩

theorem grumpkinB3L_el : Limb.El frParams grumpkinB3L (grumpkinB + grumpkinB + grumpkinB) :=
  (grumpkinBL_el.add frParams_valid grumpkinBL_el).add frParams_valid grumpkinBL_el

/-- A point of Grumpkin whose `y`, as limbs, loses a carry when squared. -/
def badGrumpkin : Aff L4 :=
  ⟨⟨0xc4685bc14ef1d868, 0x1a58300694bf29eb, 0x7a0d35a9ff7f31fd, 0x27a937c18e74e521⟩,
   ⟨1, 0x8000000000000001, 0xffffffffffffffff, 1⟩, false⟩

theorem badGrumpkin_holds : ∃ Q, HoldsAff frParams grumpkinB badGrumpkin Q := by
  have cx : Canonical frParams badGrumpkin.x := by unfold Canonical; decide +kernel
  have cy : Canonical frParams badGrumpkin.y := by unfold Canonical; decide +kernel
  have ex : Limb.El frParams badGrumpkin.x (denote frParams badGrumpkin.x) := ⟨cx, rfl⟩
  have ey : Limb.El frParams badGrumpkin.y (denote frParams badGrumpkin.y) := ⟨cy, rfl⟩
  have e : denote frParams badGrumpkin.y * denote frParams badGrumpkin.y =
      denote frParams badGrumpkin.x * denote frParams badGrumpkin.x * denote frParams badGrumpkin.x + grumpkinB :=
    ((ey.mul frParams_valid ey).inj frParams_valid
      (((ex.mul frParams_valid ex).mul frParams_valid ex).add frParams_valid grumpkinBL_el)).mp (by decide +kernel)
  have hn := nonsingular_of_eq grumpkin_two grumpkin_three grumpkin_b (x := denote frParams badGrumpkin.x) (y := denote frParams badGrumpkin.y)
    (by linear_combination e)
  exact ⟨.some _ _ hn, cx, cy, rfl, rfl, rfl⟩

/-- **C77 is false of the code on Grumpkin too.** There is a struct that holds a point of Grumpkin, with canonical coordinates, such that
`is_on_curve` answers false, and `double`, `+ itself` and `* 2` return structs that hold no point of the curve at all. -/
theorem C77_grumpkin_refuted : ∃ (p : Aff L4) (Q : (curve grumpkinB).Point), HoldsAff frParams grumpkinB p Q ∧
    Limb.affIsOnCurve frParams grumpkinBL p = false ∧
    (∀ R, ¬ HoldsProj frParams grumpkinB (Limb.doubleAffine frParams grumpkinB3L p) R) ∧
    (∀ R, ¬ HoldsProj frParams grumpkinB (Limb.doubleProj frParams grumpkinB3L (Limb.toExtended frParams p)) R) ∧
    (∀ R, ¬ HoldsProj frParams grumpkinB (Limb.addAffine frParams grumpkinB3L p p) R) ∧
    ∃ nafs, fqParams.toNafs (fqParams.fromU64 2) = some nafs ∧
      ∀ R, ¬ HoldsProj frParams grumpkinB (Limb.scalarPoint frParams grumpkinB3L (Limb.toExtended frParams p) nafs) R := by
  obtain ⟨Q, hQ⟩ := badGrumpkin_holds
  have no {p : Proj L4} (hz : p.z ≠ FieldParams.zero) (h : frParams.mul (frParams.mul p.y p.y) p.z ≠
      frParams.add (frParams.mul (frParams.mul p.x p.x) p.x) (frParams.mul grumpkinBL (frParams.mul (frParams.mul p.z p.z) p.z))) :
      ∀ R, ¬ HoldsProj frParams grumpkinB p R :=
    fun R hR => h (hR.eqn frParams_valid grumpkinBL_el.1 grumpkinBL_el.2 hz)
  refine ⟨badGrumpkin, Q, hQ, by decide +kernel, no (by decide +kernel) (by decide +kernel),
    no (by decide +kernel) (by decide +kernel), no (by decide +kernel) (by decide +kernel),
    (fqParams.toNafs (fqParams.fromU64 2)).getD [], by decide +kernel, no (by decide +kernel) (by decide +kernel)⟩

/-- **C108**, points of Grumpkin: for all but a fraction `2^-51` of them `is_on_curve` accepts the affine point and `double` doubles it. -/
theorem C108_grumpkin_points : ∃ bad : Finset (L4 × L4), bad.card * 2 ^ 51 ≤ Nat.card (curve grumpkinB).Point ∧
    ∀ (p : Aff L4) (Q : (curve grumpkinB).Point), HoldsAff frParams grumpkinB p Q → p.inf = false → (p.x, p.y) ∉ bad →
      Limb.affIsOnCurve frParams grumpkinBL p = true ∧ HoldsProj frParams grumpkinB (Limb.doubleAffine frParams grumpkinB3L p) (Q + Q) := by
  obtain ⟨bad, hb, h⟩ := points_few fr254 grumpkin_two grumpkinBL_el grumpkinB3L_el
  refine ⟨bad, ?_, h⟩
  rw [grumpkin_card]
  exact scale_le hb (le_trans (by norm_num) fq254.low)

/-- **C108**, addition on Grumpkin: for all but a fraction `2^-49` of the pairs of points, `+` adds the affine points. -/
theorem C108_grumpkin_add : ∃ bad : Finset ((L4 × L4) × (L4 × L4)), bad.card * 2 ^ 49 ≤ Nat.card (curve grumpkinB).Point ^ 2 ∧
    ∀ (p q : Aff L4) (Q R : (curve grumpkinB).Point), HoldsAff frParams grumpkinB p Q → HoldsAff frParams grumpkinB q R →
      ((p.x, p.y), (q.x, q.y)) ∉ bad → HoldsProj frParams grumpkinB (Limb.addAffine frParams grumpkinB3L p q) (Q + R) := by
  obtain ⟨bad, hb, h⟩ := adds_few fr254 grumpkin_two grumpkinB3L_el
  refine ⟨bad, ?_, h⟩
  rw [grumpkin_card, pow_two]
  exact scale_le hb (le_trans (by norm_num) (Nat.mul_le_mul fq254.low fq254.low))

/-- Points of Grumpkin exist, among them one on which the code is wrong, which is then among the exceptions. -/
example (bad : Finset (L4 × L4)) (h : ∀ (p : Aff L4) (Q : (curve grumpkinB).Point), HoldsAff frParams grumpkinB p Q → p.inf = false →
    (p.x, p.y) ∉ bad → Limb.affIsOnCurve frParams grumpkinBL p = true) : (badGrumpkin.x, badGrumpkin.y) ∈ bad := by
  obtain ⟨Q, hQ⟩ := badGrumpkin_holds
  by_contra hn
  have h1 := h badGrumpkin Q hQ rfl hn
  have h2 : Limb.affIsOnCurve frParams grumpkinBL badGrumpkin = false := by decide +kernel
  rw [h2] at h1
  cases h1

end Kogarashi.Props
