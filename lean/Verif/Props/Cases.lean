import Verif.Props.Point
import Verif.Props.Folding
import Verif.Props.CurveLimb
import Verif.Props.Edwards

/-!
# Concrete cases

Property theorems applied to concrete inputs, so that all hypotheses of each are met at once: the generator of G1, elements of Fr and Fq, a
small satisfied constraint system, a point of a curve over `ZMod 13`.
-/

namespace Kogarashi.Props

open Kogarashi Spec Curve Kogarashi.Field Limbs Nova

/-! ### Prime fields -/

theorem can7 : Canonical frParams (frParams.fromU64 7) := by unfold Canonical; decide +kernel
theorem can9 : Canonical frParams (frParams.fromU64 9) := by unfold Canonical; decide +kernel
theorem exact7 : ∀ x ∈ squaredBy frParams (frParams.fromU64 7) (B256.toBits (B256.littleFermat frParams.p)) frParams.one,
    frParams.square x = frParams.mul x x := by decide +kernel

example := C01_additive_ops frParams_valid can7 can9
example := C02_mul frParams_valid can7 can9
example := C02_roundtrip frParams_valid (v := ⟨2 ^ 64 - 1, 2 ^ 64 - 1, 2 ^ 64 - 1, 2 ^ 64 - 1⟩) (by decide)
example := C03_square_partial frParams_valid can7
example := C04_pow_partial frParams_valid can7 (e := ⟨5, 0, 0, 0⟩) (by decide) (by decide +kernel)
example := C04_invert_partial frParams_valid frParams_prime can7 (by decide +kernel) exact7
example := C04_div_partial frParams_valid frParams_prime can9 can7 (by decide +kernel) exact7
example := C05_to_bytes frParams_valid can7
example := C06_from_u64 frParams_valid (n := 2 ^ 64 - 1) (by norm_num)
example := C07_eq frParams_valid can7 can9
example := C08_to_bits frParams_valid can7
example := C09_naf_partial frParams_valid can7
example := C12_fr_roundtrip can7

/-! ### Points of G1 -/

example := C20_add_affine g1_two g1Gen_rep g1Gen_rep
example := C20_add_mixed g1_two g1Gen_rep (toExtended_rep g1Gen_rep)
example := C20_add_projective g1_two (toExtended_rep g1Gen_rep) (toExtended_rep g1Gen_rep)
example := C20_sum g1_two (.cons (toExtended_rep g1Gen_rep) (.cons (toExtended_rep g1Gen_rep) .nil))
example := C21_double_projective g1_two (toExtended_rep g1Gen_rep)
example := C21_double_affine_partial g1_two (p := g1Gen) rfl g1Gen_rep
example := C22_scalar_mul_affine g1_two frParams_valid can7 g1Gen_rep
example := C22_scalar_mul384_refuted g1_two (toExtended_rep g1Gen_rep) (WeierstrassCurve.Affine.Point.some_ne_zero _)
example := C23_neg (toExtended_rep g1Gen_rep) g1Gen_rep
example := C23_sub_partial g1_two (toExtended_rep g1Gen_rep) (toExtended_rep g1Gen_rep) g1Gen_rep g1Gen_rep
example := C24_eq (toExtended_rep g1Gen_rep) (toExtended_rep g1Gen_rep) g1Gen_rep g1Gen_rep
example := C24_conversions (toExtended_rep g1Gen_rep) g1Gen_rep
example := C25_weierstrass g1_two g1_three g1_b g1Gen.toExtended g1Gen
example := C29_mul_by_x_partial g1_two (toExtended_rep g1Gen_rep)

theorem g1Gen_double_ne : g1Point + g1Point ≠ 0 := by
  intro h
  have hd := doubleProj_rep g1_two (toExtended_rep g1Gen_rep)
  rw [h] at hd
  have : (doubleProj (g1B + g1B + g1B) g1Gen.toExtended).z ≠ 0 := by decide +kernel
  exact this hd

example := C23_mixed_refuted g1_two (toExtended_rep g1Gen_rep) g1Gen_rep g1Gen_double_ne

/-! ### The same on limbs -/

theorem g1GenL_proj : HoldsProj fqParams g1B (Limb.toExtended fqParams g1GenL) g1Point := by
  have h : Limb.AEl fqParams g1GenL g1Gen := by
    constructor
    · exact Limb.El.one fqParams_valid
    · exact g1GenL_el
    · exact Eq.refl false
  exact holds_of_el (Limb.toExtended_el fqParams_valid h) (toExtended_rep g1Gen_rep)

example := C77_double_partial fqParams_valid g1_two g1B3L_el.1 g1B3L_el.2 g1GenL_proj (by unfold SquareLosesCarry; decide +kernel)
example := C77_add_partial fqParams_valid g1_two g1B3L_el.1 g1B3L_el.2 g1GenL_proj g1GenL_proj (by decide +kernel)
example := C77_add_affine_partial fqParams_valid g1_two g1B3L_el.1 g1B3L_el.2 g1GenL_holds g1GenL_holds (by decide +kernel)
example := C77_scalar_partial fqParams_valid g1_two g1B3L_el.1 g1B3L_el.2 frParams_valid can7 g1GenL_proj
example := C77_to_affine_partial fqParams_valid g1GenL_proj (by decide +kernel)
example := C77_on_curve_affine_partial fqParams_valid g1BL_el.1 g1BL_el.2 g1GenL_holds.1 g1GenL_holds.2.1 (by unfold SquareLosesCarry; decide +kernel)

/-! ### Circuits -/

example := C32_square demo_wf demo_row
example := C32_add demo_wf demo_row demo_row
example := C32_enforce_eq_constant demo_wf demo_row 12
example := C32_conditional_enforce_equal demo_wf demo_row demo_row (s := .wit 2) (by decide : 2 < 5)
example := C32_conditional_select demo_wf demo_row demo_row (s := .wit 2) (by decide : 2 < 5)
example := C34_to_bits_partial (p := 13) (nb := 4) (n := 3) (by norm_num) (by norm_num) (by norm_num) (by norm_num) (by norm_num) demo_wf demo_row
example := C34_to_bits_refuted (p := 13) (nb := 4) (n := 3) (m := 7) (by norm_num) (by norm_num) (by norm_num) (by norm_num) (by norm_num)
  (by norm_num) demo_wf demo_row demo_sat
example := C35_is_eq_refuted demo_wf demo_row demo_row demo_sat 7
example := C35_honest_partial demo_wf demo_row demo_row (a := .wit 2) (b := .wit 3) (by decide : 2 < 5) (by decide : 3 < 5)
example := C35_boolean_refuted demo_wf (a := .wit 2) (b := .wit 3) (by decide : 2 < 5) (by decide : 3 < 5) 1 demo_sat 7
example := C36_inputize_refuted demo_wf demo_row demo_sat 7
example := C36_inputize_partial demo_wf demo_row
example := C37_add (b := (2 : ZMod 13)) (by decide) demo_noOrderTwo demo_wf demoPt_ok demoPt_ok
example := C37_double (b := (2 : ZMod 13)) (by decide) demo_noOrderTwo demo_wf demoPt_ok
example := C37_select demo_wf demoPt_ok demoPt_ok (s := .wit 2) (by decide : 2 < 5)
example := C37_select_identity (b := (2 : ZMod 13)) demo_wf demoPt_ok (s := .wit 2) (by decide : 2 < 5)
example := C37_descale_partial demo_wf demoPt_ok demoPt_rep
example := C37_assert_equal_public demo_wf demoPt_ok demoPt_rep
example := C37_allocate (b := (2 : ZMod 13)) demo_wf (a := ⟨1, 4, false⟩) (P := demoPoint) ⟨rfl, rfl, rfl⟩ (fun h => by cases h)
example := C38_scalar_partial (m := 13) (b := 2) (by decide) demo_noOrderTwo (nb := 4) (by norm_num) (by norm_num) (by norm_num) demo_wf demoPt_ok
  demo_row

/-! ### Folding -/

/-- The cross term of the two pairs of the demonstration, and the commitment to it. -/
def foldCross : List (ZMod 13) := (crossTerm foldShape (RInst.ofInst foldInst : RInst (ZMod 13) (ZMod 13)) (RWit.ofWit foldShape demo.w) foldInst2 foldW2).getD []
def foldT : ZMod 13 := commit foldCk foldCross

instance : Fact (Nat.Prime 17) := ⟨by norm_num⟩

/-- C52: three accepted folds of the same two instances, with openings of equal length: `h` of `C52_extraction`. -/
theorem three_folds : ∀ r ∈ [(1 : ZMod 13), 2, 3], ∃ i' w', (RInst.ofInst foldInst).fold foldInst2 r foldT = some i' ∧
    isSatRelaxed foldShape i' w' = some true ∧ w'.w.length = demo.w.length ∧ commit foldCk w'.w = i'.commitW ∧
    commit foldCk w'.e = i'.commitE := by
  intro r hr
  have h : ∀ r ∈ [(1 : ZMod 13), 2, 3], ((RInst.ofInst foldInst).fold foldInst2 r foldT).isSome ∧
      ((RWit.ofWit foldShape demo.w).fold foldW2 r foldCross).isSome ∧
      ∀ i' ∈ (RInst.ofInst foldInst).fold foldInst2 r foldT, ∀ w' ∈ (RWit.ofWit foldShape demo.w).fold foldW2 r foldCross,
        isSatRelaxed foldShape i' w' = some true ∧ w'.w.length = demo.w.length ∧ commit foldCk w'.w = i'.commitW ∧
        commit foldCk w'.e = i'.commitE := by decide +kernel
  obtain ⟨h1, h2, h3⟩ := h r hr
  obtain ⟨i', e1⟩ := Option.isSome_iff_exists.mp h1
  obtain ⟨w', e2⟩ := Option.isSome_iff_exists.mp h2
  exact ⟨i', w', e1, h3 i' e1 w' e2⟩

example := C52_extraction (S := foldShape) (ck := foldCk) (i1 := RInst.ofInst foldInst) (i2 := foldInst2) (T := foldT) (n := demo.w.length)
  (ra := 1) (rb := 2) (rc := 3) (by decide) (by decide) (by decide) (by decide) (by decide) (by decide) three_folds
example := C49_linear foldCk (a := demo.w) (b := foldW2) rfl 7
example := C55_round_trip (p := 17) (q := 13) (by norm_num) (by norm_num) (x := 5) (by decide)
example := C55_round_trip_only (p := 17) (q := 13) (by norm_num) (by norm_num) (x := 15) (by decide)
example := C57_encode (p := 13) (w := 2) (k := 4) (n := 200) (by norm_num) (by norm_num) (by norm_num)
example := C57_decode (p := 13) (w := 2) (by norm_num) [0, 2, 0, 3] (by decide)

end Kogarashi.Props
