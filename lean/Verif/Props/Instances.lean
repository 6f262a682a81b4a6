import Verif.Props.BigNatSigned
import Verif.Props.BigNatSound
import Verif.Props.AffineBn
import Verif.Props.CodeVerify
import Verif.Props.Groth16Struct
import Verif.Props.Dense
import Verif.Props.EdwardsGroup
import Verif.Props.FieldExtra
import Verif.Props.FieldMisc
import Verif.Props.Folding
import Verif.Props.Groth16StructMore
import Verif.Props.Groth16StructForgery
import Verif.Props.GroupTrait
import Verif.Props.Hash
import Verif.Props.Msm
import Verif.Props.NafWeight
import Verif.Props.Ops
import Verif.Props.Order
import Verif.Props.Orders
import Verif.Props.Pedersen
import Verif.Props.Poly
import Verif.Props.PrimeField
import Verif.Props.R1cs
import Verif.Props.Rare
import Verif.Props.Raw
import Verif.Props.Scale
import Verif.Props.Small
import Verif.Props.Wide
import Verif.Props.Words

/-!
# Theorems applied to concrete inputs

The other files of this directory show beside each group of theorems that its hypotheses are met. Here
single theorems are applied to concrete inputs, with every hypothesis discharged.
-/

namespace Kogarashi.Props

open Kogarashi Spec Limbs Kogarashi.Field Curve Nova Groth16 Tower

set_option exponentiation.threshold 1600

/-! ### Fields -/

example := C83_windows_partial frParams_valid (r_canonical frParams_valid)
example := C83_wide_windows_refuted fqParams_valid (r_canonical fqParams_valid)
example := C84_bitwise frParams_valid (r_canonical frParams_valid) (r2_canonical frParams_valid)
example := C84_base4_digits fqParams_valid (r2_canonical fqParams_valid)
example := C84_sum_product (items := [frParams.one, frParams.one]) frParams_valid
  (by intro x hx; simp only [List.mem_cons, List.not_mem_nil, or_false, or_self] at hx; exact hx ▸ r_canonical frParams_valid)
example := C11_ff_views fqParams_valid (r_canonical fqParams_valid) (r2_canonical fqParams_valid)
example := C66_pow_of_2_width (n := 256) (le_refl _)
example := C67_is_odd (r_canonical frParams_valid)
example := C67_fq2_lexicographically_largest (r_canonical fqParams_valid) (r2_canonical fqParams_valid)
example := C113_injective frParams_valid (r_canonical frParams_valid) (r_canonical frParams_valid) rfl
example := C113_384 (v := ⟨7, 1, 2, 3, 0, 2 ^ 63⟩) (by decide)
example := C05_bytes_roundtrip frParams_valid
example := C11_ff_partial frParams_valid frParams_prime
example := C12_roundtrip_partial (r_canonical fqParams_valid)
example := C03_square384_partial (a := ⟨7, 1, 2, 3, 0, 0⟩) (p := Wide.blsParams.p) (inv := Wide.blsParams.inv) (by decide) (by decide)
example := C04_limb_one fqParams_valid
example := C10_pow_vartime_partial (a := frParams.fromU64 3) (e := ⟨5, 0, 0, 0⟩) frParams_valid
  (by unfold Canonical; decide +kernel) (by decide) (by decide +kernel)
example := C95_ring blsParams_valid (a := ⟨7, 1, 2, 3, 0, 0⟩) (b := ⟨1, 2, 3, 4, 5, 6⟩)
  (by unfold Wide.Canonical; decide +kernel) (by unfold Wide.Canonical; decide +kernel)
example := C95_unique blsParams_valid
example := C95_convert blsParams_valid
example := C95_bits (v := ⟨7, 1, 2, 3, 0, 2 ^ 63⟩) (by decide)
example := C95_pow_partial (a := ⟨7, 1, 2, 3, 0, 0⟩) (e := ⟨13, 0, 0, 0, 0, 0⟩) blsParams_valid
  (by unfold Wide.Canonical; decide +kernel) (by decide) (by decide +kernel)
example := C108_square_many fq254
example := C108_random fr254
example := C78_fq2_square_partial ⟨1, 1⟩ ⟨by unfold SquareLosesCarry; decide +kernel, by unfold SquareLosesCarry; decide +kernel⟩

/-! ### Curves -/

example := C76_g1_no_torsion g1Gen_rep (r_canonical frParams_valid)
example := C76_grumpkin_no_torsion grumpkinGen_rep (r_canonical fqParams_valid)
example := C42_msm g1_two frParams_valid (bases := [g1Gen, Aff.identity]) (Ps := [g1Point, 0])
  (.cons g1Gen_rep (.cons rfl .nil)) [frParams.one, frParams.one]
  (by intro x hx; simp only [List.mem_cons, List.not_mem_nil, or_false, or_self] at hx; exact hx ▸ r_canonical frParams_valid) (by norm_num)
example := C42_digit frParams_valid (r2_canonical frParams_valid) (c := 8) (by norm_num) 31
example := C24_normal_form (toExtended_rep g1Gen_rep) (toExtended_rep g1Gen_rep)
example := C21_double_affine_identity_refuted (b := g1B) g1_two
example := C107_invert_refuted (b := g1B) (d := (3 : FqV)) (a := Aff.identity) (p := Proj.identity) rfl rfl
example := C107_generators_refuted (E := FqV) g1_two
example := C27_round_trip ⟨⟨1, 2 ^ 64 - 1, 3, 4⟩, ⟨5, 6, 7, 8⟩, true⟩ (by decide) (by decide) [9]
example := C27_truncated ⟨⟨1, 2 ^ 64 - 1, 3, 4⟩, ⟨5, 6, 7, 8⟩, true⟩ (by decide) (by decide) 70 (by norm_num) (by norm_num)
example := C99_points_refuted (S := frParams) g1_two g1Gen_rep (toExtended_rep g1Gen_rep) (r := true) (s := false) (.inl rfl)
example := C99_field_partial (o := .sub) (r := true) (s := true) frParams_valid (r_canonical frParams_valid) (r2_canonical frParams_valid) rfl (by simp)
example := C86_wire_order_partial 3 5 (.inst 3) (.wit 5) (.inl rfl) (.inr rfl)
example := C97_covers_error 1000 (by norm_num)

/-! ### Transforms, vectors and circuits -/

example := C106_laws (n := 2) (a := [1, (2 : ℚ)]) (b := [3, 4]) (c := [5, 6]) rfl rfl rfl 7 8
example := C41_sub_partial [1, 2, 3] [4, (1 : ℚ)] (by decide)
example := C68_blind_partial [1, 2, 3, (4 : ℚ)] [5, 6] (by decide)
example := C69_commit_partial 2 (3 : ℚ) [1, 2, 3, 4] rfl
example := C40_bn254 28 (by norm_num) (le_refl _)
example (d : List FrV) (hd : d.length = 2 ^ 3) : ∃ f, dft f (idft f d) = d := by
  obtain ⟨⟨f, h⟩, -⟩ := C40_bn254 3 (by norm_num) (by norm_num)
  exact ⟨f, C40_dft_idft h d hd⟩
example : ∃ f : Fft FrV, polyOf (idft f (dft f [1, 2, 3])) = polyOf [1, 2, 3] := by
  obtain ⟨⟨f, h⟩, -⟩ := C40_bn254 3 (by norm_num) (by norm_num)
  exact ⟨f, (C40_idft_dft_partial h [1, 2, 3] (by norm_num)).1⟩
example := C30_constant (a := Row.ofConst (3 : FrV)) (c := 3) (by decide +kernel) (x := [1]) (w := [5]) rfl
example := C31_is_sat (cs := (CS.init : CS ℚ)) (by simp [CS.init])
example := C57_f_to_nat (p := frParams.m) (by decide +kernel)
example := C57_negative (p := frParams.m) (w := 64) (k := 4) (n := -5) (by norm_num) (by decide +kernel) (by norm_num)
example := C57_panics (p := frParams.m) 64 4 (2 ^ 200 + 7) (by norm_num)
example := C55_value (p := frParams.m) (q := fqParams.m) (by decide +kernel)
example := C49_beyond_key (F := ℚ) [(2 : ℚ), 5] [1, 3] [7] [8, 9] rfl

example (fp : CarryBits) : ∃ (cs : CS FrV) (a b m o : BigNat FrV) (c : CS FrV), bnMultMod fp 254 a b m cs = some (o, c) ∧
    Encodes c o ((2 ^ 200 + 7) * (2 ^ 255 + 3) % fqParams.m) := by
  obtain ⟨cs, a, b, m, wf, hs, ha, hb, hm, h1, h2, h3⟩ := C58_nonvacuous
  obtain ⟨o, c, e, -, h⟩ := C58_mult_mod fp h2 h3 wf hs ha hb hm h1
  exact ⟨cs, a, b, m, o, c, e, h⟩
example (fp : CarryBits) : ∃ (cs : CS FrV) (b m o : BigNat FrV) (c : CS FrV), bnRedMod fp 254 b m cs = some (o, c) ∧
    Encodes c o ((2 ^ 255 + 3) % fqParams.m) := by
  obtain ⟨cs, a, b, m, wf, hs, ha, hb, hm, h1, h2, h3⟩ := C58_nonvacuous
  obtain ⟨o, c, e, -, h⟩ := (C58_red_mod fp h2 h3 wf hs hb ha hm h1).1
  exact ⟨cs, b, m, o, c, e, h⟩
example (fp : CarryBits) : ∃ (cs : CS FrV) (b m o : BigNat FrV) (c : CS FrV) (z : Assignment FrV),
    bnRedMod fp 254 b m cs = some (o, c) ∧ Satisfies z c ∧ numberOf z o = 42 := by
  obtain ⟨cs, a, b, m, wf, hs, ha, hb, hm, h1, h2, h3⟩ := C58_nonvacuous
  obtain ⟨o, c, z, e, h, -, h'⟩ := C89_red_mod_refuted fp h2 h3 wf hs hb hm h1 (R := 42) (by norm_num)
  exact ⟨cs, b, m, o, c, z, e, h, h'⟩

/-! ### Pairing and Groth16 -/

example : ∃ p3 a b, AffRep g1B p3 (g1Point + g1Point) ∧ pairing g1Gen g2Gen = some a ∧ pairing p3 g2Gen = some (a * b) ∧ a = b := by
  obtain ⟨p3, h3⟩ := aff_exists g1B (g1Point + g1Point)
  obtain ⟨a, b, e1, e2, e3⟩ := C74_add_left g1Gen_rep g1Gen_rep h3 g2Gen_rep g2_order
  exact ⟨p3, a, b, h3, e1, e3, Option.some.inj (e1.symm.trans e2)⟩
example : ∃ q3 a b, AffRep g2B q3 (g2Point + g2Point) ∧ pairing g1Gen g2Gen = some a ∧ pairing g1Gen q3 = some (a * b) ∧ a = b := by
  obtain ⟨q3, h3⟩ := aff_exists g2B (g2Point + g2Point)
  obtain ⟨a, b, e1, e2, e3⟩ := C74_add_right g1Gen_rep g2Gen_rep g2Gen_rep h3 g2_order g2_order
  exact ⟨q3, a, b, h3, e1, e3, Option.some.inj (e1.symm.trans e2)⟩

/-- A prover on BN254 that meets the premise of `C102_bn254_partial`, for the factorisation `2 * 3`. -/
example : ∃ P : AffineProver FrV, (2 * 2 ^ 1 + 6) * frParams.m ^ 4 <
      Nat.card {t // AcceptingBn g1Point g2Base (prodCs (2 : FrV) 3) P [frParams.fromU64 6] t} ∧
    Satisfies (assign ([frParams.fromU64 6].map (denote frParams)) P.c.l) (prodCs (2 : FrV) 3) := by
  have hc : Canonical frParams (frParams.fromU64 6) := by unfold Canonical; decide +kernel
  have hv : denote frParams (frParams.fromU64 6) = (2 * 3 : FrV) := by
    have := (toMontForm_denote frParams_valid (v := ⟨6, 0, 0, 0⟩) (by decide)).2
    refine this.trans ?_
    norm_num [L4.val]
  have hi : ∀ i ∈ [frParams.fromU64 6], Canonical frParams i := fun i h => List.mem_singleton.mp h ▸ hc
  obtain ⟨P, -, h⟩ := C102_bn254_many g1Point_ne g2Base_ne (prodCs_wf (2 : FrV) 3) (k := 1) (prodCs_m _ _) (le_refl _) (by decide)
    (prodCs_sat (2 : FrV) 3) hi (by rw [List.map_singleton, hv]; rfl)
  have hm : (2 * 2 ^ 1 + 6) * frParams.m ^ 4 < (frParams.m - 2 ^ 1) * (frParams.m - 1) ^ 2 * frParams.m ^ 2 := by decide +kernel
  exact ⟨P, hm.trans_le h, C102_bn254_partial g1Point_ne g2Base_ne (prodCs_wf _ _) (prodCs_m _ _) P hi (hm.trans_le h)⟩

/-! ### Edwards curves -/

example := C101_group C101_jubjub.2.2.1 C101_jubjub.2.2.2.1 C101_jubjub.2.2.2.2.1 C101_jubjub.2.2.2.2.2.1 C101_jubjub.2.2.2.2.2.1
  C101_jubjub.2.2.2.2.2.1
example := C101_random C101_jubjub.2.2.1 C101_jubjub.2.2.2.1 C101_jubjub.2.2.2.2.1 Kogarashi.Edwards.blsScalar_valid C101_jubjub.2.2.2.2.2.1
  C101_jubjub.2.2.2.2.2.2.1 (rand := fun i => i % 2 ^ 64) (fun i => Nat.mod_lt _ (by norm_num))
example := C26_double_affine C101_jubjub.2.2.1 C101_jubjub.2.2.2.1 C101_jubjub.2.2.2.2.1 C101_jubjub.2.2.2.2.2.1
example := C26_double_extended C101_jubjub.2.2.1 C101_jubjub.2.2.2.1 C101_jubjub.2.2.2.2.1 C101_jubjub.2.2.2.2.2.1
  C101_jubjub.2.2.2.2.2.2.1
example := C26_affine C101_jubjub.2.2.1 C101_jubjub.2.2.2.1 C101_jubjub.2.2.2.2.1 C101_jubjub.2.2.2.2.2.1 Kogarashi.Edwards.jubjubGen Kogarashi.Edwards.jubjubGen

/-! ### Encodings -/

example := C81_proof_layout scaleDemo_typed.1
example := C82_typed_partial (C81_proof_roundtrip scaleDemo_typed.1 scaleDemo_typed.2 [1, 2])

end Kogarashi.Props
