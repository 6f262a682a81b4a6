import Verif.Tower.Ate
import Mathlib.GroupTheory.OrderOfElement

/-!
# The pairing is the optimal ate pairing (lemmas)
-/

set_option linter.constructorNameAsVariable false

namespace Kogarashi.Tower

open Spec Curve WeierstrassCurve.Affine Kogarashi.Field Limbs Props

/-! ### An eigenvalue argument in any group -/

section group
variable {G : Type} [AddCommGroup G] (φ : G →+ G) {A : G} {r : Int}

theorem excl_one (hr : ∀ k : Int, k • A = 0 ↔ r ∣ k) (hc : φ (φ (φ (φ A))) + -φ (φ A) + A = 0) {c : Int}
    (h : φ A = c • A) : r ∣ c ^ 4 - c ^ 2 + 1 := by
  rw [← hr]
  simp only [h, map_zsmul] at hc
  rw [← hc]
  module

theorem excl_two (hr : ∀ k : Int, k • A = 0 ↔ r ∣ k) (hc : φ (φ (φ (φ A))) + -φ (φ A) + A = 0) {m e : Int}
    (he : e * e = 1) (h : φ (φ A) = e • (m • A + φ A)) :
    r ∣ 4 * e * m ^ 3 - (m ^ 2 + 1) * (m ^ 2 + 2 * e * m + 1) := by
  rw [← hr]
  have h3 : φ (φ (φ A)) = e • (m • φ A + φ (φ A)) := by
    conv_lhs => rw [h]
    simp only [map_add, map_zsmul]
  have h4 : φ (φ (φ (φ A))) = e • (m • φ (φ A) + φ (φ (φ A))) := by
    conv_lhs => rw [h3]
    simp only [map_add, map_zsmul]
  rw [h4, h3, h] at hc
  generalize hB : φ A = B at *
  -- (m² + 1) A + 2 m B = 0
  have k1 : (m ^ 2 + 1) • A + (2 * m) • B = 0 := by
    rw [← hc]
    match_scalars
    · linear_combination (-m * m - m * e) * he
    · linear_combination (-m - m - e) * he
  have k2 := congrArg φ k1
  simp only [map_add, map_zsmul, map_zero, hB] at k2
  rw [h] at k2
  have e1 : (4 * e * m ^ 3 - (m ^ 2 + 1) * (m ^ 2 + 2 * e * m + 1)) • A =
      (2 * m) • ((m ^ 2 + 1) • B + (2 * m) • e • (m • A + B)) - (m ^ 2 + 2 * e * m + 1) • ((m ^ 2 + 1) • A + (2 * m) • B) := by
    module
  rw [e1, k1, k2]
  simp

end group

/-! ### The Frobenius map on untwisted points -/

/-- `G2_PARAM_B` as an element of `Fq2` (`bn254/src/params.rs` lines 44-57): the constants of that file are
converted by `to_mont_form`, so that the limbs are those of the residue. -/
def g2B : Fq2 FqV :=
  ⟨((⟨0x3267e6dc24a138e5, 0xb5b4c5e559dbefa3, 0x81be18991be06ac3, 0x2b149d40ceb8aaae⟩ : L4).val : FqV),
    ((⟨0xe4a2bd0685c315d2, 0xa74fa084e52d1852, 0xcd2cafadeed8fdf4, 0x009713b03af0fed4⟩ : L4).val : FqV)⟩

theorem g2B_mul_xi : g2B * Fq2.xi = 3 := by decide +kernel

theorem twist_b : (3 : Fq12 FqV) = iota g2B * Fq12.w ^ 6 := by
  have e : (Fq12.w : Fq12 FqV) ^ 6 = iota Fq2.xi := by
    have : (Fq12.w : Fq12 FqV) ^ 6 = (Fq12.w ^ 2) ^ 3 := by rw [← pow_mul]
    rw [this, Fq12.w_sq, ← map_pow, Fq6.v_cube]; rfl
  rw [e, ← map_mul, g2B_mul_xi, map_ofNat]

/-- The untwisting map. -/
noncomputable def psi : (curve g2B).Point →+ (curve (3 : Fq12 FqV)).Point := scale iota w_ne_zero twist_b

/-- The Frobenius endomorphism. -/
noncomputable def frob : (curve (3 : Fq12 FqV)).Point →+ (curve (3 : Fq12 FqV)).Point :=
  scale (frobenius (Fq12 FqV) qN) one_ne_zero (by rw [map_ofNat, one_pow, mul_one])

theorem iota_eq (a : Fq2 FqV) : iota a = Fq12.of (Fq6.of a) := rfl

theorem c1_sq : frobFq12C1 1 ^ 2 = frobFq6C1 1 := by rw [pow_two]; decide +kernel
theorem c1_cube : frobFq12C1 1 ^ 3 = xiToQMinus1Over2 := by rw [pow_succ, pow_two]; decide +kernel

theorem frob_x (a : Fq2 FqV) : (iota a * Fq12.w ^ 2) ^ qN = iota (a.frobeniusMap * frobFq6C1 1) * Fq12.w ^ 2 := by
  rw [mul_pow, ← pow_mul, mul_comm 2 qN, pow_mul, w_pow_q, ← iota_eq, mul_pow, ← map_pow, ← map_pow, c1_sq, map_mul,
    Fq2.frobeniusMap_eq, mul_assoc]

theorem frob_y (a : Fq2 FqV) : (iota a * Fq12.w ^ 3) ^ qN = iota (a.frobeniusMap * xiToQMinus1Over2) * Fq12.w ^ 3 := by
  rw [mul_pow, ← pow_mul, mul_comm 3 qN, pow_mul, w_pow_q, ← iota_eq, mul_pow, ← map_pow, ← map_pow, c1_cube, map_mul,
    Fq2.frobeniusMap_eq, mul_assoc]

theorem fq2_two : (2 : Fq2 FqV) ≠ 0 := by decide +kernel
theorem fq2_three : (3 : Fq2 FqV) ≠ 0 := by decide +kernel
theorem g2B_ne : g2B ≠ 0 := by decide +kernel

theorem frobConst : (frobFq6C1 1) ^ 3 = xiToQMinus1Over2 ^ 2 ∧ g2B.frobeniusMap * frobFq6C1 1 ^ 3 = g2B := by
  rw [pow_succ, pow_two, pow_two]; decide +kernel

theorem Fq2.frobeniusMap_add (a b : Fq2 FqV) : (a + b).frobeniusMap = a.frobeniusMap + b.frobeniusMap := by
  rw [Fq2.frobeniusMap_eq, Fq2.frobeniusMap_eq, Fq2.frobeniusMap_eq, add_pow_char]

theorem Fq2.frobeniusMap_pow (a : Fq2 FqV) (n : Nat) : (a ^ n).frobeniusMap = a.frobeniusMap ^ n := by
  rw [Fq2.frobeniusMap_eq, Fq2.frobeniusMap_eq, ← pow_mul, ← pow_mul, mul_comm]

theorem Fq2.frobeniusMap_twice (a : Fq2 FqV) : a.frobeniusMap.frobeniusMap = a := by
  ext <;> simp [Fq2.frobeniusMap, Fq2.conjugate]

theorem frob_ns {x y : Fq2 FqV} (h : (curve g2B).Nonsingular x y) :
    (curve g2B).Nonsingular (x.frobeniusMap * frobFq6C1 1) (y.frobeniusMap * xiToQMinus1Over2) := by
  apply nonsingular_of_eq fq2_two fq2_three g2B_ne
  have e := congrArg Fq2.frobeniusMap (show y ^ 2 = x ^ 3 + g2B by have := eqn h; linear_combination this)
  rw [Fq2.frobeniusMap_add, Fq2.frobeniusMap_pow, Fq2.frobeniusMap_pow] at e
  obtain ⟨k1, k2⟩ := frobConst
  generalize frobFq6C1 1 = γ at *
  generalize xiToQMinus1Over2 = δ at *
  generalize x.frobeniusMap = x' at *
  generalize y.frobeniusMap = y' at *
  generalize g2B.frobeniusMap = c at *
  linear_combination γ ^ 3 * e - y' ^ 2 * k1 + k2

theorem frob_psi {x y : Fq2 FqV} (h : (curve g2B).Nonsingular x y) :
    frob (psi (Point.some x y h)) = psi (Point.some _ _ (frob_ns h)) := by
  unfold frob psi
  rw [scale_some, scale_some, scale_some]
  apply some_congr
  · rw [one_pow, mul_one, frobenius_def, frob_x]
  · rw [one_pow, mul_one, frobenius_def, frob_y]

theorem twiceConst : (frobFq6C1 1).frobeniusMap * frobFq6C1 1 = frobFq6C1 2 ∧
    xiToQMinus1Over2.frobeniusMap * xiToQMinus1Over2 = -1 := by decide +kernel

theorem omega : frobFq6C1 2 ^ 2 + frobFq6C1 2 + 1 = 0 := by rw [pow_two]; decide +kernel

theorem omega_cube : frobFq6C1 2 ^ 3 = 1 := by
  have h := omega
  linear_combination (frobFq6C1 2 - 1) * h

theorem omega_ns {x y : Fq2 FqV} (h : (curve g2B).Nonsingular x y) :
    (curve g2B).Nonsingular (x * frobFq6C1 2) y := by
  apply nonsingular_of_eq fq2_two fq2_three g2B_ne
  have := eqn h
  rw [mul_pow, omega_cube]
  linear_combination this

theorem frob_frob_psi {x y : Fq2 FqV} (h : (curve g2B).Nonsingular x y) :
    frob (frob (psi (Point.some x y h))) = -psi (Point.some _ _ (omega_ns h)) := by
  rw [frob_psi, frob_psi, ← map_neg, Point.neg_some]
  refine congrArg psi (some_congr ?_ ?_)
  · rw [Fq2.frobeniusMap_mul, Fq2.frobeniusMap_twice, mul_assoc, twiceConst.1]
  · rw [Fq2.frobeniusMap_mul, Fq2.frobeniusMap_twice, mul_assoc, twiceConst.2, negY_curve, mul_neg, mul_one]

/-- The twelfth cyclotomic polynomial of the Frobenius map kills untwisted points. -/
theorem frob_char (Q : (curve g2B).Point) :
    frob (frob (frob (frob (psi Q)))) + -frob (frob (psi Q)) + psi Q = 0 := by
  cases Q with
  | zero => change frob (frob (frob (frob (psi 0)))) + -frob (frob (psi 0)) + psi 0 = 0; simp
  | some x y h =>
    rw [frob_frob_psi, map_neg, map_neg, frob_frob_psi, neg_neg, neg_neg, ← map_add, ← map_add]
    have hh := horizontal fq2_two fq2_three omega h
      (by rw [mul_comm]; exact omega_ns h) (by have := omega_ns (omega_ns h); rwa [mul_assoc, ← pow_two, mul_comm] at this)
    have e1 : Point.some (x * frobFq6C1 2 * frobFq6C1 2) y (omega_ns (omega_ns h)) =
      Point.some (frobFq6C1 2 ^ 2 * x) y (by have := omega_ns (omega_ns h); rwa [mul_assoc, ← pow_two, mul_comm] at this) :=
      some_congr (by rw [mul_assoc, ← pow_two, mul_comm]) rfl
    have e2 : Point.some (x * frobFq6C1 2) y (omega_ns h) =
      Point.some (frobFq6C1 2 * x) y (by rw [mul_comm]; exact omega_ns h) := some_congr (mul_comm _ _) rfl
    rw [e1, e2, hh, map_zero]

/-! ### The whole loop -/

theorem zsmul_iff {G : Type} [AddCommGroup G] {A : G} {r : Nat} (hp : r.Prime) (hA : A ≠ 0) (h : r • A = 0) (k : Int) :
    k • A = 0 ↔ (r : Int) ∣ k := by
  have := Fact.mk hp
  rw [← addOrderOf_eq_prime h hA, addOrderOf_dvd_iff_zsmul_eq_zero]

theorem loop_regular : regular (frParams.m : Int) loopDigits 1 = true := by decide +kernel

theorem loop_value : loopDigits.foldl (fun n d => 2 * n + d) (1 : Int) = 6 * (Tower.BN_X : Int) + 2 := by decide +kernel

theorem excl_consts : let m := 6 * (Tower.BN_X : Int) + 2
    (¬ (frParams.m : Int) ∣ m ^ 4 - m ^ 2 + 1) ∧ (¬ (frParams.m : Int) ∣ (-m) ^ 4 - (-m) ^ 2 + 1) ∧
    (¬ (frParams.m : Int) ∣ 4 * 1 * m ^ 3 - (m ^ 2 + 1) * (m ^ 2 + 2 * 1 * m + 1)) ∧
    ¬ (frParams.m : Int) ∣ 4 * -1 * m ^ 3 - (m ^ 2 + 1) * (m ^ 2 + 2 * -1 * m + 1) := by decide +kernel

theorem psi_injective : Function.Injective psi := scale_injective _ _ _

theorem fq2_pow_order {κ : Fq2 FqV} (h : κ ≠ 0) : κ ^ ((qN ^ 12 - 1) / frParams.m) = 1 := by
  have h1 : κ ^ (qN ^ 2) = κ := by
    rw [← Fq2.frobeniusMaps_eq, Fq2.frobeniusMaps_succ, Fq2.frobeniusMaps_succ, Fq2.frobeniusMaps_zero,
      Fq2.frobeniusMap_twice]
  have h2 : κ ^ (qN ^ 2 - 1) = 1 := by
    have e : κ ^ (qN ^ 2 - 1) * κ = 1 * κ := by
      rw [← pow_succ, one_mul]
      exact (congrArg (fun n => κ ^ n) (show qN ^ 2 - 1 + 1 = qN ^ 2 by decide +kernel)).trans h1
    exact mul_right_cancel₀ h e
  have e : κ ^ ((qN ^ 12 - 1) / frParams.m) = (κ ^ (qN ^ 2 - 1)) ^ ((qN ^ 12 - 1) / frParams.m / (qN ^ 2 - 1)) := by
    rw [← pow_mul]
    exact congrArg (fun n => κ ^ n) (by decide +kernel)
  rw [e, h2, one_pow]

theorem pairing_of {p : Aff FqV} {g : Aff (Fq2 FqV)} {f : Fq12 FqV} (h : multiMillerLoop [(p, prepare g)] = some f) :
    pairing p g = finalExp f := by
  rw [pairing, h, Option.bind_eq_bind, Option.bind_some]

theorem pairing_spec {p : Aff FqV} (hp : p.inf = false) (hpy : p.y ≠ 0) {x y : Fq2 FqV} (h : (curve g2B).Nonsingular x y)
    (hQ : frParams.m • Point.some x y h = 0) {inf : Bool} (hi : inf = false) :
    pairing p ⟨x, y, inf⟩ = some (optimalAte loopDigits frob (psi (Point.some x y h)) (iota (Fq2.of p.x))
      (iota (Fq2.of p.y)) ^ ((qN ^ 12 - 1) / frParams.m)) := by
  subst hi
  set g : Aff (Fq2 FqV) := ⟨x, y, false⟩ with hg
  set Q := Point.some x y h with hQdef
  have hQ0 : Q ≠ 0 := Point.some_ne_zero h
  have hgr : AffRep g2B g Q := ⟨rfl, rfl, rfl⟩
  have hr := zsmul_iff frParams_prime hQ0 hQ
  have hA0 : psi Q ≠ 0 := fun h => hQ0 (psi_injective (h.trans (map_zero _).symm))
  have hrA := zsmul_iff frParams_prime hA0 (by rw [← map_nsmul, hQ, map_zero])
  obtain ⟨κ, hκ, hj, hM1, hM2, hs⟩ := chain_spec fq2_two twist_b hQ0 hgr hr p hpy loopDigits 1 ⟨x, y, 1⟩ true 1 1 1
    loop_regular (by rw [one_zsmul]; exact ⟨one_ne_zero, by simp, by simp⟩) one_ne_zero (by simp) one_ne_zero
    (fun _ => ⟨rfl, rfl⟩)
  rw [loop_value] at hj hM1
  set m : Int := 6 * (Tower.BN_X : Int) + 2 with hm
  have hchar := frob_char Q
  obtain ⟨x1, x2, x3, x4⟩ := excl_consts
  rw [one_zsmul] at hM1 hM2 hs
  have hpsi : scale iota w_ne_zero twist_b = psi := rfl
  rw [hpsi] at hM1 hM2 hs
  -- the first extra point
  set Q1 := Point.some _ _ (frob_ns h) with hQ1
  have hf1 : frob (psi Q) = psi Q1 := frob_psi h
  have hg1 : AffRep g2B (frobPoint g) Q1 := ⟨rfl, rfl, rfl⟩
  have hQ10 : Q1 ≠ 0 := Point.some_ne_zero _
  obtain ⟨j1, l1⟩ := addEval_spec fq2_two hj hg1 hQ10
    (fun e => x1 (excl_one frob hrA hchar (by rw [hf1, ← map_zsmul, e])))
    (fun e => x2 (excl_one frob hrA hchar (by rw [hf1, neg_zsmul, ← map_zsmul, ← map_neg, e, neg_neg])))
  -- the second
  set Q2 := Point.some _ _ (omega_ns h) with hQ2
  have hf2 : frob (frob (psi Q)) = -psi Q2 := frob_frob_psi h
  have hg2 : AffRep g2B (minusFrob2Point g) Q2 := ⟨rfl, rfl, rfl⟩
  have hQ20 : Q2 ≠ 0 := Point.some_ne_zero _
  obtain ⟨-, l2⟩ := addEval_spec fq2_two j1 hg2 hQ20
    (fun e => x4 (excl_two frob hrA hchar (by norm_num) (by
      rw [hf2, hf1, ← map_zsmul, ← map_add, e, neg_zsmul, one_zsmul])))
    (fun e => x3 (excl_two frob hrA hchar (by norm_num) (by
      rw [hf2, hf1, ← map_zsmul, ← map_add, e, one_zsmul, map_neg])))
  have e0_of : ∀ {c : PairingCoeff FqV} {T U : (curve g2B).Point}, IsLine c T U → c.e0 ≠ 0 := by
    intro c T U hl
    cases T with
    | zero => exact absurd hl id
    | some x y hns => exact hl.1
  have hc1 := e0_of l1
  have hc2 := e0_of l2
  have v1 := isLine_line twist_b hQ10 l1 p
  have v2 := isLine_line twist_b hQ20 l2 p
  rw [hpsi] at v1 v2
  have n1 := right_ne_zero_of_mul (v1 ▸ line_ne_zero hc1 hpy)
  have n2 := right_ne_zero_of_mul (v2 ▸ line_ne_zero hc2 hpy)
  have hcoeffs : (prepare g).coeffs = (chain g loopDigits ⟨x, y, 1⟩).1 ++
      [(addEval (chain g loopDigits ⟨x, y, 1⟩).2 (frobPoint g)).2,
        (addEval (addEval (chain g loopDigits ⟨x, y, 1⟩).2 (frobPoint g)).1 (minusFrob2Point g)).2] := by
    have hgi : g.inf = false := rfl
    unfold prepare
    simp only [hgi, Bool.false_eq_true, if_false, prepare_fold, List.nil_append]
    rfl
  have hate : optimalAte loopDigits frob (psi Q) (iota (Fq2.of p.x)) (iota (Fq2.of p.y)) =
      (miller loopDigits (psi Q) (iota (Fq2.of p.x)) (iota (Fq2.of p.y))).2 *
        lineValue (psi (m • Q)) (psi Q1) (iota (Fq2.of p.x)) (iota (Fq2.of p.y)) *
        lineValue (psi (m • Q + Q1)) (psi Q2) (iota (Fq2.of p.x)) (iota (Fq2.of p.y)) := by
    have hf3 : frob (psi Q1) = -psi Q2 := by rw [← hf1]; exact hf2
    unfold optimalAte
    simp only [hf1, hf3, neg_neg]
    rw [map_add]
    unfold miller
    rw [hM1]
  have hfactor : multiMillerLoop [(p, prepare g)] =
      some (iota (κ * (addEval (chain g loopDigits ⟨x, y, 1⟩).2 (frobPoint g)).2.e0 *
        (addEval (addEval (chain g loopDigits ⟨x, y, 1⟩).2 (frobPoint g)).1 (minusFrob2Point g)).2.e0) *
        optimalAte loopDigits frob (psi Q) (iota (Fq2.of p.x)) (iota (Fq2.of p.y))) := by
    rw [multiMillerLoop_eq]
    · have hpi : (prepare g).isInfinity = false := prepare_inf g
      simp only [List.map_cons, List.map_nil, List.prod_cons, List.prod_nil, mul_one, hp, hpi, Bool.false_eq_true,
        or_self, if_false]
      rw [hcoeffs, fullSchedule, hs]
      simp only [single]
      rw [v1, v2, hate, map_mul, map_mul]
      unfold miller
      rw [Option.some_inj]
      ring
    · intro pq hpq _ _
      rw [List.mem_singleton] at hpq
      subst hpq
      exact (prepare_length g rfl).2
  rw [pairing_of hfactor]
  have hne : optimalAte loopDigits frob (psi Q) (iota (Fq2.of p.x)) (iota (Fq2.of p.y)) ≠ 0 := by
    rw [hate]
    exact mul_ne_zero (mul_ne_zero hM2 n1) n2
  have hk := mul_ne_zero (mul_ne_zero hκ hc1) hc2
  rw [finalExp_eq, if_neg (mul_ne_zero ((map_ne_zero iota).mpr hk) hne), mul_pow, ← map_pow]
  have := fq2_pow_order hk
  rw [this, map_one, one_mul]

end Kogarashi.Tower
