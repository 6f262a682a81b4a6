import Verif.Props.Orders
import Verif.Props.Pairing

/-!
C29, exact. What `is_torsion_free` answers for every point of the two curves: `true` for the identity and `false` for every other
point, inside the prime-order subgroup or not.
-/
namespace Kogarashi.Props

open Kogarashi Limbs Spec Curve Tower Kogarashi.Field

section
variable {F : Type} [_root_.Field F] [DecidableEq F] {b : F}

/-- A finite point equal to what affine coordinates denote has those coordinates. -/
theorem coords_of_eq {p : Proj F} {M : (curve b).Point} (hp : ProjRep b p M) {x y : F}
    (h : p.eq ⟨x, y, 1⟩ = true) : ∃ hns, M = .some x y hns := by
  cases M with
  | zero =>
    have hz : p.z = 0 := hp
    simp [Proj.eq, Proj.isIdentity, hz] at h
  | some x' y' hns =>
    obtain ⟨hz, hx, hy⟩ := hp
    simp [Proj.eq, Proj.isIdentity, hz, hx, hy] at h
    obtain ⟨h1, h2⟩ := h
    have e1 : x' = x := mul_right_cancel₀ hz (by rw [h1, mul_comm])
    have e2 : y' = y := mul_right_cancel₀ hz (by rw [h2, mul_comm])
    subst e1 e2
    exact ⟨hns, rfl⟩

/-- The same with the sides of `==` exchanged. -/
theorem coords_of_eq' {p : Proj F} {M : (curve b).Point} (hp : ProjRep b p M) {x y : F}
    (h : (⟨x, y, 1⟩ : Proj F).eq p = true) : ∃ hns, M = .some x y hns := by
  cases M with
  | zero =>
    have hz : p.z = 0 := hp
    simp [Proj.eq, Proj.isIdentity, hz] at h
  | some x' y' hns =>
    obtain ⟨hz, hx, hy⟩ := hp
    simp [Proj.eq, Proj.isIdentity, hz, hx, hy] at h
    obtain ⟨h1, h2⟩ := h
    have e1 : x' = x := h1.symm
    have e2 : y' = y := h2.symm
    subst e1 e2
    exact ⟨hns, rfl⟩

/-- If multiplying the abscissa of a point by `β` is the same as multiplying the point by `-k`, then `k + 1` or `k³ + 1` kills it. -/
theorem kills_of_endomorphism {β x y : F} {k : Nat} (h : (curve b).Nonsingular x y) (h' : (curve b).Nonsingular (x * β) y)
    (e : -(k • WeierstrassCurve.Affine.Point.some x y h) = .some (x * β) y h') :
    (k + 1) • WeierstrassCurve.Affine.Point.some x y h = 0 ∨ (k ^ 3 + 1) • WeierstrassCurve.Affine.Point.some x y h = 0 := by
  have e1 := (nonsingular_curve.mp h).1
  have e2 := (nonsingular_curve.mp h').1
  have e3 : x ^ 3 * (β ^ 3 - 1) = 0 := by linear_combination e1 - e2
  rcases mul_eq_zero.mp e3 with h0 | h0
  · left
    have hx : x = 0 := pow_eq_zero_iff (by norm_num) |>.mp h0
    subst hx
    have : WeierstrassCurve.Affine.Point.some (0 * β) y h' = .some 0 y h := some_congr (by ring) rfl
    rw [this] at e
    rw [add_nsmul, one_nsmul]
    nth_rewrite 2 [← e]
    exact add_neg_cancel _
  · right
    have hβ : β ^ 3 = 1 := sub_eq_zero.mp h0
    have hne : β ^ 2 ≠ 0 := by
      intro hz
      have : β = 0 := pow_eq_zero_iff (by norm_num) |>.mp hz
      rw [this] at hβ
      norm_num at hβ
    have hb : b = RingHom.id F b * (β ^ 2) ^ 6 := by
      rw [RingHom.id_apply, show (β ^ 2) ^ 6 = (β ^ 3) ^ 4 by ring, hβ]; ring
    have step : ∀ {x y : F} (h : (curve b).Nonsingular x y),
        ∃ h', scale (RingHom.id F) hne hb (.some x y h) = .some (x * β) y h' := by
      intro x y h
      have hx : RingHom.id F x * (β ^ 2) ^ 2 = x * β := by
        rw [RingHom.id_apply]; linear_combination x * β * hβ
      have hy : RingHom.id F y * (β ^ 2) ^ 3 = y := by
        rw [RingHom.id_apply, show (β ^ 2) ^ 3 = (β ^ 3) ^ 2 by ring, hβ]; ring
      have hn := scale_ns (RingHom.id F) hne hb h
      rw [hx, hy] at hn
      exact ⟨hn, (scale_some _ _ _ h).trans (some_congr hx hy)⟩
    set φ := scale (RingHom.id F) hne hb with hφ
    obtain ⟨h1, s1⟩ := step h
    obtain ⟨h2, s2⟩ := step h1
    obtain ⟨h3, s3⟩ := step h2
    have f1 : φ (.some x y h) = -(k • WeierstrassCurve.Affine.Point.some x y h) := s1.trans e.symm
    have f3 : φ (φ (φ (.some x y h))) = .some x y h := by
      rw [s1, s2, s3]
      exact some_congr (by linear_combination x * hβ) rfl
    have f : φ (φ (φ (.some x y h))) = -(k ^ 3 • WeierstrassCurve.Affine.Point.some x y h) := by
      simp only [f1, map_neg, map_nsmul, smul_neg, neg_neg, ← mul_nsmul]
      congr 2
      ring
    rw [f] at f3
    rw [add_nsmul, one_nsmul]
    nth_rewrite 2 [← f3]
    exact add_neg_cancel _
end

theorem twice_neg {A : Type} [AddCommGroup A] (n : Nat) (P : A) : -(-(n • -(n • P))) = -(n ^ 2 • P) := by
  rw [neg_neg, smul_neg, ← mul_nsmul, pow_two]

theorem twice_by_x {F : Type} [_root_.Field F] [DecidableEq F] {b : F} (h2 : (2 : F) ≠ 0) {p : Proj F} {P : (curve b).Point}
    (hp : ProjRep b p P) {m n : Nat} (hm : m = Curve.BN_X - 1) (hn : n = m ^ 2) :
    ProjRep b (mulByX (b + b + b) (mulByX (b + b + b) p)).neg (-(n • P)) := by
  have gen : ∀ {p : Proj F} {P : (curve b).Point}, ProjRep b p P → ∀ M, M = m • P → ProjRep b (mulByX (b + b + b) p) (-M) :=
    by
    intro p P h M e
    rw [e, hm]
    exact C29_mul_by_x_partial h2 h
  have h1 := gen hp _ rfl
  generalize hM : m • P = M at h1
  have h3 := gen h1 _ rfl
  generalize hN : m • -M = N at h3
  have h4 := neg_rep h3
  rw [← hN, ← hM, twice_neg, ← hn] at h4
  exact h4

/-- **C29, G1, exact.** Whatever the constant `BETA`: `is_torsion_free` is true of the identity and false of every other point of the
curve, all of which are in the prime-order subgroup. -/
theorem C29_g1_exact {p : Aff FqV} {P : (curve g1B).Point} (hp : AffRep g1B p P) (beta : FqV) :
    isTorsionFree (g1B + g1B + g1B) beta p = true ↔ P = 0 := by
  obtain ⟨n, hn⟩ : ∃ n, n = (Curve.BN_X - 1) ^ 2 := ⟨_, rfl⟩
  have hm := twice_by_x g1_two (toExtended_rep hp) rfl hn
  unfold isTorsionFree
  constructor
  · intro h
    cases P with
    | zero => rfl
    | some x y hns =>
      obtain ⟨hi, hx, hy⟩ := hp
      have he : Aff.toExtended (⟨p.x * beta, p.y, p.inf⟩ : Aff FqV) = ⟨x * beta, y, 1⟩ := by
        simp [Aff.toExtended, Aff.isIdentity, hi, hx, hy]
      rw [he] at h
      obtain ⟨h', e⟩ := coords_of_eq hm h
      have all : ∀ Q : (curve g1B).Point, frParams.m • Q = 0 := fun Q => by
        rw [← g1_card]; exact card_nsmul_eq_zero'
      rcases kills_of_endomorphism hns h' e with h | h
      · rcases (kill_iff frParams_prime all _ _).mp h with h | h
        · exact absurd h (by rw [hn]; decide +kernel)
        · exact h
      · rcases (kill_iff frParams_prime all _ _).mp h with h | h
        · exact absurd h (by rw [hn]; decide +kernel)
        · exact h
  · rintro rfl
    have hi : p.inf = true := hp
    refine (projEq_iff hm (toExtended_rep (P := 0) (show AffRep g1B ⟨p.x * beta, p.y, p.inf⟩ 0 from hi))).mpr ?_
    rw [nsmul_zero, neg_zero]

/-- Conjugation respects the curve equation. -/
theorem conj_curve {x y : Fq2 FqV} (h : y ^ 2 = x ^ 3 + g2B) :
    y.frobeniusMap ^ 2 = x.frobeniusMap ^ 3 + g2B.frobeniusMap := by
  rw [← Fq2.frobeniusMap_pow, h, Fq2.frobeniusMap_add, Fq2.frobeniusMap_pow]

/-- What a point and its image under `psi` being both on the curve would say of the square of the ordinate. -/
theorem psi_square {F : Type} [_root_.Field F] {x y b b' cx cy : F} (h : y ^ 2 = x ^ 3 + b') (h' : (y * cy) ^ 2 = (x * cx) ^ 3 + b) :
    (y * (cy ^ 2 - cx ^ 3)) ^ 2 = (b - b' * cx ^ 3) * (cy ^ 2 - cx ^ 3) := by
  linear_combination (cy ^ 2 - cx ^ 3) * h' - (cy ^ 2 - cx ^ 3) * cx ^ 3 * h

theorem psi_nonsquare : ¬ ∃ s : Fq2 FqV, s ^ 2 =
    (g2B - g2B.frobeniusMap * (psiCoeffX * psiCoeffX * psiCoeffX)) * (psiCoeffY * psiCoeffY - psiCoeffX * psiCoeffX * psiCoeffX) :=
  (C72_sqrt _).2.mp (by decide +kernel)

/-- **C29, G2, exact.** `is_torsion_free` is true of the identity and false of every other point of the curve, whether in the
prime-order subgroup or not. -/
theorem C29_g2_exact {p : Aff (Fq2 FqV)} {P : (curve g2B).Point} (hp : AffRep g2B p P) :
    isTorsionFreeG2 p = true ↔ P = 0 := by
  have hm := C29_mul_by_x_partial fq2_two (toExtended_rep hp)
  unfold isTorsionFreeG2
  constructor
  · intro h
    cases P with
    | zero => rfl
    | some x y hns =>
      exfalso
      obtain ⟨hi, hx, hy⟩ := hp
      have he : psiMap p.toExtended = ⟨x.frobeniusMap * psiCoeffX, y.frobeniusMap * psiCoeffY, 1⟩ := by
        have : p.toExtended = ⟨x, y, 1⟩ := by simp [Aff.toExtended, Aff.isIdentity, hi, hx, hy]
        rw [this]
        unfold psiMap
        have h1 : (1 : Fq2 FqV).frobeniusMap = 1 := by decide +kernel
        simp only [h1]
      rw [he] at h
      obtain ⟨h', -⟩ := coords_of_eq' hm h
      refine psi_nonsquare ⟨y.frobeniusMap * (psiCoeffY ^ 2 - psiCoeffX ^ 3), ?_⟩
      have := psi_square (conj_curve (nonsingular_curve.mp hns).1) (nonsingular_curve.mp h').1
      rw [this, pow_succ psiCoeffX, pow_two, pow_two]
  · rintro rfl
    have hi : p.inf = true := hp
    rw [nsmul_zero, neg_zero] at hm
    have hz : (psiMap p.toExtended).z = 0 := by
      have : p.toExtended.z = 0 := toExtended_rep (P := 0) hp
      unfold psiMap
      simp only [this]
      decide +kernel
    exact (projEq_iff (P := (0 : (curve g2B).Point)) hz hm).mpr rfl

/-- The hypotheses are met by the generators, which the two checks reject, and by the identities, which they accept. -/
example : (∀ beta, isTorsionFree (g1B + g1B + g1B) beta g1Gen = false) ∧ isTorsionFreeG2 g2Gen = false ∧
    (∀ beta, isTorsionFree (g1B + g1B + g1B) beta Aff.identity = true) ∧ isTorsionFreeG2 Aff.identity = true := by
  have i1 : AffRep g1B (Aff.identity : Aff FqV) 0 := Eq.refl true
  have i2 : AffRep g2B (Aff.identity : Aff (Fq2 FqV)) 0 := Eq.refl true
  refine ⟨fun beta => ?_, ?_, fun beta => (C29_g1_exact (P := 0) i1 beta).mpr rfl, (C29_g2_exact (P := 0) i2).mpr rfl⟩
  · rw [← Bool.not_eq_true, C29_g1_exact g1Gen_rep]
    exact WeierstrassCurve.Affine.Point.some_ne_zero _
  · rw [← Bool.not_eq_true, C29_g2_exact g2Gen_rep]
    exact WeierstrassCurve.Affine.Point.some_ne_zero _

end Kogarashi.Props
