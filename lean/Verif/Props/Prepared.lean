import Verif.Tower.Prepared
import Verif.Tower.Inverse
import Verif.Groth16.Concrete

/-!
# Property C121: prepared G2 points are equal exactly when the points are
-/

namespace Kogarashi.Props

open Kogarashi Spec Tower Curve Kogarashi.Field Groth16

/-- The first coefficients pushed for an affine point are `4y`, `-6x²` and `6x³ - 4y²`. -/
theorem doubleEval_affine {R : Type} [CommRing R] (x y : Fq2 R) : (doubleEval ⟨x, y, 1⟩).2 = ⟨4 * y, -(6 * x ^ 2), 6 * x ^ 3 - 4 * y ^ 2⟩ := by
  unfold doubleEval
  simp only [Fq2.square_eq, Fq2.double_eq]
  congr 1 <;> ring

theorem prepareStep_append {R : Type} [CommRing R] (g : Aff (Fq2 R)) (s : Proj (Fq2 R)) (l : List (PairingCoeff R)) (d : Int) :
    ∃ t r, prepareStep g (s, l) d = (t, l ++ r) := by
  unfold prepareStep
  dsimp only
  split
  · exact ⟨_, _, by rw [List.append_assoc]⟩
  · split
    · exact ⟨_, _, by rw [List.append_assoc]⟩
    · exact ⟨_, _, rfl⟩

theorem prepareFold_append {R : Type} [CommRing R] (g : Aff (Fq2 R)) (ds : List Int) (s : Proj (Fq2 R)) (l : List (PairingCoeff R)) :
    ∃ t r, ds.foldl (prepareStep g) (s, l) = (t, l ++ r) := by
  induction ds generalizing s l with
  | nil => exact ⟨s, [], by simp⟩
  | cons d ds ih =>
    obtain ⟨t, r, h⟩ := prepareStep_append g s l d
    obtain ⟨t', r', h'⟩ := ih t (l ++ r)
    exact ⟨t', r ++ r', by rw [List.foldl_cons, h, h', List.append_assoc]⟩

theorem prepareStep_head {R : Type} [CommRing R] (g : Aff (Fq2 R)) (s : Proj (Fq2 R)) (d : Int) :
    ∃ t r, prepareStep g (s, []) d = (t, (doubleEval s).2 :: r) := by
  unfold prepareStep
  dsimp only
  split
  · exact ⟨_, _, rfl⟩
  · split
    · exact ⟨_, _, rfl⟩
    · exact ⟨_, _, rfl⟩

theorem prepareFold_head {R : Type} [CommRing R] (g : Aff (Fq2 R)) (s : Proj (Fq2 R)) {ds : List Int} (hd : ds ≠ []) :
    ∃ t r, ds.foldl (prepareStep g) (s, []) = (t, (doubleEval s).2 :: r) := by
  obtain ⟨d, ds, rfl⟩ := List.exists_cons_of_ne_nil hd
  obtain ⟨t, r, h⟩ := prepareStep_head g s d
  obtain ⟨t', r', h'⟩ := prepareFold_append g ds t ((doubleEval s).2 :: r)
  exact ⟨t', r ++ r', by rw [List.foldl_cons, h, h', List.cons_append]⟩

theorem prepare_head {p : Aff (Fq2 FqV)} (hp : p.inf = false) :
    ∃ r, Tower.prepare p = ⟨⟨4 * p.y, -(6 * p.x ^ 2), 6 * p.x ^ 3 - 4 * p.y ^ 2⟩ :: r, false⟩ := by
  obtain ⟨t, r, h⟩ := prepareFold_head p ⟨p.x, p.y, 1⟩ (ds := loopDigits) (by decide)
  unfold Tower.prepare
  rw [hp, h, doubleEval_affine]
  exact ⟨_, rfl⟩

theorem coeff_injective {K : Type} [_root_.Field K] (h2 : (2 : K) ≠ 0) (h3 : (3 : K) ≠ 0) {x y x' y' : K} (e0 : 4 * y = 4 * y')
    (e1 : -(6 * x ^ 2) = -(6 * x' ^ 2)) (e2 : 6 * x ^ 3 - 4 * y ^ 2 = 6 * x' ^ 3 - 4 * y' ^ 2) : x = x' ∧ y = y' := by
  have h4 : (4 : K) ≠ 0 := by rw [show (4 : K) = 2 * 2 by norm_num]; exact mul_ne_zero h2 h2
  have h6 : (6 : K) ≠ 0 := by rw [show (6 : K) = 2 * 3 by norm_num]; exact mul_ne_zero h2 h3
  obtain rfl : y = y' := mul_left_cancel₀ h4 e0
  have q2 : x ^ 2 = x' ^ 2 := mul_left_cancel₀ h6 (neg_injective e1)
  have q3 : x ^ 3 = x' ^ 3 := mul_left_cancel₀ h6 (by linear_combination e2)
  refine ⟨?_, rfl⟩
  by_cases hx : x = 0
  · subst hx
    have : x' ^ 2 = 0 := by rw [← q2]; ring
    exact (pow_eq_zero_iff (by norm_num)).mp this |>.symm
  · have hx2 : x ^ 2 ≠ 0 := pow_ne_zero 2 hx
    exact mul_left_cancel₀ hx2 (by linear_combination q3 - x' * q2)

theorem fq2_two_three : (2 : Fq2 FqV) ≠ 0 ∧ (3 : Fq2 FqV) ≠ 0 := by
  constructor
  · intro h; have := congrArg Fq2.c0 h; revert this; decide +kernel
  · intro h; have := congrArg Fq2.c0 h; revert this; decide +kernel

/-- **C121.** Comparing two prepared G2 points answers what comparing the points answers, whatever their coordinates, on the curve or not. -/
theorem C121_prepared (p q : Aff (Fq2 FqV)) : (Tower.prepare p).eq (Tower.prepare q) = p.eq q := by
  cases hp : p.inf <;> cases hq : q.inf
  · obtain ⟨r, h⟩ := prepare_head hp
    obtain ⟨r', h'⟩ := prepare_head hq
    rw [Bool.eq_iff_iff]
    have hr : p.eq q = true ↔ p.x = q.x ∧ p.y = q.y := by simp [Aff.eq, Aff.isIdentity, hp, hq]
    rw [hr]
    constructor
    · intro hh
      rw [h, h'] at hh
      simp only [G2Pairing.eq, Bool.and_eq_true, decide_eq_true_eq, List.cons.injEq, PairingCoeff.mk.injEq] at hh
      exact coeff_injective fq2_two_three.1 fq2_two_three.2 hh.1.1.1 hh.1.1.2.1 hh.1.1.2.2
    · rintro ⟨hx, hy⟩
      have : p = q := by
        obtain ⟨x, y, i⟩ := p
        obtain ⟨x', y', i'⟩ := q
        dsimp only at hx hy hp hq
        rw [hx, hy, hp, hq]
      rw [this]
      simp [G2Pairing.eq]
  all_goals simp [Tower.prepare, G2Pairing.eq, Aff.eq, Aff.isIdentity, hp, hq]

/-- **C121.** A prepared point is the identity exactly when the point is. -/
theorem C121_identity (p : Aff (Fq2 FqV)) : (Tower.prepare p).isIdentity = p.isIdentity := by
  unfold Tower.prepare G2Pairing.isIdentity Aff.isIdentity
  cases p.inf <;> rfl

theorem negAff_eq (p q : Aff (Fq2 FqV)) : (negAff p).eq (negAff q) = p.eq q := by
  unfold Aff.eq Aff.isIdentity negAff
  simp only [neg_inj]

/-- **C121, keys.** Two prepared verifying keys agree in their second and third parts exactly when the keys have the same `γ` and `δ`. -/
theorem C121_keys {vk vk' : CVKey} {k k' : CPVKey} (h : vk.prepare = some k) (h' : vk'.prepare = some k') :
    k.negGamma.eq k'.negGamma = vk.gammaG2.eq vk'.gammaG2 ∧ k.negDelta.eq k'.negDelta = vk.deltaG2.eq vk'.deltaG2 := by
  unfold CVKey.prepare at h h'
  simp only [Option.bind_eq_bind, Option.bind_eq_some_iff, Option.some.injEq] at h h'
  obtain ⟨_, -, _, -, rfl⟩ := h
  obtain ⟨_, -, _, -, rfl⟩ := h'
  exact ⟨(C121_prepared _ _).trans (negAff_eq _ _), (C121_prepared _ _).trans (negAff_eq _ _)⟩

/-- Points with the same `y`, with the same `x²`, and two ways of writing the identity. -/
example : (Tower.prepare ⟨⟨1, 0⟩, 1, false⟩).eq (Tower.prepare ⟨⟨2, 0⟩, 1, false⟩) = false ∧
    (Tower.prepare ⟨⟨1, 0⟩, 1, false⟩).eq (Tower.prepare ⟨⟨-1, 0⟩, 1, false⟩) = false ∧
    (Tower.prepare ⟨⟨1, 0⟩, 1, true⟩).eq (Tower.prepare ⟨⟨-1, 0⟩, 1, true⟩) = true := by
  simp only [C121_prepared]
  decide +kernel

end Kogarashi.Props
