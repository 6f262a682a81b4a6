import Verif.Props.Orders

/-!
# Property C123: the curves are those of the documentation
-/

namespace Kogarashi.Props

open Kogarashi Spec Tower Curve Kogarashi.Field

theorem onCurve_iff {K : Type} [_root_.Field K] [DecidableEq K] (b : K) {p : Aff K} (h : p.inf = false) :
    p.isOnCurve b = true ↔ p.y ^ 2 = p.x ^ 3 + b := by
  unfold Aff.isOnCurve
  rw [h]
  simp only [Bool.false_eq_true, if_false, Curve.sq]
  rw [show p.y ^ 2 = p.y * p.y by ring, show p.x ^ 3 = p.x * p.x * p.x by ring]
  constructor
  · intro e; exact of_decide_eq_true e
  · intro e; exact decide_eq_true e

/-- **C123, G1.** With the constant of the code (`bn254/src/params.rs` line 10), a point other than the identity is on the curve exactly when
`y² = x³ + 3`. -/
theorem C123_g1 {p : Aff FqV} (h : p.inf = false) :
    p.isOnCurve (denote fqParams (fqParams.toMontForm ⟨3, 0, 0, 0⟩)) = true ↔ p.y ^ 2 = p.x ^ 3 + 3 := by
  rw [show denote fqParams (fqParams.toMontForm ⟨3, 0, 0, 0⟩) = 3 from (toMontForm_denote fqParams_valid (by decide +kernel)).2.trans (by decide +kernel)]
  exact onCurve_iff 3 h

/-- **C123, Grumpkin.** With the constant of the code (`grumpkin/src/params.rs` lines 13-18), a point other than the identity is on the curve exactly
when `y² = x³ - 17`. -/
theorem C123_grumpkin {p : Aff FrV} (h : p.inf = false) :
    p.isOnCurve (denote frParams ⟨0xdd7056026000005a, 0x223fa97acb319311, 0xcc388229877910c0, 0x034394632b724eaa⟩) = true ↔
      p.y ^ 2 = p.x ^ 3 - 17 := by
  rw [grumpkin_params.1, onCurve_iff grumpkinB h, sub_eq_add_neg]
  rfl

theorem xi_ne : (Fq2.xi : Fq2 FqV) ≠ 0 := by decide +kernel

/-- **C123, G2, what holds.** A point other than the identity is on the curve exactly when `y² = x³ + 3/(9 + u)`.  Missing: the equation of the
documentation, `y² = x³ + 3(u + 1)`, which is false (`C123_g2_refuted`). -/
theorem C123_g2_partial {p : Aff (Fq2 FqV)} (h : p.inf = false) :
    p.isOnCurve g2B = true ↔ p.y ^ 2 = p.x ^ 3 + 3 / (⟨9, 1⟩ : Fq2 FqV) := by
  have e : g2B = 3 / (⟨9, 1⟩ : Fq2 FqV) := by
    rw [eq_div_iff (show (⟨9, 1⟩ : Fq2 FqV) ≠ 0 from xi_ne)]
    exact g2B_mul_xi
  rw [onCurve_iff g2B h, ← e]

theorem g2B_ne : g2B ≠ 3 * (⟨1, 1⟩ : Fq2 FqV) := by decide +kernel

/-- **C123 is false of the code for G2**: no point of the code's curve satisfies the documented equation `y² = x³ + 3(u + 1)`, and there are such points. -/
theorem C123_g2_refuted : (∀ p : Aff (Fq2 FqV), p.inf = false → p.isOnCurve g2B = true → p.y ^ 2 ≠ p.x ^ 3 + 3 * (⟨1, 1⟩ : Fq2 FqV)) ∧
    g2Gen.inf = false ∧ g2Gen.isOnCurve g2B = true := by
  refine ⟨fun p h hp hq => ?_, rfl, by decide +kernel⟩
  rw [onCurve_iff g2B h, hq] at hp
  exact g2B_ne (add_left_cancel hp).symm

/-- Points on the two other curves: the generators `(1, 2)` and `(1, √-16)`. -/
example : (⟨1, 2, false⟩ : Aff FqV).isOnCurve g1B = true := by decide +kernel
example : ∃ y : FrV, y ^ 2 = 1 ^ 3 - 17 := ⟨_, (C123_grumpkin rfl).1 (grumpkin_params.1 ▸ grumpkin_params.2)⟩

end Kogarashi.Props
