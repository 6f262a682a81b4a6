import Verif.Props.Edwards
import Verif.Props.R1cs
import Verif.Props.Poly
import Verif.Props.PrimeField
import Mathlib.RingTheory.Polynomial.Cyclotomic.Basic

/-! # Small functions: constructors of Edwards points, powers with a fixed exponent, flags, the vanishing polynomial, one -/

set_option exponentiation.threshold 1600

namespace Kogarashi.Props

open Kogarashi Spec

/-! ### C25 and C26, Edwards points -/

section Edwards

open Edwards

variable {F : Type} [_root_.Field F] [DecidableEq F]

/-- **C26, constructors.** `from_x_and_y` of either type stands for the pair given, and the two agree. -/
theorem C26_from_x_and_y (x y : F) :
    ExtRep (extFromXY x y) (x, y) ∧ ((affFromXY x y).x, (affFromXY x y).y) = (x, y) ∧
      (extFromXY x y).toAffine = some (affFromXY x y) ∧ (affFromXY x y).toExtended = extFromXY x y := by
  refine ⟨⟨one_ne_zero, by simp [extFromXY], by simp [extFromXY], by simp [extFromXY]⟩, rfl, ?_, rfl⟩
  simp [EExt.toAffine, extFromXY, affFromXY]

/-- **C25, Edwards, exact.** What `is_on_curve` accepts: the points of the curve, every affine point with `x = 0`, and every extended point
with `x = 0` or `z = 0`. -/
theorem C25_edwards_exact_partial (d : F) (a : EAff F) (p : EExt F) :
    (a.isOnCurve d = true ↔ a.x = 0 ∨ OnEdwards d (a.x, a.y)) ∧
    (p.isOnCurve d = true ↔ p.z = 0 ∨ p.x = 0 ∨ OnEdwards d (p.x / p.z, p.y / p.z)) := by
  have key : ∀ a : EAff F, a.isOnCurve d = true ↔ a.x = 0 ∨ OnEdwards d (a.x, a.y) := by
    intro a
    by_cases h : a.x = 0
    · simp [EAff.isOnCurve, h]
    · obtain ⟨h1, h2⟩ := C25_edwards_partial (d := d) a
      exact ⟨fun k => .inr (h2 k h), fun k => h1 (k.resolve_left h)⟩
  refine ⟨key a, ?_⟩
  by_cases hz : p.z = 0
  · simp [EExt.isOnCurve, EExt.toAffine, hz]
  · simp only [EExt.isOnCurve, EExt.toAffine, hz, false_or, if_false]
    rw [key]
    simp only [← div_eq_mul_inv, div_eq_zero_iff, hz, or_false]

example : (EAff.isOnCurve (2 : ZMod 13) ⟨2, 4⟩ = true) ∧ (EAff.isOnCurve (2 : ZMod 13) ⟨2, 5⟩ = false) ∧
    (EExt.isOnCurve (2 : ZMod 13) ⟨6, 12, 11, 3⟩ = true) := by
  have h3 : (3 : ZMod 13) ≠ 0 := by decide
  have e1 : (6 : ZMod 13) / 3 = 2 := by rw [div_eq_iff h3]; decide
  have e2 : (12 : ZMod 13) / 3 = 4 := by rw [div_eq_iff h3]; decide
  refine ⟨by decide, by decide, (C25_edwards_exact_partial 2 ⟨0, 0⟩ ⟨6, 12, 11, 3⟩).2.mpr (.inr (.inr ?_))⟩
  simp only [e1, e2, OnEdwards]
  decide

end Edwards

/-! ### C32, flags -/

/-- **C32, conditional_enforce_equal of flags**: the two flags are equal unless the third is zero. -/
theorem C32_binary_conditional_enforce_equal {F : Type} [_root_.Field F] [DecidableEq F] {cs : CS F} (wf : Wf cs) {x y s : Wire}
    (hx : Allocated cs x) (hy : Allocated cs y) (hs : Allocated cs s) :
    ∃ cs', Circ.binConditionalEnforceEqual x y s cs = some ((), cs') ∧
      Implements cs cs' (fun z => z s = 0 ∨ z x = z y) (fun z => z s = 0 ∨ z x = z y) := by
  obtain ⟨c, e, h⟩ := C32_conditional_enforce_equal wf (Circ.ofBin_ok hx) (Circ.ofBin_ok hy) hs
  simp only [Circ.rowVal_ofBin] at h
  exact ⟨c, e, h⟩

/-! ### C41, the vanishing polynomial -/

section Poly

open Groth16

variable {F : Type} [_root_.Field F] [DecidableEq F] {S : Nat} {root gen : F} {k : Nat} {f : Fft F}

/-- **C41, vanishing polynomial.** On a domain `Fft::new` returned, `t(2^k, τ)` is the product of `τ - ω^i` over the domain, so it is zero
exactly at the points of the domain. -/
theorem C41_vanishing (d : Domain S root gen k f) (tau : F) :
    Groth16.vanishing (2 ^ k) tau = ∏ i ∈ Finset.range (2 ^ k), (tau - omega S root k ^ i) ∧
      (Groth16.vanishing (2 ^ k) tau = 0 ↔ ∃ i < 2 ^ k, tau = omega S root k ^ i) := by
  have pr := C40_domain d
  have h : Groth16.vanishing (2 ^ k) tau = ∏ i ∈ Finset.range (2 ^ k), (tau - omega S root k ^ i) := by
    have := congrArg (Polynomial.eval tau) (Polynomial.X_pow_sub_one_eq_prod (by positivity) pr)
    rw [Polynomial.eval_prod] at this
    simp only [Polynomial.eval_sub, Polynomial.eval_pow, Polynomial.eval_X, Polynomial.eval_one, Polynomial.eval_C] at this
    rw [Groth16.vanishing, this]
    refine (Finset.prod_bij (fun i _ => omega S root k ^ i) ?_ ?_ ?_ (fun _ _ => rfl)).symm
    · intro i _
      rw [Polynomial.mem_nthRootsFinset (by positivity), ← pow_mul, mul_comm, pow_mul, pr.pow_eq_one, one_pow]
    · intro i hi j hj e
      exact pr.pow_inj (Finset.mem_range.mp hi) (Finset.mem_range.mp hj) e
    · intro x hx
      rw [Polynomial.mem_nthRootsFinset (by positivity)] at hx
      obtain ⟨i, hi, e⟩ := pr.eq_pow_of_pow_eq_one hx
      exact ⟨i, Finset.mem_range.mpr hi, e⟩
  refine ⟨h, ?_⟩
  rw [h, Finset.prod_eq_zero_iff]
  simp only [Finset.mem_range, sub_eq_zero]

end Poly

/-! ### C10 and C04, powers -/

section Pow

open Kogarashi.Field Limbs

/-- **C10, `pow_vartime`, the part that holds.** It is the power whenever none of the elements it squares loses a carry; unlike `pow` it has
no shortcut for a zero base or a zero exponent, and needs none. -/
theorem C10_pow_vartime_partial {P : FieldParams} (hP : ValidParams P) {a e : L4} (ha : Canonical P a) (he : e.Wf)
    (hsq : ∀ x ∈ squaredBy P a (B256.toBits e) P.one, P.square x = P.mul x x) :
    Canonical P (P.powVartime a e) ∧ value P (P.powVartime a e) = (value P a ^ e.val) % P.m := by
  obtain ⟨h3, h4⟩ := pow_loop hP ha (B256.toBits e) (toBits_bits e) P.one hsq (r_canonical hP) 0
    (by rw [pow_zero]; exact denote_one hP)
  have e1 : P.powVartime a e = (B256.toBits e).foldl (B256.powStep a P.p P.inv) P.one := rfl
  rw [← e1] at h3 h4
  refine ⟨h3, value_of_denote hP ?_⟩
  rw [h4, Nat.zero_mul, Nat.zero_add, toBits_value he, Nat.cast_pow, value_cast hP]

/-- **C10, `pow_vartime`, refuted in general.** In both fields there is an element whose second power it gets wrong. -/
theorem C10_pow_vartime_refuted :
    (∃ a, Canonical frParams a ∧ value frParams (frParams.powVartime a ⟨2, 0, 0, 0⟩) ≠ value frParams a ^ 2 % frParams.m) ∧
    (∃ a, Canonical fqParams a ∧ value fqParams (fqParams.powVartime a ⟨2, 0, 0, 0⟩) ≠ value fqParams a ^ 2 % fqParams.m) := by
  refine ⟨⟨badSquare, ?_, ?_⟩, ⟨badSquare, ?_, ?_⟩⟩
  · unfold Canonical; decide +kernel
  · decide +kernel
  · unfold Canonical; decide +kernel
  · decide +kernel

/-- **C04, one.** `one(r2, p, inv)` of the limb module is the constant `R` the field macro uses, and stands for 1. -/
theorem C04_limb_one {P : FieldParams} (hP : ValidParams P) :
    B256.one P.r2 P.p P.inv = P.one ∧ Canonical P (B256.one P.r2 P.p P.inv) ∧ value P (B256.one P.r2 P.p P.inv) = 1 % P.m := by
  obtain ⟨h1, h2⟩ := toMontForm_denote hP (v := ⟨1, 0, 0, 0⟩) (by decide)
  have e : B256.one P.r2 P.p P.inv = P.toMontForm ⟨1, 0, 0, 0⟩ := rfl
  rw [e]
  refine ⟨denote_inj hP h1 (r_canonical hP) ?_, h1, value_of_denote hP ?_⟩
  · rw [h2]; exact (by simp [L4.val] : _ = (1 : ZMod P.m)).trans (denote_one hP).symm
  · rw [h2]; simp [L4.val]

/-- `3^5` in Fr, with no carry lost. -/
example : ∀ x ∈ squaredBy frParams (frParams.fromU64 3) (B256.toBits ⟨5, 0, 0, 0⟩) frParams.one, frParams.square x = frParams.mul x x := by
  decide +kernel

end Pow

end Kogarashi.Props
