import Verif.Curve.WeierstrassProof
import Verif.Field.SqrtProof
import Verif.Field.Value
import Verif.Props.PrimeField

/-!
# Properties C20–C25 and C29: short Weierstrass points

`b` is any field element; `b + b + b` is the constant `PARAM_3B` (`bn254/src/params.rs` line 12,
`g2.rs` line 11, `grumpkin/src/params.rs` line 18).
-/

namespace Kogarashi.Props

open Kogarashi Spec Curve Field Limbs

variable {F : Type} [Field F] [DecidableEq F] {b : F}

/-- The curves of the code: BN254 G1 is `y² = x³ + 3` over Fq, Grumpkin is `y² = x³ - 17` over Fr. -/
instance : Fact fqParams.m.Prime := ⟨fqParams_prime⟩
instance : Fact frParams.m.Prime := ⟨frParams_prime⟩

/-- Residues modulo the order of `Fq` and of `Fr`. -/
abbrev FqV := ZMod fqParams.m
abbrev FrV := ZMod frParams.m

/-- `G1_PARAM_B` (`bn254/src/params.rs` line 10). -/
def g1B : FqV := 3
/-- `G1_GENERATOR_X`, `G1_GENERATOR_Y` (`bn254/src/params.rs` lines 8-9). -/
def g1Gen : Aff FqV := ⟨1, 2, false⟩

/-- `PARAM_B` of Grumpkin (`grumpkin/src/params.rs` lines 13-18): the raw limbs denote -17. -/
def grumpkinB : FrV := -17

theorem denote_eq_of_mul {P : FieldParams} (hP : ValidParams P) {a : L4} {n : Nat}
    (h : a.val % P.m = n * 2 ^ 256 % P.m) : denote P a = (n : ZMod P.m) := by
  have hu := R_mul_inv hP
  unfold denote
  have : (a.val : ZMod P.m) = (n : ZMod P.m) * (montR : ZMod P.m) := by
    rw [← Nat.cast_mul, ZMod.natCast_eq_natCast_iff]
    unfold Nat.ModEq montR; exact h
  rw [this, mul_assoc, hu, mul_one]

/-! ### C20 -/

/-- **C20.** Affine + affine. -/
theorem C20_add_affine (h2 : (2 : F) ≠ 0) {p q : Aff F} {P Q : (curve b).Point} (hp : AffRep b p P)
    (hq : AffRep b q Q) : ProjRep b (addAffine (b + b + b) p q) (P + Q) := addAffine_rep h2 hp hq

/-- **C20.** Affine + projective. -/
theorem C20_add_mixed (h2 : (2 : F) ≠ 0) {p : Aff F} {q : Proj F} {P Q : (curve b).Point} (hp : AffRep b p P)
    (hq : ProjRep b q Q) : ProjRep b (addMixed (b + b + b) p q) (P + Q) := addMixed_rep h2 hp hq

/-- **C20.** Projective + projective. -/
theorem C20_add_projective (h2 : (2 : F) ≠ 0) {p q : Proj F} {P Q : (curve b).Point} (hp : ProjRep b p P)
    (hq : ProjRep b q Q) : ProjRep b (addProj (b + b + b) p q) (P + Q) := addProj_rep h2 hp hq

/-- **C20.** `Sum` over an iterator. -/
theorem C20_sum (h2 : (2 : F) ≠ 0) {ps : List (Proj F)} {Ps : List (curve b).Point}
    (h : List.Forall₂ (ProjRep b) ps Ps) : ProjRep b (sumProj (b + b + b) ps) Ps.sum := by
  have key : ∀ {ps : List (Proj F)} {Ps : List (curve b).Point}, List.Forall₂ (ProjRep b) ps Ps →
      ∀ acc Acc, ProjRep b acc Acc → ProjRep b (ps.foldl (addProj (b + b + b)) acc) (Acc + Ps.sum) := by
    intro ps Ps h
    induction h with
    | nil => intro acc Acc ha; simpa using ha
    | cons h1 _ ih =>
      intro acc Acc ha
      rw [List.foldl_cons, List.sum_cons, ← add_assoc]
      exact ih _ _ (addProj_rep h2 ha h1)
  have := key h Proj.identity 0 rfl
  rw [zero_add] at this
  exact this

/-! ### C21 -/

/-- **C21.** Doubling a projective point, in every representation, including the identity and points of
order two. -/
theorem C21_double_projective (h2 : (2 : F) ≠ 0) {p : Proj F} {P : (curve b).Point} (h : ProjRep b p P) :
    ProjRep b (doubleProj (b + b + b) p) (P + P) := doubleProj_rep h2 h

/-- **C21, affine.** Doubling an affine point other than the identity. -/
theorem C21_double_affine_partial (h2 : (2 : F) ≠ 0) {p : Aff F} (hp : p.isIdentity = false)
    {P : (curve b).Point} (h : AffRep b p P) : ProjRep b (doubleAffine (b + b + b) p) (P + P) :=
  doubleAffine_rep h2 hp h

/-- **C21 is false of the affine identity**: `ADDITIVE_IDENTITY.double()` is not the identity, on any
curve. -/
theorem C21_double_affine_identity_refuted (h2 : (2 : F) ≠ 0) :
    AffRep b (Aff.identity : Aff F) 0 ∧
      ¬ ProjRep b (doubleAffine (b + b + b) (Aff.identity : Aff F)) ((0 : (curve b).Point) + 0) := by
  refine ⟨rfl, ?_⟩
  rw [add_zero, projRep_zero]
  simp only [doubleAffine, Aff.identity, Curve.sq, dbl]
  have h8 : (8 : F) ≠ 0 := by
    have : (8 : F) = 2 * 2 * 2 := by norm_num
    rw [this]; exact mul_ne_zero (mul_ne_zero h2 h2) h2
  intro h
  apply h8
  linear_combination h

/-! ### C22 -/

/-- **C22.** `point * scalar` for the 256-bit back end: it never panics and represents the canonical value
of the scalar times the point. -/
theorem C22_scalar_mul (h2 : (2 : F) ≠ 0) {S : FieldParams} (hS : ValidParams S) {k : L4} (hk : Canonical S k)
    {p : Proj F} {P : (curve b).Point} (hp : ProjRep b p P) :
    ∃ nafs, S.toNafs k = some nafs ∧ ProjRep b (scalarPoint (b + b + b) p nafs) (value S k • P) := by
  obtain ⟨ds, h1, h3, -⟩ := C09_naf_partial hS hk
  refine ⟨ds, h1, ?_⟩
  have := scalarPoint_rep h2 hp ds
  rw [h3] at this
  simpa using this

/-- **C22**, affine operands (`G1Affine * Fr`, through `to_extended`). -/
theorem C22_scalar_mul_affine (h2 : (2 : F) ≠ 0) {S : FieldParams} (hS : ValidParams S) {k : L4}
    (hk : Canonical S k) {p : Aff F} {P : (curve b).Point} (hp : AffRep b p P) :
    ∃ nafs, S.toNafs k = some nafs ∧
      ProjRep b (scalarPoint (b + b + b) p.toExtended nafs) (value S k • P) :=
  C22_scalar_mul h2 hS hk (toExtended_rep hp)

/-- **C22 is false with the 384-bit back end**: the recoding is read in the wrong direction, and twice a
point comes out as the point itself, for every point. -/
theorem C22_scalar_mul384_refuted (h2 : (2 : F) ≠ 0) {p : Proj F} {P : (curve b).Point} (hp : ProjRep b p P)
    (h0 : P ≠ 0) :
    ∃ (v : L6) (nafs : List Naf), v.Wf ∧ B384.toNafs v = some nafs ∧ v.val = 2 ∧
      ¬ ProjRep b (scalarPoint (b + b + b) p nafs) (v.val • P) := by
  refine ⟨⟨2, 0, 0, 0, 0, 0⟩, [.zero, .plus], by decide, by decide +kernel, rfl, ?_⟩
  have h1 := scalarPoint_rep h2 hp [.zero, .plus]
  rw [show nafValue [.zero, .plus] = 1 by decide, one_zsmul] at h1
  intro h
  have := (projEq_iff h1 h).mp ((projEq_iff h1 h1).mpr rfl)
  apply h0
  rw [show (L6.mk 2 0 0 0 0 0).val = 2 from rfl, two_nsmul] at this
  exact left_eq_add.mp this

/-! ### C23 -/

/-- **C23.** Negation. -/
theorem C23_neg {p : Proj F} {a : Aff F} {P A : (curve b).Point} (hp : ProjRep b p P) (ha : AffRep b a A) :
    ProjRep b p.neg (-P) ∧ AffRep b a.neg (-A) := ⟨neg_rep hp, affNeg_rep ha⟩

/-- **C23.** Subtraction: every operator variant except the three by-reference `affine - projective` ones. -/
theorem C23_sub_partial (h2 : (2 : F) ≠ 0) {p q : Proj F} {a c : Aff F} {P Q A C : (curve b).Point}
    (hp : ProjRep b p P) (hq : ProjRep b q Q) (ha : AffRep b a A) (hc : AffRep b c C) :
    (ProjRep b (affSubAff (b + b + b) a c) (A - C) ∧ ProjRep b (affSubAffRR (b + b + b) a c) (A - C) ∧
      ProjRep b (affSubAffVR (b + b + b) a c) (A - C) ∧ ProjRep b (affSubAffRV (b + b + b) a c) (A - C)) ∧
    (ProjRep b (projSubProj (b + b + b) p q) (P - Q) ∧ ProjRep b (projSubProjRR (b + b + b) p q) (P - Q) ∧
      ProjRep b (projSubProjVR (b + b + b) p q) (P - Q) ∧ ProjRep b (projSubProjRV (b + b + b) p q) (P - Q) ∧
      ProjRep b (projSubAssign (b + b + b) p q) (P - Q)) ∧
    (ProjRep b (projSubAff (b + b + b) p a) (P - A) ∧ ProjRep b (projSubAffRR (b + b + b) p a) (P - A) ∧
      ProjRep b (projSubAffVR (b + b + b) p a) (P - A) ∧ ProjRep b (projSubAffRV (b + b + b) p a) (P - A) ∧
      ProjRep b (projSubAssignAff (b + b + b) p a) (P - A)) ∧
    ProjRep b (affSubProj (b + b + b) a p) (A - P) := by
  have h1 : ProjRep b (affSubAff (b + b + b) a c) (A - C) := by
    rw [sub_eq_add_neg]; exact addAffine_rep h2 ha (affNeg_rep hc)
  have h3 : ProjRep b (projSubProj (b + b + b) p q) (P - Q) := by
    rw [sub_eq_add_neg]; exact addProj_rep h2 hp (neg_rep hq)
  have h4 : ProjRep b (projSubAff (b + b + b) p a) (P - A) := by
    rw [sub_eq_add_neg, add_comm P]; exact addMixed_rep h2 (affNeg_rep ha) hp
  have h5 : ProjRep b (affSubProj (b + b + b) a p) (A - P) := by
    rw [sub_eq_add_neg]; exact addMixed_rep h2 ha (neg_rep hp)
  exact ⟨⟨h1, h1, h1, h1⟩, ⟨h3, h3, h3, h3, h3⟩, ⟨h4, h4, h4, h4, h4⟩, h5⟩

/-- **C23 is false of the three by-reference `affine - projective` operators**: they add, so on any curve
they are wrong for every subtrahend that is not of order two. -/
theorem C23_mixed_refuted (h2 : (2 : F) ≠ 0) {p : Proj F} {a : Aff F} {P A : (curve b).Point}
    (hp : ProjRep b p P) (ha : AffRep b a A) (h0 : P + P ≠ 0) :
    ¬ ProjRep b (affSubProjRR (b + b + b) a p) (A - P) ∧ ¬ ProjRep b (affSubProjVR (b + b + b) a p) (A - P) ∧
      ¬ ProjRep b (affSubProjRV (b + b + b) a p) (A - P) := by
  have h1 : ¬ ProjRep b (affSubProjRR (b + b + b) a p) (A - P) := by
    intro h
    have h' : ProjRep b (affSubProjRR (b + b + b) a p) (A + P) := addMixed_rep h2 ha hp
    have := (projEq_iff h' h).mp ((projEq_iff h' h').mpr rfl)
    apply h0
    rw [sub_eq_add_neg, add_right_inj] at this
    rw [eq_neg_iff_add_eq_zero] at this
    exact this
  exact ⟨h1, h1, h1⟩

/-! ### C24 -/

/-- **C24.** Equality decides equality of the represented points. -/
theorem C24_eq {p q : Proj F} {a c : Aff F} {P Q A C : (curve b).Point}
    (hp : ProjRep b p P) (hq : ProjRep b q Q) (ha : AffRep b a A) (hc : AffRep b c C) :
    (p.eq q = true ↔ P = Q) ∧ (a.eq c = true ↔ A = C) := ⟨projEq_iff hp hq, affEq_iff ha hc⟩

/-- **C24.** The conversions keep the represented point, in both directions. -/
theorem C24_conversions {p : Proj F} {a : Aff F} {P A : (curve b).Point} (hp : ProjRep b p P)
    (ha : AffRep b a A) :
    AffRep b p.toAffine P ∧ ProjRep b a.toExtended A ∧ a.toExtended.toAffine.eq a = true ∧
      p.toAffine.toExtended.eq p = true :=
  ⟨toAffine_rep hp, toExtended_rep ha, (affEq_iff (toAffine_rep (toExtended_rep ha)) ha).mpr rfl,
    (projEq_iff (toExtended_rep (toAffine_rep hp)) hp).mpr rfl⟩

/-- **C24.** Normalisation depends only on the point (coordinates are unique except for the identity,
which normalises to one fixed struct). -/
theorem C24_normal_form {p q : Proj F} {P : (curve b).Point} (hp : ProjRep b p P) (hq : ProjRep b q P) :
    p.toAffine = q.toAffine := by
  cases P with
  | zero =>
    have h1 : p.z = 0 := hp
    have h2 : q.z = 0 := hq
    simp [Proj.toAffine, h1, h2]
  | some x y h =>
    obtain ⟨p1, p2, p3⟩ := hp
    obtain ⟨q1, q2, q3⟩ := hq
    have e : ∀ {z v : F}, z ≠ 0 → v * z * z⁻¹ = v := fun hz => by field_simp
    simp only [Proj.toAffine, if_neg p1, if_neg q1, p2, p3, q2, q3, e p1, e q1]

/-- **C24.** `batch_normalize` normalises every entry, for slices of every (equal) length, and panics
otherwise. -/
theorem C24_batch_normalize (ps : List (Proj F)) (qs : List (Aff F)) :
    (ps.length = qs.length → batchNormalize ps qs = some (ps.map Proj.toAffine)) ∧
    (ps.length ≠ qs.length → batchNormalize ps qs = none) := by
  unfold batchNormalize
  refine ⟨fun h => ?_, fun h => by rw [if_neg h]⟩
  rw [if_pos h]
  congr 1
  induction ps generalizing qs with
  | nil => rfl
  | cons p ps ih =>
    cases qs with
    | nil => simp at h
    | cons q qs => simp only [List.zip_cons_cons, List.map_cons]; rw [ih qs (by simpa using h)]

/-! ### C25 -/

/-- **C25, Weierstrass.** `is_on_curve` is true exactly of the coordinate tuples that represent a point of
the curve (which is nonsingular in characteristic other than 2 and 3 when `b ≠ 0`). -/
theorem C25_weierstrass (h2 : (2 : F) ≠ 0) (h3 : (3 : F) ≠ 0) (hb : b ≠ 0) (p : Proj F) (a : Aff F) :
    (p.isOnCurve b = true ↔ ∃ P, ProjRep b p P) ∧ (a.isOnCurve b = true ↔ ∃ A, AffRep b a A) :=
  ⟨projOnCurve_iff h2 h3 hb p, affOnCurve_iff h2 h3 hb a⟩

/-! ### The curves of the code meet the hypotheses -/

theorem g1_two : (2 : FqV) ≠ 0 := by decide +kernel
theorem g1_three : (3 : FqV) ≠ 0 := by decide +kernel
theorem g1_b : g1B ≠ 0 := by decide +kernel
theorem grumpkin_two : (2 : FrV) ≠ 0 := by decide +kernel
theorem grumpkin_three : (3 : FrV) ≠ 0 := by decide +kernel
theorem grumpkin_b : grumpkinB ≠ 0 := by decide +kernel

/-- The raw constants of Grumpkin denote `b = -17`, and its generator is on the curve. -/
theorem grumpkin_params :
    denote frParams ⟨0xdd7056026000005a, 0x223fa97acb319311, 0xcc388229877910c0, 0x034394632b724eaa⟩ = grumpkinB ∧
    (Aff.isOnCurve grumpkinB ⟨1, denote frParams ⟨0x11b2dff1448c41d8, 0x23d3446f21c77dc3, 0xaa7b8cf435dfafbb,
      0x14b34cf69dc25d68⟩, false⟩ = true) := by
  have e1 : denote frParams ⟨0xdd7056026000005a, 0x223fa97acb319311, 0xcc388229877910c0, 0x034394632b724eaa⟩ =
      ((frParams.m - 17 : ℕ) : ZMod frParams.m) := denote_eq_of_mul frParams_valid (by decide +kernel)
  have e2 : denote frParams ⟨0x11b2dff1448c41d8, 0x23d3446f21c77dc3, 0xaa7b8cf435dfafbb, 0x14b34cf69dc25d68⟩ =
      ((17631683881184975370165255887551781615748388533673675138860 : ℕ) : ZMod frParams.m) :=
    denote_eq_of_mul frParams_valid (by decide +kernel)
  rw [e1, e2]
  exact ⟨by decide +kernel, by decide +kernel⟩

/-- The generator of G1 as a point of the group. -/
noncomputable def g1Point : (curve g1B).Point :=
  .some 1 2 (nonsingular_of_eq g1_two g1_three g1_b (by decide +kernel))

theorem g1Gen_rep : AffRep g1B g1Gen g1Point := ⟨rfl, rfl, rfl⟩

/-- The digits of the group order. -/
def orderNaf : List Naf := (B256.toNafs frParams.p).getD []

theorem smul_eq_zero_of_run (h2 : (2 : F) ≠ 0) {p : Proj F} {P : (curve b).Point} (hp : ProjRep b p P)
    {ds : List Naf} {n : Nat} (hv : nafValue ds = (n : Int)) (hz : (scalarPoint (b + b + b) p ds).z = 0) :
    n • P = 0 := by
  have h := scalarPoint_rep h2 hp ds
  rw [hv, natCast_zsmul] at h
  have h0 : ProjRep b (scalarPoint (b + b + b) p ds) 0 := hz
  exact (projEq_iff h h0).mp ((projEq_iff h h).mpr rfl)

/-- The order of Fr times the generator is the identity. -/
theorem g1_order : frParams.m • g1Point = 0 :=
  smul_eq_zero_of_run (ds := orderNaf) g1_two (toExtended_rep g1Gen_rep) (by decide +kernel) (by decide +kernel)

/-- C20–C24: hypotheses met by the generator, a rescaled double of it and the identity. -/
example : AffRep g1B g1Gen g1Point ∧ ProjRep g1B (doubleProj (g1B + g1B + g1B) g1Gen.toExtended) (g1Point + g1Point) ∧
    ProjRep g1B (⟨5, 7, 0⟩ : Proj FqV) 0 ∧ g1Point ≠ 0 ∧ g1Point + g1Point ≠ 0 := by
  have hd := doubleProj_rep g1_two (toExtended_rep g1Gen_rep)
  refine ⟨g1Gen_rep, hd, rfl, WeierstrassCurve.Affine.Point.some_ne_zero _, fun h => ?_⟩
  rw [h] at hd
  have : (doubleProj (g1B + g1B + g1B) g1Gen.toExtended).z ≠ 0 := by decide +kernel
  exact this hd

/-! ### C29 -/

/-- **C29 is false.** The generator of G1 has order dividing the prime order of Fr, yet
`is_torsion_free` is false for it — whatever the value of the constant `BETA`. -/
theorem C29_g1_refuted :
    AffRep g1B g1Gen g1Point ∧ frParams.m.Prime ∧ frParams.m • g1Point = 0 ∧ g1Point ≠ 0 ∧
      ∀ beta : FqV, isTorsionFree (g1B + g1B + g1B) beta g1Gen = false := by
  refine ⟨g1Gen_rep, frParams_prime, g1_order, WeierstrassCurve.Affine.Point.some_ne_zero _, fun beta => ?_⟩
  have h1 : (mulByX (g1B + g1B + g1B) (mulByX (g1B + g1B + g1B) g1Gen.toExtended)).neg.z ≠ 0 := by
    decide +kernel
  have h2 : (mulByX (g1B + g1B + g1B) (mulByX (g1B + g1B + g1B) g1Gen.toExtended)).neg.y * 1 ≠
      2 * (mulByX (g1B + g1B + g1B) (mulByX (g1B + g1B + g1B) g1Gen.toExtended)).neg.z := by
    decide +kernel
  unfold isTorsionFree
  generalize (mulByX (g1B + g1B + g1B) (mulByX (g1B + g1B + g1B) g1Gen.toExtended)).neg = m at *
  simp only [g1Gen, Aff.toExtended, Aff.isIdentity, Bool.false_eq_true, if_false, Proj.eq, Proj.isIdentity,
    decide_eq_false h1, decide_eq_false (one_ne_zero : (1 : FqV) ≠ 0), Bool.or_self, decide_eq_false h2, Bool.and_false]

/-- **C29, the cause.** `mul_by_x` skips the lowest bit of the (odd) parameter: it multiplies by
`-(BN_X - 1)` instead of `-BN_X`. -/
theorem C29_mul_by_x_partial (h2 : (2 : F) ≠ 0) {p : Proj F} {P : (curve b).Point} (hp : ProjRep b p P) :
    ProjRep b (mulByX (b + b + b) p) (-((BN_X - 1) • P)) := by
  have h := mulByXLoop_rep h2 (P := P) 64 (BN_X / 2) p Proj.identity 1 0 (by decide) (by rwa [one_smul])
    (by rw [zero_smul]; rfl)
  have e : 0 + 2 * 1 * (BN_X / 2) = BN_X - 1 := by decide
  rw [e] at h
  exact neg_rep h

end Kogarashi.Props
