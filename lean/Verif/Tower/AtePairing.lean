import Verif.Curve.Divisor
import Verif.Curve.Extension
import Verif.Tower.Ate
import Mathlib.RingTheory.RootsOfUnity.Basic

/-!
# Bilinearity of the ate pairing, for any curve on which the power kills vertical lines (lemmas)
-/

namespace Kogarashi.Tower

open Spec Curve WeierstrassCurve.Affine

variable {K : Type} [Field K] [DecidableEq K] {b : K}

/-- Two groups of points and a power that make the ate pairing bilinear. -/
structure AteSetting (b : K) where
  T : AddSubgroup (curve b).Point
  S : AddSubgroup (curve b).Point
  E : Nat
  r : Nat
  q : Nat
  m : Int
  four : 4 ∣ E
  epos : E ≠ 0
  kill : ∀ A ∈ T, ∀ P ∈ S, xdiff A P ^ E = 1
  root : ∀ z : K, z ≠ 0 → (z ^ E) ^ r = 1
  σ : K →+* K
  hσ : ∀ z, σ z = z ^ q
  hb : b = σ b * 1 ^ 6
  mapT : ∀ A ∈ T, scale σ one_ne_zero hb A ∈ T
  mapS : ∀ P ∈ S, scale σ one_ne_zero hb P = P
  rel : ∀ A ∈ T, m • A + scale σ one_ne_zero hb A + -scale σ one_ne_zero hb (scale σ one_ne_zero hb A) +
    scale σ one_ne_zero hb (scale σ one_ne_zero hb (scale σ one_ne_zero hb A)) = 0
  rdvd : (r : Int) ∣ m + q - q ^ 2 + q ^ 3

namespace AteSetting

variable (Z : AteSetting b)

/-- The Frobenius map. -/
noncomputable def fr : (curve b).Point →+ (curve b).Point := scale Z.σ one_ne_zero Z.hb

/-- The Frobenius map on `T`. -/
noncomputable def frT : Z.T →+ Z.T := (Z.fr.comp Z.T.subtype).codRestrict Z.T (fun A => Z.mapT A A.2)

@[simp] theorem frT_coe (A : Z.T) : (Z.frT A : (curve b).Point) = Z.fr A := rfl

theorem fr_injective : Function.Injective Z.fr := scale_injective _ _ _

/-- The values. -/
abbrev M := rootsOfUnity Z.r K

theorem M_ext {c d : Z.M} (h : ((c : Kˣ) : K) = ((d : Kˣ) : K)) : c = d := Subtype.ext (Units.ext h)

theorem M_pow (c : Z.M) : c ^ Z.r = 1 := Subtype.ext ((mem_rootsOfUnity _ _).mp c.2)

/-- The final power, as a root of unity. -/
def toM (z : K) : Z.M :=
  if h : z = 0 then 1
  else ⟨Units.mk0 (z ^ Z.E) (pow_ne_zero _ h), by
    rw [mem_rootsOfUnity]; exact Units.ext (by simpa using Z.root z h)⟩

theorem toM_coe {z : K} (h : z ≠ 0) : ((Z.toM z : Kˣ) : K) = z ^ Z.E := by
  rw [toM, dif_neg h]; rfl

variable {Z} in
theorem kill' {A P : (curve b).Point} (hA : A ∈ Z.T) (hP : P ∈ Z.S) : xdiff P A ^ Z.E = 1 :=
  (xdiff_symm Z.four _ _).trans (Z.kill A hA P hP)

variable {Z} in
theorem ev_ne_zero {A B P : (curve b).Point} (hA : A ∈ Z.T) (hB : B ∈ Z.T) (hP : P ∈ Z.S) : ev A B P ≠ 0 := by
  intro h
  have := ev_neg_kill Z.four (Z.kill A hA P hP) (Z.kill B hB P hP) (Z.kill _ (add_mem hA hB) P hP)
  rw [h, zero_pow Z.epos, zero_mul] at this
  exact zero_ne_one this

variable {Z} in
theorem ev_ne_zero' {A P Q : (curve b).Point} (hA : A ∈ Z.T) (hP : P ∈ Z.S) (hQ : Q ∈ Z.S) : ev P Q A ≠ 0 := by
  intro h
  have := ev_neg_kill Z.four (kill' hA hP) (kill' hA hQ) (kill' hA (add_mem hP hQ))
  rw [h, zero_pow Z.epos, zero_mul] at this
  exact zero_ne_one this

/-- Lines through points of `T`, at a point of `S`. -/
def cocycle (P : Z.S) : Cocycle Z.T Z.M where
  c A B := Z.toM (ev (A : (curve b).Point) B P)
  zero A := by
    rw [AddSubgroup.coe_zero, ev_zero_left]
    exact Z.M_ext (by rw [Z.toM_coe one_ne_zero, one_pow]; rfl)
  symm A B := by rw [ev_symm]
  assoc A B C := by
    apply Z.M_ext
    simp only [Subgroup.coe_mul, Units.val_mul, AddSubgroup.coe_add]
    rw [Z.toM_coe (ev_ne_zero A.2 B.2 P.2), Z.toM_coe (ev_ne_zero (add_mem A.2 B.2) C.2 P.2),
      Z.toM_coe (ev_ne_zero B.2 C.2 P.2), Z.toM_coe (ev_ne_zero A.2 (add_mem B.2 C.2) P.2)]
    exact ev_cocycle Z.four (Z.kill _ A.2 _ P.2) (Z.kill _ B.2 _ P.2) (Z.kill _ C.2 _ P.2)
      (Z.kill _ (add_mem A.2 B.2) _ P.2) (Z.kill _ (add_mem B.2 C.2) _ P.2)

theorem cocycle_coe (P : Z.S) (A B : Z.T) :
    (((Z.cocycle P).c A B : Kˣ) : K) = ev (A : (curve b).Point) B P ^ Z.E := Z.toM_coe (ev_ne_zero A.2 B.2 P.2)

theorem ev_fr (A B P : (curve b).Point) : ev (Z.fr A) (Z.fr B) (Z.fr P) = ev A B P ^ Z.q := by
  by_cases h : A + B = 0
  · rw [ev_opp h, ev_opp (by rw [← map_add, h, map_zero]), one_pow]
  by_cases hA : A = 0
  · rw [hA, map_zero, ev_zero_left, ev_zero_left, one_pow]
  by_cases hB : B = 0
  · rw [hB, map_zero, ev_zero_mid, ev_zero_mid, one_pow]
  by_cases hP : P = 0
  · rw [hP, map_zero, ev_zero_right, ev_zero_right, one_pow]
  unfold fr
  rw [ev_scale Z.σ one_ne_zero Z.hb hA hB hP h, one_pow, mul_one, Z.hσ]

theorem equivariant (P : Z.S) : Equivariant (Z.cocycle P) Z.frT Z.q := by
  refine ⟨fun A B => Z.M_ext ?_⟩
  have e : ev (Z.fr A) (Z.fr B) (P : (curve b).Point) = ev (A : (curve b).Point) B P ^ Z.q := by
    have := Z.ev_fr A B P
    rwa [show Z.fr (P : (curve b).Point) = P from Z.mapS P P.2] at this
  rw [cocycle_coe, frT_coe, frT_coe, e, Subgroup.coe_pow, Units.val_pow_eq_pow_val, cocycle_coe, ← pow_mul, ← pow_mul,
    mul_comm]

theorem rel' (A : Z.T) : Z.m • A + Z.frT A + -Z.frT (Z.frT A) + Z.frT (Z.frT (Z.frT A)) = 0 :=
  Subtype.ext (Z.rel A A.2)

/-- The pairing. -/
noncomputable def pair (A : Z.T) (P : Z.S) : Z.M := ate (Z.equivariant P) Z.m A

theorem pair_add_left (A B : Z.T) (P : Z.S) : Z.pair (A + B) P = Z.pair A P * Z.pair B P :=
  ate_add (Z.equivariant P) Z.m Z.rel' Z.M_pow Z.rdvd A B

theorem pair_add_right (A : Z.T) (P Q : Z.S) : Z.pair A (P + Q) = Z.pair A P * Z.pair A Q := by
  refine (ate_mul (Z.equivariant P) (Z.equivariant Q) (Z.equivariant (P + Q)) Z.m Z.rel' Z.M_pow Z.rdvd
    (fun A => Z.toM (ev (P : (curve b).Point) Q A)) ?_ (fun A B => ?_) (fun A => ?_) A).symm
  · rw [AddSubgroup.coe_zero, ev_zero_right]
    exact Z.M_ext (by rw [Z.toM_coe one_ne_zero, one_pow]; rfl)
  · apply Z.M_ext
    simp only [Subgroup.coe_mul, Units.val_mul, cocycle_coe, AddSubgroup.coe_add]
    rw [Z.toM_coe (ev_ne_zero' (add_mem A.2 B.2) P.2 Q.2), Z.toM_coe (ev_ne_zero' A.2 P.2 Q.2),
      Z.toM_coe (ev_ne_zero' B.2 P.2 Q.2)]
    apply ev_bimul Z.four
    intro U hU V hV
    refine Z.kill U ?_ V ?_
    · simp only [List.mem_cons, List.not_mem_nil, or_false] at hU
      rcases hU with rfl | rfl | rfl
      exacts [A.2, B.2, add_mem A.2 B.2]
    · simp only [List.mem_cons, List.not_mem_nil, or_false] at hV
      rcases hV with rfl | rfl | rfl
      exacts [P.2, Q.2, add_mem P.2 Q.2]
  · apply Z.M_ext
    have e : ev (P : (curve b).Point) Q (Z.fr A) = ev (P : (curve b).Point) Q A ^ Z.q := by
      have := Z.ev_fr P Q A
      rwa [show Z.fr (P : (curve b).Point) = P from Z.mapS P P.2, show Z.fr (Q : (curve b).Point) = Q from Z.mapS Q Q.2]
        at this
    rw [frT_coe, e, Subgroup.coe_pow, Units.val_pow_eq_pow_val, Z.toM_coe (ev_ne_zero' A.2 P.2 Q.2),
      Z.toM_coe (pow_ne_zero _ (ev_ne_zero' A.2 P.2 Q.2)), ← pow_mul, ← pow_mul, mul_comm]

/-- The element of the extension above a point. -/
abbrev lift (P : Z.S) (A : Z.T) : Ext (Z.cocycle P) := ⟨A, 1⟩

theorem lift_inv (P : Z.S) (A : Z.T) : (Z.lift P A)⁻¹ = Z.lift P (-A) := by
  refine Ext.ext rfl ?_
  rw [Ext.inv_val]
  apply Z.M_ext
  have : (Z.cocycle P).c (-A) A = 1 := Z.M_ext (by
    rw [cocycle_coe, ev_opp (by rw [AddSubgroup.coe_neg, neg_add_cancel]), one_pow]; rfl)
  rw [this]; simp

theorem miller_step (P : Z.S) {px py : K} {hP : (curve b).Nonsingular px py} (hPe : (P : (curve b).Point) = .some px py hP)
    (A : Z.T) (hr : ∀ k : Int, k • (A : (curve b).Point) = 0 ↔ (Z.r : Int) ∣ k) :
    ∀ (ds : List Int) (k : Int) (f : K), regular Z.r ds k = true → f ^ Z.E = (((Z.lift P A ^ k).val : Kˣ) : K) →
      (ds.foldl (millerStep (A : (curve b).Point) px py) (k • (A : (curve b).Point), f)).1 =
        (ds.foldl (fun n d => 2 * n + d) k) • (A : (curve b).Point) ∧
      (ds.foldl (millerStep (A : (curve b).Point) px py) (k • (A : (curve b).Point), f)).2 ^ Z.E =
        (((Z.lift P A ^ (ds.foldl (fun n d => 2 * n + d) k)).val : Kˣ) : K) := by
  intro ds
  induction ds with
  | nil => exact fun k f _ hf => ⟨rfl, hf⟩
  | cons d ds ih =>
    intro k f hreg hf
    rw [List.foldl_cons, List.foldl_cons]
    simp only [regular, Bool.and_eq_true, decide_eq_true_eq, Bool.or_eq_true] at hreg
    obtain ⟨⟨⟨hd, h2⟩, h3⟩, hrest⟩ := hreg
    have hk : k • (A : (curve b).Point) ≠ 0 := fun e => h2 ((hr k).mp e |>.mul_left 2)
    have e2 : k • (A : (curve b).Point) + k • (A : (curve b).Point) = (2 * k) • (A : (curve b).Point) := by
      rw [two_mul, add_zsmul]
    have hkk : k • (A : (curve b).Point) + k • (A : (curve b).Point) ≠ 0 := by
      rw [e2]; exact fun e => h2 ((hr _).mp e)
    have hdbl : (f ^ 2 * lineValue (k • (A : (curve b).Point)) (k • (A : (curve b).Point)) px py) ^ Z.E =
        (((Z.lift P A ^ (2 * k)).val : Kˣ) : K) := by
      rw [two_mul, zpow_add, Ext.mul_val, Subgroup.coe_mul, Subgroup.coe_mul, Units.val_mul, Units.val_mul, ← hf,
        cocycle_coe, Ext.zpow_pt, hPe, ev_lineValue hk hk hkk hP, mul_pow, ← pow_mul, mul_comm 2, pow_mul, pow_two]
      rfl
    have hA : (1 : Int) ≠ 0 → (A : (curve b).Point) ≠ 0 := by
      intro _ e
      exact hk (by rw [e, zsmul_zero])
    have hA := hA one_ne_zero
    unfold millerStep
    simp only
    rcases hd with rfl | rfl | rfl
    · rw [if_neg (by decide), if_neg (by decide), add_zero, e2]
      rw [add_zero] at hrest
      exact ih _ _ hrest hdbl
    · rw [if_pos rfl, e2]
      have e3 : (2 * k) • (A : (curve b).Point) + (A : (curve b).Point) = (2 * k + 1) • (A : (curve b).Point) := by
        rw [add_zsmul, one_zsmul]
      have hn : (2 * k) • (A : (curve b).Point) + (A : (curve b).Point) ≠ 0 := by
        rw [e3]
        intro e
        rcases h3 with h | h
        · exact absurd h (by decide)
        · exact h.2 ((hr _).mp e)
      have hv := ev_lineValue (e2 ▸ hkk) hA hn hP
      rw [e3]
      apply ih _ _ hrest
      rw [mul_pow, hdbl, hv, zpow_add, zpow_one, Ext.mul_val, Subgroup.coe_mul, Subgroup.coe_mul, Units.val_mul,
        Units.val_mul, cocycle_coe, Ext.zpow_pt, hPe]
      simp
    · rw [if_neg (by decide), if_pos rfl, e2]
      have e3 : (2 * k) • (A : (curve b).Point) + -(A : (curve b).Point) = (2 * k + -1) • (A : (curve b).Point) := by
        rw [add_zsmul, neg_zsmul, one_zsmul]
      have hn : (2 * k) • (A : (curve b).Point) + -(A : (curve b).Point) ≠ 0 := by
        rw [e3]
        intro e
        rcases h3 with h | h
        · exact absurd h (by decide)
        · exact h.2 ((hr _).mp e)
      have hv := ev_lineValue (e2 ▸ hkk) (neg_ne_zero.mpr hA) hn hP
      rw [e3]
      apply ih _ _ hrest
      rw [mul_pow, hdbl, hv, zpow_add, zpow_neg, zpow_one, lift_inv, Ext.mul_val, Subgroup.coe_mul, Subgroup.coe_mul,
        Units.val_mul, Units.val_mul, cocycle_coe, Ext.zpow_pt, hPe]
      simp

/-- The power of the optimal ate pairing of the literature is the pairing. -/
theorem optimalAte_pow (P : Z.S) {px py : K} {hP : (curve b).Nonsingular px py}
    (hPe : (P : (curve b).Point) = .some px py hP) (A : Z.T) (hA : A ≠ 0)
    (hr : ∀ k : Int, k • (A : (curve b).Point) = 0 ↔ (Z.r : Int) ∣ k) {ds : List Int}
    (hreg : regular Z.r ds 1 = true) (hm : ds.foldl (fun n d => 2 * n + d) (1 : Int) = Z.m)
    (h1 : Z.m • (A : (curve b).Point) ≠ 0) (h2 : Z.m • (A : (curve b).Point) + Z.fr A ≠ 0) :
    optimalAte ds Z.fr (A : (curve b).Point) px py ^ Z.E = ((Z.pair A P : Kˣ) : K) := by
  obtain ⟨m1, m2⟩ := Z.miller_step P hPe A hr ds 1 1 hreg (by rw [zpow_one, one_pow]; rfl)
  rw [one_zsmul, hm] at m1 m2
  have hA' : (A : (curve b).Point) ≠ 0 := fun e => hA (Subtype.ext e)
  have i0 : ∀ {V : (curve b).Point}, V ≠ 0 → Z.fr V ≠ 0 := fun hV e => hV (Z.fr_injective (e.trans (map_zero _).symm))
  have h3 : Z.m • (A : (curve b).Point) + Z.fr A + -Z.fr (Z.fr A) ≠ 0 := by
    intro e
    have := Z.rel A A.2
    change Z.m • (A : (curve b).Point) + Z.fr A + -Z.fr (Z.fr A) + Z.fr (Z.fr (Z.fr A)) = 0 at this
    rw [e, zero_add] at this
    exact i0 (i0 (i0 hA')) this
  unfold optimalAte miller
  simp only
  rw [m1, mul_pow, mul_pow, m2, ev_lineValue h1 (i0 hA') h2 hP, ev_lineValue h2 (neg_ne_zero.mpr (i0 (i0 hA'))) h3 hP]
  unfold pair ate
  have a1 : act (Z.equivariant P) (Z.lift P A) = Z.lift P (Z.frT A) := Ext.ext rfl (by rw [act_val, one_pow])
  have a2 : act (Z.equivariant P) (Z.lift P (Z.frT A)) = Z.lift P (Z.frT (Z.frT A)) :=
    Ext.ext rfl (by rw [act_val, one_pow])
  have a3 : act (Z.equivariant P) (Z.lift P (Z.frT (Z.frT A))) = Z.lift P (Z.frT (Z.frT (Z.frT A))) :=
    Ext.ext rfl (by rw [act_val, one_pow])
  rw [ateHom_apply, a1, a2, a3, lift_inv, Ext.mul_val, Ext.mul_val, Ext.mul_val]
  simp only [Subgroup.coe_mul, Units.val_mul, cocycle_coe, Ext.mul_pt, Ext.zpow_pt, AddSubgroup.coe_add, AddSubgroup.coe_neg,
    AddSubgroup.coe_zsmul, frT_coe, hPe]
  have hl : ev (Z.m • (A : (curve b).Point) + Z.fr A + -Z.fr (Z.fr A)) (Z.fr (Z.fr (Z.fr A))) (.some px py hP) = 1 :=
    ev_opp (Z.rel A A.2) _
  rw [hl]
  simp

end AteSetting

end Kogarashi.Tower
