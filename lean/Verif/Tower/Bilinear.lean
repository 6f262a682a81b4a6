import Verif.Tower.AtePairing
import Verif.Tower.G2

/-!
# The pairing of the code is bilinear (lemmas)
-/

namespace Kogarashi.Tower

open Spec Curve WeierstrassCurve.Affine Kogarashi.Field Limbs Props

/-! ### The torsion of the twist is cyclic -/

section Count

variable {F : Type} [Field F] [DecidableEq F] [Finite F] {b : F}

theorem zmultiples_of_count {r : Nat} (hp : r.Prime) {G A R : (curve b).Point} (hG : r • G = 0) (hG0 : G ≠ 0)
    (hA : r • A = 0) (hR : r • R ≠ 0) (hR2 : 2 • r • R ≠ 0) (hc : 2 * Nat.card F + 1 < 3 * (r * r)) :
    ∃ k : Int, A = k • G := by
  by_contra hn
  let f : Fin r × Fin r × Fin 3 → (curve b).Point := fun t =>
    ((t.1 : Nat) : Int) • A + ((t.2.1 : Nat) : Int) • G + ((t.2.2 : Nat) : Int) • R
  have hf : Function.Injective f := by
    rintro ⟨i, j, k⟩ ⟨i', j', k'⟩ h
    simp only [f] at h
    have hr := congrArg (fun V => (r : Int) • V) h
    simp only [zsmul_add] at hr
    have c : ∀ (n : Int) (V : (curve b).Point), (r : Int) • n • V = n • r • V := fun n V => by
      rw [← natCast_zsmul V r, ← mul_zsmul, ← mul_zsmul, mul_comm]
    rw [c, c, c, c, c, c, hA, hG] at hr
    simp only [zsmul_zero, zero_add] at hr
    have hk : k = k' := by
      have h0 : (((k : Nat) : Int) - ((k' : Nat) : Int)) • r • R = 0 := by rw [sub_zsmul, hr, add_neg_cancel]
      rw [two_nsmul] at hR2
      have hR3 : -(r • R) + -(r • R) ≠ 0 := by rw [← neg_add]; exact neg_ne_zero.mpr hR2
      fin_cases k <;> fin_cases k' <;> first | rfl | (exfalso; revert h0) <;>
        simp [hR, sub_zsmul, add_zsmul, two_zsmul, hR2, hR3]
    subst hk
    have h1 : (((i : Nat) : Int) - ((i' : Nat) : Int)) • A = (((j' : Nat) : Int) - ((j : Nat) : Int)) • G := by
      have := add_right_cancel h
      rw [sub_zsmul, sub_zsmul, ← sub_eq_add_neg, ← sub_eq_add_neg, sub_eq_sub_iff_add_eq_add, this, add_comm]
    have hi : (r : Int) ∣ ((i : Nat) : Int) - ((i' : Nat) : Int) := by
      by_contra hd
      have hco : IsCoprime (r : Int) (((i : Nat) : Int) - ((i' : Nat) : Int)) :=
        (Nat.prime_iff_prime_int.mp hp).coprime_iff_not_dvd.mpr hd
      obtain ⟨u, v, huv⟩ := hco
      refine hn ⟨v * (((j' : Nat) : Int) - ((j : Nat) : Int)), ?_⟩
      rw [mul_zsmul, ← h1, ← mul_zsmul]
      have : A = (1 : Int) • A := (one_zsmul A).symm
      rw [← huv, add_zsmul, mul_zsmul, natCast_zsmul, hA, zsmul_zero, zero_add] at this
      exact this
    have hii : i = i' := by
      have := i.2; have := i'.2
      obtain ⟨t, ht⟩ := hi
      have ht0 : t = 0 := by
        rcases lt_trichotomy t 0 with h | h | h
        · nlinarith [mul_le_mul_of_nonneg_left (show t ≤ -1 by omega) (show (0 : Int) ≤ r by omega)]
        · exact h
        · nlinarith [mul_le_mul_of_nonneg_left (show 1 ≤ t by omega) (show (0 : Int) ≤ r by omega)]
      rw [ht0, mul_zero] at ht
      exact Fin.ext (by omega)
    subst hii
    have hj : (r : Int) ∣ ((j' : Nat) : Int) - ((j : Nat) : Int) := by
      rw [← zsmul_iff hp hG0 hG, ← h1, sub_self, zero_zsmul]
    have hjj : j = j' := by
      have := j.2; have := j'.2
      obtain ⟨t, ht⟩ := hj
      have ht0 : t = 0 := by
        rcases lt_trichotomy t 0 with h | h | h
        · nlinarith [mul_le_mul_of_nonneg_left (show t ≤ -1 by omega) (show (0 : Int) ≤ r by omega)]
        · exact h
        · nlinarith [mul_le_mul_of_nonneg_left (show 1 ≤ t by omega) (show (0 : Int) ≤ r by omega)]
      rw [ht0, mul_zero] at ht
      exact Fin.ext (by omega)
    rw [hjj]
  have hcard := Nat.card_le_card_of_injective _ ((code_injective (b := b)).comp hf)
  have e : Nat.card (Option (F × Bool)) = 2 * Nat.card F + 1 := by
    rw [Finite.card_option, Nat.card_prod, Nat.card_eq_fintype_card (α := Bool), Fintype.card_bool, mul_comm]
  rw [e, Nat.card_prod, Nat.card_prod, Nat.card_fin, Nat.card_fin, ← mul_assoc, mul_comm] at hcard
  omega

end Count

/-! ### Concrete points of the twist -/

theorem rep_unique {F : Type} [Field F] [DecidableEq F] {b : F} {p : Proj F} {P : (curve b).Point} (hp : ProjRep b p P)
    {x y : F} (h : (curve b).Nonsingular x y) (hz : p.z ≠ 0) (hx : p.x = x * p.z) (hy : p.y = y * p.z) :
    P = .some x y h := by
  cases P with
  | zero => exact absurd hp hz
  | some x' y' h' =>
    obtain ⟨-, e1, e2⟩ := hp
    exact some_congr (mul_right_cancel₀ hz (e1.symm.trans hx)) (mul_right_cancel₀ hz (e2.symm.trans hy))

/-- Scalar multiplication with the coefficient computed from `b`. -/
def run {F : Type} [Field F] [DecidableEq F] (b : F) (p : Proj F) (ds : List Naf) : Proj F := scalarPoint (b + b + b) p ds

theorem run_rep {F : Type} [Field F] [DecidableEq F] {b : F} (h2 : (2 : F) ≠ 0) {p : Proj F} {P : (curve b).Point}
    (hp : ProjRep b p P) (ds : List Naf) {n : Int} (hn : nafValue ds = n) : ProjRep b (run b p ds) (n • P) :=
  hn ▸ scalarPoint_rep h2 hp ds

/-- Doubling with the coefficient computed from `b`. -/
def runDouble {F : Type} [Field F] [DecidableEq F] (b : F) (p : Proj F) : Proj F := doubleProj (b + b + b) p

theorem runDouble_rep {F : Type} [Field F] [DecidableEq F] {b : F} (h2 : (2 : F) ≠ 0) {p : Proj F} {P : (curve b).Point}
    (hp : ProjRep b p P) : ProjRep b (runDouble b p) (P + P) := doubleProj_rep h2 hp

theorem run_eq {F : Type} [Field F] [DecidableEq F] {b : F} (h2 : (2 : F) ≠ 0) {p : Proj F} {P : (curve b).Point}
    (hp : ProjRep b p P) (ds : List Naf) {n : Int} (hn : nafValue ds = n) {x y : F} (h : (curve b).Nonsingular x y)
    (hr : (run b p ds).z ≠ 0 ∧ (run b p ds).x = x * (run b p ds).z ∧ (run b p ds).y = y * (run b p ds).z) :
    n • P = .some x y h := rep_unique (run_rep h2 hp ds hn) h hr.1 hr.2.1 hr.2.2

theorem run_ne {F : Type} [Field F] [DecidableEq F] {b : F} (h2 : (2 : F) ≠ 0) {p : Proj F} {P : (curve b).Point}
    (hp : ProjRep b p P) (ds : List Naf) {n : Nat} (hn : nafValue ds = n)
    (hr : (run b p ds).z ≠ 0 ∧ (runDouble b (run b p ds)).z ≠ 0) : n • P ≠ 0 ∧ 2 • n • P ≠ 0 := by
  have h := run_rep h2 hp ds hn
  have h' := runDouble_rep h2 h
  rw [natCast_zsmul] at h h'
  constructor
  · intro e
    rw [e] at h
    exact hr.1 h
  · intro e
    rw [← two_nsmul, e] at h'
    exact hr.2 h'

/-- The digits of the order of Fq. -/
def qNaf : List Naf := (B256.toNafs fqParams.p).getD []

theorem qNaf_value : nafValue qNaf = (qN : Int) := by decide +kernel

theorem qNaf_run : let p := run g2B g2Gen.toExtended qNaf
    p.z ≠ 0 ∧ p.x = g2Gen.x.frobeniusMap * frobFq6C1 1 * p.z ∧ p.y = g2Gen.y.frobeniusMap * xiToQMinus1Over2 * p.z := by
  decide +kernel

/-- On the generator of G2 the Frobenius map is multiplication by `q`. -/
theorem frob_gen : frob (psi g2Point) = (qN : Int) • psi g2Point := by
  have e : (qN : Int) • g2Point = Point.some _ _ (frob_ns g2Gen_ns) :=
    run_eq fq2_two (toExtended_rep g2Gen_rep) qNaf qNaf_value _ qNaf_run
  rw [← map_zsmul, e]
  exact frob_psi g2Gen_ns

/-- A point of the twist outside the torsion. -/
def outX : Fq2 FqV := 1
def outY : Fq2 FqV := ⟨0x2869111d5381f072f8e2728fdb825a51aadd70e52c9830e9ab4b871c0531f1bb,
  0x0d1271953ed9ea0836846e70a1934187998c7f790cb4d7511b7f8da82de048a4⟩

theorem out_ns : (curve g2B).Nonsingular outX outY := by
  apply nonsingular_of_eq fq2_two fq2_three g2B_ne
  rw [pow_two, pow_succ, pow_two]
  decide +kernel

noncomputable def outPoint : (curve g2B).Point := .some _ _ out_ns

theorem out_run : (run g2B ⟨outX, outY, 1⟩ orderNaf).z ≠ 0 ∧
    (runDouble g2B (run g2B ⟨outX, outY, 1⟩ orderNaf)).z ≠ 0 := by
  decide +kernel

theorem orderNaf_value : nafValue orderNaf = (frParams.m : Int) := by decide +kernel

theorem out_free : frParams.m • outPoint ≠ 0 ∧ 2 • frParams.m • outPoint ≠ 0 := by
  have hr : ProjRep g2B (⟨outX, outY, 1⟩ : Proj (Fq2 FqV)) outPoint :=
    ⟨one_ne_zero, (mul_one _).symm, (mul_one _).symm⟩
  exact run_ne fq2_two hr orderNaf orderNaf_value out_run

/-- Fq2 as pairs. -/
def fq2Equiv : Fq2 FqV ≃ FqV × FqV := ⟨fun a => (a.c0, a.c1), fun t => ⟨t.1, t.2⟩, fun _ => rfl, fun _ => rfl⟩

instance : Finite (Fq2 FqV) := Finite.of_equiv _ fq2Equiv.symm

theorem card_fq2 : Nat.card (Fq2 FqV) = qN * qN := by
  rw [Nat.card_congr fq2Equiv, Nat.card_prod, Nat.card_zmod]

theorem count_consts : 2 * (qN * qN) + 1 < 3 * (frParams.m * frParams.m) := by decide +kernel

/-- The points of G2 are the multiples of its generator. -/
theorem g2_cyclic {Q : (curve g2B).Point} (h : frParams.m • Q = 0) : ∃ k : Int, Q = k • g2Point :=
  zmultiples_of_count frParams_prime g2_order (Point.some_ne_zero _) h out_free.1 out_free.2
    (by rw [card_fq2]; exact count_consts)

theorem frob_torsion {Q : (curve g2B).Point} (h : frParams.m • Q = 0) : frob (psi Q) = (qN : Int) • psi Q := by
  obtain ⟨k, rfl⟩ := g2_cyclic h
  rw [map_zsmul, map_zsmul, frob_gen, ← mul_zsmul, ← mul_zsmul, mul_comm]

/-! ### The two groups -/

/-- The embedding of G1. -/
noncomputable def phi : (curve g1B).Point →+ (curve (3 : Fq12 FqV)).Point :=
  scale ((iota (F := FqV)).comp Fq2.of) one_ne_zero (by
    rw [one_pow, mul_one, show g1B = 3 from rfl, map_ofNat])

/-- The torsion of the twist. -/
def g2Torsion : AddSubgroup (curve g2B).Point where
  carrier := {Q | frParams.m • Q = 0}
  zero_mem' := smul_zero _
  add_mem' {A B} hA hB := by
    change frParams.m • (A + B) = 0
    rw [nsmul_add, show frParams.m • A = 0 from hA, show frParams.m • B = 0 from hB, add_zero]
  neg_mem' {A} hA := by
    change frParams.m • (-A) = 0
    rw [neg_nsmul, show frParams.m • A = 0 from hA, neg_zero]

theorem mem_g2Torsion {Q : (curve g2B).Point} : Q ∈ g2Torsion ↔ frParams.m • Q = 0 := Iff.rfl

theorem x_ne_zero {x y : Fq2 FqV} (h : (curve g2B).Nonsingular x y) (hr : frParams.m • Point.some x y h = 0) : x ≠ 0 := by
  rintro rfl
  have hy : ¬((0 : Fq2 FqV) = 0 ∧ y = (curve g2B).negY 0 y) := by
    rintro ⟨-, e⟩
    rw [negY_curve] at e
    have hy0 : y = 0 := by
      have : (2 : Fq2 FqV) * y = 0 := by linear_combination e
      exact (mul_eq_zero.mp this).resolve_left fq2_two
    have := (nonsingular_curve.mp h).1
    rw [hy0] at this
    exact g2B_ne (by linear_combination -this)
  obtain ⟨l, n, x₃, y₃, h₃, h3, -, e1, -, e3, s1, s2, -⟩ := line_data h h hy
  have hn : n = y := by linear_combination -e1
  have hy0 : y ≠ 0 := fun e => hy ⟨rfl, by rw [negY_curve, e, neg_zero]⟩
  have hl : l = 0 := by
    have : (2 * y) * l = 0 := by rw [← hn]; linear_combination s2
    exact (mul_eq_zero.mp this).resolve_left (mul_ne_zero fq2_two hy0)
  have hx3 : x₃ = 0 := by rw [hl] at s1; linear_combination s1
  have hS : Point.some x₃ y₃ h₃ = Point.some 0 y h := some_congr hx3 (by rw [e3, hl, hn]; ring)
  rw [hS] at h3
  have ht : (3 : Int) • Point.some 0 y h = 0 := by
    have e : (3 : Int) • Point.some 0 y h = Point.some 0 y h + Point.some 0 y h + Point.some 0 y h := by
      rw [show (3 : Int) = 1 + 1 + 1 from rfl, add_zsmul, add_zsmul, one_zsmul]
    rw [e]
    nth_rw 3 [← h3]
    exact add_neg_cancel _
  exact absurd ((zsmul_iff frParams_prime (Point.some_ne_zero h) hr 3).mp ht) (by decide +kernel)

theorem conj_of (a : Fq6 FqV) : (Fq12.of a).conjugate = Fq12.of a :=
  Fq12.ext' rfl (neg_zero : -(0 : Fq6 FqV) = 0)

/-- The power of the final exponentiation. -/
def finalE : Nat := (qN ^ 12 - 1) / frParams.m

theorem finalE_consts : 4 ∣ finalE ∧ finalE ≠ 0 ∧ finalE = (qN ^ 6 - 1) * (finalE / (qN ^ 6 - 1)) ∧
    qN ^ 6 - 1 + 1 = qN ^ 6 ∧ finalE * frParams.m = qN ^ 12 - 1 := by decide +kernel

theorem fq6_pow {a : Fq6 FqV} (h : Fq12.of a ≠ 0) : Fq12.of a ^ finalE = 1 := by
  obtain ⟨-, -, c3, c4, -⟩ := finalE_consts
  have e := Fq12.conjugate_eq (Fq12.of a)
  rw [conj_of] at e
  generalize Fq12.of a = z at *
  have h1 : z ^ (qN ^ 6 - 1) = 1 := by
    have e1 : z ^ (qN ^ 6 - 1) * z = 1 * z := by
      rw [← pow_succ, one_mul]
      exact (congrArg (fun n => z ^ n) c4).trans e.symm
    exact mul_right_cancel₀ h e1
  have e2 : z ^ finalE = (z ^ (qN ^ 6 - 1)) ^ (finalE / (qN ^ 6 - 1)) := by
    rw [← pow_mul]
    exact congrArg (fun n => z ^ n) c3
  rw [e2, h1, one_pow]

theorem kill_torsion {Q : (curve g2B).Point} (hQ : frParams.m • Q = 0) (P : (curve g1B).Point) :
    xdiff (psi Q) (phi P) ^ finalE = 1 := by
  cases P with
  | zero => cases Q <;> exact one_pow _
  | some px py hP =>
    cases Q with
    | zero => exact one_pow _
    | some x y h =>
      have hx := x_ne_zero h hQ
      have e : xdiff (psi (Point.some x y h)) (phi (Point.some px py hP)) =
          Fq12.of (Fq6.of (Fq2.of px) - Fq6.of x * Fq6.v) := by
        unfold psi phi
        rw [scale_some, scale_some]
        simp only [xdiff]
        rw [Fq12.w_sq, one_pow, mul_one, map_sub, map_mul]
        rfl
      rw [e]
      apply fq6_pow
      intro h0
      have h1 : (Fq6.of (Fq2.of px) - Fq6.of x * Fq6.v : Fq6 FqV) = 0 := congrArg Fq12.c0 h0
      have h2 := congrArg Fq6.c1 h1
      apply hx
      rw [show Fq6.of (Fq2.of px) = (⟨Fq2.of px, 0, 0⟩ : Fq6 FqV) from rfl, show Fq6.of x = (⟨x, 0, 0⟩ : Fq6 FqV) from rfl] at h2
      simpa [Fq6.v] using h2

theorem phi_fixed (P : (curve g1B).Point) : frob (phi P) = phi P := by
  cases P with
  | zero => exact (congrArg frob (map_zero phi)).trans ((map_zero frob).trans (map_zero phi).symm)
  | some px py hP =>
    have hp : ∀ a : FqV, ((iota (F := FqV)).comp Fq2.of a * 1) ^ qN * 1 = (iota (F := FqV)).comp Fq2.of a * 1 := by
      intro a
      rw [mul_one, mul_one, ← map_pow]
      exact congrArg _ (ZMod.pow_card a)
    unfold phi frob
    rw [scale_some, scale_some]
    apply some_congr
    · rw [one_pow, frobenius_def]; exact hp px
    · rw [one_pow, frobenius_def]; exact hp py

theorem loop_consts : (frParams.m : Int) ∣ 6 * (BN_X : Int) + 2 + qN - qN ^ 2 + qN ^ 3 ∧
    (¬ (frParams.m : Int) ∣ 6 * (BN_X : Int) + 2) ∧ ¬ (frParams.m : Int) ∣ 6 * (BN_X : Int) + 2 + qN := by
  decide +kernel

/-- The setting of the code. -/
noncomputable def bn : AteSetting (3 : Fq12 FqV) where
  T := g2Torsion.map psi
  S := phi.range
  E := finalE
  r := frParams.m
  q := qN
  m := 6 * (BN_X : Int) + 2
  four := finalE_consts.1
  epos := finalE_consts.2.1
  kill := by
    rintro A ⟨Q, hQ, rfl⟩ P ⟨R, rfl⟩
    exact kill_torsion hQ R
  root z hz := by
    rw [← pow_mul]
    exact (congrArg (fun n => z ^ n) finalE_consts.2.2.2.2).trans (Fq12.pow_order hz)
  σ := frobenius (Fq12 FqV) qN
  hσ z := frobenius_def _ _
  hb := by rw [map_ofNat, one_pow, mul_one]
  mapT := by
    rintro A ⟨Q, hQ, rfl⟩
    change frob (psi Q) ∈ _
    rw [frob_torsion hQ]
    exact zsmul_mem (show psi Q ∈ g2Torsion.map psi from ⟨Q, hQ, rfl⟩) _
  mapS := by
    rintro P ⟨R, rfl⟩
    exact phi_fixed R
  rel := by
    rintro A ⟨Q, hQ, rfl⟩
    change _ • psi Q + frob (psi Q) + -frob (frob (psi Q)) + frob (frob (frob (psi Q))) = 0
    have hr : (frParams.m : Int) • psi Q = 0 := by
      rw [natCast_zsmul, ← map_nsmul, show frParams.m • Q = 0 from hQ, map_zero]
    obtain ⟨k, hk⟩ := loop_consts.1
    simp only [frob_torsion hQ, map_zsmul]
    rw [← mul_zsmul, ← mul_zsmul, ← neg_zsmul, ← add_zsmul, ← add_zsmul, ← add_zsmul]
    have e : 6 * (BN_X : Int) + 2 + qN + -(qN * qN) + qN * (qN * qN) = (frParams.m : Int) * k := by
      rw [← hk]
      generalize (qN : Int) = t
      generalize (BN_X : Int) = u
      ring
    rw [e, mul_comm, mul_zsmul, hr, zsmul_zero]
  rdvd := loop_consts.1

theorem bn_r : bn.r = frParams.m := by unfold bn; rfl
theorem bn_m : bn.m = 6 * (BN_X : Int) + 2 := by unfold bn; rfl
theorem bn_E : bn.E = finalE := by unfold bn; rfl
theorem bn_fr : bn.fr = frob := by unfold AteSetting.fr bn frob; rfl

theorem psi_mem (Q : g2Torsion) : psi Q ∈ bn.T := ⟨Q, Q.2, rfl⟩
theorem phi_mem (P : (curve g1B).Point) : phi P ∈ bn.S := ⟨P, rfl⟩

/-- The pairing as a function of points of G1 and G2. -/
noncomputable def ePoint (P : (curve g1B).Point) (Q : g2Torsion) : bn.M := bn.pair ⟨psi Q, psi_mem Q⟩ ⟨phi P, phi_mem P⟩

theorem ePoint_add_left (P P' : (curve g1B).Point) (Q : g2Torsion) :
    ePoint (P + P') Q = ePoint P Q * ePoint P' Q := by
  unfold ePoint
  rw [← AteSetting.pair_add_right]
  exact congrArg _ (Subtype.ext (map_add phi P P'))

theorem ePoint_add_right (P : (curve g1B).Point) (Q Q' : g2Torsion) :
    ePoint P (Q + Q') = ePoint P Q * ePoint P Q' := by
  unfold ePoint
  rw [← AteSetting.pair_add_left]
  exact congrArg (fun A => bn.pair A _) (Subtype.ext (map_add psi (Q : (curve g2B).Point) Q'))

theorem ePoint_zero_left (Q : g2Torsion) : ePoint 0 Q = 1 := by
  have := ePoint_add_left 0 0 Q
  rw [add_zero] at this
  exact left_eq_mul.mp this

theorem ePoint_zero_right (P : (curve g1B).Point) : ePoint P 0 = 1 := by
  have := ePoint_add_right P 0 0
  rw [add_zero] at this
  exact left_eq_mul.mp this

/-- What the code computes is this pairing. -/
theorem pairing_ePoint {p : Aff FqV} {P : (curve g1B).Point} (hp : AffRep g1B p P) {g : Aff (Fq2 FqV)} (Q : g2Torsion)
    (hg : AffRep g2B g (Q : (curve g2B).Point)) :
    pairing p g = some (((ePoint P Q : (Fq12 FqV)ˣ) : Fq12 FqV)) := by
  have hid : p.inf = true ∨ g.inf = true → pairing p g = some 1 := by
    intro h
    have hm : multiMillerLoop [(p, prepare g)] = some 1 := by
      rw [multiMillerLoop_eq]
      · rw [List.map_cons, List.map_nil, List.prod_singleton]
        simp only [prepare_inf, if_pos h]
      · intro pq hpq h1 h2
        rw [List.mem_singleton] at hpq
        subst hpq
        exact (prepare_length g ((prepare_inf g).symm.trans h2)).2
    rw [pairing_of hm, finalExp_eq, if_neg one_ne_zero, one_pow]
  obtain ⟨Q, hQ⟩ := Q
  cases P with
  | zero =>
    rw [hid (Or.inl hp), show (Point.zero : (curve g1B).Point) = 0 from rfl, ePoint_zero_left]; rfl
  | some px py hP =>
    cases Q with
    | zero =>
      rw [hid (Or.inr hg), show (⟨Point.zero, hQ⟩ : g2Torsion) = 0 from rfl, ePoint_zero_right]; rfl
    | some x y h =>
      obtain ⟨p1, p2, p3⟩ := hp
      obtain ⟨g1, g2, g3⟩ := hg
      cases g with
      | mk gx gy gi =>
      simp only at g1 g2 g3
      subst g2 g3
      rw [pairing_spec p1 (by rw [p3]; exact y_ne_zero g1_noOrderTwo hP) h hQ g1, p2, p3]
      have hA0 : psi (Point.some gx gy h) ≠ 0 := fun e =>
        Point.some_ne_zero h (psi_injective (e.trans (map_zero _).symm))
      have hrA := zsmul_iff frParams_prime hA0 (by rw [← map_nsmul, show frParams.m • Point.some gx gy h = 0 from hQ, map_zero])
      have hPe : phi (Point.some px py hP) = .some (iota (Fq2.of px)) (iota (Fq2.of py)) (by
          have := scale_ns (b' := (3 : Fq12 FqV)) ((iota (F := FqV)).comp Fq2.of) one_ne_zero
            (by rw [one_pow, mul_one, show g1B = 3 from rfl, map_ofNat]) hP
          rwa [one_pow, mul_one, one_pow, mul_one] at this) := by
        unfold phi
        rw [scale_some]
        exact some_congr (by rw [one_pow, mul_one]; rfl) (by rw [one_pow, mul_one]; rfl)
      have hr' : ∀ k : Int, k • psi (Point.some gx gy h) = 0 ↔ (bn.r : Int) ∣ k := by rw [bn_r]; exact hrA
      have := bn.optimalAte_pow ⟨phi (Point.some px py hP), phi_mem _⟩ hPe
        ⟨psi (Point.some gx gy h), psi_mem ⟨_, hQ⟩⟩ (fun e => hA0 (congrArg Subtype.val e)) hr'
        (ds := loopDigits) (by rw [bn_r]; exact loop_regular) (by rw [bn_m]; exact loop_value)
        (by rw [bn_m]; exact fun e => loop_consts.2.1 ((hrA _).mp e))
        (by
          rw [bn_m, bn_fr]
          exact fun e => loop_consts.2.2 ((hrA _).mp (by rw [add_zsmul, ← frob_torsion hQ]; exact e)))
      rw [bn_E, bn_fr] at this
      have hE : (qN ^ 12 - 1) / frParams.m = finalE := by unfold finalE; rfl
      rw [hE]
      unfold ePoint
      rw [this]

end Kogarashi.Tower
