import Verif.Tower.Quotient
import Mathlib.FieldTheory.KummerPolynomial
import Mathlib.Tactic.FieldSimp

/-!
# The tower over a field with the right non-residues is a tower of fields (lemmas)
-/

namespace Kogarashi.Tower

open Polynomial Spec

/-- The three facts about the base field that make the tower a tower of fields: `-1` is no square, and `82`, the
norm of `9 + u`, is neither a square nor a cube. -/
class TowerOk (F : Type) [Field F] : Prop where
  neg_one : ∀ x : F, x * x ≠ -1
  sq82 : ∀ x : F, x * x ≠ 82
  cube82 : ∀ x : F, x ^ 3 ≠ 82

variable {F : Type} [Field F]

namespace Fq2

/-- The norm `c0² + c1²`. -/
def norm (a : Fq2 F) : F := a.c0 * a.c0 + a.c1 * a.c1

theorem norm_mul (a b : Fq2 F) : norm (a * b) = norm a * norm b := by simp [norm]; ring
theorem norm_xi : norm (xi : Fq2 F) = 82 := by simp [norm, xi]; norm_num

variable [TowerOk F]

theorem norm_eq_zero {a : Fq2 F} : norm a = 0 ↔ a = 0 := by
  constructor
  · intro h
    have h1 : a.c1 = 0 := by
      by_contra hne
      apply TowerOk.neg_one (a.c0 / a.c1)
      unfold norm at h
      field_simp
      linear_combination h
    have h0 : a.c0 = 0 := by
      unfold norm at h
      rw [h1] at h
      simpa using h
    ext <;> simp [h0, h1]
  · rintro rfl; simp [norm]

instance : Field (Fq2 F) where
  inv a := ⟨(norm a)⁻¹ * a.c0, (norm a)⁻¹ * -a.c1⟩
  exists_pair_ne := ⟨0, 1, zero_ne_one⟩
  mul_inv_cancel a h := by
    have hn : norm a ≠ 0 := fun h' => h (norm_eq_zero.1 h')
    show a * (⟨(norm a)⁻¹ * a.c0, (norm a)⁻¹ * -a.c1⟩ : Fq2 F) = 1
    ext
    · have : a.c0 * ((norm a)⁻¹ * a.c0) - a.c1 * ((norm a)⁻¹ * -a.c1) = (norm a)⁻¹ * norm a := by
        simp only [norm]; ring
      rw [mul_c0]
      exact this.trans (inv_mul_cancel₀ hn)
    · simp; ring
  inv_zero := by
    show (⟨(norm (0 : Fq2 F))⁻¹ * 0, (norm (0 : Fq2 F))⁻¹ * -0⟩ : Fq2 F) = 0
    ext <;> simp
  nnqsmul := _
  nnqsmul_def := fun _ _ => rfl
  qsmul := _
  qsmul_def := fun _ _ => rfl

theorem isZero_iff [DecidableEq F] {a : Fq2 F} : a.isZero = true ↔ a = 0 := by
  simp [isZero, Fq2.ext_iff]

/-- Inversion never panics. -/
theorem getInvert_eq [DecidableEq F] (a : Fq2 F) : a.getInvert = some (if a = 0 then none else some a⁻¹) := by
  unfold getInvert
  by_cases h : a = 0
  · rw [if_pos (isZero_iff.2 h), if_pos h]
  · rw [if_neg (fun h' => h (isZero_iff.1 h')), if_neg h]
    have hn : norm a ≠ 0 := fun h' => h (norm_eq_zero.1 h')
    have : a.c0 * a.c0 + a.c1 * a.c1 = norm a := rfl
    simp only [this, baseInvert, if_neg hn, Option.map_some]
    rfl

theorem xi_not_cube (s : Fq2 F) : s ^ 3 ≠ xi := by
  intro h
  apply TowerOk.cube82 (norm s)
  rw [← norm_xi, ← h]
  simp [pow_succ, norm_mul]

theorem xi_not_square (s : Fq2 F) : s * s ≠ xi := by
  intro h
  apply TowerOk.sq82 (norm s)
  rw [← norm_xi, ← h, norm_mul]

theorem xi_ne_zero : (xi : Fq2 F) ≠ 0 := fun h => one_ne_zero (congrArg c1 h)

end Fq2

namespace Fq6

open Fq2 (xi)

/-- The norm to `Fq2`. -/
def norm (a : Fq6 F) : Fq2 F :=
  a.c0 * (a.c0 * a.c0 - xi * (a.c1 * a.c2)) +
    xi * (a.c1 * (a.c1 * a.c1 - a.c0 * a.c2) + a.c2 * (xi * (a.c2 * a.c2) - a.c0 * a.c1))

/-- The product of the other conjugates. -/
def adj (a : Fq6 F) : Fq6 F :=
  ⟨a.c0 * a.c0 - xi * (a.c1 * a.c2), xi * (a.c2 * a.c2) - a.c0 * a.c1, a.c1 * a.c1 - a.c0 * a.c2⟩

theorem mul_adj (a : Fq6 F) : a * adj a = of (norm a) := by
  apply ext' <;> simp [adj, norm] <;> ring

theorem norm_mul (a b : Fq6 F) : norm (a * b) = norm a * norm b := by
  simp only [norm, mul_c0, mul_c1, mul_c2]; ring

theorem norm_v : norm (v : Fq6 F) = xi := by simp [norm]

variable [TowerOk F]

theorem adj_eq_zero {a : Fq6 F} (h : adj a = 0) : a = 0 := by
  have h0 : a.c0 * a.c0 - xi * (a.c1 * a.c2) = 0 := congrArg c0 h
  have h1 : xi * (a.c2 * a.c2) - a.c0 * a.c1 = 0 := congrArg c1 h
  have h2 : a.c1 * a.c1 - a.c0 * a.c2 = 0 := congrArg c2 h
  have e2 : a.c2 = 0 := by
    by_contra hne
    apply Fq2.xi_not_cube (a.c1 / a.c2)
    field_simp
    linear_combination a.c1 * h2 - a.c2 * h1
  have e1 : a.c1 = 0 := by
    rw [e2] at h2
    simpa using h2
  have e0 : a.c0 = 0 := by
    rw [e2] at h0
    simpa using h0
  apply ext' <;> simp [e0, e1, e2]

/-- The embedding in the quotient of `Fq2[X]`. -/
noncomputable def toQuot : Fq6 F →+* AdjoinRoot (X ^ 3 - C xi : (Fq2 F)[X]) where
  toFun a := AdjoinRoot.of _ a.c0 + AdjoinRoot.of _ a.c1 * AdjoinRoot.root _ +
    AdjoinRoot.of _ a.c2 * AdjoinRoot.root _ ^ 2
  map_one' := by simp
  map_zero' := by simp
  map_add' a b := by simp only [add_c0, add_c1, add_c2, map_add]; ring
  map_mul' a b := by
    have h : AdjoinRoot.root (X ^ 3 - C xi : (Fq2 F)[X]) ^ 3 = AdjoinRoot.of _ xi := by
      have h : AdjoinRoot.mk (X ^ 3 - C xi : (Fq2 F)[X]) (X ^ 3 - C xi) = 0 := AdjoinRoot.mk_self
      rw [map_sub, map_pow, AdjoinRoot.mk_X, AdjoinRoot.mk_C] at h
      exact sub_eq_zero.1 h
    simp only [mul_c0, mul_c1, mul_c2, map_add, map_mul]
    linear_combination (-(AdjoinRoot.of _ a.c1 * AdjoinRoot.of _ b.c2 + AdjoinRoot.of _ a.c2 * AdjoinRoot.of _ b.c1)
      - AdjoinRoot.of _ a.c2 * AdjoinRoot.of _ b.c2 * AdjoinRoot.root _) * h

theorem toQuot_injective : Function.Injective (toQuot : Fq6 F → _) := by
  intro a b h
  obtain ⟨hm, hd⟩ := cubic_monic (xi : Fq2 F)
  obtain ⟨h0, h1, h2⟩ := adjoin3_injective hm hd h
  exact ext' h0 h1 h2

theorem norm_eq_zero {a : Fq6 F} : norm a = 0 ↔ a = 0 := by
  constructor
  · intro h
    have irr : Irreducible (X ^ 3 - C xi : (Fq2 F)[X]) :=
      X_pow_sub_C_irreducible_of_prime Nat.prime_three Fq2.xi_not_cube
    haveI : Fact (Irreducible (X ^ 3 - C xi : (Fq2 F)[X])) := ⟨irr⟩
    have h' := mul_adj a
    rw [h, map_zero] at h'
    have h'' := congrArg toQuot h'
    rw [map_mul, map_zero] at h''
    rcases mul_eq_zero.1 h'' with h1 | h1
    · exact toQuot_injective (by rw [h1, map_zero])
    · exact adj_eq_zero (toQuot_injective (by rw [h1, map_zero]))
  · rintro rfl; simp [norm]

instance : Field (Fq6 F) where
  inv a := of (norm a)⁻¹ * adj a
  exists_pair_ne := ⟨0, 1, zero_ne_one⟩
  mul_inv_cancel a h := by
    have hn : norm a ≠ 0 := fun h' => h (norm_eq_zero.1 h')
    show a * (of (norm a)⁻¹ * adj a) = 1
    have : a * (of (norm a)⁻¹ * adj a) = of (norm a)⁻¹ * (a * adj a) := by ring
    rw [this, mul_adj, ← map_mul, inv_mul_cancel₀ hn, map_one]
  inv_zero := by
    show of (norm (0 : Fq6 F))⁻¹ * adj 0 = 0
    have : adj (0 : Fq6 F) = 0 := by apply ext' <;> simp [adj]
    rw [this, mul_zero]
  nnqsmul := _
  nnqsmul_def := fun _ _ => rfl
  qsmul := _
  qsmul_def := fun _ _ => rfl

theorem getInvert_eq [DecidableEq F] (a : Fq6 F) : a.getInvert = some (if a = 0 then none else some a⁻¹) := by
  have hN : ((a.c1 * (a.c1.square - a.c0 * a.c2)) + (a.c2 * (a.c2.square.mulByNonres - a.c0 * a.c1))).mulByNonres +
      a.c0 * (a.c0.square - (a.c1 * a.c2).mulByNonres) = norm a := by
    simp only [Fq2.square_eq, Fq2.mulByNonres_eq, norm]; ring
  unfold getInvert
  simp only [hN, Fq2.getInvert_eq, norm_eq_zero]
  by_cases h : a = 0
  · simp [h]
  · simp only [if_neg h, Option.map_some]
    have : a⁻¹ = of (norm a)⁻¹ * adj a := rfl
    rw [this]
    congr 2
    apply ext' <;> simp [-map_inv₀, adj, Fq2.square_eq, Fq2.mulByNonres_eq]

theorem v_not_square (s : Fq6 F) : s * s ≠ v := by
  intro h
  apply Fq2.xi_not_square (norm s)
  rw [← norm_v, ← h, norm_mul]

end Fq6

namespace Fq12

open Fq6 (v)

/-- The norm to `Fq6`. -/
def norm (a : Fq12 F) : Fq6 F := a.c0 * a.c0 - v * (a.c1 * a.c1)

theorem mul_conjugate (a : Fq12 F) : a * a.conjugate = of (norm a) := by
  apply ext' <;> simp [conjugate, norm] <;> ring

variable [TowerOk F]

theorem norm_eq_zero {a : Fq12 F} : norm a = 0 ↔ a = 0 := by
  constructor
  · intro h
    unfold norm at h
    have h1 : a.c1 = 0 := by
      by_contra hne
      apply Fq6.v_not_square (a.c0 / a.c1)
      field_simp
      linear_combination h
    have h0 : a.c0 = 0 := by
      rw [h1] at h
      simpa using h
    apply ext' <;> simp [h0, h1]
  · rintro rfl; simp [norm]

instance : Field (Fq12 F) where
  inv a := of (norm a)⁻¹ * a.conjugate
  exists_pair_ne := ⟨0, 1, zero_ne_one⟩
  mul_inv_cancel a h := by
    have hn : norm a ≠ 0 := fun h' => h (norm_eq_zero.1 h')
    show a * (of (norm a)⁻¹ * a.conjugate) = 1
    have : a * (of (norm a)⁻¹ * a.conjugate) = of (norm a)⁻¹ * (a * a.conjugate) := by ring
    rw [this, mul_conjugate, ← map_mul, inv_mul_cancel₀ hn, map_one]
  inv_zero := by
    show of (norm (0 : Fq12 F))⁻¹ * (0 : Fq12 F).conjugate = 0
    have : (0 : Fq12 F).conjugate = 0 := by apply ext' <;> simp [conjugate]
    rw [this, mul_zero]
  nnqsmul := _
  nnqsmul_def := fun _ _ => rfl
  qsmul := _
  qsmul_def := fun _ _ => rfl

theorem getInvert_eq [DecidableEq F] (a : Fq12 F) : a.getInvert = some (if a = 0 then none else some a⁻¹) := by
  have hN : a.c0.square - a.c1.square.mulByNonres = norm a := by
    simp only [Fq6.square_eq, Fq6.mulByNonres_eq, norm]
  unfold getInvert
  simp only [hN, Fq6.getInvert_eq, norm_eq_zero]
  by_cases h : a = 0
  · simp [h]
  · simp only [if_neg h, Option.map_some]
    have : a⁻¹ = of (norm a)⁻¹ * a.conjugate := rfl
    rw [this]
    congr 2
    apply ext' <;> simp [-map_inv₀, conjugate] <;> ring

end Fq12

end Kogarashi.Tower
