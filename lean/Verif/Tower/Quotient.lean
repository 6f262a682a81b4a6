import Verif.Tower.Ring
import Verif.Spec.Tower
import Mathlib.Algebra.Polynomial.Monic
import Mathlib.Algebra.Polynomial.Degree.Lemmas
import Mathlib.Tactic.ComputeDegree

/-!
# The tower's coefficient vectors are the elements of the quotient rings (lemmas)
-/

namespace Kogarashi.Tower

open Polynomial Spec

section generic

variable {S : Type} [CommRing S]

theorem adjoin2_injective {g : S[X]} (hm : g.Monic) (hd : g.natDegree = 2) {a b a' b' : S}
    (h : AdjoinRoot.of g a + AdjoinRoot.of g b * AdjoinRoot.root g =
      AdjoinRoot.of g a' + AdjoinRoot.of g b' * AdjoinRoot.root g) : a = a' ∧ b = b' := by
  have h' : AdjoinRoot.mk g (C (a - a') + C (b - b') * X) = 0 := by
    simp only [map_add, map_mul, AdjoinRoot.mk_C, AdjoinRoot.mk_X, map_sub]
    linear_combination h
  rw [AdjoinRoot.mk_eq_zero] at h'
  have h0 : C (a - a') + C (b - b') * X = 0 := by
    by_contra hne
    refine hm.not_dvd_of_natDegree_lt hne ?_ h'
    rw [hd]
    have : (C (a - a') + C (b - b') * X).natDegree ≤ 1 := by compute_degree
    omega
  have e0 := congrArg (fun p => coeff p 0) h0
  have e1 := congrArg (fun p => coeff p 1) h0
  simp only [coeff_add, coeff_C_zero, coeff_C_mul, coeff_X_zero, mul_zero, add_zero, coeff_zero] at e0
  simp only [coeff_add, coeff_C_mul, coeff_X_one, mul_one, coeff_zero, coeff_C_succ, zero_add] at e1
  exact ⟨sub_eq_zero.1 e0, sub_eq_zero.1 e1⟩

theorem adjoin2_surjective {g : S[X]} (hm : g.Monic) (hd : g.natDegree = 2) (x : AdjoinRoot g) :
    ∃ a b : S, AdjoinRoot.of g a + AdjoinRoot.of g b * AdjoinRoot.root g = x := by
  obtain ⟨p, rfl⟩ := AdjoinRoot.mk_surjective x
  have hlt : (p %ₘ g).natDegree < 2 := by
    have := natDegree_modByMonic_lt p hm (fun h => by rw [h] at hd; simp at hd)
    omega
  refine ⟨(p %ₘ g).coeff 0, (p %ₘ g).coeff 1, ?_⟩
  have hp : AdjoinRoot.mk g p = AdjoinRoot.mk g (p %ₘ g) := by
    conv_lhs => rw [← modByMonic_add_div p g]
    rw [map_add, map_mul, AdjoinRoot.mk_self, zero_mul, add_zero]
  rw [hp]
  conv_rhs => rw [as_sum_range' (p %ₘ g) 2 hlt]
  simp only [Finset.sum_range_succ, Finset.sum_range_zero, zero_add, map_add, ← C_mul_X_pow_eq_monomial,
    map_mul, map_pow, AdjoinRoot.mk_C, AdjoinRoot.mk_X, pow_zero, pow_one, mul_one]

theorem adjoin3_injective {g : S[X]} (hm : g.Monic) (hd : g.natDegree = 3) {a b c a' b' c' : S}
    (h : AdjoinRoot.of g a + AdjoinRoot.of g b * AdjoinRoot.root g + AdjoinRoot.of g c * AdjoinRoot.root g ^ 2 =
      AdjoinRoot.of g a' + AdjoinRoot.of g b' * AdjoinRoot.root g + AdjoinRoot.of g c' * AdjoinRoot.root g ^ 2) :
    a = a' ∧ b = b' ∧ c = c' := by
  have h' : AdjoinRoot.mk g (C (a - a') + C (b - b') * X + C (c - c') * X ^ 2) = 0 := by
    simp only [map_add, map_mul, AdjoinRoot.mk_C, AdjoinRoot.mk_X, map_sub, map_pow]
    linear_combination h
  rw [AdjoinRoot.mk_eq_zero] at h'
  have h0 : C (a - a') + C (b - b') * X + C (c - c') * X ^ 2 = 0 := by
    by_contra hne
    refine hm.not_dvd_of_natDegree_lt hne ?_ h'
    rw [hd]
    have : (C (a - a') + C (b - b') * X + C (c - c') * X ^ 2).natDegree ≤ 2 := by compute_degree
    omega
  have e0 := congrArg (fun p => coeff p 0) h0
  have e1 := congrArg (fun p => coeff p 1) h0
  have e2 := congrArg (fun p => coeff p 2) h0
  simp only [coeff_add, coeff_C_mul, coeff_C, coeff_X, coeff_X_pow, coeff_zero] at e0 e1 e2
  norm_num at e0 e1 e2
  exact ⟨sub_eq_zero.1 e0, sub_eq_zero.1 e1, sub_eq_zero.1 e2⟩

theorem adjoin3_surjective {g : S[X]} (hm : g.Monic) (hd : g.natDegree = 3) (x : AdjoinRoot g) :
    ∃ a b c : S, AdjoinRoot.of g a + AdjoinRoot.of g b * AdjoinRoot.root g +
      AdjoinRoot.of g c * AdjoinRoot.root g ^ 2 = x := by
  obtain ⟨p, rfl⟩ := AdjoinRoot.mk_surjective x
  have hlt : (p %ₘ g).natDegree < 3 := by
    have := natDegree_modByMonic_lt p hm (fun h => by rw [h] at hd; simp at hd)
    omega
  refine ⟨(p %ₘ g).coeff 0, (p %ₘ g).coeff 1, (p %ₘ g).coeff 2, ?_⟩
  have hp : AdjoinRoot.mk g p = AdjoinRoot.mk g (p %ₘ g) := by
    conv_lhs => rw [← modByMonic_add_div p g]
    rw [map_add, map_mul, AdjoinRoot.mk_self, zero_mul, add_zero]
  rw [hp]
  conv_rhs => rw [as_sum_range' (p %ₘ g) 3 hlt]
  simp only [Finset.sum_range_succ, Finset.sum_range_zero, zero_add, map_add, ← C_mul_X_pow_eq_monomial,
    map_mul, map_pow, AdjoinRoot.mk_C, AdjoinRoot.mk_X, pow_zero, pow_one, mul_one]

end generic

variable {R : Type} [CommRing R]

theorem quadU_sq : quadU R ^ 2 = -1 := by
  have h : AdjoinRoot.mk (X ^ 2 + 1 : R[X]) (X ^ 2 + 1) = 0 := AdjoinRoot.mk_self
  rw [map_add, map_pow, map_one, AdjoinRoot.mk_X] at h
  exact eq_neg_of_add_eq_zero_left h

theorem sextV_cube : sextV R ^ 3 = AdjoinRoot.of _ (9 + quadU R) := by
  have h : AdjoinRoot.mk (X ^ 3 - C (9 + quadU R) : (Quad R)[X]) (X ^ 3 - C (9 + quadU R)) = 0 := AdjoinRoot.mk_self
  rw [map_sub, map_pow, AdjoinRoot.mk_X, AdjoinRoot.mk_C] at h
  exact sub_eq_zero.1 h

theorem dodecW_sq : dodecW R ^ 2 = AdjoinRoot.of _ (sextV R) := by
  have h : AdjoinRoot.mk (X ^ 2 - C (sextV R) : (Sext R)[X]) (X ^ 2 - C (sextV R)) = 0 := AdjoinRoot.mk_self
  rw [map_sub, map_pow, AdjoinRoot.mk_X, AdjoinRoot.mk_C] at h
  exact sub_eq_zero.1 h

theorem val2_add (a b : Fq2 R) : val2 (a + b) = val2 a + val2 b := by
  simp only [val2, Fq2.add_c0, Fq2.add_c1, map_add]; ring
theorem val2_neg (a : Fq2 R) : val2 (-a) = -val2 a := by
  simp only [val2, Fq2.neg_c0, Fq2.neg_c1, map_neg]; ring
theorem val2_sub (a b : Fq2 R) : val2 (a - b) = val2 a - val2 b := by
  simp only [val2, Fq2.sub_c0, Fq2.sub_c1, map_sub]; ring
theorem val2_mul (a b : Fq2 R) : val2 (a * b) = val2 a * val2 b := by
  simp only [val2, Fq2.mul_c0, Fq2.mul_c1, map_add, map_sub, map_mul]
  linear_combination (-(AdjoinRoot.of (X ^ 2 + 1 : R[X])) a.c1 * (AdjoinRoot.of (X ^ 2 + 1 : R[X])) b.c1) * quadU_sq (R := R)
theorem val2_zero : val2 (0 : Fq2 R) = 0 := by simp [val2]
theorem val2_one : val2 (1 : Fq2 R) = 1 := by simp [val2]
theorem val2_xi : val2 (Fq2.xi : Fq2 R) = 9 + quadU R := by
  have : (AdjoinRoot.of (X ^ 2 + 1 : R[X])) 9 = 9 := map_ofNat _ 9
  simp [val2, Fq2.xi, this]

theorem val6_add (a b : Fq6 R) : val6 (a + b) = val6 a + val6 b := by
  simp only [val6, Fq6.add_c0, Fq6.add_c1, Fq6.add_c2, val2_add, map_add]; ring
theorem val6_neg (a : Fq6 R) : val6 (-a) = -val6 a := by
  simp only [val6, Fq6.neg_c0, Fq6.neg_c1, Fq6.neg_c2, val2_neg, map_neg]; ring
theorem val6_sub (a b : Fq6 R) : val6 (a - b) = val6 a - val6 b := by
  simp only [val6, Fq6.sub_c0, Fq6.sub_c1, Fq6.sub_c2, val2_sub, map_sub]; ring
theorem val6_mul (a b : Fq6 R) : val6 (a * b) = val6 a * val6 b := by
  simp only [val6, Fq6.mul_c0, Fq6.mul_c1, Fq6.mul_c2, val2_add, val2_mul, val2_xi, map_add, map_mul]
  have h : sextV R ^ 3 = AdjoinRoot.of (X ^ 3 - C (9 + quadU R) : (Quad R)[X]) 9 +
      AdjoinRoot.of (X ^ 3 - C (9 + quadU R) : (Quad R)[X]) (quadU R) := sextV_cube.trans (map_add _ _ _)
  generalize (AdjoinRoot.of (X ^ 3 - C (9 + quadU R) : (Quad R)[X])) (val2 a.c0) = a0 at *
  generalize (AdjoinRoot.of (X ^ 3 - C (9 + quadU R) : (Quad R)[X])) (val2 a.c1) = a1 at *
  generalize (AdjoinRoot.of (X ^ 3 - C (9 + quadU R) : (Quad R)[X])) (val2 a.c2) = a2 at *
  generalize (AdjoinRoot.of (X ^ 3 - C (9 + quadU R) : (Quad R)[X])) (val2 b.c0) = b0 at *
  generalize (AdjoinRoot.of (X ^ 3 - C (9 + quadU R) : (Quad R)[X])) (val2 b.c1) = b1 at *
  generalize (AdjoinRoot.of (X ^ 3 - C (9 + quadU R) : (Quad R)[X])) (val2 b.c2) = b2 at *
  linear_combination (-(a1 * b2 + a2 * b1) - a2 * b2 * sextV R) * h
theorem val6_zero : val6 (0 : Fq6 R) = 0 := by simp [val6, val2_zero]
theorem val6_one : val6 (1 : Fq6 R) = 1 := by simp [val6, val2_zero, val2_one]
theorem val6_v : val6 (Fq6.v : Fq6 R) = sextV R := by simp [val6, val2_zero, val2_one]

theorem val12_add (a b : Fq12 R) : val12 (a + b) = val12 a + val12 b := by
  simp only [val12, Fq12.add_c0, Fq12.add_c1, val6_add, map_add]; ring
theorem val12_neg (a : Fq12 R) : val12 (-a) = -val12 a := by
  simp only [val12, Fq12.neg_c0, Fq12.neg_c1, val6_neg, map_neg]; ring
theorem val12_sub (a b : Fq12 R) : val12 (a - b) = val12 a - val12 b := by
  simp only [val12, Fq12.sub_c0, Fq12.sub_c1, val6_sub, map_sub]; ring
theorem val12_mul (a b : Fq12 R) : val12 (a * b) = val12 a * val12 b := by
  simp only [val12, Fq12.mul_c0, Fq12.mul_c1, val6_add, val6_mul, val6_v, map_add, map_mul]
  linear_combination (-(AdjoinRoot.of _ (val6 a.c1) * AdjoinRoot.of _ (val6 b.c1))) * dodecW_sq (R := R)
theorem val12_zero : val12 (0 : Fq12 R) = 0 := by simp [val12, val6_zero]
theorem val12_one : val12 (1 : Fq12 R) = 1 := by simp [val12, val6_zero, val6_one]

section bijective

variable [Nontrivial R]

theorem val2_bijective : Function.Bijective (val2 : Fq2 R → Quad R) := by
  have hm : (X ^ 2 + 1 : R[X]).Monic := by monicity!
  have hd : (X ^ 2 + 1 : R[X]).natDegree = 2 := by compute_degree!
  constructor
  · intro a b h
    obtain ⟨h0, h1⟩ := adjoin2_injective hm hd h
    exact Fq2.ext h0 h1
  · intro x
    obtain ⟨a, b, h⟩ := adjoin2_surjective hm hd x
    exact ⟨⟨a, b⟩, h⟩

instance : Nontrivial (Fq2 R) := ⟨0, 1, fun h => zero_ne_one (congrArg Fq2.c0 h)⟩
instance : Nontrivial (Fq6 R) := ⟨0, 1, fun h => zero_ne_one (congrArg Fq6.c0 h)⟩
instance : Nontrivial (Fq12 R) := ⟨0, 1, fun h => zero_ne_one (congrArg Fq12.c0 h)⟩
instance : Nontrivial (Quad R) := val2_bijective.injective.nontrivial

theorem cubic_monic {S : Type} [CommRing S] [Nontrivial S] (s : S) :
    (X ^ 3 - C s : S[X]).Monic ∧ (X ^ 3 - C s : S[X]).natDegree = 3 :=
  ⟨by monicity!, by compute_degree!⟩

theorem val6_bijective : Function.Bijective (val6 : Fq6 R → Sext R) := by
  obtain ⟨hm, hd⟩ := cubic_monic (9 + quadU R)
  constructor
  · intro a b h
    obtain ⟨h0, h1, h2⟩ := adjoin3_injective hm hd h
    exact Fq6.ext (val2_bijective.injective h0) (val2_bijective.injective h1) (val2_bijective.injective h2)
  · intro x
    obtain ⟨a, b, c, h⟩ := adjoin3_surjective hm hd x
    obtain ⟨a, rfl⟩ := val2_bijective.surjective a
    obtain ⟨b, rfl⟩ := val2_bijective.surjective b
    obtain ⟨c, rfl⟩ := val2_bijective.surjective c
    exact ⟨⟨a, b, c⟩, h⟩

instance : Nontrivial (Sext R) := val6_bijective.injective.nontrivial

theorem quadratic_monic {S : Type} [CommRing S] [Nontrivial S] (s : S) :
    (X ^ 2 - C s : S[X]).Monic ∧ (X ^ 2 - C s : S[X]).natDegree = 2 :=
  ⟨by monicity!, by compute_degree!⟩

theorem val12_bijective : Function.Bijective (val12 : Fq12 R → Dodec R) := by
  obtain ⟨hm, hd⟩ := quadratic_monic (sextV R)
  constructor
  · intro a b h
    obtain ⟨h0, h1⟩ := adjoin2_injective hm hd h
    exact Fq12.ext (val6_bijective.injective h0) (val6_bijective.injective h1)
  · intro x
    obtain ⟨a, b, h⟩ := adjoin2_surjective hm hd x
    obtain ⟨a, rfl⟩ := val6_bijective.surjective a
    obtain ⟨b, rfl⟩ := val6_bijective.surjective b
    exact ⟨⟨a, b⟩, h⟩

end bijective

end Kogarashi.Tower
