import Verif.Tower.Frobenius
import Mathlib.NumberTheory.LegendreSymbol.Basic

/-!
# Frobenius maps are power maps (lemmas)
-/

namespace Kogarashi.Tower

open Limbs Field Spec Props

/-- The order of `Fq`. -/
abbrev qN : Nat := fqParams.m

/-- Square-and-multiply, for evaluation by the kernel. -/
def binPow {M : Type} [Mul M] [One M] : Nat → M → Nat → M
  | 0, _, _ => 1
  | fuel + 1, a, e =>
    let h := binPow fuel (a * a) (e / 2)
    if e % 2 = 1 then a * h else h

theorem binPow_eq {M : Type} [CommMonoid M] (fuel : Nat) (a : M) (e : Nat) (h : e < 2 ^ fuel) :
    binPow fuel a e = a ^ e := by
  induction fuel generalizing a e with
  | zero => have : e = 0 := by simpa using h
            subst this; simp [binPow]
  | succ fuel ih =>
    have h2 : e / 2 < 2 ^ fuel := by rw [pow_succ] at h; omega
    simp only [binPow]
    rw [ih _ _ h2, ← pow_two, ← pow_mul]
    split
    · rename_i hm
      rw [← pow_succ']; congr 1; omega
    · congr 1; omega

theorem q_lt : qN < 2 ^ 256 := by decide +kernel

theorem fq_pow {x : FqV} {n e : Nat} (hx : x = (n : FqV)) (he : e < 2 ^ 256) :
    x ^ e = ((powMod qN 256 n e : Nat) : FqV) := by
  rw [hx, powMod_eq _ _ _ _ he, ZMod.natCast_mod, Nat.cast_pow]

instance : TowerOk FqV where
  neg_one x h := by
    have hs := ZMod.exists_sq_eq_neg_one_iff (p := fqParams.m)
    have : fqParams.m % 4 ≠ 3 := hs.1 ⟨x, h.symm⟩
    exact this (by decide +kernel)
  sq82 x h := by
    have hx : x ≠ 0 := by
      rintro rfl
      have : (0 : FqV) ≠ 82 := by decide +kernel
      exact this (by simpa using h)
    have h1 : (82 : FqV) ^ ((qN - 1) / 2) = 1 := by
      rw [← h, ← pow_two, ← pow_mul]
      have : 2 * ((qN - 1) / 2) = qN - 1 := by decide +kernel
      rw [this]; exact ZMod.pow_card_sub_one_eq_one hx
    rw [fq_pow (n := 82) (by norm_num) (by decide +kernel)] at h1
    exact absurd h1 (by decide +kernel)
  cube82 x h := by
    have hx : x ≠ 0 := by
      rintro rfl
      have : (0 : FqV) ≠ 82 := by decide +kernel
      exact this (by simpa using h)
    have h1 : (82 : FqV) ^ ((qN - 1) / 3) = 1 := by
      rw [← h, ← pow_mul]
      have : 3 * ((qN - 1) / 3) = qN - 1 := by decide +kernel
      rw [this]; exact ZMod.pow_card_sub_one_eq_one hx
    rw [fq_pow (n := 82) (by norm_num) (by decide +kernel)] at h1
    exact absurd h1 (by decide +kernel)

instance : CharP (Fq2 FqV) qN := charP_of_injective_ringHom (Fq2.of_injective (R := FqV)) qN
instance : CharP (Fq6 FqV) qN := charP_of_injective_ringHom (Fq6.of_injective (R := FqV)) qN
instance : CharP (Fq12 FqV) qN := charP_of_injective_ringHom (Fq12.of_injective (R := FqV)) qN

theorem Fq2.frobeniusMap_eq (a : Fq2 FqV) : a.frobeniusMap = a ^ qN := by
  have hu : (Fq2.u : Fq2 FqV) ^ qN = -Fq2.u := by
    have e : qN = 2 * (2 * (qN / 4) + 1) + 1 := by decide +kernel
    rw [e, pow_succ, pow_mul, Fq2.u_sq, pow_succ, pow_mul]
    simp
  conv_rhs => rw [Fq2.eq_of a, add_pow_char, mul_pow, ← map_pow, ← map_pow, ZMod.pow_card, ZMod.pow_card, hu]
  ext <;> simp [frobeniusMap, conjugate, u]

theorem xi_pow_third : (Fq2.xi : Fq2 FqV) ^ ((qN - 1) / 3) = frobFq6C1 1 := by
  rw [← binPow_eq 256 _ _ (by decide +kernel)]
  decide +kernel

theorem xi_pow_sixth : (Fq2.xi : Fq2 FqV) ^ ((qN - 1) / 6) = frobFq12C1 1 := by
  rw [← binPow_eq 256 _ _ (by decide +kernel)]
  decide +kernel

theorem frobFq6C2_one : frobFq6C2 1 = frobFq6C1 1 ^ 2 := by
  rw [pow_two]; decide +kernel

theorem v_pow_q : (Fq6.v : Fq6 FqV) ^ qN = Fq6.of (frobFq6C1 1) * Fq6.v := by
  have e : qN = 3 * ((qN - 1) / 3) + 1 := by decide +kernel
  conv_lhs => rw [e, pow_succ, pow_mul, Fq6.v_cube, ← map_pow, xi_pow_third]

theorem w_pow_q : (Fq12.w : Fq12 FqV) ^ qN = Fq12.of (Fq6.of (frobFq12C1 1)) * Fq12.w := by
  have e : qN = 2 * (3 * ((qN - 1) / 6)) + 1 := by decide +kernel
  conv_lhs => rw [e, pow_succ, pow_mul, Fq12.w_sq, pow_mul, ← map_pow, ← map_pow, Fq6.v_cube, ← map_pow, xi_pow_sixth]

theorem Fq6.frobeniusMap_eq (a : Fq6 FqV) : a.frobeniusMap = a ^ qN := by
  have e2 : ((Fq6.v : Fq6 FqV) ^ 2) ^ qN = Fq6.of (frobFq6C2 1) * Fq6.v ^ 2 := by
    rw [← pow_mul, mul_comm, pow_mul, v_pow_q, mul_pow, ← map_pow, frobFq6C2_one]
  conv_rhs => rw [Fq6.eq_of a, add_pow_char, add_pow_char, mul_pow, mul_pow, ← map_pow, ← map_pow, ← map_pow,
    v_pow_q, e2, ← Fq2.frobeniusMap_eq, ← Fq2.frobeniusMap_eq, ← Fq2.frobeniusMap_eq]
  rw [v_sq]
  apply ext' <;> simp [frobeniusMap]

theorem Fq12.frobeniusMap_eq (a : Fq12 FqV) : a.frobeniusMap = a ^ qN := by
  conv_rhs => rw [Fq12.eq_of a, add_pow_char, mul_pow, ← map_pow, ← map_pow, w_pow_q,
    ← Fq6.frobeniusMap_eq, ← Fq6.frobeniusMap_eq]
  have : (⟨frobFq12C1 1, 0, 0⟩ : Fq6 FqV) = Fq6.of (frobFq12C1 1) := rfl
  apply ext' <;> simp [frobeniusMap, this]

/-! ### Iterated maps -/

theorem frobFq2C1_succ (k : Nat) : frobFq2C1 ((k + 1) % 2) = -frobFq2C1 (k % 2) := by
  have h : ∀ i < 2, frobFq2C1 ((i + 1) % 2) = -frobFq2C1 i := by decide +kernel
  rw [← h _ (Nat.mod_lt k (by norm_num))]; congr 1; omega

theorem frobFq6C1_succ (k : Nat) :
    frobFq6C1 ((k + 1) % 6) = (frobFq6C1 (k % 6)).frobeniusMap * frobFq6C1 1 := by
  have h : ∀ i < 6, frobFq6C1 ((i + 1) % 6) = (frobFq6C1 i).frobeniusMap * frobFq6C1 1 := by decide +kernel
  rw [← h _ (Nat.mod_lt k (by norm_num))]; congr 1; omega

theorem frobFq6C2_succ (k : Nat) :
    frobFq6C2 ((k + 1) % 6) = (frobFq6C2 (k % 6)).frobeniusMap * frobFq6C2 1 := by
  have h : ∀ i < 6, frobFq6C2 ((i + 1) % 6) = (frobFq6C2 i).frobeniusMap * frobFq6C2 1 := by decide +kernel
  rw [← h _ (Nat.mod_lt k (by norm_num))]; congr 1; omega

theorem frobFq12C1_succ (k : Nat) :
    frobFq12C1 ((k + 1) % 12) = (frobFq12C1 (k % 12)).frobeniusMap * frobFq12C1 1 := by
  have h : ∀ i < 12, frobFq12C1 ((i + 1) % 12) = (frobFq12C1 i).frobeniusMap * frobFq12C1 1 := by decide +kernel
  rw [← h _ (Nat.mod_lt k (by norm_num))]; congr 1; omega

theorem frob_zero : frobFq2C1 0 = 1 ∧ frobFq6C1 0 = 1 ∧ frobFq6C2 0 = 1 ∧ frobFq12C1 0 = 1 := by decide +kernel

theorem Fq2.frobeniusMap_mul (a b : Fq2 FqV) : (a * b).frobeniusMap = a.frobeniusMap * b.frobeniusMap := by
  ext <;> simp [frobeniusMap, conjugate] <;> ring

theorem Fq2.frobeniusMaps_succ (a : Fq2 FqV) (k : Nat) :
    a.frobeniusMaps (k + 1) = (a.frobeniusMaps k).frobeniusMap := by
  unfold frobeniusMaps frobeniusMap conjugate
  simp only [frobFq2C1_succ, mul_neg]

theorem Fq2.frobeniusMaps_zero (a : Fq2 FqV) : a.frobeniusMaps 0 = a := by
  ext <;> simp [frobeniusMaps, frob_zero.1]

theorem Fq2.frobeniusMaps_eq (a : Fq2 FqV) (k : Nat) : a.frobeniusMaps k = a ^ qN ^ k := by
  induction k with
  | zero => rw [frobeniusMaps_zero]; simp
  | succ k ih => rw [frobeniusMaps_succ, frobeniusMap_eq, ih, ← pow_mul, ← pow_succ]

theorem Fq6.frobeniusMaps_succ (a : Fq6 FqV) (k : Nat) :
    a.frobeniusMaps (k + 1) = (a.frobeniusMaps k).frobeniusMap := by
  apply ext' <;>
    simp only [frobeniusMaps, frobeniusMap, Fq2.frobeniusMaps_succ, frobFq6C1_succ, frobFq6C2_succ,
      Fq2.frobeniusMap_mul] <;> ring

theorem Fq6.frobeniusMaps_zero (a : Fq6 FqV) : a.frobeniusMaps 0 = a := by
  apply ext' <;> simp [frobeniusMaps, frob_zero, Fq2.frobeniusMaps_zero]

theorem Fq6.frobeniusMaps_eq (a : Fq6 FqV) (k : Nat) : a.frobeniusMaps k = a ^ qN ^ k := by
  induction k with
  | zero => rw [frobeniusMaps_zero]; simp
  | succ k ih => rw [frobeniusMaps_succ, frobeniusMap_eq, ih, ← pow_mul, ← pow_succ]

theorem Fq12.frobeniusMaps_succ (a : Fq12 FqV) (k : Nat) :
    a.frobeniusMaps (k + 1) = (a.frobeniusMaps k).frobeniusMap := by
  apply ext'
  · simp only [frobeniusMaps, frobeniusMap, Fq6.frobeniusMaps_succ]
  · apply Fq6.ext' <;>
      simp only [frobeniusMaps, frobeniusMap, Fq6.frobeniusMaps_succ, frobFq12C1_succ, Fq6.frobeniusMap,
        Fq2.frobeniusMap_mul, Fq6.mul_c0, Fq6.mul_c1, Fq6.mul_c2] <;> ring

theorem Fq12.frobeniusMaps_zero (a : Fq12 FqV) : a.frobeniusMaps 0 = a := by
  apply ext'
  · simp [frobeniusMaps, Fq6.frobeniusMaps_zero]
  · apply Fq6.ext' <;> simp [frobeniusMaps, frob_zero, Fq6.frobeniusMaps_zero]

theorem Fq12.frobeniusMaps_eq (a : Fq12 FqV) (k : Nat) : a.frobeniusMaps k = a ^ qN ^ k := by
  induction k with
  | zero => rw [frobeniusMaps_zero]; simp
  | succ k ih => rw [frobeniusMaps_succ, frobeniusMap_eq, ih, ← pow_mul, ← pow_succ]

theorem frob_six : frobFq2C1 0 = 1 ∧ frobFq6C1 0 = 1 ∧ frobFq6C2 0 = 1 ∧ frobFq12C1 6 = -1 := by decide +kernel

theorem Fq12.conjugate_eq (a : Fq12 FqV) : a.conjugate = a ^ qN ^ 6 := by
  rw [← frobeniusMaps_eq]
  have h2 : ∀ x : Fq2 FqV, x.frobeniusMaps 6 = x := fun x => by
    ext <;> simp [Fq2.frobeniusMaps, frob_zero.1]
  have h6 : ∀ x : Fq6 FqV, x.frobeniusMaps 6 = x := fun x => by
    apply Fq6.ext' <;> simp [Fq6.frobeniusMaps, frob_zero, h2]
  apply ext'
  · simp [conjugate, frobeniusMaps, h6]
  · apply Fq6.ext' <;> simp [conjugate, frobeniusMaps, h6, frob_six]

theorem Fq12.pow_q12 (a : Fq12 FqV) : a ^ qN ^ 12 = a := by
  have e : qN ^ 12 = qN ^ 6 * qN ^ 6 := by rw [← pow_add]
  rw [e, pow_mul, ← conjugate_eq, ← conjugate_eq]
  apply ext' <;> simp [conjugate]

theorem Fq2.pow_q2 (a : Fq2 FqV) : a ^ qN ^ 2 = a := by
  have e : qN ^ 2 = qN * qN := pow_two _
  rw [e, pow_mul, ← frobeniusMap_eq, ← frobeniusMap_eq]
  ext <;> simp [frobeniusMap, conjugate]

end Kogarashi.Tower
