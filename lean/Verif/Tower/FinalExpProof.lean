import Verif.Tower.FinalExp
import Verif.Tower.FrobeniusProof

/-!
# Cyclotomic squaring and the final exponentiation (lemmas)
-/

set_option exponentiation.threshold 1600

namespace Kogarashi.Tower

open Props Field

theorem frob_consts : frobFq2C1 0 = 1 ∧ frobFq6C1 2 = frobFq12C1 2 - 1 ∧ frobFq6C2 2 = -frobFq12C1 2 ∧
    frobFq12C1 4 = frobFq12C1 2 - 1 ∧ frobFq6C1 4 = -frobFq12C1 2 ∧ frobFq6C2 4 = frobFq12C1 2 - 1 ∧
    frobFq12C1 2 * frobFq12C1 2 = frobFq12C1 2 - 1 := by decide +kernel

theorem Fq2.frobeniusMaps_even (a : Fq2 FqV) : a.frobeniusMaps 2 = a ∧ a.frobeniusMaps 4 = a := by
  constructor
  · ext
    · simp only [frobeniusMaps]
    · simp only [frobeniusMaps, Nat.reduceMod, frob_consts.1, mul_one]
  · ext
    · simp only [frobeniusMaps]
    · simp only [frobeniusMaps, Nat.reduceMod, frob_consts.1, mul_one]

/-- The identity behind compressed squaring, in any commutative ring. -/
theorem cyclotomic_identity {R : Type} [CommRing R] (f : Fq12 R) (g : Fq2 R) (hg : g * g = g - 1)
    (h : (⟨⟨f.c0.c0, f.c0.c1 * -g, f.c0.c2 * (g - 1)⟩,
        ⟨f.c1.c0 * (g - 1), f.c1.c1 * -g * (g - 1), f.c1.c2 * (g - 1) * (g - 1)⟩⟩ : Fq12 R) * f =
      ⟨⟨f.c0.c0, f.c0.c1 * (g - 1), f.c0.c2 * -g⟩, ⟨f.c1.c0 * g, f.c1.c1 * (g - 1) * g, f.c1.c2 * -g * g⟩⟩) :
    cyclotomicSquare f = f * f := by
  have h0 := congrArg Fq12.c0 h
  have h1 := congrArg Fq12.c1 h
  have h00 := congrArg Fq6.c0 h0
  have h01 := congrArg Fq6.c1 h0
  have h02 := congrArg Fq6.c2 h0
  have h10 := congrArg Fq6.c0 h1
  have h11 := congrArg Fq6.c1 h1
  have h12 := congrArg Fq6.c2 h1
  clear h h0 h1
  simp only [Fq12.mul_c0, Fq12.mul_c1, Fq6.add_c0, Fq6.add_c1, Fq6.add_c2, Fq6.mul_c0, Fq6.mul_c1, Fq6.mul_c2,
    Fq6.v_c0, Fq6.v_c1, Fq6.v_c2] at h00 h01 h02 h10 h11 h12
  apply Fq12.ext' <;> apply Fq6.ext' <;>
    simp only [cyclotomicSquare, fp4Square, Fq2.square_eq, Fq2.double_eq, Fq2.mulByNonres_eq, Fq12.mul_c0,
      Fq12.mul_c1, Fq6.add_c0, Fq6.add_c1, Fq6.add_c2, Fq6.mul_c0, Fq6.mul_c1, Fq6.mul_c2, Fq6.v_c0, Fq6.v_c1,
      Fq6.v_c2] <;>
    generalize (Fq2.xi : Fq2 R) = xi at * <;>
    generalize f.c0.c0 = z0 at * <;>
    generalize f.c0.c1 = z4 at * <;>
    generalize f.c0.c2 = z3 at * <;>
    generalize f.c1.c0 = z2 at * <;>
    generalize f.c1.c1 = z1 at * <;>
    generalize f.c1.c2 = z5 at *
  · linear_combination 2  *  h00 + ((-2) * xi * z2 * z5 + (2) * xi * z1 ^ 2)  *  hg
  · linear_combination (-2 * g)  *  h01 + ((-2) * z4 + (2) * z2 ^ 2 + (-2) * z0 * z4 + (2) * xi * z3 ^ 2 + (-2) * xi * z1 * z5)  *  hg
  · linear_combination (2 * (g-1))  *  h02 + ((2) * z4 ^ 2 + (-2) * z3 + (-4) * z1 * z2 + (-2) * z0 * z3 + (4) * xi * z5 ^ 2 + (2) * g * z1 * z2 + (-2) * g * xi * z5 ^ 2)  *  hg
  · linear_combination (-2 * (1-g))  *  h10 + ((2) * z2 + (-2) * z0 * z2 + (6) * xi * z4 * z5 + (-4) * xi * z1 * z3 + (-2) * g * xi * z4 * z5 + (2) * g * xi * z1 * z3)  *  hg
  · linear_combination 2  *  h11 + ((2) * z1 + (2) * z0 * z1 + (-2) * xi * z3 * z5)  *  hg
  · linear_combination (-2 * g)  *  h12 + ((2) * z5 + (4) * z2 * z3 + (-2) * z1 * z4 + (-2) * z0 * z5 + (2) * g * z5 + (-2) * g * z1 * z4 + (2) * g * z0 * z5)  *  hg

theorem cyclotomicSquare_of_maps (f : Fq12 FqV) (h : f.frobeniusMaps 4 * f = f.frobeniusMaps 2) :
    cyclotomicSquare f = f * f := by
  obtain ⟨-, a1, a2, a3, a4, a5, a6⟩ := frob_consts
  apply cyclotomic_identity f (frobFq12C1 2) a6
  have e4 : f.frobeniusMaps 4 = ⟨⟨f.c0.c0, f.c0.c1 * -frobFq12C1 2, f.c0.c2 * (frobFq12C1 2 - 1)⟩,
      ⟨f.c1.c0 * (frobFq12C1 2 - 1), f.c1.c1 * -frobFq12C1 2 * (frobFq12C1 2 - 1),
        f.c1.c2 * (frobFq12C1 2 - 1) * (frobFq12C1 2 - 1)⟩⟩ := by
    simp only [Fq12.frobeniusMaps, Fq6.frobeniusMaps, (Fq2.frobeniusMaps_even _).2, Nat.reduceMod, a3, a4, a5]
  have e2 : f.frobeniusMaps 2 = ⟨⟨f.c0.c0, f.c0.c1 * (frobFq12C1 2 - 1), f.c0.c2 * -frobFq12C1 2⟩,
      ⟨f.c1.c0 * frobFq12C1 2, f.c1.c1 * (frobFq12C1 2 - 1) * frobFq12C1 2,
        f.c1.c2 * -frobFq12C1 2 * frobFq12C1 2⟩⟩ := by
    simp only [Fq12.frobeniusMaps, Fq6.frobeniusMaps, (Fq2.frobeniusMaps_even _).1, Nat.reduceMod, a1, a2]
  rw [← e4, ← e2, h]

/-- Membership in the cyclotomic subgroup: `x ^ (q⁴ + 1) = x ^ q²`. -/
def Cyclo (x : Fq12 FqV) : Prop := x ^ (qN ^ 4 + 1) = x ^ qN ^ 2

theorem Cyclo.square {x : Fq12 FqV} (h : Cyclo x) : cyclotomicSquare x = x ^ 2 := by
  rw [pow_two]
  apply cyclotomicSquare_of_maps
  rw [Fq12.frobeniusMaps_eq, Fq12.frobeniusMaps_eq, ← pow_succ]
  exact h

theorem Cyclo.one : Cyclo 1 := by simp [Cyclo]
theorem Cyclo.mul {x y : Fq12 FqV} (hx : Cyclo x) (hy : Cyclo y) : Cyclo (x * y) := by
  unfold Cyclo at *; rw [mul_pow, mul_pow, hx, hy]
theorem Cyclo.pow {x : Fq12 FqV} (hx : Cyclo x) (n : Nat) : Cyclo (x ^ n) := by
  unfold Cyclo at *; rw [← pow_mul, mul_comm, pow_mul, hx, ← pow_mul, mul_comm, pow_mul]

/-- The value of a bit string, most significant bit first. -/
def bitsVal (bs : List Bool) : Nat := bs.foldl (fun n b => 2 * n + b.toNat) 0

theorem cyclo_fold {x : Fq12 FqV} (hx : Cyclo x) (bs : List Bool) (n : Nat) :
    bs.foldl (fun res isOne => let res := cyclotomicSquare res; if isOne then res * x else res) (x ^ n) =
      x ^ bs.foldl (fun n b => 2 * n + b.toNat) n := by
  induction bs generalizing n with
  | nil => rfl
  | cons b bs ih =>
    have e : (let res := cyclotomicSquare (x ^ n); if b then res * x else res) = x ^ (2 * n + b.toNat) := by
      simp only [(hx.pow n).square]
      cases b
      · simp [← pow_mul, mul_comm]
      · simp only [if_true, Bool.toNat_true]
        rw [← pow_mul, ← pow_succ, mul_comm]
    rw [List.foldl_cons, List.foldl_cons, ← ih, e]

theorem cyclotomicExp_eq {x : Fq12 FqV} (hx : Cyclo x) : cyclotomicExp x = x ^ BN_X := by
  unfold cyclotomicExp
  have h := cyclo_fold hx ((List.range 64).reverse.map fun i => BN_X / 2 ^ i % 2 == 1) 0
  rw [pow_zero] at h
  rw [h]
  congr 1

/-- The exponent of the hard part, as computed. -/
def hardExp (p x : Nat) : Nat :=
  let y3 := x * p * p ^ 6
  let y2 := x * x * p ^ 2
  let y0 := p + p ^ 2 + p ^ 2 * p
  let y1 := p ^ 6
  let y5 := x * x * p ^ 6
  let y4 := (x + x * x * p) * p ^ 6
  let y6 := (x * x * x + x * x * x * p) * p ^ 6 * 2 + y4 + y5
  let t1 := y3 + y5 + y6
  let y6 := y6 + y2
  let t1 := (t1 * 2 + y6) * 2
  let t0 := t1 + y1
  let t1 := t1 + y0
  t0 * 2 + t1

theorem final_exponent :
    ((qN ^ 6 - 1) * (qN ^ 2 + 1) * hardExp qN BN_X) % (qN ^ 12 - 1) = (qN ^ 12 - 1) / frParams.m := by
  decide +kernel

theorem order_dvd : frParams.m ∣ qN ^ 12 - 1 := by decide +kernel

theorem cyclo_easy : ((qN ^ 6 - 1) * (qN ^ 2 + 1) * (qN ^ 4 + 1)) % (qN ^ 12 - 1) =
    ((qN ^ 6 - 1) * (qN ^ 2 + 1) * qN ^ 2) % (qN ^ 12 - 1) := by decide +kernel

theorem Fq12.pow_order {f : Fq12 FqV} (hf : f ≠ 0) : f ^ (qN ^ 12 - 1) = 1 := by
  have h := Fq12.pow_q12 f
  have e : qN ^ 12 = (qN ^ 12 - 1) + 1 := by decide +kernel
  rw [e, pow_succ] at h
  exact mul_right_cancel₀ hf (by rw [h, one_mul])

theorem pow_congr_mod {f : Fq12 FqV} (hf : f ≠ 0) {a b : Nat} (h : a % (qN ^ 12 - 1) = b % (qN ^ 12 - 1)) :
    f ^ a = f ^ b := by
  rw [pow_eq_pow_mod a (Fq12.pow_order hf), h, ← pow_eq_pow_mod b (Fq12.pow_order hf)]

theorem finalExp_eq (f : Fq12 FqV) :
    finalExp f = if f = 0 then none else some (f ^ ((qN ^ 12 - 1) / frParams.m)) := by
  unfold finalExp
  rw [Fq12.getInvert_eq]
  by_cases hf : f = 0
  · simp [hf]
  · simp only [if_neg hf]
    have e1 : f⁻¹ * f.conjugate = f ^ (qN ^ 6 - 1) := by
      have e : qN ^ 6 = (qN ^ 6 - 1) + 1 := by decide +kernel
      rw [Fq12.conjugate_eq]
      conv_lhs => rw [e, pow_succ, mul_comm, mul_assoc, mul_inv_cancel₀ hf, mul_one]
    rw [e1]
    have e2 : (f ^ (qN ^ 6 - 1)).frobeniusMaps 2 * f ^ (qN ^ 6 - 1) = f ^ ((qN ^ 6 - 1) * (qN ^ 2 + 1)) := by
      rw [Fq12.frobeniusMaps_eq, ← pow_succ, ← pow_mul]
    rw [e2]
    have hr : Cyclo (f ^ ((qN ^ 6 - 1) * (qN ^ 2 + 1))) := by
      unfold Cyclo
      rw [← pow_mul, ← pow_mul]
      exact pow_congr_mod hf cyclo_easy
    have hfin : (f ^ ((qN ^ 6 - 1) * (qN ^ 2 + 1))) ^ hardExp qN BN_X = f ^ ((qN ^ 12 - 1) / frParams.m) := by
      rw [← pow_mul]
      apply pow_congr_mod hf
      rw [final_exponent]
      exact (Nat.mod_eq_of_lt (by decide +kernel)).symm
    rw [← hfin]
    generalize f ^ ((qN ^ 6 - 1) * (qN ^ 2 + 1)) = r at *
    apply congrArg some
    rw [cyclotomicExp_eq hr, cyclotomicExp_eq (hr.pow _), ← pow_mul, cyclotomicExp_eq (hr.pow _), ← pow_mul]
    simp only [Fq12.frobeniusMaps_eq, Fq12.conjugate_eq, pow_one]
    generalize qN = p at *
    simp only [← pow_mul, ← pow_add]
    rw [(hr.pow _).square]
    simp only [← pow_mul, ← pow_add]
    rw [(hr.pow _).square]
    simp only [← pow_mul, ← pow_add]
    rw [(hr.pow _).square]
    simp only [← pow_mul, ← pow_add]
    rw [(hr.pow _).square]
    simp only [← pow_mul, ← pow_add]
    rfl

end Kogarashi.Tower
