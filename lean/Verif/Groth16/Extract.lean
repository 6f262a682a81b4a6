import Mathlib.Algebra.Polynomial.Roots
import Mathlib.Algebra.Polynomial.BigOperators
import Mathlib.Data.Fintype.Prod
import Mathlib.Data.Fintype.BigOperators
import Mathlib.Tactic.FieldSimp
import Mathlib.Tactic.LinearCombination

/-!
# The verification equation as a polynomial in the toxic waste

`Eqn` holds the coefficients of a proof whose elements are fixed combinations of the parameters.  If the equation holds for more
values of the toxic waste than a nonzero polynomial can have roots, the coefficients satisfy the quadratic program.
-/

namespace Kogarashi.Groth16

open Polynomial

variable {F : Type} [_root_.Field F] [Fintype F] [DecidableEq F]

/-- Roots of a polynomial in one variable over functions of the others. -/
theorem card_step {Y : Type} [Fintype Y] [DecidableEq Y] {d j N : Nat} (hj : j ≤ d) (g : Nat → Y → F)
    (hN : (Finset.univ.filter fun y => g j y = 0).card ≤ N) :
    (Finset.univ.filter fun p : F × Y => ∑ i ∈ Finset.range (d + 1), p.1 ^ i * g i p.2 = 0).card ≤
      N * Fintype.card F + d * Fintype.card Y := by
  set Z := Finset.univ.filter fun y => g j y = 0
  set T := Finset.univ.filter fun p : F × Y => ∑ i ∈ Finset.range (d + 1), p.1 ^ i * g i p.2 = 0 ∧ g j p.2 ≠ 0
  have sub : (Finset.univ.filter fun p : F × Y => ∑ i ∈ Finset.range (d + 1), p.1 ^ i * g i p.2 = 0) ⊆
      (Finset.univ ×ˢ Z) ∪ T := by
    intro p hp
    simp only [Finset.mem_filter, Finset.mem_univ, true_and] at hp
    by_cases h : g j p.2 = 0
    · exact Finset.mem_union_left _ (by simp [Z, h])
    · exact Finset.mem_union_right _ (by simp [T, h, hp])
  have hT : T.card ≤ d * (T.image Prod.snd).card := by
    refine Finset.card_le_mul_card_image T d fun y hy => ?_
    obtain ⟨⟨x0, y0⟩, h0, rfl⟩ := Finset.mem_image.mp hy
    simp only [T, Finset.mem_filter, Finset.mem_univ, true_and] at h0
    let P : F[X] := ∑ i ∈ Finset.range (d + 1), C (g i y0) * X ^ i
    have hP : P ≠ 0 := by
      intro h
      have := congrArg (fun p => coeff p j) h
      simp only [P, finset_sum_coeff, coeff_C_mul_X_pow, coeff_zero, Finset.sum_ite_eq, Finset.mem_range, Nat.lt_succ_of_le hj, if_true] at this
      exact h0.2 this
    have hdeg : P.natDegree ≤ d := by
      refine natDegree_sum_le_of_forall_le _ _ fun i hi => (natDegree_C_mul_X_pow_le _ _).trans ?_
      have := Finset.mem_range.mp hi; omega
    refine le_trans ?_ ((Multiset.toFinset_card_le P.roots).trans ((card_roots' P).trans hdeg))
    refine (Finset.card_le_card (t := P.roots.toFinset.image fun x => (x, y0)) ?_).trans Finset.card_image_le
    rintro ⟨x, y⟩ hx
    simp only [T, Finset.mem_filter, Finset.mem_univ, true_and] at hx
    obtain ⟨⟨h1, -⟩, rfl⟩ := hx
    refine Finset.mem_image.mpr ⟨x, ?_, rfl⟩
    rw [Multiset.mem_toFinset, mem_roots hP, IsRoot, ← h1]
    simp only [P, eval_finset_sum, eval_mul, eval_C, eval_pow, eval_X]
    exact Finset.sum_congr rfl fun i _ => mul_comm _ _
  calc _ ≤ ((Finset.univ ×ˢ Z) ∪ T).card := Finset.card_le_card sub
    _ ≤ (Finset.univ ×ˢ Z).card + T.card := Finset.card_union_le _ _
    _ ≤ _ := by
      rw [Finset.card_product, Finset.card_univ, mul_comm]
      refine Nat.add_le_add (Nat.mul_le_mul_right _ hN) (hT.trans (Nat.mul_le_mul_left _ ?_))
      exact Finset.card_le_univ _

omit [Fintype F] in
theorem card_roots_le [Fintype F] {D : Nat} {P : F[X]} (h : P ≠ 0) (hd : P.natDegree ≤ D) :
    (Finset.univ.filter fun y => P.eval y = 0).card ≤ D := by
  refine le_trans (Finset.card_le_card ?_) ((Multiset.toFinset_card_le P.roots).trans ((card_roots' P).trans hd))
  intro y hy
  rw [Multiset.mem_toFinset, mem_roots h]
  exact (Finset.mem_filter.mp hy).2

/-- A polynomial in `δ, γ, β, α` (degrees at most 3, 2, 2, 1) and `τ`, evaluated. -/
noncomputable def evalAll (c : Nat → Nat → Nat → Nat → F[X]) (p : F × F × F × F × F) : F :=
  ∑ i ∈ Finset.range 4, p.1 ^ i * ∑ j ∈ Finset.range 3, p.2.1 ^ j * ∑ k ∈ Finset.range 3, p.2.2.1 ^ k *
    ∑ l ∈ Finset.range 2, p.2.2.2.1 ^ l * (c i j k l).eval p.2.2.2.2

/-- More roots than this: every coefficient of degree at most `D` vanishes. -/
theorem coeff_eq_zero {c : Nat → Nat → Nat → Nat → F[X]} {D : Nat}
    (hc : (D + 8) * Fintype.card F ^ 4 < (Finset.univ.filter fun p : F × F × F × F × F => evalAll c p = 0).card) {i j k l : Nat}
    (hi : i ≤ 3) (hj : j ≤ 2) (hk : k ≤ 2) (hl : l ≤ 1) (hd : (c i j k l).natDegree ≤ D) : c i j k l = 0 := by
  by_contra h0
  have h1 := card_step hl (fun l y => (c i j k l).eval y) (card_roots_le h0 hd)
  have h2 := card_step hk (fun k (p : F × F) => ∑ l ∈ Finset.range 2, p.1 ^ l * (c i j k l).eval p.2) h1
  have h3 := card_step hj (fun j (p : F × F × F) => ∑ k ∈ Finset.range 3, p.1 ^ k *
    ∑ l ∈ Finset.range 2, p.2.1 ^ l * (c i j k l).eval p.2.2) h2
  have h4 := card_step hi (fun i (p : F × F × F × F) => ∑ j ∈ Finset.range 3, p.1 ^ j * ∑ k ∈ Finset.range 3, p.2.1 ^ k *
    ∑ l ∈ Finset.range 2, p.2.2.1 ^ l * (c i j k l).eval p.2.2.2) h3
  simp only [Fintype.card_prod] at h4
  refine absurd hc (not_lt.mpr (h4.trans (le_of_eq ?_)))
  ring

/-- The coefficients of a proof (`a*`, `b*`, `c*`; `p`, `r` on the input elements, `q`, `s` on the witness and quotient elements of the
key) and the input (`x*`). -/
structure Eqn (F : Type) [_root_.Field F] where
  a : F[X]
  aα : F
  aβ : F
  aδ : F
  pu : F[X]
  pv : F[X]
  pw : F[X]
  qu : F[X]
  qv : F[X]
  qw : F[X]
  b : F[X]
  bβ : F
  bγ : F
  bδ : F
  c : F[X]
  cα : F
  cβ : F
  cδ : F
  ru : F[X]
  rv : F[X]
  rw : F[X]
  su : F[X]
  sv : F[X]
  sw : F[X]
  xu : F[X]
  xv : F[X]
  xw : F[X]

omit [Fintype F] [DecidableEq F] in
/-- The exponents of the three elements under the toxic waste `p = (δ, γ, β, α, τ)`. -/
noncomputable def Eqn.valA (E : Eqn F) (p : F × F × F × F × F) : F :=
  E.a.eval p.2.2.2.2 + E.aα * p.2.2.2.1 + E.aβ * p.2.2.1 + E.aδ * p.1 +
    (E.pu.eval p.2.2.2.2 * p.2.2.1 + E.pv.eval p.2.2.2.2 * p.2.2.2.1 + E.pw.eval p.2.2.2.2) * p.2.1⁻¹ +
    (E.qu.eval p.2.2.2.2 * p.2.2.1 + E.qv.eval p.2.2.2.2 * p.2.2.2.1 + E.qw.eval p.2.2.2.2) * p.1⁻¹

omit [Fintype F] [DecidableEq F] in
noncomputable def Eqn.valB (E : Eqn F) (p : F × F × F × F × F) : F :=
  E.b.eval p.2.2.2.2 + E.bβ * p.2.2.1 + E.bγ * p.2.1 + E.bδ * p.1

omit [Fintype F] [DecidableEq F] in
noncomputable def Eqn.valC (E : Eqn F) (p : F × F × F × F × F) : F :=
  E.c.eval p.2.2.2.2 + E.cα * p.2.2.2.1 + E.cβ * p.2.2.1 + E.cδ * p.1 +
    (E.ru.eval p.2.2.2.2 * p.2.2.1 + E.rv.eval p.2.2.2.2 * p.2.2.2.1 + E.rw.eval p.2.2.2.2) * p.2.1⁻¹ +
    (E.su.eval p.2.2.2.2 * p.2.2.1 + E.sv.eval p.2.2.2.2 * p.2.2.2.1 + E.sw.eval p.2.2.2.2) * p.1⁻¹

/-- The verification equation. -/
def Eqn.Holds (E : Eqn F) (p : F × F × F × F × F) : Prop :=
  p.1 ≠ 0 ∧ p.2.1 ≠ 0 ∧ E.valA p * E.valB p = p.2.2.2.1 * p.2.2.1 +
    (E.xu.eval p.2.2.2.2 * p.2.2.1 + E.xv.eval p.2.2.2.2 * p.2.2.2.1 + E.xw.eval p.2.2.2.2) + E.valC p * p.1

/-- Exponent 0 of `δ`. -/
noncomputable def Eqn.coef0 (E : Eqn F) : Nat → List (List F[X])
  | 0 => [[0, 0], [0, 0], [0, 0]]
  | 1 => [[E.qw * E.b, E.qv * E.b], [E.qu * E.b + E.qw * C E.bβ, E.qv * C E.bβ], [E.qu * C E.bβ, 0]]
  | 2 => [[E.qw * C E.bγ, E.qv * C E.bγ], [E.qu * C E.bγ, 0], [0, 0]]
  | _ => []

/-- Exponent 1 of `δ`. -/
noncomputable def Eqn.coef1 (E : Eqn F) : Nat → List (List F[X])
  | 0 => [[E.pw * E.b, E.pv * E.b], [E.pu * E.b + E.pw * C E.bβ, E.pv * C E.bβ], [E.pu * C E.bβ, 0]]
  | 1 => [[E.a * E.b + E.pw * C E.bγ + E.qw * C E.bδ - (E.xw + E.sw), C E.aα * E.b + E.pv * C E.bγ + E.qv * C E.bδ - (E.xv + E.sv)], [C E.aβ * E.b + E.a * C E.bβ + E.pu * C E.bγ + E.qu * C E.bδ - (E.xu + E.su), C (E.aα * E.bβ - 1)], [C (E.aβ * E.bβ), 0]]
  | 2 => [[E.a * C E.bγ, C (E.aα * E.bγ)], [C (E.aβ * E.bγ), 0], [0, 0]]
  | _ => []

/-- Exponent 2 of `δ`. -/
noncomputable def Eqn.coef2 (E : Eqn F) : Nat → List (List F[X])
  | 0 => [[E.pw * C E.bδ - E.rw, E.pv * C E.bδ - E.rv], [E.pu * C E.bδ - E.ru, 0], [0, 0]]
  | 1 => [[E.a * C E.bδ + C E.aδ * E.b - E.c, C (E.aα * E.bδ - E.cα)], [C (E.aβ * E.bδ + E.aδ * E.bβ - E.cβ), 0], [0, 0]]
  | 2 => [[C (E.aδ * E.bγ), 0], [0, 0], [0, 0]]
  | _ => []

/-- Exponent 3 of `δ`. -/
noncomputable def Eqn.coef3 (E : Eqn F) : Nat → List (List F[X])
  | 0 => [[0, 0], [0, 0], [0, 0]]
  | 1 => [[C (E.aδ * E.bδ - E.cδ), 0], [0, 0], [0, 0]]
  | 2 => [[0, 0], [0, 0], [0, 0]]
  | _ => []

/-- The coefficients of `γδ (A·B - αβ - input - C·δ)`; exponents of `δ`, `γ`, `β`, `α`. -/
noncomputable def Eqn.coef (E : Eqn F) (i j k l : Nat) : F[X] :=
  (((match i with | 0 => E.coef0 j | 1 => E.coef1 j | 2 => E.coef2 j | 3 => E.coef3 j | _ => []).getD k []).getD l 0)

omit [Fintype F] [DecidableEq F] in
theorem Eqn.evalAll_coef (E : Eqn F) {p : F × F × F × F × F} (h : E.Holds p) : evalAll E.coef p = 0 := by
  obtain ⟨δ, γ, β, α, τ⟩ := p
  obtain ⟨hd, hg, h⟩ := h
  dsimp only [Eqn.valA, Eqn.valB, Eqn.valC] at hd hg h
  have expand : evalAll E.coef (δ, γ, β, α, τ) =
      δ ^ 0 * (γ ^ 0 * (β ^ 0 * (α ^ 0 * (0 : F[X]).eval τ + α ^ 1 * (0 : F[X]).eval τ)+β ^ 1 * (α ^ 0 * (0 : F[X]).eval τ + α ^ 1 * (0 : F[X]).eval τ)+β ^ 2 * (α ^ 0 * (0 : F[X]).eval τ + α ^ 1 * (0 : F[X]).eval τ)) + γ ^ 1 * (β ^ 0 * (α ^ 0 * (E.qw * E.b : F[X]).eval τ + α ^ 1 * (E.qv * E.b : F[X]).eval τ)+β ^ 1 * (α ^ 0 * (E.qu * E.b + E.qw * C E.bβ : F[X]).eval τ + α ^ 1 * (E.qv * C E.bβ : F[X]).eval τ)+β ^ 2 * (α ^ 0 * (E.qu * C E.bβ : F[X]).eval τ + α ^ 1 * (0 : F[X]).eval τ)) + γ ^ 2 * (β ^ 0 * (α ^ 0 * (E.qw * C E.bγ : F[X]).eval τ + α ^ 1 * (E.qv * C E.bγ : F[X]).eval τ)+β ^ 1 * (α ^ 0 * (E.qu * C E.bγ : F[X]).eval τ + α ^ 1 * (0 : F[X]).eval τ)+β ^ 2 * (α ^ 0 * (0 : F[X]).eval τ + α ^ 1 * (0 : F[X]).eval τ))) +
      δ ^ 1 * (γ ^ 0 * (β ^ 0 * (α ^ 0 * (E.pw * E.b : F[X]).eval τ + α ^ 1 * (E.pv * E.b : F[X]).eval τ)+β ^ 1 * (α ^ 0 * (E.pu * E.b + E.pw * C E.bβ : F[X]).eval τ + α ^ 1 * (E.pv * C E.bβ : F[X]).eval τ)+β ^ 2 * (α ^ 0 * (E.pu * C E.bβ : F[X]).eval τ + α ^ 1 * (0 : F[X]).eval τ)) + γ ^ 1 * (β ^ 0 * (α ^ 0 * (E.a * E.b + E.pw * C E.bγ + E.qw * C E.bδ - (E.xw + E.sw) : F[X]).eval τ + α ^ 1 * (C E.aα * E.b + E.pv * C E.bγ + E.qv * C E.bδ - (E.xv + E.sv) : F[X]).eval τ)+β ^ 1 * (α ^ 0 * (C E.aβ * E.b + E.a * C E.bβ + E.pu * C E.bγ + E.qu * C E.bδ - (E.xu + E.su) : F[X]).eval τ + α ^ 1 * (C (E.aα * E.bβ - 1) : F[X]).eval τ)+β ^ 2 * (α ^ 0 * (C (E.aβ * E.bβ) : F[X]).eval τ + α ^ 1 * (0 : F[X]).eval τ)) + γ ^ 2 * (β ^ 0 * (α ^ 0 * (E.a * C E.bγ : F[X]).eval τ + α ^ 1 * (C (E.aα * E.bγ) : F[X]).eval τ)+β ^ 1 * (α ^ 0 * (C (E.aβ * E.bγ) : F[X]).eval τ + α ^ 1 * (0 : F[X]).eval τ)+β ^ 2 * (α ^ 0 * (0 : F[X]).eval τ + α ^ 1 * (0 : F[X]).eval τ))) +
      δ ^ 2 * (γ ^ 0 * (β ^ 0 * (α ^ 0 * (E.pw * C E.bδ - E.rw : F[X]).eval τ + α ^ 1 * (E.pv * C E.bδ - E.rv : F[X]).eval τ)+β ^ 1 * (α ^ 0 * (E.pu * C E.bδ - E.ru : F[X]).eval τ + α ^ 1 * (0 : F[X]).eval τ)+β ^ 2 * (α ^ 0 * (0 : F[X]).eval τ + α ^ 1 * (0 : F[X]).eval τ)) + γ ^ 1 * (β ^ 0 * (α ^ 0 * (E.a * C E.bδ + C E.aδ * E.b - E.c : F[X]).eval τ + α ^ 1 * (C (E.aα * E.bδ - E.cα) : F[X]).eval τ)+β ^ 1 * (α ^ 0 * (C (E.aβ * E.bδ + E.aδ * E.bβ - E.cβ) : F[X]).eval τ + α ^ 1 * (0 : F[X]).eval τ)+β ^ 2 * (α ^ 0 * (0 : F[X]).eval τ + α ^ 1 * (0 : F[X]).eval τ)) + γ ^ 2 * (β ^ 0 * (α ^ 0 * (C (E.aδ * E.bγ) : F[X]).eval τ + α ^ 1 * (0 : F[X]).eval τ)+β ^ 1 * (α ^ 0 * (0 : F[X]).eval τ + α ^ 1 * (0 : F[X]).eval τ)+β ^ 2 * (α ^ 0 * (0 : F[X]).eval τ + α ^ 1 * (0 : F[X]).eval τ))) +
      δ ^ 3 * (γ ^ 0 * (β ^ 0 * (α ^ 0 * (0 : F[X]).eval τ + α ^ 1 * (0 : F[X]).eval τ)+β ^ 1 * (α ^ 0 * (0 : F[X]).eval τ + α ^ 1 * (0 : F[X]).eval τ)+β ^ 2 * (α ^ 0 * (0 : F[X]).eval τ + α ^ 1 * (0 : F[X]).eval τ)) + γ ^ 1 * (β ^ 0 * (α ^ 0 * (C (E.aδ * E.bδ - E.cδ) : F[X]).eval τ + α ^ 1 * (0 : F[X]).eval τ)+β ^ 1 * (α ^ 0 * (0 : F[X]).eval τ + α ^ 1 * (0 : F[X]).eval τ)+β ^ 2 * (α ^ 0 * (0 : F[X]).eval τ + α ^ 1 * (0 : F[X]).eval τ)) + γ ^ 2 * (β ^ 0 * (α ^ 0 * (0 : F[X]).eval τ + α ^ 1 * (0 : F[X]).eval τ)+β ^ 1 * (α ^ 0 * (0 : F[X]).eval τ + α ^ 1 * (0 : F[X]).eval τ)+β ^ 2 * (α ^ 0 * (0 : F[X]).eval τ + α ^ 1 * (0 : F[X]).eval τ))) := by
    simp only [evalAll, Finset.sum_range_succ, Finset.sum_range_zero, zero_add]
    rfl
  rw [expand]
  simp only [eval_add, eval_sub, eval_mul, eval_C, eval_zero, eval_one, mul_zero, add_zero, zero_add, pow_zero, one_mul, pow_one]
  field_simp at h
  linear_combination h

/-- If the equation holds too often, the coefficients of the witness part of `C` solve the quadratic program of the circuit. -/
theorem Eqn.extract (E : Eqn F) {n : Nat} (ha : E.a.natDegree ≤ n) (hb : E.b.natDegree ≤ n) (hpu : E.pu.natDegree ≤ n)
    (hpv : E.pv.natDegree ≤ n) (hpw : E.pw.natDegree ≤ n) (hqu : E.qu.natDegree ≤ n) (hqv : E.qv.natDegree ≤ n) (hqw : E.qw.natDegree ≤ 2 * n)
    (hsu : E.su.natDegree ≤ n) (hsv : E.sv.natDegree ≤ n) (hsw : E.sw.natDegree ≤ 2 * n) (hxu : E.xu.natDegree ≤ n) (hxv : E.xv.natDegree ≤ n)
    (hxw : E.xw.natDegree ≤ n) (T : Finset (F × F × F × F × F)) (hT : ∀ p ∈ T, E.Holds p)
    (hc : (2 * n + 8) * Fintype.card F ^ 4 < T.card) : (E.xu + E.su) * (E.xv + E.sv) = E.xw + E.sw := by
  have hc' : (2 * n + 8) * Fintype.card F ^ 4 < (Finset.univ.filter fun p : F × F × F × F × F => evalAll E.coef p = 0).card :=
    hc.trans_le (Finset.card_le_card fun p hp => by simp [E.evalAll_coef (hT p hp)])
  have mC : ∀ {p : F[X]} {c : F} {m : Nat}, p.natDegree ≤ m → (p * C c).natDegree ≤ m := fun h => (natDegree_mul_C_le _ _).trans h
  have Cm : ∀ {p : F[X]} {c : F} {m : Nat}, p.natDegree ≤ m → (C c * p).natDegree ≤ m := fun h => (natDegree_C_mul_le _ _).trans h
  have ad : ∀ {p q : F[X]} {m : Nat}, p.natDegree ≤ m → q.natDegree ≤ m → (p + q).natDegree ≤ m := fun h k => natDegree_add_le_of_degree_le h k
  have sb : ∀ {p q : F[X]} {m : Nat}, p.natDegree ≤ m → q.natDegree ≤ m → (p - q).natDegree ≤ m := fun h k => natDegree_sub_le_of_le h k |>.trans (by simp)
  have ml : ∀ {p q : F[X]}, p.natDegree ≤ n → q.natDegree ≤ n → (p * q).natDegree ≤ 2 * n := fun h k => natDegree_mul_le.trans (by omega)
  have up : ∀ {p : F[X]}, p.natDegree ≤ n → p.natDegree ≤ 2 * n := fun h => h.trans (by omega)
  have nC : ∀ {c : F}, (C c : F[X]).natDegree ≤ 2 * n := by intro c; rw [natDegree_C]; exact Nat.zero_le _
  have c1 : C (E.aα * E.bβ - 1) = 0 := coeff_eq_zero hc' (i := 1) (j := 1) (k := 1) (l := 1) (by omega) (by omega) (by omega) (by omega) nC
  have c2 : C (E.aβ * E.bβ) = 0 := coeff_eq_zero hc' (i := 1) (j := 1) (k := 2) (l := 0) (by omega) (by omega) (by omega) (by omega) nC
  have c3 : C (E.aα * E.bγ) = 0 := coeff_eq_zero hc' (i := 1) (j := 2) (k := 0) (l := 1) (by omega) (by omega) (by omega) (by omega) nC
  have c4 : E.qu * C E.bβ = 0 := coeff_eq_zero hc' (i := 0) (j := 1) (k := 2) (l := 0) (by omega) (by omega) (by omega) (by omega) (mC (up hqu))
  have c5 : E.qv * C E.bβ = 0 := coeff_eq_zero hc' (i := 0) (j := 1) (k := 1) (l := 1) (by omega) (by omega) (by omega) (by omega) (mC (up hqv))
  have c6 : E.qu * E.b + E.qw * C E.bβ = 0 := coeff_eq_zero hc' (i := 0) (j := 1) (k := 1) (l := 0) (by omega) (by omega) (by omega) (by omega)
    (ad (ml hqu hb) (mC hqw))
  have c7 : C E.aα * E.b + E.pv * C E.bγ + E.qv * C E.bδ - (E.xv + E.sv) = 0 :=
    coeff_eq_zero hc' (i := 1) (j := 1) (k := 0) (l := 1) (by omega) (by omega) (by omega) (by omega)
      (up (sb (ad (ad (Cm hb) (mC hpv)) (mC hqv)) (ad hxv hsv)))
  have c8 : C E.aβ * E.b + E.a * C E.bβ + E.pu * C E.bγ + E.qu * C E.bδ - (E.xu + E.su) = 0 :=
    coeff_eq_zero hc' (i := 1) (j := 1) (k := 1) (l := 0) (by omega) (by omega) (by omega) (by omega)
      (up (sb (ad (ad (ad (Cm hb) (mC ha)) (mC hpu)) (mC hqu)) (ad hxu hsu)))
  have c9 : E.a * E.b + E.pw * C E.bγ + E.qw * C E.bδ - (E.xw + E.sw) = 0 :=
    coeff_eq_zero hc' (i := 1) (j := 1) (k := 0) (l := 0) (by omega) (by omega) (by omega) (by omega)
      (sb (ad (ad (ml ha hb) (mC (up hpw))) (mC hqw)) (ad (up hxw) hsw))
  rw [C_eq_zero] at c1 c2 c3
  have hβ : E.bβ ≠ 0 := by rintro h; rw [h, mul_zero, zero_sub, neg_eq_zero] at c1; exact one_ne_zero c1
  have hα : E.aα ≠ 0 := by rintro h; rw [h, zero_mul, zero_sub, neg_eq_zero] at c1; exact one_ne_zero c1
  have z1 : E.aβ = 0 := (mul_eq_zero.mp c2).resolve_right hβ
  have z2 : E.bγ = 0 := (mul_eq_zero.mp c3).resolve_left hα
  have hβ' : (C E.bβ : F[X]) ≠ 0 := C_eq_zero.not.mpr hβ
  have z3 : E.qu = 0 := (mul_eq_zero.mp c4).resolve_right hβ'
  have z4 : E.qv = 0 := (mul_eq_zero.mp c5).resolve_right hβ'
  rw [z3, zero_mul, zero_add] at c6
  have z5 : E.qw = 0 := (mul_eq_zero.mp c6).resolve_right hβ'
  rw [z2, z4, C_0] at c7
  rw [z1, z2, z3, C_0] at c8
  rw [z2, z5, C_0] at c9
  have k : (C E.aα * C E.bβ : F[X]) = 1 := by rw [← C_mul, sub_eq_zero.mp c1, C_1]
  linear_combination (-(E.a * C E.bβ)) * c7 - (E.xv + E.sv) * c8 + c9 + E.a * E.b * k

end Kogarashi.Groth16
