import Verif.Tower.Lines

/-!
# The prepared coefficients and the loop compute Miller's algorithm (lemmas)
-/

namespace Kogarashi.Tower

open Spec Curve WeierstrassCurve.Affine

variable {F : Type} [Field F] [TowerOk F] [DecidableEq F] {b : Fq2 F}

/-- The coefficients and the final point of the preparation loop, by recursion on the digits. -/
def chain (g : Aff (Fq2 F)) : List Int → Proj (Fq2 F) → List (PairingCoeff F) × Proj (Fq2 F)
  | [], t => ([], t)
  | d :: ds, t =>
    let r := doubleEval t
    if d = 1 then
      let r2 := addEval r.1 g
      let rest := chain g ds r2.1
      (r.2 :: r2.2 :: rest.1, rest.2)
    else if d = -1 then
      let r2 := addEval r.1 (negAff g)
      let rest := chain g ds r2.1
      (r.2 :: r2.2 :: rest.1, rest.2)
    else
      let rest := chain g ds r.1
      (r.2 :: rest.1, rest.2)

omit [TowerOk F] [DecidableEq F] in
theorem prepare_fold (g : Aff (Fq2 F)) (ds : List Int) (t : Proj (Fq2 F)) (cs : List (PairingCoeff F)) :
    ds.foldl (prepareStep g) (t, cs) = ((chain g ds t).2, cs ++ (chain g ds t).1) := by
  induction ds generalizing t cs with
  | nil => simp [chain]
  | cons d ds ih =>
    rw [List.foldl_cons]
    by_cases h1 : d = 1
    · simp only [prepareStep, chain, h1, if_true]
      rw [ih]; simp
    · by_cases h2 : d = -1
      · simp only [prepareStep, chain, h2, if_true]
        simp only [show ¬((-1 : Int) = 1) by decide, if_false]
        rw [ih]; simp
      · simp only [prepareStep, chain, h1, h2, if_false]
        rw [ih]; simp

/-- The digits never lead to an exceptional doubling or addition, for a point whose multiples vanish exactly at the
multiples of `r`. -/
def regular (r : Int) : List Int → Int → Bool
  | [], _ => true
  | d :: ds, k =>
    decide (d = 0 ∨ d = 1 ∨ d = -1) && decide (¬ r ∣ 2 * k) &&
      (decide (d = 0) || (decide (¬ r ∣ 2 * k - d) && decide (¬ r ∣ 2 * k + d))) && regular r ds (2 * k + d)

omit [TowerOk F] [DecidableEq F] in
/-- The value of a line with non-zero leading coefficient is not zero. -/
theorem line_ne_zero {c : PairingCoeff F} (hc : c.e0 ≠ 0) {p : Aff F} (hy : p.y ≠ 0) : line c p ≠ 0 := by
  intro h
  have h0 : c.e0.c0 * p.y = 0 := by simpa [line] using congrArg (fun a : Fq12 F => a.c0.c0.c0) h
  have h1 : c.e0.c1 * p.y = 0 := by simpa [line] using congrArg (fun a : Fq12 F => a.c0.c0.c1) h
  exact hc (by ext; exacts [(mul_eq_zero.mp h0).resolve_right hy, (mul_eq_zero.mp h1).resolve_right hy])

theorem chain_spec (h2 : (2 : Fq2 F) ≠ 0) {b' : Fq12 F} (hb : b' = iota b * Fq12.w ^ 6) {g : Aff (Fq2 F)}
    {Q : (curve b).Point} (hQ0 : Q ≠ 0) (hg : AffRep b g Q) {r : Int} (hr : ∀ k : Int, k • Q = 0 ↔ r ∣ k) (p : Aff F)
    (hpy0 : p.y ≠ 0) :
    ∀ (ds : List Int) (k : Int) (t : Proj (Fq2 F)) (first : Bool) (acc : Fq12 F) (κ : Fq2 F) (f : Fq12 F),
      regular r ds k = true → JacRep b t (k • Q) → κ ≠ 0 → acc = iota κ * f → f ≠ 0 → (first = true → acc = 1 ∧ f = 1) →
      ∃ κ' : Fq2 F, κ' ≠ 0 ∧ JacRep b (chain g ds t).2 (ds.foldl (fun n d => 2 * n + d) k • Q) ∧
        (ds.foldl (millerStep (scale iota w_ne_zero hb Q) (iota (Fq2.of p.x)) (iota (Fq2.of p.y)))
          (scale iota w_ne_zero hb (k • Q), f)).1 =
          scale iota w_ne_zero hb (ds.foldl (fun n d => 2 * n + d) k • Q) ∧
        (ds.foldl (millerStep (scale iota w_ne_zero hb Q) (iota (Fq2.of p.x)) (iota (Fq2.of p.y)))
          (scale iota w_ne_zero hb (k • Q), f)).2 ≠ 0 ∧
        ∀ rest cs', single (schedule first ds ++ rest) acc p ((chain g ds t).1 ++ cs') =
          single rest (iota κ' * (ds.foldl (millerStep (scale iota w_ne_zero hb Q) (iota (Fq2.of p.x))
            (iota (Fq2.of p.y))) (scale iota w_ne_zero hb (k • Q), f)).2) p cs' := by
  intro ds
  induction ds with
  | nil =>
    intro k t first acc κ f _ ht hκ hacc hf0 _
    exact ⟨κ, hκ, ht, rfl, hf0, fun rest cs' => by simp [schedule, chain, hacc]⟩
  | cons d ds ih =>
    intro k t first acc κ f hreg ht hκ hacc hf0 hfirst
    simp only [regular, Bool.and_eq_true, decide_eq_true_eq, Bool.or_eq_true] at hreg
    obtain ⟨⟨⟨hd, h2k⟩, hadd⟩, hrest⟩ := hreg
    have hdbl : k • Q + k • Q = (2 * k) • Q := by rw [two_mul, add_zsmul]
    have hT : k • Q + k • Q ≠ 0 := by rw [hdbl, Ne, hr]; exact h2k
    obtain ⟨j1, l1⟩ := doubleEval_spec h2 ht hT
    have hkQ : k • Q ≠ 0 := by
      intro h; rw [h, add_zero] at hT; exact hT rfl
    -- the factor after the squaring and the tangent
    have hl1 := isLine_line hb hkQ l1 p
    have hc1 : (doubleEval t).2.e0 ≠ 0 := by
      clear hl1 hr hadd
      generalize k • Q = T at *
      cases T with
      | zero => exact absurd l1 id
      | some x y hns => exact l1.1
    have hv1 := right_ne_zero_of_mul (hl1 ▸ line_ne_zero hc1 hpy0)
    set px := iota (F := F) (Fq2.of p.x) with hpx
    set py := iota (F := F) (Fq2.of p.y) with hpy
    set Ψ := scale iota w_ne_zero hb with hΨ
    obtain ⟨κ1, hκ1, hacc1⟩ : ∃ κ1 : Fq2 F, κ1 ≠ 0 ∧ (if first then acc else acc * acc) * line (doubleEval t).2 p =
        iota κ1 * (f ^ 2 * lineValue (Ψ (k • Q)) (Ψ (k • Q)) px py) := by
      cases first with
      | true =>
        obtain ⟨ha, hf⟩ := hfirst rfl
        refine ⟨_, hc1, ?_⟩
        rw [if_pos rfl, ha, hf, hl1, one_mul, one_pow, one_mul]
      | false =>
        refine ⟨κ * κ * (doubleEval t).2.e0, mul_ne_zero (mul_ne_zero hκ hκ) hc1, ?_⟩
        rw [hl1, hacc, map_mul, map_mul]
        simp only [Bool.false_eq_true, if_false]
        ring
    have hdbl' : Ψ (k • Q) + Ψ (k • Q) = Ψ ((2 * k) • Q) := by rw [← map_add, hdbl]
    have hsingle : ∀ s cs, single ((if first then [] else [false]) ++ true :: s) acc p ((doubleEval t).2 :: cs) =
        single s ((if first then acc else acc * acc) * line (doubleEval t).2 p) p cs := by
      intro s cs
      cases first <;> rfl
    rw [hdbl] at j1
    rcases hd with rfl | rfl | rfl
    · -- digit 0
      obtain ⟨κ', hκ', e1, e2, e4, e3⟩ := ih (2 * k + 0) (doubleEval t).1 false _ κ1 _ hrest (by rw [add_zero]; exact j1) hκ1
        hacc1 (mul_ne_zero (pow_ne_zero _ hf0) hv1) (by simp)
      refine ⟨κ', hκ', e1, ?_, ?_, fun rest cs' => ?_⟩
      · simp only [List.foldl_cons]
        rw [← e2]
        simp only [millerStep, show ¬((0 : Int) = 1) by decide, show ¬((0 : Int) = -1) by decide, if_false, hdbl', add_zero,
          List.foldl_cons]
      · simp only [List.foldl_cons]
        convert e4 using 3
        simp only [millerStep, show ¬((0 : Int) = 1) by decide, show ¬((0 : Int) = -1) by decide, if_false, hdbl', add_zero,
          List.foldl_cons]
      · have := e3 rest cs'
        simp only [schedule, chain, show ¬((0 : Int) = 1) by decide, show ¬((0 : Int) = -1) by decide, if_false, or_self,
          List.append_nil, List.cons_append, List.append_assoc]
        rw [hsingle, List.nil_append, this]
        simp only [millerStep, show ¬((0 : Int) = 1) by decide, show ¬((0 : Int) = -1) by decide, if_false, hdbl', add_zero,
          List.foldl_cons]
    · -- digit 1
      have hadd' := (hadd.resolve_left (by decide))
      obtain ⟨j2, l2⟩ := addEval_spec h2 j1 hg hQ0
        (fun h => hadd'.1 ((hr _).mp (by rw [sub_zsmul, one_zsmul, h, add_neg_cancel])))
        (fun h => hadd'.2 ((hr _).mp (by rw [add_zsmul, one_zsmul, h, neg_add_cancel])))
      have hl2 := isLine_line hb hQ0 l2 p
      have hc2 : (addEval (doubleEval t).1 g).2.e0 ≠ 0 := by
        clear hl2 hr hadd hadd' j1 j2 hdbl hdbl'
        generalize (2 * k) • Q = T at *
        cases T with
        | zero => exact absurd l2 id
        | some x y hns => exact l2.1
      have hv2 := right_ne_zero_of_mul (hl2 ▸ line_ne_zero hc2 hpy0)
      have e12 : (2 * k) • Q + Q = (2 * k + 1) • Q := by rw [add_zsmul, one_zsmul]
      rw [e12] at j2
      obtain ⟨κ', hκ', e1, e2, e4, e3⟩ := ih (2 * k + 1) (addEval (doubleEval t).1 g).1 false
        ((if first then acc else acc * acc) * line (doubleEval t).2 p * line (addEval (doubleEval t).1 g).2 p)
        (κ1 * (addEval (doubleEval t).1 g).2.e0)
        (f ^ 2 * lineValue (Ψ (k • Q)) (Ψ (k • Q)) px py * lineValue (Ψ ((2 * k) • Q)) (Ψ Q) px py) hrest j2
        (mul_ne_zero hκ1 hc2) (by rw [hacc1, hl2, map_mul]; ring)
        (mul_ne_zero (mul_ne_zero (pow_ne_zero _ hf0) hv1) hv2) (by simp)
      have hmap : Ψ ((2 * k) • Q) + Ψ Q = Ψ ((2 * k + 1) • Q) := by rw [← map_add, e12]
      refine ⟨κ', hκ', e1, ?_, ?_, fun rest cs' => ?_⟩
      · simp only [List.foldl_cons]
        rw [← e2]
        simp only [millerStep, if_true, hdbl', hmap]
      · simp only [List.foldl_cons]
        convert e4 using 3
        simp only [millerStep, if_true, hdbl', hmap]
      · have := e3 rest cs'
        simp only [schedule, chain, if_true, true_or, List.cons_append, List.append_assoc]
        rw [hsingle]
        simp only [List.cons_append, List.nil_append, single]
        rw [this]
        simp only [List.foldl_cons, millerStep, if_true, hdbl', hmap]
    · -- digit -1
      have hadd' := (hadd.resolve_left (by decide))
      have hgn : AffRep b (negAff g) (-Q) := affNeg_rep hg
      have hQn : -Q ≠ 0 := neg_ne_zero.mpr hQ0
      obtain ⟨j2, l2⟩ := addEval_spec h2 j1 hgn hQn
        (fun h => hadd'.1 ((hr _).mp (by rw [sub_zsmul, h]; simp)))
        (fun h => hadd'.2 ((hr _).mp (by rw [add_zsmul, h]; simp)))
      have hl2 := isLine_line hb hQn l2 p
      have hc2 : (addEval (doubleEval t).1 (negAff g)).2.e0 ≠ 0 := by
        clear hl2 hr hadd hadd' j1 j2 hdbl hdbl'
        generalize (2 * k) • Q = T at *
        cases T with
        | zero => exact absurd l2 id
        | some x y hns => exact l2.1
      have hv2 := right_ne_zero_of_mul (hl2 ▸ line_ne_zero hc2 hpy0)
      have e12 : (2 * k) • Q + -Q = (2 * k + -1) • Q := by rw [add_zsmul, neg_zsmul, one_zsmul]
      rw [e12] at j2
      have hneg : Ψ (-Q) = -Ψ Q := map_neg _ _
      rw [hneg] at hl2 hv2
      obtain ⟨κ', hκ', e1, e2, e4, e3⟩ := ih (2 * k + -1) (addEval (doubleEval t).1 (negAff g)).1 false
        ((if first then acc else acc * acc) * line (doubleEval t).2 p * line (addEval (doubleEval t).1 (negAff g)).2 p)
        (κ1 * (addEval (doubleEval t).1 (negAff g)).2.e0)
        (f ^ 2 * lineValue (Ψ (k • Q)) (Ψ (k • Q)) px py * lineValue (Ψ ((2 * k) • Q)) (-Ψ Q) px py) hrest j2
        (mul_ne_zero hκ1 hc2) (by rw [hacc1, hl2, map_mul]; ring)
        (mul_ne_zero (mul_ne_zero (pow_ne_zero _ hf0) hv1) hv2) (by simp)
      have hmap : Ψ ((2 * k) • Q) + -Ψ Q = Ψ ((2 * k + -1) • Q) := by rw [← hneg, ← map_add, e12]
      refine ⟨κ', hκ', e1, ?_, ?_, fun rest cs' => ?_⟩
      · simp only [List.foldl_cons]
        rw [← e2]
        simp only [millerStep, show ¬((-1 : Int) = 1) by decide, if_true, if_false, hdbl', hmap]
      · simp only [List.foldl_cons]
        convert e4 using 3
        simp only [millerStep, show ¬((-1 : Int) = 1) by decide, if_true, if_false, hdbl', hmap]
      · have := e3 rest cs'
        simp only [schedule, chain, show ¬((-1 : Int) = 1) by decide, if_true, if_false, or_true, List.cons_append,
          List.append_assoc]
        rw [hsingle]
        simp only [List.cons_append, List.nil_append, single]
        rw [this]
        simp only [List.foldl_cons, millerStep, show ¬((-1 : Int) = 1) by decide, if_true, if_false, hdbl', hmap]

end Kogarashi.Tower
