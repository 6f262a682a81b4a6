import Verif.Groth16.Poly
import Verif.Spec.Poly
import Mathlib.Algebra.Polynomial.Degree.Lemmas
import Mathlib.Algebra.BigOperators.Ring.Finset
import Mathlib.Data.List.GetD
import Mathlib.Tactic.Ring
import Mathlib.Tactic.LinearCombination

/-! # Polynomials as coefficient lists -/

namespace Kogarashi.Groth16

open Spec Polynomial

variable {F : Type} [Field F]

theorem polyOf_append (l m : List F) : polyOf (l ++ m) = polyOf l + X ^ l.length * polyOf m := by
  induction l with
  | nil => simp [polyOf]
  | cons c cs ih => simp only [List.cons_append, polyOf, ih, List.length_cons, pow_succ]; ring

theorem coeff_polyOf (l : List F) (i : Nat) : (polyOf l).coeff i = l.getD i 0 := by
  induction l generalizing i with
  | nil => simp [polyOf]
  | cons c cs ih =>
    cases i with
    | zero => simp [polyOf]
    | succ i => simp [polyOf, ih, coeff_C]

theorem polyOf_replicate_zero (n : Nat) : polyOf (List.replicate n (0 : F)) = 0 := by
  ext i; rw [coeff_polyOf]; simp [List.getD_eq_getElem?_getD, List.getElem?_replicate]
  split <;> simp

theorem degree_polyOf_lt (l : List F) : (polyOf l).degree < l.length := by
  rw [degree_lt_iff_coeff_zero]
  intro m hm
  rw [coeff_polyOf, List.getD_eq_default _ _ hm]

theorem eval_polyOf (l : List F) (x : F) {n : Nat} (h : l.length ≤ n) :
    (polyOf l).eval x = ∑ j ∈ Finset.range n, l.getD j 0 * x ^ j := by
  induction l generalizing n with
  | nil => simp [polyOf]
  | cons c cs ih =>
    cases n with
    | zero => simp at h
    | succ n =>
      rw [Finset.sum_range_succ']
      simp only [polyOf, eval_add, eval_C, eval_mul, eval_X, List.getD_cons_succ, List.getD_cons_zero, pow_zero, mul_one]
      rw [ih (n := n) (by simpa using h), Finset.mul_sum, add_comm]
      congr 1
      apply Finset.sum_congr rfl
      intros; ring

theorem polyOf_map_mul (l : List F) (s : F) : polyOf (l.map (fun c => c * s)) = C s * polyOf l := by
  induction l with
  | nil => simp [polyOf]
  | cons c cs ih => simp only [List.map_cons, polyOf, ih, C_mul]; ring

theorem polyOf_inj_length {l m : List F} (h : polyOf l = polyOf m) (hl : l.length = m.length) : l = m := by
  apply List.ext_getElem hl
  intro i h1 h2
  have := congrArg (fun p => p.coeff i) h
  simp only [coeff_polyOf] at this
  rwa [List.getD_eq_getElem _ _ h1, List.getD_eq_getElem _ _ h2] at this

theorem polyOf_inj_trimmed {l m : List F} (h : polyOf l = polyOf m) (hl : Trimmed l) (hm : Trimmed m) : l = m := by
  have key : ∀ {l m : List F}, polyOf l = polyOf m → Trimmed l → l.length ≤ m.length := by
    intro l m h hl
    by_contra hlt
    push Not at hlt
    have hne : l ≠ [] := by rintro rfl; simp at hlt
    have := hl (l.getLast hne) (List.getLast?_eq_some_getLast hne)
    apply this
    have hc := congrArg (fun p => p.coeff (l.length - 1)) h
    simp only [coeff_polyOf] at hc
    rw [List.getD_eq_default m _ (by omega), List.getD_eq_getElem l _ (by omega)] at hc
    rw [List.getLast_eq_getElem]; exact hc
  exact polyOf_inj_length h (le_antisymm (key h hl) (key h.symm hm))

variable [DecidableEq F]

theorem dropWhile_spec (l : List F) : ∃ n, l = List.replicate n 0 ++ l.dropWhile (fun c => decide (c = 0)) ∧
    ∀ c, (l.dropWhile (fun c => decide (c = 0))).head? = some c → c ≠ 0 := by
  induction l with
  | nil => exact ⟨0, by simp⟩
  | cons c cs ih =>
    by_cases h : c = 0
    · obtain ⟨n, h1, h2⟩ := ih
      refine ⟨n + 1, ?_, ?_⟩
      · rw [List.dropWhile_cons_of_pos (by simp [h]), List.replicate_succ, List.cons_append, ← h1, h]
      · rw [List.dropWhile_cons_of_pos (by simp [h])]; exact h2
    · refine ⟨0, ?_, ?_⟩
      · rw [List.dropWhile_cons_of_neg (by simp [h])]; simp
      · rw [List.dropWhile_cons_of_neg (by simp [h])]; simp only [List.head?_cons, Option.some.injEq]; rintro _ rfl; exact h

theorem formatDegree_spec (l : List F) : ∃ n, l = formatDegree l ++ List.replicate n 0 ∧ Trimmed (formatDegree l) := by
  obtain ⟨n, h1, h2⟩ := dropWhile_spec l.reverse
  refine ⟨n, ?_, ?_⟩
  · have := congrArg List.reverse h1
    rw [List.reverse_reverse, List.reverse_append, List.reverse_replicate] at this
    exact this
  · intro c hc
    unfold formatDegree at hc
    rw [List.getLast?_reverse] at hc
    exact h2 c hc

theorem polyOf_formatDegree (l : List F) : polyOf (formatDegree l) = polyOf l := by
  obtain ⟨n, h, -⟩ := formatDegree_spec l
  conv_rhs => rw [h]
  rw [polyOf_append, polyOf_replicate_zero]; simp

theorem trimmed_formatDegree (l : List F) : Trimmed (formatDegree l) := (formatDegree_spec l).choose_spec.2

theorem length_formatDegree_le (l : List F) : (formatDegree l).length ≤ l.length := by
  obtain ⟨n, h, -⟩ := formatDegree_spec l
  conv_rhs => rw [h]
  simp

theorem formatDegree_eq_self {l : List F} (h : Trimmed l) : formatDegree l = l :=
  polyOf_inj_trimmed (polyOf_formatDegree l) (trimmed_formatDegree l) h

theorem zipLong_add (p q : List F) (h : q.length ≤ p.length) : polyOf (zipLong (· + ·) p q) = polyOf p + polyOf q := by
  induction p generalizing q with
  | nil => simp at h; subst h; simp [zipLong, polyOf]
  | cons a as ih =>
    cases q with
    | nil => simp only [zipLong, polyOf, ih [] (by simp), add_zero]
    | cons b bs => simp only [zipLong, polyOf, ih bs (by simpa using h), C_add]; ring

theorem zipLong_sub (p q : List F) (h : q.length ≤ p.length) : polyOf (zipLong (· - ·) p q) = polyOf p - polyOf q := by
  induction p generalizing q with
  | nil => simp at h; subst h; simp [zipLong, polyOf]
  | cons a as ih =>
    cases q with
    | nil => simp only [zipLong, polyOf, ih [] (by simp), sub_zero]
    | cons b bs => simp only [zipLong, polyOf, ih bs (by simpa using h), C_sub]; ring

theorem polyOf_coeffsAdd (p q : List F) : polyOf (coeffsAdd p q) = polyOf p + polyOf q := by
  unfold coeffsAdd coeffsNew
  split
  · rw [polyOf_formatDegree, zipLong_add _ _ (by omega)]
  · rw [polyOf_formatDegree, zipLong_add _ _ (by omega), add_comm]

theorem zipLong_length (op : F → F → F) (p q : List F) : (zipLong op p q).length = p.length := by
  induction p generalizing q with
  | nil => rfl
  | cons a as ih => cases q <;> simp [zipLong, ih]

theorem zipLong_getD (op : F → F → F) (p q : List F) (i : Nat) (h : i < p.length) :
    (zipLong op p q).getD i 0 = op (p.getD i 0) (q.getD i 0) := by
  induction p generalizing q i with
  | nil => simp at h
  | cons a as ih =>
    cases q with
    | nil =>
      cases i with
      | zero => simp [zipLong]
      | succ i =>
        have := ih [] i (by simpa using h)
        simpa [zipLong] using this
    | cons b bs =>
      cases i with
      | zero => simp [zipLong]
      | succ i =>
        have := ih bs i (by simpa using h)
        simpa [zipLong] using this

theorem evaluate_eq (p : List F) (x : F) : evaluate p x = (polyOf p).eval x := by
  unfold evaluate
  rw [List.foldl_reverse]
  induction p with
  | nil => simp [polyOf]
  | cons c cs ih => simp only [List.foldr_cons, polyOf, eval_add, eval_C, eval_mul, eval_X]; rw [ih]; ring

/-- Synthetic division, from the highest coefficient with running value `w`. -/
theorem divideScan_spec (a : F) (l : List F) (w : F) (hl : l ≠ []) :
    polyOf ((divideScan a l w).dropLast.reverse) * (X - C a) =
      polyOf l.reverse + C w * X ^ (l.length - 1) - C ((polyOf l.reverse).eval a + w * a ^ (l.length - 1)) := by
  induction l generalizing w with
  | nil => exact absurd rfl hl
  | cons c cs ih =>
    cases cs with
    | nil => simp [divideScan, polyOf]
    | cons d ds =>
      have ih := ih ((w + c) * a) (by simp)
      have hne : divideScan a (d :: ds) ((w + c) * a) ≠ [] := by simp [divideScan]
      have hlen : ∀ l w, (divideScan a l w).length = l.length := by
        intro l
        induction l with
        | nil => intro w; rfl
        | cons c cs ih => intro w; simp [divideScan, ih]
      have e1 : (divideScan a (c :: d :: ds) w).dropLast.reverse =
          (divideScan a (d :: ds) ((w + c) * a)).dropLast.reverse ++ [w + c] := by
        rw [show divideScan a (c :: d :: ds) w = (w + c) :: divideScan a (d :: ds) ((w + c) * a) from rfl,
          List.dropLast_cons_of_ne_nil hne, List.reverse_cons]
      have e2 : (c :: d :: ds).reverse = (d :: ds).reverse ++ [c] := by simp
      rw [e1, e2, polyOf_append, polyOf_append, add_mul, ih]
      simp only [List.length_reverse, List.length_dropLast, hlen, List.length_cons, polyOf, mul_zero, add_zero,
        eval_add, eval_mul, eval_pow, eval_X, eval_C, C_add, C_mul, C_pow, Nat.add_sub_cancel, pow_succ]
      ring

theorem divide_spec (p : List F) (a : F) :
    polyOf (divide p a) * (X - C a) = polyOf p - C ((polyOf p).eval a) := by
  by_cases hp : p = []
  · subst hp; simp [divide, divideScan, polyOf]
  · unfold divide
    rw [divideScan_spec a p.reverse 0 (by simpa using hp)]
    simp

theorem powersFrom_eq (g : F) (n : Nat) (w : F) : powersFrom g n w = (List.range n).map (fun i => w * g ^ i) := by
  induction n generalizing w with
  | zero => rfl
  | succ n ih =>
    rw [powersFrom, ih, List.range_succ_eq_map]
    simp only [List.map_cons, pow_zero, mul_one, List.map_map, List.cons.injEq, true_and]
    apply List.map_congr_left
    intro i _
    simp only [Function.comp_apply, Nat.succ_eq_add_one, pow_succ]
    ring

theorem foldl_zip_sum (l : List (F × F)) (acc : F) :
    l.foldl (fun acc e => acc + e.1 * e.2) acc = acc + (l.map (fun e => e.1 * e.2)).sum := by
  induction l generalizing acc with
  | nil => simp
  | cons e es ih => simp only [List.foldl_cons, List.map_cons, List.sum_cons, ih]; ring

/-- The inner product with consecutive powers. -/
theorem zip_powers_sum (p : List F) (g w : F) : ((p.zip (powersFrom g p.length w)).map (fun e => e.1 * e.2)).sum =
    w * (polyOf p).eval g := by
  induction p generalizing w with
  | nil => simp [polyOf]
  | cons c cs ih =>
    simp only [List.length_cons, powersFrom, List.zip_cons_cons, List.map_cons, List.sum_cons, ih, polyOf, eval_add,
      eval_C, eval_mul, eval_X]
    ring

theorem powersFrom_drop (g : F) (d n : Nat) (w : F) : (powersFrom g (d + n) w).drop d = powersFrom g n (w * g ^ d) := by
  induction d generalizing w with
  | zero => simp
  | succ d ih => rw [show d + 1 + n = (d + n) + 1 by ring, powersFrom, List.drop_succ_cons, ih, pow_succ]; congr 1; ring

theorem powersFrom_length (g : F) (n : Nat) (w : F) : (powersFrom g n w).length = n := by
  induction n generalizing w with
  | zero => rfl
  | succ n ih => simp [powersFrom, ih]

theorem commit_eq (p : List F) (r : F) {n : Nat} (h : p.length ≤ n) :
    commit p (powersFrom r n 1) = some (r ^ (n - p.length) * (polyOf p).eval r) := by
  unfold commit
  rw [powersFrom_length, if_pos h, foldl_zip_sum]
  obtain ⟨d, rfl⟩ := Nat.exists_eq_add_of_le' h
  rw [Nat.add_sub_cancel, powersFrom_drop, one_mul, zip_powers_sum, zero_add]

theorem polyOf_set (p : List F) (i : Nat) (v : F) (h : i < p.length) :
    polyOf (p.set i v) = polyOf p + C (v - p[i]) * X ^ i := by
  induction p generalizing i with
  | nil => simp at h
  | cons c cs ih =>
    cases i with
    | zero => simp only [List.set_cons_zero, polyOf, List.getElem_cons_zero, C_sub, pow_zero, mul_one]; ring
    | succ i =>
      simp only [List.set_cons_succ, polyOf, List.getElem_cons_succ, ih i (by simpa using h), pow_succ]; ring

/-- `blind` adds `Σ sⱼ (X^(n+j) - X^(i+j))`. -/
theorem blindFrom_spec (ss : List F) : ∀ (p : List F) (i : Nat), i + ss.length ≤ p.length →
    ∃ q, blindFrom p i ss = some q ∧ q.length = p.length + ss.length ∧
      polyOf q = polyOf p + (X ^ p.length - X ^ i) * polyOf ss := by
  induction ss with
  | nil => intro p i _; exact ⟨p, rfl, by simp, by simp [polyOf]⟩
  | cons s ss ih =>
    intro p i h
    simp only [List.length_cons] at h
    have hi : i < p.length := by omega
    obtain ⟨q, h1, h2, h3⟩ := ih (p.set i (p[i] - s) ++ [s]) (i + 1) (by simp; omega)
    refine ⟨q, ?_, ?_, ?_⟩
    · simp only [blindFrom, blindStep, dif_pos hi, Option.bind_some]; exact h1
    · rw [h2]; simp; omega
    · rw [h3, polyOf_append, polyOf_set _ _ _ hi]
      simp only [List.length_append, List.length_set, List.length_singleton, polyOf, mul_zero, add_zero, C_sub, pow_succ]
      ring

theorem degree_spec {p : List F} {d : Nat} (h : degree p = some d) : d = (polyOf p).natDegree := by
  unfold degree at h
  split at h
  · rename_i hz
    simp only [Option.some.injEq] at h
    subst h
    have : polyOf p = 0 := by
      ext i
      rw [coeff_polyOf, coeff_zero]
      unfold coeffsIsZero at hz
      simp only [Bool.or_eq_true, List.isEmpty_iff, List.all_eq_true, decide_eq_true_eq] at hz
      rcases hz with rfl | hz
      · simp
      · by_cases hi : i < p.length
        · rw [List.getD_eq_getElem _ _ hi]; exact hz _ (List.getElem_mem hi)
        · rw [List.getD_eq_default _ _ (by omega)]
    rw [this]; simp
  · rename_i hz
    split at h
    · rename_i hl
      simp only [Option.some.injEq] at h
      subst h
      have hne : p ≠ [] := by rintro rfl; simp [coeffsIsZero] at hz
      rw [List.getLast?_eq_some_getLast hne] at hl
      simp only [Option.any_some, decide_eq_true_eq] at hl
      have hpos : 0 < p.length := List.length_pos_of_ne_nil hne
      symm
      apply natDegree_eq_of_le_of_coeff_ne_zero
      · rw [natDegree_le_iff_coeff_eq_zero]
        intro N hN
        rw [coeff_polyOf, List.getD_eq_default _ _ (by omega)]
      · rw [coeff_polyOf, List.getD_eq_getElem _ _ (by omega), ← List.getLast_eq_getElem hne]
        exact hl
    · simp at h

theorem degree_trimmed {p : List F} (h : Trimmed p) : ∃ d, degree p = some d := by
  unfold degree
  split
  · exact ⟨_, rfl⟩
  · rename_i hz
    have hne : p ≠ [] := by rintro rfl; simp [coeffsIsZero] at hz
    have := h _ (List.getLast?_eq_some_getLast hne)
    rw [List.getLast?_eq_some_getLast hne]
    simp [this]

end Kogarashi.Groth16
