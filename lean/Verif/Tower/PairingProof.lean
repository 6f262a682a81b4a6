import Verif.Tower.Pairing
import Verif.Tower.FinalExpProof
import Mathlib.Algebra.BigOperators.Group.List.Basic

/-!
# The Miller loop consumes exactly the prepared coefficients (lemmas)
-/

namespace Kogarashi.Tower

open Props Curve Limbs

variable {R : Type} [CommRing R]

/-- The sparse element a coefficient triple and a point stand for. -/
def line (c : PairingCoeff R) (p : Aff R) : Fq12 R :=
  ⟨⟨c.e0 * Fq2.of p.y, 0, 0⟩, ⟨c.e1 * Fq2.of p.x, c.e2, 0⟩⟩

theorem untwist_eq (f : Fq12 R) (c : PairingCoeff R) (p : Aff R) : untwist f c p = f * line c p := by
  unfold untwist line
  rw [Fq12.mulBy034_eq]
  have e0 : (⟨c.e0.c0 * p.y, c.e0.c1 * p.y⟩ : Fq2 R) = c.e0 * Fq2.of p.y := by ext <;> simp
  have e1 : (⟨c.e1.c0 * p.x, c.e1.c1 * p.x⟩ : Fq2 R) = c.e1 * Fq2.of p.x := by ext <;> simp
  simp only [e0, e1]

/-- The loop as a schedule: `false` is a squaring, `true` is one pass over the pairs. -/
def schedule : Bool → List Int → List Bool
  | _, [] => []
  | first, x :: xs =>
    (if first then [] else [false]) ++ [true] ++ (if x = 1 ∨ x = -1 then [true] else []) ++ schedule false xs

/-- Running a schedule. -/
def runSchedule : List Bool → Fq12 R → List (Aff R × List (PairingCoeff R)) →
    Option (Fq12 R × List (Aff R × List (PairingCoeff R)))
  | [], acc, pairs => some (acc, pairs)
  | true :: s, acc, pairs => (pass acc pairs).bind fun r => runSchedule s r.1 r.2
  | false :: s, acc, pairs => runSchedule s acc.square pairs

theorem runSchedule_append (s t : List Bool) (acc : Fq12 R) (pairs : List (Aff R × List (PairingCoeff R))) :
    runSchedule (s ++ t) acc pairs = (runSchedule s acc pairs).bind fun r => runSchedule t r.1 r.2 := by
  induction s generalizing acc pairs with
  | nil => rfl
  | cons b s ih =>
    cases b
    · exact ih _ _
    · simp only [List.cons_append, runSchedule]
      cases pass acc pairs with
      | none => rfl
      | some r => exact ih _ _

theorem millerMain_eq (first : Bool) (xs : List Int) (acc : Fq12 R)
    (pairs : List (Aff R × List (PairingCoeff R))) :
    millerMain first xs acc pairs = runSchedule (schedule first xs) acc pairs := by
  induction xs generalizing first acc pairs with
  | nil => rfl
  | cons x xs ih =>
    have key : ∀ acc, (do
        let (acc, pairs) ← pass acc pairs
        if x = 1 then
          let (acc, pairs) ← pass acc pairs
          millerMain false xs acc pairs
        else if x = -1 then
          let (acc, pairs) ← pass acc pairs
          millerMain false xs acc pairs
        else millerMain false xs acc pairs) =
        runSchedule ([true] ++ (if x = 1 ∨ x = -1 then [true] else []) ++ schedule false xs) acc pairs := by
      intro acc
      simp only [List.cons_append, List.nil_append, runSchedule]
      cases pass acc pairs with
      | none => rfl
      | some r =>
        simp only [Option.bind_eq_bind, Option.bind_some]
        by_cases h1 : x = 1
        · simp only [h1, true_or, if_true, List.cons_append, List.nil_append, runSchedule]
          cases pass r.1 r.2 with
          | none => rfl
          | some r' => exact ih _ _ _
        · by_cases h2 : x = -1
          · simp only [h2, or_true, if_true, List.cons_append, List.nil_append, runSchedule]
            cases pass r.1 r.2 with
            | none => rfl
            | some r' => exact ih _ _ _
          · simp only [h1, h2, or_self, if_false, List.nil_append]
            exact ih _ _ _
    cases first
    · exact key acc.square
    · exact key acc

/-- The number of passes of a schedule. -/
def passes (s : List Bool) : Nat := s.count true

/-- The product a schedule accumulates for one pair, when it has enough coefficients. -/
def single : List Bool → Fq12 R → Aff R → List (PairingCoeff R) → Fq12 R
  | [], acc, _, _ => acc
  | true :: s, acc, p, c :: cs => single s (acc * line c p) p cs
  | true :: s, acc, p, [] => single s acc p []
  | false :: s, acc, p, cs => single s (acc * acc) p cs

theorem pass_eq (acc : Fq12 R) (pairs : List (Aff R × List (PairingCoeff R)))
    (h : ∀ pc ∈ pairs, pc.2 ≠ []) :
    pass acc pairs = some (acc * (pairs.map fun pc => match pc.2 with | [] => 1 | c :: _ => line c pc.1).prod,
      pairs.map fun pc => (pc.1, pc.2.tail)) := by
  induction pairs generalizing acc with
  | nil => simp [pass]
  | cons pc pairs ih =>
    obtain ⟨p, cs⟩ := pc
    cases cs with
    | nil => exact absurd rfl (h (p, []) (by simp))
    | cons c cs =>
      simp only [pass, untwist_eq]
      rw [ih _ (fun q hq => h q (by simp [hq]))]
      simp [mul_assoc]

theorem runSchedule_eq (s : List Bool) (es : List (Fq12 R × Aff R × List (PairingCoeff R)))
    (h : ∀ e ∈ es, passes s ≤ e.2.2.length) :
    runSchedule s (es.map fun e => e.1).prod (es.map fun e => e.2) =
      some ((es.map fun e => single s e.1 e.2.1 e.2.2).prod,
        es.map fun e => (e.2.1, e.2.2.drop (passes s))) := by
  induction s generalizing es with
  | nil => simp [runSchedule, single, passes]
  | cons b s ih =>
    cases b
    · have := ih (es.map fun e => (e.1 * e.1, e.2)) (by
        intro e he
        obtain ⟨e', he', rfl⟩ := List.mem_map.1 he
        simpa [passes] using h e' he')
      simp only [List.map_map, Function.comp_def] at this
      simp only [runSchedule, Fq12.square_eq, single]
      have e1 : (es.map fun e => e.1).prod * (es.map fun e => e.1).prod = (es.map fun e => e.1 * e.1).prod := by
        rw [← List.prod_map_mul]
      rw [e1, this]
      simp [passes]
    · have hne : ∀ e ∈ es, e.2.2 ≠ [] := by
        intro e he h0
        have := h e he
        rw [h0] at this
        simp [passes] at this
      have := ih (es.map fun e => (e.1 * (match e.2.2 with | [] => 1 | c :: _ => line c e.2.1), e.2.1, e.2.2.tail)) (by
        intro e he
        obtain ⟨e', he', rfl⟩ := List.mem_map.1 he
        have := h e' he'
        simp only [passes, List.count_cons_self] at this
        simp only [List.length_tail, passes]
        omega)
      simp only [List.map_map, Function.comp_def] at this
      simp only [runSchedule]
      rw [pass_eq _ _ (by
        intro pc hpc
        obtain ⟨e', he', rfl⟩ := List.mem_map.1 hpc
        exact hne e' he')]
      simp only [Option.bind_some, List.map_map, Function.comp_def]
      rw [← List.prod_map_mul, this]
      congr 1
      refine Prod.ext ?_ ?_
      · simp only
        congr 1
        apply List.map_congr_left
        intro e he
        cases hc : e.2.2 with
        | nil => exact absurd hc (hne e he)
        | cons c cs => simp [single]
      · simp only
        apply List.map_congr_left
        intro e he
        simp [passes, List.drop_tail]

/-- The schedule of the whole `multi_miller_loop`. -/
def fullSchedule : List Bool := schedule true loopDigits ++ [true, true]

theorem multiMillerLoop_eq (pairs : List (Aff R × G2Pairing R))
    (h : ∀ pq ∈ pairs, pq.1.inf = false → pq.2.isInfinity = false → pq.2.coeffs.length = passes fullSchedule) :
    multiMillerLoop pairs = some (pairs.map fun pq =>
      if pq.1.inf = true ∨ pq.2.isInfinity = true then 1 else single fullSchedule 1 pq.1 pq.2.coeffs).prod := by
  have e0 : ∀ ps : List (Aff R × List (PairingCoeff R)), (do
      let (acc, pairs) ← millerMain true loopDigits 1 ps
      let (acc, pairs) ← pass acc pairs
      let (acc, pairs) ← pass acc pairs
      if pairs.all fun pc => pc.2.isEmpty then some acc else none) =
      (runSchedule fullSchedule 1 ps).bind fun r =>
        if r.2.all fun pc => pc.2.isEmpty then some r.1 else none := by
    intro ps
    rw [millerMain_eq, fullSchedule, runSchedule_append]
    cases runSchedule (schedule true loopDigits) 1 ps with
    | none => rfl
    | some r =>
      simp only [Option.bind_eq_bind, Option.bind_some, runSchedule]
      cases pass r.1 r.2 with
      | none => rfl
      | some r =>
        simp only [Option.bind_some]
        cases pass r.1 r.2 with
        | none => rfl
        | some r => rfl
  unfold multiMillerLoop
  simp only [e0]
  have h1 := runSchedule_eq fullSchedule
    ((pairs.filter fun pq => !pq.1.inf && !pq.2.isInfinity).map fun pq => ((1 : Fq12 R), pq.1, pq.2.coeffs)) (by
      intro e he
      obtain ⟨pq, hpq, rfl⟩ := List.mem_map.1 he
      rw [List.mem_filter] at hpq
      simp only [Bool.and_eq_true, Bool.not_eq_true'] at hpq
      exact (h pq hpq.1 hpq.2.1 hpq.2.2).ge)
  simp only [List.map_map, Function.comp_def] at h1
  have hone : ((pairs.filter fun pq => !pq.1.inf && !pq.2.isInfinity).map fun _ => (1 : Fq12 R)).prod = 1 := by
    simp
  rw [hone] at h1
  rw [h1]
  simp only [Option.bind_some]
  rw [if_pos]
  · congr 1
    clear h1 hone e0
    induction pairs with
    | nil => rfl
    | cons pq pairs ih =>
      have ih := ih (fun q hq => h q (by simp [hq]))
      rw [List.filter_cons]
      by_cases hc : pq.1.inf = true ∨ pq.2.isInfinity = true
      · have : (!pq.1.inf && !pq.2.isInfinity) = false := by
          rcases hc with hc | hc <;> simp [hc]
        simp only [this, List.map_cons, List.prod_cons, if_pos hc, one_mul]
        exact ih
      · have : (!pq.1.inf && !pq.2.isInfinity) = true := by
          simp only [not_or, Bool.not_eq_true] at hc
          simp [hc]
        simp only [this, if_true, List.map_cons, List.prod_cons, if_neg hc]
        rw [ih]
  · rw [List.all_eq_true]
    intro pc hpc
    obtain ⟨pq, hpq, rfl⟩ := List.mem_map.1 hpc
    rw [List.mem_filter] at hpq
    simp only [Bool.and_eq_true, Bool.not_eq_true'] at hpq
    simp [h pq hpq.1 hpq.2.1 hpq.2.2]

theorem prepareStep_length (g2 : Aff (Fq2 R)) (st : Proj (Fq2 R) × List (PairingCoeff R)) (x : Int) :
    (prepareStep g2 st x).2.length = st.2.length + 1 + (if x = 1 ∨ x = -1 then 1 else 0) := by
  unfold prepareStep
  by_cases h1 : x = 1
  · simp [h1]
  · by_cases h2 : x = -1
    · simp [h2]
    · simp [h1, h2]

theorem prepare_fold_length (g2 : Aff (Fq2 R)) (xs : List Int) (first : Bool)
    (st : Proj (Fq2 R) × List (PairingCoeff R)) :
    (xs.foldl (prepareStep g2) st).2.length = st.2.length + passes (schedule first xs) := by
  induction xs generalizing st first with
  | nil => simp [schedule, passes]
  | cons x xs ih =>
    rw [List.foldl_cons, ih false, prepareStep_length]
    simp only [schedule, passes, List.count_append]
    have : List.count true (if first = true then [] else [false]) = 0 := by cases first <;> rfl
    rw [this]
    by_cases h : x = 1 ∨ x = -1
    · simp [h]; omega
    · simp [h]; omega

theorem prepare_length (g2 : Aff (Fq2 FqV)) (h : g2.inf = false) :
    (prepare g2).isInfinity = false ∧ (prepare g2).coeffs.length = passes fullSchedule := by
  unfold prepare
  simp only [h, Bool.false_eq_true, if_false, List.length_append, List.length_cons, List.length_nil, true_and]
  rw [prepare_fold_length g2 loopDigits true]
  have e : List.count true [true, true] = 2 := rfl
  simp only [fullSchedule, passes, List.count_append, List.length_nil, zero_add, e]

theorem prepare_inf (g2 : Aff (Fq2 FqV)) : (prepare g2).isInfinity = g2.inf := by
  cases h : g2.inf with
  | true => simp [prepare, h]
  | false => exact (prepare_length g2 h).1

end Kogarashi.Tower
