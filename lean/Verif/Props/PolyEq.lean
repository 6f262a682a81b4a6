import Verif.Props.Poly

/-!
# Property C41: equality of polynomials
-/

namespace Kogarashi.Props

open Kogarashi Spec Groth16 Polynomial

variable {F : Type} [_root_.Field F] [DecidableEq F]

/-- The coefficient vectors obtained from the constructor, the default and the operations of `groth16/src/poly.rs` and the inverse transform of
`groth16/src/fft.rs`, in any order and number; blinding with a last scalar other than zero. -/
inductive Built : List F → Prop where
  | default : Built []
  | new (l : List F) : Built (coeffsNew l)
  | add {p q : List F} : Built p → Built q → Built (coeffsAdd p q)
  | sub {p q : List F} : Built p → Built q → Built (coeffsSub p q)
  | scale {p : List F} (s : F) : Built p → Built (coeffsScale p s)
  | sum {ps : List (List F)} : (∀ p ∈ ps, Built p) → Built (coeffsSum ps)
  | divide {p : List F} (a : F) : Built p → Built (divide p a)
  | idft (f : Fft F) (v : List F) : Built (idft f v)
  | blind {p q : List F} {ss : List F} : Built p → blindFrom p 0 ss = some q → (∀ s, ss.getLast? = some s → s ≠ 0) → Built q

omit [DecidableEq F] in
theorem trimmed_divide {p : List F} (a : F) (h : Trimmed p) : Trimmed (divide p a) := by
  intro c hc
  unfold divide at hc
  rw [List.getLast?_reverse] at hc
  cases hp : p.reverse with
  | nil => rw [hp] at hc; simp [divideScan] at hc
  | cons b bs =>
    have hb : b ≠ 0 := h b (by rw [← List.reverse_reverse p, List.getLast?_reverse, hp]; rfl)
    rw [hp] at hc
    cases bs with
    | nil => simp [divideScan] at hc
    | cons d ds =>
      simp only [divideScan, List.dropLast_cons_cons, List.head?_cons, Option.some.injEq, zero_add] at hc
      exact hc ▸ hb

omit [DecidableEq F] in
theorem blindFrom_last {p q : List F} {i : Nat} {ss : List F} (h : blindFrom p i ss = some q) : q.getLast? = (ss.getLast?).or p.getLast? := by
  induction ss generalizing p i with
  | nil => obtain rfl := Option.some.inj h; simp
  | cons s ss ih =>
    unfold blindFrom at h
    rw [Option.bind_eq_some_iff] at h
    obtain ⟨p', h1, h2⟩ := h
    have e := ih h2
    unfold blindStep at h1
    split at h1
    · obtain rfl := Option.some.inj h1
      rw [e]
      cases ss with
      | nil => simp
      | cons t ts => simp [List.getLast?_eq_some_getLast]
    · simp at h1

theorem trimmed_sum (ps : List (List F)) : Trimmed (coeffsSum ps) := by
  unfold coeffsSum
  induction ps using List.reverseRecOn with
  | nil => intro c hc; simp at hc
  | append_singleton ps p _ => rw [List.foldl_append]; exact (C41_add _ _).2

theorem Built.trimmed {p : List F} (h : Built p) : Trimmed p := by
  induction h with
  | default => intro c hc; simp at hc
  | new l => exact trimmed_formatDegree l
  | add _ _ _ _ => exact (C41_add _ _).2
  | sub _ _ _ _ => unfold coeffsSub; split <;> exact trimmed_formatDegree _
  | scale s _ _ => exact (C41_scale _ _).2
  | sum _ _ => exact trimmed_sum _
  | divide a _ ih => exact trimmed_divide a ih
  | idft f v => exact trimmed_formatDegree _
  | blind _ hb hs ih =>
    intro c hc
    rw [blindFrom_last hb] at hc
    rename_i ss _
    cases hl : ss.getLast? with
    | none => rw [hl] at hc; exact ih c (by simpa using hc)
    | some s => rw [hl] at hc; simp only [Option.some_or, Option.some.injEq] at hc; exact hc ▸ hs s hl

/-- **C41, equality.** For any two values built with the operations, `==` (equality of the coefficient vectors) is equality of the polynomials, and
`degree` returns the degree. -/
theorem C41_equality {p q : List F} (hp : Built p) (hq : Built q) :
    (p = q ↔ polyOf p = polyOf q) ∧ Groth16.degree p = some (polyOf p).natDegree :=
  ⟨⟨fun h => h ▸ rfl, fun h => polyOf_inj_trimmed h hp.trimmed hq.trimmed⟩, (C41_degree p).2 hp.trimmed⟩

/-- **C41, equality, the exception.** Blinding with the scalar zero gives a vector with the same polynomial that is not `==` to it, on which `degree`
panics. -/
theorem C41_equality_refuted (c : F) (hc : c ≠ 0) : ∃ q, blindFrom [c] 0 [0] = some q ∧ polyOf q = polyOf [c] ∧ q ≠ [c] ∧ Groth16.degree q = none := by
  refine ⟨[c, 0], by simp [blindFrom, blindStep], by simp [polyOf], by simp, ?_⟩
  simp [Groth16.degree, coeffsIsZero, hc]

/-- A value built with several of the operations. -/
example : Built (coeffsAdd (divide (coeffsNew [1, 2, (3 : ℚ), 0]) 5) (coeffsScale (coeffsNew [4]) 2)) :=
  .add (.divide 5 (.new _)) (.scale 2 (.new _))

end Kogarashi.Props
