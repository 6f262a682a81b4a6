import Verif.Props.PrimeField

/-!
# Property C113: the signed digits of a scalar are the cheapest ones

Scalar multiplication by the digits of `to_nafs` costs one addition for every non-zero digit and one doubling
for every digit. These theorems say that no other signed binary representation of the same scalar has fewer
non-zero digits, that at most every second digit is non-zero, and that the representation is the only
non-adjacent one without a leading zero.
-/

set_option exponentiation.threshold 1600

namespace Kogarashi.Props

open Kogarashi.Limbs Kogarashi.Spec Kogarashi.Field

/-- The number of non-zero digits: the number of point additions of a double-and-add loop. -/
def nonZeroDigits (ds : List Naf) : Nat := ds.countP (fun d => d ≠ .zero)

/-- The value of digits, least significant first (auxiliary, for the proofs). -/
private def lsbValue : List Naf → Int
  | [] => 0
  | d :: ds => nafDigit d + 2 * lsbValue ds

private theorem nafValue_reverse (ds : List Naf) : nafValue ds.reverse = lsbValue ds := by
  induction ds with
  | nil => rfl
  | cons d ds ih =>
    unfold nafValue at ih ⊢
    rw [List.reverse_cons, List.foldl_append, ih]
    simp only [List.foldl_cons, List.foldl_nil, lsbValue]; ring

private theorem nonZeroDigits_cons (d : Naf) (ds : List Naf) :
    nonZeroDigits (d :: ds) = (if d = .zero then 0 else 1) + nonZeroDigits ds := by
  unfold nonZeroDigits
  rw [List.countP_cons]
  cases d <;> simp [Nat.add_comm]

private theorem nonZeroDigits_reverse (ds : List Naf) : nonZeroDigits ds.reverse = nonZeroDigits ds := by
  unfold nonZeroDigits; exact List.countP_reverse

private theorem split_digit (es : List Naf) : ∃ e es', lsbValue es = nafDigit e + 2 * lsbValue es' ∧
    nonZeroDigits es = (if e = .zero then 0 else 1) + nonZeroDigits es' := by
  cases es with
  | nil => exact ⟨.zero, [], by simp [lsbValue, nafDigit], by simp [nonZeroDigits]⟩
  | cons e es => exact ⟨e, es, rfl, nonZeroDigits_cons e es⟩

private theorem weight_aux : ∀ (n : Nat) (ds : List Naf), ds.length ≤ n → NonAdjacent ds →
    (∀ es, lsbValue es = lsbValue ds → nonZeroDigits ds ≤ nonZeroDigits es) ∧
    (∀ es, lsbValue es = lsbValue ds + 1 ∨ lsbValue es = lsbValue ds - 1 →
      nonZeroDigits ds ≤ nonZeroDigits es + 1) := by
  intro n
  induction n with
  | zero =>
    intro ds hl _
    have : ds = [] := List.length_eq_zero_iff.mp (by omega)
    subst this
    simp [nonZeroDigits]
  | succ n ih =>
    intro ds hl hn
    match ds, hl, hn with
    | [], _, _ => simp [nonZeroDigits]
    | [d], _, _ =>
      constructor
      · intro es he
        obtain ⟨e, es', h1, h2⟩ := split_digit es
        rw [nonZeroDigits_cons, h2]
        rw [h1] at he
        simp only [lsbValue] at he
        have h0 : nonZeroDigits [] = 0 := rfl
        cases d <;> cases e <;> simp [nafDigit] at he ⊢ <;> omega
      · intro es _
        rw [nonZeroDigits_cons]
        have h0 : nonZeroDigits [] = 0 := rfl
        cases d <;> simp <;> omega
    | d :: d2 :: r, hl, hn =>
      obtain ⟨hadj, hn2⟩ := hn
      simp only [List.length_cons] at hl
      have hr : NonAdjacent r := by
        cases r with
        | nil => trivial
        | cons _ _ => exact hn2.2
      obtain ⟨A1, B1⟩ := ih (d2 :: r) (by simp only [List.length_cons]; omega) hn2
      obtain ⟨A2, B2⟩ := ih r (by omega) hr
      by_cases hd : d = .zero
      · subst hd
        constructor <;> intro es he
        all_goals
          obtain ⟨e, es', h1, h2⟩ := split_digit es
          rw [nonZeroDigits_cons, h2]
          rw [h1] at he
          have hv : lsbValue (Naf.zero :: d2 :: r) = 2 * lsbValue (d2 :: r) := by
            simp [lsbValue, nafDigit]
          rw [hv] at he
          have a := A1 es'
          have b := B1 es'
          generalize nonZeroDigits (d2 :: r) = w at *
          generalize lsbValue (d2 :: r) = v at *
          cases e <;> simp only [nafDigit, reduceIte, reduceCtorEq] at he ⊢ <;>
            first
              | (have := a (by omega); omega)
              | (have := b (by omega); omega)
              | (rcases he with he | he <;>
                  first
                    | (have := a (by omega); omega)
                    | (have := b (by omega); omega)
                    | omega)
              | omega
      · have hd2 : d2 = .zero := hadj.resolve_left hd
        subst hd2
        constructor <;> intro es he
        all_goals
          obtain ⟨e, es', h1, h2⟩ := split_digit es
          obtain ⟨e2, es2, h3, h4⟩ := split_digit es'
          rw [nonZeroDigits_cons, nonZeroDigits_cons, h2, h4]
          rw [h1, h3] at he
          simp only [lsbValue] at he
          have a := A2 es2
          have b := B2 es2
          generalize nonZeroDigits r = w at *
          generalize nonZeroDigits es2 = u at *
          generalize lsbValue r = v at *
          generalize lsbValue es2 = x at *
          clear A1 B1 A2 B2 ih h1 h2 h3 h4 hl hn2 hr hadj
          cases d <;> cases e <;> cases e2 <;>
            simp only [nafDigit, reduceIte, reduceCtorEq, not_true_eq_false] at he hd ⊢ <;>
            first
              | omega
              | (have := a (by omega); omega)
              | (have := b (by omega); omega)
              | (rcases he with he | he <;>
                  first
                    | omega
                    | (have := a (by omega); omega)
                    | (have := b (by omega); omega))

private theorem unique_aux : ∀ (n : Nat) (ds es : List Naf), ds.length + es.length ≤ n →
    NonAdjacent ds → NonAdjacent es → (∀ d ∈ ds.getLast?, d ≠ .zero) → (∀ d ∈ es.getLast?, d ≠ .zero) →
    lsbValue ds = lsbValue es → ds = es := by
  have hz : ∀ ds : List Naf, (∀ d ∈ ds.getLast?, d ≠ .zero) → NonAdjacent ds → lsbValue ds = 0 → ds = [] := by
    intro ds
    induction ds with
    | nil => intros; rfl
    | cons d ds ih =>
      intro hl hn h
      exfalso
      have hn' : NonAdjacent ds := by
        cases ds with
        | nil => trivial
        | cons _ _ => exact hn.2
      have hd : d = .zero := by
        simp only [lsbValue] at h
        cases d <;> simp only [nafDigit] at h <;> first | rfl | omega
      subst hd
      simp only [lsbValue, nafDigit] at h
      cases ds with
      | nil => exact hl .zero (by simp) rfl
      | cons e es =>
        have := ih (by intro x hx; exact hl x (by rw [List.getLast?_cons_cons]; exact hx)) hn' (by omega)
        exact absurd this (by simp)
  have tl : ∀ (d : Naf) (ds : List Naf), NonAdjacent (d :: ds) → NonAdjacent ds := by
    intro d ds h
    cases ds with
    | nil => trivial
    | cons _ _ => exact h.2
  have tg : ∀ (d : Naf) (ds : List Naf), (∀ x ∈ (d :: ds).getLast?, x ≠ .zero) →
      ∀ x ∈ ds.getLast?, x ≠ .zero := by
    intro d ds h x hx
    cases ds with
    | nil => simp at hx
    | cons _ _ => exact h x (by rw [List.getLast?_cons_cons]; exact hx)
  have even : ∀ (d : Naf) (ds : List Naf), NonAdjacent (d :: ds) → d ≠ .zero → lsbValue ds % 2 = 0 := by
    intro d ds h hd
    cases ds with
    | nil => rfl
    | cons e es =>
      have := h.1.resolve_left hd
      subst this
      simp only [lsbValue, nafDigit]; omega
  intro n
  induction n with
  | zero =>
    intro ds es h _ _ _ _ _
    rw [List.length_eq_zero_iff.mp (by omega : ds.length = 0), List.length_eq_zero_iff.mp (by omega : es.length = 0)]
  | succ n ih =>
    intro ds es h hd he gd ge hv
    cases ds with
    | nil => exact (hz es ge he (by rw [← hv]; rfl)).symm
    | cons d ds =>
      cases es with
      | nil => exact hz _ gd hd (by rw [hv]; rfl)
      | cons e es =>
        simp only [List.length_cons] at h
        have hde : d = e := by
          have e1 := even d ds hd
          have e2 := even e es he
          simp only [lsbValue] at hv
          cases d <;> cases e <;> simp only [nafDigit, ne_eq, reduceCtorEq, not_false_eq_true,
            not_true_eq_false, forall_const, false_implies] at hv e1 e2 ⊢ <;> omega
        subst hde
        rw [ih ds es (by omega) (tl _ _ hd) (tl _ _ he) (tg _ _ gd) (tg _ _ ge)
          (by simp only [lsbValue] at hv; omega)]

private theorem half_aux : ∀ (n : Nat) (ds : List Naf), ds.length ≤ n → NonAdjacent ds →
    2 * nonZeroDigits ds ≤ ds.length + 1 := by
  intro n
  induction n with
  | zero =>
    intro ds hl _
    have : ds = [] := List.length_eq_zero_iff.mp (by omega)
    subst this
    simp [nonZeroDigits]
  | succ n ih =>
    intro ds hl hn
    match ds, hl, hn with
    | [], _, _ => simp [nonZeroDigits]
    | [d], _, _ =>
      rw [nonZeroDigits_cons]
      have h0 : nonZeroDigits [] = 0 := rfl
      cases d <;> simp <;> omega
    | d :: d2 :: r, hl, hn =>
      obtain ⟨hadj, hn2⟩ := hn
      simp only [List.length_cons] at hl ⊢
      have hr : NonAdjacent r := by
        cases r with
        | nil => trivial
        | cons _ _ => exact hn2.2
      have a := ih r (by omega) hr
      rw [nonZeroDigits_cons, nonZeroDigits_cons]
      cases d <;> cases d2 <;> simp at hadj ⊢ <;> omega

/-- Bounds on the value of non-adjacent digits: at most two thirds of the next power of two. -/
private theorem bound_aux : ∀ (n : Nat) (ds : List Naf), ds.length ≤ n → NonAdjacent ds →
    3 * lsbValue ds + 1 ≤ 2 * 2^ds.length ∧ -(2 * 2^ds.length) + 1 ≤ 3 * lsbValue ds := by
  intro n
  induction n with
  | zero =>
    intro ds hl _
    have : ds = [] := List.length_eq_zero_iff.mp (by omega)
    subst this
    simp [lsbValue]
  | succ n ih =>
    intro ds hl hn
    match ds, hl, hn with
    | [], _, _ => simp [lsbValue]
    | [d], _, _ => cases d <;> simp [lsbValue, nafDigit]
    | d :: d2 :: r, hl, hn =>
      obtain ⟨hadj, hn2⟩ := hn
      simp only [List.length_cons] at hl ⊢
      have hr : NonAdjacent r := by
        cases r with
        | nil => trivial
        | cons _ _ => exact hn2.2
      obtain ⟨a, b⟩ := ih r (by omega) hr
      obtain ⟨a2, b2⟩ := ih (d2 :: r) (by simp only [List.length_cons]; omega) hn2
      have hp : (1:Int) ≤ 2^r.length := one_le_pow₀ (by norm_num)
      have hpe : (2:Int)^(r.length + 1 + 1) = 4 * 2^r.length := by ring
      have hpe2 : (2:Int)^(d2 :: r).length = 2 * 2^r.length := by simp [pow_succ]; ring
      rw [hpe2] at a2 b2
      rw [hpe]
      simp only [lsbValue] at a2 b2 ⊢
      generalize (2:Int)^r.length = X at *
      cases d <;> cases d2 <;> simp [nafDigit] at hadj a2 b2 ⊢ <;> omega

private theorem nafValue_cons (d : Naf) (ds : List Naf) :
    nafValue (d :: ds) = nafDigit d * 2^ds.length + nafValue ds := by
  have key : ∀ (ds : List Naf) (a : Int), ds.foldl (fun acc d => 2 * acc + nafDigit d) a =
      a * 2^ds.length + ds.foldl (fun acc d => 2 * acc + nafDigit d) 0 := by
    intro ds
    induction ds with
    | nil => intro a; simp
    | cons e es ih =>
      intro a
      rw [List.foldl_cons, List.foldl_cons, ih, ih (2 * 0 + nafDigit e), List.length_cons, pow_succ]
      ring
  unfold nafValue
  rw [List.foldl_cons, key]; ring

/-- With a non-zero leading digit the value has the size the length says. -/
private theorem length_aux (ds : List Naf) (hn : NonAdjacent ds) (hd : ∀ d ∈ ds.head?, d ≠ .zero)
    (v : Nat) (hv : nafValue ds = v) (h0 : 0 < v) :
    2^ds.length < 3 * v ∧ 3 * v < 2^(ds.length + 1) := by
  have up : 3 * nafValue ds + 1 ≤ 2 * 2^ds.length := by
    have := (bound_aux _ ds.reverse le_rfl hn.reverse).1
    rw [← nafValue_reverse, List.reverse_reverse, List.length_reverse] at this
    exact this
  have lo : (2:Int)^ds.length < 3 * nafValue ds := by
    cases ds with
    | nil => exfalso; simp [nafValue] at hv; omega
    | cons d r =>
      have hd' := hd d (by simp)
      have key : 3 * nafValue r + 1 ≤ 2^r.length ∧ -(2^r.length : Int) + 1 ≤ 3 * nafValue r := by
        cases r with
        | nil => simp [nafValue]
        | cons e r2 =>
          have he : e = .zero := hn.1.resolve_left hd'
          subst he
          have hr2 : NonAdjacent r2 := by
            have := hn.2
            cases r2 with
            | nil => trivial
            | cons _ _ => exact this.2
          have := bound_aux _ r2.reverse le_rfl hr2.reverse
          rw [← nafValue_reverse, List.reverse_reverse, List.length_reverse] at this
          rw [nafValue_cons, List.length_cons, pow_succ]
          simp only [nafDigit]
          constructor <;> linarith [this.1, this.2]
      rw [nafValue_cons] at hv ⊢
      rw [List.length_cons, pow_succ]
      have hp : (1:Int) ≤ 2^r.length := one_le_pow₀ (by norm_num)
      generalize (2:Int)^r.length = X at *
      cases d
      · exact absurd rfl hd'
      · simp only [nafDigit] at hv ⊢; omega
      · simp only [nafDigit] at hv; omega
  rw [hv] at up lo
  constructor
  · exact_mod_cast lo
  · rw [pow_succ]
    have : 3 * v + 1 ≤ 2 * 2^ds.length := by exact_mod_cast up
    omega

private theorem head_dropWhile (ds : List Naf) :
    ∀ d ∈ ((ds.dropWhile (fun d => d = Naf.zero)).dropLast).head?, d ≠ .zero := by
  intro d hd hz
  subst hz
  induction ds with
  | nil => simp at hd
  | cons e es ih =>
    rw [List.dropWhile_cons] at hd
    split at hd
    · exact ih hd
    · rename_i he
      cases es with
      | nil => simp at hd
      | cons x xs =>
        rw [List.dropLast_cons_cons] at hd
        simp at hd
        exact he (by simp [hd])

private theorem head_reverse (ds : List Naf) (h : ∀ d ∈ ds.head?, d ≠ .zero) :
    ∀ d ∈ ds.reverse.getLast?, d ≠ .zero := by
  intro d hd
  rw [List.getLast?_reverse] at hd
  exact h d hd

/-! ### C113 -/

/-- **C113, 256-bit: the fewest additions.** Whatever signed binary digits `es` denote the same scalar, they
have at least as many non-zero digits as those of `to_nafs`. -/
theorem C113_minimal {P : FieldParams} (hP : ValidParams P) {a : L4} (ha : Canonical P a) :
    ∃ ds, P.toNafs a = some ds ∧ nafValue ds = value P a ∧
      ∀ es : List Naf, nafValue es = value P a → nonZeroDigits ds ≤ nonZeroDigits es := by
  obtain ⟨ds, h1, h2, h3⟩ := C09_naf_partial hP ha
  refine ⟨ds, h1, h2, fun es he => ?_⟩
  have := (weight_aux _ ds.reverse le_rfl h3.reverse).1 es.reverse (by
    rw [← nafValue_reverse, ← nafValue_reverse, List.reverse_reverse, List.reverse_reverse, he, h2])
  rwa [nonZeroDigits_reverse, nonZeroDigits_reverse] at this

private theorem toNafs_head {P : FieldParams} {a : L4} {ds : List Naf} (h : P.toNafs a = some ds) :
    ∀ d ∈ ds.head?, d ≠ .zero := by
  unfold FieldParams.toNafs B256.toNafs at h
  rw [Option.map_eq_some_iff] at h
  obtain ⟨x, -, rfl⟩ := h
  exact head_dropWhile _

/-- **C113, 256-bit: the number of steps.** The first digit is not zero; zero has no digits; the digits of a
non-zero scalar `v` are as many as the exponent of the largest power of two below `3 v`; and at most every second
digit is non-zero. -/
theorem C113_length {P : FieldParams} (hP : ValidParams P) {a : L4} (ha : Canonical P a) :
    ∃ ds, P.toNafs a = some ds ∧ (∀ d ∈ ds.head?, d ≠ .zero) ∧ (value P a = 0 → ds = []) ∧
      (value P a ≠ 0 → ds.length = Nat.log 2 (3 * value P a)) ∧ 2 * nonZeroDigits ds ≤ ds.length + 1 := by
  obtain ⟨ds, h1, h2, h3⟩ := C09_naf_partial hP ha
  have hh := toNafs_head h1
  refine ⟨ds, h1, hh, fun h => ?_, fun h => ?_, half_aux _ ds le_rfl h3⟩
  · have := unique_aux _ ds.reverse [] le_rfl h3.reverse trivial (head_reverse _ hh) (by simp)
      (by rw [← nafValue_reverse, List.reverse_reverse, h2, h]; rfl)
    simpa using this
  · obtain ⟨l, u⟩ := length_aux ds h3 hh _ h2 (Nat.pos_of_ne_zero h)
    exact ((Nat.log_eq_iff (Or.inr ⟨by norm_num, by omega⟩)).mpr ⟨l.le, u⟩).symm

/-- **C113, 256-bit: the only such digits.** Any digits without adjacent non-zero digits and without a leading zero
that denote the scalar are the ones `to_nafs` returns. -/
theorem C113_unique {P : FieldParams} (hP : ValidParams P) {a : L4} (ha : Canonical P a) (es : List Naf)
    (hv : nafValue es = value P a) (hn : NonAdjacent es) (hl : ∀ d ∈ es.head?, d ≠ .zero) :
    P.toNafs a = some es := by
  obtain ⟨ds, h1, h2, h3⟩ := C09_naf_partial hP ha
  rw [h1]
  have := unique_aux _ ds.reverse es.reverse le_rfl h3.reverse hn.reverse (head_reverse _ (toNafs_head h1))
    (head_reverse _ hl) (by
      rw [← nafValue_reverse, ← nafValue_reverse, List.reverse_reverse, List.reverse_reverse, hv, h2])
  rw [List.reverse_inj.mp this]

/-- Two scalars with the same digits are equal. -/
theorem C113_injective {P : FieldParams} (hP : ValidParams P) {a b : L4} (ha : Canonical P a)
    (hb : Canonical P b) (h : P.toNafs a = P.toNafs b) : value P a = value P b := by
  obtain ⟨ds, h1, h2, -⟩ := C09_naf_partial hP ha
  obtain ⟨es, h3, h4, -⟩ := C09_naf_partial hP hb
  rw [h1, h3] at h
  have : ds = es := Option.some.inj h
  subst this
  exact_mod_cast h2.symm.trans h4

/-- **C113, 384-bit**: read in the direction in which they denote the value (least significant first, C09), the
digits are again the fewest, start with a non-zero digit, and are at most half non-zero. -/
theorem C113_384 {v : L6} (hv : v.Wf) :
    ∃ ds, B384.toNafs v = some ds ∧ nafValue ds.reverse = v.val ∧ (∀ d ∈ ds.getLast?, d ≠ .zero) ∧
      (∀ es : List Naf, nafValue es = v.val → nonZeroDigits ds ≤ nonZeroDigits es) ∧
      (v.val ≠ 0 → ds.length = Nat.log 2 (3 * v.val)) ∧ 2 * nonZeroDigits ds ≤ ds.length + 1 := by
  obtain ⟨ds, h1, h2, h3⟩ := C09_naf384_partial hv
  have hh : ∀ d ∈ ds.reverse.head?, d ≠ .zero := by
    have h := h1
    unfold B384.toNafs at h
    rw [Option.map_eq_some_iff] at h
    obtain ⟨x, -, rfl⟩ := h
    rw [List.reverse_reverse]
    exact head_dropWhile _
  refine ⟨ds, h1, h2, ?_, fun es he => ?_, fun h => ?_, half_aux _ ds le_rfl h3⟩
  · have := head_reverse _ hh
    rwa [List.reverse_reverse] at this
  · have := (weight_aux _ ds le_rfl h3).1 es.reverse (by
      rw [← nafValue_reverse, ← nafValue_reverse, List.reverse_reverse, he, h2])
    rwa [nonZeroDigits_reverse] at this
  · obtain ⟨l, u⟩ := length_aux ds.reverse h3.reverse hh _ h2 (Nat.pos_of_ne_zero h)
    rw [List.length_reverse] at l u
    exact ((Nat.log_eq_iff (Or.inr ⟨by norm_num, by omega⟩)).mpr ⟨l.le, u⟩).symm

/-- For 7 the binary digits cost three additions and the digits of `to_nafs` two; both denote 7. The length is
`log2 21 = 4`. The theorems apply to every element of the two fields. -/
example : B256.toNafs ⟨7, 0, 0, 0⟩ = some [.plus, .zero, .zero, .minus] ∧
    nonZeroDigits [.plus, .zero, .zero, .minus] = 2 ∧ nafValue [.plus, .plus, .plus] = 7 ∧
    nonZeroDigits [.plus, .plus, .plus] = 3 ∧ Nat.log 2 (3 * 7) = 4 := by
  refine ⟨by decide +kernel, by decide, by decide, by decide,
    (Nat.log_eq_iff (Or.inl (by norm_num))).mpr ⟨by norm_num, by norm_num⟩⟩

example := C113_minimal frParams_valid (a := frParams.one) (by unfold Canonical; decide +kernel)

example : frParams.toNafs frParams.one = some [.plus] :=
  C113_unique frParams_valid (by unfold Canonical; decide +kernel) [.plus]
    (by rw [← (montgomeryReduce_value frParams_valid (a := frParams.one)
          (by unfold Canonical; decide +kernel)).2]; decide +kernel) trivial (by simp)

end Kogarashi.Props
