import Verif.Spec.Digits
import Verif.Field.Denote

/-!
# Bit, byte and signed-digit encodings (lemmas)
-/

set_option exponentiation.threshold 1600

namespace Kogarashi.Field

open Kogarashi.Limbs Kogarashi.Spec

theorem leValue_append (b : Nat) (xs ys : List Nat) :
    leValue b (xs ++ ys) = leValue b xs + b^xs.length * leValue b ys := by
  induction xs with
  | nil => simp [leValue]
  | cons x xs ih => simp only [List.cons_append, leValue, ih, List.length_cons, pow_succ]; ring

theorem leValue_lt {b : Nat} {xs : List Nat} (h : ∀ x ∈ xs, x < b) :
    leValue b xs < b^xs.length := by
  induction xs with
  | nil => simp [leValue]
  | cons x xs ih =>
    have h1 := h x (by simp)
    have h2 := ih (fun y hy => h y (by simp [hy]))
    simp only [leValue, List.length_cons, pow_succ]
    calc x + b * leValue b xs < b + b * leValue b xs := by omega
      _ = b * (leValue b xs + 1) := by ring
      _ ≤ b * b^xs.length := Nat.mul_le_mul_left _ h2
      _ = b^xs.length * b := by ring

theorem beValue_foldl (b : Nat) (ds : List Nat) (acc : Nat) :
    ds.foldl (fun acc d => b * acc + d) acc = acc * b^ds.length + beValue b ds := by
  induction ds generalizing acc with
  | nil => simp [beValue]
  | cons d ds ih =>
    simp only [List.foldl_cons, List.length_cons, beValue]
    rw [ih, ih]; ring

theorem beValue_reverse (b : Nat) (ds : List Nat) : beValue b ds.reverse = leValue b ds := by
  induction ds with
  | nil => rfl
  | cons d ds ih =>
    unfold beValue
    rw [List.reverse_cons, List.foldl_append]
    change b * beValue b ds.reverse + d = _
    rw [ih]; simp only [leValue]; ring

/-- The eight bits of one byte. -/
theorem byteBits_value {x : Nat} (h : x < 2^8) :
    leValue 2 ((List.range 8).map fun i => x / 2^i % 2) = x := by
  simp only [List.range, List.range.loop, List.map, leValue]
  omega

theorem leBytes8_value {l : Nat} (h : l < 2^64) : leValue 256 (leBytes8 l) = l := by
  simp only [leBytes8, List.range, List.range.loop, List.map, leValue]
  omega

theorem leBytes8_lt {l x : Nat} (h : x ∈ leBytes8 l) : x < 2^8 := by
  simp only [leBytes8, List.mem_map] at h
  obtain ⟨i, -, rfl⟩ := h
  exact Nat.mod_lt _ (by norm_num)

theorem leBytes8_length (l : Nat) : (leBytes8 l).length = 8 := by simp [leBytes8]

theorem flatBits_value {bytes : List Nat} (h : ∀ x ∈ bytes, x < 2^8) :
    leValue 2 (bytes.flatMap fun byte => (List.range 8).map fun i => byte / 2^i % 2) =
      leValue 256 bytes := by
  induction bytes with
  | nil => rfl
  | cons x xs ih =>
    rw [List.flatMap_cons, leValue_append, byteBits_value (h x (by simp)),
      ih (fun y hy => h y (by simp [hy]))]
    simp [leValue]

theorem limbBits_value {l : Nat} (h : l < 2^64) : leValue 2 (limbBits l) = l := by
  unfold limbBits
  rw [flatBits_value (fun x hx => leBytes8_lt hx), leBytes8_value h]

theorem limbBits_length (l : Nat) : (limbBits l).length = 64 := by
  simp [limbBits, leBytes8, List.range, List.range.loop]

theorem limbBits_bit {l x : Nat} (h : x ∈ limbBits l) : x < 2 := by
  simp only [limbBits, List.mem_flatMap, List.mem_map] at h
  obtain ⟨_, _, i, -, rfl⟩ := h
  exact Nat.mod_lt _ (by norm_num)

theorem bits4_value {v : L4} (h : v.Wf) :
    leValue 2 ([v.l0, v.l1, v.l2, v.l3].flatMap limbBits) = v.val := by
  obtain ⟨h0, h1, h2, h3⟩ := h
  simp only [List.flatMap_cons, List.flatMap_nil, leValue_append, limbBits_length, limbBits_value h0,
    limbBits_value h1, limbBits_value h2, limbBits_value h3, leValue, L4.val]
  ring

theorem bits4_bit {v : L4} {x : Nat} (h : x ∈ [v.l0, v.l1, v.l2, v.l3].flatMap limbBits) : x < 2 := by
  rw [List.mem_flatMap] at h
  obtain ⟨_, _, hx⟩ := h
  exact limbBits_bit hx

theorem bits6_value {v : L6} (h : v.Wf) :
    leValue 2 ([v.l0, v.l1, v.l2, v.l3, v.l4, v.l5].flatMap limbBits) = v.val := by
  obtain ⟨h0, h1, h2, h3, h4, h5⟩ := h
  simp only [List.flatMap_cons, List.flatMap_nil, leValue_append, limbBits_length, limbBits_value h0,
    limbBits_value h1, limbBits_value h2, limbBits_value h3, limbBits_value h4, limbBits_value h5,
    leValue, L6.val]
  ring

theorem bits6_bit {v : L6} {x : Nat} (h : x ∈ [v.l0, v.l1, v.l2, v.l3, v.l4, v.l5].flatMap limbBits) :
    x < 2 := by
  rw [List.mem_flatMap] at h
  obtain ⟨_, _, hx⟩ := h
  exact limbBits_bit hx

theorem toBits_value {v : L4} (h : v.Wf) : beValue 2 (B256.toBits v) = v.val := by
  unfold B256.toBits
  rw [beValue_reverse, bits4_value h]

theorem toBits_length (v : L4) : (B256.toBits v).length = 256 := by
  simp [B256.toBits, limbBits_length]

theorem toBits_bit {v : L4} {x : Nat} (h : x ∈ B256.toBits v) : x < 2 := by
  unfold B256.toBits at h
  rw [List.mem_reverse] at h
  exact bits4_bit h

/-! ### Signed digits -/

/-- Signed value of signed digits, least significant first. -/
def nafLe : List Naf → Int
  | [] => 0
  | d :: ds => nafDigit d + 2 * nafLe ds

theorem nafValue_foldl (ds : List Naf) (acc : Int) :
    ds.foldl (fun acc d => 2 * acc + nafDigit d) acc = acc * 2^ds.length + nafValue ds := by
  induction ds generalizing acc with
  | nil => simp [nafValue]
  | cons d ds ih =>
    simp only [List.foldl_cons, List.length_cons, nafValue]
    rw [ih, ih]; ring

theorem nafValue_cons (d : Naf) (ds : List Naf) :
    nafValue (d :: ds) = nafDigit d * 2^ds.length + nafValue ds := by
  unfold nafValue
  rw [List.foldl_cons, nafValue_foldl]
  simp [nafValue]

theorem nafValue_append (xs ys : List Naf) :
    nafValue (xs ++ ys) = nafValue xs * 2^ys.length + nafValue ys := by
  unfold nafValue
  rw [List.foldl_append, nafValue_foldl]
  rfl

theorem nafValue_reverse (ds : List Naf) : nafValue ds.reverse = nafLe ds := by
  induction ds with
  | nil => rfl
  | cons d ds ih =>
    rw [List.reverse_cons, nafValue_append, ih, nafValue_cons]
    simp [nafLe, nafValue]; ring

theorem nafValue_dropWhile (ds : List Naf) :
    nafValue (ds.dropWhile fun d => d = Naf.zero) = nafValue ds := by
  induction ds with
  | nil => rfl
  | cons d ds ih =>
    rw [List.dropWhile_cons]
    split
    · rename_i h
      have h := of_decide_eq_true h
      subst h
      rw [ih, nafValue_cons]; simp [nafDigit]
    · rfl

/-- Carries of the tripling pass stay in `{0,1,2}`, the recoding never panics, its value is twice the
input (plus the incoming carry), and non-zero digits are never adjacent. -/
theorem nafPass_spec (bits : List Nat) (hb : ∀ x ∈ bits, x < 2) (carry : Nat) (hc : carry ≤ 2) :
    ∃ (ds : List Naf) (cout : Nat), nafPass carry bits = some ds ∧ cout ≤ 2 ∧ ds.length = bits.length ∧
      nafLe ds + cout * 2^bits.length = 2 * (leValue 2 bits : Int) + carry ∧
      3 * leValue 2 bits + carry < 2^bits.length * (cout + 1) ∧
      2^bits.length * cout ≤ 3 * leValue 2 bits + carry ∧
      NonAdjacent ds ∧ (carry % 2 = 0 → ∀ d ∈ ds.head?, d = Naf.zero) := by
  induction bits generalizing carry with
  | nil => exact ⟨[], carry, rfl, hc, rfl, by simp [nafLe, leValue], by simp [leValue],
      by simp [leValue], trivial, by simp⟩
  | cons bit bits ih =>
    have hbit : bit < 2 := hb bit (by simp)
    have hc' : (bit * 3 + carry) / 2 ≤ 2 := by omega
    obtain ⟨ds, cout, h1, h2, h3, h4, h5, h5', h6, h7⟩ := ih (fun x hx => hb x (by simp [hx])) _ hc'
    have hd : ∃ d, Naf.ofInt ((((bit * 3 + carry) % 2 : Nat) : Int) - bit) = some d ∧
        nafDigit d = ((bit * 3 + carry) % 2 : Nat) - (bit : Int) := by
      have : (((bit * 3 + carry) % 2 : Nat) : Int) - bit = 0 ∨
          (((bit * 3 + carry) % 2 : Nat) : Int) - bit = 1 ∨
          (((bit * 3 + carry) % 2 : Nat) : Int) - bit = -1 := by omega
      rcases this with h | h | h <;> rw [h]
      · exact ⟨.zero, rfl, rfl⟩
      · exact ⟨.plus, rfl, rfl⟩
      · exact ⟨.minus, rfl, rfl⟩
    obtain ⟨d, hd1, hd2⟩ := hd
    have hdz : d = Naf.zero ↔ carry % 2 = 0 := by
      have : nafDigit d = 0 ↔ d = Naf.zero := by cases d <;> simp [nafDigit]
      rw [← this, hd2]; omega
    refine ⟨d :: ds, cout, ?_, h2, by simp [h3], ?_, ?_, ?_, ?_, ?_⟩
    · simp only [nafPass, hd1, h1]
    · simp only [nafLe, leValue, List.length_cons, pow_succ, hd2]
      push_cast
      push_cast at h4
      have hh : 2 * (((bit : Int) * 3 + carry) / 2) + ((bit : Int) * 3 + carry) % 2 = bit * 3 + carry := by
        omega
      linear_combination 2 * h4 + hh
    · simp only [leValue, List.length_cons, pow_succ]
      have : 2^bits.length * 2 * (cout + 1) = 2 * (2^bits.length * (cout + 1)) := by ring
      rw [this]
      generalize 2^bits.length * (cout + 1) = Y at *
      omega
    · simp only [leValue, List.length_cons, pow_succ]
      have : 2^bits.length * 2 * cout = 2 * (2^bits.length * cout) := by ring
      rw [this]
      generalize 2^bits.length * cout = Y at *
      omega
    · cases ds with
      | nil => exact trivial
      | cons e rest =>
        refine ⟨?_, h6⟩
        by_cases hc0 : carry % 2 = 0
        · exact Or.inl (hdz.2 hc0)
        · right
          refine h7 ?_ e (by simp)
          have h01 : bit = 0 ∨ bit = 1 := by omega
          rcases h01 with rfl | rfl <;> omega
    · intro hc0 e he
      simp only [List.head?_cons, Option.mem_some_iff] at he
      rw [← he]; exact hdz.2 hc0

theorem _root_.Kogarashi.Spec.NonAdjacent.tail {d : Naf} {ds : List Naf} (h : NonAdjacent (d :: ds)) : NonAdjacent ds := by
  cases ds with
  | nil => trivial
  | cons e rest => exact h.2

theorem _root_.Kogarashi.Spec.NonAdjacent.append_single {ds : List Naf} {d : Naf} (h : NonAdjacent ds)
    (hl : ∀ e ∈ ds.getLast?, e = Naf.zero ∨ d = Naf.zero) : NonAdjacent (ds ++ [d]) := by
  induction ds with
  | nil => trivial
  | cons x xs ih =>
    cases xs with
    | nil =>
      refine ⟨?_, trivial⟩
      exact hl x (by simp)
    | cons y ys =>
      refine ⟨h.1, ih h.2 ?_⟩
      intro e he
      exact hl e (by rw [List.getLast?_cons_cons]; exact he)

theorem _root_.Kogarashi.Spec.NonAdjacent.reverse {ds : List Naf} (h : NonAdjacent ds) : NonAdjacent ds.reverse := by
  induction ds with
  | nil => trivial
  | cons x xs ih =>
    rw [List.reverse_cons]
    apply NonAdjacent.append_single (ih h.tail)
    intro e he
    rw [List.getLast?_reverse] at he
    cases xs with
    | nil => simp at he
    | cons y ys =>
      simp only [List.head?_cons, Option.mem_some_iff] at he
      rw [← he]
      exact h.1.symm

theorem _root_.Kogarashi.Spec.NonAdjacent.dropWhile {ds : List Naf} (f : Naf → Bool) (h : NonAdjacent ds) :
    NonAdjacent (ds.dropWhile f) := by
  induction ds with
  | nil => exact h
  | cons x xs ih =>
    rw [List.dropWhile_cons]
    split
    · exact ih h.tail
    · exact h

theorem _root_.Kogarashi.Spec.NonAdjacent.dropLast {ds : List Naf} (h : NonAdjacent ds) : NonAdjacent ds.dropLast := by
  induction ds with
  | nil => exact h
  | cons x xs ih =>
    cases xs with
    | nil => trivial
    | cons y ys =>
      rw [List.dropLast_cons_cons]
      have := ih h.2
      cases ys with
      | nil => trivial
      | cons z zs =>
        rw [List.dropLast_cons_cons] at this ⊢
        exact ⟨h.1, this⟩

/-- Dropping a trailing zero digit halves. -/
theorem nafValue_dropLast {ds : List Naf} (h : ∀ d ∈ ds.getLast?, d = Naf.zero) :
    2 * nafValue ds.dropLast = nafValue ds := by
  rcases List.eq_nil_or_concat ds with rfl | ⟨xs, d, rfl⟩
  · rfl
  · have hd : d = Naf.zero := h d (by simp)
    subst hd
    rw [List.concat_eq_append, List.dropLast_concat, nafValue_append]
    simp [nafValue, nafDigit]; ring

theorem getLast?_dropWhile {α} (f : α → Bool) (ds : List α) (d : α)
    (h : d ∈ (ds.dropWhile f).getLast?) : d ∈ ds.getLast? := by
  induction ds with
  | nil => exact h
  | cons x xs ih =>
    rw [List.dropWhile_cons] at h
    split at h
    · have := ih h
      cases xs with
      | nil => simp at this
      | cons y ys => rw [List.getLast?_cons_cons]; exact this
    · exact h

/-- The recoding shared by both back ends, before the final `reverse` of the 384-bit one. -/
theorem naf_core (bits : List Nat) (hb : ∀ x ∈ bits, x < 2) :
    ∃ ds, nafPass 0 (bits ++ [0, 0]) = some ds ∧
      nafValue (ds.reverse.dropWhile (fun d => d = Naf.zero)).dropLast = leValue 2 bits ∧
      NonAdjacent (ds.reverse.dropWhile (fun d => d = Naf.zero)).dropLast := by
  have hb' : ∀ x ∈ bits ++ [0, 0], x < 2 := by
    intro x hx
    rw [List.mem_append] at hx
    rcases hx with hx | hx
    · exact hb x hx
    · simp at hx; omega
  obtain ⟨ds, cout, h1, h2, h3, h4, h5, h5', h6, h7⟩ := nafPass_spec (bits ++ [0, 0]) hb' 0 (by omega)
  have hv : leValue 2 (bits ++ [0, 0]) = leValue 2 bits := by
    rw [leValue_append]; simp [leValue]
  have hlt := leValue_lt hb
  rw [hv] at h4 h5'
  have hcout : cout = 0 := by
    rw [List.length_append] at h5'
    have e : 2^(bits.length + [0, 0].length) = 4 * 2^bits.length := by
      simp [pow_succ]; ring
    rw [e] at h5'
    generalize 2^bits.length = X at *
    rcases Nat.eq_zero_or_pos cout with h | h
    · exact h
    · exfalso
      have : 4 * X * 1 ≤ 4 * X * cout := Nat.mul_le_mul_left _ h
      omega
  subst hcout
  refine ⟨ds, h1, ?_, ?_⟩
  · have hl : ∀ d ∈ (ds.reverse.dropWhile (fun d => d = Naf.zero)).getLast?, d = Naf.zero := by
      intro d hd
      have := getLast?_dropWhile _ _ _ hd
      rw [List.getLast?_reverse] at this
      exact h7 (by norm_num) d this
    have := nafValue_dropLast hl
    rw [nafValue_dropWhile, nafValue_reverse] at this
    push_cast at h4
    omega
  · exact (h6.reverse.dropWhile _).dropLast

end Kogarashi.Field
