import Verif.Field.Digits

/-!
# Byte encodings, equality and ordering (lemmas)
-/

set_option exponentiation.threshold 1600

namespace Kogarashi.Field

open Kogarashi.Limbs Kogarashi.Spec

variable {P : FieldParams}

theorem leU64_lt {bytes : Nat → Nat} {off : Nat} (h : ∀ i, off ≤ i → i < off + 8 → bytes i < 256) :
    FieldParams.leU64 bytes off < 2^64 := by
  unfold FieldParams.leU64
  have h0 := h off (by omega) (by omega)
  have h1 := h (off + 1) (by omega) (by omega)
  have h2 := h (off + 2) (by omega) (by omega)
  have h3 := h (off + 3) (by omega) (by omega)
  have h4 := h (off + 4) (by omega) (by omega)
  have h5 := h (off + 5) (by omega) (by omega)
  have h6 := h (off + 6) (by omega) (by omega)
  have h7 := h (off + 7) (by omega) (by omega)
  clear h
  omega

theorem leU64_eq (bytes : Nat → Nat) (off : Nat) :
    FieldParams.leU64 bytes off = leValue 256 ((List.range 8).map fun i => bytes (off + i)) := by
  simp only [FieldParams.leU64, List.range, List.range.loop, List.map, leValue, Nat.add_zero]
  ring

/-- Splitting a little-endian byte string after its first eight bytes. -/
theorem leValue_split (bytes : Nat → Nat) (off n : Nat) :
    leValue 256 ((List.range (8 + n)).map fun i => bytes (off + i)) =
      FieldParams.leU64 bytes off + 2^64 * leValue 256 ((List.range n).map fun i => bytes (off + 8 + i)) := by
  rw [List.range_add, List.map_append, leValue_append, ← leU64_eq, List.map_map]
  simp only [List.length_map, List.length_range]
  congr 2
  congr 2
  funext i
  simp only [Function.comp]
  congr 1; omega

theorem bytes32_value (bytes : Nat → Nat) :
    leValue 256 ((List.range 32).map bytes) =
      (L4.mk (FieldParams.leU64 bytes 0) (FieldParams.leU64 bytes 8) (FieldParams.leU64 bytes 16)
        (FieldParams.leU64 bytes 24)).val := by
  have e0 := leValue_split bytes 0 24
  have e1 := leValue_split bytes 8 16
  have e2 := leValue_split bytes 16 8
  have e3 := leU64_eq bytes 24
  simp only [Nat.zero_add, Nat.reduceAdd] at e0 e1 e2
  have e : (List.range 32).map bytes = (List.range 32).map (fun i => bytes i) := rfl
  rw [e, e0, e1, e2, ← e3]
  simp only [L4.val]
  ring

theorem bytes64_value (bytes : Nat → Nat) :
    leValue 256 ((List.range 64).map bytes) =
      (L8.mk (FieldParams.leU64 bytes 0) (FieldParams.leU64 bytes 8) (FieldParams.leU64 bytes 16)
        (FieldParams.leU64 bytes 24) (FieldParams.leU64 bytes 32) (FieldParams.leU64 bytes 40)
        (FieldParams.leU64 bytes 48) (FieldParams.leU64 bytes 56)).val := by
  have e0 := leValue_split bytes 0 56
  have e1 := leValue_split bytes 8 48
  have e2 := leValue_split bytes 16 40
  have e3 := leValue_split bytes 24 32
  have e4 := leValue_split bytes 32 24
  have e5 := leValue_split bytes 40 16
  have e6 := leValue_split bytes 48 8
  have e7 := leU64_eq bytes 56
  simp only [Nat.zero_add, Nat.reduceAdd] at e0 e1 e2 e3 e4 e5 e6
  have e : (List.range 64).map bytes = (List.range 64).map (fun i => bytes i) := rfl
  rw [e, e0, e1, e2, e3, e4, e5, e6, ← e7]
  simp only [L8.val]
  ring

/-- The borrow chain of `from_bytes` decides `v < p`. -/
theorem borrow_chain {v p : L4} (hv : v.Wf) (hp : p.Wf) :
    ((sbb v.l3 p.l3 (sbb v.l2 p.l2 (sbb v.l1 p.l1 (sbb v.l0 p.l0 0).2).2).2).2 &&& 1 = 1) ↔
      v.val < p.val := by
  obtain ⟨v0, v1, v2, v3⟩ := hv
  obtain ⟨p0, p1, p2, p3⟩ := hp
  simp only [sbb, Nat.zero_div, Nat.add_zero]
  have bit : ∀ {x : Nat}, x = 0 ∨ x = 2^64 - 1 → x / 2^63 ≤ 1 := by omega
  obtain ⟨a1, a2⟩ := sbb_step0 v0 p0
  generalize hi (wsub128 v.l0 p.l0) = b0 at *
  obtain ⟨c1, c2⟩ := sbb_step v1 p1 (bit a2)
  generalize hi (wsub128 v.l1 (p.l1 + b0 / 2^63)) = b1 at *
  obtain ⟨d1, d2⟩ := sbb_step v2 p2 (bit c2)
  generalize hi (wsub128 v.l2 (p.l2 + b1 / 2^63)) = b2 at *
  obtain ⟨e1, e2⟩ := sbb_step v3 p3 (bit d2)
  generalize hi (wsub128 v.l3 (p.l3 + b2 / 2^63)) = b3 at *
  have f0 := lo_lt (wsub128 v.l0 p.l0)
  have f1 := lo_lt (wsub128 v.l1 (p.l1 + b0 / 2^63))
  have f2 := lo_lt (wsub128 v.l2 (p.l2 + b1 / 2^63))
  have f3 := lo_lt (wsub128 v.l3 (p.l3 + b2 / 2^63))
  generalize lo (wsub128 v.l0 p.l0) = x0 at *
  generalize lo (wsub128 v.l1 (p.l1 + b0 / 2^63)) = x1 at *
  generalize lo (wsub128 v.l2 (p.l2 + b1 / 2^63)) = x2 at *
  generalize lo (wsub128 v.l3 (p.l3 + b2 / 2^63)) = x3 at *
  rw [Nat.and_one_is_mod]
  have key : (x0 + x1 * 2^64 + x2 * 2^128 + x3 * 2^192) + p.val = v.val + 2^256 * (b3 / 2^63) := by
    unfold L4.val
    clear a2 c2 d2 e2
    linear_combination a1 + 2^64 * c1 + 2^128 * d1 + 2^192 * e1
  have hx : x0 + x1 * 2^64 + x2 * 2^128 + x3 * 2^192 < 2^256 := by clear * - f0 f1 f2 f3; omega
  generalize x0 + x1 * 2^64 + x2 * 2^128 + x3 * 2^192 = X at *
  have hpl : p.val < 2^256 := by unfold L4.val; clear * - p0 p1 p2 p3; omega
  clear * - key hx e2 hpl
  rcases e2 with rfl | rfl
  · simp at key ⊢; omega
  · omega

/-! ### Equality and order -/

theorem eq_iff (a b : L4) : FieldParams.eq a b = true ↔ a = b := by
  cases a; cases b
  simp [FieldParams.eq]

theorem lt_iff {a b : L4} (ha : a.Wf) (hb : b.Wf) : FieldParams.lt a b = true ↔ a.val < b.val := by
  obtain ⟨a0, a1, a2, a3⟩ := ha
  obtain ⟨b0, b1, b2, b3⟩ := hb
  simp only [FieldParams.lt, FieldParams.limbPairs, FieldParams.cmpLoop, L4.val]
  split
  · rw [decide_eq_true_iff]; omega
  · split
    · rw [decide_eq_true_iff]; omega
    · split
      · rw [decide_eq_true_iff]; omega
      · split
        · rw [decide_eq_true_iff]; omega
        · simp only [Bool.false_eq_true, false_iff]; omega

theorem le_iff {a b : L4} (ha : a.Wf) (hb : b.Wf) : FieldParams.le a b = true ↔ a.val ≤ b.val := by
  obtain ⟨a0, a1, a2, a3⟩ := ha
  obtain ⟨b0, b1, b2, b3⟩ := hb
  simp only [FieldParams.le, FieldParams.limbPairs, FieldParams.cmpLoop, L4.val]
  split
  · rw [decide_eq_true_iff]; omega
  · split
    · rw [decide_eq_true_iff]; omega
    · split
      · rw [decide_eq_true_iff]; omega
      · split
        · rw [decide_eq_true_iff]; omega
        · simp only [true_iff]; omega

theorem gt_iff {a b : L4} (ha : a.Wf) (hb : b.Wf) : FieldParams.gt a b = true ↔ b.val < a.val := by
  obtain ⟨a0, a1, a2, a3⟩ := ha
  obtain ⟨b0, b1, b2, b3⟩ := hb
  simp only [FieldParams.gt, FieldParams.limbPairs, FieldParams.cmpLoop, L4.val]
  split
  · rw [decide_eq_true_iff]; omega
  · split
    · rw [decide_eq_true_iff]; omega
    · split
      · rw [decide_eq_true_iff]; omega
      · split
        · rw [decide_eq_true_iff]; omega
        · simp only [Bool.false_eq_true, false_iff]; omega

theorem ge_iff {a b : L4} (ha : a.Wf) (hb : b.Wf) : FieldParams.ge a b = true ↔ b.val ≤ a.val := by
  obtain ⟨a0, a1, a2, a3⟩ := ha
  obtain ⟨b0, b1, b2, b3⟩ := hb
  simp only [FieldParams.ge, FieldParams.limbPairs, FieldParams.cmpLoop, L4.val]
  split
  · rw [decide_eq_true_iff]; omega
  · split
    · rw [decide_eq_true_iff]; omega
    · split
      · rw [decide_eq_true_iff]; omega
      · split
        · rw [decide_eq_true_iff]; omega
        · simp only [true_iff]; omega

theorem cmp_eq {a b : L4} (ha : a.Wf) (hb : b.Wf) : FieldParams.cmp a b = compare a.val b.val := by
  obtain ⟨a0, a1, a2, a3⟩ := ha
  obtain ⟨b0, b1, b2, b3⟩ := hb
  symm
  simp only [FieldParams.cmp, FieldParams.limbPairs, FieldParams.cmpOrd, L4.val]
  split
  · rw [Nat.compare_eq_lt]; omega
  · split
    · rw [Nat.compare_eq_gt]; omega
    · split
      · rw [Nat.compare_eq_lt]; omega
      · split
        · rw [Nat.compare_eq_gt]; omega
        · split
          · rw [Nat.compare_eq_lt]; omega
          · split
            · rw [Nat.compare_eq_gt]; omega
            · split
              · rw [Nat.compare_eq_lt]; omega
              · split
                · rw [Nat.compare_eq_gt]; omega
                · rw [Nat.compare_eq_eq]; omega

end Kogarashi.Field
