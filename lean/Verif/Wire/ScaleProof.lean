import Verif.Wire.Scale
import Mathlib.Tactic.NormNum
import Mathlib.Tactic.Ring

/-!
# The codec laws
-/

namespace Kogarashi.Scale

open Limbs Nova Curve

theorem leNat_leBytes (k n : Nat) : leNat (leBytes k n) = n % 256 ^ k := by
  induction k generalizing n with
  | zero => simp [leBytes, leNat, Nat.mod_one]
  | succ k ih =>
    rw [leBytes, leNat, ih, pow_succ', Nat.mod_mul]
    simp [byte, Fin.ofNat]

theorem length_leBytes (k n : Nat) : (leBytes k n).length = k := by
  induction k generalizing n with
  | zero => rfl
  | succ k ih => simp [leBytes, ih]

theorem leNat_lt (bs : List Byte) : leNat bs < 256 ^ bs.length := by
  induction bs with
  | nil => simp [leNat]
  | cons b bs ih =>
    have := b.isLt
    rw [leNat, List.length_cons, pow_succ]
    omega

theorem byte_val (b : Byte) : byte b.val = b := by
  apply Fin.ext; simp [byte, Fin.ofNat, Nat.mod_eq_of_lt b.isLt]

theorem leBytes_leNat (bs : List Byte) : leBytes bs.length (leNat bs) = bs := by
  induction bs with
  | nil => rfl
  | cons b bs ih =>
    have h1 := b.isLt
    rw [List.length_cons, leBytes, leNat]
    have h2 : byte (b.val + 256 * leNat bs) = b := by
      apply Fin.ext; simp [byte, Fin.ofNat, Nat.add_mul_mod_self_left, Nat.mod_eq_of_lt h1]
    have h3 : (b.val + 256 * leNat bs) / 256 = leNat bs := by omega
    rw [h2, h3, ih]

theorem readN_append (k : Nat) (bs r : List Byte) (h : bs.length = k) : readN k (bs ++ r) = some (bs, r) := by
  subst h
  simp [readN]

theorem readN_some {k : Nat} {bs c r : List Byte} (h : readN k bs = some (c, r)) : c.length = k ∧ bs = c ++ r := by
  unfold readN at h
  split at h
  · simp at h
  · simp only [Option.some.injEq, Prod.mk.injEq] at h
    obtain ⟨rfl, rfl⟩ := h
    exact ⟨by simp; omega, (List.take_append_drop k bs).symm⟩

/-- What a codec must satisfy for the values allowed by `wf`. -/
structure Lawful {α : Type} (c : Codec α) (wf : α → Prop) : Prop where
  round : ∀ {x e}, wf x → c.enc x = some e → ∀ r, c.dec (e ++ r) = some (x, r)
  unique : ∀ {bs x r}, c.dec bs = some (x, r) → wf x ∧ ∃ e, c.enc x = some e ∧ bs = e ++ r

theorem u64C_lawful : Lawful u64C (· < 2 ^ 64) where
  round {x e} hx he r := by
    simp only [u64C, Option.some.injEq] at he ⊢
    subst he
    rw [readN_append 8 _ r (length_leBytes 8 x), Option.map_some, leNat_leBytes, Nat.mod_eq_of_lt (by omega)]
  unique {bs x r} h := by
    simp only [u64C, Option.map_eq_some_iff, Prod.mk.injEq] at h
    obtain ⟨⟨c, r'⟩, h, h1, h2⟩ := h
    simp only at h1 h2
    subst h1 h2
    obtain ⟨hl, hb⟩ := readN_some h
    have hlt := leNat_lt c
    rw [hl] at hlt
    refine ⟨by omega, c, ?_, hb⟩
    have := leBytes_leNat c
    rw [hl] at this
    simp only [u64C, this]

theorem boolC_lawful : Lawful boolC (fun _ => True) where
  round {x e} _ he r := by
    simp only [boolC, Option.some.injEq] at he
    subst he
    cases x <;> simp [boolC]
  unique {bs x r} h := by
    cases bs with
    | nil => simp [boolC] at h
    | cons b r' =>
      simp only [boolC] at h
      split at h
      · next hb => simp at h; obtain ⟨rfl, rfl⟩ := h; subst hb; simp [boolC]
      · split at h
        · next hb => simp at h; obtain ⟨rfl, rfl⟩ := h; subst hb; simp [boolC]
        · simp at h

theorem log2_between {n k : Nat} (h1 : 2 ^ k ≤ n) (h2 : n < 2 ^ (k + 8)) : k ≤ n.log2 ∧ n.log2 < k + 8 := by
  have hn : n ≠ 0 := by have := Nat.two_pow_pos k; omega
  exact ⟨(Nat.le_log2 hn).2 h1, (Nat.log2_lt hn).2 h2⟩

theorem bytesNeeded_spec {n : Nat} (h : 0x3fffffff < n) (h2 : n < 2 ^ 64) :
    (bytesNeeded n = 4 ∧ n < 2 ^ 32) ∨ (bytesNeeded n = 5 ∧ 2 ^ 32 ≤ n ∧ n < 2 ^ 40) ∨
    (bytesNeeded n = 6 ∧ 2 ^ 40 ≤ n ∧ n < 2 ^ 48) ∨ (bytesNeeded n = 7 ∧ 2 ^ 48 ≤ n ∧ n < 2 ^ 56) ∨
    (bytesNeeded n = 8 ∧ 2 ^ 56 ≤ n) := by
  unfold bytesNeeded
  by_cases a : n < 2 ^ 32
  · have := log2_between (n := n) (k := 24) (by omega) (by omega)
    left; omega
  by_cases b : n < 2 ^ 40
  · have := log2_between (n := n) (k := 32) (by omega) (by omega)
    right; left; omega
  by_cases c : n < 2 ^ 48
  · have := log2_between (n := n) (k := 40) (by omega) (by omega)
    right; right; left; omega
  by_cases d : n < 2 ^ 56
  · have := log2_between (n := n) (k := 48) (by omega) (by omega)
    right; right; right; left; omega
  · have := log2_between (n := n) (k := 56) (by omega) (by omega)
    right; right; right; right; omega

theorem val_byte (n : Nat) : (byte n).val = n % 256 := by simp [byte, Fin.ofNat]

/-- The first three modes of a compact integer. -/
theorem leBytes_two (n : Nat) : leBytes 2 n = byte n :: leBytes 1 (n / 256) := rfl
theorem leBytes_four (n : Nat) : leBytes 4 n = byte n :: leBytes 3 (n / 256) := rfl

theorem leNat_cons_leBytes (k n : Nat) : leNat (byte n :: leBytes k (n / 256)) = n % 256 ^ (k + 1) :=
  leNat_leBytes (k + 1) n

theorem compact64_round {x : Nat} {e : List Byte} (hx : x < 2 ^ 64) (he : compact64.enc x = some e) (r : List Byte) :
    compact64.dec (e ++ r) = some (x, r) := by
  simp only [compact64] at he
  split at he
  · next h =>
    simp only [Option.some.injEq] at he
    subst he
    have hv := val_byte (x * 4)
    simp only [compact64, List.cons_append, List.nil_append]
    rw [if_pos (by omega)]
    simp only [Option.some.injEq, Prod.mk.injEq, and_true]
    omega
  split at he
  · next h h' =>
    simp only [Option.some.injEq] at he
    subst he
    have hv := val_byte (x * 4 + 1)
    rw [leBytes_two, List.cons_append]
    simp only [compact64]
    rw [if_neg (by omega), if_pos (by omega), readN_append 1 _ r (length_leBytes _ _)]
    simp only [Option.bind_eq_bind, Option.bind_some]
    rw [leNat_cons_leBytes]
    have : (x * 4 + 1) % 256 ^ (1 + 1) / 4 = x := by omega
    rw [this, if_pos (by omega)]
  split at he
  · next h h' h'' =>
    simp only [Option.some.injEq] at he
    subst he
    have hv := val_byte (x * 4 + 2)
    rw [leBytes_four, List.cons_append]
    simp only [compact64]
    rw [if_neg (by omega), if_neg (by omega), if_pos (by omega), readN_append 3 _ r (length_leBytes _ _)]
    simp only [Option.bind_eq_bind, Option.bind_some]
    rw [leNat_cons_leBytes]
    have : (x * 4 + 2) % 256 ^ (3 + 1) / 4 = x := by omega
    rw [this, if_pos (by omega)]
  · next h h' h'' =>
    simp only [Option.some.injEq] at he
    subst he
    rw [List.cons_append]
    simp only [compact64]
    rcases bytesNeeded_spec (by omega) hx with ⟨hk, hl⟩ | ⟨hk, hl, hl'⟩ | ⟨hk, hl, hl'⟩ | ⟨hk, hl, hl'⟩ | ⟨hk, hl⟩ <;> rw [hk]
    · have hv := val_byte (3 + (4 - 4) * 4)
      rw [if_neg (by omega), if_neg (by omega), if_neg (by omega), if_pos (by omega),
        readN_append 4 _ r (length_leBytes _ _)]
      simp only [Option.bind_eq_bind, Option.bind_some]
      rw [leNat_leBytes, Nat.mod_eq_of_lt (by omega), if_pos (by omega)]
    · have hv := val_byte (3 + (5 - 4) * 4)
      have hk' : (byte (3 + (5 - 4) * 4)).val / 4 + 4 = 5 := by omega
      rw [if_neg (by omega), if_neg (by omega), if_neg (by omega), if_neg (by omega), if_neg (by omega),
        if_neg (by omega), hk', readN_append 5 _ r (length_leBytes _ _)]
      simp only [Option.bind_eq_bind, Option.bind_some]
      rw [leNat_leBytes, Nat.mod_eq_of_lt (by omega), if_pos (by omega)]
    · have hv := val_byte (3 + (6 - 4) * 4)
      have hk' : (byte (3 + (6 - 4) * 4)).val / 4 + 4 = 6 := by omega
      rw [if_neg (by omega), if_neg (by omega), if_neg (by omega), if_neg (by omega), if_neg (by omega),
        if_neg (by omega), hk', readN_append 6 _ r (length_leBytes _ _)]
      simp only [Option.bind_eq_bind, Option.bind_some]
      rw [leNat_leBytes, Nat.mod_eq_of_lt (by omega), if_pos (by omega)]
    · have hv := val_byte (3 + (7 - 4) * 4)
      have hk' : (byte (3 + (7 - 4) * 4)).val / 4 + 4 = 7 := by omega
      rw [if_neg (by omega), if_neg (by omega), if_neg (by omega), if_neg (by omega), if_neg (by omega),
        if_neg (by omega), hk', readN_append 7 _ r (length_leBytes _ _)]
      simp only [Option.bind_eq_bind, Option.bind_some]
      rw [leNat_leBytes, Nat.mod_eq_of_lt (by omega), if_pos (by omega)]
    · have hv := val_byte (3 + (8 - 4) * 4)
      have hk' : (byte (3 + (8 - 4) * 4)).val / 4 + 4 = 8 := by omega
      rw [if_neg (by omega), if_neg (by omega), if_neg (by omega), if_neg (by omega), if_pos (by omega),
        readN_append 8 _ r (length_leBytes _ _)]
      simp only [Option.bind_eq_bind, Option.bind_some]
      rw [leNat_leBytes, Nat.mod_eq_of_lt (by omega), if_pos (by omega)]

theorem bind_readN {β : Type} {k : Nat} {bs : List Byte} {f : List Byte × List Byte → Option β} {y : β}
    (h : (readN k bs >>= f) = some y) : ∃ c r, c.length = k ∧ bs = c ++ r ∧ f (c, r) = some y := by
  simp only [Option.bind_eq_bind, Option.bind_eq_some_iff] at h
  obtain ⟨⟨c, r⟩, h1, h2⟩ := h
  obtain ⟨h3, h4⟩ := readN_some h1
  exact ⟨c, r, h3, h4, h2⟩

theorem of_ite {β : Type} {p : Prop} [Decidable p] {x y : β} (h : (if p then some x else none) = some y) : p ∧ x = y := by
  split at h
  · exact ⟨‹_›, by simpa using h⟩
  · simp at h

theorem byte_of_val {b : Byte} {n : Nat} (h : b.val = n) : byte n = b := by rw [← h, byte_val]

theorem leBytes_of {c : List Byte} {k n : Nat} (h : c.length = k) (h' : leNat c = n) : leBytes k n = c := by
  rw [← h, ← h', leBytes_leNat]

theorem compact64_unique {bs : List Byte} {x : Nat} {r : List Byte} (h : compact64.dec bs = some (x, r)) :
    x < 2 ^ 64 ∧ ∃ e, compact64.enc x = some e ∧ bs = e ++ r := by
  cases bs with
  | nil => simp [compact64] at h
  | cons b t =>
    have hb := b.isLt
    simp only [compact64] at h ⊢
    split at h
    · simp only [Option.some.injEq, Prod.mk.injEq] at h
      obtain ⟨h, rfl⟩ := h
      refine ⟨by omega, [byte (x * 4)], by rw [if_pos (by omega)], ?_⟩
      rw [byte_of_val (b := b) (by omega)]; rfl
    split at h
    · obtain ⟨c, r', hl, ht, h2⟩ := bind_readN h
      clear h
      obtain ⟨h, hx⟩ := of_ite h2
      clear h2
      simp only [Prod.mk.injEq] at h hx
      obtain ⟨hx, rfl⟩ := hx
      have h0 : leNat (b :: c) = b.val + 256 * leNat c := rfl
      have hlt := leNat_lt (b :: c)
      rw [List.length_cons, hl] at hlt
      rw [h0] at h hx hlt
      refine ⟨by omega, leBytes 2 (x * 4 + 1), by rw [if_neg (by omega), if_pos (by omega)], ?_⟩
      rw [leBytes_of (c := b :: c) (by simp [hl]) (by rw [h0]; omega), ht]; rfl
    split at h
    · obtain ⟨c, r', hl, ht, h2⟩ := bind_readN h
      clear h
      obtain ⟨h, hx⟩ := of_ite h2
      clear h2
      simp only [Prod.mk.injEq] at h hx
      obtain ⟨hx, rfl⟩ := hx
      have h0 : leNat (b :: c) = b.val + 256 * leNat c := rfl
      have hlt := leNat_lt (b :: c)
      rw [List.length_cons, hl] at hlt
      rw [h0] at h hx hlt
      refine ⟨by omega, leBytes 4 (x * 4 + 2), by rw [if_neg (by omega), if_neg (by omega), if_pos (by omega)], ?_⟩
      rw [leBytes_of (c := b :: c) (by simp [hl]) (by rw [h0]; omega), ht]; rfl
    split at h
    · obtain ⟨c, r', hl, ht, h2⟩ := bind_readN h
      clear h
      obtain ⟨h, hx⟩ := of_ite h2
      clear h2
      simp only [Prod.mk.injEq] at h hx
      obtain ⟨hx, rfl⟩ := hx
      have hlt := leNat_lt c
      rw [hl] at hlt
      rw [hx] at h hlt
      have hk : bytesNeeded x = 4 := by
        rcases bytesNeeded_spec (n := x) h (by omega) with h | h | h | h | h <;> omega
      refine ⟨by omega, byte (3 + (bytesNeeded x - 4) * 4) :: leBytes (bytesNeeded x) x,
        by rw [if_neg (by omega), if_neg (by omega), if_neg (by omega)], ?_⟩
      rw [hk, leBytes_of hl hx, byte_of_val (b := b) (by omega), ht]; rfl
    split at h
    · obtain ⟨c, r', hl, ht, h2⟩ := bind_readN h
      clear h
      obtain ⟨h, hx⟩ := of_ite h2
      clear h2
      simp only [Prod.mk.injEq] at h hx
      obtain ⟨hx, rfl⟩ := hx
      have hlt := leNat_lt c
      rw [hl] at hlt
      rw [hx] at h hlt
      have hk : bytesNeeded x = 8 := by
        rcases bytesNeeded_spec (n := x) (by omega) (by omega) with h | h | h | h | h <;> omega
      refine ⟨by omega, byte (3 + (bytesNeeded x - 4) * 4) :: leBytes (bytesNeeded x) x,
        by rw [if_neg (by omega), if_neg (by omega), if_neg (by omega)], ?_⟩
      rw [hk, leBytes_of hl hx, byte_of_val (b := b) (by omega), ht]; rfl
    split at h
    · simp at h
    · obtain ⟨c, r', hl, ht, h2⟩ := bind_readN h
      clear h
      obtain ⟨h, hx⟩ := of_ite h2
      clear h2
      simp only [Prod.mk.injEq] at h hx
      obtain ⟨hx, rfl⟩ := hx
      have hlt := leNat_lt c
      rw [hl] at hlt
      rw [hx] at h hlt
      have hq : b.val / 4 + 4 = 5 ∨ b.val / 4 + 4 = 6 ∨ b.val / 4 + 4 = 7 := by omega
      have hk : x < 2 ^ 64 ∧ 0x3fffffff < x ∧ bytesNeeded x = b.val / 4 + 4 := by
        have key : 2 ^ (8 * (b.val / 4 + 4 - 1)) ≤ x := by
          rcases hq with hq | hq | hq <;> rw [hq] at h ⊢ <;> norm_num at h ⊢ <;> omega
        clear h
        rcases hq with hq | hq | hq <;> rw [hq] at key hlt ⊢ <;> norm_num at key hlt <;>
          rcases bytesNeeded_spec (n := x) (by omega) (by omega) with h' | h' | h' | h' | h' <;> omega
      refine ⟨hk.1, byte (3 + (bytesNeeded x - 4) * 4) :: leBytes (bytesNeeded x) x,
        by rw [if_neg (by omega), if_neg (by omega), if_neg (by omega)], ?_⟩
      rw [hk.2.2, leBytes_of hl hx, byte_of_val (b := b) (by omega), ht]; rfl

theorem compact64_lawful : Lawful compact64 (· < 2 ^ 64) := ⟨compact64_round, compact64_unique⟩

theorem compact32_round {x : Nat} {e : List Byte} (he : compact32.enc x = some e) (r : List Byte) :
    compact32.dec (e ++ r) = some (x, r) := by
  simp only [compact32] at he
  split at he
  · next h =>
    simp only [Option.some.injEq] at he
    subst he
    have hv := val_byte (x * 4)
    simp only [compact32, List.cons_append, List.nil_append]
    rw [if_pos (by omega)]
    simp only [Option.some.injEq, Prod.mk.injEq, and_true]
    omega
  split at he
  · next h h' =>
    simp only [Option.some.injEq] at he
    subst he
    have hv := val_byte (x * 4 + 1)
    rw [leBytes_two, List.cons_append]
    simp only [compact32]
    rw [if_neg (by omega), if_pos (by omega), readN_append 1 _ r (length_leBytes _ _)]
    simp only [Option.bind_eq_bind, Option.bind_some]
    rw [leNat_cons_leBytes]
    have : (x * 4 + 1) % 256 ^ (1 + 1) / 4 = x := by omega
    rw [this, if_pos (by omega)]
  split at he
  · next h h' h'' =>
    simp only [Option.some.injEq] at he
    subst he
    have hv := val_byte (x * 4 + 2)
    rw [leBytes_four, List.cons_append]
    simp only [compact32]
    rw [if_neg (by omega), if_neg (by omega), if_pos (by omega), readN_append 3 _ r (length_leBytes _ _)]
    simp only [Option.bind_eq_bind, Option.bind_some]
    rw [leNat_cons_leBytes]
    have : (x * 4 + 2) % 256 ^ (3 + 1) / 4 = x := by omega
    rw [this, if_pos (by omega)]
  split at he
  · next h h' h'' h3 =>
    simp only [Option.some.injEq] at he
    subst he
    rw [List.cons_append]
    simp only [compact32]
    have hv : ((3 : Byte)).val = 3 := rfl
    rw [if_neg (by omega), if_neg (by omega), if_neg (by omega), if_pos (by omega),
      readN_append 4 _ r (length_leBytes _ _)]
    simp only [Option.bind_eq_bind, Option.bind_some]
    rw [leNat_leBytes, Nat.mod_eq_of_lt (by omega), if_pos (by omega)]
  · simp at he

theorem compact32_unique {bs : List Byte} {x : Nat} {r : List Byte} (h : compact32.dec bs = some (x, r)) :
    x < 2 ^ 32 ∧ ∃ e, compact32.enc x = some e ∧ bs = e ++ r := by
  cases bs with
  | nil => simp [compact32] at h
  | cons b t =>
    have hb := b.isLt
    simp only [compact32] at h ⊢
    split at h
    · simp only [Option.some.injEq, Prod.mk.injEq] at h
      obtain ⟨h, rfl⟩ := h
      refine ⟨by omega, [byte (x * 4)], by rw [if_pos (by omega)], ?_⟩
      rw [byte_of_val (b := b) (by omega)]; rfl
    split at h
    · obtain ⟨c, r', hl, ht, h2⟩ := bind_readN h
      clear h
      obtain ⟨h, hx⟩ := of_ite h2
      clear h2
      simp only [Prod.mk.injEq] at h hx
      obtain ⟨hx, rfl⟩ := hx
      have h0 : leNat (b :: c) = b.val + 256 * leNat c := rfl
      have hlt := leNat_lt (b :: c)
      rw [List.length_cons, hl] at hlt
      rw [h0] at h hx hlt
      refine ⟨by omega, leBytes 2 (x * 4 + 1), by rw [if_neg (by omega), if_pos (by omega)], ?_⟩
      rw [leBytes_of (c := b :: c) (by simp [hl]) (by rw [h0]; omega), ht]; rfl
    split at h
    · obtain ⟨c, r', hl, ht, h2⟩ := bind_readN h
      clear h
      obtain ⟨h, hx⟩ := of_ite h2
      clear h2
      simp only [Prod.mk.injEq] at h hx
      obtain ⟨hx, rfl⟩ := hx
      have h0 : leNat (b :: c) = b.val + 256 * leNat c := rfl
      have hlt := leNat_lt (b :: c)
      rw [List.length_cons, hl] at hlt
      rw [h0] at h hx hlt
      refine ⟨by omega, leBytes 4 (x * 4 + 2), by rw [if_neg (by omega), if_neg (by omega), if_pos (by omega)], ?_⟩
      rw [leBytes_of (c := b :: c) (by simp [hl]) (by rw [h0]; omega), ht]; rfl
    split at h
    · obtain ⟨c, r', hl, ht, h2⟩ := bind_readN h
      clear h
      obtain ⟨h, hx⟩ := of_ite h2
      clear h2
      simp only [Prod.mk.injEq] at h hx
      obtain ⟨hx, rfl⟩ := hx
      have hlt := leNat_lt c
      rw [hl] at hlt
      rw [hx] at h hlt
      refine ⟨by omega, 3 :: leBytes 4 x,
        by rw [if_neg (by omega), if_neg (by omega), if_neg (by omega), if_pos (by omega)], ?_⟩
      rw [leBytes_of hl hx, ht]
      have : b = 3 := Fin.ext (by show b.val = 3; omega)
      rw [this]; rfl
    · simp at h

section
variable {α β : Type} {c : Codec α} {d : Codec β} {wf : α → Prop} {wf' : β → Prop}

theorem Lawful.pair (hc : Lawful c wf) (hd : Lawful d wf') :
    Lawful (c.pair d) (fun p => wf p.1 ∧ wf' p.2) where
  round {x e} hx he r := by
    simp only [Codec.pair, Option.bind_eq_bind, Option.bind_eq_some_iff, Option.some.injEq] at he
    obtain ⟨a, ha, b, hb, rfl⟩ := he
    simp only [Codec.pair, List.append_assoc]
    rw [hc.round hx.1 ha]
    simp only [Option.bind_eq_bind, Option.bind_some]
    rw [hd.round hx.2 hb]
    rfl
  unique {bs x r} h := by
    simp only [Codec.pair, Option.bind_eq_bind, Option.bind_eq_some_iff, Option.some.injEq] at h
    obtain ⟨⟨a, s⟩, ha, ⟨b, t⟩, hb, h⟩ := h
    simp only [Prod.mk.injEq] at h
    obtain ⟨rfl, rfl⟩ := h
    obtain ⟨wa, e, he, rfl⟩ := hc.unique ha
    simp only at hb
    obtain ⟨wb, e', he', rfl⟩ := hd.unique hb
    refine ⟨⟨wa, wb⟩, e ++ e', ?_, by simp⟩
    simp [Codec.pair, he, he']

theorem Lawful.iso (hc : Lawful c wf) {f : α → β} {g : β → α} (hfg : ∀ b, f (g b) = b) (hgf : ∀ a, g (f a) = a) :
    Lawful (c.iso f g) (fun b => wf (g b)) where
  round {x e} hx he r := by
    simp only [Codec.iso] at he ⊢
    rw [hc.round hx he, Option.map_some, hfg]
  unique {bs x r} h := by
    simp only [Codec.iso, Option.map_eq_some_iff, Prod.mk.injEq] at h ⊢
    obtain ⟨⟨a, s⟩, ha, rfl, rfl⟩ := h
    obtain ⟨wa, e, he, rfl⟩ := hc.unique ha
    refine ⟨by rw [hgf]; exact wa, e, by rw [hgf]; exact he, rfl⟩

theorem Lawful.mono (hc : Lawful c wf) {wf2 : α → Prop} (h : ∀ a, wf2 a ↔ wf a) : Lawful c wf2 where
  round hx he r := hc.round ((h _).1 hx) he r
  unique hb := by
    obtain ⟨h1, h2⟩ := hc.unique hb
    exact ⟨(h _).2 h1, h2⟩

theorem decAll_round (hc : Lawful c wf) {l : List α} {e : List Byte} (hl : ∀ a ∈ l, wf a)
    (he : encAll c l = some e) (r : List Byte) : decAll c l.length (e ++ r) = some (l, r) := by
  induction l generalizing e with
  | nil => simp only [encAll, Option.some.injEq] at he; subst he; rfl
  | cons a l ih =>
    simp only [encAll, Option.bind_eq_bind, Option.bind_eq_some_iff, Option.some.injEq] at he
    obtain ⟨x, hx, y, hy, rfl⟩ := he
    simp only [List.length_cons, decAll, List.append_assoc]
    rw [hc.round (hl a List.mem_cons_self) hx]
    simp only [Option.bind_eq_bind, Option.bind_some]
    rw [ih (fun b hb => hl b (List.mem_cons_of_mem a hb)) hy]
    rfl

theorem decAll_unique (hc : Lawful c wf) {n : Nat} {l : List α} {bs r : List Byte}
    (h : decAll c n bs = some (l, r)) : l.length = n ∧ (∀ a ∈ l, wf a) ∧ ∃ e, encAll c l = some e ∧ bs = e ++ r := by
  induction n generalizing bs l with
  | zero =>
    simp only [decAll, Option.some.injEq, Prod.mk.injEq] at h
    obtain ⟨rfl, rfl⟩ := h
    exact ⟨rfl, by simp, [], rfl, rfl⟩
  | succ n ih =>
    simp only [decAll, Option.bind_eq_bind, Option.bind_eq_some_iff, Option.some.injEq, Prod.mk.injEq] at h
    obtain ⟨⟨a, s⟩, ha, ⟨b, t⟩, hb, rfl, rfl⟩ := h
    obtain ⟨wa, e, he, rfl⟩ := hc.unique ha
    obtain ⟨hl, wl, e', he', rfl⟩ := ih hb
    refine ⟨by simp [hl], ?_, e ++ e', by simp [encAll, he, he'], by simp⟩
    intro x hx
    rcases List.mem_cons.1 hx with rfl | hx
    · exact wa
    · exact wl x hx

theorem Lawful.vec (hc : Lawful c wf) : Lawful c.vec (fun l => ∀ a ∈ l, wf a) where
  round {x e} hx he r := by
    simp only [Codec.vec, Option.bind_eq_bind, Option.bind_eq_some_iff, Option.some.injEq] at he
    obtain ⟨n, hn, y, hy, rfl⟩ := he
    simp only [Codec.vec, List.append_assoc]
    rw [compact32_round hn]
    simp only [Option.bind_eq_bind, Option.bind_some]
    exact decAll_round hc hx hy r
  unique {bs x r} h := by
    simp only [Codec.vec, Option.bind_eq_bind, Option.bind_eq_some_iff] at h
    obtain ⟨⟨n, s⟩, hn, h⟩ := h
    obtain ⟨_, e, he, rfl⟩ := compact32_unique hn
    obtain ⟨hl, wl, e', he', rfl⟩ := decAll_unique hc h
    refine ⟨wl, e ++ e', ?_, by simp⟩
    simp [Codec.vec, hl, he, he']

end

end Kogarashi.Scale
