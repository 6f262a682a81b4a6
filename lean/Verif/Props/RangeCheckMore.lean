import Verif.Props.R1cs

/-!
# C33, the remaining cases: short bit vectors and the zero bound, for every circuit
-/

namespace Kogarashi.Props

open Kogarashi Spec Circ

variable {p : Nat} [Fact p.Prime]

/-- **C33, short vectors.** When the bound does not fit the number of wires, `range_check` adds no constraint at all. -/
theorem C33_short (hp : p ≤ 2 ^ 256) (cs : CS (ZMod p)) (bs : List Wire) {c : ZMod p} (h : 2 ^ bs.length ≤ c.val) :
    Circ.rangeCheck bs c cs = some ((), cs) := by
  apply Circ.rangeCheck_short
  by_contra hl
  rw [not_lt] at hl
  have hv : beValue 2 ((bits256 c.val).dropWhile (· = 0)) = c.val := by
    rw [beValue_dropWhile]
    exact bits256_value ((ZMod.val_lt c).trans_le hp)
  have hlt := beValue_two_lt (ds := (bits256 c.val).dropWhile (· = 0))
    (fun d hd => bits256_bit _ d ((List.dropWhile_suffix _).subset hd))
  rw [hv] at hlt
  have := Nat.pow_le_pow_right (n := 2) (by norm_num) hl
  omega

/-- **C33, the zero bound.** With the bound zero `range_check` panics, for every circuit and every vector of wires. -/
theorem C33_zero (cs : CS (ZMod p)) (bs : List Wire) : Circ.rangeCheck bs (0 : ZMod p) cs = none := by
  have hz : (bits256 (0 : ZMod p).val).dropWhile (· = 0) = [] := by
    rw [ZMod.val_zero]; decide +kernel
  unfold Circ.rangeCheck
  simp only [hz, List.length_nil, Nat.not_lt_zero, if_false, Nat.sub_zero, List.take_length, List.drop_length]
  change ((Circ.enforceZeros bs cs).bind fun _ => none) = none
  cases Circ.enforceZeros bs cs <;> rfl

/-- **C33, range_check_bits with no bits** panics. -/
theorem C33_bits_zero (cs : CS (ZMod p)) (bs : List Wire) : Circ.rangeCheckBits bs 0 cs = none := by
  unfold Circ.rangeCheckBits
  rw [pow_zero, sub_self]
  exact C33_zero cs bs

theorem first_none {F α β : Type} {m : Circ F α} {f : α → Circ F β} {c : CS F} (h : m c = none) : (m >>= f) c = none := by
  change (m c).bind _ = none
  rw [h]; rfl

theorem after_none {F α β : Type} {m : Circ F α} {f : α → Circ F β} {c : CS F} (h : ∀ a c', f a c' = none) : (m >>= f) c = none := by
  change ((m c).bind fun r => f r.1 r.2) = none
  cases m c with
  | none => rfl
  | some r => exact h _ _

/-- **C34, when it panics.** For a field of 1 to 256 bits and an allocated element, `to_bits(x, n)` panics exactly when `n` is zero or more
than 256. -/
theorem C34_panics {nb n : Nat} (h0 : 0 < nb) (hnb : nb ≤ 256) (hlo : 2 ^ (nb - 1) < p) (hhi : p ≤ 2 ^ nb) {cs : CS (ZMod p)} (wf : Wf cs)
    {x : Row (ZMod p)} (hx : RowOk cs x) : Circ.toBits nb x n cs = none ↔ n = 0 ∨ 256 < n := by
  constructor
  · intro h
    by_contra hn
    obtain ⟨out, cs', e, -⟩ := C34_to_bits_partial hnb hlo hhi (n := n) (by omega) (by omega) wf hx
    rw [h] at e
    cases e
  · rintro (rfl | h)
    · unfold Circ.toBits
      simp only [Nat.not_lt_zero, if_false, h0, if_true]
      refine after_none fun v c1 => after_none fun all c2 => first_none ?_
      exact C33_bits_zero _ _
    · unfold Circ.toBits
      rw [if_pos h]
      rfl

/-- Two wires and the bound 4; any wires and the bound 0. -/
example (cs : CS (ZMod 13)) (a b : Wire) : Circ.rangeCheck [a, b] (4 : ZMod 13) cs = some ((), cs) ∧ Circ.rangeCheck [a, b] (0 : ZMod 13) cs = none :=
  have : Fact (Nat.Prime 13) := ⟨by norm_num⟩
  ⟨C33_short (by norm_num) cs [a, b] (by rw [show [a, b].length = 2 from rfl]; decide), C33_zero cs [a, b]⟩

/-- A four-bit field: no bits and 300 bits panic, three bits do not. -/
example : Circ.toBits 4 [(Wire.wit 0, 1)] 0 demo = none ∧ Circ.toBits 4 [(Wire.wit 0, 1)] 300 demo = none ∧
    Circ.toBits 4 [(Wire.wit 0, 1)] 3 demo ≠ none := by
  have : Fact (Nat.Prime 13) := ⟨by norm_num⟩
  have hx : RowOk demo [(Wire.wit 0, 1)] := ⟨by simp [DistinctWires], by intro v hv; simp at hv; subst hv; exact (by decide : 0 < 5)⟩
  have h : ∀ n, Circ.toBits 4 [(Wire.wit 0, 1)] n demo = none ↔ n = 0 ∨ 256 < n := fun n =>
    C34_panics (by norm_num) (by norm_num) (by norm_num) (by norm_num) demo_wf hx
  exact ⟨(h 0).mpr (Or.inl rfl), (h 300).mpr (Or.inr (by norm_num)), fun h3 => by have := (h 3).mp h3; omega⟩

end Kogarashi.Props
