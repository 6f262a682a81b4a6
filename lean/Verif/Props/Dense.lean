import Verif.R1cs.Dense
import Verif.Nova.Folding
import Mathlib.Data.ZMod.Basic
import Mathlib.Tactic.NormNum.Prime
import Mathlib.Tactic.Ring

/-!
# Property C106: dense vectors
-/

namespace Kogarashi.Props

open Kogarashi Dense

variable {F : Type} [_root_.Field F]

/-- `n` calls of `next`: the entries it returned, and whether it has announced the end. -/
def nextCalls : Nat → Iter F → Option (List F × Bool)
  | 0, _ => some ([], false)
  | n + 1, it => (next it).bind fun
    | none => some ([], true)
    | some (x, it) => (nextCalls n it).map fun r => (x :: r.1, r.2)

/-- **C106, iteration.** Iterating never panics, gives the entries in order, each once, and ends after the last. -/
theorem C106_iter (v : List F) : ∀ n, nextCalls n (iter v) = some (v.take n, decide (v.length < n)) := by
  suffices h : ∀ n i, i ≤ v.length → nextCalls n ⟨v, i⟩ = some ((v.drop i).take n, decide (v.length < i + n)) by
    intro n
    have := h n 0 (Nat.zero_le _)
    rw [List.drop_zero, Nat.zero_add] at this
    exact this
  intro n
  induction n with
  | zero => intro i hi; simp [nextCalls, Nat.not_lt.mpr hi]
  | succ n ih =>
    intro i hi
    unfold nextCalls next
    rcases Nat.lt_or_ge i v.length with h | h
    · simp only [if_pos h, index, List.getElem?_eq_getElem h, Option.map_some, Option.bind_some, ih (i + 1) h]
      rw [List.drop_eq_getElem_cons h, List.take_succ_cons, show i + 1 + n = i + (n + 1) by omega]
    · simp only [if_neg (Nat.not_lt.mpr h), Option.bind_some]
      rw [List.drop_eq_nil_of_le h, List.take_nil, decide_eq_true (by omega)]

/-- **C106, operators.** `+`, `-` and `*` of two vectors panic exactly when the lengths differ; otherwise entry `i` of the result is the
operation on the entries `i`. Multiplying by a field element never panics and multiplies every entry. -/
theorem C106_ops (a b : List F) (r : F) :
    (add a b = none ↔ a.length ≠ b.length) ∧ (sub a b = none ↔ a.length ≠ b.length) ∧ (mul a b = none ↔ a.length ≠ b.length) ∧
    (∀ c, add a b = some c → c.length = a.length ∧ ∀ (i : Nat) x y, a[i]? = some x → b[i]? = some y → c[i]? = some (x + y)) ∧
    (∀ c, sub a b = some c → c.length = a.length ∧ ∀ (i : Nat) x y, a[i]? = some x → b[i]? = some y → c[i]? = some (x - y)) ∧
    (∀ c, mul a b = some c → c.length = a.length ∧ ∀ (i : Nat) x y, a[i]? = some x → b[i]? = some y → c[i]? = some (x * y)) ∧
    ∃ c, scale a r = some c ∧ c.length = a.length ∧ ∀ (i : Nat) x, a[i]? = some x → c[i]? = some (x * r) := by
  have none_iff : ∀ f : F → F → F, zipped f a b = none ↔ a.length ≠ b.length := by
    intro f
    rw [zipped_eq]
    unfold zipVec
    split_ifs with h <;> simp [h]
  have entry : ∀ (f : F → F → F) c, zipped f a b = some c →
      c.length = a.length ∧ ∀ (i : Nat) x y, a[i]? = some x → b[i]? = some y → c[i]? = some (f x y) := by
    intro f c h
    rw [zipped_eq] at h
    unfold zipVec at h
    split_ifs at h with hl
    obtain rfl := Option.some.inj h
    exact ⟨by simp [hl], fun i x y hx hy => by rw [List.getElem?_zipWith, hx, hy]⟩
  exact ⟨none_iff _, none_iff _, none_iff _, entry _, entry _, entry _, _, scale_eq a r, by simp, fun i x hx => by simp [hx]⟩

/-- **C106, laws.** On vectors of one length the operators never panic and form a commutative ring and a vector space over the field. -/
theorem C106_laws {n : Nat} {a b c : List F} (ha : a.length = n) (hb : b.length = n) (hc : c.length = n) (r s : F) :
    add a b = add b a ∧ (add a b).bind (add · c) = (add b c).bind (add a ·) ∧ add a (constant 0 n) = some a ∧
    (add a b).bind (sub · b) = some a ∧ sub a a = some (constant 0 n) ∧
    mul a b = mul b a ∧ (mul a b).bind (mul · c) = (mul b c).bind (mul a ·) ∧ mul a (constant 1 n) = some a ∧
    (add b c).bind (mul a ·) = (mul a b).bind (fun x => (mul a c).bind (add x ·)) ∧
    (scale a r).bind (scale · s) = scale a (r * s) ∧ (add a b).bind (scale · r) = (scale a r).bind (fun x => (scale b r).bind (add x ·)) ∧
    (scale a r).bind (fun x => (scale a s).bind (add x ·)) = scale a (r + s) ∧ scale a 1 = some a ∧ scale a r = mul a (constant r n) := by
  have z : ∀ (f : F → F → F) {x y : List F}, x.length = n → y.length = n → zipped f x y = some (List.zipWith f x y) := by
    intro f x y hx hy
    rw [zipped_eq]
    exact if_pos (hx.trans hy.symm)
  have e : ∀ (f : F → F → F) {x y : List F}, x.length = n → y.length = n → (List.zipWith f x y).length = n := by
    intro f x y hx hy
    simp [hx, hy]
  have m : ∀ (f : F → F) {x : List F}, x.length = n → (x.map f).length = n := by intro f x hx; simp [hx]
  have k : ∀ x : F, (constant x n).length = n := fun x => List.length_replicate
  unfold add sub mul
  simp only [z _ ha hb, z _ hb ha, z _ hb hc, z _ ha hc, z _ ha ha, z _ ha (k _), Option.bind_some, scale_eq, z _ (e _ ha hb) hc,
    z _ ha (e _ hb hc), z _ (e _ ha hb) hb, z _ (e _ ha hb) (e _ ha hc), z _ (m _ ha) (m _ hb), z _ (m _ ha) (m _ ha), Option.some.injEq]
  clear z e m k
  unfold constant
  refine ⟨?_, ?_, ?_, ?_, ?_, ?_, ?_, ?_, ?_, ?_, ?_, ?_, ?_, ?_⟩ <;>
    (apply List.ext_getElem
     · simp [ha, hb, hc]
     · intro i h1 h2
       simp
       try ring)

/-- **C106, access.** Indexing panics exactly outside the vector; assigning through an index changes that entry and nothing else; a pushed
entry is the last one and the others stay. -/
theorem C106_access (v : List F) (i : Nat) (x : F) :
    (index v i = none ↔ v.length ≤ i) ∧ (setIndex v i x = none ↔ v.length ≤ i) ∧
    (∀ w, setIndex v i x = some w → w.length = v.length ∧ index w i = some x ∧ ∀ j, j ≠ i → index w j = index v j) ∧
    (push v x).length = v.length + 1 ∧ index (push v x) v.length = some x ∧ ∀ j < v.length, index (push v x) j = index v j := by
  unfold index setIndex push
  refine ⟨by simp, by simp, fun w h => ?_, by simp, by simp, fun j hj => by simp [List.getElem?_append_left hj]⟩
  split_ifs at h with hi
  obtain rfl := Option.some.inj h
  exact ⟨by simp, by simp [hi], fun j hj => by simp [List.getElem?_set_ne (Ne.symm hj)]⟩

/-- The vector operations in the models of the constraint systems (C31) and of folding (C50) are these. -/
theorem C106_used (f : F → F → F) (a b : List F) (r : F) : zipped f a b = zipVec f a b ∧ scale a r = some (Nova.vecScale a r) :=
  ⟨zipped_eq f a b, scale_eq a r⟩

example : add [1, 2, (3 : ℚ)] [4, 5, 6] = some [5, 7, 9] ∧ mul [1, 2, (3 : ℚ)] [4, 5, 6] = some [4, 10, 18] ∧
    sub [1, 2, (3 : ℚ)] [4, 5] = none := by
  simp only [add, mul, sub, zipped_eq]
  unfold zipVec
  norm_num

end Kogarashi.Props
