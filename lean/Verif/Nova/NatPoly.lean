import Verif.Spec.Digits
import Mathlib.Algebra.BigOperators.Intervals
import Mathlib.Algebra.Order.BigOperators.Group.Finset
import Mathlib.Algebra.BigOperators.Ring.Finset
import Mathlib.Data.List.GetD
import Mathlib.Tactic.Ring
import Mathlib.Tactic.Linarith

/-!
# Natural-number images of the big-integer gadget's vectors

What the loops of `Polynomial::mul` and `group_limbs` compute on the integers their rows stand for.
-/

namespace Kogarashi.Nova

open Spec

/-- `mulInner` on integers. -/
def mulInnerN (a : Nat) : Nat → List Nat → List Nat → List Nat
  | _, [], prod => prod
  | k, b :: bs, prod => mulInnerN a (k + 1) bs (prod.modify k (· + a * b))

/-- `mulOuter` on integers. -/
def mulOuterN (bs : List Nat) : Nat → List Nat → List Nat → List Nat
  | _, [], prod => prod
  | i, a :: as, prod => mulOuterN bs (i + 1) as (mulInnerN a i bs prod)

/-- `groupLoop` on integers. -/
def groupN (g β : Nat) : Nat → List Nat → Nat → List Nat → List Nat
  | _, [], _, acc => acc
  | i, l :: ls, s, acc =>
    groupN g β (i + 1) ls ((if i % g = 0 then 1 else s) * β) (acc.modify (i / g) (· + (if i % g = 0 then 1 else s) * l))

theorem leValue_modify (B : Nat) : ∀ (l : List Nat) (k v : Nat), k < l.length →
    leValue B (l.modify k (· + v)) = leValue B l + B ^ k * v
  | [], _, _, h => by simp at h
  | x :: l, 0, v, _ => by simp [leValue]; ring
  | x :: l, k + 1, v, h => by
    have := leValue_modify B l k v (by simpa using h)
    simp only [List.modify_succ_cons, leValue, this]; ring

theorem getD_modify (l : List Nat) (k v j : Nat) (h : k < l.length) :
    (l.modify k (· + v)).getD j 0 = l.getD j 0 + (if k = j then v else 0) := by
  simp only [List.getD_eq_getElem?_getD, List.getElem?_modify]
  by_cases e : k = j
  · subst e; simp [h]
  · simp [e]

theorem leValue_replicate_zero (B n : Nat) : leValue B (List.replicate n 0) = 0 := by
  induction n with
  | zero => rfl
  | succ n ih => simp [List.replicate_succ, leValue, ih]

theorem getD_replicate_zero (n j : Nat) : (List.replicate n 0).getD j 0 = 0 := by
  simp only [List.getD_eq_getElem?_getD, List.getElem?_replicate]
  split <;> rfl

theorem getD_mul_le (B : Nat) : ∀ (l : List Nat) (j : Nat), l.getD j 0 * B ^ j ≤ leValue B l
  | [], j => by simp
  | x :: l, 0 => by simp [leValue]
  | x :: l, j + 1 => by
    have := getD_mul_le B l j
    simp only [List.getD_cons_succ, leValue, pow_succ]
    nlinarith [Nat.mul_le_mul_left B this]

theorem getD_zero_of_lt {B K : Nat} (hB : 0 < B) {l : List Nat} (h : leValue B l < B ^ K) {j : Nat} (hj : K ≤ j) :
    l.getD j 0 = 0 := by
  by_contra hne
  have h1 := getD_mul_le B l j
  have h2 : B ^ K ≤ B ^ j := Nat.pow_le_pow_right hB hj
  have h3 : 1 * B ^ j ≤ l.getD j 0 * B ^ j := Nat.mul_le_mul_right _ (by omega)
  omega

theorem leValue_take_of_zero {B : Nat} : ∀ {l : List Nat} {n : Nat}, (∀ j, n ≤ j → l.getD j 0 = 0) →
    leValue B (l.take n) = leValue B l
  | [], n, _ => by simp
  | x :: l, 0, h => by
    have h0 : x = 0 := by simpa using h 0 le_rfl
    have := leValue_take_of_zero (B := B) (l := l) (n := 0) (fun j _ => by simpa using h (j + 1) (by omega))
    simp only [List.take_zero, leValue] at this ⊢
    rw [h0, ← this]; simp
  | x :: l, n + 1, h => by
    have := leValue_take_of_zero (B := B) (l := l) (n := n) (fun j hj => by simpa using h (j + 1) (by omega))
    simp only [List.take_succ_cons, leValue, this]

theorem length_mulInnerN (a : Nat) : ∀ (bs : List Nat) (k : Nat) (prod : List Nat),
    (mulInnerN a k bs prod).length = prod.length
  | [], _, _ => rfl
  | b :: bs, k, prod => by rw [mulInnerN, length_mulInnerN a bs]; simp

theorem length_mulOuterN (bs : List Nat) : ∀ (as : List Nat) (i : Nat) (prod : List Nat),
    (mulOuterN bs i as prod).length = prod.length
  | [], _, _ => rfl
  | a :: as, i, prod => by rw [mulOuterN, length_mulOuterN bs as, length_mulInnerN]

theorem length_groupN (g β : Nat) : ∀ (ls : List Nat) (i s : Nat) (acc : List Nat),
    (groupN g β i ls s acc).length = acc.length
  | [], _, _, _ => rfl
  | l :: ls, i, s, acc => by rw [groupN, length_groupN g β ls]; simp

theorem leValue_mulInnerN (B a : Nat) : ∀ (bs : List Nat) (k : Nat) (prod : List Nat), k + bs.length ≤ prod.length →
    leValue B (mulInnerN a k bs prod) = leValue B prod + B ^ k * (a * leValue B bs)
  | [], k, prod, _ => by simp [mulInnerN, leValue]
  | b :: bs, k, prod, h => by
    simp only [List.length_cons] at h
    rw [mulInnerN, leValue_mulInnerN B a bs (k + 1) _ (by simp; omega), leValue_modify B _ _ _ (by omega), leValue]
    ring

theorem leValue_mulOuterN (B : Nat) (bs : List Nat) : ∀ (as : List Nat) (i : Nat) (prod : List Nat),
    i + as.length + bs.length ≤ prod.length + 1 →
    leValue B (mulOuterN bs i as prod) = leValue B prod + B ^ i * (leValue B as * leValue B bs)
  | [], i, prod, _ => by simp [mulOuterN, leValue]
  | a :: as, i, prod, h => by
    simp only [List.length_cons] at h
    rw [mulOuterN, leValue_mulOuterN B bs as (i + 1) _ (by rw [length_mulInnerN]; omega),
      leValue_mulInnerN B a bs i prod (by omega), leValue]
    ring

theorem getD_mulInnerN_le (a N j : Nat) : ∀ (bs : List Nat), (∀ b ∈ bs, b ≤ N) → ∀ (k : Nat) (prod : List Nat),
    k + bs.length ≤ prod.length →
    (mulInnerN a k bs prod).getD j 0 ≤ prod.getD j 0 + (if k ≤ j ∧ j < k + bs.length then a * N else 0)
  | [], _, k, prod, _ => by simp [mulInnerN]
  | b :: bs, hb, k, prod, h => by
    simp only [List.length_cons] at h ⊢
    have := getD_mulInnerN_le a N j bs (fun b h => hb b (by simp [h])) (k + 1) (prod.modify k (· + a * b)) (by simp; omega)
    rw [mulInnerN]
    refine this.trans ?_
    rw [getD_modify _ _ _ _ (by omega)]
    have hab : a * b ≤ a * N := Nat.mul_le_mul_left a (hb b (by simp))
    split_ifs <;> omega

theorem getD_mulOuterN_le (M N j : Nat) (bs : List Nat) (hb : ∀ b ∈ bs, b ≤ N) : ∀ (as : List Nat), (∀ a ∈ as, a ≤ M) →
    ∀ (i : Nat) (prod : List Nat), i + as.length + bs.length ≤ prod.length + 1 →
    (mulOuterN bs i as prod).getD j 0 ≤
      prod.getD j 0 + ((Finset.Ico i (i + as.length)).filter (fun t => t ≤ j ∧ j < t + bs.length)).card * (M * N)
  | [], _, i, prod, _ => by simp [mulOuterN]
  | a :: as, ha, i, prod, h => by
    simp only [List.length_cons] at h ⊢
    have h1 := getD_mulOuterN_le M N j bs hb as (fun a h => ha a (by simp [h])) (i + 1) (mulInnerN a i bs prod)
      (by rw [length_mulInnerN]; omega)
    have h2 := getD_mulInnerN_le a N j bs hb i prod (by omega)
    rw [mulOuterN]
    have hab : a * N ≤ M * N := Nat.mul_le_mul_right N (ha a (by simp))
    have hI : Finset.Ico i (i + (as.length + 1)) = insert i (Finset.Ico (i + 1) (i + 1 + as.length)) := by
      ext t; simp only [Finset.mem_Ico, Finset.mem_insert]; omega
    rw [hI, Finset.filter_insert]
    split_ifs at h2 ⊢ with hc
    · rw [Finset.card_insert_of_notMem (by simp), add_mul]
      omega
    · omega

theorem mulOuterN_entry_le {M N : Nat} {as bs : List Nat} (ha : ∀ a ∈ as, a ≤ M) (hb : ∀ b ∈ bs, b ≤ N) {n : Nat}
    (hn : as.length + bs.length ≤ n + 1) (j : Nat) :
    (mulOuterN bs 0 as (List.replicate n 0)).getD j 0 ≤ min as.length bs.length * (M * N) := by
  have h := getD_mulOuterN_le M N j bs hb as ha 0 (List.replicate n 0) (by simp; omega)
  rw [getD_replicate_zero, zero_add] at h
  refine h.trans (Nat.mul_le_mul_right _ (le_min ?_ ?_))
  · refine (Finset.card_filter_le _ _).trans ?_
    simp
  · have hsub : (Finset.Ico 0 (0 + as.length)).filter (fun t => t ≤ j ∧ j < t + bs.length) ⊆
        Finset.Ico (j + 1 - bs.length) (j + 1) := by
      intro t ht
      simp only [Finset.mem_filter, Finset.mem_Ico] at ht ⊢
      omega
    refine (Finset.card_le_card hsub).trans ?_
    rw [Nat.card_Ico]
    omega

theorem leValue_groupN {g β : Nat} (hg : 0 < g) : ∀ (ls : List Nat) (i s : Nat) (acc : List Nat),
    (i % g ≠ 0 → s = β ^ (i % g)) → (∀ t < ls.length, (i + t) / g < acc.length) →
    leValue (β ^ g) (groupN g β i ls s acc) = leValue (β ^ g) acc + β ^ i * leValue β ls
  | [], i, s, acc, _, _ => by simp [groupN, leValue]
  | l :: ls, i, s, acc, hs, hl => by
    have hs' : (if i % g = 0 then 1 else s) = β ^ (i % g) := by
      split_ifs with h
      · rw [h, pow_zero]
      · exact hs h
    rw [groupN, hs', leValue_groupN hg ls (i + 1) _ _ ?_ ?_, leValue_modify _ _ _ _ (by simpa using hl 0 (by simp)), leValue]
    · have : (β ^ g) ^ (i / g) * β ^ (i % g) = β ^ i := by
        rw [← pow_mul, ← pow_add, Nat.div_add_mod]
      rw [← mul_assoc, this]; ring
    · intro h
      rw [← pow_succ]
      congr 1
      have h1 := Nat.mod_lt i hg
      rcases Nat.lt_or_ge (i % g + 1) g with h2 | h2
      · rw [Nat.add_mod, Nat.mod_eq_of_lt (show 1 < g by omega), Nat.mod_eq_of_lt h2]
      · exfalso; apply h
        have h3 : i % g + 1 = g := by omega
        rw [Nat.add_mod]
        rcases Nat.lt_or_ge 1 g with h4 | h4
        · rw [Nat.mod_eq_of_lt h4, h3, Nat.mod_self]
        · have : g = 1 := by omega
          subst this; simp [Nat.mod_one]
    · intro t ht
      have := hl (t + 1) (by simpa using ht)
      rw [List.length_modify]
      rwa [show i + 1 + t = i + (t + 1) by ring]

theorem getD_groupN_le {g β M : Nat} (hg : 0 < g) (k : Nat) : ∀ (ls : List Nat), (∀ l ∈ ls, l ≤ M) →
    ∀ (i s : Nat) (acc : List Nat),
    (i % g ≠ 0 → s = β ^ (i % g)) → (∀ t < ls.length, (i + t) / g < acc.length) →
    (groupN g β i ls s acc).getD k 0 ≤ acc.getD k 0 +
      ∑ t ∈ (Finset.Ico i (i + ls.length)).filter (fun t => t / g = k), β ^ (t % g) * M
  | [], _, i, s, acc, _, _ => by simp [groupN]
  | l :: ls, hM, i, s, acc, hs, hl => by
    have hs' : (if i % g = 0 then 1 else s) = β ^ (i % g) := by
      split_ifs with h
      · rw [h, pow_zero]
      · exact hs h
    have hlt : i / g < acc.length := by simpa using hl 0 (by simp)
    have h1 := getD_groupN_le (β := β) hg k ls (fun l h => hM l (by simp [h])) (i + 1) (β ^ (i % g) * β)
      (acc.modify (i / g) (· + β ^ (i % g) * l)) ?_ ?_
    · rw [groupN, hs']
      refine h1.trans ?_
      rw [getD_modify _ _ _ _ hlt, List.length_cons]
      have hI : Finset.Ico i (i + (ls.length + 1)) = insert i (Finset.Ico (i + 1) (i + 1 + ls.length)) := by
        ext t; simp only [Finset.mem_Ico, Finset.mem_insert]; omega
      rw [hI, Finset.filter_insert]
      have hle : β ^ (i % g) * l ≤ β ^ (i % g) * M := Nat.mul_le_mul_left _ (hM l (by simp))
      split_ifs with hc
      · rw [Finset.sum_insert (by simp)]
        omega
      · omega
    · intro h
      rw [← pow_succ]
      congr 1
      have h1 := Nat.mod_lt i hg
      rcases Nat.lt_or_ge (i % g + 1) g with h2 | h2
      · rw [Nat.add_mod, Nat.mod_eq_of_lt (show 1 < g by omega), Nat.mod_eq_of_lt h2]
      · exfalso; apply h
        have h3 : i % g + 1 = g := by omega
        rw [Nat.add_mod]
        rcases Nat.lt_or_ge 1 g with h4 | h4
        · rw [Nat.mod_eq_of_lt h4, h3, Nat.mod_self]
        · have : g = 1 := by omega
          subst this; simp [Nat.mod_one]
    · intro t ht
      have := hl (t + 1) (by simpa using ht)
      rw [List.length_modify]
      rwa [show i + 1 + t = i + (t + 1) by ring]

/-- `group_limbs` on integers. -/
def groupAll (g β : Nat) (ls : List Nat) : List Nat :=
  groupN g β 0 ls 1 (List.replicate ((ls.length - 1) / g + 1) 0)

theorem groupAll_idx {g : Nat} (ls : List Nat) : ∀ t < ls.length,
    (0 + t) / g < (List.replicate ((ls.length - 1) / g + 1) 0).length := by
  intro t ht
  rw [List.length_replicate, zero_add]
  exact Nat.lt_succ_of_le (Nat.div_le_div_right (by omega))

theorem leValue_groupAll {g β : Nat} (hg : 0 < g) (ls : List Nat) : leValue (β ^ g) (groupAll g β ls) = leValue β ls := by
  unfold groupAll
  rw [leValue_groupN hg ls 0 1 _ (by simp) (groupAll_idx ls), leValue_replicate_zero]; simp

theorem length_groupAll (g β : Nat) (ls : List Nat) : (groupAll g β ls).length = (ls.length - 1) / g + 1 := by
  unfold groupAll; rw [length_groupN]; simp

theorem groupAll_entry_le {g β M : Nat} (hg : 0 < g) {ls : List Nat} (h : ∀ l ∈ ls, l ≤ M) (k : Nat) :
    (groupAll g β ls).getD k 0 ≤ (∑ t ∈ Finset.range g, β ^ t) * M := by
  unfold groupAll
  refine (getD_groupN_le (β := β) hg k ls h 0 1 _ (by simp) (groupAll_idx ls)).trans ?_
  rw [getD_replicate_zero, zero_add, Finset.sum_mul]
  have hsub : (Finset.Ico 0 (0 + ls.length)).filter (fun t => t / g = k) ⊆ (Finset.range g).image (fun t => k * g + t) := by
    intro t ht
    simp only [Finset.mem_filter, Finset.mem_Ico, Finset.mem_image, Finset.mem_range] at ht ⊢
    refine ⟨t % g, Nat.mod_lt _ hg, ?_⟩
    rw [← ht.2, mul_comm]
    exact Nat.div_add_mod t g
  refine (Finset.sum_le_sum_of_subset hsub).trans ?_
  rw [Finset.sum_image (by intro a _ b _ hab; simpa using hab)]
  refine le_of_eq (Finset.sum_congr rfl fun t ht => ?_)
  rw [Nat.mul_add_mod', Nat.mod_eq_of_lt (Finset.mem_range.mp ht)]

/-- `Polynomial::add` on integers. -/
def polyAddN (as bs : List Nat) : List Nat :=
  (List.range (max as.length bs.length)).map (fun i => as.getD i 0 + bs.getD i 0)

theorem leValue_eq_sum (B : Nat) : ∀ (l : List Nat) (n : Nat), l.length ≤ n →
    leValue B l = ∑ i ∈ Finset.range n, l.getD i 0 * B ^ i
  | [], n, _ => by simp [leValue]
  | x :: l, 0, h => by simp at h
  | x :: l, n + 1, h => by
    rw [Finset.sum_range_succ', leValue, leValue_eq_sum B l n (by simpa using h), Finset.mul_sum]
    simp only [List.getD_cons_succ, List.getD_cons_zero, pow_zero, mul_one]
    rw [add_comm]
    congr 1
    refine Finset.sum_congr rfl fun i _ => ?_
    ring

theorem getD_polyAddN (as bs : List Nat) (j : Nat) : (polyAddN as bs).getD j 0 = as.getD j 0 + bs.getD j 0 := by
  unfold polyAddN
  rw [List.getD_eq_getElem?_getD, List.getElem?_map]
  by_cases h : j < max as.length bs.length
  · rw [List.getElem?_range h]; rfl
  · rw [List.getElem?_eq_none (by simpa using h), List.getD_eq_default _ _ (by omega), List.getD_eq_default _ _ (by omega)]
    rfl

theorem length_polyAddN (as bs : List Nat) : (polyAddN as bs).length = max as.length bs.length := by
  simp [polyAddN]

theorem leValue_polyAddN (B : Nat) (as bs : List Nat) : leValue B (polyAddN as bs) = leValue B as + leValue B bs := by
  rw [leValue_eq_sum B _ _ (le_of_eq (length_polyAddN as bs)), leValue_eq_sum B as _ (le_max_left _ bs.length),
    leValue_eq_sum B bs _ (le_max_right as.length _), ← Finset.sum_add_distrib]
  exact Finset.sum_congr rfl fun i _ => by rw [getD_polyAddN, add_mul]

theorem mem_le_of_getD {l : List Nat} {M : Nat} (h : ∀ j, l.getD j 0 ≤ M) : ∀ x ∈ l, x ≤ M := by
  intro x hx
  obtain ⟨i, hi, rfl⟩ := List.getElem_of_mem hx
  have := h i
  rwa [List.getD_eq_getElem _ _ hi] at this

theorem getD_le_of_mem {l : List Nat} {M : Nat} (h : ∀ x ∈ l, x ≤ M) (j : Nat) : l.getD j 0 ≤ M := by
  by_cases hj : j < l.length
  · rw [List.getD_eq_getElem _ _ hj]; exact h _ (List.getElem_mem hj)
  · rw [List.getD_eq_default _ _ (by omega)]; exact Nat.zero_le _

theorem leValue_lt {B : Nat} : ∀ {l : List Nat}, (∀ x ∈ l, x < B) → leValue B l < B ^ l.length
  | [], _ => by simp [leValue]
  | x :: l, h => by
    have h1 := leValue_lt (l := l) (fun x hx => h x (by simp [hx]))
    have h2 := h x (by simp)
    have : B * leValue B l + B ≤ B * B ^ l.length := by nlinarith
    simp only [leValue, List.length_cons, pow_succ]
    nlinarith

end Kogarashi.Nova
