import Verif.Props.Folding
import Verif.Props.Orders
import Mathlib.Algebra.BigOperators.Fin
import Mathlib.Algebra.BigOperators.GroupWithZero.Finset
import Mathlib.LinearAlgebra.LinearIndependent.Defs
import Mathlib.GroupTheory.QuotientGroup.Basic
import Mathlib.GroupTheory.Coset.Card
import Mathlib.Algebra.Module.Torsion.Field

/-!
# C111: what a Pedersen commitment binds to

A collision between two vectors of the same length is a linear relation between the points of the key, and conversely. For a fixed pair of
different vectors exactly one key in `|F|` has it. Against this stand the facts that hold for every key: over a group generated by one point
every key of two points has a collision, and vectors of different lengths that differ in final zeros have the same commitment.
-/

namespace Kogarashi.Props

open Nova

section
variable {F G : Type} [_root_.Field F] [AddCommGroup G] [Module F G]

theorem commit_ofFn {n : Nat} (g : Fin n → G) (a : Fin n → F) : commit (List.ofFn g) (List.ofFn a) = ∑ i, a i • g i := by
  have key : ∀ (n : Nat) (g : Fin n → G) (a : Fin n → F) (s : G),
      ((List.ofFn a).zip (List.ofFn g)).foldl (fun sum ve => sum + ve.1 • ve.2) s = s + ∑ i, a i • g i := by
    intro n
    induction n with
    | zero => intro g a s; simp
    | succ n ih =>
      intro g a s
      rw [List.ofFn_succ, List.ofFn_succ, List.zip_cons_cons, List.foldl_cons, ih, Fin.sum_univ_succ, add_assoc]
  unfold commit
  rw [key, zero_add]

/-- A vector that is not longer than the key is committed to with the first points of the key. -/
theorem commit_get {n : Nat} (ck : List G) (hn : n ≤ ck.length) (a : Fin n → F) :
    commit ck (List.ofFn a) = ∑ i, a i • ck[i.1]'(i.2.trans_le hn) := by
  classical
  rw [← (C49_prefix ck (List.ofFn a)).2, ← commit_ofFn]
  congr 1
  apply List.ext_getElem
  · simp [hn]
  · intro i h1 h2
    simp

/-- **C111, collisions are relations.** Two vectors of the same length, no longer than the key, have the same commitment exactly when their
difference is a linear relation between the points of the key. -/
theorem C111_collision_partial {n : Nat} (ck : List G) (hn : n ≤ ck.length) (a a' : Fin n → F) :
    commit ck (List.ofFn a) = commit ck (List.ofFn a') ↔ ∑ i, (a i - a' i) • ck[i.1]'(i.2.trans_le hn) = 0 := by
  rw [commit_get ck hn, commit_get ck hn, ← sub_eq_zero, ← Finset.sum_sub_distrib]
  simp only [sub_smul]

/-- **C111, binding of a key.** Different vectors of a given length have different commitments exactly when the points of the key that are
used are linearly independent. -/
theorem C111_injective_partial {n : Nat} (ck : List G) (hn : n ≤ ck.length) :
    (∀ a a' : List F, a.length = n → a'.length = n → commit ck a = commit ck a' → a = a') ↔
      LinearIndependent F (fun i : Fin n => ck[i.1]'(i.2.trans_le hn)) := by
  rw [Fintype.linearIndependent_iff]
  constructor
  · intro h c hc i
    have e := h (List.ofFn c) (List.ofFn fun _ : Fin n => (0 : F)) (by simp) (by simp)
      ((C111_collision_partial ck hn c _).mpr (by simpa using hc))
    exact congrFun (List.ofFn_injective e) i
  · rintro h a a' h1 h2 e
    subst h1
    have ea : a = List.ofFn fun i : Fin a.length => a[i.1] := by simp
    have eb : a' = List.ofFn fun i : Fin a.length => a'[i.1]'(i.2.trans_eq h2.symm) := by
      apply List.ext_getElem
      · simp [h2]
      · intro i _ _; simp
    have e' := (congrArg (commit ck) ea).symm.trans (e.trans (congrArg (commit ck) eb))
    have hh := h _ ((C111_collision_partial ck hn _ _).mp e')
    exact ea.trans ((congrArg List.ofFn (funext fun i => sub_eq_zero.mp (hh i))).trans eb.symm)

/-- **C111 is false of every key.** In a group generated by one point, as those of the library are, every key with at least two points
commits to two different vectors of two entries with the same point. -/
theorem C111_every_key_refuted (gen : G) (hgen : ∀ x : G, ∃ s : F, x = s • gen) (ck : List G) (hk : 2 ≤ ck.length) :
    ∃ a a' : List F, a ≠ a' ∧ a.length = 2 ∧ a'.length = 2 ∧ commit ck a = commit ck a' := by
  obtain ⟨x, y, l, rfl⟩ : ∃ x y l, ck = x :: y :: l := by
    match ck, hk with
    | x :: y :: l, _ => exact ⟨x, y, l, rfl⟩
  obtain ⟨s, rfl⟩ := hgen x
  obtain ⟨t, rfl⟩ := hgen y
  by_cases hs : s = 0
  · refine ⟨[1, 0], [0, 0], by simp, rfl, rfl, ?_⟩
    simp [commit, hs]
  · refine ⟨[t, 0], [0, s], by simp [Ne.symm hs], rfl, rfl, ?_⟩
    simp [commit, smul_smul, mul_comm]

/-- **C111 is false across lengths.** Zeros at the end of a vector do not change the commitment. -/
theorem C111_padding_refuted (ck : List G) (a : List F) (k : Nat) : commit ck (a ++ List.replicate k 0) = commit ck a := by
  have key : ∀ (k : Nat) (ck : List G) (s : G),
      ((List.replicate k (0 : F)).zip ck).foldl (fun sum ve => sum + ve.1 • ve.2) s = s := by
    intro k
    induction k with
    | zero => intro ck s; rfl
    | succ k ih =>
      intro ck s
      cases ck with
      | nil => rfl
      | cons c ck => rw [List.replicate_succ, List.zip_cons_cons, List.foldl_cons, ih, zero_smul, add_zero]
  have key2 : ∀ (a : List F) (ck : List G) (s : G), ((a ++ List.replicate k (0 : F)).zip ck).foldl (fun (sum : G) (ve : F × G) => sum + ve.1 • ve.2) s =
      (a.zip ck).foldl (fun sum ve => sum + ve.1 • ve.2) s := by
    intro a
    induction a with
    | nil => intro ck s; rw [List.nil_append, key]; rfl
    | cons x a ih =>
      intro ck s
      cases ck with
      | nil => rfl
      | cons c ck => rw [List.cons_append, List.zip_cons_cons, List.zip_cons_cons, List.foldl_cons, List.foldl_cons, ih]
  exact key2 a ck 0

theorem functional_card [Fintype F] [DecidableEq F] {n : Nat} (c : Fin n → F) (hc : c ≠ 0) :
    (Finset.univ.filter fun r : Fin n → F => ∑ i, c i * r i = 0).card * Fintype.card F = Fintype.card F ^ n := by
  let φ : (Fin n → F) →+ F :=
    { toFun := fun r => ∑ i, c i * r i
      map_zero' := by simp
      map_add' := fun r r' => by simp [mul_add, Finset.sum_add_distrib] }
  have hsurj : Function.Surjective φ := by
    obtain ⟨i, hi⟩ := Function.ne_iff.mp hc
    intro y
    refine ⟨Pi.single i ((c i)⁻¹ * y), ?_⟩
    show ∑ j, c j * (Pi.single i ((c i)⁻¹ * y) : Fin n → F) j = y
    rw [Finset.sum_eq_single i]
    · rw [Pi.single_eq_same, ← mul_assoc, mul_inv_cancel₀ hi, one_mul]
    · intro j _ hj; rw [Pi.single_eq_of_ne hj, mul_zero]
    · intro h; exact absurd (Finset.mem_univ i) h
  have h1 := AddSubgroup.card_eq_card_quotient_mul_card_addSubgroup φ.ker
  rw [Nat.card_congr (QuotientAddGroup.quotientKerEquivOfSurjective φ hsurj).toEquiv] at h1
  have h2 : Nat.card φ.ker = (Finset.univ.filter fun r : Fin n → F => ∑ i, c i * r i = 0).card := by
    rw [← Nat.card_eq_finsetCard]
    refine Nat.card_congr (Equiv.subtypeEquivRight fun r => ?_)
    rw [Finset.mem_filter]
    exact ⟨fun k => ⟨Finset.mem_univ r, k⟩, fun k => k.2⟩
  rw [h2, Nat.card_eq_fintype_card, Nat.card_eq_fintype_card] at h1
  rw [mul_comm, ← h1]
  simp

/-- **C111, a fixed pair.** Of the keys made of multiples of one point other than the identity, a fixed pair of different vectors of the
same length collides for exactly one in `|F|`. -/
theorem C111_count_partial [Fintype F] [DecidableEq F] [DecidableEq G] {g : G} (hg : g ≠ 0) {n : Nat} {a a' : Fin n → F} (h : a ≠ a') :
    (Finset.univ.filter fun r : Fin n → F =>
      commit (List.ofFn fun i => r i • g) (List.ofFn a) = commit (List.ofFn fun i => r i • g) (List.ofFn a')).card * Fintype.card F =
      Fintype.card F ^ n := by
  rw [← functional_card (fun i => a i - a' i) (fun e => h (by funext i; exact sub_eq_zero.mp (congrFun e i)))]
  congr 2
  ext r
  simp only [Finset.mem_filter, Finset.mem_univ, true_and]
  rw [commit_ofFn, commit_ofFn, ← sub_eq_zero, ← Finset.sum_sub_distrib]
  simp only [smul_smul, ← sub_smul, ← sub_mul, ← Finset.sum_smul]
  rw [smul_eq_zero]
  exact ⟨fun k => k.resolve_right hg, Or.inl⟩

end

theorem cyclic_collision {p : Nat} [hp : Fact p.Prime] {G : Type} [AddCommGroup G] [Module (ZMod p) G] (hc : Nat.card G = p) {g : G} (hg : g ≠ 0)
    (ck : List G) (hk : 2 ≤ ck.length) :
    ∃ a a' : List (ZMod p), a ≠ a' ∧ a.length = 2 ∧ a'.length = 2 ∧ commit ck a = commit ck a' := by
  refine C111_every_key_refuted g (fun x => ?_) ck hk
  obtain ⟨k, hk⟩ := mem_zmultiples_of_prime_card hc (g := g) (g' := x) hg
  exact ⟨(k : ZMod p), by rw [Int.cast_smul_eq_zsmul]; exact hk.symm⟩

open Kogarashi Spec Tower Curve Kogarashi.Field Limbs in
/-- **C111 is false of every key on the two curves of the cycle.** -/
theorem C111_bn254_refuted :
    (∀ ck : List (curve g1B).Point, 2 ≤ ck.length →
      ∃ a a' : List FrV, a ≠ a' ∧ a.length = 2 ∧ a'.length = 2 ∧ commit ck a = commit ck a') ∧
    (∀ ck : List (curve grumpkinB).Point, 2 ≤ ck.length →
      ∃ a a' : List FqV, a ≠ a' ∧ a.length = 2 ∧ a'.length = 2 ∧ commit ck a = commit ck a') :=
  ⟨cyclic_collision g1_card (g := g1Point) (WeierstrassCurve.Affine.Point.some_ne_zero _),
   cyclic_collision grumpkin_card (g := grumpkinPoint) (WeierstrassCurve.Affine.Point.some_ne_zero _)⟩

/-- Non-vacuity: of the 169 keys of two multiples of 1 in the group of order 13, thirteen confuse (1, 3) with (2, 7). -/
example : (Finset.univ.filter fun r : Fin 2 → ZMod 13 =>
    commit (List.ofFn fun i => r i • (1 : ZMod 13)) (List.ofFn ![(1 : ZMod 13), 3]) =
      commit (List.ofFn fun i => r i • (1 : ZMod 13)) (List.ofFn ![(2 : ZMod 13), 7])).card = 13 := by
  have hne : (1 : ZMod 13) ≠ 2 := by decide
  have : Fact (Nat.Prime 13) := ⟨by norm_num⟩
  have h := C111_count_partial (F := ZMod 13) (G := ZMod 13) (g := 1) one_ne_zero (a := ![1, 3]) (a' := ![2, 7])
    (fun e => absurd (congrFun e 0) hne)
  rw [ZMod.card] at h
  exact Nat.eq_of_mul_eq_mul_right (by norm_num : 0 < 13) (h.trans (by norm_num))

/-- Non-vacuity: a key of one point is injective, a key of two is not. -/
example : commit (G := ZMod 13) [2, 5] [(5 : ZMod 13), 0] = commit [2, 5] [(0 : ZMod 13), 2] := by decide

end Kogarashi.Props
