import Verif.Field.Encode
import Verif.Field.ExtraProof
import Verif.Limbs.B256Lemmas
import Verif.R1cs.WireOrd
import Verif.Spec.Order
import Verif.Tower.Order

/-!
# Property C86: ordering of extension-field elements and of wires

Vocabulary: `Verif/Spec/Order.lean` (`rank2`, `rank6`, `rank12`, `WordsOk2`, ...).
-/

set_option exponentiation.threshold 1600

namespace Kogarashi.Props

open Kogarashi.Limbs Kogarashi.Spec Kogarashi.Field Kogarashi.Tower

/-- The comparison operators compare the integers `rank`. -/
structure ComparesBy {α : Type} (o : CmpOps α) (ok : α → Prop) (rank : α → Nat) : Prop where
  eq : ∀ a b, ok a → ok b → (o.eq a b = true ↔ rank a = rank b)
  lt : ∀ a b, ok a → ok b → (o.lt a b = true ↔ rank a < rank b)
  le : ∀ a b, ok a → ok b → (o.le a b = true ↔ rank a ≤ rank b)
  gt : ∀ a b, ok a → ok b → (o.gt a b = true ↔ rank b < rank a)
  ge : ∀ a b, ok a → ok b → (o.ge a b = true ↔ rank b ≤ rank a)
  cmp : ∀ a b, ok a → ok b → o.cmp a b = compare (rank a) (rank b)
  inj : ∀ a b, ok a → ok b → rank a = rank b → a = b

theorem fqCmp_by : ComparesBy fqCmp L4.Wf L4.val where
  eq a b ha hb := (eq_iff a b).trans ⟨fun h => by rw [h], L4.val_inj ha hb⟩
  lt _ _ ha hb := lt_iff ha hb
  le _ _ ha hb := le_iff ha hb
  gt _ _ ha hb := gt_iff ha hb
  ge _ _ ha hb := ge_iff ha hb
  cmp _ _ ha hb := cmp_eq ha hb
  inj _ _ ha hb h := L4.val_inj ha hb h

/-- Two-digit comparisons. -/
theorem digits_lt {B x y x' y' : Nat} (hx : x < B) (hx' : x' < B) :
    (x + B * y < x' + B * y' ↔ y < y' ∨ y = y' ∧ x < x') ∧ (x + B * y = x' + B * y' ↔ y = y' ∧ x = x') := by
  rcases lt_trichotomy y y' with h | h | h
  · have : B * (y + 1) ≤ B * y' := Nat.mul_le_mul_left _ h
    rw [Nat.mul_add, Nat.mul_one] at this
    constructor <;> constructor <;> intro _ <;> omega
  · subst h
    constructor <;> constructor <;> intro _ <;> omega
  · have : B * (y' + 1) ≤ B * y := Nat.mul_le_mul_left _ h
    rw [Nat.mul_add, Nat.mul_one] at this
    constructor <;> constructor <;> intro _ <;> omega

theorem beValue_lt {B : Nat} {l : List Nat} (h : ∀ x ∈ l, x < B) : beValue B l < B ^ l.length := by
  have := leValue_lt (b := B) (xs := l.reverse) (fun x hx => h x (List.mem_reverse.1 hx))
  rw [← beValue_reverse, List.reverse_reverse, List.length_reverse] at this
  exact this

/-- The loops over pairs, most significant first, compare the integers with those digits. -/
theorem pairs_by {α : Type} {o : CmpOps α} {ok : α → Prop} {rank : α → Nat} (h : ComparesBy o ok rank) {B : Nat}
    (hB : ∀ a, ok a → rank a < B) : ∀ (l : List (α × α)), (∀ p ∈ l, ok p.1 ∧ ok p.2) → ∀ (x y : Nat),
    x = beValue B (l.map fun p => rank p.1) → y = beValue B (l.map fun p => rank p.2) →
    (firstDiff o o.lt false l = true ↔ x < y) ∧ (firstDiff o o.lt true l = true ↔ x ≤ y) ∧
    (firstDiff o o.gt false l = true ↔ y < x) ∧ (firstDiff o o.gt true l = true ↔ y ≤ x) ∧
    cmpPairs o l = compare x y
  | [], _, x, y, hx, hy => by
    have hx' : x = 0 := hx
    have hy' : y = 0 := hy
    subst hx' hy'
    simp [firstDiff, cmpPairs]
  | (a, b) :: rest, hok, x, y, hx, hy => by
    obtain ⟨ha, hb⟩ := hok (a, b) (by simp)
    simp only at ha hb
    have hr : ∀ p ∈ rest, ok p.1 ∧ ok p.2 := fun p hp => hok p (by simp [hp])
    obtain ⟨i1, i2, i3, i4, i5⟩ := pairs_by h hB rest hr _ _ rfl rfl
    rw [List.map_cons, beValue_cons, List.length_map] at hx hy
    have bx := beValue_lt (B := B) (l := rest.map fun p => rank p.1) (by
      intro z hz
      obtain ⟨p, hp, rfl⟩ := List.mem_map.1 hz
      exact hB _ (hr p hp).1)
    have by' := beValue_lt (B := B) (l := rest.map fun p => rank p.2) (by
      intro z hz
      obtain ⟨p, hp, rfl⟩ := List.mem_map.1 hz
      exact hB _ (hr p hp).2)
    rw [List.length_map] at bx by'
    simp only at hx hy
    generalize beValue B (rest.map fun p => rank p.1) = X at *
    generalize beValue B (rest.map fun p => rank p.2) = Y at *
    generalize B ^ rest.length = K at *
    have hx' : x = X + K * rank a := by rw [hx]; ring
    have hy' : y = Y + K * rank b := by rw [hy]; ring
    obtain ⟨d1, d2⟩ := digits_lt (y := rank a) (y' := rank b) bx by'
    obtain ⟨d3, -⟩ := digits_lt (y := rank b) (y' := rank a) by' bx
    rw [← hx', ← hy'] at d1 d2 d3
    have e := h.eq a b ha hb
    have l := h.lt a b ha hb
    have g := h.gt a b ha hb
    have le_iff : x ≤ y ↔ ¬ y < x := not_lt.symm
    have ge_iff : y ≤ x ↔ ¬ x < y := not_lt.symm
    have c : compare x y = if x < y then .lt else if y < x then .gt else .eq := by
      rcases lt_trichotomy x y with h | h | h
      · rw [if_pos h]; exact Nat.compare_eq_lt.2 h
      · subst h; simp
      · rw [if_neg (by omega), if_pos h]; exact Nat.compare_eq_gt.2 h
    have c' : compare X Y = if X < Y then .lt else if Y < X then .gt else .eq := by
      rcases lt_trichotomy X Y with h | h | h
      · rw [if_pos h]; exact Nat.compare_eq_lt.2 h
      · subst h; simp
      · rw [if_neg (by omega), if_pos h]; exact Nat.compare_eq_gt.2 h
    rw [le_iff, ge_iff, c]
    simp only [firstDiff, cmpPairs]
    rw [i5, c']
    by_cases hab : rank a = rank b
    · have e' : o.eq a b = true := e.2 hab
      have l' : o.lt a b = false := by rw [Bool.eq_false_iff]; intro hh; have := l.1 hh; omega
      have g' : o.gt a b = false := by rw [Bool.eq_false_iff]; intro hh; have := g.1 hh; omega
      simp only [e', l', g', Bool.not_true, Bool.false_eq_true, if_false]
      have p1 : x < y ↔ X < Y := by rw [d1]; omega
      have p2 : y < x ↔ Y < X := by rw [d3]; omega
      refine ⟨i1.trans p1.symm, ?_, i3.trans p2.symm, ?_, ?_⟩
      · rw [i2, p2, not_lt]
      · rw [i4, p1, not_lt]
      · simp only [p1, p2]
    · have e' : o.eq a b = false := by rw [Bool.eq_false_iff]; intro hh; exact hab (e.1 hh)
      have p1 : x < y ↔ rank a < rank b := by rw [d1]; omega
      have p2 : y < x ↔ rank b < rank a := by rw [d3]; omega
      simp only [e', Bool.not_false, if_true]
      refine ⟨l.trans p1.symm, ?_, g.trans p2.symm, ?_, ?_⟩
      · rw [l, p2]; omega
      · rw [g, p1]; omega
      · by_cases h1 : x < y
        · rw [if_pos (l.2 (p1.1 h1)), if_pos h1]
        · rw [if_neg (fun hh => h1 (p1.2 (l.1 hh))), if_neg h1]
          by_cases h2 : y < x
          · rw [if_pos (g.2 (p2.1 h2)), if_pos h2]
          · omega

/-- The macro's comparisons, at a type whose elements are given by their coefficients. -/
theorem ext_by {α β : Type} {o : CmpOps α} {ok : α → Prop} {rank : α → Nat} (h : ComparesBy o ok rank) {B : Nat}
    (hB : ∀ a, ok a → rank a < B) (coeffs : β → List α) (n : Nat) (hn : ∀ b, (coeffs b).length = n)
    (hc : Function.Injective coeffs) :
    ComparesBy (extCmp o coeffs) (fun b => ∀ a ∈ coeffs b, ok a)
      (fun b => leValue B ((coeffs b).map rank)) := by
  have hpairs : ∀ a b : β, (∀ x ∈ coeffs a, ok x) → (∀ x ∈ coeffs b, ok x) →
      ∀ p ∈ (coeffs a).reverse.zip (coeffs b).reverse, ok p.1 ∧ ok p.2 := by
    intro a b ha hb p hp
    obtain ⟨h1, h2⟩ := List.of_mem_zip (a := p.1) (b := p.2) hp
    exact ⟨ha _ (List.mem_reverse.1 h1), hb _ (List.mem_reverse.1 h2)⟩
  have hfst : ∀ a b : β, leValue B ((coeffs a).map rank) =
      beValue B (((coeffs a).reverse.zip (coeffs b).reverse).map fun p => rank p.1) := by
    intro a b
    rw [← beValue_reverse, ← List.map_reverse]
    congr 1
    rw [show (fun p : α × α => rank p.1) = rank ∘ Prod.fst from rfl, ← List.map_map, List.map_fst_zip]
    rw [List.length_reverse, List.length_reverse, hn, hn]
  have hsnd : ∀ a b : β, leValue B ((coeffs b).map rank) =
      beValue B (((coeffs a).reverse.zip (coeffs b).reverse).map fun p => rank p.2) := by
    intro a b
    rw [← beValue_reverse, ← List.map_reverse]
    congr 1
    rw [show (fun p : α × α => rank p.2) = rank ∘ Prod.snd from rfl, ← List.map_map, List.map_snd_zip]
    rw [List.length_reverse, List.length_reverse, hn, hn]
  have key := fun a b ha hb => pairs_by h hB _ (hpairs a b ha hb) _ _ (hfst a b) (hsnd a b)
  have hinj : ∀ l l' : List α, l.length = l'.length → (∀ x ∈ l, ok x) → (∀ x ∈ l', ok x) →
      leValue B (l.map rank) = leValue B (l'.map rank) → l = l' := by
    intro l
    induction l with
    | nil => intro l' hl _ _ _; exact (List.length_eq_zero_iff.1 hl.symm).symm
    | cons x xs ih =>
      intro l' hl h1 h2 he
      match l', hl with
      | y :: ys, hl =>
        simp only [List.map_cons, leValue] at he
        obtain ⟨-, d⟩ := digits_lt (y := leValue B (xs.map rank)) (y' := leValue B (ys.map rank))
          (hB x (h1 x (by simp))) (hB y (h2 y (by simp)))
        obtain ⟨d1, d2⟩ := d.1 he
        rw [h.inj x y (h1 x (by simp)) (h2 y (by simp)) d2,
          ih ys (by simpa using hl) (fun z hz => h1 z (by simp [hz])) (fun z hz => h2 z (by simp [hz])) d1]
  have heq : ∀ (l l' : List α) (acc : Bool), l.length = l'.length → (∀ x ∈ l, ok x) → (∀ x ∈ l', ok x) →
      ((l.zip l').foldl (fun acc p => acc && o.eq p.1 p.2) acc = true ↔ acc = true ∧ l = l') := by
    intro l
    induction l with
    | nil => intro l' acc hl _ _; rw [List.length_eq_zero_iff.1 hl.symm]; simp
    | cons x xs ih =>
      intro l' acc hl h1 h2
      match l', hl with
      | y :: ys, hl =>
        rw [List.zip_cons_cons, List.foldl_cons,
          ih ys _ (by simpa using hl) (fun z hz => h1 z (by simp [hz])) (fun z hz => h2 z (by simp [hz])),
          Bool.and_eq_true, h.eq x y (h1 x (by simp)) (h2 y (by simp))]
        have : rank x = rank y ↔ x = y :=
          ⟨h.inj x y (h1 x (by simp)) (h2 y (by simp)), fun hh => by rw [hh]⟩
        rw [this, List.cons.injEq, and_assoc]
  have hlen : ∀ a b, (coeffs a).length = (coeffs b).length := fun a b => by rw [hn, hn]
  refine ⟨?_, fun a b ha hb => (key a b ha hb).1, fun a b ha hb => (key a b ha hb).2.1,
    fun a b ha hb => (key a b ha hb).2.2.1, fun a b ha hb => (key a b ha hb).2.2.2.1,
    fun a b ha hb => (key a b ha hb).2.2.2.2,
    fun a b ha hb he => hc (hinj _ _ (hlen a b) ha hb he)⟩
  intro a b ha hb
  refine (heq _ _ true (hlen a b) ha hb).trans ⟨fun hh => ?_, fun he => ⟨rfl, hinj _ _ (hlen a b) ha hb he⟩⟩
  simp only [hh.2]

theorem ComparesBy.mono {α : Type} {o : CmpOps α} {ok ok' : α → Prop} {rank rank' : α → Nat} (h : ComparesBy o ok rank)
    (hk : ∀ a, ok' a → ok a) (hr : ∀ a, rank a = rank' a) : ComparesBy o ok' rank' := by
  obtain rfl : rank = rank' := funext hr
  exact ⟨fun a b ha hb => h.eq a b (hk a ha) (hk b hb), fun a b ha hb => h.lt a b (hk a ha) (hk b hb),
    fun a b ha hb => h.le a b (hk a ha) (hk b hb), fun a b ha hb => h.gt a b (hk a ha) (hk b hb),
    fun a b ha hb => h.ge a b (hk a ha) (hk b hb), fun a b ha hb => h.cmp a b (hk a ha) (hk b hb),
    fun a b ha hb => h.inj a b (hk a ha) (hk b hb)⟩

theorem rank2_lt (a : Fq2 L4) (h : WordsOk2 a) : rank2 a < 2 ^ 512 := by
  have h0 := h.1.val_lt
  have h1 := h.2.val_lt
  unfold rank2
  omega

theorem rank6_lt (a : Fq6 L4) (h : WordsOk6 a) : rank6 a < 2 ^ 1536 := by
  have h0 := rank2_lt _ h.1
  have h1 := rank2_lt _ h.2.1
  have h2 := rank2_lt _ h.2.2
  unfold rank6
  omega

/-- **C86.** On `Fq2`, `Fq6` and `Fq12` the operators `==`, `<`, `<=`, `>`, `>=` and `cmp` all compare one integer, the
element read with its highest coefficient most significant, and that integer determines the element. So they form one
total order, compatible with equality. -/
theorem C86_extension_order :
    ComparesBy fq2Cmp WordsOk2 rank2 ∧ ComparesBy fq6Cmp WordsOk6 rank6 ∧ ComparesBy fq12Cmp WordsOk12 rank12 := by
  have h2 : ComparesBy fq2Cmp WordsOk2 rank2 := by
    refine (ext_by fqCmp_by (B := 2 ^ 256) (fun a ha => ha.val_lt) (fun a : Fq2 L4 => [a.c0, a.c1]) 2
      (fun _ => rfl) ?_).mono ?_ ?_
    · rintro ⟨a0, a1⟩ ⟨b0, b1⟩ h; simpa using h
    · intro a ha x hx
      simp only [List.mem_cons, List.not_mem_nil, or_false] at hx
      rcases hx with rfl | rfl
      · exact ha.1
      · exact ha.2
    · intro a
      simp only [List.map_cons, List.map_nil, leValue, rank2, mul_zero, add_zero]
  have h6 : ComparesBy fq6Cmp WordsOk6 rank6 := by
    refine (ext_by h2 (B := 2 ^ 512) rank2_lt (fun a : Fq6 L4 => [a.c0, a.c1, a.c2]) 3 (fun _ => rfl) ?_).mono ?_ ?_
    · rintro ⟨a0, a1, a2⟩ ⟨b0, b1, b2⟩ h; simpa using h
    · intro a ha x hx
      simp only [List.mem_cons, List.not_mem_nil, or_false] at hx
      rcases hx with rfl | rfl | rfl
      · exact ha.1
      · exact ha.2.1
      · exact ha.2.2
    · intro a
      simp only [List.map_cons, List.map_nil, leValue, rank6, mul_zero, add_zero]
      rw [Nat.mul_add, ← mul_assoc, ← pow_add, ← add_assoc]
  refine ⟨h2, h6, ?_⟩
  refine (ext_by h6 (B := 2 ^ 1536) rank6_lt (fun a : Fq12 L4 => [a.c0, a.c1]) 2 (fun _ => rfl) ?_).mono ?_ ?_
  · rintro ⟨a0, a1⟩ ⟨b0, b1⟩ h; simpa using h
  · intro a ha x hx
    simp only [List.mem_cons, List.not_mem_nil, or_false] at hx
    rcases hx with rfl | rfl
    · exact ha.1
    · exact ha.2
  · intro a
    simp only [List.map_cons, List.map_nil, leValue, rank12, mul_zero, add_zero]

/-- Two elements of `Fq2` whose order the lowest coefficients alone would reverse. -/
example : WordsOk2 ⟨⟨5, 0, 0, 0⟩, ⟨1, 0, 0, 0⟩⟩ ∧ WordsOk2 ⟨⟨2, 0, 0, 0⟩, ⟨3, 0, 0, 0⟩⟩ ∧
    fq2Cmp.lt ⟨⟨5, 0, 0, 0⟩, ⟨1, 0, 0, 0⟩⟩ ⟨⟨2, 0, 0, 0⟩, ⟨3, 0, 0, 0⟩⟩ = true := by
  refine ⟨⟨by decide, by decide⟩, ⟨by decide, by decide⟩, by decide⟩

/-- **C86, wires, partial.** `cmp` on wires compares their indices. Missing: compatibility with `==`, which is false. -/
theorem C86_wire_order_partial (i j : Nat) (a b : Wire) (ha : a = .inst i ∨ a = .wit i)
    (hb : b = .inst j ∨ b = .wit j) : a.cmp b = compare i j := by
  rcases ha with rfl | rfl <;> rcases hb with rfl | rfl <;> rfl

/-- **C86 is false of the code for wires.** Instance and witness wires with the same index compare as equal although
they are different wires. -/
theorem C86_wire_order_refuted (i : Nat) :
    (Wire.inst i).cmp (.wit i) = .eq ∧ Wire.inst i ≠ .wit i := by
  refine ⟨?_, by simp⟩
  simp [Wire.cmp]

end Kogarashi.Props
