import Verif.R1cs.Run
import Verif.Field.Digits
import Mathlib.Data.ZMod.Basic

/-! # Range checks and bit decomposition -/

namespace Kogarashi

open Spec

section digits

theorem beValue_cons (b d : Nat) (ds : List Nat) :
    beValue b (d :: ds) = d * b ^ ds.length + beValue b ds := by
  have := Field.beValue_foldl b ds d
  unfold beValue
  rw [List.foldl_cons, mul_zero, zero_add, this]
  rfl

theorem beValue_nil (b : Nat) : beValue b [] = 0 := rfl

theorem beValue_append (b : Nat) (xs ys : List Nat) :
    beValue b (xs ++ ys) = beValue b xs * b ^ ys.length + beValue b ys := by
  induction xs with
  | nil => simp [beValue_nil]
  | cons x xs ih => simp only [List.cons_append, beValue_cons, ih, List.length_append, pow_add]; ring

theorem beValue_two_lt {ds : List Nat} (h : ∀ d ∈ ds, d = 0 ∨ d = 1) : beValue 2 ds < 2 ^ ds.length := by
  induction ds with
  | nil => simp [beValue_nil]
  | cons d ds ih =>
    have := ih (fun d hd => h d (by simp [hd]))
    rw [beValue_cons, List.length_cons, pow_succ]
    rcases h d (by simp) with rfl | rfl <;> omega

theorem beValue_zero {ds : List Nat} (h : ∀ d ∈ ds, d = 0) : beValue 2 ds = 0 := by
  induction ds with
  | nil => rfl
  | cons d ds ih => rw [beValue_cons, ih (fun d hd => h d (by simp [hd])), h d (by simp)]; simp

theorem beValue_dropWhile (ds : List Nat) : beValue 2 (ds.dropWhile (· = 0)) = beValue 2 ds := by
  induction ds with
  | nil => rfl
  | cons d ds ih =>
    by_cases h : d = 0
    · rw [List.dropWhile_cons_of_pos (by simp [h]), ih, beValue_cons, h]; simp
    · rw [List.dropWhile_cons_of_neg (by simp [h])]

theorem bits_value (k n : Nat) : beValue 2 ((List.range k).map (fun i => n / 2 ^ (k - 1 - i) % 2)) = n % 2 ^ k := by
  induction k with
  | zero => simp [beValue_nil, Nat.mod_one]
  | succ k ih =>
    rw [List.range_succ_eq_map, List.map_cons, List.map_map, beValue_cons]
    have : (List.range k).map ((fun i => n / 2 ^ (k + 1 - 1 - i) % 2) ∘ Nat.succ)
        = (List.range k).map (fun i => n / 2 ^ (k - 1 - i) % 2) := by
      apply List.map_congr_left
      intro i hi
      simp only [Function.comp]
      congr 3
      have := List.mem_range.mp hi
      omega
    rw [this, ih, List.length_map, List.length_range, Nat.mod_pow_succ]
    simp; ring

theorem bits256_length (n : Nat) : (bits256 n).length = 256 := by simp [bits256]

theorem bits256_bit (n : Nat) : ∀ d ∈ bits256 n, d = 0 ∨ d = 1 := by
  intro d hd
  obtain ⟨i, _, rfl⟩ := List.mem_map.mp hd
  omega

theorem drop_bits256 (n m : Nat) (h : m ≤ 256) : (bits256 n).drop (256 - m) =
    (List.range m).map (fun i => n / 2 ^ (m - 1 - i) % 2) := by
  unfold bits256
  apply List.ext_getElem
  · simp; omega
  · intro i h1 h2
    simp at h1 h2
    simp only [List.getElem_drop, List.getElem_map, List.getElem_range]
    congr 3
    omega

theorem bits256_drop_value (n m : Nat) (h : m ≤ 256) :
    beValue 2 ((bits256 n).drop (256 - m)) = n % 2 ^ m := by
  rw [drop_bits256 n m h, bits_value]

theorem bits256_value {n : Nat} (h : n < 2 ^ 256) : beValue 2 (bits256 n) = n := by
  have := bits256_drop_value n 256 le_rfl
  rw [Nat.mod_eq_of_lt h] at this
  exact this

/-- the significant digits of a positive number -/
theorem significant {n : Nat} (h : n < 2 ^ 256) (h0 : n ≠ 0) :
    ∃ cs, (bits256 n).dropWhile (· = 0) = 1 :: cs ∧ (∀ d ∈ cs, d = 0 ∨ d = 1) ∧
      beValue 2 (1 :: cs) = n := by
  have hv := beValue_dropWhile (bits256 n)
  rw [bits256_value h] at hv
  have hb : ∀ d ∈ (bits256 n).dropWhile (· = 0), d = 0 ∨ d = 1 :=
    fun d hd => bits256_bit n d ((List.dropWhile_sublist _).subset hd)
  cases hc : (bits256 n).dropWhile (· = 0) with
  | nil => rw [hc] at hv; exact absurd hv.symm h0
  | cons d cs =>
    have hd : d ≠ 0 := by
      have := List.head_dropWhile_not (fun x : Nat => decide (x = 0)) (l := bits256 n) (by simp [hc])
      simp only [hc, List.head_cons] at this
      exact of_decide_eq_false this
    rw [hc] at hb hv
    have : d = 1 := (hb d (by simp)).resolve_left hd
    subst this
    exact ⟨cs, rfl, fun x hx => hb x (by simp [hx]), hv⟩

theorem rposition_ge {l : List Nat} {i : Nat} (hi : i < l.length) (h : l[i]? ≠ some 1) :
    ∃ t, rpositionNe1 l = some t ∧ i ≤ t := by
  unfold rpositionNe1
  have : ∀ n, i < n → ∃ t, (List.range n).reverse.find? (fun i => l[i]? ≠ some 1) = some t ∧ i ≤ t := by
    intro n
    induction n with
    | zero => intro h; omega
    | succ n ih =>
      intro hn
      rw [List.range_succ, List.reverse_append, List.reverse_singleton, List.singleton_append]
      by_cases hp : l[n]? = some 1
      · have : i ≠ n := fun hc => h (hc ▸ hp)
        rw [List.find?_cons_of_neg (by simp [hp])]
        exact ih (by omega)
      · rw [List.find?_cons_of_pos (by simpa using hp)]
        exact ⟨n, rfl, by omega⟩
  exact this _ hi

end digits

namespace Circ

variable {p : Nat} [hp : Fact p.Prime]

/-! ## the comparison, abstractly -/

/-- The constraints of the last loop as a recursion over (bit value, bound digit) pairs; `P` is the
product of the bits seen so far where the bound has a one. -/
def constrL {F : Type} [Field F] : F → List (F × Nat) → Prop
  | _, [] => True
  | P, (a, c) :: r => (if c = 1 then (a - 1) * a = 0 else (1 - a - P) * a = 0) ∧
      constrL (if c = 1 then P * a else P) r

section abstract
variable {F : Type} [Field F]

theorem bool_iff (a : F) : (a - 1) * a = 0 ↔ a = 0 ∨ a = 1 := by
  rw [mul_eq_zero, sub_eq_zero]; tauto

theorem constrL_zero (l : List (F × Nat)) (hc : ∀ e ∈ l, e.2 = 0 ∨ e.2 = 1) :
    constrL 0 l ↔ ∀ e ∈ l, e.1 = 0 ∨ e.1 = 1 := by
  induction l with
  | nil => simp [constrL]
  | cons e l ih =>
    obtain ⟨a, c⟩ := e
    have ih := ih (fun e he => hc e (by simp [he]))
    have hP : (if c = 1 then (0 : F) * a else 0) = 0 := by simp
    unfold constrL
    rw [hP, ih]
    have h0 : (1 - a - 0) * a = 0 ↔ a = 0 ∨ a = 1 := by
      rw [← bool_iff]; constructor <;> intro h <;> linear_combination -h
    rcases hc (a, c) (by simp) with h | h <;> simp only at h <;> subst h <;>
      simp only [zero_ne_one, if_false, if_true, h0, bool_iff, List.forall_mem_cons]

theorem constrL_one (l : List (F × Nat)) (hc : ∀ e ∈ l, e.2 = 0 ∨ e.2 = 1) :
    constrL 1 l ↔ ∃ ds : List Nat, (∀ d ∈ ds, d = 0 ∨ d = 1) ∧ l.map Prod.fst = ds.map (fun d : Nat => (d : F)) ∧
      beValue 2 ds ≤ beValue 2 (l.map Prod.snd) := by
  induction l with
  | nil => exact ⟨fun _ => ⟨[], by simp, rfl, le_rfl⟩, fun _ => trivial⟩
  | cons e l ih =>
    obtain ⟨a, c⟩ := e
    have hcl := fun e he => hc e (List.mem_cons_of_mem _ he)
    have ih := ih hcl
    have hbl : ∀ d ∈ l.map Prod.snd, d = 0 ∨ d = 1 := by
      intro d hd; obtain ⟨e, he, rfl⟩ := List.mem_map.mp hd; exact hcl e he
    have hzero := constrL_zero l hcl
    -- bit lists for arbitrary booleans
    have hbits : (∀ e ∈ l, e.1 = 0 ∨ e.1 = 1) ↔ ∃ ds : List Nat, (∀ d ∈ ds, d = 0 ∨ d = 1) ∧
        l.map Prod.fst = ds.map (fun d : Nat => (d : F)) := by
      constructor
      · intro h
        clear * - h
        induction l with
        | nil => exact ⟨[], by simp⟩
        | cons e l ih =>
          obtain ⟨ds, h1, h2⟩ := ih (fun e he => h e (by simp [he]))
          rcases h e (by simp) with h0 | h0
          · exact ⟨0 :: ds, by simpa using h1, by simp [h2, h0]⟩
          · exact ⟨1 :: ds, by simpa using h1, by simp [h2, h0]⟩
      · rintro ⟨ds, h1, h2⟩ e he
        have : e.1 ∈ ds.map (fun d : Nat => (d : F)) := h2 ▸ List.mem_map_of_mem he
        obtain ⟨d, hd, hde⟩ := List.mem_map.mp this
        rcases h1 d hd with rfl | rfl <;> simp [← hde]
    unfold constrL
    rcases hc (a, c) (by simp) with h | h <;> simp only at h <;> subst h
    · -- bound digit 0: the bit must be 0
      have h0 : (1 - a - 1) * a = 0 ↔ a = 0 := by
        constructor
        · intro h
          have : a * a = 0 := by linear_combination -h
          exact mul_self_eq_zero.mp this
        · rintro rfl; ring
      simp only [zero_ne_one, if_false, h0, ih]
      constructor
      · rintro ⟨rfl, ds, h1, h2, h3⟩
        refine ⟨0 :: ds, by simpa using h1, by simp [h2], ?_⟩
        simp only [List.map_cons, beValue_cons]
        omega
      · rintro ⟨ds, h1, h2, h3⟩
        cases ds with
        | nil => simp at h2
        | cons d ds =>
          simp only [List.map_cons, List.cons.injEq] at h2
          have hlen : ds.length = (l.map Prod.snd).length := by
            have := congrArg List.length h2.2; simpa using this.symm
          simp only [List.map_cons, beValue_cons] at h3
          have hlt := beValue_two_lt hbl
          rcases h1 d (by simp) with rfl | rfl
          · refine ⟨by simpa using h2.1, ds, fun d hd => h1 d (by simp [hd]), h2.2, by omega⟩
          · rw [hlen] at h3; omega
    · -- bound digit 1
      simp only [if_true, one_mul, bool_iff]
      constructor
      · rintro ⟨rfl | rfl, h⟩
        · obtain ⟨ds, h1, h2⟩ := hbits.mp (hzero.mp h)
          refine ⟨0 :: ds, by simpa using h1, by simp [h2], ?_⟩
          have hlen : ds.length = (l.map Prod.snd).length := by
            have := congrArg List.length h2; simpa using this.symm
          simp only [List.map_cons, beValue_cons]
          have := beValue_two_lt h1
          rw [hlen] at this
          omega
        · obtain ⟨ds, h1, h2, h3⟩ := ih.mp h
          have hlen : ds.length = (l.map Prod.snd).length := by
            have := congrArg List.length h2; simpa using this.symm
          refine ⟨1 :: ds, by simpa using h1, by simp [h2], ?_⟩
          simp only [List.map_cons, beValue_cons, hlen]
          omega
      · rintro ⟨ds, h1, h2, h3⟩
        cases ds with
        | nil => simp at h2
        | cons d ds =>
          simp only [List.map_cons, List.cons.injEq] at h2
          have hlen : ds.length = (l.map Prod.snd).length := by
            have := congrArg List.length h2.2; simpa using this.symm
          have h1' : ∀ d ∈ ds, d = 0 ∨ d = 1 := fun d hd => h1 d (by simp [hd])
          simp only [List.map_cons, beValue_cons, hlen] at h3
          rcases h1 d (by simp) with rfl | rfl
          · have : a = 0 := by simpa using h2.1
            subst this
            exact ⟨Or.inl rfl, hzero.mpr (hbits.mpr ⟨ds, h1', h2.2⟩)⟩
          · have : a = 1 := by simpa using h2.1
            subst this
            exact ⟨Or.inr rfl, ih.mpr ⟨ds, h1', h2.2, by omega⟩⟩

end abstract

/-! ## the loops -/

theorem enforceZeros_run {bs : List Bin} : ∀ {cs : CS (ZMod p)} (_ : Wf cs)
    (_ : ∀ b ∈ bs, Allocated cs b),
    ∃ cs', enforceZeros bs cs = some ((), cs') ∧
      Run cs cs' (fun z => ∀ b ∈ bs, z b = 0) (∀ b ∈ bs, stored cs b = 0) := by
  induction bs with
  | nil => intro cs wf _; exact ⟨cs, rfl, (Run.refl wf).weaken (fun _ _ _ => by simp) (fun _ => trivial)⟩
  | cons b bs ih =>
    intro cs wf hb
    obtain ⟨c1, e1, r1⟩ := enforceEqConstant_run wf (ofBin_ok (hb b (by simp))) (0 : ZMod p)
    have hb' : ∀ b' ∈ bs, Allocated c1 b' := fun b' h' => r1.ext.alloc (hb b' (by simp [h']))
    obtain ⟨c2, e2, r2⟩ := ih r1.wf hb'
    refine ⟨c2, ?_, (r1.trans r2).weaken (fun z _ h => ?_) (fun h => ⟨?_, ?_⟩)⟩
    · unfold enforceZeros; rw [bind_eq e1]; exact e2
    · intro b' h'
      rcases List.mem_cons.mp h' with rfl | h'
      · simpa using h.1
      · exact h.2 b' h'
    · simpa using h b (by simp)
    · intro b' h'
      rw [r1.ext.stored_eq (hb b' (by simp [h']))]
      exact h b' (by simp [h'])

/-- running product of the bits where the bound digit is one -/
def pre (z : Assignment (ZMod p)) (acc : ZMod p) (l : List (Bin × Nat)) : ZMod p :=
  l.foldl (fun P e => if e.2 = 1 then P * z e.1 else P) acc

theorem runs_run {pairs : List (Bin × Nat)} : ∀ {cs : CS (ZMod p)} (_ : Wf cs)
    {ps : List (Row (ZMod p))} {last : Row (ZMod p)} (_ : RowOk cs last)
    (_ : ∀ e ∈ pairs, Allocated cs e.1),
    ∃ qs cs', runs pairs ps last cs = some (ps ++ qs, cs') ∧ qs.length = pairs.length ∧
      (∀ r ∈ qs, RowOk cs' r) ∧
      Run cs cs' (fun z => ∀ (k : Nat) (r : Row (ZMod p)), qs[k]? = some r →
        rowVal z r = pre z (rowVal z last) (pairs.take (k + 1))) True := by
  induction pairs with
  | nil =>
    intro cs wf ps last _ _
    exact ⟨[], cs, by simp [runs, pure_eq], rfl, by simp, (Run.refl wf).weaken (fun _ _ _ => by simp) id⟩
  | cons e pairs ih =>
    intro cs wf ps last hl hal
    obtain ⟨a, c⟩ := e
    by_cases hc : c = 1
    · obtain ⟨q, c1, e1, ok1, r1⟩ := mul_run wf hl (ofBin_ok (hal (a, c) (by simp)))
      obtain ⟨qs, c2, e2, hlen, hok, r2⟩ := ih r1.wf (ps := ps ++ [q]) ok1
        (fun e he => r1.ext.alloc (hal e (by simp [he])))
      refine ⟨q :: qs, c2, ?_, by simp [hlen], ?_, (r1.trans r2).weaken (fun z _ h => ?_)
        (fun _ => ⟨trivial, trivial⟩)⟩
      · unfold runs; rw [if_pos hc, bind_eq e1, e2]; simp
      · intro r hr
        rcases List.mem_cons.mp hr with rfl | hr
        · exact ok1.mono r2.ext
        · exact hok r hr
      · intro k r hk
        have h1 : rowVal z q = rowVal z last * z a := by have := h.1; rwa [rowVal_ofBin] at this
        cases k with
        | zero => simp at hk; subst hk; simp [pre, hc, h1]
        | succ k =>
          simp at hk
          have := h.2 k r hk
          rw [this, h1]
          simp [pre, hc]
    · obtain ⟨qs, c2, e2, hlen, hok, r2⟩ := ih wf (ps := ps ++ [last]) hl
        (fun e he => hal e (by simp [he]))
      refine ⟨last :: qs, c2, ?_, by simp [hlen], ?_, r2.weaken (fun z _ h => ?_) id⟩
      · unfold runs; rw [if_neg hc, e2]; simp
      · intro r hr
        rcases List.mem_cons.mp hr with rfl | hr
        · exact hl.mono r2.ext
        · exact hok r hr
      · intro k r hk
        cases k with
        | zero => simp at hk; subst hk; simp [pre, hc]
        | succ k =>
          simp at hk
          rw [h k r hk]
          simp [pre, hc]

/-- The constraints of the last loop. -/
def BoolC (z : Assignment (ZMod p)) (ps : List (Row (ZMod p))) : Nat → List (Bin × Nat) → Prop
  | _, [] => True
  | i, (a, c) :: r =>
    (if c = 1 then (z a - 1) * z a = 0 else (1 - z a - rowVal z (ps.getD (i - 1) [])) * z a = 0) ∧
      BoolC z ps (i + 1) r

theorem BoolC_congr {z z' : Assignment (ZMod p)} {ps : List (Row (ZMod p))} (hps : ∀ r ∈ ps, rowVal z r = rowVal z' r)
    (l : List (Bin × Nat)) : ∀ i, (∀ e ∈ l, z e.1 = z' e.1) → (BoolC z ps i l ↔ BoolC z' ps i l) := by
  induction l with
  | nil => intros; rfl
  | cons e l ih =>
    intro i h
    obtain ⟨a, c⟩ := e
    unfold BoolC
    have h1 : z a = z' a := h (a, c) (by simp)
    have h2 : rowVal z (ps.getD (i - 1) []) = rowVal z' (ps.getD (i - 1) []) := by
      rw [List.getD_eq_getElem?_getD]
      cases hk : ps[i - 1]? with
      | none => simp
      | some r => simpa using hps r (List.mem_of_getElem? hk)
    rw [h1, h2, ih _ (fun e he => h e (by simp [he]))]

theorem boolOne_run {cs : CS (ZMod p)} (wf : Wf cs) {ps : List (Row (ZMod p))}
    (hps : ∀ r ∈ ps, RowOk cs r) {i : Nat} {a : Bin} {c : Nat} (ha : Allocated cs a)
    (hc : c = 0 ∨ c = 1) (hi : c = 0 → 0 < i ∧ i - 1 < ps.length) :
    ∃ cs', boolOne ps i a c cs = some ((), cs') ∧
      Run cs cs' (fun z => BoolC z ps i [(a, c)]) (BoolC (stored cs) ps i [(a, c)]) := by
  rcases hc with rfl | rfl
  · obtain ⟨h0, h1⟩ := hi rfl
    obtain ⟨k, rfl⟩ : ∃ k, i = k + 1 := ⟨i - 1, by omega⟩
    simp only [Nat.add_sub_cancel] at h1
    have hk : ps[k]? = some ps[k] := List.getElem?_eq_getElem h1
    have hg : ps.getD (k + 1 - 1) [] = ps[k] := by
      rw [Nat.add_sub_cancel, List.getD_eq_getElem?_getD, hk]; rfl
    have hok := hps ps[k] (List.getElem_mem h1)
    have hrow := ((const_ok wf (1 : ZMod p)).sub (ofBin_ok ha)).sub hok
    obtain ⟨q, c1, e1, ok1, r1⟩ := mul_run wf hrow (ofBin_ok ha)
    obtain ⟨c2, e2, r2⟩ := enforceEq_run r1.wf ok1 (const_ok r1.wf 0)
    have hval : ∀ z : Assignment (ZMod p), z Wire.ONE = 1 →
        rowVal z (Row.sub (Row.sub (const 1) (ofBin a)) ps[k]) = 1 - z a - rowVal z ps[k] := by
      intro z hz
      rw [Row.rowVal_sub z ((const_ok wf (1 : ZMod p)).sub (ofBin_ok ha)).1 hok.1,
        Row.rowVal_sub z (const_ok wf (1 : ZMod p)).1 (ofBin_ok ha).1]
      simp [hz]
    refine ⟨c2, ?_, (r1.trans r2).weaken (fun z hz h => ?_) (fun h => ⟨trivial, ?_⟩)⟩
    · unfold boolOne
      simp only [zero_ne_one, if_false, if_true]
      rw [hk]
      simp only []
      rw [bind_eq e1]; exact e2
    · have h1 := h.1
      have h2 := h.2
      rw [hval z hz, rowVal_ofBin] at h1
      rw [rowVal_const, mul_zero, h1] at h2
      simp only [BoolC, zero_ne_one, if_false, hg]
      exact ⟨h2, trivial⟩
    · simp only [BoolC, zero_ne_one, if_false, hg] at h
      rw [r1.at_stored trivial, hval _ r1.wf.stored_one, rowVal_ofBin, r1.ext.stored_eq ha,
        r1.ext.rowVal_eq hok, h.1]; simp
  · have hrow := (ofBin_ok (F := ZMod p) ha).sub (const_ok wf 1)
    obtain ⟨q, c1, e1, ok1, r1⟩ := mul_run wf hrow (ofBin_ok ha)
    obtain ⟨c2, e2, r2⟩ := enforceEq_run r1.wf ok1 (const_ok r1.wf 0)
    have hval : ∀ z : Assignment (ZMod p), z Wire.ONE = 1 →
        rowVal z (Row.sub (ofBin a) (const 1)) = z a - 1 := by
      intro z hz
      rw [Row.rowVal_sub z (ofBin_ok ha).1 (const_ok wf (1 : ZMod p)).1]
      simp [hz]
    refine ⟨c2, ?_, (r1.trans r2).weaken (fun z hz h => ?_) (fun h => ⟨trivial, ?_⟩)⟩
    · unfold boolOne
      simp only [if_true]
      rw [bind_eq e1]; exact e2
    · have h1 := h.1
      have h2 := h.2
      rw [hval z hz, rowVal_ofBin] at h1
      rw [rowVal_const, mul_zero, h1] at h2
      simp only [BoolC, if_true]
      exact ⟨h2, trivial⟩
    · simp only [BoolC, if_true] at h
      rw [r1.at_stored trivial, hval _ r1.wf.stored_one, rowVal_ofBin, r1.ext.stored_eq ha, h.1]; simp

theorem boolLoop_run {ps : List (Row (ZMod p))} {l : List (Bin × Nat)} : ∀ {cs : CS (ZMod p)} (_ : Wf cs)
    (_ : ∀ r ∈ ps, RowOk cs r) {i : Nat} (_ : ∀ e ∈ l, Allocated cs e.1)
    (_ : ∀ e ∈ l, e.2 = 0 ∨ e.2 = 1)
    (_ : ∀ (j : Nat) (a : Bin), l[j]? = some (a, 0) → 0 < i + j ∧ i + j - 1 < ps.length),
    ∃ cs', boolLoop ps i l cs = some ((), cs') ∧
      Run cs cs' (fun z => BoolC z ps i l) (BoolC (stored cs) ps i l) := by
  induction l with
  | nil => intro cs wf _ i _ _ _; exact ⟨cs, rfl, (Run.refl wf).weaken (fun _ _ _ => trivial) (fun _ => trivial)⟩
  | cons e l ih =>
    intro cs wf hps i hal hc hi
    obtain ⟨a, c⟩ := e
    obtain ⟨c1, e1, r1⟩ := boolOne_run wf hps (i := i) (hal (a, c) (by simp)) (hc (a, c) (by simp))
      (by rintro rfl; exact hi 0 a rfl)
    obtain ⟨c2, e2, r2⟩ := ih r1.wf (fun r hr => (hps r hr).mono r1.ext) (i := i + 1)
      (fun e he => r1.ext.alloc (hal e (by simp [he]))) (fun e he => hc e (by simp [he]))
      (fun j a' hj => by have := hi (j + 1) a' (by simpa using hj); omega)
    refine ⟨c2, ?_, (r1.trans r2).weaken (fun z hz h => ?_) (fun h => ⟨?_, ?_⟩)⟩
    · unfold boolLoop; rw [bind_eq e1]; exact e2
    · exact ⟨h.1.1, h.2⟩
    · exact ⟨h.1, trivial⟩
    · rw [BoolC_congr (z' := stored cs) (fun r hr => r1.ext.rowVal_eq (hps r hr)) l (i + 1)
        (fun e he => r1.ext.stored_eq (hal e (by simp [he])))]
      exact h.2

theorem BoolC_iff {z : Assignment (ZMod p)} {ps : List (Row (ZMod p))} (l : List (Bin × Nat)) :
    ∀ (i : Nat) (P : ZMod p), (∀ e ∈ l, e.2 = 0 ∨ e.2 = 1) →
    (∀ (j : Nat) (a : Bin), l[j]? = some (a, 0) → rowVal z (ps.getD (i + j - 1) []) = pre z P (l.take j)) →
    (BoolC z ps i l ↔ constrL P (l.map (fun e => (z e.1, e.2)))) := by
  induction l with
  | nil => intros; simp [BoolC, constrL]
  | cons e l ih =>
    intro i P hc h
    obtain ⟨a, c⟩ := e
    unfold BoolC
    rw [List.map_cons]
    unfold constrL
    have := ih (i + 1) (if c = 1 then P * z a else P) (fun e he => hc e (by simp [he])) (by
      intro j a' hj
      have := h (j + 1) a' (by simpa using hj)
      rw [show i + 1 + j - 1 = i + (j + 1) - 1 from by omega, this]
      simp [pre])
    rw [this]
    rcases hc (a, c) (by simp) with h' | h' <;> simp only at h' <;> subst h'
    · have h0 := h 0 a rfl
      simp only [Nat.add_zero, List.take_zero] at h0
      rw [h0]
      simp [pre]
    · simp

theorem zip_take_right {α β : Type} (l : List α) (m : List β) (n : Nat) :
    l.zip (m.take n) = (l.zip m).take n := by
  induction l generalizing m n with
  | nil => simp
  | cons a l ih =>
    cases m with
    | nil => simp
    | cons b m => cases n with
      | zero => simp
      | succ n => simp [ih]

theorem rangeCheck_run {cs : CS (ZMod p)} (wf : Wf cs) {bs : List Bin} (hb : ∀ b ∈ bs, Allocated cs b)
    {c : ZMod p} (hp256 : p ≤ 2 ^ 256) (hc0 : c ≠ 0) (hlen : c.val < 2 ^ bs.length) :
    ∃ cs', rangeCheck bs c cs = some ((), cs') ∧
      Run cs cs' (fun z => ∃ n, n ≤ c.val ∧ SpellBits z bs n)
        (∃ n, n ≤ c.val ∧ SpellBits (stored cs) bs n) := by
  have hcv : c.val < 2 ^ 256 := lt_of_lt_of_le (ZMod.val_lt c) hp256
  have hcv0 : c.val ≠ 0 := fun h => hc0 ((ZMod.val_eq_zero c).mp h)
  obtain ⟨ct, hct, hbit, hval⟩ := significant hcv hcv0
  have hlen' : ct.length + 1 ≤ bs.length := by
    by_contra hcon
    have h1 : 2 ^ bs.length ≤ 2 ^ ct.length := Nat.pow_le_pow_right (by norm_num) (by omega)
    rw [beValue_cons] at hval
    omega
  set d := bs.length - (ct.length + 1) with hd
  have hbs : bs = bs.take d ++ bs.drop d := (List.take_append_drop d bs).symm
  have hlo : (bs.drop d).length = ct.length + 1 := by rw [List.length_drop]; omega
  have hbhi : ∀ b ∈ bs.take d, Allocated cs b := fun b h => hb b (List.mem_of_mem_take h)
  have hblo : ∀ b ∈ bs.drop d, Allocated cs b := fun b h => hb b (List.mem_of_mem_drop h)
  obtain ⟨c1, e1, r1⟩ := enforceZeros_run wf hbhi
  cases has : bs.drop d with
  | nil => rw [has] at hlo; simp at hlo
  | cons a0 as =>
    have hal : as.length = ct.length := by rw [has] at hlo; simpa using hlo
    have ha0 : Allocated c1 a0 := r1.ext.alloc (hblo a0 (by simp [has]))
    have hasal : ∀ b ∈ as, Allocated c1 b := fun b h => r1.ext.alloc (hblo b (by simp [has, h]))
    set t := (rpositionNe1 (1 :: ct)).getD ((1 :: ct).length - 1) with ht
    set rest := as.zip ct with hrest
    have hrestal : ∀ e ∈ rest, Allocated c1 e.1 := fun e he => hasal e.1 (List.of_mem_zip he).1
    have hrestbit : ∀ e ∈ rest, e.2 = 0 ∨ e.2 = 1 := fun e he => hbit e.2 (List.of_mem_zip he).2
    obtain ⟨qs, c2, e2, hql, hqok, r2⟩ := runs_run r1.wf (ps := [ofBin a0]) (pairs := rest.take (t + 1))
      (ofBin_ok ha0) (fun e he => hrestal e (List.mem_of_mem_take he))
    have hps : ∀ r ∈ ([ofBin a0] ++ qs : List (Row (ZMod p))), RowOk c2 r := by
      intro r hr
      simp only [List.singleton_append, List.mem_cons] at hr
      rcases hr with rfl | hr
      · exact ofBin_ok (r2.ext.alloc ha0)
      · exact hqok r hr
    set full := (a0, 1) :: rest with hfull
    have hfullal : ∀ e ∈ full, Allocated c2 e.1 := by
      intro e he
      rcases List.mem_cons.mp he with rfl | he
      · exact r2.ext.alloc ha0
      · exact r2.ext.alloc (hrestal e he)
    have hfullbit : ∀ e ∈ full, e.2 = 0 ∨ e.2 = 1 := by
      intro e he
      rcases List.mem_cons.mp he with rfl | he
      · exact Or.inr rfl
      · exact hrestbit e he
    -- positions of zero digits are within reach of the products
    have hzero : ∀ (j : Nat) (a : Bin), full[j]? = some (a, 0) → ∃ k, j = k + 1 ∧ k < rest.length ∧ k + 1 ≤ t := by
      intro j a hj
      cases j with
      | zero => simp [hfull] at hj
      | succ k =>
        have hk : rest[k]? = some (a, 0) := by simpa [hfull] using hj
        have hkl : k < rest.length := (List.getElem?_eq_some_iff.mp hk).1
        have hct' : ct[k]? = some 0 := by
          rw [hrest, List.getElem?_zip_eq_some] at hk
          exact hk.2
        have hkc : k < ct.length := (List.getElem?_eq_some_iff.mp hct').1
        obtain ⟨t', ht', hle⟩ := rposition_ge (l := 1 :: ct) (i := k + 1) (by simp; omega) (by simp [hct'])
        refine ⟨k, rfl, hkl, ?_⟩
        rw [ht, ht']
        exact hle
    obtain ⟨c3, e3, r3⟩ := boolLoop_run r2.wf hps (i := 0) hfullal hfullbit (by
      intro j a hj
      obtain ⟨k, rfl, hk, hkt⟩ := hzero j a hj
      refine ⟨by omega, ?_⟩
      simp only [List.length_append, List.length_singleton, hql, List.length_take]
      omega)
    have r13 := r1.trans (r2.trans r3)
    have hps_val : ∀ z : Assignment (ZMod p), (∀ (k : Nat) (r : Row (ZMod p)), qs[k]? = some r →
        rowVal z r = pre z (rowVal z (ofBin a0)) ((rest.take (t + 1)).take (k + 1))) →
        (BoolC z ([ofBin a0] ++ qs) 0 full ↔ constrL 1 (full.map (fun e => (z e.1, e.2)))) := by
      intro z hq
      apply BoolC_iff full 0 1 hfullbit
      intro j a hj
      obtain ⟨k, rfl, hk, hkt⟩ := hzero j a hj
      simp only [Nat.zero_add, Nat.add_sub_cancel]
      cases k with
      | zero => simp [hfull, pre]
      | succ k =>
        have hkq : k < qs.length := by rw [hql, List.length_take]; omega
        have hq := hq k qs[k] (List.getElem?_eq_getElem hkq)
        have : ([ofBin a0] ++ qs : List (Row (ZMod p))).getD (k + 1) [] = qs[k] := by
          rw [List.getD_eq_getElem?_getD]
          simp [List.getElem?_eq_getElem hkq]
        rw [this, hq, List.take_take, min_eq_left (by omega), hfull, List.take_succ_cons]
        simp [pre]
    -- the statement about bit strings
    have hfst : ∀ z : Assignment (ZMod p), (full.map (fun e => (z e.1, e.2))).map Prod.fst = (a0 :: as).map z := by
      intro z
      rw [List.map_map]
      show full.map (fun e => z e.1) = _
      rw [hfull, List.map_cons, List.map_cons]
      congr 1
      rw [hrest]
      rw [show (as.zip ct).map (fun e => z e.1) = ((as.zip ct).map Prod.fst).map z by rw [List.map_map]; rfl,
        List.map_fst_zip (by omega)]
    have hsnd : ∀ z : Assignment (ZMod p), (full.map (fun e => (z e.1, e.2))).map Prod.snd = 1 :: ct := by
      intro z
      rw [List.map_map]
      show full.map (fun e => e.2) = _
      rw [hfull, List.map_cons]
      congr 1
      exact List.map_snd_zip (by omega)
    have hcore : ∀ z : Assignment (ZMod p), (∀ b ∈ bs.take d, z b = 0) →
        (constrL 1 (full.map (fun e => (z e.1, e.2))) ↔ ∃ n, n ≤ c.val ∧ SpellBits z bs n) := by
      intro z hz0
      rw [constrL_one _ (by
        intro e he
        obtain ⟨e', he', rfl⟩ := List.mem_map.mp he
        exact hfullbit e' he'), hfst z, hsnd z, hval]
      constructor
      · rintro ⟨ds, h1, h2, h3⟩
        refine ⟨_, h3, List.replicate d 0 ++ ds, ?_, ?_, ?_⟩
        · intro x hx
          rcases List.mem_append.mp hx with hx | hx
          · exact Or.inl (List.eq_of_mem_replicate hx)
          · exact h1 x hx
        · conv_lhs => rw [hbs, has]
          rw [List.map_append, List.map_append, h2]
          congr 1
          rw [List.map_replicate]
          have : (bs.take d).map z = (bs.take d).map (fun _ => (0 : ZMod p)) := List.map_congr_left hz0
          rw [this, List.map_const', List.length_take, min_eq_left (by omega)]
          simp
        · rw [beValue_append, beValue_zero (fun x hx => List.eq_of_mem_replicate hx)]
          simp
      · rintro ⟨n, hn, ds, h1, h2, h3⟩
        have hdl : ds.length = bs.length := by have := congrArg List.length h2; simpa using this.symm
        have hsplit : ds = ds.take d ++ ds.drop d := (List.take_append_drop d ds).symm
        refine ⟨ds.drop d, fun x hx => h1 x (List.mem_of_mem_drop hx), ?_, ?_⟩
        · rw [← has, List.map_drop, h2, List.map_drop]
        · have h3' : beValue 2 ds ≤ c.val := h3 ▸ hn
          rw [hsplit, beValue_append] at h3'
          omega
    have leading_zero : ∀ {z : Assignment (ZMod p)} {n : Nat}, n ≤ c.val → SpellBits z bs n →
        ∀ b ∈ bs.take d, z b = 0 := by
      rintro z n hn ⟨ds, h1, h2, h3⟩
      have hdl : ds.length = bs.length := by have := congrArg List.length h2; simpa using this.symm
      have hlt : beValue 2 ds < 2 ^ (ct.length + 1) := by
        rw [h3]
        have h4 := beValue_two_lt (ds := 1 :: ct) (by intro x hx; rcases List.mem_cons.mp hx with rfl | hx; exact Or.inr rfl; exact hbit x hx)
        rw [hval, List.length_cons] at h4
        omega
      have hz : ∀ x ∈ ds.take d, x = 0 := by
        have hsplit : ds = ds.take d ++ ds.drop d := (List.take_append_drop d ds).symm
        rw [hsplit, beValue_append, List.length_drop, hdl, show bs.length - d = ct.length + 1 by omega] at hlt
        have h0 : beValue 2 (ds.take d) = 0 := by
          by_contra hcon
          have : 1 * 2 ^ (ct.length + 1) ≤ beValue 2 (ds.take d) * 2 ^ (ct.length + 1) :=
            Nat.mul_le_mul_right _ (by omega)
          omega
        have key : ∀ l : List Nat, (∀ x ∈ l, x = 0 ∨ x = 1) → beValue 2 l = 0 → ∀ x ∈ l, x = 0 := by
          intro l
          induction l with
          | nil => simp
          | cons y l ih =>
            intro hl hv x hx
            rw [beValue_cons] at hv
            have hpos : 0 < 2 ^ l.length := by positivity
            have hy : y = 0 := by
              rcases hl y (by simp) with h | h
              · exact h
              · subst h; omega
            rcases List.mem_cons.mp hx with rfl | hx
            · exact hy
            · exact ih (fun x hx => hl x (by simp [hx])) (by omega) x hx
        exact key _ (fun x hx => h1 x (List.mem_of_mem_take hx)) h0
      intro b hbm
      have hm : (bs.take d).map (z) = (ds.take d).map (fun x : Nat => (x : ZMod p)) := by
        rw [List.map_take, h2, List.map_take]
      have : z b ∈ (ds.take d).map (fun x : Nat => (x : ZMod p)) := hm ▸ List.mem_map_of_mem hbm
      obtain ⟨x, hx, hxe⟩ := List.mem_map.mp this
      rw [← hxe, hz x hx]; simp
    refine ⟨c3, ?_, r13.weaken (fun z hz h => ?_) (fun h => ⟨?_, trivial, ?_⟩)⟩
    · unfold rangeCheck
      simp only [hct, List.length_cons]
      rw [if_neg (by omega), bind_eq e1]
      simp only [← hd, has, List.drop_succ_cons, List.drop_zero]
      rw [zip_take_right]
      rw [show (rpositionNe1 (1 :: ct)).getD (ct.length + 1 - 1) = t from rfl, ← hrest, bind_eq e2]
      exact e3
    · exact (hcore z h.1).mp ((hps_val z h.2.1).mp h.2.2)
    · -- leading bits are zero
      obtain ⟨n, hn, ds, h1, h2, h3⟩ := h
      exact leading_zero hn ⟨ds, h1, h2, h3⟩
    · rw [hps_val _ (r2.at_stored trivial)]
      have hag : ∀ b ∈ bs, stored c2 b = stored cs b := fun b hbm => (r1.trans r2).ext.stored_eq (hb b hbm)
      have hsp : ∃ n, n ≤ c.val ∧ SpellBits (stored c2) bs n := by
        obtain ⟨n, hn, ds, h1, h2, h3⟩ := h
        exact ⟨n, hn, ds, h1, by rw [← h2]; exact List.map_congr_left hag, h3⟩
      refine (hcore _ ?_).mpr hsp
      -- the leading bits again
      obtain ⟨n, hn, ds, h1, h2, h3⟩ := hsp
      exact leading_zero hn ⟨ds, h1, h2, h3⟩

/-- too few wires: nothing is constrained -/
theorem rangeCheck_short {cs : CS (ZMod p)} {bs : List Bin} {c : ZMod p}
    (h : bs.length < ((bits256 c.val).dropWhile (· = 0)).length) :
    rangeCheck bs c cs = some ((), cs) := by
  unfold rangeCheck
  simp only []
  rw [if_pos h]; rfl

theorem binWits_run {l : List Nat} : ∀ {cs : CS (ZMod p)} (_ : Wf cs),
    ∃ out cs', binWits l cs = some (out, cs') ∧ (∀ b ∈ out, Allocated cs' b) ∧
      (∀ b ∈ out, ¬ Allocated cs b) ∧ out.Nodup ∧
      out.map (stored cs') = l.map (fun d : Nat => (d : ZMod p)) ∧ cs'.cons = cs.cons ∧
      Run cs cs' (fun _ => True) True := by
  induction l with
  | nil => intro cs wf; exact ⟨[], cs, rfl, by simp, by simp, by simp, rfl, rfl, Run.refl wf⟩
  | cons b l ih =>
    intro cs wf
    obtain ⟨o, c1, e1, al1, na1, s1, k1, r1⟩ := binWit_run wf b
    obtain ⟨os, c2, e2, al2, na2, nd2, s2, k2, r2⟩ := ih r1.wf
    refine ⟨o :: os, c2, ?_, ?_, ?_, ?_, ?_, k2.trans k1,
      (r1.trans r2).weaken (fun _ _ _ => trivial) (fun _ => ⟨trivial, trivial⟩)⟩
    · unfold binWits; rw [bind_eq e1, bind_eq e2]; rfl
    · intro x hx
      rcases List.mem_cons.mp hx with rfl | hx
      · exact r2.ext.alloc al1
      · exact al2 x hx
    · intro x hx
      rcases List.mem_cons.mp hx with rfl | hx
      · exact na1
      · exact fun h => na2 x hx (r1.ext.alloc h)
    · exact List.nodup_cons.mpr ⟨fun h => na2 o h al1, nd2⟩
    · simp only [List.map_cons, s2, r2.ext.stored_eq al1, s1]

/-! ## uniformity -/

theorem _root_.Kogarashi.Spec.Uniform.enforceZeros (bs : List Bin) :
    Uniform (enforceZeros bs : Circ (ZMod p) Unit) (enforceZeros bs) := by
  induction bs with
  | nil => exact Uniform.pure _
  | cons b bs ih => exact (Uniform.enforceEqConstant _ _).bind fun _ => ih
theorem _root_.Kogarashi.Spec.Uniform.runs (l : List (Bin × Nat)) : ∀ (ps : List (Row (ZMod p))) (last : Row (ZMod p)),
    Uniform (runs l ps last) (runs l ps last) := by
  induction l with
  | nil => intro ps last; exact Uniform.pure _
  | cons e l ih =>
    intro ps last
    obtain ⟨a, c⟩ := e
    unfold Circ.runs
    split
    · exact (Uniform.mul _ _).bind fun _ => ih _ _
    · exact ih _ _
theorem _root_.Kogarashi.Spec.Uniform.boolOne (ps : List (Row (ZMod p))) (i : Nat) (a : Bin) (c : Nat) :
    Uniform (boolOne ps i a c) (boolOne ps i a c) := by
  unfold Circ.boolOne
  split
  · exact (Uniform.mul _ _).bind fun _ => Uniform.enforceEq _ _
  · split
    · split
      · exact Uniform.failure
      · split
        · exact Uniform.failure
        · exact (Uniform.mul _ _).bind fun _ => Uniform.enforceEq _ _
    · exact Uniform.pure _
theorem _root_.Kogarashi.Spec.Uniform.boolLoop (ps : List (Row (ZMod p))) (l : List (Bin × Nat)) : ∀ i,
    Uniform (boolLoop ps i l) (boolLoop ps i l) := by
  induction l with
  | nil => intro i; exact Uniform.pure _
  | cons e l ih => intro i; exact (Uniform.boolOne _ _ _ _).bind fun _ => ih _
theorem _root_.Kogarashi.Spec.Uniform.rangeCheck (bs : List Bin) (c : ZMod p) : Uniform (rangeCheck bs c) (rangeCheck bs c) := by
  unfold Circ.rangeCheck
  simp only []
  split
  · exact Uniform.pure _
  · refine (Uniform.enforceZeros _).bind fun _ => ?_
    split
    · exact Uniform.failure
    · exact (Uniform.runs _ _ _).bind fun _ => Uniform.boolLoop _ _ _
theorem _root_.Kogarashi.Spec.Uniform.binWits : ∀ (l l' : List Nat), l.length = l'.length →
    Uniform (binWits l : Circ (ZMod p) (List Bin)) (binWits l') := by
  intro l
  induction l with
  | nil => intro l' h; cases l' with
    | nil => exact Uniform.pure _
    | cons _ _ => simp at h
  | cons b l ih => intro l' h; cases l' with
    | nil => simp at h
    | cons b' l' =>
      exact (Uniform.binWit _ _).bind fun _ => (ih l' (by simpa using h)).bind fun _ => Uniform.pure _
theorem _root_.Kogarashi.Spec.Uniform.toBits (nb : Nat) (x : Row (ZMod p)) (n : Nat) : Uniform (toBits nb x n) (toBits nb x n) := by
  unfold Circ.toBits
  split
  · exact Uniform.failure
  · refine Uniform.value fun a b => (Uniform.binWits _ _ (by simp [bits256])).bind fun _ => ?_
    simp only []
    split
    · exact (Uniform.rangeCheck _ _).bind fun _ => Uniform.pure _
    · exact (Uniform.rangeCheck _ _).bind fun _ => Uniform.pure _

theorem toBits_run {cs : CS (ZMod p)} (wf : Wf cs) {x : Row (ZMod p)} (hx : RowOk cs x) {nb n : Nat}
    (hnb : nb ≤ 256) (hlo : 2 ^ (nb - 1) < p) (hhi : p ≤ 2 ^ nb) (hn0 : 0 < n) (hn : n ≤ 256) :
    ∃ all c1 out cs', binWits (bits256 (rowVal (stored cs) x).val) cs = some (all, c1) ∧
      out = all.drop (256 - n) ∧
      rangeCheck out (if n < nb then 2 ^ n - 1 else -1) c1 = some ((), cs') ∧
      toBits nb x n cs = some (out, cs') ∧ out.length = n ∧
      (∀ b ∈ out, Allocated cs' b) ∧ (∀ b ∈ out, ¬ Allocated cs b) ∧
      SpellBits (stored cs') out ((rowVal (stored cs) x).val % 2 ^ n) ∧
      Run cs cs' (fun z => ∃ m, m ≤ (if n < nb then 2 ^ n - 1 else p - 1) ∧ SpellBits z out m) True := by
  have hp1 : 1 < p := hp.out.one_lt
  obtain ⟨all, c1, e1, al1, na1, nd1, s1, k1, r1⟩ := binWits_run (l := bits256 (rowVal (stored cs) x).val) wf
  have hall : all.length = 256 := by
    have := congrArg List.length s1
    simpa [bits256_length] using this
  set out := all.drop (256 - n) with hout
  have hol : out.length = n := by rw [hout, List.length_drop]; omega
  set bnd : ZMod p := if n < nb then 2 ^ n - 1 else -1 with hbnd
  have hbv : bnd.val = if n < nb then 2 ^ n - 1 else p - 1 := by
    rw [hbnd]
    split
    · rename_i h
      have h2 : 2 ^ n ≤ 2 ^ (nb - 1) := Nat.pow_le_pow_right (by norm_num) (by omega)
      have h1 : 1 ≤ 2 ^ n := Nat.one_le_two_pow
      have : (2 ^ n - 1 : ZMod p) = ((2 ^ n - 1 : ℕ) : ZMod p) := by
        rw [Nat.cast_sub h1]; simp
      rw [this, ZMod.val_natCast_of_lt (by omega)]
    · have : (-1 : ZMod p) = ((p - 1 : ℕ) : ZMod p) := by
        rw [Nat.cast_sub (by omega)]; simp
      rw [this, ZMod.val_natCast_of_lt (by omega)]
  have hb0 : bnd ≠ 0 := by
    intro h
    rw [h, ZMod.val_zero] at hbv
    split at hbv
    · have : 2 ^ 1 ≤ 2 ^ n := Nat.pow_le_pow_right (by norm_num) hn0
      omega
    · omega
  have hblen : bnd.val < 2 ^ out.length := by
    rw [hbv, hol]
    split
    · have : 0 < 2 ^ n := by positivity
      omega
    · rename_i h
      have : 2 ^ nb ≤ 2 ^ n := Nat.pow_le_pow_right (by norm_num) (by omega)
      omega
  have hp256 : p ≤ 2 ^ 256 := hhi.trans (Nat.pow_le_pow_right (by norm_num) hnb)
  obtain ⟨c2, e2, r2⟩ := rangeCheck_run r1.wf (bs := out) (fun b h => al1 b (List.mem_of_mem_drop h))
    hp256 hb0 hblen
  have hsp : SpellBits (stored c1) out ((rowVal (stored cs) x).val % 2 ^ n) := by
    refine ⟨(bits256 (rowVal (stored cs) x).val).drop (256 - n), ?_, ?_, bits256_drop_value _ _ hn⟩
    · intro d hd; exact bits256_bit _ d (List.mem_of_mem_drop hd)
    · rw [hout, List.map_drop, s1, List.map_drop]
  refine ⟨all, c1, out, c2, e1, rfl, e2, ?_, hol, fun b h => r2.ext.alloc (al1 b (List.mem_of_mem_drop h)),
    fun b h => na1 b (List.mem_of_mem_drop h), ?_, (r1.trans r2).weaken (fun z _ h => hbv ▸ h.2)
    (fun _ => ⟨trivial, _, ?_, hsp⟩)⟩
  · unfold toBits
    rw [if_neg (by omega), bind_eq (value_eq hx), bind_eq e1]
    simp only [← hout]
    rw [hbnd] at e2
    split
    · rename_i h
      rw [if_pos h] at e2
      exact bind_eq e2
    · rename_i h
      rw [if_neg h] at e2
      exact bind_eq e2
  · obtain ⟨ds, h1, h2, h3⟩ := hsp
    refine ⟨ds, h1, ?_, h3⟩
    rw [← h2]
    exact List.map_congr_left (fun b hb => r2.ext.stored_eq (al1 b (List.mem_of_mem_drop hb)))
  · rw [hbv]
    split
    · have := Nat.mod_lt (rowVal (stored cs) x).val (show 0 < 2 ^ n by positivity)
      omega
    · have h1 := Nat.mod_le (rowVal (stored cs) x).val (2 ^ n)
      have h2 := ZMod.val_lt (rowVal (stored cs) x)
      omega

/-- overriding finitely many wires -/
theorem exists_override {F : Type} (z : Assignment F) : ∀ (l : List Wire) (vs : List F), l.Nodup →
    l.length = vs.length → ∃ z', l.map z' = vs ∧ ∀ w, w ∉ l → z' w = z w := by
  intro l
  induction l with
  | nil => intro vs _ h; cases vs with
    | nil => exact ⟨z, rfl, fun _ _ => rfl⟩
    | cons _ _ => simp at h
  | cons a l ih => intro vs hn h; cases vs with
    | nil => simp at h
    | cons v vs =>
      obtain ⟨ha, hn⟩ := List.nodup_cons.mp hn
      obtain ⟨z', h1, h2⟩ := ih vs hn (by simpa using h)
      refine ⟨fun w => if w = a then v else z' w, ?_, ?_⟩
      · rw [List.map_cons]
        congr 1
        · simp
        · rw [← h1]
          apply List.map_congr_left
          intro w hw
          have : w ≠ a := fun hc => ha (hc ▸ hw)
          simp [this]
      · intro w hw
        simp only [List.mem_cons, not_or] at hw
        simp [hw.1, h2 w hw.2]

/-- The bits of `toBits` are not tied to the value: any number within the bound can be put there. -/
theorem toBits_free {cs : CS (ZMod p)} (wf : Wf cs) {x : Row (ZMod p)} (hx : RowOk cs x) {nb n m : Nat}
    (hnb : nb ≤ 256) (hlo : 2 ^ (nb - 1) < p) (hhi : p ≤ 2 ^ nb) (hn0 : 0 < n) (hn : n ≤ 256)
    (hm : m ≤ (if n < nb then 2 ^ n - 1 else p - 1)) {z : Assignment (ZMod p)} (hz : Satisfies z cs) :
    ∃ out cs' z', toBits nb x n cs = some (out, cs') ∧ AgreeOn cs z z' ∧ Satisfies z' cs' ∧
      SpellBits z' out m := by
  have hp1 : 1 < p := hp.out.one_lt
  obtain ⟨all, c1, out, cs', e1, hout, e2, e3, hol, -, -, -, -⟩ := toBits_run wf hx hnb hlo hhi hn0 hn
  obtain ⟨all', c1', e1', al1, na1, nd1, s1, k1, r1⟩ := binWits_run (l := bits256 (rowVal (stored cs) x).val) wf
  obtain ⟨rfl, rfl⟩ : all' = all ∧ c1' = c1 := by rw [e1] at e1'; simpa using e1'.symm
  have hall : all'.length = 256 := by
    have := congrArg List.length s1
    simpa [bits256_length] using this
  obtain ⟨z1, hz1, hz1'⟩ := exists_override z all' ((bits256 m).map (fun d : Nat => (d : ZMod p))) nd1
    (by simp [hall, bits256_length])
  have hag : AgreeOn cs z z1 := fun w hw => (hz1' w (fun h => na1 w h hw)).symm
  have hs1 : Satisfies z1 c1' := by
    refine ⟨?_, fun k hk => ?_⟩
    · rw [← hag _ wf.alloc_one]; exact hz.1
    · rw [k1] at hk
      exact (holds_congr hag (wf.rows k hk)).mp (hz.2 k hk)
  set bnd : ZMod p := if n < nb then 2 ^ n - 1 else -1 with hbnd
  have hbv : bnd.val = if n < nb then 2 ^ n - 1 else p - 1 := by
    rw [hbnd]
    split
    · rename_i h
      have h2 : 2 ^ n ≤ 2 ^ (nb - 1) := Nat.pow_le_pow_right (by norm_num) (by omega)
      have h1 : 1 ≤ 2 ^ n := Nat.one_le_two_pow
      have : (2 ^ n - 1 : ZMod p) = ((2 ^ n - 1 : ℕ) : ZMod p) := by
        rw [Nat.cast_sub h1]; simp
      rw [this, ZMod.val_natCast_of_lt (by omega)]
    · have : (-1 : ZMod p) = ((p - 1 : ℕ) : ZMod p) := by
        rw [Nat.cast_sub (by omega)]; simp
      rw [this, ZMod.val_natCast_of_lt (by omega)]
  have hb0 : bnd ≠ 0 := by
    intro h
    rw [h, ZMod.val_zero] at hbv
    split at hbv
    · have : 2 ^ 1 ≤ 2 ^ n := Nat.pow_le_pow_right (by norm_num) hn0
      omega
    · omega
  have hblen : bnd.val < 2 ^ out.length := by
    rw [hbv, hol]
    split
    · have : 0 < 2 ^ n := by positivity
      omega
    · rename_i h
      have : 2 ^ nb ≤ 2 ^ n := Nat.pow_le_pow_right (by norm_num) (by omega)
      omega
  have hp256 : p ≤ 2 ^ 256 := hhi.trans (Nat.pow_le_pow_right (by norm_num) hnb)
  have hmn : m < 2 ^ n := by
    have : bnd.val < 2 ^ n := hol ▸ hblen
    rw [hbv] at this
    omega
  have hmb : m ≤ bnd.val := hbv ▸ hm
  have hsp : SpellBits z1 out m := by
    refine ⟨(bits256 m).drop (256 - n), fun d hd => bits256_bit _ d (List.mem_of_mem_drop hd), ?_, ?_⟩
    · rw [hout, List.map_drop, hz1, List.map_drop]
    · rw [bits256_drop_value _ _ hn, Nat.mod_eq_of_lt hmn]
  have hal : ∀ b ∈ out, Allocated c1' b := fun b h => al1 b (List.mem_of_mem_drop (hout ▸ h))
  have wf' := wf_withValues r1.wf hs1.1
  obtain ⟨c3, e4, r4⟩ := rangeCheck_run wf' (bs := out)
    (fun b h => ((sameShape_withValues c1' z1).alloc b).mp (hal b h)) hp256 hb0 hblen
  have hspv : ∃ n, n ≤ bnd.val ∧ SpellBits (stored (c1'.withValues z1)) out n := by
    obtain ⟨ds, h1, h2, h3⟩ := hsp
    refine ⟨m, hmb, ds, h1, ?_, h3⟩
    rw [← h2]
    exact List.map_congr_left (fun b hb => stored_withValues (hal b hb))
  obtain ⟨z', ha', hs'⟩ := completion (Uniform.rangeCheck out bnd) e2 hs1 r1.wf ⟨(), c3, e4, r4⟩ hspv
  refine ⟨out, cs', z', e3, fun w hw => ?_, hs', ?_⟩
  · rw [hag w hw]; exact ha' w (r1.ext.alloc hw)
  · obtain ⟨ds, h1, h2, h3⟩ := hsp
    refine ⟨ds, h1, ?_, h3⟩
    rw [← h2]
    exact (List.map_congr_left (fun b hb => ha' b (hal b hb))).symm

end Circ

end Kogarashi
