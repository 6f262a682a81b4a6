import Mathlib.NumberTheory.LegendreSymbol.Basic
import Verif.Field.Sqrt
import Verif.Field.Prime
import Verif.Field.Square

/-!
# Square roots: the Tonelli-Shanks loop is correct when squaring is exact
-/

set_option exponentiation.threshold 1600

namespace Kogarashi.Field

open Kogarashi.Limbs Kogarashi.Spec

/-- An implementation of multiplication of a field `F` on a representation type. -/
structure FieldRep (α F : Type) [Field F] (one : α) (mul : α → α → α) (sq : α → α) where
  Good : α → Prop
  φ : α → F
  good_one : Good one
  good_mul : ∀ {a b}, Good a → Good b → Good (mul a b)
  good_sq : ∀ {a}, Good a → Good (sq a)
  φ_one : φ one = 1
  φ_mul : ∀ {a b}, Good a → Good b → φ (mul a b) = φ a * φ b
  φ_sq : ∀ {a}, Good a → φ (sq a) = φ a ^ 2
  φ_inj : ∀ {a b}, Good a → Good b → φ a = φ b → a = b

variable {α F : Type} [DecidableEq α] [Field F] {one : α} {mul : α → α → α} {sq : α → α}

namespace FieldRep

variable (R : FieldRep α F one mul sq)

include R

omit R [DecidableEq α] in
theorem _root_.Kogarashi.Field.sq_eq_one_iff_of_field {x : F} (h : x ^ 2 = 1) : x = 1 ∨ x = -1 := by
  have : (x - 1) * (x + 1) = 0 := by linear_combination h
  rcases mul_eq_zero.1 this with h | h
  · exact Or.inl (sub_eq_zero.1 h)
  · exact Or.inr (eq_neg_of_add_eq_zero_left h)

theorem eq_one_iff {a : α} (ha : R.Good a) : a = one ↔ R.φ a = 1 :=
  ⟨fun h => by rw [h, R.φ_one], fun h => R.φ_inj ha R.good_one (by rw [h, R.φ_one])⟩

theorem powVartime_spec {a : α} (ha : R.Good a) (bits : List Nat) (hb : ∀ x ∈ bits, x = 0 ∨ x = 1) :
    R.Good (powVartimeBits one mul sq a bits) ∧
      R.φ (powVartimeBits one mul sq a bits) = R.φ a ^ beValue 2 bits := by
  have key : ∀ (bits : List Nat), (∀ x ∈ bits, x = 0 ∨ x = 1) → ∀ (acc : α) (e : Nat), R.Good acc →
      R.φ acc = R.φ a ^ e →
      R.Good (bits.foldl (fun res bit => let res := sq res; if bit = 1 then mul res a else res) acc) ∧
      R.φ (bits.foldl (fun res bit => let res := sq res; if bit = 1 then mul res a else res) acc) =
        R.φ a ^ (e * 2^bits.length + beValue 2 bits) := by
    intro bits
    induction bits with
    | nil => intro _ acc e hg he; exact ⟨hg, by simpa [beValue] using he⟩
    | cons bit bits ih =>
      intro hb acc e hg he
      have hbits : ∀ x ∈ bits, x = 0 ∨ x = 1 := fun x hx => hb x (by simp [hx])
      have hexp : beValue 2 (bit :: bits) = bit * 2^bits.length + beValue 2 bits := by
        unfold beValue; rw [List.foldl_cons, beValue_foldl]; simp [beValue]
      have hsq : R.φ (sq acc) = R.φ a ^ (2 * e) := by rw [R.φ_sq hg, he, ← pow_mul, mul_comm]
      rw [List.foldl_cons, hexp, List.length_cons]
      rcases hb bit (by simp) with rfl | rfl
      · simp only [Nat.zero_ne_one, if_false]
        obtain ⟨i1, i2⟩ := ih hbits (sq acc) (2 * e) (R.good_sq hg) hsq
        exact ⟨i1, by rw [i2]; congr 1; ring⟩
      · simp only [if_true]
        obtain ⟨i1, i2⟩ := ih hbits (mul (sq acc) a) (2 * e + 1) (R.good_mul (R.good_sq hg) ha)
          (by rw [R.φ_mul (R.good_sq hg) ha, hsq, pow_succ])
        exact ⟨i1, by rw [i2]; congr 1; ring⟩
  obtain ⟨k1, k2⟩ := key bits hb one 0 R.good_one (by rw [R.φ_one, pow_zero])
  exact ⟨k1, by unfold powVartimeBits; rw [k2, Nat.zero_mul, Nat.zero_add]⟩

/-- The inner loop: state after the iterations `j = 2 .. n+1`. `K` is the least positive `k` with
`b^(2^k) = 1`. -/
theorem inner_spec (v : Nat) {b z : α} (hb : R.Good b) (hz : R.Good z) (K : Nat) (hK1 : 1 ≤ K)
    (hK : R.φ b ^ 2^K = 1) (hmin : ∀ k, 1 ≤ k → k < K → R.φ b ^ 2^k ≠ 1) (n : Nat) :
    ∃ c, let s := (List.range' 2 n).foldl (tsInnerStep one sq v) ⟨1, sq b, true, z⟩
      s.k = min K (n + 1) ∧ R.Good s.b2k ∧ R.φ s.b2k = R.φ b ^ 2^(min K (n + 1)) ∧
      (s.jLessThanV = true ↔ (v < 2 ∨ n + 1 < v)) ∧
      R.Good s.z ∧ R.φ s.z = R.φ z ^ 2^c ∧
      (2 ≤ v → c = min (n + 1) (v - 1) - min K (min (n + 1) (v - 1))) := by
  induction n with
  | zero =>
    refine ⟨0, ?_⟩
    simp only [List.range'_zero, List.foldl_nil]
    have : min K (0 + 1) = 1 := by omega
    refine ⟨this.symm, R.good_sq hb, by rw [this, R.φ_sq hb, pow_one], ?_, hz, by simp, ?_⟩
    · constructor
      · intro _; omega
      · intro _; trivial
    · intro hv; omega
  | succ n ih =>
    obtain ⟨c, h1, h2, h3, h4, h5, h6, h7⟩ := ih
    rw [List.range'_1_concat, List.foldl_append, List.foldl_cons, List.foldl_nil]
    generalize (List.range' 2 n).foldl (tsInnerStep one sq v) ⟨1, sq b, true, z⟩ = s at *
    have hjlt : (s.jLessThanV && decide (2 + n ≠ v)) = true ↔ (v < 2 ∨ n + 1 + 1 < v) := by
      rw [Bool.and_eq_true, h4, decide_eq_true_iff]; omega
    by_cases hone : s.b2k = one
    · have hKle : K ≤ n + 1 := by
        by_contra hlt
        have e : min K (n + 1) = n + 1 := by omega
        rw [e] at h3
        exact hmin (n + 1) (by omega) (by omega) (by rw [← h3]; exact (R.eq_one_iff h2).1 hone)
      simp only [tsInnerStep, if_pos hone]
      have e1 : min K (n + 1) = K := by omega
      have e2 : min K (n + 1 + 1) = K := by omega
      rw [e1] at h1 h3
      by_cases hj : (s.jLessThanV && decide (2 + n ≠ v)) = true
      · refine ⟨c + 1, ?_⟩
        rw [e2]
        refine ⟨h1, h2, h3, hjlt, ?_, ?_, ?_⟩
        · simp only [hj, if_true]; exact R.good_sq h5
        · simp only [hj, if_true]
          rw [R.φ_sq h5, h6, ← pow_mul, pow_succ]
        · intro hv; have := hjlt.1 hj; have := h7 hv; omega
      · refine ⟨c, ?_⟩
        rw [e2]
        refine ⟨h1, h2, h3, hjlt, ?_, ?_, ?_⟩
        · simp only [hj]; exact h5
        · simp only [hj]; exact h6
        · intro hv
          have : ¬ (v < 2 ∨ n + 1 + 1 < v) := fun h => hj (hjlt.2 h)
          have := h7 hv; omega
    · have hKgt : n + 1 < K := by
        by_contra hle
        have e : min K (n + 1) = K := by omega
        rw [e, hK] at h3
        exact hone ((R.eq_one_iff h2).2 h3)
      simp only [tsInnerStep, if_neg hone]
      have e1 : min K (n + 1) = n + 1 := by omega
      have e2 : min K (n + 1 + 1) = n + 1 + 1 := by omega
      rw [e1] at h1 h3
      refine ⟨c, ?_⟩
      rw [e2]
      refine ⟨by omega, R.good_sq h2, ?_, hjlt, h5, h6, ?_⟩
      · rw [R.φ_sq h2, h3, ← pow_mul, pow_succ 2 (n + 1)]
      · intro hv; have := h7 hv; omega

/-- Invariant of the outer loop on entry to the iteration `max_v = n`. -/
def Inv (a : F) (n : Nat) (s : TSState α) : Prop :=
  R.Good s.x ∧ R.Good s.b ∧ R.Good s.z ∧
  ((1 ≤ s.v ∧ s.v ≤ max n 1 ∧ R.φ s.x ^ 2 = a * R.φ s.b ∧ R.φ s.b ^ 2^(s.v - 1) = 1 ∧
      R.φ s.z ^ 2^(s.v - 1) = -1) ∨
    (R.φ s.x ^ 2 = a ∧ R.φ s.z ^ 2 = 1 ∧ R.φ s.b ^ 2 = 1))

theorem step_spec (h2 : (-1 : F) ≠ 1) {a : F} {n : Nat} {s : TSState α} (h : R.Inv a (n + 1) s) :
    R.Inv a n (tsStep one mul sq (n + 1) s) := by
  obtain ⟨gx, gb, gz, h⟩ := h
  -- least positive k with b^(2^k) = 1
  have hex : ∃ k, 1 ≤ k ∧ R.φ s.b ^ 2^k = 1 := by
    rcases h with ⟨-, -, -, hb, -⟩ | ⟨-, -, hb⟩
    · refine ⟨s.v - 1 + 1, by omega, ?_⟩
      rw [pow_succ, pow_mul, hb, one_pow]
    · exact ⟨1, le_refl _, by rw [pow_one]; exact hb⟩
  classical
  obtain ⟨hK1, hK⟩ := Nat.find_spec hex
  have hmin : ∀ k, 1 ≤ k → k < Nat.find hex → R.φ s.b ^ 2^k ≠ 1 := fun k hk1 hk hk2 =>
    Nat.find_min hex hk ⟨hk1, hk2⟩
  generalize hKd : Nat.find hex = K at *
  obtain ⟨c, i1, i2, i3, i4, i5, i6, i7⟩ := R.inner_spec s.v gb gz K hK1 hK hmin (n + 1 - 2)
  unfold tsStep tsInner
  generalize (List.range' 2 (n + 1 - 2)).foldl (tsInnerStep one sq s.v) ⟨1, sq s.b, true, s.z⟩ = i at *
  have gz' := R.good_sq i5
  have hz' : R.φ (sq i.z) = R.φ s.z ^ 2^(c + 1) := by rw [R.φ_sq i5, i6, ← pow_mul, pow_succ]
  have hb' : R.φ (mul s.b (sq i.z)) = R.φ s.b * R.φ s.z ^ 2^(c + 1) := by rw [R.φ_mul gb gz', hz']
  rcases h with ⟨hv1, hv2, hx, hb, hz⟩ | ⟨hx, hz, hb⟩
  · by_cases hone : s.b = one
    · -- b = 1: already a root
      have hb1 : R.φ s.b = 1 := (R.eq_one_iff gb).1 hone
      have hK1' : K = 1 := by
        by_contra hne
        exact hmin 1 (le_refl _) (by omega) (by rw [hb1, one_pow])
      have hif : (if s.b ≠ one then mul s.x i.z else s.x) = s.x := by rw [if_neg]; simpa using hone
      simp only [hif]
      refine ⟨gx, R.good_mul gb gz', gz', Or.inr ⟨by rw [hx, hb1, mul_one], ?_, ?_⟩⟩
      · show R.φ (sq i.z) ^ 2 = 1
        rw [hz', ← pow_mul]
        have e : 2^(c + 1) * 2 = 2^(s.v - 1) * 2 * 2^(c + 2 - s.v) := by
          rw [← pow_succ, ← pow_succ, ← pow_add]; congr 1
          rcases Nat.lt_or_ge s.v 2 with hv | hv
          · omega
          · have := i7 hv; omega
        rw [e, pow_mul, pow_mul, hz]; simp
      · show R.φ (mul s.b (sq i.z)) ^ 2 = 1
        rw [hb', hb1, one_mul, ← pow_mul]
        have e : 2^(c + 1) * 2 = 2^(s.v - 1) * 2 * 2^(c + 2 - s.v) := by
          rw [← pow_succ, ← pow_succ, ← pow_add]; congr 1
          rcases Nat.lt_or_ge s.v 2 with hv | hv
          · omega
          · have := i7 hv; omega
        rw [e, pow_mul, pow_mul, hz]; simp
    · have hb1 : R.φ s.b ≠ 1 := fun h => hone ((R.eq_one_iff gb).2 h)
      have hv : 2 ≤ s.v := by
        by_contra hlt
        have : s.v - 1 = 0 := by omega
        rw [this, pow_zero, pow_one] at hb
        exact hb1 hb
      have hKv : K ≤ s.v - 1 := by
        by_contra hlt
        exact hmin (s.v - 1) (by omega) (by omega) hb
      have hc := i7 hv
      have hc' : c + K + 1 = s.v := by omega
      have hkn : min K (n + 1 - 2 + 1) = K := by omega
      rw [hkn] at i1
      simp only [ne_eq, hone, not_false_iff, if_true]
      have gx' := R.good_mul gx i5
      have hneg : R.φ s.b ^ 2^(K - 1) = -1 := by
        have hsq : (R.φ s.b ^ 2^(K - 1))^2 = 1 := by
          rw [← pow_mul, ← pow_succ, Nat.sub_add_cancel hK1, hK]
        have hne : R.φ s.b ^ 2^(K - 1) ≠ 1 := by
          rcases Nat.lt_or_ge K 2 with hk | hk
          · have : K - 1 = 0 := by omega
            rw [this, pow_zero, pow_one]; exact hb1
          · exact hmin (K - 1) (by omega) (by omega)
        rcases (sq_eq_one_iff_of_field hsq) with h | h
        · exact absurd h hne
        · exact h
      have hzz : R.φ (sq i.z) ^ 2^(K - 1) = -1 := by
        rw [hz', ← pow_mul, ← pow_add]
        have : c + 1 + (K - 1) = s.v - 1 := by omega
        rw [this]; exact hz
      refine ⟨gx', R.good_mul gb gz', gz', Or.inl ⟨?_, ?_, ?_, ?_, ?_⟩⟩
      · show 1 ≤ i.k
        rw [i1]; exact hK1
      · show i.k ≤ max n 1
        rw [i1]; omega
      · show R.φ (mul s.x i.z) ^ 2 = a * R.φ (mul s.b (sq i.z))
        rw [R.φ_mul gx i5, R.φ_mul gb gz', mul_pow, hx, R.φ_sq i5]; ring
      · show R.φ (mul s.b (sq i.z)) ^ 2^(i.k - 1) = 1
        rw [i1, R.φ_mul gb gz', mul_pow, hneg, hzz]; ring
      · show R.φ (sq i.z) ^ 2^(i.k - 1) = -1
        rw [i1]; exact hzz
  · have hzc : R.φ (sq i.z) = 1 := by
      rw [hz', pow_succ, mul_comm, pow_mul, hz, one_pow]
    have hiz : R.φ i.z ^ 2 = 1 := by rw [← R.φ_sq i5]; exact hzc
    refine ⟨?_, R.good_mul gb gz', gz', Or.inr ⟨?_, ?_, ?_⟩⟩
    · show R.Good (if s.b ≠ one then mul s.x i.z else s.x)
      split
      · exact R.good_mul gx i5
      · exact gx
    · show R.φ (if s.b ≠ one then mul s.x i.z else s.x) ^ 2 = a
      split
      · rw [R.φ_mul gx i5, mul_pow, hx, hiz, mul_one]
      · exact hx
    · show R.φ (sq i.z) ^ 2 = 1
      rw [hzc, one_pow]
    · show R.φ (mul s.b (sq i.z)) ^ 2 = 1
      rw [R.φ_mul gb gz', hzc, mul_one, hb]

theorem loop_spec (h2 : (-1 : F) ≠ 1) {a : F} (n : Nat) {s : TSState α} (h : R.Inv a n s) :
    R.Inv a 0 (tsLoop one mul sq n s) := by
  induction n generalizing s with
  | zero => exact h
  | succ n ih => exact ih (R.step_spec h2 h)

/-- The loop keeps its variables in the represented set. -/
theorem loop_good (n : Nat) {s : TSState α} (gx : R.Good s.x) (gb : R.Good s.b) (gz : R.Good s.z) :
    R.Good (tsLoop one mul sq n s).x := by
  have inner : ∀ (l : List Nat) (v : Nat) (t : TSInner α), R.Good t.b2k → R.Good t.z →
      R.Good (l.foldl (tsInnerStep one sq v) t).z := by
    intro l v
    induction l with
    | nil => intro t _ h; exact h
    | cons j l ih =>
      intro t h1 h2
      rw [List.foldl_cons]
      apply ih
      · simp only [tsInnerStep]
        split
        · exact h1
        · exact R.good_sq h1
      · simp only [tsInnerStep]
        split
        · dsimp only
          split
          · exact R.good_sq h2
          · exact h2
        · exact h2
  induction n generalizing s with
  | zero => exact gx
  | succ n ih =>
    have gi : R.Good (tsInner one sq (n + 1) s.v s.b s.z).z := inner _ _ _ (R.good_sq gb) gz
    apply ih
    · show R.Good (if s.b ≠ one then mul s.x _ else s.x)
      split
      · exact R.good_mul gx gi
      · exact gx
    · exact R.good_mul gb (R.good_sq gi)
    · exact R.good_sq gi

/-- A zero input stays zero. -/
theorem loop_zero (n : Nat) {s : TSState α} (gx : R.Good s.x) (gb : R.Good s.b) (gz : R.Good s.z)
    (h : R.φ s.x = 0) : R.Good (tsLoop one mul sq n s).x ∧ R.φ (tsLoop one mul sq n s).x = 0 := by
  have inner : ∀ (l : List Nat) (v : Nat) (t : TSInner α), R.Good t.b2k → R.Good t.z →
      R.Good (l.foldl (tsInnerStep one sq v) t).z := by
    intro l v
    induction l with
    | nil => intro t _ h; exact h
    | cons j l ih =>
      intro t h1 h2
      rw [List.foldl_cons]
      apply ih
      · simp only [tsInnerStep]
        split
        · exact h1
        · exact R.good_sq h1
      · simp only [tsInnerStep]
        split
        · dsimp only
          split
          · exact R.good_sq h2
          · exact h2
        · exact h2
  induction n generalizing s with
  | zero => exact ⟨gx, h⟩
  | succ n ih =>
    have gi : R.Good (tsInner one sq (n + 1) s.v s.b s.z).z := inner _ _ _ (R.good_sq gb) gz
    apply ih
    · show R.Good (if s.b ≠ one then mul s.x _ else s.x)
      split
      · exact R.good_mul gx gi
      · exact gx
    · exact R.good_mul gb (R.good_sq gi)
    · exact R.good_sq gi
    · show R.φ (if s.b ≠ one then mul s.x _ else s.x) = 0
      split
      · rw [R.φ_mul gx gi, h, zero_mul]
      · exact h

/-- Tonelli-Shanks succeeds on every square: `q - 1 = 2^S t`, exponent literal `(t-1)/2`. -/
theorem tonelliShanks_spec (h2 : (-1 : F) ≠ 1) {a root : α} (ha : R.Good a) (hr : R.Good root)
    (wBits : List Nat) (hb : ∀ x ∈ wBits, x = 0 ∨ x = 1) (S : Nat) (hS : 1 ≤ S)
    (hroot : R.φ root ^ 2^(S - 1) = -1)
    (hsquare : ∀ y : F, y ≠ 0 → (y ^ 2) ^ ((2 * beValue 2 wBits + 1) * 2^(S - 1)) = 1) :
    (∃ r, tonelliShanks one mul sq wBits S root a = some r ∧ R.Good r ∧ R.φ r * R.φ r = R.φ a) ↔
      ∃ y, y * y = R.φ a := by
  constructor
  · rintro ⟨r, -, -, hr⟩; exact ⟨_, hr⟩
  · rintro ⟨y, hy⟩
    obtain ⟨gw, hw⟩ := R.powVartime_spec ha wBits hb
    have gx := R.good_mul gw ha
    have gb := R.good_mul gx gw
    have hfin : R.Good (tsLoop one mul sq S ⟨S, mul (powVartimeBits one mul sq a wBits) a,
          mul (mul (powVartimeBits one mul sq a wBits) a) (powVartimeBits one mul sq a wBits), root⟩).x ∧
        R.φ (tsLoop one mul sq S ⟨S, mul (powVartimeBits one mul sq a wBits) a,
          mul (mul (powVartimeBits one mul sq a wBits) a) (powVartimeBits one mul sq a wBits), root⟩).x ^ 2
          = R.φ a := by
      by_cases hy0 : y = 0
      · rw [hy0, zero_mul] at hy
        obtain ⟨z1, z2⟩ := R.loop_zero S (s := ⟨S, _, _, root⟩) gx gb hr
          (by rw [R.φ_mul gw ha, ← hy, mul_zero])
        exact ⟨z1, by rw [z2, ← hy]; ring⟩
      · have inv : R.Inv (R.φ a) S ⟨S, mul (powVartimeBits one mul sq a wBits) a,
            mul (mul (powVartimeBits one mul sq a wBits) a) (powVartimeBits one mul sq a wBits), root⟩ := by
          refine ⟨gx, gb, hr, Or.inl ⟨hS, le_max_left _ _, ?_, ?_, hroot⟩⟩
          · show R.φ (mul _ a) ^ 2 = R.φ a * R.φ (mul _ _)
            rw [R.φ_mul gx gw, R.φ_mul gw ha]; ring
          · show R.φ (mul _ _) ^ 2^(S - 1) = 1
            rw [R.φ_mul gx gw, R.φ_mul gw ha, hw]
            have : R.φ a ^ beValue 2 wBits * R.φ a * R.φ a ^ beValue 2 wBits =
                R.φ a ^ (2 * beValue 2 wBits + 1) := by ring
            rw [this, ← pow_mul, ← hy, ← pow_two]
            exact hsquare y hy0
        obtain ⟨g, gb', -, h⟩ := R.loop_spec h2 S inv
        refine ⟨g, ?_⟩
        rcases h with ⟨h1, h3, h4, h5, -⟩ | ⟨h, -, -⟩
        · have hv : (tsLoop one mul sq S ⟨S, mul (powVartimeBits one mul sq a wBits) a,
            mul (mul (powVartimeBits one mul sq a wBits) a) (powVartimeBits one mul sq a wBits), root⟩).v = 1 := by
            omega
          rw [hv] at h5
          simp only [Nat.sub_self, pow_zero, pow_one] at h5
          rw [h4, h5, mul_one]
        · exact h
    refine ⟨_, ?_, hfin.1, by rw [← pow_two]; exact hfin.2⟩
    unfold tonelliShanks
    rw [if_pos]
    exact R.φ_inj (R.good_sq hfin.1) ha (by rw [R.φ_sq hfin.1, hfin.2])

theorem sqrtByPow_spec {a : α} (ha : R.Good a) (eBits : List Nat) (hb : ∀ x ∈ eBits, x = 0 ∨ x = 1)
    (hsquare : ∀ y : F, ((y ^ 2) ^ beValue 2 eBits) ^ 2 = y ^ 2) :
    (∃ r, sqrtByPow one mul sq eBits a = some r ∧ R.Good r ∧ R.φ r * R.φ r = R.φ a) ↔
      ∃ y, y * y = R.φ a := by
  constructor
  · rintro ⟨r, -, -, hr⟩; exact ⟨_, hr⟩
  · rintro ⟨y, hy⟩
    obtain ⟨gw, hw⟩ := R.powVartime_spec ha eBits hb
    have key : R.φ (powVartimeBits one mul sq a eBits) ^ 2 = R.φ a := by
      rw [hw, ← hy, ← pow_two]; exact hsquare y
    refine ⟨_, ?_, gw, by rw [← pow_two]; exact key⟩
    unfold sqrtByPow
    rw [if_pos]
    exact R.φ_inj (R.good_sq gw) ha (by rw [R.φ_sq gw, key])

/-- Whatever is returned is in the represented set. -/
theorem tonelliShanks_good {a r root : α} (ha : R.Good a) (hr : R.Good root) {wBits : List Nat}
    (hb : ∀ x ∈ wBits, x = 0 ∨ x = 1) {S : Nat}
    (h : tonelliShanks one mul sq wBits S root a = some r) : R.Good r := by
  unfold tonelliShanks at h
  simp only [Option.ite_none_right_eq_some, Option.some.injEq] at h
  rw [← h.2]
  obtain ⟨gw, -⟩ := R.powVartime_spec ha wBits hb
  exact R.loop_good _ (R.good_mul gw ha) (R.good_mul (R.good_mul gw ha) gw) hr

theorem sqrtByPow_some {a r : α} (ha : R.Good a) {eBits : List Nat} (hb : ∀ x ∈ eBits, x = 0 ∨ x = 1)
    (h : sqrtByPow one mul sq eBits a = some r) : R.Good r ∧ sq r = a := by
  unfold sqrtByPow at h
  simp only [Option.ite_none_right_eq_some, Option.some.injEq] at h
  rw [← h.2]
  exact ⟨(R.powVartime_spec ha eBits hb).1, h.1⟩

/-- A returned root really is one. -/
theorem tonelliShanks_some {a r root : α} {wBits : List Nat} {S : Nat}
    (h : tonelliShanks one mul sq wBits S root a = some r) : sq r = a := by
  unfold tonelliShanks at h
  simp only [Option.ite_none_right_eq_some, Option.some.injEq] at h
  rw [← h.2]; exact h.1

end FieldRep

/-- The limb implementation, with exact squaring, represents `ZMod p`. -/
def limbRep (P : FieldParams) (hP : ValidParams P) [Fact P.m.Prime] :
    FieldRep L4 (ZMod P.m) P.one P.mul (fun x => P.mul x x) where
  Good := Canonical P
  φ := denote P
  good_one := r_canonical hP
  good_mul := fun ha hb => (mul_denote hP ha hb).1
  good_sq := fun ha => (mul_denote hP ha ha).1
  φ_one := denote_one hP
  φ_mul := fun ha hb => (mul_denote hP ha hb).2
  φ_sq := fun ha => by rw [pow_two]; exact (mul_denote hP ha ha).2
  φ_inj := fun ha hb h => denote_inj hP ha hb h

theorem frParams_prime : Nat.Prime frParams.m :=
  prime_21888242871839275222246405745257275088548364400416034343698204186575808495617

theorem fqParams_prime : Nat.Prime fqParams.m :=
  prime_21888242871839275222246405745257275088696311157297823662689037894645226208583

end Kogarashi.Field
