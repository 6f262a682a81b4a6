import Verif.Groth16.Fft
import Verif.Groth16.PolyProof
import Mathlib.RingTheory.RootsOfUnity.PrimitiveRoots
import Mathlib.Algebra.Order.BigOperators.Group.Finset
import Mathlib.Algebra.Field.GeomSum
import Mathlib.Tactic.FieldSimp

/-! # Correctness of the fast Fourier transform -/

namespace Kogarashi.Groth16

open Spec Polynomial

/-! ### Bit reversal -/

theorem revBits_lt (w i : Nat) : revBits w i < 2 ^ w := by
  induction w generalizing i with
  | zero => simp [revBits]
  | succ w ih =>
    have := ih (i / 2)
    have h2 : i % 2 ≤ 1 := by omega
    simp only [revBits, pow_succ]
    nlinarith

theorem revBits_split (k d i : Nat) : revBits (k + d) i = 2 ^ d * revBits k i + revBits d (i / 2 ^ k) := by
  induction k generalizing i with
  | zero => simp [revBits]
  | succ k ih =>
    rw [show k + 1 + d = (k + d) + 1 by ring, revBits, revBits, ih, pow_add, Nat.div_div_eq_div_mul, ← pow_succ']
    ring

theorem revBits_top (w i : Nat) : revBits (w + 1) i = 2 * revBits w i + (i / 2 ^ w) % 2 := by
  rw [revBits_split]; simp [revBits]

theorem revBits_shift {k : Nat} (hk : k ≤ 64) (i : Nat) : revBits 64 i / 2 ^ (64 - k) = revBits k i := by
  have := revBits_split k (64 - k) i
  rw [show k + (64 - k) = 64 by omega] at this
  rw [this, Nat.mul_add_div (by positivity), Nat.div_eq_of_lt (revBits_lt _ _), add_zero]

theorem revBits_add (k x y : Nat) : revBits k (2 ^ k * y + x) = revBits k x := by
  induction k generalizing x y with
  | zero => simp [revBits]
  | succ k ih =>
    rw [revBits, revBits]
    have h1 : (2 ^ (k + 1) * y + x) % 2 = x % 2 := by
      rw [pow_succ', mul_assoc, Nat.mul_add_mod]
    have h2 : (2 ^ (k + 1) * y + x) / 2 = 2 ^ k * y + x / 2 := by
      rw [pow_succ', mul_assoc, Nat.mul_add_div (by norm_num)]
    rw [h1, h2, ih]

theorem revBits_revBits {k i : Nat} (h : i < 2 ^ k) : revBits k (revBits k i) = i := by
  induction k generalizing i with
  | zero => simp [revBits] at *; omega
  | succ k ih =>
    conv_lhs => rw [revBits_top]
    have hr : revBits (k + 1) i = 2 ^ k * (i % 2) + revBits k (i / 2) := rfl
    have h1 : revBits k (revBits (k + 1) i) = i / 2 := by
      rw [hr, revBits_add, ih (by rw [pow_succ] at h; omega)]
    have h2 : revBits (k + 1) i / 2 ^ k = i % 2 := by
      rw [hr, Nat.mul_add_div (by positivity), Nat.div_eq_of_lt (revBits_lt _ _), add_zero]
    rw [h1, h2]; omega

theorem revBits_low {k i : Nat} (h : i < 2 ^ k) : revBits (k + 1) i = 2 * revBits k i := by
  rw [revBits_top, Nat.div_eq_of_lt h]; simp

theorem revBits_high {k i : Nat} (h : i < 2 ^ k) : revBits (k + 1) (2 ^ k + i) = 2 * revBits k i + 1 := by
  rw [revBits_top]
  have h1 : (2 ^ k + i) / 2 ^ k = 1 := by
    rw [Nat.add_div_left _ (by positivity), Nat.div_eq_of_lt h]
  have := revBits_add k i 1
  rw [mul_one] at this
  rw [h1, this]

variable {F : Type} [Field F]

/-! ### The swaps -/

theorem swapAt_length (l : List F) (i j : Nat) : (swapAt l i j).length = l.length := by simp [swapAt]

theorem swapAt_getD (l : List F) {i j : Nat} (hi : i < l.length) (hj : j < l.length) (t : Nat) :
    (swapAt l i j).getD t 0 = if t = j then l.getD i 0 else if t = i then l.getD j 0 else l.getD t 0 := by
  unfold swapAt
  simp only [List.getD_eq_getElem?_getD, List.getElem?_set, List.length_set]
  by_cases h1 : j = t
  · subst h1; simp [hj]
  · by_cases h2 : i = t
    · subst h2; simp [hi, h1, Ne.symm h1]
    · simp [h1, h2, Ne.symm h1, Ne.symm h2]

/-- The pairs up to `j`. -/
def pairsUpTo (k j : Nat) : List (Nat × Nat) :=
  (List.range j).filterMap (fun i =>
    let r := revBits 64 i / 2 ^ (64 - k)
    if i < r then some (i, r) else none)

theorem swaps_spec {k : Nat} (hk : k ≤ 64) (l : List F) (hl : l.length = 2 ^ k) (j : Nat) (hj : j ≤ 2 ^ k) :
    ((pairsUpTo k j).foldl (fun acc e => swapAt acc e.2 e.1) l).length = 2 ^ k ∧
    ∀ t, t < 2 ^ k → ((pairsUpTo k j).foldl (fun acc e => swapAt acc e.2 e.1) l).getD t 0 =
      if min t (revBits k t) < j then l.getD (revBits k t) 0 else l.getD t 0 := by
  induction j with
  | zero => simp [pairsUpTo, hl]
  | succ j ih =>
    obtain ⟨ih1, ih2⟩ := ih (by omega)
    have hstep : pairsUpTo k (j + 1) = pairsUpTo k j ++ (if j < revBits k j then [(j, revBits k j)] else []) := by
      unfold pairsUpTo
      rw [List.range_succ, List.filterMap_append]
      congr 1
      simp only [List.filterMap_cons, List.filterMap_nil, revBits_shift hk]
      split <;> simp_all
    rw [hstep, List.foldl_append]
    generalize hcur : (pairsUpTo k j).foldl (fun acc e => swapAt acc e.2 e.1) l = cur at *
    have hjn : j < 2 ^ k := by omega
    have hrn := revBits_lt k j
    have hrr := revBits_revBits hjn
    split
    · rename_i hlt
      simp only [List.foldl_cons, List.foldl_nil]
      refine ⟨by rw [swapAt_length, ih1], fun t ht => ?_⟩
      rw [swapAt_getD cur (by omega) (by omega)]
      by_cases h1 : t = j
      · subst h1
        rw [if_pos rfl, if_pos (by omega), ih2 _ hrn, hrr, if_neg (by omega)]
      · rw [if_neg h1]
        by_cases h2 : t = revBits k j
        · rw [if_pos h2, h2, ih2 _ hjn, hrr, if_neg (by omega), if_pos (by omega)]
        · rw [if_neg h2, ih2 t ht]
          have h3 : revBits k t ≠ j := by
            intro h; apply h2; rw [← h, revBits_revBits ht]
          by_cases h4 : min t (revBits k t) < j
          · rw [if_pos h4, if_pos (by omega)]
          · rw [if_neg h4, if_neg (by omega)]
    · rename_i hge
      simp only [List.foldl_nil]
      refine ⟨ih1, fun t ht => ?_⟩
      rw [ih2 t ht]
      by_cases h4 : min t (revBits k t) < j
      · rw [if_pos h4, if_pos (by omega)]
      · rw [if_neg h4]
        by_cases h5 : min t (revBits k t) < j + 1
        · rw [if_pos h5]
          have h6 : min t (revBits k t) = j := by omega
          rcases Nat.le_total t (revBits k t) with h | h
          · rw [min_eq_left h] at h6
            subst h6
            rw [show revBits k t = t by omega]
          · rw [min_eq_right h] at h6
            have h7 : revBits k j = t := by rw [← h6, revBits_revBits ht]
            rw [show revBits k t = t by omega]
        · rw [if_neg h5]

theorem eq_map_range {n : Nat} {l : List F} (hl : l.length = n) {f : Nat → F} (h : ∀ i, i < n → l.getD i 0 = f i) :
    l = (List.range n).map f := by
  apply List.ext_getElem (by simp [hl])
  intro i h1 h2
  have := h i (by omega)
  rw [List.getD_eq_getElem _ _ h1] at this
  simpa using this

theorem getD_map_range {n : Nat} {f : Nat → F} {i : Nat} (h : i < n) : ((List.range n).map f).getD i 0 = f i := by
  rw [List.getD_eq_getElem _ _ (by simpa using h)]; simp

theorem resize_length (l : List F) (n : Nat) : (resize l n).length = n := by
  simp only [resize, List.length_append, List.length_take, List.length_replicate]; omega

theorem resize_getD (l : List F) (n i : Nat) (h : i < n) : (resize l n).getD i 0 = l.getD i 0 := by
  unfold resize
  simp only [List.getD_eq_getElem?_getD, List.getElem?_append, List.length_take, List.getElem?_take,
    List.getElem?_replicate]
  by_cases h1 : i < l.length
  · rw [if_pos (by omega), if_pos h]
  · rw [if_neg (by omega)]
    rw [show l[i]? = none from List.getElem?_eq_none (by omega)]
    split <;> simp

theorem prepareFft_eq {k : Nat} (hk : k ≤ 64) {f : Fft F} (hn : f.n = 2 ^ k) (hb : f.bitReverse = bitReversePairs k)
    (l : List F) : prepareFft f l = (List.range (2 ^ k)).map (fun i => l.getD (revBits k i) 0) := by
  have h := swaps_spec hk (resize l (2 ^ k)) (resize_length _ _) (2 ^ k) le_rfl
  unfold prepareFft
  rw [hn, hb]
  refine eq_map_range h.1 (fun i hi => ?_)
  have := h.2 i hi
  rw [if_pos (by omega)] at this
  rw [this, resize_getD _ _ _ (revBits_lt _ _)]

/-! ### The butterflies -/

theorem sum_even_odd (f : Nat → F) (n : Nat) : ∑ j ∈ Finset.range (2 * n), f j =
    (∑ j ∈ Finset.range n, f (2 * j)) + ∑ j ∈ Finset.range n, f (2 * j + 1) := by
  induction n with
  | zero => simp
  | succ n ih =>
    rw [show 2 * (n + 1) = 2 * n + 1 + 1 by ring, Finset.sum_range_succ, Finset.sum_range_succ, ih,
      Finset.sum_range_succ, Finset.sum_range_succ]
    ring

theorem map_range_succ {β : Type} (f : Nat → β) (n : Nat) :
    (List.range (n + 1)).map f = f 0 :: (List.range n).map (fun i => f (i + 1)) := by
  rw [List.range_succ_eq_map]; simp [Function.comp_def]

theorem butterflyFrom_eq (chunk : Nat) (tw : List F) (h : F) (n : Nat) : ∀ (i : Nat) (f g : Nat → F),
    (∀ j, j < i + n → tw.getD (j * chunk) 0 = h ^ j) →
    butterflyFrom chunk tw i ((List.range n).map f) ((List.range n).map g) =
      ((List.range n).map (fun j => f j + g j * h ^ (i + j)), (List.range n).map (fun j => f j - g j * h ^ (i + j))) := by
  induction n with
  | zero => intro i f g _; rfl
  | succ n ih =>
    intro i f g ht
    rw [map_range_succ, map_range_succ, butterflyFrom, ih (i + 1) _ _ (fun j hj => ht j (by omega)), ht i (by omega),
      map_range_succ, map_range_succ]
    simp only [add_zero]
    congr 3 <;> (funext j; rw [show i + 1 + j = i + (j + 1) by ring])

theorem butterfly_eq (chunk : Nat) (tw : List F) (h : F) (n : Nat) (f g : Nat → F)
    (ht : ∀ j, j < n → tw.getD (j * chunk) 0 = h ^ j) :
    butterfly chunk tw ((List.range n).map f) ((List.range n).map g) =
      ((List.range n).map (fun j => f j + g j * h ^ j), (List.range n).map (fun j => f j - g j * h ^ j)) := by
  cases n with
  | zero => rfl
  | succ n =>
    rw [map_range_succ, map_range_succ, butterfly, butterflyFrom_eq chunk tw h n 1 _ _ (fun j hj => ht j (by omega)),
      map_range_succ, map_range_succ]
    simp only [pow_zero, mul_one]
    congr 3 <;> (funext j; rw [add_comm 1 j])

/-- The recursion computes the transform of the sequence whose bit-reversed permutation it is given. -/
theorem fftArith_eq (tw : List F) (k : Nat) : ∀ (chunk : Nat) (h : F) (a : Nat → F),
    (∀ j, j < 2 ^ k → tw.getD (j * chunk) 0 = h ^ j) → h ^ (2 ^ k) = -1 →
    fftArith tw k chunk ((List.range (2 ^ (k + 1))).map (fun i => a (revBits (k + 1) i))) =
      (List.range (2 ^ (k + 1))).map (fun i => ∑ j ∈ Finset.range (2 ^ (k + 1)), a j * h ^ (i * j)) := by
  induction k with
  | zero =>
    intro chunk h a _ hh
    simp only [pow_zero, pow_one] at hh
    subst hh
    simp [fftArith, List.range_succ, revBits, Finset.sum_range_succ, sub_eq_add_neg]
  | succ k ih =>
    intro chunk h a ht hh
    have hhalf : 2 ^ (k + 1 + 1) = 2 ^ (k + 1) + 2 ^ (k + 1) := by ring
    have hsplit : (List.range (2 ^ (k + 1 + 1))).map (fun i => a (revBits (k + 1 + 1) i)) =
        (List.range (2 ^ (k + 1))).map (fun i => a (2 * revBits (k + 1) i)) ++
        (List.range (2 ^ (k + 1))).map (fun i => a (2 * revBits (k + 1) i + 1)) := by
      rw [hhalf, List.range_add, List.map_append, List.map_map]
      congr 1
      · apply List.map_congr_left
        intro i hi
        rw [revBits_low (List.mem_range.mp hi)]
      · apply List.map_congr_left
        intro i hi
        simp only [Function.comp_apply]
        rw [revBits_high (List.mem_range.mp hi)]
    have ht' : ∀ j, j < 2 ^ k → tw.getD (j * (chunk * 2)) 0 = (h ^ 2) ^ j := by
      intro j hj
      rw [show j * (chunk * 2) = (2 * j) * chunk by ring, ht (2 * j) (by rw [pow_succ]; omega), pow_mul]
    have hh' : (h ^ 2) ^ (2 ^ k) = -1 := by rw [← pow_mul, ← pow_succ']; exact hh
    have e1 := ih (chunk * 2) (h ^ 2) (fun j => a (2 * j)) ht' hh'
    have e2 := ih (chunk * 2) (h ^ 2) (fun j => a (2 * j + 1)) ht' hh'
    rw [fftArith, hsplit]
    rw [List.take_left' (by simp), List.drop_left' (by simp), e1, e2, butterfly_eq chunk tw h _ _ _ ht]
    simp only
    rw [hhalf, List.range_add, List.map_append, List.map_map]
    have hp : 2 ^ (k + 1) + 2 ^ (k + 1) = 2 * 2 ^ (k + 1) := by ring
    congr 1
    · apply List.map_congr_left
      intro i _
      rw [hp, sum_even_odd, Finset.sum_mul]
      congr 1
      · apply Finset.sum_congr rfl; intro j _; rw [← pow_mul]; congr 2; ring
      · apply Finset.sum_congr rfl; intro j _; rw [← pow_mul, mul_assoc, ← pow_add]; congr 2; ring
    · apply List.map_congr_left
      intro i _
      simp only [Function.comp_apply]
      rw [hp, sum_even_odd, Finset.sum_mul, sub_eq_add_neg, ← Finset.sum_neg_distrib]
      congr 1
      · apply Finset.sum_congr rfl; intro j _
        rw [← pow_mul, show (2 ^ (k + 1) + i) * (2 * j) = 2 ^ (k + 1) * (2 * j) + 2 * (i * j) by ring, pow_add, pow_mul h (2 ^ (k + 1)), hh]
        simp
      · apply Finset.sum_congr rfl; intro j _
        rw [← pow_mul, show (2 ^ (k + 1) + i) * (2 * j + 1) = 2 ^ (k + 1) * (2 * j + 1) + (2 * (i * j) + i) by ring,
          pow_add, pow_mul h (2 ^ (k + 1)), hh, Odd.neg_one_pow ⟨j, rfl⟩, pow_add]
        ring

/-! ### Inversion -/

theorem primitive_of_neg_one {h : F} {k : Nat} (h2 : (2 : F) ≠ 0) (hh : h ^ (2 ^ k) = -1) : IsPrimitiveRoot h (2 ^ (k + 1)) := by
  have hne : ¬ h ^ (2 ^ k) = 1 := by
    rw [hh]; intro e
    apply h2
    linear_combination -e
  have h1 : h ^ (2 ^ (k + 1)) = 1 := by rw [pow_succ, pow_mul, hh]; ring
  have := orderOf_eq_prime_pow (p := 2) hne h1
  rw [← this]; exact IsPrimitiveRoot.orderOf h

theorem inv_transform {h : F} {n : Nat} (hp : IsPrimitiveRoot h n) (hn : (n : F) ≠ 0) (a : Nat → F) {j : Nat} (hj : j < n) :
    (∑ l ∈ Finset.range n, (∑ m ∈ Finset.range n, a m * h ^ (l * m)) * (h⁻¹) ^ (j * l)) * (n : F)⁻¹ = a j := by
  have hn0 : n ≠ 0 := by rintro rfl; simp at hn
  have h0 : h ≠ 0 := hp.ne_zero hn0
  have key : ∀ m, m < n → ∑ l ∈ Finset.range n, h ^ (l * m) * (h⁻¹) ^ (j * l) = if m = j then (n : F) else 0 := by
    intro m hm
    have hx : ∀ l, h ^ (l * m) * (h⁻¹) ^ (j * l) = (h ^ m * (h⁻¹) ^ j) ^ l := by
      intro l; rw [mul_pow, ← pow_mul, ← pow_mul, mul_comm l m]
    simp only [hx]
    split
    · rename_i e; subst e
      rw [inv_pow, mul_inv_cancel₀ (pow_ne_zero _ h0)]; simp
    · rename_i hne
      have hx1 : h ^ m * (h⁻¹) ^ j ≠ 1 := by
        intro e
        apply hne
        apply hp.pow_inj hm hj
        rw [inv_pow] at e
        field_simp at e
        exact e
      rw [geom_sum_eq hx1, mul_pow, ← pow_mul, ← pow_mul, mul_comm m n, mul_comm j n, pow_mul, pow_mul, hp.pow_eq_one,
        inv_pow, hp.pow_eq_one]
      simp
  have hswap : ∑ l ∈ Finset.range n, (∑ m ∈ Finset.range n, a m * h ^ (l * m)) * (h⁻¹) ^ (j * l) =
      ∑ m ∈ Finset.range n, a m * ∑ l ∈ Finset.range n, h ^ (l * m) * (h⁻¹) ^ (j * l) := by
    simp only [Finset.sum_mul, Finset.mul_sum]
    rw [Finset.sum_comm]
    apply Finset.sum_congr rfl; intro m _
    apply Finset.sum_congr rfl; intro l _; ring
  rw [hswap]
  have : ∑ m ∈ Finset.range n, a m * ∑ l ∈ Finset.range n, h ^ (l * m) * (h⁻¹) ^ (j * l) = a j * (n : F) := by
    rw [Finset.sum_eq_single j]
    · rw [key j hj, if_pos rfl]
    · intro m hm hmj
      rw [key m (Finset.mem_range.mp hm), if_neg hmj, mul_zero]
    · intro h; exact absurd (Finset.mem_range.mpr hj) h
  rw [this, mul_assoc, mul_inv_cancel₀ hn, mul_one]

/-! ### The transforms -/

variable [DecidableEq F]

theorem squareTimes_eq (n : Nat) (g : F) : squareTimes n g = g ^ (2 ^ n) := by
  induction n generalizing g with
  | zero => simp [squareTimes]
  | succ n ih => rw [squareTimes, ih, pow_succ', pow_mul]; congr 1; ring

/-- What `Fft::new` establishes; `w` is the root of unity of the domain. -/
structure FftOk (f : Fft F) (k : Nat) (w : F) : Prop where
  k64 : k + 1 ≤ 64
  n : f.n = 2 ^ (k + 1)
  bits : f.bitReverse = bitReversePairs (k + 1)
  tw : f.twiddles = powersFrom w (2 ^ k) 1
  itw : f.invTwiddles = powersFrom w⁻¹ (2 ^ k) 1
  cos : f.cosets = powersFrom f.gen (2 ^ (k + 1)) 1
  icos : f.invCosets = powersFrom f.gen⁻¹ (2 ^ (k + 1)) 1
  nInv : f.nInv = ((2 ^ (k + 1) : Nat) : F)⁻¹
  root : w ^ (2 ^ k) = -1
  n0 : ((2 ^ (k + 1) : Nat) : F) ≠ 0
  gen0 : f.gen ≠ 0

theorem new_ok {S : Nat} {root gen : F} {k : Nat} (hk : k + 1 ≤ S) (hS : S ≤ 64) (h2 : (2 : F) ≠ 0)
    (hroot : root ^ (2 ^ (S - 1)) = -1) (hgen : gen ≠ 0) :
    ∃ f, Fft.new S root gen (k + 1) = some f ∧ FftOk f k (root ^ (2 ^ (S - (k + 1)))) ∧ f.gen = gen := by
  have hw : (root ^ (2 ^ (S - (k + 1)))) ^ (2 ^ k) = -1 := by
    rw [← pow_mul, ← pow_add, show S - (k + 1) + k = S - 1 by omega, hroot]
  have hw0 : root ^ (2 ^ (S - (k + 1))) ≠ 0 := by
    intro h; rw [h, zero_pow (by positivity)] at hw
    exact neg_ne_zero.mpr one_ne_zero hw.symm
  have hn : ((2 ^ (k + 1) : Nat) : F) ≠ 0 := by push_cast; exact pow_ne_zero _ h2
  have hhalf : 2 ^ (k + 1) / 2 = 2 ^ k := by rw [pow_succ]; omega
  refine ⟨Fft.mk (2 ^ (k + 1)) (powersFrom (root ^ (2 ^ (S - (k + 1)))) (2 ^ k) 1)
      (powersFrom (root ^ (2 ^ (S - (k + 1))))⁻¹ (2 ^ k) 1) (powersFrom gen (2 ^ (k + 1)) 1)
      (powersFrom gen⁻¹ (2 ^ (k + 1)) 1) (((2 ^ (k + 1) : Nat) : F)⁻¹) (bitReversePairs (k + 1)) gen, ?_,
    ⟨by omega, rfl, rfl, rfl, rfl, rfl, rfl, rfl, hw, hn, hgen⟩, rfl⟩
  unfold Fft.new
  rw [if_neg (by omega), if_neg (by omega)]
  simp only [invertUnwrap, squareTimes_eq, if_neg hw0, if_neg hgen, if_neg hn, hhalf, Option.bind_eq_bind,
    Option.bind_some]

theorem new_some {S : Nat} {root gen : F} {k : Nat} {f : Fft F} (h : Fft.new S root gen k = some f) :
    0 < k ∧ k ≤ S := by
  unfold Fft.new at h
  split at h
  · simp at h
  · split at h
    · simp at h
    · omega

variable {f : Fft F} {k : Nat} {w : F}

theorem log2_n (ok : FftOk f k w) : f.n.log2 - 1 = k := by rw [ok.n, Nat.log2_two_pow]; omega

theorem getD_powers (g : F) (n j : Nat) (h : j < n) : (powersFrom g n 1).getD (j * 1) 0 = g ^ j := by
  rw [powersFrom_eq, mul_one, getD_map_range h, one_mul]

theorem dft_sum (ok : FftOk f k w) (l : List F) :
    dft f l = (List.range (2 ^ (k + 1))).map (fun i => ∑ j ∈ Finset.range (2 ^ (k + 1)), l.getD j 0 * w ^ (i * j)) := by
  unfold dft
  rw [log2_n ok, prepareFft_eq ok.k64 ok.n ok.bits, ok.tw,
    fftArith_eq _ k 1 w (fun j => l.getD j 0) (fun j hj => getD_powers _ _ _ hj) ok.root]

theorem inv_root (ok : FftOk f k w) : w⁻¹ ^ (2 ^ k) = -1 := by rw [inv_pow, ok.root, inv_neg, inv_one]

/-- `idft` before trimming. -/
theorem idft_sum (ok : FftOk f k w) (l : List F) :
    idft f l = coeffsNew ((List.range (2 ^ (k + 1))).map (fun i =>
      (∑ j ∈ Finset.range (2 ^ (k + 1)), l.getD j 0 * w⁻¹ ^ (i * j)) * ((2 ^ (k + 1) : Nat) : F)⁻¹)) := by
  unfold idft
  rw [log2_n ok, prepareFft_eq ok.k64 ok.n ok.bits, ok.itw,
    fftArith_eq _ k 1 w⁻¹ (fun j => l.getD j 0) (fun j hj => getD_powers _ _ _ hj) (inv_root ok), ok.nInv, List.map_map]
  rfl

theorem dft_eval (ok : FftOk f k w) {l : List F} (hl : l.length ≤ 2 ^ (k + 1)) :
    dft f l = (List.range (2 ^ (k + 1))).map (fun i => (polyOf l).eval (w ^ i)) := by
  rw [dft_sum ok]
  apply List.map_congr_left
  intro i _
  rw [eval_polyOf l _ hl]
  apply Finset.sum_congr rfl; intro j _; rw [pow_mul]

theorem two_ne_zero' (ok : FftOk f k w) : (2 : F) ≠ 0 := by
  intro h; apply ok.n0; push_cast; rw [h]; simp

theorem prim (ok : FftOk f k w) : IsPrimitiveRoot w (2 ^ (k + 1)) := primitive_of_neg_one (two_ne_zero' ok) ok.root

theorem idft_dft (ok : FftOk f k w) {l : List F} (hl : l.length ≤ 2 ^ (k + 1)) : idft f (dft f l) = formatDegree l := by
  rw [idft_sum ok, dft_sum ok]
  unfold coeffsNew
  have e : (List.range (2 ^ (k + 1))).map (fun i =>
      (∑ j ∈ Finset.range (2 ^ (k + 1)), ((List.range (2 ^ (k + 1))).map
        (fun i => ∑ j ∈ Finset.range (2 ^ (k + 1)), l.getD j 0 * w ^ (i * j))).getD j 0 * w⁻¹ ^ (i * j)) *
        ((2 ^ (k + 1) : Nat) : F)⁻¹) = (List.range (2 ^ (k + 1))).map (fun i => l.getD i 0) := by
    apply List.map_congr_left
    intro i hi
    rw [← inv_transform (prim ok) ok.n0 (fun j => l.getD j 0) (List.mem_range.mp hi)]
    congr 1
    apply Finset.sum_congr rfl
    intro j hj
    rw [getD_map_range (Finset.mem_range.mp hj)]
  rw [e]
  refine polyOf_inj_trimmed ?_ (trimmed_formatDegree _) (trimmed_formatDegree _)
  rw [polyOf_formatDegree, polyOf_formatDegree]
  ext i
  rw [coeff_polyOf, coeff_polyOf]
  by_cases hi : i < 2 ^ (k + 1)
  · rw [getD_map_range hi]
  · rw [List.getD_eq_default _ _ (by simp; omega), List.getD_eq_default _ _ (by omega)]

theorem idft_length (ok : FftOk f k w) (l : List F) : (idft f l).length ≤ 2 ^ (k + 1) := by
  rw [idft_sum ok]
  refine (length_formatDegree_le _).trans ?_
  simp

theorem idft_trimmed (l : List F) : Trimmed (idft f l) := trimmed_formatDegree _

theorem coeff_idft (ok : FftOk f k w) (l : List F) {i : Nat} (hi : i < 2 ^ (k + 1)) : (polyOf (idft f l)).coeff i =
    (∑ j ∈ Finset.range (2 ^ (k + 1)), l.getD j 0 * w⁻¹ ^ (i * j)) * ((2 ^ (k + 1) : Nat) : F)⁻¹ := by
  rw [idft_sum ok, coeffsNew, polyOf_formatDegree, coeff_polyOf, getD_map_range hi]

theorem eval_idft (ok : FftOk f k w) (l : List F) {i : Nat} (hi : i < 2 ^ (k + 1)) :
    (polyOf (idft f l)).eval (w ^ i) = l.getD i 0 := by
  rw [idft_sum ok, coeffsNew, polyOf_formatDegree, eval_polyOf _ _ (n := 2 ^ (k + 1)) (by simp)]
  have hp : IsPrimitiveRoot w⁻¹ (2 ^ (k + 1)) := (prim ok).inv
  have := inv_transform hp ok.n0 (fun j => l.getD j 0) hi
  rw [inv_inv] at this
  rw [← this, Finset.sum_mul]
  apply Finset.sum_congr rfl
  intro j hj
  rw [getD_map_range (Finset.mem_range.mp hj), ← pow_mul]
  ring

theorem dft_idft (ok : FftOk f k w) {l : List F} (hl : l.length = 2 ^ (k + 1)) : dft f (idft f l) = l := by
  rw [dft_eval ok (idft_length ok l)]
  symm
  refine eq_map_range hl (fun i hi => ?_)
  rw [eval_idft ok l hi]

/-! ### Cosets -/

theorem cosetScale_getD (c : List F) (g : F) (n i : Nat) (u : F) (hc : c.length ≤ n) :
    (cosetScale c (powersFrom g n u)).getD i 0 = c.getD i 0 * (u * g ^ i) := by
  induction c generalizing n i u with
  | nil => cases n <;> simp [cosetScale, powersFrom]
  | cons a as ih =>
    cases n with
    | zero => simp at hc
    | succ n =>
      cases i with
      | zero => simp [cosetScale, powersFrom]
      | succ i =>
        have := ih n i (u * g) (by simpa using hc)
        simp only [powersFrom, cosetScale, List.getD_cons_succ]
        rw [this, pow_succ']; ring

theorem cosetScale_length (c s : List F) : (cosetScale c s).length = c.length := by
  induction c generalizing s with
  | nil => cases s <;> rfl
  | cons a as ih => cases s <;> simp [cosetScale, ih]

theorem eval_cosetScale (c : List F) (g x : F) {n : Nat} (hc : c.length ≤ n) :
    (polyOf (cosetScale c (powersFrom g n 1))).eval x = (polyOf c).eval (g * x) := by
  rw [eval_polyOf _ _ (n := n) (by rw [cosetScale_length]; exact hc), eval_polyOf _ _ hc]
  apply Finset.sum_congr rfl; intro j _
  rw [cosetScale_getD _ _ _ _ _ hc, mul_pow]; ring

theorem cosetDft_eval (ok : FftOk f k w) {l : List F} (hl : l.length ≤ 2 ^ (k + 1)) :
    cosetDft f l = (List.range (2 ^ (k + 1))).map (fun i => (polyOf l).eval (f.gen * w ^ i)) := by
  unfold cosetDft
  rw [dft_eval ok (by rw [cosetScale_length]; exact hl), ok.cos]
  apply List.map_congr_left
  intro i _
  rw [eval_cosetScale _ _ _ hl]

theorem cosetIdft_length (ok : FftOk f k w) (l : List F) : (cosetIdft f l).length ≤ 2 ^ (k + 1) := by
  unfold cosetIdft coeffsNew
  refine (length_formatDegree_le _).trans ?_
  rw [cosetScale_length]; exact idft_length ok l

theorem eval_cosetIdft (ok : FftOk f k w) (l : List F) {i : Nat} (hi : i < 2 ^ (k + 1)) :
    (polyOf (cosetIdft f l)).eval (f.gen * w ^ i) = l.getD i 0 := by
  unfold cosetIdft coeffsNew
  rw [polyOf_formatDegree, ok.icos, eval_cosetScale _ _ _ (idft_length ok l), inv_mul_cancel_left₀ ok.gen0,
    eval_idft ok l hi]

end Kogarashi.Groth16
