import Verif.Field.Square
import Verif.Field.Value
import Mathlib.RingTheory.Polynomial.Cyclotomic.Basic
import Mathlib.FieldTheory.Finite.Basic

/-!
# How many elements lose a carry when squared

A carry is lost only if the fifth limb of a certain sum is all ones.  Here such inputs are counted.
-/

set_option exponentiation.threshold 1600

namespace Kogarashi.Field

open Limbs Kogarashi Spec

/-- Solutions of `M - W ≤ xK + L < M`, up to a multiple of `M`. -/
theorem count_interval (N K L U W : Nat) (hK : 0 < K) :
    ((Finset.range N).filter (fun x => U ≤ x * K + L + W ∧ x * K + L < U)).card ≤ W / K + 1 := by
  rcases Finset.eq_empty_or_nonempty ((Finset.range N).filter (fun x => U ≤ x * K + L + W ∧ x * K + L < U)) with h | h
  · rw [h]; simp
  · set s := (Finset.range N).filter (fun x => U ≤ x * K + L + W ∧ x * K + L < U)
    have h0 := Finset.min'_mem s h
    have sub : s ⊆ Finset.Icc (s.min' h) (s.min' h + W / K) := by
      intro x hx
      have hle := Finset.min'_le s x hx
      refine Finset.mem_Icc.mpr ⟨hle, ?_⟩
      have h1 := (Finset.mem_filter.mp h0).2.1
      have h2 := (Finset.mem_filter.mp hx).2.2
      obtain ⟨d, hd⟩ := Nat.exists_eq_add_of_le hle
      rw [hd]
      rw [hd, Nat.add_mul] at h2
      have : d ≤ W / K := (Nat.le_div_iff_mul_le hK).mpr (by omega)
      omega
    refine (Finset.card_le_card sub).trans ?_
    rw [Nat.card_Icc]
    generalize W / K = d
    omega

theorem count_mod (N K L M W : Nat) (hK : 0 < K) (hN : N * K ≤ M) :
    ((Finset.range N).filter (fun x => M ≤ (x * K + L) % M + W)).card ≤ 2 * (W / K + 1) := by
  have sub : (Finset.range N).filter (fun x => M ≤ (x * K + L) % M + W) ⊆
      (Finset.range N).filter (fun x => M * (L / M + 1) ≤ x * K + L + W ∧ x * K + L < M * (L / M + 1)) ∪
      (Finset.range N).filter (fun x => M * (L / M + 1 + 1) ≤ x * K + L + W ∧ x * K + L < M * (L / M + 1 + 1)) := by
    intro x hx
    obtain ⟨hx, hb⟩ := Finset.mem_filter.mp hx
    have hxN := Finset.mem_range.mp hx
    have hM : x * K + K ≤ M := (by rw [← Nat.succ_mul]; exact Nat.mul_le_mul_right K hxN : x * K + K ≤ N * K).trans hN
    have e1 := Nat.div_add_mod L M
    have e2 := Nat.div_add_mod (x * K + L) M
    have m1 := Nat.mod_lt L (show 0 < M by omega)
    have m2 := Nat.mod_lt (x * K + L) (show 0 < M by omega)
    have q1 : L / M ≤ (x * K + L) / M := Nat.div_le_div_right (Nat.le_add_left _ _)
    have q2 : (x * K + L) / M ≤ L / M + 1 := by
      rw [← Nat.add_div_right L (show 0 < M by omega)]
      exact Nat.div_le_div_right (by omega)
    rw [Finset.mem_union, Finset.mem_filter, Finset.mem_filter]
    rcases (by omega : (x * K + L) / M = L / M ∨ (x * K + L) / M = L / M + 1) with h | h <;> rw [h] at e2
    · left; refine ⟨hx, ?_⟩
      rw [Nat.mul_succ]; omega
    · right; refine ⟨hx, ?_⟩
      rw [Nat.mul_succ M (L / M + 1)]; omega
  refine (Finset.card_le_card sub).trans ((Finset.card_union_le _ _).trans ?_)
  have h1 := count_interval N K L (M * (L / M + 1)) W hK
  have h2 := count_interval N K L (M * (L / M + 1 + 1)) W hK
  omega

/-- The harmonic sum, by halves. -/
theorem harmonic_le (B k : Nat) : ∑ a ∈ Finset.Ico 1 (2 ^ k), B / a ≤ k * B := by
  induction k with
  | zero => simp
  | succ k ih =>
    have h1 : 1 ≤ 2 ^ k := Nat.one_le_two_pow
    have e : 2 ^ (k + 1) = 2 * 2 ^ k := by rw [pow_succ, mul_comm]
    rw [← Finset.sum_Ico_consecutive (fun a => B / a) h1 (show 2 ^ k ≤ 2 ^ (k + 1) by omega)]
    have : ∑ a ∈ Finset.Ico (2 ^ k) (2 ^ (k + 1)), B / a ≤ ∑ a ∈ Finset.Ico (2 ^ k) (2 ^ (k + 1)), B / 2 ^ k :=
      Finset.sum_le_sum fun a ha => Nat.div_le_div_left (Finset.mem_Ico.mp ha).1 h1
    rw [Finset.sum_const, Nat.card_Ico, smul_eq_mul] at this
    have h3 : (2 ^ (k + 1) - 2 ^ k) * (B / 2 ^ k) ≤ B := by
      rw [show 2 ^ (k + 1) - 2 ^ k = 2 ^ k by omega]; exact Nat.mul_div_le _ _
    rw [Nat.succ_mul]
    omega

/-- At most this many second limbs are bad for a given top limb. -/
def rowBound (B a3 : Nat) : Nat := if a3 = 0 then B else 2 * (B / a3 + 1)

theorem rowBound_sum (B k : Nat) : ∑ a ∈ Finset.range (2 ^ k), rowBound B a ≤ B + 2 * (k * B + 2 ^ k) := by
  have h1 : 1 ≤ 2 ^ k := Nat.one_le_two_pow
  rw [Finset.range_eq_Ico, ← Finset.sum_Ico_consecutive _ (Nat.zero_le 1) h1]
  have e0 : ∑ a ∈ Finset.Ico 0 1, rowBound B a = B := by simp [rowBound]
  have e1 : ∑ a ∈ Finset.Ico 1 (2 ^ k), rowBound B a = 2 * (∑ a ∈ Finset.Ico 1 (2 ^ k), B / a) + 2 * (2 ^ k - 1) := by
    rw [Finset.sum_congr rfl (fun a ha => show rowBound B a = 2 * (B / a) + 2 by
      have := (Finset.mem_Ico.mp ha).1
      rw [rowBound, if_neg (by omega)]; omega), Finset.sum_add_distrib, ← Finset.mul_sum]
    simp [mul_comm]
  have := harmonic_le B k
  omega

/-- The sum the code adds last to. -/
def early (B a0 a1 a2 a3 : Nat) : Nat :=
  a0 * a1 * B + a0 * a2 * B ^ 2 + a0 * a3 * B ^ 3 + a1 * a3 * B ^ 4 + a2 * a3 * B ^ 5

theorem row_count {B a0 a2 a3 : Nat} (hB : 0 < B) (h0 : a0 < B) (h3 : a3 < B) :
    ((Finset.range B).filter (fun a1 => B ^ 6 ≤ early B a0 a1 a2 a3 % B ^ 6 + B ^ 5)).card ≤ rowBound B a3 := by
  unfold rowBound
  split
  · exact (Finset.card_filter_le _ _).trans (by rw [Finset.card_range])
  · rename_i hz
    have hK : 0 < a0 * B + a3 * B ^ 4 := by positivity
    have hN : B * (a0 * B + a3 * B ^ 4) ≤ B ^ 6 := by
      have h1 : a0 * B + a3 * B ^ 4 ≤ B ^ 5 := by
        have e1 : a0 * B ≤ B ^ 2 := by rw [pow_two]; exact Nat.mul_le_mul_right B h0.le
        have e2 : B ^ 2 ≤ B ^ 4 := Nat.pow_le_pow_right hB (by norm_num)
        have e3 : (a3 + 1) * B ^ 4 ≤ B ^ 5 := by rw [pow_succ' B 4]; exact Nat.mul_le_mul_right _ h3
        rw [Nat.succ_mul] at e3
        omega
      rw [pow_succ' B 5]
      exact Nat.mul_le_mul_left B h1
    have e : ∀ a1, early B a0 a1 a2 a3 = a1 * (a0 * B + a3 * B ^ 4) + (a0 * a2 * B ^ 2 + a0 * a3 * B ^ 3 + a2 * a3 * B ^ 5) := by
      intro a1; unfold early; ring
    simp only [e]
    refine (count_mod B _ _ (B ^ 6) (B ^ 5) hK hN).trans ?_
    have : B ^ 5 / (a0 * B + a3 * B ^ 4) ≤ B / a3 := by
      refine (Nat.div_le_div_left (show a3 * B ^ 4 ≤ _ from Nat.le_add_left _ _) (by positivity)).trans ?_
      rw [pow_succ' B 4, Nat.mul_div_mul_right _ _ (by positivity)]
    omega

/-- The limbs whose sum is about to overflow, with the top limb below `2^k`. -/
def badLimbs (B k : Nat) : Finset (((Nat × Nat) × Nat) × Nat) :=
  ((((Finset.range B ×ˢ Finset.range B) ×ˢ Finset.range (2 ^ k)) ×ˢ Finset.range B)).filter
    (fun x => B ^ 6 ≤ early B x.1.1.1 x.2 x.1.1.2 x.1.2 % B ^ 6 + B ^ 5)

theorem badLimbs_card {B k : Nat} (hB : 0 < B) (hk : 2 ^ k ≤ B) : (badLimbs B k).card ≤ B * B * (B + 2 * (k * B + 2 ^ k)) := by
  unfold badLimbs
  rw [Finset.card_filter, Finset.sum_product]
  have h1 : ∀ x ∈ (Finset.range B ×ˢ Finset.range B) ×ˢ Finset.range (2 ^ k),
      (∑ a1 ∈ Finset.range B, if B ^ 6 ≤ early B x.1.1 a1 x.1.2 x.2 % B ^ 6 + B ^ 5 then 1 else 0) ≤ rowBound B x.2 := by
    intro x hx
    simp only [Finset.mem_product, Finset.mem_range] at hx
    rw [← Finset.card_filter]
    exact row_count hB hx.1.1 (by omega)
  refine (Finset.sum_le_sum h1).trans ?_
  rw [Finset.sum_product]
  dsimp only
  rw [Finset.sum_const, Finset.card_product, Finset.card_range, smul_eq_mul]
  exact Nat.mul_le_mul_left _ (rowBound_sum B k)

theorem mem_badLimbs {B k a0 a1 a2 a3 : Nat} (h0 : a0 < B) (h1 : a1 < B) (h2 : a2 < B) (h3 : a3 < 2 ^ k)
    (h : B ^ 6 ≤ early B a0 a1 a2 a3 % B ^ 6 + B ^ 5) : (((a0, a2), a3), a1) ∈ badLimbs B k := by
  unfold badLimbs
  simp only [Finset.mem_filter, Finset.mem_product, Finset.mem_range]
  exact ⟨⟨⟨⟨h0, h2⟩, h3⟩, h1⟩, h⟩

theorem lost_early {B k : Nat} (hB : B = 2 ^ 64) {a : L4} (hw : a.Wf) (hk : a.l3 < 2 ^ k)
    (h : offDiag a / 2 ^ 384 ≠ offDiagEarly a / 2 ^ 384) : (((a.l0, a.l2), a.l3), a.l1) ∈ badLimbs B k := by
  unfold L4.Wf at hw
  have h1 : a.l1 < 2 ^ 64 := hw.2.1
  have h2 : a.l2 < 2 ^ 64 := hw.2.2.1
  refine mem_badLimbs (by rw [hB]; exact hw.1) (by rw [hB]; exact h1) (by rw [hB]; exact h2) hk ?_
  rw [hB]
  have e1 : early (2 ^ 64) a.l0 a.l1 a.l2 a.l3 = offDiagEarly a := by
    unfold early offDiagEarly
    simp only [← pow_mul, Nat.reduceMul]
  have e2 : offDiag a = offDiagEarly a + a.l1 * a.l2 * 2 ^ 192 := by
    unfold offDiag offDiagEarly; ring
  have h3 : a.l1 * a.l2 < 2 ^ 128 := by
    calc a.l1 * a.l2 < 2 ^ 64 * 2 ^ 64 := Nat.mul_lt_mul'' h1 h2
      _ = 2 ^ 128 := by norm_num
  rw [e1]
  rw [e2] at h
  generalize a.l1 * a.l2 = u at *
  generalize offDiagEarly a = v at *
  have p6 : ((2 : Nat) ^ 64) ^ 6 = 2 ^ 384 := (pow_mul 2 64 6).symm
  have p5 : ((2 : Nat) ^ 64) ^ 5 = 2 ^ 320 := (pow_mul 2 64 5).symm
  rw [p6, p5]
  omega

variable {P : FieldParams}

/-- The elements that lose a carry: few. -/
theorem lost_few {k : Nat} (hk : k ≤ 64) (hP : ValidParams P) (hm : P.m ≤ 2 ^ (192 + k)) :
    ∃ bad : Finset L4, bad.card ≤ (2 * k + 3) * 2 ^ 192 ∧ ∀ a, Canonical P a → P.square a ≠ P.mul a a → a ∈ bad := by
  obtain ⟨B, hB⟩ : ∃ B : Nat, B = 2 ^ 64 := ⟨_, rfl⟩
  refine ⟨(badLimbs B k).image fun x => ⟨x.1.1.1, x.2, x.1.1.2, x.1.2⟩, ?_, fun a ha h => ?_⟩
  · refine Finset.card_image_le.trans ((badLimbs_card (by rw [hB]; positivity) (by rw [hB]; exact Nat.pow_le_pow_right (by norm_num) hk)).trans ?_)
    rw [hB]
    have : 2 ^ k ≤ 2 ^ 64 := Nat.pow_le_pow_right (by norm_num) hk
    have e : (2 ^ 64 * 2 ^ 64 * (2 ^ 64 + 2 * (k * 2 ^ 64 + 2 ^ 64)) : Nat) = (2 * k + 3) * 2 ^ 192 := by ring
    rw [← e]
    exact Nat.mul_le_mul_left _ (by omega)
  · have hl := mt (square_eq_mul_iff hP ha).mpr h
    have hv := ha.2
    refine Finset.mem_image.mpr ⟨_, lost_early hB ha.1 ?_ hl, rfl⟩
    unfold L4.val at hv
    by_contra hc
    have h1 : 2 ^ k * 2 ^ 192 ≤ a.l3 * 2 ^ 192 := Nat.mul_le_mul_right _ (by omega)
    have h2 : 2 ^ (192 + k) = 2 ^ k * 2 ^ 192 := by rw [pow_add, mul_comm]
    omega

/-! ### Powers -/

theorem pow_fiber {p : Nat} [hp : Fact p.Prime] (e : Nat) (T : Finset (ZMod p)) :
    ((Finset.univ : Finset (ZMod p)).filter (fun x => x ≠ 0 ∧ x ^ e ∈ T)).card ≤ Nat.gcd e (p - 1) * T.card := by
  have p1 : 0 < p - 1 := by have := hp.out.one_lt; omega
  have hd : 0 < Nat.gcd e (p - 1) := Nat.gcd_pos_of_pos_right e p1
  have sub : (Finset.univ : Finset (ZMod p)).filter (fun x => x ≠ 0 ∧ x ^ e ∈ T) ⊆
      T.biUnion fun y => (Polynomial.nthRoots (Nat.gcd e (p - 1)) (y ^ (Nat.gcdA e (p - 1)))).toFinset := by
    intro x hx
    obtain ⟨-, h0, hT⟩ := Finset.mem_filter.mp hx
    refine Finset.mem_biUnion.mpr ⟨x ^ e, hT, ?_⟩
    rw [Multiset.mem_toFinset, Polynomial.mem_nthRoots hd]
    have hb := Nat.gcd_eq_gcd_ab e (p - 1)
    have h1 : x ^ (p - 1) = 1 := ZMod.pow_card_sub_one_eq_one h0
    have : x ^ ((Nat.gcd e (p - 1) : Nat) : ℤ) = (x ^ e) ^ (Nat.gcdA e (p - 1)) := by
      rw [hb, zpow_add₀ h0, zpow_mul, zpow_mul, zpow_natCast, zpow_natCast, h1, one_zpow, mul_one]
    rwa [zpow_natCast] at this
  refine (Finset.card_le_card sub).trans (Finset.card_biUnion_le.trans ?_)
  rw [mul_comm, ← smul_eq_mul]
  refine Finset.sum_le_card_nsmul _ _ _ fun y _ => (Multiset.toFinset_card_le _).trans (Polynomial.card_nthRoots _ _)

/-- The exponents of the accumulators of square-and-multiply. -/
def prefixes : Nat → List Nat → List Nat
  | _, [] => []
  | e, b :: bs => e :: prefixes (2 * e + b) bs

/-- If the powers with these exponents square correctly, so do all accumulators. -/
theorem squared_powers (hP : ValidParams P) {a : L4} (ha : Canonical P a) (bits : List Nat) (hb : ∀ x ∈ bits, x = 0 ∨ x = 1) (acc : L4)
    (hacc : Canonical P acc) (e : Nat) (he : denote P acc = denote P a ^ e)
    (h : ∀ f ∈ prefixes e bits, ∀ x, Canonical P x → denote P x = denote P a ^ f → P.square x = P.mul x x) :
    ∀ x ∈ squaredBy P a bits acc, P.square x = P.mul x x := by
  induction bits generalizing acc e with
  | nil => intro x hx; simp [squaredBy] at hx
  | cons bit bits ih =>
    have hs := h e (by simp [prefixes]) acc hacc he
    have hs' : B256.square acc P.p P.inv = P.mul acc acc := hs
    obtain ⟨m1, m2⟩ := mul_denote hP hacc hacc
    rw [he, ← pow_add] at m2
    have hbits : ∀ x ∈ bits, x = 0 ∨ x = 1 := fun x hx => hb x (by simp [hx])
    have h' : ∀ f ∈ prefixes (2 * e + bit) bits, ∀ x, Canonical P x → denote P x = denote P a ^ f → P.square x = P.mul x x :=
      fun f hf => h f (by simp [prefixes, hf])
    intro x hx
    rw [squaredBy, List.mem_cons] at hx
    rcases hx with rfl | hx
    · exact hs
    rcases hb bit (by simp) with rfl | rfl
    · have : B256.powStep a P.p P.inv acc 0 = P.mul acc acc := by unfold B256.powStep; simp [hs']
      rw [this] at hx
      exact ih hbits _ m1 _ (by rw [m2]; congr 1; omega) h' x hx
    · have : B256.powStep a P.p P.inv acc 1 = P.mul (P.mul acc acc) a := by unfold B256.powStep; simp only [hs', if_true]; rfl
      rw [this] at hx
      obtain ⟨n1, n2⟩ := mul_denote hP m1 ha
      rw [m2, ← pow_succ] at n2
      exact ih hbits _ n1 _ (by rw [n2]; congr 1; omega) h' x hx

end Kogarashi.Field
