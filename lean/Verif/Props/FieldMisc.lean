import Verif.R1cs.Bits
import Verif.Field.Value
import Verif.Field.SqrtProof

/-!
# Properties C66 and C67: the bounds used by the gadgets, and the parity and sign predicates
-/

namespace Kogarashi.Props

open Kogarashi Spec Limbs Field

set_option exponentiation.threshold 1600

/-! ### C66 -/

/-- **C66.** `F::MODULUS - F::one()` is the largest field value, `p - 1`, although the constant
`MODULUS` itself is not a canonical element. -/
theorem C66_modulus_minus_one :
    (Canonical frParams (frParams.sub frParams.p frParams.one) ∧
      value frParams (frParams.sub frParams.p frParams.one) = frParams.m - 1) ∧
    (Canonical fqParams (fqParams.sub fqParams.p fqParams.one) ∧
      value fqParams (fqParams.sub fqParams.p fqParams.one) = fqParams.m - 1) := by
  have key : ∀ P : FieldParams, ValidParams P → P.sub P.p P.one = P.neg P.one →
      Canonical P (P.sub P.p P.one) ∧ value P (P.sub P.p P.one) = P.m - 1 := by
    intro P hP h
    rw [h]
    have h1 : Canonical P P.one := r_canonical hP
    refine ⟨(neg_denote hP h1).1, ?_⟩
    rw [neg_value hP h1, show value P P.one = 1 from value_one hP]
    exact Nat.mod_eq_of_lt (by have := one_lt hP; omega)
  exact ⟨key _ frParams_valid (by decide +kernel), key _ fqParams_valid (by decide +kernel)⟩

/-- The 64 bits of a `u64`, most significant first. -/
def bits64 (n : Nat) : List Nat := (List.range 64).map (fun i => n / 2 ^ (64 - 1 - i) % 2)

theorem powOf2_eq (P : FieldParams) (n : Nat) :
    P.powOf2 n = (bits64 n).foldl (B256.powStep (P.fromU64 2) P.p P.inv) P.one := by
  unfold FieldParams.powOf2 bits64
  rw [List.foldl_map, show (List.range 64).reverse = (List.range 64).map (fun i => 64 - 1 - i) by decide,
    List.foldl_map]
  rfl

/-- **C66, powers of two.** `pow_of_2(n)` is `2^n` for every `n`, provided none of the elements squared
on the way loses a carry (C03). -/
theorem C66_pow_of_2_no_loss {P : FieldParams} (hP : ValidParams P) {n : Nat} (hn : n < 2 ^ 64)
    (hsq : ∀ x ∈ squaredBy P (P.fromU64 2) (bits64 n) P.one, P.square x = P.mul x x) :
    Canonical P (P.powOf2 n) ∧ value P (P.powOf2 n) = 2 ^ n % P.m := by
  have hw : (L4.mk 2 0 0 0).Wf := by decide
  have h2 : Canonical P (P.fromU64 2) := (toMontForm_denote hP hw).1
  have d2 : denote P (P.fromU64 2) = ((2 : ℕ) : ZMod P.m) := (toMontForm_denote hP hw).2
  have hb : ∀ x ∈ bits64 n, x = 0 ∨ x = 1 := by
    intro x hx
    obtain ⟨i, -, rfl⟩ := List.mem_map.mp hx
    generalize n / _ = k
    omega
  obtain ⟨h3, h4⟩ := pow_loop hP h2 (bits64 n) hb P.one hsq (r_canonical hP) 0
    (by rw [pow_zero]; exact denote_one hP)
  rw [← powOf2_eq] at h3 h4
  refine ⟨h3, value_of_denote hP ?_⟩
  rw [h4, d2, Nat.cast_pow, Nat.zero_mul, Nat.zero_add, bits64, bits_value, Nat.mod_eq_of_lt hn]

/-- Squaring is exact on `x, 2x, 4x, …` (`k` of them). -/
def squaresExact (P : FieldParams) : Nat → L4 → Bool
  | 0, _ => true
  | k + 1, x => decide (P.square x = P.mul x x) && squaresExact P k (P.double x)

theorem squaresExact_spec {P : FieldParams} (hP : ValidParams P) : ∀ (k : Nat) (x : L4), Canonical P x →
    squaresExact P k x = true → ∀ j < k, ∀ y, Canonical P y → denote P y = denote P x * 2 ^ j →
      P.square y = P.mul y y := by
  intro k
  induction k with
  | zero => intro x _ _ j hj; omega
  | succ k ih =>
    intro x hx h j hj y hy hd
    simp only [squaresExact, Bool.and_eq_true, decide_eq_true_eq] at h
    cases j with
    | zero =>
      have : y = x := denote_inj hP hy hx (by simpa using hd)
      rw [this]; exact h.1
    | succ j =>
      refine ih _ (double_denote hP hx).1 h.2 j (by omega) y hy ?_
      rw [hd, (double_denote hP hx).2]; ring

theorem squaredBy_exact {P : FieldParams} (hP : ValidParams P) {a : L4} (ha : Canonical P a) {M : Nat}
    (hx : ∀ e ≤ M, ∀ y, Canonical P y → denote P y = denote P a ^ e → P.square y = P.mul y y) :
    ∀ (bits : List Nat) (acc : L4) (e : Nat), (∀ x ∈ bits, x = 0 ∨ x = 1) → Canonical P acc →
      denote P acc = denote P a ^ e → e * 2 ^ bits.length + beValue 2 bits ≤ M →
      ∀ x ∈ squaredBy P a bits acc, P.square x = P.mul x x := by
  intro bits
  induction bits with
  | nil => intro acc e _ _ _ _ x hx; simp [squaredBy] at hx
  | cons b bs ih =>
    intro acc e hb hc hd hM x hmem
    have hle : e ≤ M := by
      have : 1 ≤ 2 ^ (b :: bs).length := Nat.one_le_two_pow
      nlinarith
    have hs := hx e hle acc hc hd
    simp only [squaredBy, List.mem_cons] at hmem
    rcases hmem with rfl | hmem
    · exact hs
    · have hs' : B256.square acc P.p P.inv = P.mul acc acc := hs
      obtain ⟨m1, m2⟩ := mul_denote hP hc hc
      rw [hd, ← pow_add] at m2
      rw [beValue_cons, List.length_cons, pow_succ] at hM
      rcases hb b (by simp) with rfl | rfl
      · have e1 : B256.powStep a P.p P.inv acc 0 = P.mul acc acc := by
          unfold B256.powStep; simp [hs']
        rw [e1] at hmem
        exact ih _ (e + e) (fun x h => hb x (by simp [h])) m1 m2 (by nlinarith) x hmem
      · have e1 : B256.powStep a P.p P.inv acc 1 = P.mul (P.mul acc acc) a := by
          unfold B256.powStep; simp only [hs', if_true]; rfl
        rw [e1] at hmem
        obtain ⟨n1, n2⟩ := mul_denote hP m1 ha
        rw [m2, ← pow_succ] at n2
        exact ih _ (e + e + 1) (fun x h => hb x (by simp [h])) n1 n2 (by nlinarith) x hmem

theorem powOf2_noLoss {P : FieldParams} (hP : ValidParams P) (h : squaresExact P 257 P.one = true) {n : Nat}
    (hn : n ≤ 256) : ∀ x ∈ squaredBy P (P.fromU64 2) (bits64 n) P.one, P.square x = P.mul x x := by
  have hw : (L4.mk 2 0 0 0).Wf := by decide
  have h2 : Canonical P (P.fromU64 2) := (toMontForm_denote hP hw).1
  have d2 : denote P (P.fromU64 2) = ((2 : ℕ) : ZMod P.m) := (toMontForm_denote hP hw).2
  refine squaredBy_exact hP h2 (M := 256) (fun e he y hy hd => ?_) (bits64 n) P.one 0 ?_ (r_canonical hP)
    (by rw [pow_zero]; exact denote_one hP) ?_
  · refine squaresExact_spec hP 257 P.one (r_canonical hP) h e (by omega) y hy ?_
    rw [hd, d2, show denote P P.one = 1 from denote_one hP]; push_cast; ring
  · intro x hx
    obtain ⟨i, -, rfl⟩ := List.mem_map.mp hx
    generalize n / _ = k
    omega
  · rw [Nat.zero_mul, Nat.zero_add, bits64, bits_value]
    exact (Nat.mod_le _ _).trans hn

/-- **C66**, as the gadgets use it: for every width up to 256 bits `pow_of_2` is exact. -/
theorem C66_pow_of_2_width {n : Nat} (hn : n ≤ 256) :
    value frParams (frParams.powOf2 n) = 2 ^ n % frParams.m ∧
      value fqParams (fqParams.powOf2 n) = 2 ^ n % fqParams.m :=
  ⟨(C66_pow_of_2_no_loss frParams_valid (by omega) (powOf2_noLoss frParams_valid (by decide +kernel) hn)).2,
    (C66_pow_of_2_no_loss fqParams_valid (by omega) (powOf2_noLoss fqParams_valid (by decide +kernel) hn)).2⟩

/-! ### C67 -/

/-- **C67.** `is_odd` of Fr tells the parity of the canonical integer. -/
theorem C67_is_odd {a : L4} (ha : Canonical frParams a) :
    frIsOdd a = true ↔ value frParams a % 2 = 1 := by
  obtain ⟨-, hv⟩ := montgomeryReduce_value frParams_valid ha
  rw [← hv]
  unfold frIsOdd L4.val
  rw [decide_eq_true_iff]
  omega

/-- **C67.** `lexicographically_largest` of Fq tells whether the canonical integer exceeds that of its
negation, i.e. lies in the upper half. -/
theorem C67_lexicographically_largest {a : L4} (ha : Canonical fqParams a) :
    fqLexLargest a = true ↔ fqParams.m < 2 * value fqParams a := by
  obtain ⟨⟨hw, -⟩, hv⟩ := montgomeryReduce_value fqParams_valid ha
  have hc := borrow_chain (p := ⟨0x9e10460b6c3e7ea4, 0xcbc0b548b438e546, 0xdc2822db40c0ac2e, 0x183227397098d014⟩)
    hw (by decide)
  rw [hv] at hc
  have hval : 2 * (L4.mk 0x9e10460b6c3e7ea4 0xcbc0b548b438e546 0xdc2822db40c0ac2e 0x183227397098d014).val =
    fqParams.m + 1 := by decide +kernel
  unfold fqLexLargest
  dsimp only at hc ⊢
  rw [decide_eq_true_iff]
  generalize (sbb (fqParams.montgomeryReduce a).l3 _ _).2 = brw at *
  have h01 : brw &&& 1 = 0 ∨ brw &&& 1 = 1 := by
    rw [Nat.and_one_is_mod]; omega
  generalize (L4.mk 0x9e10460b6c3e7ea4 0xcbc0b548b438e546 0xdc2822db40c0ac2e 0x183227397098d014).val = h at *
  generalize fqParams.m = m at *
  generalize brw &&& 1 = k at *
  generalize value fqParams a = v at *
  clear * - hc hval h01
  constructor
  · intro hk
    have : ¬ v < h := fun hlt => by have := hc.mpr hlt; omega
    omega
  · intro hm
    rcases h01 with h1 | h1
    · exact h1
    · have := hc.mp h1; omega

theorem lex_iff {a : L4} (ha : Canonical fqParams a) :
    fqLexLargest a = true ↔ value fqParams (fqParams.neg a) < value fqParams a := by
  rw [C67_lexicographically_largest ha, neg_value fqParams_valid ha]
  have hlt : value fqParams a < fqParams.m := value_lt fqParams_valid _
  generalize value fqParams a = v at *
  generalize fqParams.m = m at *
  rcases Nat.eq_zero_or_pos v with rfl | hv
  · simp
  · rw [Nat.mod_eq_of_lt (by omega)]; omega

/-- **C67.** `lexicographically_largest` of Fq2 tells whether the pair `(c1, c0)` of canonical integers is
lexicographically larger than that of the negation. -/
theorem C67_fq2_lexicographically_largest {c0 c1 : L4} (h0 : Canonical fqParams c0) (h1 : Canonical fqParams c1) :
    fq2LexLargest c0 c1 = true ↔ value fqParams (fqParams.neg c1) < value fqParams c1 ∨
      (value fqParams (fqParams.neg c1) = value fqParams c1 ∧ value fqParams (fqParams.neg c0) < value fqParams c0) := by
  have hz : c1 = B256.zero ↔ value fqParams (fqParams.neg c1) = value fqParams c1 := by
    rw [← denote_eq_zero_iff fqParams_valid h1, neg_value fqParams_valid h1]
    have hd : denote fqParams c1 = 0 ↔ value fqParams c1 = 0 := by
      unfold value
      exact (ZMod.val_eq_zero _).symm
    rw [hd]
    have hlt : value fqParams c1 < fqParams.m := value_lt fqParams_valid _
    have hodd : fqParams.m % 2 = 1 := by decide +kernel
    clear hd
    generalize value fqParams c1 = v at *
    generalize fqParams.m = m at *
    rcases Nat.eq_zero_or_pos v with rfl | hv
    · simp
    · rw [Nat.mod_eq_of_lt (by omega)]; omega
  unfold fq2LexLargest
  rw [Bool.or_eq_true, Bool.and_eq_true, decide_eq_true_iff, lex_iff h0, lex_iff h1, hz]

/-- **C67 is false of is_even**: it reads the Montgomery limb, so it calls 4 odd (in Fr). -/
theorem C67_is_even_refuted :
    Canonical frParams (frParams.fromU64 4) ∧ value frParams (frParams.fromU64 4) = 4 ∧
      FieldParams.isEven (frParams.fromU64 4) = false := by
  have hw : (L4.mk 4 0 0 0).Wf := by decide
  refine ⟨(toMontForm_denote frParams_valid hw).1, ?_, by decide +kernel⟩
  have := toMontForm_value frParams_valid hw
  refine this.trans ?_
  decide +kernel

example : Canonical frParams (frParams.fromU64 5) ∧ frIsOdd (frParams.fromU64 5) = true ∧
    Canonical fqParams (fqParams.neg fqParams.one) ∧ fqLexLargest (fqParams.neg fqParams.one) = true ∧
    fqLexLargest fqParams.one = false := by
  refine ⟨?_, ?_, ?_, ?_, ?_⟩ <;> first | (unfold Canonical; decide +kernel) | decide +kernel

end Kogarashi.Props
