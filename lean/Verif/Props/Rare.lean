import Verif.Field.SquareCount
import Verif.Props.CurveLimb
import Verif.Props.Orders
import Verif.Props.Random

/-!
# Property C108: the defects of squaring are rare

`C03`, `C04` and `C77` give inputs on which the code's `square`, `invert` and point arithmetic are wrong.  Here those inputs are counted, for
the code as it is.
-/

set_option exponentiation.threshold 600

namespace Kogarashi.Props

open Kogarashi Spec Curve Kogarashi.Field Limbs

theorem scale_le {c n k m : Nat} (h1 : c ≤ n) (h2 : n * k ≤ m) : c * k ≤ m := (Nat.mul_le_mul_right k h1).trans h2

theorem lift_few {X Y : Type} [Inhabited X] [DecidableEq X] (φ : X → Y) (Good : X → Prop)
    (inj : ∀ a b, Good a → Good b → φ a = φ b → a = b) (T : Finset Y) :
    ∃ bad : Finset X, bad.card ≤ T.card ∧ ∀ a, Good a → φ a ∈ T → a ∈ bad := by
  classical
  refine ⟨T.image fun y => if h : ∃ a, Good a ∧ φ a = y then h.choose else default, Finset.card_image_le, fun a ha hT => ?_⟩
  have h : ∃ b, Good b ∧ φ b = φ a := ⟨a, ha, rfl⟩
  refine Finset.mem_image.mpr ⟨φ a, hT, ?_⟩
  rw [dif_pos h]
  exact inj _ _ h.choose_spec.1 ha h.choose_spec.2

instance : Inhabited L4 := ⟨FieldParams.zero⟩

/-- Both prime fields of the library: valid parameters, a prime modulus of 254 bits, and a one that squares to itself. -/
structure Field254 (P : FieldParams) : Prop where
  valid : ValidParams P
  prime : P.m.Prime
  low : 2 ^ 253 ≤ P.m
  high : P.m ≤ 2 ^ 254
  one : P.square P.one = P.mul P.one P.one
  powers : ((prefixes 0 (B256.toBits (B256.littleFermat P.p))).filter (· ≠ 0) |>.map fun f => Nat.gcd f (P.m - 1)).sum ≤ 2 ^ 13

theorem fr254 : Field254 frParams :=
  ⟨frParams_valid, frParams_prime, by decide +kernel, by decide +kernel, by decide +kernel, by decide +kernel⟩

theorem fq254 : Field254 fqParams :=
  ⟨fqParams_valid, fqParams_prime, by decide +kernel, by decide +kernel, by decide +kernel, by decide +kernel⟩

variable {P : FieldParams}

/-- The residues on which `square` is wrong. -/
theorem residues_few (h : Field254 P) :
    ∃ T : Finset (ZMod P.m), T.card ≤ 127 * 2 ^ 192 ∧ ∀ a, Canonical P a → denote P a ∉ T → P.square a = P.mul a a := by
  classical
  obtain ⟨bad, hc, hb⟩ := lost_few (k := 62) (by norm_num) h.valid h.high
  refine ⟨bad.image (denote P), Finset.card_image_le.trans hc, fun a ha hT => ?_⟩
  by_contra hne
  exact hT (Finset.mem_image_of_mem _ (hb a ha hne))

theorem limbs_few (h : Field254 P) (T : Finset (ZMod P.m)) :
    ∃ bad : Finset L4, bad.card ≤ T.card ∧ ∀ a, Canonical P a → denote P a ∈ T → a ∈ bad :=
  lift_few (denote P) (Canonical P) (fun _ _ ha hb e => denote_inj h.valid ha hb e) T

/-- **C108**, squaring: in both fields `square` is right on all but a fraction `2^-54` of the elements. -/
theorem C108_square (h : Field254 P) :
    ∃ bad : Finset L4, bad.card * 2 ^ 54 ≤ P.m ∧
      ∀ a, Canonical P a → a ∉ bad → P.square a = P.mul a a ∧ value P (P.square a) = value P a ^ 2 % P.m := by
  obtain ⟨T, hc, hT⟩ := residues_few h
  obtain ⟨bad, hb, hbad⟩ := limbs_few h T
  refine ⟨bad, ?_, fun a ha hn => ?_⟩
  · exact (Nat.mul_le_mul_right _ (hb.trans hc)).trans ((by norm_num : 127 * 2 ^ 192 * 2 ^ 54 ≤ 2 ^ 253).trans h.low)
  · have := hT a ha (fun h => hn (hbad a ha h))
    refine ⟨this, ?_⟩
    rw [this, mul_value h.valid ha ha, pow_two]

theorem many_lost {a0 j : Nat} (h0 : a0 < 2 ^ 64) (hj : j < 2 ^ 62) : SquareLosesCarry ⟨a0, 2 ^ 63 + 1 + j, 2 ^ 64 - 1, 1⟩ := by
  unfold SquareLosesCarry
  have hu : a0 * (2 ^ 63 + 1 + j) ≤ 2 ^ 64 * 2 ^ 64 := Nat.mul_le_mul h0.le (by omega)
  dsimp only
  generalize a0 * (2 ^ 63 + 1 + j) = u at *
  intro e
  rw [Nat.div_eq_of_lt (a := u * 2 ^ 64 + a0 * (2 ^ 64 - 1) * 2 ^ 128 + a0 * 1 * 2 ^ 192 + _ + _) (by omega)] at e
  have := Nat.lt_of_div_eq_zero (by positivity) e
  omega

/-- The exceptions are many in number: at least `2^126` in each field. -/
theorem C108_square_many (h : Field254 P) :
    ∃ bad : Finset L4, 2 ^ 126 ≤ bad.card ∧ ∀ a ∈ bad, Canonical P a ∧ P.square a ≠ P.mul a a := by
  obtain ⟨M, hM⟩ : ∃ M : Nat, M = 2 ^ 64 := ⟨_, rfl⟩
  obtain ⟨N, hN⟩ : ∃ N : Nat, N = 2 ^ 62 := ⟨_, rfl⟩
  refine ⟨(Finset.range M ×ˢ Finset.range N).image fun q => ⟨q.1, 2 ^ 63 + 1 + q.2, 2 ^ 64 - 1, 1⟩, ?_, ?_⟩
  · rw [Finset.card_image_of_injective, Finset.card_product, Finset.card_range, Finset.card_range, hM, hN, ← pow_add]
    intro q r e
    simp only [L4.mk.injEq] at e
    exact Prod.ext e.1 (by omega)
  · intro a ha
    obtain ⟨⟨x, y⟩, hq, rfl⟩ := Finset.mem_image.mp ha
    obtain ⟨hx, hy⟩ := Finset.mem_product.mp hq
    have hx : x < 2 ^ 64 := hM ▸ Finset.mem_range.mp hx
    have hy : y < 2 ^ 62 := hN ▸ Finset.mem_range.mp hy
    have hc : Canonical P ⟨x, 2 ^ 63 + 1 + y, 2 ^ 64 - 1, 1⟩ := by
      refine ⟨?_, lt_of_lt_of_le ?_ h.low⟩
      · unfold L4.Wf; dsimp only; omega
      · unfold L4.val; dsimp only; omega
    exact ⟨hc, fun e => (C03_square_partial h.valid hc).mp e (many_lost hx hy)⟩

theorem powers_few {p : Nat} [Fact p.Prime] (T : Finset (ZMod p)) (L : List Nat) :
    ∃ U : Finset (ZMod p), U.card ≤ (L.map fun f => Nat.gcd f (p - 1)).sum * T.card ∧ ∀ x, x ≠ 0 → ∀ f ∈ L, x ^ f ∈ T → x ∈ U := by
  classical
  induction L with
  | nil => exact ⟨∅, by simp, by simp⟩
  | cons f L ih =>
    obtain ⟨U, h1, h2⟩ := ih
    refine ⟨(Finset.univ : Finset (ZMod p)).filter (fun x => x ≠ 0 ∧ x ^ f ∈ T) ∪ U, ?_, fun x h0 g hg hx => ?_⟩
    · have := pow_fiber f T
      rw [List.map_cons, List.sum_cons, Nat.add_mul]
      exact (Finset.card_union_le _ _).trans (Nat.add_le_add this h1)
    · rcases List.mem_cons.mp hg with rfl | hg
      · exact Finset.mem_union_left _ (Finset.mem_filter.mpr ⟨Finset.mem_univ _, h0, hx⟩)
      · exact Finset.mem_union_right _ (h2 x h0 g hg hx)

theorem inverts_few (h : Field254 P) : ∃ U : Finset (ZMod P.m), U.card ≤ 2 ^ 13 * (127 * 2 ^ 192) ∧
    ∀ a, Canonical P a → a ≠ FieldParams.zero → denote P a ∉ U →
      ∀ x ∈ squaredBy P a (B256.toBits (B256.littleFermat P.p)) P.one, P.square x = P.mul x x := by
  have : Fact P.m.Prime := ⟨h.prime⟩
  obtain ⟨T, hc, hT⟩ := residues_few h
  obtain ⟨U, h1, h2⟩ := powers_few T ((prefixes 0 (B256.toBits (B256.littleFermat P.p))).filter (· ≠ 0))
  refine ⟨U, h1.trans (Nat.mul_le_mul h.powers hc), fun a ha h0 hn => ?_⟩
  refine squared_powers h.valid ha _ (toBits_bits _) _ (r_canonical h.valid) 0 ((denote_one h.valid).trans (pow_zero _).symm) ?_
  intro f hf x hx he
  by_cases hf0 : f = 0
  · subst hf0
    have : x = P.one := denote_inj h.valid hx (r_canonical h.valid) ((he.trans (pow_zero _)).trans (denote_one h.valid).symm)
    rw [this]
    exact h.one
  · refine hT x hx fun hx => hn (h2 _ (fun h' => h0 ((denote_eq_zero_iff h.valid ha).mp h')) f (List.mem_filter.mpr ⟨hf, by simpa using hf0⟩) ?_)
    rwa [← he]

/-- **C108**, inversion: in both fields `invert` returns the inverse of all but a fraction `2^-40` of the non-zero elements, and `/` the
quotient by them. -/
theorem C108_invert (h : Field254 P) :
    ∃ bad : Finset L4, bad.card * 2 ^ 40 ≤ P.m ∧ ∀ a, Canonical P a → a ≠ FieldParams.zero → a ∉ bad →
      (∃ b, P.invert a = some b ∧ Canonical P b ∧ P.mul a b = P.one) ∧
      ∀ x, Canonical P x → ∃ c, P.div x a = some c ∧ Canonical P c ∧ value P c * value P a % P.m = value P x := by
  obtain ⟨U, hc, hU⟩ := inverts_few h
  obtain ⟨bad, hb, hbad⟩ := limbs_few h U
  refine ⟨bad, ?_, fun a ha h0 hn => ?_⟩
  · exact (Nat.mul_le_mul_right _ (hb.trans hc)).trans ((by norm_num : 2 ^ 13 * (127 * 2 ^ 192) * 2 ^ 40 ≤ 2 ^ 253).trans h.low)
  · have hs := hU a ha h0 (fun h => hn (hbad a ha h))
    exact ⟨C04_invert_partial h.valid h.prime ha h0 hs, fun x hx => C04_div_partial h.valid h.prime hx ha h0 hs⟩

/-- The two fields of the library are covered, and the exceptions exist. -/
example : Field254 frParams ∧ Field254 fqParams ∧ (∃ a, Canonical fqParams a ∧ fqParams.square a ≠ fqParams.mul a a) :=
  ⟨fr254, fq254, C03_square_refuted.2.1⟩

/-! ### Points -/

section
variable {F : Type} [_root_.Field F] [Fintype F] [DecidableEq F]

/-- The affine points of `y² = x³ + b`. -/
def onC (b : F) : Finset (F × F) := Finset.univ.filter fun q => q.2 ^ 2 = q.1 ^ 3 + b

theorem fiber_x (b x : F) : ((onC b).filter fun q => q.1 = x).card ≤ 2 := by
  have : ((onC b).filter fun q => q.1 = x).card ≤ (Polynomial.nthRoots 2 (x ^ 3 + b)).toFinset.card := by
    refine Finset.card_le_card_of_injOn (fun q => q.2) (fun q hq => ?_) (fun q hq q' hq' e => ?_)
    · obtain ⟨h1, h2⟩ := Finset.mem_filter.mp hq
      have h1 := (Finset.mem_filter.mp h1).2
      simp only [Finset.mem_coe, Multiset.mem_toFinset]
      rw [Polynomial.mem_nthRoots (by norm_num), h1, h2]
    · have h2 := (Finset.mem_filter.mp hq).2
      have h2' := (Finset.mem_filter.mp hq').2
      exact Prod.ext (h2.trans h2'.symm) e
  exact this.trans ((Multiset.toFinset_card_le _).trans (Polynomial.card_nthRoots 2 _))

theorem fiber_y (b y : F) : ((onC b).filter fun q => q.2 = y).card ≤ 3 := by
  have : ((onC b).filter fun q => q.2 = y).card ≤ (Polynomial.nthRoots 3 (y ^ 2 - b)).toFinset.card := by
    refine Finset.card_le_card_of_injOn (fun q => q.1) (fun q hq => ?_) (fun q hq q' hq' e => ?_)
    · obtain ⟨h1, h2⟩ := Finset.mem_filter.mp hq
      have h1 := (Finset.mem_filter.mp h1).2
      simp only [Finset.mem_coe, Multiset.mem_toFinset]
      rw [Polynomial.mem_nthRoots (by norm_num), ← h2, h1]; ring
    · have h2 := (Finset.mem_filter.mp hq).2
      have h2' := (Finset.mem_filter.mp hq').2
      exact Prod.ext e (h2.trans h2'.symm)
  exact this.trans ((Multiset.toFinset_card_le _).trans (Polynomial.card_nthRoots 3 _))

/-- Points with a coordinate in the set. -/
def badPts (b : F) (T : Finset F) : Finset (F × F) := (onC b).filter fun q => q.1 ∈ T ∨ q.2 ∈ T

theorem badPts_card (b : F) (T : Finset F) : (badPts b T).card ≤ 5 * T.card := by
  have sub : badPts b T ⊆ (T.biUnion fun x => (onC b).filter fun q => q.1 = x) ∪ (T.biUnion fun y => (onC b).filter fun q => q.2 = y) := by
    intro q hq
    obtain ⟨h1, h2⟩ := Finset.mem_filter.mp hq
    rcases h2 with h2 | h2
    · exact Finset.mem_union_left _ (Finset.mem_biUnion.mpr ⟨_, h2, Finset.mem_filter.mpr ⟨h1, rfl⟩⟩)
    · exact Finset.mem_union_right _ (Finset.mem_biUnion.mpr ⟨_, h2, Finset.mem_filter.mpr ⟨h1, rfl⟩⟩)
  refine (Finset.card_le_card sub).trans ((Finset.card_union_le _ _).trans ?_)
  have h1 := Finset.card_biUnion_le_card_mul T (fun x => (onC b).filter fun q => q.1 = x) 2 (fun x _ => fiber_x b x)
  have h2 := Finset.card_biUnion_le_card_mul T (fun y => (onC b).filter fun q => q.2 = y) 3 (fun y _ => fiber_y b y)
  omega

theorem onC_card (b : F) : (onC b).card ≤ 2 * Fintype.card F := by
  have sub : onC b ⊆ (Finset.univ : Finset F).biUnion fun x => (onC b).filter fun q => q.1 = x :=
    fun q hq => Finset.mem_biUnion.mpr ⟨_, Finset.mem_univ _, Finset.mem_filter.mpr ⟨hq, rfl⟩⟩
  have h1 := Finset.card_biUnion_le_card_mul Finset.univ (fun x => (onC b).filter fun q => q.1 = x) 2 (fun x _ => fiber_x b x)
  have := (Finset.card_le_card sub).trans h1
  rw [Finset.card_univ] at this
  omega

/-- Pairs of points with a difference of coordinates in the set, or with a coordinate of the first in it. -/
def badPairs (b : F) (T : Finset F) : Finset ((F × F) × (F × F)) :=
  (onC b ×ˢ onC b).filter fun z => z.1.1 - z.2.1 ∈ T ∨ z.1.2 - z.2.2 ∈ T ∨ (z.1 = z.2 ∧ z.1.2 ∈ T)

theorem badPairs_card (b : F) (T : Finset F) : (badPairs b T).card ≤ 6 * T.card * (2 * Fintype.card F) := by
  have sub : badPairs b T ⊆ (onC b).biUnion fun q => ((T.biUnion fun t => (onC b).filter fun r => r.1 = q.1 - t) ∪
      (T.biUnion fun t => (onC b).filter fun r => r.2 = q.2 - t) ∪ (if q.2 ∈ T then {q} else ∅)).image fun r => (q, r) := by
    rintro ⟨q, r⟩ hz
    obtain ⟨hm, h⟩ := Finset.mem_filter.mp hz
    obtain ⟨hq, hr⟩ := Finset.mem_product.mp hm
    refine Finset.mem_biUnion.mpr ⟨q, hq, Finset.mem_image.mpr ⟨r, ?_, rfl⟩⟩
    dsimp only at h hr
    rcases h with h | h | ⟨rfl, h⟩
    · exact Finset.mem_union_left _ (Finset.mem_union_left _ (Finset.mem_biUnion.mpr ⟨_, h, Finset.mem_filter.mpr ⟨hr, by ring⟩⟩))
    · exact Finset.mem_union_left _ (Finset.mem_union_right _ (Finset.mem_biUnion.mpr ⟨_, h, Finset.mem_filter.mpr ⟨hr, by ring⟩⟩))
    · exact Finset.mem_union_right _ (by rw [if_pos h]; exact Finset.mem_singleton_self _)
  refine (Finset.card_le_card sub).trans ((Finset.card_biUnion_le_card_mul _ _ (6 * T.card) fun q _ => ?_).trans ?_)
  · refine Finset.card_image_le.trans ((Finset.card_union_le _ _).trans ?_)
    have h0 := Finset.card_union_le (T.biUnion fun t => (onC b).filter fun r => r.1 = q.1 - t) (T.biUnion fun t => (onC b).filter fun r => r.2 = q.2 - t)
    have h1 := Finset.card_biUnion_le_card_mul T (fun t => (onC b).filter fun r => r.1 = q.1 - t) 2 (fun t _ => fiber_x b _)
    have h2 := Finset.card_biUnion_le_card_mul T (fun t => (onC b).filter fun r => r.2 = q.2 - t) 3 (fun t _ => fiber_y b _)
    have h3 : (if q.2 ∈ T then {q} else ∅ : Finset (F × F)).card ≤ T.card := by
      split
      · rename_i h; rw [Finset.card_singleton]; exact Finset.card_pos.mpr ⟨_, h⟩
      · simp
    omega
  · rw [mul_comm]; exact Nat.mul_le_mul_left _ (onC_card b)

end

/-- The coordinates of a struct as residues. -/
noncomputable def coords (P : FieldParams) (q : L4 × L4) : ZMod P.m × ZMod P.m := (denote P q.1, denote P q.2)

/-- Both coordinates are canonical. -/
def CanonicalPair (P : FieldParams) (q : L4 × L4) : Prop := Canonical P q.1 ∧ Canonical P q.2

theorem coords_inj (hP : ValidParams P) (q r : L4 × L4) (hq : CanonicalPair P q) (hr : CanonicalPair P r) (e : coords P q = coords P r) : q = r :=
  Prod.ext (denote_inj hP hq.1 hr.1 (congrArg Prod.fst e)) (denote_inj hP hq.2 hr.2 (congrArg Prod.snd e))

theorem holds_onC [Fact P.m.Prime] {b : ZMod P.m} {p : Aff L4} {Q : (curve b).Point} (h : HoldsAff P b p Q) (hi : p.inf = false) :
    coords P (p.x, p.y) ∈ onC b := by
  obtain ⟨-, -, h⟩ := h
  cases Q with
  | zero =>
    have h : p.inf = true := h
    rw [hi] at h; cases h
  | some x y hn =>
    obtain ⟨-, hx, hy⟩ := h
    have he := (WeierstrassCurve.Affine.equation_iff (W := curve b) x y).mp hn.1
    dsimp only [curve] at he hx hy
    refine Finset.mem_filter.mpr ⟨Finset.mem_univ _, ?_⟩
    dsimp only [coords]
    rw [hx, hy]
    linear_combination he

theorem points_few [Fact P.m.Prime] {b : ZMod P.m} {bl b3 : L4} (h0 : Field254 P) (h2 : (2 : ZMod P.m) ≠ 0) (hbl : Limb.El P bl b)
    (hb3 : Limb.El P b3 (b + b + b)) : ∃ bad : Finset (L4 × L4), bad.card ≤ 5 * (127 * 2 ^ 192) ∧
    ∀ (p : Aff L4) (Q : (curve b).Point), HoldsAff P b p Q → p.inf = false → (p.x, p.y) ∉ bad →
      Limb.affIsOnCurve P bl p = true ∧ HoldsProj P b (Limb.doubleAffine P b3 p) (Q + Q) := by
  obtain ⟨T, hc, hT⟩ := residues_few h0
  obtain ⟨bad, hb, hbad⟩ := lift_few (coords P) (CanonicalPair P) (coords_inj h0.valid) (badPts b T)
  refine ⟨bad, ?_, fun p Q h hi hn => ?_⟩
  · exact (hb.trans (badPts_card _ _)).trans (Nat.mul_le_mul_left 5 hc)
  · have on := holds_onC h hi
    have not : coords P (p.x, p.y) ∉ badPts b T := fun hm => hn (hbad _ ⟨h.1, h.2.1⟩ hm)
    have nx : denote P p.x ∉ T := fun hm => not (Finset.mem_filter.mpr ⟨on, Or.inl hm⟩)
    have ny : denote P p.y ∉ T := fun hm => not (Finset.mem_filter.mpr ⟨on, Or.inr hm⟩)
    have sx := hT _ h.1 nx
    have sy := hT _ h.2.1 ny
    constructor
    · refine (C77_on_curve_affine_partial h0.valid hbl.1 hbl.2 h.1 h.2.1
        ⟨(C03_square_partial h0.valid h.1).mp sx, (C03_square_partial h0.valid h.2.1).mp sy⟩).mpr (Or.inr ?_)
      exact (Finset.mem_filter.mp on).2
    · refine holds_of_el (Limb.doubleAffine_el h0.valid hb3 h.el ?_) (doubleAffine_rep h2 hi h.2.2)
      intro a ha
      rw [List.mem_singleton.mp ha]
      exact sy

/-- Two pairs of coordinates as residues. -/
noncomputable def coords2 (P : FieldParams) (q : (L4 × L4) × (L4 × L4)) : (ZMod P.m × ZMod P.m) × (ZMod P.m × ZMod P.m) :=
  (coords P q.1, coords P q.2)

theorem adds_few [Fact P.m.Prime] {b : ZMod P.m} {b3 : L4} (h0 : Field254 P) (h2 : (2 : ZMod P.m) ≠ 0)
    (hb3 : Limb.El P b3 (b + b + b)) : ∃ bad : Finset ((L4 × L4) × (L4 × L4)), bad.card ≤ 6 * (127 * 2 ^ 192) * (2 * 2 ^ 254) ∧
    ∀ (p q : Aff L4) (Q R : (curve b).Point), HoldsAff P b p Q → HoldsAff P b q R →
      ((p.x, p.y), (q.x, q.y)) ∉ bad → HoldsProj P b (Limb.addAffine P b3 p q) (Q + R) := by
  obtain ⟨T, hc, hT⟩ := residues_few h0
  obtain ⟨bad, hb, hbad⟩ := lift_few (coords2 P) (fun z => CanonicalPair P z.1 ∧ CanonicalPair P z.2)
    (fun y z hy hz e => Prod.ext (coords_inj h0.valid _ _ hy.1 hz.1 (congrArg Prod.fst e))
      (coords_inj h0.valid _ _ hy.2 hz.2 (congrArg Prod.snd e))) (badPairs b T)
  refine ⟨bad, ?_, fun p q Q R h h' hn => ?_⟩
  · have h1 : bad.card ≤ 6 * (127 * 2 ^ 192) * (2 * 2 ^ 254) := by
      refine hb.trans ((badPairs_card _ _).trans ?_)
      rw [ZMod.card]
      exact Nat.mul_le_mul (Nat.mul_le_mul_left 6 hc) (Nat.mul_le_mul_left 2 h0.high)
    exact h1
  · refine C77_add_affine_partial h0.valid h2 hb3.1 hb3.2 h h' ?_
    unfold Limb.sqAddAffine
    by_cases hi : p.inf = true
    · rw [if_pos hi]; intro a ha; cases ha
    rw [if_neg hi]
    by_cases hi' : q.inf = true
    · rw [if_pos hi']; intro a ha; cases ha
    rw [if_neg hi']
    have on := holds_onC h (by simpa using hi)
    have on' := holds_onC h' (by simpa using hi')
    have not : coords2 P ((p.x, p.y), (q.x, q.y)) ∉ badPairs b T := fun hm => hn (hbad _ ⟨⟨h.1, h.2.1⟩, ⟨h'.1, h'.2.1⟩⟩ hm)
    have mem : coords2 P ((p.x, p.y), (q.x, q.y)) ∈ onC b ×ˢ onC b := Finset.mem_product.mpr ⟨on, on'⟩
    have sx := (h.el.x).sub h0.valid h'.el.x
    have sy := (h.el.y).sub h0.valid h'.el.y
    by_cases ex : p.x = q.x
    · rw [if_pos ex]
      by_cases ey : p.y = q.y
      · rw [if_pos ey]
        intro a ha
        rw [List.mem_singleton.mp ha]
        refine hT _ h.2.1 fun hm => not (Finset.mem_filter.mpr ⟨mem, Or.inr (Or.inr ⟨?_, hm⟩)⟩)
        dsimp only [coords2]
        rw [ex, ey]
      · rw [if_neg ey]; intro a ha; cases ha
    · rw [if_neg ex]
      intro a ha
      rcases List.mem_cons.mp ha with rfl | ha
      · refine hT _ sx.1 fun hm => not (Finset.mem_filter.mpr ⟨mem, Or.inl ?_⟩)
        rw [sx.2] at hm; exact hm
      · rw [List.mem_singleton.mp ha]
        refine hT _ sy.1 fun hm => not (Finset.mem_filter.mpr ⟨mem, Or.inr (Or.inl ?_)⟩)
        rw [sy.2] at hm; exact hm

/-- **C108**, points: for all but a fraction `2^-51` of the points of G1, `is_on_curve` accepts the affine point and `double` doubles it. -/
theorem C108_points : ∃ bad : Finset (L4 × L4), bad.card * 2 ^ 51 ≤ Nat.card (curve g1B).Point ∧
    ∀ (p : Aff L4) (Q : (curve g1B).Point), HoldsAff fqParams g1B p Q → p.inf = false → (p.x, p.y) ∉ bad →
      Limb.affIsOnCurve fqParams g1BL p = true ∧ HoldsProj fqParams g1B (Limb.doubleAffine fqParams g1B3L p) (Q + Q) := by
  obtain ⟨bad, hb, h⟩ := points_few fq254 g1_two g1BL_el g1B3L_el
  refine ⟨bad, ?_, h⟩
  rw [g1_card]
  exact scale_le hb (le_trans (by norm_num) fr254.low)

/-- **C108**, addition: for all but a fraction `2^-49` of the pairs of points of G1, `+` adds the affine points. -/
theorem C108_add : ∃ bad : Finset ((L4 × L4) × (L4 × L4)), bad.card * 2 ^ 49 ≤ Nat.card (curve g1B).Point ^ 2 ∧
    ∀ (p q : Aff L4) (Q R : (curve g1B).Point), HoldsAff fqParams g1B p Q → HoldsAff fqParams g1B q R →
      ((p.x, p.y), (q.x, q.y)) ∉ bad → HoldsProj fqParams g1B (Limb.addAffine fqParams g1B3L p q) (Q + R) := by
  obtain ⟨bad, hb, h⟩ := adds_few fq254 g1_two g1B3L_el
  refine ⟨bad, ?_, h⟩
  rw [g1_card, pow_two]
  exact scale_le hb (le_trans (by norm_num) (Nat.mul_le_mul fr254.low fr254.low))

/-- Points of G1 exist, among them one on which the code is wrong. -/
example : (∃ p Q, HoldsAff fqParams g1B p Q ∧ p.inf = false) ∧
    ∃ p Q, HoldsAff fqParams g1B p Q ∧ Limb.affIsOnCurve fqParams g1BL p = false := by
  obtain ⟨Q, hQ⟩ := badPoint_holds
  obtain ⟨p, R, h1, h2, -⟩ := C77_double_refuted
  exact ⟨⟨badPoint, Q, hQ, rfl⟩, p, R, h1, h2⟩

/-! ### Random elements -/

theorem draws_few (h : Field254 P) (bad : Finset L4) :
    Nat.card {w : Draw // P.random w.stream ∈ bad} ≤ bad.card * (2 ^ 512 / P.m + 1) := by
  have pos : 0 < 2 ^ 512 / P.m := Nat.div_pos (h.high.trans (Nat.pow_le_pow_right (by norm_num) (by norm_num))) h.prime.pos
  have one : ∀ a : L4, Nat.card {w : Draw // value P (P.random w.stream) = value P a} ≤ 2 ^ 512 / P.m + 1 := by
    intro a
    rw [(C96_scalar h.valid (value_lt h.valid a)).2]
    split <;> omega
  have fin : ∀ a : L4, Finite {w : Draw // value P (P.random w.stream) = value P a} := by
    intro a
    refine Nat.finite_of_card_ne_zero ?_
    rw [(C96_scalar h.valid (value_lt h.valid a)).2]
    omega
  let f : {w : Draw // P.random w.stream ∈ bad} → (Σ a : bad, {w : Draw // value P (P.random w.stream) = value P a.1}) :=
    fun w => ⟨⟨P.random w.1.stream, w.2⟩, ⟨w.1, rfl⟩⟩
  have inj : Function.Injective f := by
    intro w w' e
    have e := congrArg (fun z => z.2.1) e
    exact Subtype.ext e
  have hf : ∀ a : bad, Finite {w : Draw // value P (P.random w.stream) = value P a.1} := fun a => fin a.1
  refine (Nat.card_le_card_of_injective f inj).trans ?_
  rw [Nat.card_sigma]
  refine (Finset.sum_le_card_nsmul _ _ _ fun a _ => one a.1).trans ?_
  rw [smul_eq_mul, Finset.card_univ, Fintype.card_coe]

/-- **C108**, random elements: of the `2^512` draws of `random`, at most one in `2^53` gives an element that `square` gets wrong, and at most
one in `2^39` a non-zero element that `invert` gets wrong. -/
theorem C108_random (h : Field254 P) :
    Nat.card {w : Draw // P.square (P.random w.stream) ≠ P.mul (P.random w.stream) (P.random w.stream)} * 2 ^ 53 ≤ 2 ^ 512 ∧
    Nat.card {w : Draw // P.random w.stream ≠ FieldParams.zero ∧
      ¬ ∃ b, P.invert (P.random w.stream) = some b ∧ P.mul (P.random w.stream) b = P.one} * 2 ^ 39 ≤ 2 ^ 512 := by
  have can : ∀ w : Draw, Canonical P (P.random w.stream) := fun w => (C96_scalar h.valid h.prime.pos).1 w
  have fin : ∀ bad : Finset L4, Finite {w : Draw // P.random w.stream ∈ bad} := by
    intro bad
    have : Finite Draw := by unfold Draw; infer_instance
    infer_instance
  have bound : ∀ (bad : Finset L4) (k : Nat), bad.card * 2 ^ (k + 1) ≤ P.m →
      Nat.card {w : Draw // P.random w.stream ∈ bad} * 2 ^ k ≤ 2 ^ 512 := by
    intro bad k hb
    have h1 := draws_few h bad
    have h2 : P.m * (2 ^ 512 / P.m + 1) ≤ 2 ^ 512 + P.m := by
      rw [Nat.mul_succ]; exact Nat.add_le_add_right (Nat.mul_div_le _ _) _
    have h3 : P.m ≤ 2 ^ 512 := h.high.trans (Nat.pow_le_pow_right (by norm_num) (by norm_num))
    have h4 : Nat.card {w : Draw // P.random w.stream ∈ bad} * 2 ^ (k + 1) ≤ P.m * (2 ^ 512 / P.m + 1) := by
      refine (Nat.mul_le_mul_right _ h1).trans ?_
      rw [mul_right_comm]
      exact Nat.mul_le_mul_right _ hb
    rw [pow_succ, ← mul_assoc] at h4
    generalize (2 : Nat) ^ 512 = N at *
    omega
  constructor
  · obtain ⟨bad, hb, hbad⟩ := C108_square h
    have := fin bad
    refine scale_le (Nat.card_le_card_of_injective (fun w => (⟨w.1, ?_⟩ : {w : Draw // P.random w.stream ∈ bad})) ?_) (bound bad 53 hb)
    · by_contra hn
      exact w.2 (hbad _ (can w.1) hn).1
    · intro w w' e
      exact Subtype.ext (congrArg (fun z : {w : Draw // P.random w.stream ∈ bad} => z.1) e)
  · obtain ⟨bad, hb, hbad⟩ := C108_invert h
    have := fin bad
    refine scale_le (Nat.card_le_card_of_injective (fun w => (⟨w.1, ?_⟩ : {w : Draw // P.random w.stream ∈ bad})) ?_) (bound bad 39 hb)
    · by_contra hn
      obtain ⟨⟨b, h1, -, h3⟩, -⟩ := hbad _ (can w.1) w.2.1 hn
      exact w.2.2 ⟨b, h1, h3⟩
    · intro w w' e
      exact Subtype.ext (congrArg (fun z : {w : Draw // P.random w.stream ∈ bad} => z.1) e)

end Kogarashi.Props
