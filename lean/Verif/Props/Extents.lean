import Verif.Props.Point
import Verif.Props.Poly
import Verif.Props.LimbEq
import Verif.Props.Orders

/-!
Exact extents of properties that are false of the code in general: for which inputs precisely they hold (C09 and C22 with the 384-bit
back end, C23, C38, C41, C69, C105).
-/
set_option exponentiation.threshold 600

namespace Kogarashi.Props

open Kogarashi Limbs Spec Curve Kogarashi.Field

/-! ### C09: recoding, 384-bit -/

/-- Digits read least significant first. -/
private def lowFirst : List Naf → Int
  | [] => 0
  | d :: ds => nafDigit d + 2 * lowFirst ds

private theorem reverse_lowFirst (ds : List Naf) : nafValue ds.reverse = lowFirst ds := by
  induction ds with
  | nil => rfl
  | cons d ds ih =>
    unfold nafValue at ih ⊢
    rw [List.reverse_cons, List.foldl_append, ih]
    simp only [List.foldl_cons, List.foldl_nil, lowFirst]; ring

private theorem same_digits : ∀ (ds es : List Naf), ds.length = es.length → NonAdjacent ds → NonAdjacent es →
    lowFirst ds = lowFirst es → ds = es := by
  have tail : ∀ {d : Naf} {ds : List Naf}, NonAdjacent (d :: ds) → NonAdjacent ds := by
    intro d ds h
    cases ds with
    | nil => trivial
    | cons e ds => exact h.2
  have even : ∀ {d : Naf} {ds : List Naf}, NonAdjacent (d :: ds) → d ≠ .zero → (2 : Int) ∣ lowFirst ds := by
    intro d ds h hd
    cases ds with
    | nil => exact ⟨0, rfl⟩
    | cons e ds =>
      have := h.1.resolve_left hd
      subst this
      exact ⟨lowFirst ds, by simp [lowFirst, nafDigit]⟩
  intro ds
  induction ds with
  | nil => intro es h _ _ _; exact (List.length_eq_zero_iff.mp h.symm).symm
  | cons d ds ih =>
    intro es hl h1 h2 hv
    cases es with
    | nil => simp at hl
    | cons e es =>
      have hv' : nafDigit d + 2 * lowFirst ds = nafDigit e + 2 * lowFirst es := hv
      have hde : d = e := by
        cases d <;> cases e <;> first
          | rfl
          | (simp only [nafDigit] at hv'; omega)
          | (obtain ⟨x, hx⟩ := even h1 (by decide); obtain ⟨y, hy⟩ := even h2 (by decide); simp only [nafDigit] at hv'; omega)
      subst hde
      rw [ih es (by simpa using hl) (tail h1) (tail h2) (by omega)]

/-- **C09, 384-bit, exact.** The digits `to_nafs` returns read, most significant first, as the scalar exactly when they are the same
from both ends. -/
theorem C09_naf384_exact {v : L6} (hv : v.Wf) :
    ∃ ds, B384.toNafs v = some ds ∧ (nafValue ds = v.val ↔ ds.reverse = ds) := by
  obtain ⟨ds, h1, h2, h3⟩ := C09_naf384_partial hv
  refine ⟨ds, h1, fun h => ?_, fun h => by rw [← h2, h]⟩
  refine same_digits _ _ (List.length_reverse) h3.reverse h3 ?_
  rw [← reverse_lowFirst, ← reverse_lowFirst, List.reverse_reverse, h, h2]

/-- Nine is `1001` from both ends, two is `10`. -/
example : B384.toNafs ⟨9, 0, 0, 0, 0, 0⟩ = some [.plus, .zero, .zero, .plus] ∧ nafValue [.plus, .zero, .zero, .plus] = 9 ∧
    B384.toNafs ⟨2, 0, 0, 0, 0, 0⟩ = some [.zero, .plus] ∧ nafValue [.zero, .plus] ≠ 2 := by decide +kernel

/-! ### C22, C23: points -/
section
variable {F : Type} [_root_.Field F] [DecidableEq F] {b : F}

theorem unique_rep {p : Proj F} {P Q : (curve b).Point} (h : ProjRep b p P) (h' : ProjRep b p Q) : P = Q :=
  (projEq_iff h h').mp ((projEq_iff h h).mpr rfl)

/-- **C22, 384-bit, exact.** `point * scalar` represents the integer the digits denote when read from the wrong end, times the point: it
is right exactly when the point is killed by the difference. -/
theorem C22_scalar_mul384_exact (h2 : (2 : F) ≠ 0) {p : Proj F} {P : (curve b).Point} (hp : ProjRep b p P) {v : L6} (hv : v.Wf) :
    ∃ ds, B384.toNafs v = some ds ∧ nafValue ds.reverse = v.val ∧ ProjRep b (scalarPoint (b + b + b) p ds) (nafValue ds • P) ∧
      (ProjRep b (scalarPoint (b + b + b) p ds) (v.val • P) ↔ (nafValue ds - nafValue ds.reverse) • P = 0) := by
  obtain ⟨ds, h1, hr, -⟩ := C09_naf384_partial hv
  have h := scalarPoint_rep h2 hp ds
  refine ⟨ds, h1, hr, h, ?_⟩
  rw [hr, sub_zsmul, natCast_zsmul, add_neg_eq_zero]
  exact ⟨fun h' => unique_rep h h', fun e => e ▸ h⟩

/-- **C23, exact.** The three by-reference `affine - projective` operators are right exactly for subtrahends killed by two. -/
theorem C23_mixed_exact (h2 : (2 : F) ≠ 0) {p : Proj F} {a : Aff F} {P A : (curve b).Point} (hp : ProjRep b p P) (ha : AffRep b a A) :
    (ProjRep b (affSubProjRR (b + b + b) a p) (A - P) ↔ P + P = 0) ∧ (ProjRep b (affSubProjVR (b + b + b) a p) (A - P) ↔ P + P = 0) ∧
      (ProjRep b (affSubProjRV (b + b + b) a p) (A - P) ↔ P + P = 0) := by
  have h' : ProjRep b (affSubProjRR (b + b + b) a p) (A + P) := addMixed_rep h2 ha hp
  have key : ProjRep b (affSubProjRR (b + b + b) a p) (A - P) ↔ P + P = 0 := by
    constructor
    · intro h
      have := unique_rep h' h
      rw [sub_eq_add_neg, add_right_inj, eq_neg_iff_add_eq_zero] at this
      exact this
    · intro h
      rw [sub_eq_add_neg, ← eq_neg_iff_add_eq_zero.mpr h]
      exact h'
  exact ⟨key, key, key⟩
end

/-- The generator of G1: twice, nine times and the subtraction. -/
example := C22_scalar_mul384_exact g1_two (toExtended_rep g1Gen_rep) (v := ⟨9, 0, 0, 0, 0, 0⟩) (by decide)
example := C23_mixed_exact g1_two (toExtended_rep g1Gen_rep) g1Gen_rep

/-! ### C38: in-circuit scalar multiplication -/
section
variable {m : Nat} [Fact m.Prime]

/-- **C38, exact.** The points the output can carry, over all satisfying assignments with the same inputs, are the multiples of the input
point by the integers below the order of the field, whatever the scalar. -/
theorem C38_scalar_exact {b : ZMod m} (h2 : (2 : ZMod m) ≠ 0) (hn : NoOrderTwo b) {nb : Nat} (hnb : nb ≤ 256)
    (hlo : 2 ^ (nb - 1) < m) (hhi : m ≤ 2 ^ nb) {cs : CS (ZMod m)} (wf : Wf cs) {p : PointRow (ZMod m)}
    (hp : PtOk cs p) {s : Row (ZMod m)} (hs : RowOk cs s) :
    ∃ out cs', Circ.ptScalar nb (b + b + b) p s cs = some (out, cs') ∧ ∀ z, Satisfies z cs → ∀ P, CircRep b (ptVal z p) P → ∀ Q,
      (∃ z', AgreeOn cs z z' ∧ Satisfies z' cs' ∧ CircRep b (ptVal z' out) Q) ↔ ∃ n < m, Q = n • P := by
  obtain ⟨out, cs', e, -, hi, -⟩ := C38_scalar_partial h2 hn hnb hlo hhi wf hp hs
  refine ⟨out, cs', e, fun z hz P hP Q => ⟨?_, ?_⟩⟩
  · rintro ⟨z', ag, sat, hQ⟩
    have cong : ∀ {r : Row (ZMod m)}, RowOk cs r → rowVal z' r = rowVal z r := fun h =>
      (Row.rowVal_congr (fun e he => ag _ (h.allocated e he))).symm
    obtain ⟨n, hlt, hrep⟩ := (hi.sound z' sat).2 P (by
      unfold ptVal at hP ⊢
      rwa [cong hp.x, cong hp.y, cong hp.z])
    exact ⟨n, hlt, hQ.unique hrep⟩
  · rintro ⟨n, hlt, rfl⟩
    obtain ⟨out', c', z', e', ag, sat, h⟩ := C38_scalar_refuted h2 hn hnb hlo hhi wf hp hs hz hP hlt
    rw [e] at e'
    obtain ⟨rfl, rfl⟩ : out = out' ∧ cs' = c' := by simpa using e'
    exact ⟨z', ag, sat, h⟩
end

/-- **C38, on the first curve of the cycle.** Starting from any point but the identity, the output can be made to carry every point of
the curve. -/
theorem C38_any_point {cs : CS FqV} (wf : Wf cs) {p : PointRow FqV} (hp : PtOk cs p) {s : Row FqV} (hs : RowOk cs s) :
    ∃ out cs', Circ.ptScalar 254 (g1B + g1B + g1B) p s cs = some (out, cs') ∧ ∀ z, Satisfies z cs → ∀ P, CircRep g1B (ptVal z p) P →
      P ≠ 0 → ∀ Q, ∃ z', AgreeOn cs z z' ∧ Satisfies z' cs' ∧ CircRep g1B (ptVal z' out) Q := by
  obtain ⟨out, cs', e, h⟩ := C38_scalar_exact (b := g1B) g1_two g1_noOrderTwo (nb := 254) (by norm_num) (by decide +kernel) (by decide +kernel)
    wf hp hs
  refine ⟨out, cs', e, fun z hz P hP h0 Q => (h z hz P hP Q).mpr ?_⟩
  have : Fact (frParams.m).Prime := ⟨frParams_prime⟩
  obtain ⟨k, hk⟩ := mem_zmultiples_of_prime_card g1_card (g := P) (g' := Q) h0
  have hr : frParams.m • P = 0 := by rw [← g1_card]; exact card_nsmul_eq_zero'
  have hlt : (k % (frParams.m : Int)).toNat < frParams.m := by
    have hpos : (0 : Int) < frParams.m := by exact_mod_cast frParams_prime.pos
    have h1 := Int.emod_lt_of_pos k hpos
    have h2 := Int.emod_nonneg k hpos.ne'
    exact (Int.toNat_lt h2).mpr h1
  have hmm : frParams.m < fqParams.m := by decide +kernel
  exact ⟨_, hlt.trans hmm, hk.symm.trans (kill_emod frParams_prime.ne_zero hr k)⟩

/-- From the generator with the scalar 7, in the empty system: the output can carry the identity, the generator and its opposite. -/
example : ∃ out cs', Circ.ptScalar 254 (g1B + g1B + g1B) ⟨Circ.const 1, Circ.const 2, Circ.const 1⟩ (Circ.const 7) (CS.init : CS FqV) =
      some (out, cs') ∧ (∃ z', Satisfies z' cs' ∧ CircRep g1B (ptVal z' out) 0) ∧ (∃ z', Satisfies z' cs' ∧ CircRep g1B (ptVal z' out) g1Point) ∧
        ∃ z', Satisfies z' cs' ∧ CircRep g1B (ptVal z' out) (-g1Point) := by
  have wf : Wf (CS.init : CS FqV) := ⟨rfl, by simp [CS.init]⟩
  have hs : Satisfies (stored (CS.init : CS FqV)) CS.init := ⟨rfl, by simp [CS.init]⟩
  obtain ⟨out, cs', e, h⟩ := C38_any_point wf (p := ⟨Circ.const 1, Circ.const 2, Circ.const 1⟩) ⟨Circ.const_ok wf _, Circ.const_ok wf _, Circ.const_ok wf _⟩
    (Circ.const_ok wf (7 : FqV))
  have rep : CircRep g1B (ptVal (stored (CS.init : CS FqV)) ⟨Circ.const 1, Circ.const 2, Circ.const 1⟩) g1Point := by
    have v : ∀ c : FqV, rowVal (stored (CS.init : CS FqV)) (Circ.const c) = c := fun c => by
      rw [Circ.rowVal_const, hs.1, one_mul]
    refine ⟨?_, ?_, ?_⟩ <;> simp only [ptVal, v] <;> decide +kernel
  have f := h _ hs g1Point rep (WeierstrassCurve.Affine.Point.some_ne_zero _)
  refine ⟨out, cs', e, ?_, ?_, ?_⟩
  · obtain ⟨z', -, h1, h2⟩ := f 0; exact ⟨z', h1, h2⟩
  · obtain ⟨z', -, h1, h2⟩ := f g1Point; exact ⟨z', h1, h2⟩
  · obtain ⟨z', -, h1, h2⟩ := f (-g1Point); exact ⟨z', h1, h2⟩

/-! ### C41, C69: polynomials -/
section
open Groth16 Polynomial
variable {F : Type} [_root_.Field F] [DecidableEq F]

/-- **C41, subtraction, exact.** In odd characteristic `-` is right exactly when the left operand is strictly longer or the two
polynomials are equal; otherwise it returns the negated difference. -/
theorem C41_sub_exact (h2 : (2 : F) ≠ 0) (p q : List F) :
    (polyOf (coeffsSub p q) = polyOf p - polyOf q ↔ q.length < p.length ∨ polyOf p = polyOf q) ∧
    (p.length ≤ q.length → polyOf (coeffsSub p q) = polyOf q - polyOf p) := by
  have e : p.length ≤ q.length → polyOf (coeffsSub p q) = polyOf q - polyOf p := by
    intro h
    unfold coeffsSub
    rw [if_neg (by omega), coeffsNew, polyOf_formatDegree, zipLong_sub _ _ (by omega)]
  refine ⟨⟨fun h => ?_, ?_⟩, e⟩
  · by_contra hc
    rw [not_or, not_lt] at hc
    exact (C41_sub_refuted h2 p q hc.1 hc.2).2 h
  · rintro (h | h)
    · exact (C41_sub_partial p q h).1
    · rcases lt_or_ge q.length p.length with hl | hl
      · exact (C41_sub_partial p q hl).1
      · rw [e hl, h]

/-- **C69, exact.** `commit` panics exactly for polynomials longer than the domain; otherwise it returns the value at the secret point
exactly when the missing power of that point is one or the value is zero. -/
theorem C69_commit_exact (k : Nat) (r : F) (p : List F) :
    (commit p (polySetup k r) = none ↔ 2 ^ k < p.length) ∧
    (p.length ≤ 2 ^ k → (commit p (polySetup k r) = some ((polyOf p).eval r) ↔ r ^ (2 ^ k - p.length) = 1 ∨ (polyOf p).eval r = 0)) := by
  have hlen : (polySetup k r).length = 2 ^ k := by
    have : ∀ (n : Nat) (a : F), (powersFrom r n a).length = n := by
      intro n
      induction n with
      | zero => intro a; rfl
      | succ n ih => intro a; simp [powersFrom, ih]
    exact this _ _
  constructor
  · unfold commit
    rw [hlen]
    split <;> simp <;> omega
  · intro h
    obtain ⟨e, ne⟩ := C69_commit_refuted k r p h
    constructor
    · intro hc
      by_contra hn
      rw [not_or] at hn
      exact ne hn.1 hn.2 hc
    · rintro (h1 | h1)
      · rw [e, h1, one_mul]
      · rw [e, h1, mul_zero]

example : (2 : ZMod 17) ≠ 0 ∧ polyOf (coeffsSub [5, 1] [3, (1 : ZMod 17)]) = polyOf [3, 1] - polyOf [5, 1] ∧
    commit [1, 2, (3 : ZMod 17)] (polySetup 1 2) = none :=
  ⟨by decide, (C41_sub_exact (by decide) [5, 1] [3, 1]).2 (by decide), (C69_commit_exact 1 2 [1, 2, 3]).1.mpr (by decide)⟩
end

/-! ### C105: limb-wise equality with different limb widths -/
section
open Nova
variable {p : Nat} [Fact p.Prime]

private theorem leValue_mono {b c : Nat} (h : b ≤ c) : ∀ l : List Nat, leValue b l ≤ leValue c l
  | [] => le_rfl
  | d :: l => Nat.add_le_add_left (Nat.mul_le_mul h (leValue_mono h l)) d

private theorem leValue_zero_iff {b : Nat} (hb : 0 < b) : ∀ l : List Nat, leValue b l = 0 ↔ ∀ d ∈ l, d = 0
  | [] => by simp [leValue]
  | d :: l => by
    rw [leValue, Nat.add_eq_zero_iff, Nat.mul_eq_zero, or_iff_right hb.ne', leValue_zero_iff hb l]
    simp

private theorem leValue_base {b c : Nat} (h0 : 0 < b) (h : b < c) (l : List Nat) :
    leValue b l = leValue c l ↔ ∀ d ∈ l.tail, d = 0 := by
  cases l with
  | nil => simp [leValue]
  | cons d l =>
    rw [List.tail_cons, ← leValue_zero_iff h0 l, leValue, leValue, Nat.add_left_cancel_iff]
    constructor
    · intro e
      by_contra hne
      have h1 : b * leValue b l < c * leValue b l := Nat.mul_lt_mul_of_pos_right h (Nat.pos_of_ne_zero hne)
      have h2 : c * leValue b l ≤ c * leValue c l := Nat.mul_le_mul_left _ (leValue_mono h.le l)
      omega
    · intro e
      have := (leValue_zero_iff h0 l).mp e
      rw [e, (leValue_zero_iff (h0.trans h) l).mpr this, mul_zero, mul_zero]

/-- **C105, different limb widths, exact.** When the limb widths differ, the assignments `enforce_eq` accepts are those with equal limbs,
and such an assignment gives the two integers the same value exactly when all limbs but the lowest are zero. -/
theorem C105_widths_exact {cs : CS (ZMod p)} (wf : Wf cs) {a b : BigNat (ZMod p)} (ha : ∀ r ∈ a.limbs, RowOk cs r)
    (hb : ∀ r ∈ b.limbs, RowOk cs r) (hl : a.limbs.length = b.limbs.length) (hw : a.limbWidth < b.limbWidth) :
    ∃ c, bnEnforceEq a b cs = some ((), c) ∧ ∀ z, Satisfies z c → (spells z a = spells z b ↔ ∀ r ∈ a.limbs.tail, rowVal z r = 0) := by
  obtain ⟨c, e, h⟩ := (C105_limbs wf ha hb).2 hl
  refine ⟨c, e, fun z hz => ?_⟩
  have hv := congrArg (List.map ZMod.val) (h.sound z hz).2
  rw [List.map_map, List.map_map] at hv
  have hv' : b.limbs.map (fun r => (rowVal z r).val) = a.limbs.map (fun r => (rowVal z r).val) := hv.symm
  unfold spells
  rw [hv', leValue_base (by positivity) (Nat.pow_lt_pow_right (by norm_num) hw), ← List.map_tail, List.forall_mem_map]
  exact forall₂_congr fun r _ => ZMod.val_eq_zero _

/-- `2^32 + 3` in limbs of 32 bits and `2^64 + 3` in limbs of 64 bits, both allocated as witnesses, in any field: the hypotheses are
met. -/
example : ∃ (a b : BigNat (ZMod p)) (c1 c2 : CS (ZMod p)), bnWitness (2 ^ 32 + 3) 32 2 CS.init = some (a, c1) ∧
    bnWitness (2 ^ 64 + 3) 64 2 c1 = some (b, c2) ∧ ∃ c, bnEnforceEq a b c2 = some ((), c) ∧
      ∀ z, Satisfies z c → (spells z a = spells z b ↔ ∀ r ∈ a.limbs.tail, rowVal z r = 0) := by
  have wf0 : Wf (CS.init : CS (ZMod p)) := ⟨rfl, by simp [CS.init]⟩
  obtain ⟨a, c1, r1, h1, e1, w1, s1⟩ := HP.satisfied wf0 (bnWitness_hp wf0 (n := 2 ^ 32 + 3) (w := 32) (k := 2) (by norm_num) (by norm_num))
  obtain ⟨b, c2, r2, h2, e2, w2, s2⟩ := HP.satisfied w1 (bnWitness_hp w1 (n := 2 ^ 64 + 3) (w := 64) (k := 2) (by norm_num) (by norm_num))
  have la : limbsOf 32 2 (2 ^ 32 + 3) = [3, 1] := by decide
  have lb : limbsOf 64 2 (2 ^ 64 + 3) = [3, 1] := by decide
  rw [la] at h1
  rw [lb] at h2
  exact ⟨a, b, c1, c2, by exact_mod_cast r1, by exact_mod_cast r2, C105_widths_exact w2 (hasN_ok (h1.mono e2).has) (hasN_ok h2.has)
    (h1.has.length_eq.trans h2.has.length_eq.symm) (by rw [h1.width, h2.width]; norm_num)⟩
end

end Kogarashi.Props
