import Verif.Ops.GroupTrait
import Verif.Props.Random
import Verif.Props.EdwardsGroup
import Verif.Props.Pairing
import Verif.Curve.Jubjub
import Mathlib.Algebra.Polynomial.Roots
import Mathlib.RingTheory.Polynomial.Basic

/-!
# Property C107: the contract of the algebra traits

`zkstd/src/traits/algebra.rs` asks of every implementation of `Group` that the generator generates the group, that every element has
an inverse which `invert` returns, and that `random` returns an element; of `Ring` that the default element generates the units.
-/

namespace Kogarashi.Props

open Kogarashi Spec Tower Curve Kogarashi.Field Limbs Ops Edwards

/-! ### `invert` -/

section
variable {F : Type} [_root_.Field F] [DecidableEq F] {b d : F}

/-- **C107, `invert` on curve points, the part that holds.** For every point other than the identity, affine or projective, `invert`
returns the negative. -/
theorem C107_invert_partial {a : Aff F} {p : Proj F} {P : (curve b).Point} (ha : AffRep b a P) (hp : ProjRep b p P) (hP : P ≠ 0) :
    (∃ a', a.invert = some a' ∧ AffRep b a' (-P)) ∧ ∃ p', p.invert = some p' ∧ ProjRep b p' (-P) := by
  refine ⟨?_, ?_⟩
  · have hn : a.inf = false := by
      cases P with
      | zero => exact absurd rfl hP
      | some x y h => exact ha.1
    refine ⟨⟨a.x, -a.y, false⟩, by unfold Aff.invert; rw [hn]; rfl, ?_⟩
    have := affNeg_rep ha
    unfold Aff.neg at this
    rwa [hn] at this
  · have hn : p.z ≠ 0 := by
      cases P with
      | zero => exact absurd rfl hP
      | some x y h => exact hp.1
    exact ⟨⟨p.x, -p.y, p.z⟩, by unfold Proj.invert; rw [if_neg hn], neg_rep hp⟩

/-- **C107, `invert` on Edwards points in extended coordinates**: it returns the negative of every point, the identity included. -/
theorem C107_invert_edwards {e : EExt F} {A : F × F} (he : ExtRep e A) : ∃ e', e.invert = some e' ∧ ExtRep e' (-A.1, A.2) := by
  refine ⟨⟨-e.x, e.y, -e.t, e.z⟩, by unfold EExt.invert; rw [if_neg he.1], he.1, ?_, he.2.2.1, ?_⟩
  · show -e.x = -A.1 * e.z
    rw [he.2.1]; ring
  · show -e.t = -A.1 * A.2 * e.z
    rw [he.2.2.2]; ring

/-- **C107 is false of `invert` on curve points.** The identity, which is its own inverse, has none according to `invert`, in either
coordinate system, however it is represented; the same holds of affine Edwards points for the identity and for the point `(0, -1)` of
order two, although the extended type inverts both. -/
theorem C107_invert_refuted {a : Aff F} {p : Proj F} (ha : AffRep b a 0) (hp : ProjRep b p 0) :
    a.invert = none ∧ p.invert = none ∧ -(0 : (curve b).Point) = 0 ∧
    (∀ y : F, y = 1 ∨ y = -1 → OnEdwards d (0, y) ∧ edSum d (0, y) (0, y) = (0, 1) ∧ EAff.invert ⟨0, y⟩ = none ∧
      EExt.invert ⟨0, y, 0, 1⟩ = some ⟨-0, y, -0, 1⟩) := by
  have h1 : a.inf = true := ha
  have h2 : p.z = 0 := hp
  refine ⟨by unfold Aff.invert; rw [h1]; rfl, by unfold Proj.invert; rw [if_pos h2], neg_zero, ?_⟩
  intro y hy
  have hyy : y * y = 1 := by rcases hy with rfl | rfl <;> ring
  refine ⟨?_, ?_, ?_, ?_⟩
  · simp only [OnEdwards]; rw [pow_two, pow_two, hyy]; ring
  · simp only [edSum]
    rw [hyy]
    simp
  · unfold EAff.invert; rw [if_pos rfl]
  · unfold EExt.invert; rw [if_neg one_ne_zero]

end

/-! ### generators and defaults -/

theorem generates {m : Nat} [Fact m.Prime] {g : ZMod m} (hg : g ≠ 0) (a : ZMod m) : ∃ k < m, a = k • g := by
  refine ⟨(a * g⁻¹).val, ZMod.val_lt _, ?_⟩
  rw [nsmul_eq_mul, ZMod.natCast_zmod_val, mul_assoc, inv_mul_cancel₀ hg, mul_one]

/-- **C107, generators of the prime fields.** Every element is a multiple of the generator constant. -/
theorem C107_generators_partial :
    (∀ a : FrV, ∃ k < frParams.m, a = k • denote frParams frGenerator) ∧
    ∀ a : FqV, ∃ k < fqParams.m, a = k • denote fqParams fqGenerator := by
  haveI : Fact frParams.m.Prime := ⟨frParams_prime⟩
  haveI : Fact fqParams.m.Prime := ⟨fqParams_prime⟩
  have c1 : Canonical frParams frGenerator := by unfold Canonical; decide +kernel
  have c2 : Canonical fqParams fqGenerator := by unfold Canonical; decide +kernel
  refine ⟨fun a => generates ?_ a, fun a => generates ?_ a⟩
  · rw [Ne, denote_eq_zero_iff frParams_valid c1]; decide +kernel
  · rw [Ne, denote_eq_zero_iff fqParams_valid c2]; decide +kernel

theorem denote_mul_R {P : FieldParams} (hP : ValidParams P) {a : L4} {n : Nat} (h : a.val = n) : denote P a * 2 ^ 256 = (n : ZMod P.m) := by
  have e : (2 : ZMod P.m) ^ 256 = (montR : ZMod P.m) := by rw [montR, Nat.cast_pow, Nat.cast_ofNat]
  rw [denote, e, mul_assoc, mul_comm (_⁻¹), R_mul_inv hP, mul_one, h]

/-- **C107, what the generator constants are.** The limbs `7` and `3` are the Montgomery form of `7 / 2^256` and `3 / 2^256`, not of `7`
and `3`. -/
theorem C107_generator_value :
    denote frParams frGenerator * 2 ^ 256 = 7 ∧ denote fqParams fqGenerator * 2 ^ 256 = 3 ∧
    denote frParams frGenerator ≠ 7 ∧ denote fqParams fqGenerator ≠ 3 := by
  haveI : Fact frParams.m.Prime := ⟨frParams_prime⟩
  haveI : Fact fqParams.m.Prime := ⟨fqParams_prime⟩
  have key : ∀ {m : Nat} [Fact m.Prime] (g : ZMod m) (n : Nat), g * 2 ^ 256 = (n : ZMod m) → ((n * 2 ^ 256 : Nat) : ZMod m) ≠ (n : ZMod m) →
      g ≠ (n : ZMod m) := by
    intro m _ g n h1 h2 h3
    apply h2
    rw [h3] at h1
    rw [Nat.cast_mul, Nat.cast_pow, Nat.cast_ofNat]
    exact h1
  have e1 : denote frParams frGenerator * 2 ^ 256 = ((7 : Nat) : FrV) := denote_mul_R frParams_valid (by decide)
  have e2 : denote fqParams fqGenerator * 2 ^ 256 = ((3 : Nat) : FqV) := denote_mul_R fqParams_valid (by decide)
  have n1 := key _ 7 e1 (by rw [Ne, ZMod.natCast_eq_natCast_iff]; decide +kernel)
  have n2 := key _ 3 e2 (by rw [Ne, ZMod.natCast_eq_natCast_iff]; decide +kernel)
  exact ⟨e1, e2, n1, n2⟩

/-- **C107 is false of the generators of the extension fields and of the defaults.** The multiples of the generator constant of an
extension field are all zero, so it generates nothing, and the powers of the default element of a field are all one: it does not
generate the units. -/
theorem C107_generators_refuted {E : Type} [_root_.Field E] (h2 : (2 : E) ≠ 0) :
    (∀ k : Nat, k • (extGenerator : E) ≠ 1) ∧ (∀ k : Nat, (extDefault : E) ^ k ≠ -1) ∧ (-1 : E) ≠ 0 ∧
    ∀ {P : FieldParams}, ValidParams P → 2 < P.m → ∀ k : Nat, denote P P.default ^ k ≠ -1 := by
  have key : ∀ {K : Type} [CommRing K] [Nontrivial K], (2 : K) ≠ 0 → ∀ k : Nat, (1 : K) ^ k ≠ -1 := by
    intro K _ _ h k h'
    apply h
    rw [one_pow] at h'
    calc (2 : K) = 1 + 1 := by norm_num
      _ = -1 + 1 := by rw [← h']
      _ = 0 := by ring
  refine ⟨?_, key h2, neg_ne_zero.mpr one_ne_zero, ?_⟩
  · intro k
    unfold extGenerator
    rw [nsmul_zero]
    exact zero_ne_one
  · intro P hP hm k
    haveI : Fact (1 < P.m) := ⟨by omega⟩
    have h1 : denote P P.default = 1 := denote_one hP
    rw [h1]
    refine key ?_ k
    intro h
    have : ((2 : Nat) : ZMod P.m) = 0 := by exact_mod_cast h
    rw [ZMod.natCast_eq_zero_iff] at this
    exact absurd (Nat.le_of_dvd (by omega) this) (by omega)

/-! ### `random` -/

/-- Twelve draws of eight words. -/
abbrev Draws12 := Fin 12 → Draw

/-- The stream of the 96 words. -/
def Draws12.stream (ws : Draws12) (i : Nat) : Nat := if h : i / 8 < 12 then (ws ⟨i / 8, h⟩).stream (i % 8) else 0

/-- The twelve coordinates of an element over the prime field, in the order in which they are stored. -/
def coord {R : Type} (a : Fq12 R) : Fin 12 → R :=
  ![a.c0.c0.c0, a.c0.c0.c1, a.c0.c1.c0, a.c0.c1.c1, a.c0.c2.c0, a.c0.c2.c1,
    a.c1.c0.c0, a.c1.c0.c1, a.c1.c1.c0, a.c1.c1.c1, a.c1.c2.c0, a.c1.c2.c1]

theorem coord_inj {R : Type} {a c : Fq12 R} (h : coord a = coord c) : a = c := by
  have h' := fun i => congrFun h i
  ext
  · exact h' 0
  · exact h' 1
  · exact h' 2
  · exact h' 3
  · exact h' 4
  · exact h' 5
  · exact h' 6
  · exact h' 7
  · exact h' 8
  · exact h' 9
  · exact h' 10
  · exact h' 11

theorem randomLimbs_congr {P : FieldParams} {f g : Nat → Nat} (h : ∀ i < 8, f i = g i) : P.random f = P.random g := by
  unfold FieldParams.random B256.randomLimbs
  rw [h 0 (by omega), h 1 (by omega), h 2 (by omega), h 3 (by omega), h 4 (by omega), h 5 (by omega), h 6 (by omega), h 7 (by omega)]

theorem fqRandom_draws (ws : Draws12) (i : Fin 12) : fqRandom ws.stream (8 * i) = denote fqParams (fqParams.random (ws i).stream) := by
  have key : fqParams.random (fun j => ws.stream (8 * i + j)) = fqParams.random (ws i).stream := randomLimbs_congr fun j hj => ?_
  · unfold fqRandom; rw [key]
  unfold Draws12.stream
  have e1 : (8 * (i : Nat) + j) / 8 = i := by omega
  have e2 : (8 * (i : Nat) + j) % 8 = j := by omega
  have e3 : (8 * (i : Nat) + j) / 8 < 12 := by rw [e1]; exact i.isLt
  have e4 : (⟨(8 * (i : Nat) + j) / 8, e3⟩ : Fin 12) = i := Fin.ext e1
  rw [dif_pos e3, e2, e4]

theorem coord_layout {R : Type} (f : Nat → R) (i : Fin 12) :
    coord (⟨⟨⟨f 0, f (0 + 8)⟩, ⟨f (0 + 16), f (0 + 16 + 8)⟩, ⟨f (0 + 32), f (0 + 32 + 8)⟩⟩,
      ⟨⟨f 48, f (48 + 8)⟩, ⟨f (48 + 16), f (48 + 16 + 8)⟩, ⟨f (48 + 32), f (48 + 32 + 8)⟩⟩⟩ : Fq12 R) i = f (8 * i) := by
  fin_cases i <;> rfl

theorem card_roots {K : Type} [_root_.Field K] (n : Nat) : (Polynomial.nthRootsFinset n (1 : K)).card ≤ n := by
  classical
  unfold Polynomial.nthRootsFinset
  exact (Multiset.toFinset_card_le _).trans (Polynomial.card_nthRoots _ _)

theorem coord_random (ws : Draws12) (i : Fin 12) :
    coord (fq12Random ws.stream) i = denote fqParams (fqParams.random (ws i).stream) := by
  rw [← fqRandom_draws]
  exact coord_layout (fqRandom ws.stream) i

theorem denote_iff {P : FieldParams} (hP : ValidParams P) [NeZero P.m] (w : Draw) (v : ZMod P.m) :
    denote P (P.random w.stream) = v ↔ w.nat % P.m = v.val := by
  rw [← (draw_value hP w).2]
  unfold value
  exact ⟨fun h => by rw [h], fun h => ZMod.val_injective _ h⟩

/-- **C107, `random` of the extension fields.** Of the draws of 96 words, the number giving a prescribed element of `Fq12` is the
product over the coordinates of `⌊2^512 / p⌋` or one more: the result is as near to uniform as twelve independent scalars. -/
theorem C107_random (v : Fq12 FqV) :
    Nat.card {ws : Draws12 // fq12Random ws.stream = v} =
      ∏ i, (2 ^ 512 / fqParams.m + if (coord v i).val < 2 ^ 512 % fqParams.m then 1 else 0) := by
  haveI : NeZero fqParams.m := ⟨fqParams_prime.ne_zero⟩
  have e : {ws : Draws12 // fq12Random ws.stream = v} ≃ ((i : Fin 12) → {w : Draw // w.nat % fqParams.m = (coord v i).val}) :=
    (Equiv.subtypeEquivRight fun ws => by
      show _ ↔ ∀ i, (ws i).nat % fqParams.m = (coord v i).val
      constructor
      · intro h i
        rw [← denote_iff fqParams_valid, ← coord_random, h]
      · intro h
        refine coord_inj (funext fun i => ?_)
        rw [coord_random, denote_iff fqParams_valid]
        exact h i).trans Equiv.subtypePiEquivPi
  rw [Nat.card_congr e, Nat.card_pi]
  refine Finset.prod_congr rfl fun i _ => ?_
  exact card_mod fqParams_prime.pos (ZMod.val_lt _)

/-- **C107 is false of `Gt::random`** (and of `Gt::invert`, which panics on every argument). `random` returns an element of the target
group, the values of the pairing, for less than one in `2^2700` draws. -/
theorem C107_gt_refuted :
    (∀ a, gtInvert a = none) ∧
    Nat.card {ws : Draws12 // gtRandom ws.stream ^ frParams.m = 1} * 2 ^ 2700 < Nat.card Draws12 := by
  refine ⟨fun _ => rfl, ?_⟩
  have hb : Nat.card {ws : Draws12 // gtRandom ws.stream ^ frParams.m = 1} ≤ frParams.m * (2 ^ 512 / fqParams.m + 1) ^ 12 := by
    classical
    have key : ∀ s : Finset (Fq12 FqV), Nat.card {ws : Draws12 // fq12Random ws.stream ∈ s} ≤ s.card * (2 ^ 512 / fqParams.m + 1) ^ 12 := by
      intro s
      induction s using Finset.induction_on with
      | empty => simp
      | insert a s ha ih =>
        have hle : Nat.card {ws : Draws12 // fq12Random ws.stream ∈ insert a s} ≤
            Nat.card {ws : Draws12 // fq12Random ws.stream = a} + Nat.card {ws : Draws12 // fq12Random ws.stream ∈ s} := by
          rw [Nat.card_eq_fintype_card, Nat.card_eq_fintype_card, Nat.card_eq_fintype_card]
          simp only [Finset.mem_insert]
          exact Fintype.card_subtype_or _ _
        have h1 : Nat.card {ws : Draws12 // fq12Random ws.stream = a} ≤ (2 ^ 512 / fqParams.m + 1) ^ 12 := by
          rw [C107_random]
          refine (Finset.prod_le_pow_card _ _ _ fun i _ => ?_).trans (le_of_eq (by rw [Finset.card_univ, Fintype.card_fin]))
          split <;> omega
        rw [Finset.card_insert_of_notMem ha, Nat.add_mul, Nat.one_mul]
        omega
    have hr : (Polynomial.nthRootsFinset frParams.m (1 : Fq12 FqV)).card ≤ frParams.m := card_roots _
    have he : Nat.card {ws : Draws12 // gtRandom ws.stream ^ frParams.m = 1} =
        Nat.card {ws : Draws12 // fq12Random ws.stream ∈ Polynomial.nthRootsFinset frParams.m (1 : Fq12 FqV)} :=
      Nat.card_congr (Equiv.subtypeEquivRight fun ws => (Polynomial.mem_nthRootsFinset frParams_prime.pos _).symm)
    rw [he]
    exact (key _).trans (Nat.mul_le_mul_right _ hr)
  have hc : Nat.card Draws12 = 2 ^ 6144 := by
    rw [Nat.card_eq_fintype_card, Fintype.card_fun, Fintype.card_fun, Fintype.card_fin, Fintype.card_fin, Fintype.card_fin, ← pow_mul, ← pow_mul]
  rw [hc]
  refine lt_of_le_of_lt (Nat.mul_le_mul_right _ hb) ?_
  decide +kernel

/-- Non-vacuity: the generators of G1, and the generator of Jubjub in extended coordinates. -/
example : (∃ a', g1Gen.invert = some a' ∧ AffRep g1B a' (-g1Point)) ∧ ∃ e', jubjubGenExt.invert = some e' := by
  have hp := (C24_conversions (b := g1B) (p := Proj.identity) (P := 0) rfl g1Gen_rep).2.1
  obtain ⟨h1, -⟩ := C107_invert_partial g1Gen_rep hp (WeierstrassCurve.Affine.Point.some_ne_zero _)
  obtain ⟨e, h3, -⟩ := C107_invert_edwards C101_jubjub.2.2.2.2.2.2.1
  exact ⟨h1, e, h3⟩

end Kogarashi.Props
