import Verif.Tower.Bilinear
import Verif.Tower.Eval
import Verif.Props.Pairing

/-!
# Property C74: the pairing is bilinear and non-degenerate

`AffRep b p P`: the struct `p` holds the point `P` of Mathlib's curve group.  A point `Q` of the twist is in G2 when
`frParams.m • Q = 0`.
-/

namespace Kogarashi.Props

open Kogarashi Spec Tower Curve Kogarashi.Field Limbs

/-- **C74**, first argument: the pairing turns addition into multiplication. -/
theorem C74_add_left {p1 p2 p3 : Aff FqV} {P1 P2 : (curve g1B).Point} (h1 : AffRep g1B p1 P1) (h2 : AffRep g1B p2 P2)
    (h3 : AffRep g1B p3 (P1 + P2)) {q : Aff (Fq2 FqV)} {Q : (curve g2B).Point} (hq : AffRep g2B q Q)
    (hQ : frParams.m • Q = 0) :
    ∃ a b, pairing p1 q = some a ∧ pairing p2 q = some b ∧ pairing p3 q = some (a * b) := by
  refine ⟨_, _, pairing_ePoint h1 ⟨Q, hQ⟩ hq, pairing_ePoint h2 ⟨Q, hQ⟩ hq, ?_⟩
  rw [pairing_ePoint h3 ⟨Q, hQ⟩ hq, ePoint_add_left]
  rfl

/-- **C74**, second argument. -/
theorem C74_add_right {p : Aff FqV} {P : (curve g1B).Point} (hp : AffRep g1B p P) {q1 q2 q3 : Aff (Fq2 FqV)}
    {Q1 Q2 : (curve g2B).Point} (h1 : AffRep g2B q1 Q1) (h2 : AffRep g2B q2 Q2) (h3 : AffRep g2B q3 (Q1 + Q2))
    (hQ1 : frParams.m • Q1 = 0) (hQ2 : frParams.m • Q2 = 0) :
    ∃ a b, pairing p q1 = some a ∧ pairing p q2 = some b ∧ pairing p q3 = some (a * b) := by
  refine ⟨_, _, pairing_ePoint hp ⟨Q1, hQ1⟩ h1, pairing_ePoint hp ⟨Q2, hQ2⟩ h2, ?_⟩
  have := pairing_ePoint hp (⟨Q1, hQ1⟩ + ⟨Q2, hQ2⟩ : g2Torsion) h3
  rw [this, ePoint_add_right]
  rfl

theorem ePoint_nsmul_left (P : (curve g1B).Point) (Q : g2Torsion) : ∀ k : Nat, ePoint (k • P) Q = ePoint P Q ^ k
  | 0 => by rw [zero_nsmul, ePoint_zero_left, pow_zero]
  | k + 1 => by rw [succ_nsmul, ePoint_add_left, ePoint_nsmul_left P Q k, pow_succ]

theorem ePoint_nsmul_right (P : (curve g1B).Point) (Q : g2Torsion) : ∀ k : Nat, ePoint P (k • Q) = ePoint P Q ^ k
  | 0 => by rw [zero_nsmul, ePoint_zero_right, pow_zero]
  | k + 1 => by rw [succ_nsmul, ePoint_add_right, ePoint_nsmul_right P Q k, pow_succ]

theorem coe_nsmul (Q : g2Torsion) (l : Nat) : ((l • Q : g2Torsion) : (curve g2B).Point) = l • (Q : (curve g2B).Point) := rfl

/-- **C74**, scalars: the pairing of multiples is the power by the product. -/
theorem C74_scalar {p p' : Aff FqV} {P : (curve g1B).Point} {q q' : Aff (Fq2 FqV)} {Q : (curve g2B).Point} (k l : Nat)
    (hp : AffRep g1B p P) (hp' : AffRep g1B p' (k • P)) (hq : AffRep g2B q Q) (hq' : AffRep g2B q' (l • Q))
    (hQ : frParams.m • Q = 0) : ∃ a, pairing p q = some a ∧ a ^ frParams.m = 1 ∧ pairing p' q' = some (a ^ (k * l)) := by
  refine ⟨_, pairing_ePoint hp ⟨Q, hQ⟩ hq, ?_, ?_⟩
  · have h := bn.M_pow (ePoint P ⟨Q, hQ⟩)
    rw [bn_r] at h
    have h' := congrArg (fun u : bn.M => ((u : (Fq12 FqV)ˣ) : Fq12 FqV)) h
    exact h'
  · have h : AffRep g2B q' ((l • (⟨Q, hQ⟩ : g2Torsion) : g2Torsion) : (curve g2B).Point) := by
      rw [coe_nsmul]; exact hq'
    rw [pairing_ePoint hp' _ h, ePoint_nsmul_right, ePoint_nsmul_left, ← pow_mul]
    rfl

/-- The generator of G2, as an element of the subgroup. -/
noncomputable def g2Base : g2Torsion := ⟨g2Point, g2_order⟩

theorem ePoint_base : ((ePoint g1Point g2Base : (Fq12 FqV)ˣ) : Fq12 FqV) = gtGenerator :=
  Option.some.inj ((pairing_ePoint g1Gen_rep g2Base g2Gen_rep).symm.trans pairing_generators)

theorem ePoint_base_ne : ePoint g1Point g2Base ≠ 1 := fun h => gtGenerator_ne_one (by
  rw [← ePoint_base, h]; rfl)

theorem kill_mul {A : Type} [AddCommGroup A] {n : Nat} {g : A} (h : n • g = 0) (j : Nat) : (n * j) • g = 0 := by
  rw [mul_comm, mul_nsmul', h, nsmul_zero]

theorem kill_emod {A : Type} [AddCommGroup A] {n : Nat} (hn : n ≠ 0) {g : A} (h : n • g = 0) (k : Int) :
    k • g = (k % (n : Int)).toNat • g := by
  have hm : ((k % (n : Int)).toNat : Int) = k % n := Int.toNat_of_nonneg (Int.emod_nonneg _ (by exact_mod_cast hn))
  rw [← natCast_zsmul, hm, Int.emod_def, sub_zsmul, mul_comm, mul_zsmul, natCast_zsmul, h, zsmul_zero, neg_zero, add_zero]

theorem aff_exists {F : Type} [_root_.Field F] [DecidableEq F] (b : F) (P : (curve b).Point) : ∃ p, AffRep b p P := by
  cases P with
  | zero => exact ⟨⟨0, 0, true⟩, rfl⟩
  | some x y h => exact ⟨⟨x, y, false⟩, rfl, rfl, rfl⟩

/-- Every point of G1 is a multiple of the generator. -/
theorem g1_multiple (P : (curve g1B).Point) : ∃ k : Nat, P = k • g1Point := by
  haveI : Fact (frParams.m).Prime := ⟨frParams_prime⟩
  have hc : Nat.card (curve g1B).Point = frParams.m :=
    card_eq g1_two g1_noOrderTwo frParams_prime (by decide +kernel) g1_order (WeierstrassCurve.Affine.Point.some_ne_zero _)
  obtain ⟨k, hk⟩ := mem_zmultiples_of_prime_card hc (g := g1Point) (g' := P) (WeierstrassCurve.Affine.Point.some_ne_zero _)
  exact ⟨_, hk.symm.trans (kill_emod frParams_prime.ne_zero g1_order k)⟩

theorem g2_multiple (Q : g2Torsion) : ∃ k : Nat, Q = k • g2Base := by
  obtain ⟨k, hk⟩ := g2_cyclic Q.2
  refine ⟨(k % (frParams.m : Int)).toNat, Subtype.ext ?_⟩
  rw [coe_nsmul]
  exact hk.trans (kill_emod frParams_prime.ne_zero g2_order k)

theorem ePoint_eq_one {P : (curve g1B).Point} {Q : g2Torsion} (h : ePoint P Q = 1) : P = 0 ∨ Q = 0 := by
  obtain ⟨k, rfl⟩ := g1_multiple P
  obtain ⟨l, rfl⟩ := g2_multiple Q
  rw [ePoint_nsmul_right, ePoint_nsmul_left, ← pow_mul] at h
  have ho : orderOf (ePoint g1Point g2Base) = frParams.m := by
    haveI : Fact (frParams.m).Prime := ⟨frParams_prime⟩
    refine orderOf_eq_prime ?_ ePoint_base_ne
    have := bn.M_pow (ePoint g1Point g2Base)
    rw [bn_r] at this
    exact this
  have hd := orderOf_dvd_of_pow_eq_one h
  rw [ho, frParams_prime.dvd_mul] at hd
  rcases hd with ⟨j, rfl⟩ | ⟨j, rfl⟩
  · exact Or.inl (kill_mul g1_order j)
  · right
    refine Subtype.ext ?_
    rw [coe_nsmul]
    exact kill_mul g2_order j

/-- **C74**, non-degeneracy: only pairs with an identity are sent to 1. -/
theorem C74_nondegenerate {p : Aff FqV} {P : (curve g1B).Point} (hp : AffRep g1B p P) {q : Aff (Fq2 FqV)}
    {Q : (curve g2B).Point} (hq : AffRep g2B q Q) (hQ : frParams.m • Q = 0) :
    pairing p q = some 1 ↔ P = 0 ∨ Q = 0 := by
  rw [pairing_ePoint hp ⟨Q, hQ⟩ hq]
  constructor
  · intro h
    have h1 : ePoint P ⟨Q, hQ⟩ = 1 := bn.M_ext (Option.some.inj h)
    rcases ePoint_eq_one h1 with h2 | h2
    · exact Or.inl h2
    · exact Or.inr (congrArg Subtype.val h2)
  · have e1 : (((1 : bn.M) : (Fq12 FqV)ˣ) : Fq12 FqV) = 1 := rfl
    rintro (rfl | rfl)
    · rw [ePoint_zero_left, e1]
    · have : (⟨0, hQ⟩ : g2Torsion) = 0 := rfl
      rw [this, ePoint_zero_right, e1]

/-- Non-vacuity: the generators meet the hypotheses of the four theorems, and their pairing is not 1. -/
example : pairing g1Gen g2Gen ≠ some 1 := by
  rw [Ne, C74_nondegenerate g1Gen_rep g2Gen_rep g2_order]
  rintro (h | h)
  · exact WeierstrassCurve.Affine.Point.some_ne_zero _ h
  · exact WeierstrassCurve.Affine.Point.some_ne_zero _ h

/-- Non-vacuity: every multiple of the generators is held by a struct, so `C74_scalar` applies to all of them. -/
example (k l : Nat) : ∃ p' q', AffRep g1B p' (k • g1Point) ∧ AffRep g2B q' (l • g2Point) ∧
    pairing p' q' = some (gtGenerator ^ (k * l)) := by
  obtain ⟨p, hp⟩ := aff_exists g1B (k • g1Point)
  obtain ⟨q, hq⟩ := aff_exists g2B (l • g2Point)
  obtain ⟨a, h1, -, h2⟩ := C74_scalar k l g1Gen_rep hp g2Gen_rep hq g2_order
  rw [pairing_generators] at h1
  rw [← Option.some.inj h1] at h2
  exact ⟨p, q, hp, hq, h2⟩

end Kogarashi.Props
