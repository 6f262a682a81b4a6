import Verif.Props.Bilinear

/-!
# Property C76: the groups have prime order

`AffRep b p P`, `ProjRep b p P`: the struct `p` holds the point `P` of Mathlib's curve group.  A projective struct is the
identity when its `z` is zero.
-/

namespace Kogarashi.Props

open Kogarashi Spec Tower Curve Kogarashi.Field Limbs

theorem g1_card : Nat.card (curve g1B).Point = frParams.m :=
  card_eq g1_two g1_noOrderTwo frParams_prime (by decide +kernel) g1_order (WeierstrassCurve.Affine.Point.some_ne_zero _)

theorem grumpkin_card : Nat.card (curve grumpkinB).Point = fqParams.m :=
  card_eq grumpkin_two grumpkin_noOrderTwo fqParams_prime (by decide +kernel) grumpkin_order
    (WeierstrassCurve.Affine.Point.some_ne_zero _)

/-- **C76**, the number of points: G1 has as many as Fr has elements, Grumpkin as many as Fq, so both cofactors are one
and the two curves form a cycle. -/
theorem C76_cycle : Nat.card (curve g1B).Point = frParams.m ∧ Nat.card (curve grumpkinB).Point = fqParams.m ∧
    (frParams.m).Prime ∧ (fqParams.m).Prime := ⟨g1_card, grumpkin_card, frParams_prime, fqParams_prime⟩

theorem kill_iff {A : Type} [AddCommGroup A] {r : Nat} (hr : r.Prime) (h : ∀ P : A, r • P = 0) (P : A) (k : Nat) :
    k • P = 0 ↔ r ∣ k ∨ P = 0 := by
  constructor
  · intro hk
    rcases (Nat.coprime_or_dvd_of_prime hr k) with hc | hd
    · right
      have h1 : addOrderOf P ∣ r := addOrderOf_dvd_of_nsmul_eq_zero (h P)
      have h2 : addOrderOf P ∣ k := addOrderOf_dvd_of_nsmul_eq_zero hk
      have h3 := Nat.dvd_gcd h1 h2
      rw [hc] at h3
      exact AddMonoid.addOrderOf_eq_one_iff.mp (Nat.dvd_one.mp h3)
    · exact Or.inl hd
  · rintro (⟨j, rfl⟩ | rfl)
    · exact kill_mul (h P) j
    · exact nsmul_zero k

theorem value_dvd {P : FieldParams} (hP : ValidParams P) {k : L4} (hk : Canonical P k) (hp : P.m.Prime) :
    P.m ∣ value P k ↔ k = B256.zero := by
  haveI : NeZero P.m := ⟨hp.ne_zero⟩
  rw [← denote_eq_zero_iff hP hk, ← ZMod.natCast_eq_zero_iff, value_cast hP]

theorem rep_zero_iff {F : Type} [_root_.Field F] [DecidableEq F] {b : F} {p : Proj F} {P : (curve b).Point}
    (h : ProjRep b p P) : p.z = 0 ↔ P = 0 := by
  cases P with
  | zero => exact ⟨fun _ => rfl, fun _ => h⟩
  | some x y hn => exact ⟨fun hz => (h.1 hz).elim, fun h0 => (WeierstrassCurve.Affine.Point.some_ne_zero _ h0).elim⟩

/-- **C76**, G1: multiplying a point by a scalar gives the identity only for the zero scalar or the identity. -/
theorem C76_g1_no_torsion {p : Aff FqV} {P : (curve g1B).Point} (hp : AffRep g1B p P) {k : L4} (hk : Canonical frParams k) :
    ∃ nafs, frParams.toNafs k = some nafs ∧
      ((scalarPoint (g1B + g1B + g1B) p.toExtended nafs).z = 0 ↔ k = B256.zero ∨ P = 0) := by
  obtain ⟨nafs, e1, e2⟩ := C22_scalar_mul_affine (b := g1B) g1_two frParams_valid hk hp
  refine ⟨nafs, e1, ?_⟩
  rw [rep_zero_iff e2, kill_iff frParams_prime g1_smul_order, value_dvd frParams_valid hk frParams_prime]

/-- **C76**, Grumpkin. -/
theorem C76_grumpkin_no_torsion {p : Aff FrV} {P : (curve grumpkinB).Point} (hp : AffRep grumpkinB p P) {k : L4}
    (hk : Canonical fqParams k) :
    ∃ nafs, fqParams.toNafs k = some nafs ∧
      ((scalarPoint (grumpkinB + grumpkinB + grumpkinB) p.toExtended nafs).z = 0 ↔ k = B256.zero ∨ P = 0) := by
  obtain ⟨nafs, e1, e2⟩ := C22_scalar_mul_affine (b := grumpkinB) grumpkin_two fqParams_valid hk hp
  refine ⟨nafs, e1, ?_⟩
  rw [rep_zero_iff e2, kill_iff fqParams_prime grumpkin_smul_order, value_dvd fqParams_valid hk fqParams_prime]

/-- **C76**, generators: every point of the group is a multiple of the generator constant by a scalar below the order,
and by one only. -/
theorem C76_generators :
    (∀ P : (curve g1B).Point, ∃! k, k < frParams.m ∧ P = k • g1Point) ∧
    (∀ P : (curve grumpkinB).Point, ∃! k, k < fqParams.m ∧ P = k • grumpkinPoint) ∧
    (∀ Q : (curve g2B).Point, frParams.m • Q = 0 → ∃! k, k < frParams.m ∧ Q = k • g2Point) := by
  have key {A : Type} [AddCommGroup A] {r : Nat} (hr : r.Prime) {g : A} (hg : r • g = 0) (h0 : g ≠ 0) {P : A}
      {k : Int} (hP : P = k • g) : ∃! k, k < r ∧ P = k • g := by
    have hpos : (r : Int) > 0 := by exact_mod_cast hr.pos
    refine ⟨(k % (r : Int)).toNat, ⟨?_, ?_⟩, ?_⟩
    · have := Int.emod_lt_of_pos k hpos
      have := Int.emod_nonneg k hpos.ne'
      omega
    · rw [hP]; exact kill_emod hr.ne_zero hg k
    · have huniq : ∀ i j : Nat, i < r → j < r → i ≤ j → i • g = j • g → i = j := by
        intro i j _ hj hij h
        haveI : Fact r.Prime := ⟨hr⟩
        have ho : addOrderOf g = r := addOrderOf_eq_prime hg h0
        have h1 : (j - i) • g = 0 := by
          have : (i + (j - i)) • g = j • g := by rw [Nat.add_sub_cancel' hij]
          rw [add_nsmul, ← h] at this
          exact left_eq_add.mp this.symm
        have := addOrderOf_dvd_of_nsmul_eq_zero h1
        rw [ho] at this
        have := Nat.eq_zero_of_dvd_of_lt this (by omega)
        omega
      rintro j ⟨hj, hPj⟩
      have hb : (k % (r : Int)).toNat < r := by
        have := Int.emod_lt_of_pos k hpos
        have := Int.emod_nonneg k hpos.ne'
        omega
      have he : j • g = (k % (r : Int)).toNat • g := by rw [← hPj, hP]; exact kill_emod hr.ne_zero hg k
      rcases le_total j (k % (r : Int)).toNat with hle | hle
      · exact huniq _ _ hj hb hle he
      · exact (huniq _ _ hb hj hle he.symm).symm
  refine ⟨fun P => ?_, fun P => ?_, fun Q hQ => ?_⟩
  · haveI : Fact (frParams.m).Prime := ⟨frParams_prime⟩
    obtain ⟨k, hk⟩ := mem_zmultiples_of_prime_card g1_card (g := g1Point) (g' := P) (WeierstrassCurve.Affine.Point.some_ne_zero _)
    exact key frParams_prime g1_order (WeierstrassCurve.Affine.Point.some_ne_zero _) hk.symm
  · haveI : Fact (fqParams.m).Prime := ⟨fqParams_prime⟩
    obtain ⟨k, hk⟩ := mem_zmultiples_of_prime_card grumpkin_card (g := grumpkinPoint) (g' := P)
      (WeierstrassCurve.Affine.Point.some_ne_zero _)
    exact key fqParams_prime grumpkin_order (WeierstrassCurve.Affine.Point.some_ne_zero _) hk.symm
  · obtain ⟨k, hk⟩ := g2_cyclic hQ
    exact key frParams_prime g2_order (WeierstrassCurve.Affine.Point.some_ne_zero _) hk

/-- Non-vacuity: the generators and the scalar 1. -/
example : AffRep g1B g1Gen g1Point ∧ AffRep grumpkinB grumpkinGen grumpkinPoint ∧ Canonical frParams frParams.r ∧
    Canonical fqParams fqParams.r ∧ g1Point ≠ 0 ∧ frParams.r ≠ B256.zero :=
  ⟨g1Gen_rep, grumpkinGen_rep, r_canonical frParams_valid, r_canonical fqParams_valid,
    WeierstrassCurve.Affine.Point.some_ne_zero _, by decide⟩

end Kogarashi.Props
