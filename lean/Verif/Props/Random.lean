import Verif.Curve.Random
import Verif.Props.Orders
import Mathlib.Algebra.BigOperators.Fin
import Mathlib.Data.Int.CardIntervalMod
import Mathlib.SetTheory.Cardinal.Finite

/-!
# Property C96: random scalars and points

A draw is what the generator of random numbers returns: eight 64-bit words. All `2^512` draws are equally likely, so the
probability of a result is the number of draws that give it, divided by `2^512`.
-/

namespace Kogarashi.Props

open Kogarashi Spec Tower Curve Kogarashi.Field Limbs

/-- Eight words of 64 bits. -/
abbrev Draw := Fin 8 → Fin (2 ^ 64)

/-- The stream of words a draw stands for (words after the eighth are never read). -/
def Draw.stream (w : Draw) (i : Nat) : Nat := if h : i < 8 then (w ⟨i, h⟩).val else 0

/-- The integer the eight words spell, least significant first. -/
def Draw.nat (w : Draw) : Nat := ∑ i : Fin 8, (w i).val * (2 ^ 64) ^ (i : Nat)

theorem draw_lt (w : Draw) : ∀ i < 8, w.stream i < 2 ^ 64 := by
  intro i hi
  unfold Draw.stream
  rw [dif_pos hi]
  exact (w ⟨i, hi⟩).isLt

theorem draw_leValue (w : Draw) : leValue (2 ^ 64) ((List.range 8).map w.stream) = w.nat := by
  have h : (List.range 8).map w.stream = [(w 0).val, (w 1).val, (w 2).val, (w 3).val, (w 4).val, (w 5).val, (w 6).val, (w 7).val] := rfl
  rw [h]
  unfold Draw.nat
  have key : ∀ (B : Nat) (a : Fin 8 → Nat),
      leValue B [a 0, a 1, a 2, a 3, a 4, a 5, a 6, a 7] = ∑ i : Fin 8, a i * B ^ (i : Nat) := by
    intro B a
    rw [Fin.sum_univ_eight]
    simp only [leValue]
    show _ = a 0 * B ^ 0 + a 1 * B ^ 1 + a 2 * B ^ 2 + a 3 * B ^ 3 + a 4 * B ^ 4 + a 5 * B ^ 5 + a 6 * B ^ 6 + a 7 * B ^ 7
    ring
  exact key _ fun i => (w i).val

theorem draw_value {P : FieldParams} (hP : ValidParams P) (w : Draw) :
    Canonical P (P.random w.stream) ∧ value P (P.random w.stream) = w.nat % P.m := by
  have := C06_random hP (draw_lt w)
  rwa [draw_leValue] at this

theorem card_mod {m v : Nat} (hm : 0 < m) (hv : v < m) :
    Nat.card {w : Draw // w.nat % m = v} = 2 ^ 512 / m + if v < 2 ^ 512 % m then 1 else 0 := by
  have e : {w : Draw // w.nat % m = v} ≃ {n : Fin ((2 ^ 64) ^ 8) // n.val % m = v} :=
    finFunctionFinEquiv.subtypeEquiv fun w => by rw [finFunctionFinEquiv_apply]; rfl
  rw [Nat.card_congr e]
  have h8 : (2 ^ 64) ^ 8 = 2 ^ 512 := by rw [← pow_mul]
  rw [h8]
  generalize 2 ^ 512 = N
  have e2 : {n : Fin N // n.val % m = v} ≃ {n : Nat // n < N ∧ n ≡ v [MOD m]} :=
    { toFun := fun n => ⟨n.1.1, n.1.2, by unfold Nat.ModEq; rw [n.2, Nat.mod_eq_of_lt hv]⟩
      invFun := fun n => ⟨⟨n.1, n.2.1⟩, Eq.trans (show n.1 % m = v % m from n.2.2) (Nat.mod_eq_of_lt hv)⟩
      left_inv := fun _ => rfl
      right_inv := fun _ => rfl }
  rw [Nat.card_congr e2]
  have h := Nat.count_modEq_card N hm v
  rw [Nat.mod_eq_of_lt hv, Nat.count_eq_card_filter_range] at h
  rw [← h, ← Nat.card_eq_finsetCard]
  exact Nat.card_congr (Equiv.subtypeEquivRight fun n => by rw [Finset.mem_filter, Finset.mem_range])

/-- **C96, scalars.** Of the `2^512` draws, `⌊2^512 / m⌋` or one more give a prescribed value, the larger number exactly for the
values below `2^512 mod m`; the result is always canonical. -/
theorem C96_scalar {P : FieldParams} (hP : ValidParams P) {v : Nat} (hv : v < P.m) :
    (∀ w : Draw, Canonical P (P.random w.stream)) ∧
    Nat.card {w : Draw // value P (P.random w.stream) = v} = 2 ^ 512 / P.m + if v < 2 ^ 512 % P.m then 1 else 0 := by
  refine ⟨fun w => (draw_value hP w).1, ?_⟩
  rw [← card_mod (by omega) hv]
  exact Nat.card_congr (Equiv.subtypeEquivRight fun w => by rw [(draw_value hP w).2])

section
variable {F : Type} [_root_.Field F] [DecidableEq F] {b : F}

theorem random_rep (h2 : (2 : F) ≠ 0) {S : FieldParams} (hS : ValidParams S) {gen : Aff F} (hi : gen.inf = false)
    {G : (curve b).Point} (hg : AffRep b gen G) (w : Draw) :
    ∃ p q, randomAff S (b + b + b) gen w.stream = some p ∧ randomProj S (b + b + b) (projGenerator gen) w.stream = some q ∧
      AffRep b p ((w.nat % S.m) • G) ∧ ProjRep b q ((w.nat % S.m) • G) := by
  obtain ⟨hc, hval⟩ := draw_value hS w
  obtain ⟨nafs, e, hr⟩ := C22_scalar_mul_affine (b := b) h2 hS hc hg
  have hgen : projGenerator gen = gen.toExtended := by
    unfold projGenerator Aff.toExtended Aff.isIdentity
    rw [hi]; rfl
  rw [hval] at hr
  refine ⟨_, _, ?_, ?_, (C24_conversions hr hg).1, hr⟩
  · unfold randomAff; rw [e]; rfl
  · unfold randomProj; rw [hgen, e]; rfl

theorem affRep_unique {a : Aff F} {A C : (curve b).Point} (h : AffRep b a A) (h' : AffRep b a C) : A = C := by
  have e := (C24_conversions (b := b) (p := Proj.identity) (P := 0) rfl h).2.1
  exact (C24_eq e e h h').2.1 ((C24_eq e e h h).2.2 rfl)

theorem projRep_unique {a : Proj F} {A C : (curve b).Point} (h : ProjRep b a A) (h' : ProjRep b a C) : A = C := by
  have e := (C24_conversions (b := b) (a := Aff.identity) (A := 0) h rfl).1
  exact (C24_eq h h' e e).1.1 ((C24_eq h h e e).1.2 rfl)

theorem random_card (h2 : (2 : F) ≠ 0) {S : FieldParams} (hS : ValidParams S) {gen : Aff F} (hi : gen.inf = false)
    {G : (curve b).Point} (hg : AffRep b gen G) {P : (curve b).Point} (hP : ∃! k, k < S.m ∧ P = k • G) (hm : 0 < S.m) :
    ∃ e ≤ 1, Nat.card {w : Draw // ∃ p, randomAff S (b + b + b) gen w.stream = some p ∧ AffRep b p P} = 2 ^ 512 / S.m + e ∧
      Nat.card {w : Draw // ∃ p, randomProj S (b + b + b) (projGenerator gen) w.stream = some p ∧ ProjRep b p P} =
        2 ^ 512 / S.m + e := by
  obtain ⟨k, ⟨hk, hPk⟩, hu⟩ := hP
  have key : ∀ w : Draw, w.nat % S.m = k ↔ (w.nat % S.m) • G = P :=
    fun w => ⟨fun h => by rw [h]; exact hPk.symm, fun h => hu _ ⟨Nat.mod_lt _ hm, h.symm⟩⟩
  refine ⟨if k < 2 ^ 512 % S.m then 1 else 0, by split <;> omega, ?_, ?_⟩
  · rw [← card_mod hm hk]
    refine Nat.card_congr (Equiv.subtypeEquivRight fun w => ?_)
    obtain ⟨p, q, e1, -, r1, -⟩ := random_rep h2 hS hi hg w
    rw [key]
    constructor
    · rintro ⟨p', h1, h3⟩
      rw [e1, Option.some.injEq] at h1
      subst h1
      exact affRep_unique r1 h3
    · intro h
      exact ⟨p, e1, by rw [← h]; exact r1⟩
  · rw [← card_mod hm hk]
    refine Nat.card_congr (Equiv.subtypeEquivRight fun w => ?_)
    obtain ⟨p, q, -, e1, -, r1⟩ := random_rep h2 hS hi hg w
    rw [key]
    constructor
    · rintro ⟨p', h1, h3⟩
      rw [e1, Option.some.injEq] at h1
      subst h1
      exact projRep_unique r1 h3
    · intro h
      exact ⟨q, e1, by rw [← h]; exact r1⟩

/-- **C96, coordinates.** `from_x_and_y` gives a struct that `is_on_curve` accepts exactly when the coordinates satisfy the
equation, and the struct then holds that point. -/
theorem C96_from_x_and_y (x y : F) :
    ((affFromXY x y).isOnCurve b = true ↔ y ^ 2 = x ^ 3 + b) ∧ ((projFromXY x y).isOnCurve b = true ↔ y ^ 2 = x ^ 3 + b) ∧
    ∀ h : (curve b).Nonsingular x y, AffRep b (affFromXY x y) (.some x y h) ∧ ProjRep b (projFromXY x y) (.some x y h) := by
  have e1 : (y * y = x * x * x + b) ↔ y ^ 2 = x ^ 3 + b := by rw [pow_two, pow_three, mul_assoc]
  refine ⟨?_, ?_, fun h => ⟨⟨rfl, rfl, rfl⟩, ⟨one_ne_zero, ?_, ?_⟩⟩⟩
  · simp [affFromXY, Aff.isOnCurve, Aff.isIdentity, Curve.sq, e1]
  · simp [projFromXY, Proj.isOnCurve, Proj.isIdentity, Curve.sq, e1]
  · simp [projFromXY]
  · simp [projFromXY]

end

theorem g2_two : (2 : Fq2 FqV) ≠ 0 := by decide +kernel

/-- **C96, membership.** Whatever the generator of random numbers returns, `random` does not panic and returns a multiple of the
generator: a point of the curve, of prime order (or the identity) for G2. -/
theorem C96_member (w : Draw) :
    (∃ p q P, randomAff frParams (g1B + g1B + g1B) g1Gen w.stream = some p ∧
      randomProj frParams (g1B + g1B + g1B) (projGenerator g1Gen) w.stream = some q ∧ AffRep g1B p P ∧ ProjRep g1B q P ∧
      P = w.nat • g1Point) ∧
    (∃ p q P, randomAff fqParams (grumpkinB + grumpkinB + grumpkinB) grumpkinGen w.stream = some p ∧
      randomProj fqParams (grumpkinB + grumpkinB + grumpkinB) (projGenerator grumpkinGen) w.stream = some q ∧
      AffRep grumpkinB p P ∧ ProjRep grumpkinB q P ∧ P = w.nat • grumpkinPoint) ∧
    ∃ p q Q, randomAff frParams (g2B + g2B + g2B) g2Gen w.stream = some p ∧
      randomProj frParams (g2B + g2B + g2B) (projGenerator g2Gen) w.stream = some q ∧ AffRep g2B p Q ∧ ProjRep g2B q Q ∧
      Q = w.nat • g2Point ∧ frParams.m • Q = 0 := by
  have red : ∀ {A : Type} [AddCommGroup A] {g : A} {r : Nat} (n : Nat), r • g = 0 → (n % r) • g = n • g := by
    intro A _ g r n h
    conv_rhs => rw [← Nat.mod_add_div n r, add_nsmul, mul_comm, mul_nsmul', h, nsmul_zero, add_zero]
  refine ⟨?_, ?_, ?_⟩
  · obtain ⟨p, q, e1, e2, r1, r2⟩ := random_rep g1_two frParams_valid rfl g1Gen_rep w
    exact ⟨p, q, _, e1, e2, r1, r2, red _ g1_order⟩
  · obtain ⟨p, q, e1, e2, r1, r2⟩ := random_rep grumpkin_two fqParams_valid rfl grumpkinGen_rep w
    exact ⟨p, q, _, e1, e2, r1, r2, red _ grumpkin_order⟩
  · obtain ⟨p, q, e1, e2, r1, r2⟩ := random_rep g2_two frParams_valid rfl g2Gen_rep w
    refine ⟨p, q, _, e1, e2, r1, r2, red _ g2_order, ?_⟩
    rw [nsmul_left_comm, g2_order, nsmul_zero]

/-- **C96, distribution.** Every point of G1, of Grumpkin and of the prime-order subgroup of the twist is the result of
`⌊2^512 / m⌋` or one more of the `2^512` draws, `m` the modulus of the scalar field. -/
theorem C96_uniform :
    (∀ P : (curve g1B).Point, ∃ e ≤ 1,
      Nat.card {w : Draw // ∃ p, randomAff frParams (g1B + g1B + g1B) g1Gen w.stream = some p ∧ AffRep g1B p P} =
        2 ^ 512 / frParams.m + e ∧
      Nat.card {w : Draw // ∃ p, randomProj frParams (g1B + g1B + g1B) (projGenerator g1Gen) w.stream = some p ∧ ProjRep g1B p P} =
        2 ^ 512 / frParams.m + e) ∧
    (∀ P : (curve grumpkinB).Point, ∃ e ≤ 1,
      Nat.card {w : Draw // ∃ p, randomAff fqParams (grumpkinB + grumpkinB + grumpkinB) grumpkinGen w.stream = some p ∧
        AffRep grumpkinB p P} = 2 ^ 512 / fqParams.m + e ∧
      Nat.card {w : Draw // ∃ p, randomProj fqParams (grumpkinB + grumpkinB + grumpkinB) (projGenerator grumpkinGen) w.stream =
        some p ∧ ProjRep grumpkinB p P} = 2 ^ 512 / fqParams.m + e) ∧
    ∀ Q : (curve g2B).Point, frParams.m • Q = 0 → ∃ e ≤ 1,
      Nat.card {w : Draw // ∃ p, randomAff frParams (g2B + g2B + g2B) g2Gen w.stream = some p ∧ AffRep g2B p Q} =
        2 ^ 512 / frParams.m + e ∧
      Nat.card {w : Draw // ∃ p, randomProj frParams (g2B + g2B + g2B) (projGenerator g2Gen) w.stream = some p ∧ ProjRep g2B p Q} =
        2 ^ 512 / frParams.m + e := by
  obtain ⟨h1, h2, h3⟩ := C76_generators
  exact ⟨fun P => random_card g1_two frParams_valid rfl g1Gen_rep (h1 P) frParams_prime.pos,
    fun P => random_card grumpkin_two fqParams_valid rfl grumpkinGen_rep (h2 P) fqParams_prime.pos,
    fun Q hQ => random_card g2_two frParams_valid rfl g2Gen_rep (h3 Q hQ) frParams_prime.pos⟩

/-- Non-vacuity: the number of draws is far from zero, and the generator of G2 is a point `C96_uniform` is about. -/
example : 2 ^ 257 < 2 ^ 512 / frParams.m ∧ frParams.m • g2Point = 0 ∧ (1 : Nat) < frParams.m :=
  ⟨by decide +kernel, g2_order, by decide +kernel⟩

end Kogarashi.Props
