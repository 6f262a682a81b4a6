import Verif.Tower.Eval
import Verif.Spec.Tower
import Verif.Props.Tower

/-!
# Properties C71–C73 and the G2 part of C29: the pairing, square roots in Fq2, the target group

`FqV` is the field of residues modulo the order of Fq, `frParams.m` the order of Fr. `iota` embeds Fq2 in Fq12,
`Fq12.w` is the root `w` of the tower (`w⁶ = 9 + u`). `Spec.optimalAte` (`Verif/Spec/Pairing.lean`) is Miller's
algorithm in affine coordinates with Mathlib's group law.
-/

namespace Kogarashi.Props

open Kogarashi Spec Tower Kogarashi.Field Curve WeierstrassCurve.Affine

/-! ### C71 -/

/-- **C71.** For every point of G1 and every point of G2 (a point of the twist `y² = x³ + 3/(9 + u)` killed by the
order of Fr), the pairing does not panic and is the optimal ate pairing of the literature: Miller's algorithm with
signed digits of `6 x + 2`, where `x = 4965661367192848881` is the parameter of the curve, at the untwisted point
`(x w², y w³)`, the two lines through its Frobenius images (`π` raises coordinates to the power `q`), and the power
`(q¹² - 1)/r`. -/
theorem C71_pairing :
    ∃ digits : List Int, (∀ d ∈ digits, d = -1 ∨ d = 0 ∨ d = 1) ∧ digitsValue digits = 6 * 4965661367192848881 + 2 ∧
      ∀ (px py : FqV), py ^ 2 = px ^ 3 + 3 → ∀ (x y : Fq2 FqV) (h : (curve g2B).Nonsingular x y),
        frParams.m • Point.some x y h = 0 →
        ∀ (π : (curve (3 : Fq12 FqV)).Point → (curve (3 : Fq12 FqV)).Point), π 0 = 0 →
          (∀ a c h, ∃ h', π (.some a c h) = .some (a ^ fqParams.m) (c ^ fqParams.m) h') →
        ∀ hQ : (curve (3 : Fq12 FqV)).Nonsingular (iota x * Fq12.w ^ 2) (iota y * Fq12.w ^ 3),
          pairing ⟨px, py, false⟩ ⟨x, y, false⟩ =
            some (optimalAte digits π (.some _ _ hQ) (iota (Fq2.of px)) (iota (Fq2.of py)) ^
              ((fqParams.m ^ 12 - 1) / frParams.m)) := by
  refine ⟨loopDigits, by decide +kernel, loop_value, fun px py hP x y h hr π h0 hπ hQ => ?_⟩
  have hns : (curve g1B).Nonsingular px py :=
    nonsingular_of_eq g1_two (by decide +kernel) (by decide +kernel) (by rw [hP]; rfl)
  have hy : py ≠ 0 := y_ne_zero g1_noOrderTwo hns
  rw [pairing_spec (p := ⟨px, py, false⟩) rfl hy h hr rfl]
  have hfrob : ∀ A, π A = frob A := by
    intro A
    cases A with
    | zero => exact h0.trans (map_zero frob).symm
    | some a c hA =>
      obtain ⟨h', e⟩ := hπ a c hA
      rw [e]
      unfold frob
      rw [scale_some]
      exact some_congr (by rw [one_pow, mul_one, frobenius_def]) (by rw [one_pow, mul_one, frobenius_def])
  have hπ' : π = frob := funext hfrob
  subst hπ'
  rfl

/-- **C71.** The pairing with an identity on either side is one; and whatever the pairing returns is an `r`-th root
of unity. -/
theorem C71_identity (p : Aff FqV) (q : Aff (Fq2 FqV)) :
    (p.inf = true ∨ q.inf = true → pairing p q = some 1) ∧
      ∀ g, pairing p q = some g → g ^ frParams.m = 1 := by
  constructor
  · intro h
    have hm : multiMillerLoop [(p, prepare q)] = some 1 := by
      rw [multiMillerLoop_eq]
      · rw [List.map_cons, List.map_nil, List.prod_singleton]
        simp only [prepare_inf, if_pos h]
      · intro pq hpq h1 h2
        rw [List.mem_singleton] at hpq
        subst hpq
        exact (prepare_length q ((prepare_inf q).symm.trans h2)).2
    rw [pairing_of hm, finalExp_eq, if_neg one_ne_zero, one_pow]
  · intro g hg
    unfold pairing at hg
    rw [Option.bind_eq_bind, Option.bind_eq_some_iff] at hg
    obtain ⟨f, -, hf⟩ := hg
    exact C19_torsion f g hf

/-- The hypotheses of C71 are met: a Frobenius map exists, the generators are points of G1 and G2. -/
example : (∃ π : (curve (3 : Fq12 FqV)).Point → (curve (3 : Fq12 FqV)).Point, π 0 = 0 ∧
      ∀ a c h, ∃ h', π (.some a c h) = .some (a ^ fqParams.m) (c ^ fqParams.m) h') ∧
    g1Gen.y ^ 2 = g1Gen.x ^ 3 + 3 ∧ frParams.m • Point.some _ _ g2Gen_ns = 0 ∧
    (curve (3 : Fq12 FqV)).Nonsingular (iota g2Gen.x * Fq12.w ^ 2) (iota g2Gen.y * Fq12.w ^ 3) := by
  refine ⟨⟨frob, map_zero _, fun a c h => ⟨?_, ?_⟩⟩, by decide +kernel, g2_order, scale_ns iota w_ne_zero twist_b g2Gen_ns⟩
  · have := scale_ns (b' := (3 : Fq12 FqV)) (frobenius (Fq12 FqV) qN) one_ne_zero
      (by rw [map_ofNat, one_pow, mul_one]) h
    rwa [one_pow, mul_one, one_pow, mul_one, frobenius_def, frobenius_def] at this
  · unfold frob
    rw [scale_some]
    exact some_congr (by rw [one_pow, mul_one, frobenius_def]) (by rw [one_pow, mul_one, frobenius_def])

/-! ### C29 for G2 -/

/-- **C29 is false of G2 too.** The generator of G2 is killed by the prime order of Fr, yet `is_torsion_free` is
false for it. -/
theorem C29_g2_refuted :
    AffRep g2B g2Gen g2Point ∧ frParams.m • g2Point = 0 ∧ g2Point ≠ 0 ∧ isTorsionFreeG2 g2Gen = false :=
  ⟨g2Gen_rep, g2_order, Point.some_ne_zero _, g2Gen_not_free⟩

/-! ### C72 -/

/-- **C72.** `Fq2::sqrt` returns a square root of every square, and `None` exactly for the elements that are not
squares. -/
theorem C72_sqrt (a : Fq2 FqV) :
    (∀ s, a.sqrt = some s → s ^ 2 = a) ∧ (a.sqrt = none ↔ ¬∃ s, s ^ 2 = a) := by
  refine ⟨fun s h => sqrt_sound h, fun h hs => ?_, fun h => ?_⟩
  · have := sqrt_complete hs
    rw [h] at this
    exact absurd this (by simp)
  · cases hs : a.sqrt with
    | none => rfl
    | some s => exact absurd ⟨s, sqrt_sound hs⟩ h

/-- **C72.** `pow_vartime` is exponentiation. -/
theorem C72_pow {R : Type} [CommRing R] (a : Fq2 R) {e : Limbs.L4} (he : e.Wf) : a.powVartime e = a ^ e.val :=
  powVartime_eq a he

/-- Both branches occur: `-1` has the root `u` (through `alpha = -1` or not), and `9 + u` has none. -/
example : (∃ s : Fq2 FqV, s ^ 2 = -1) ∧ Fq2.sqrt (-1 : Fq2 FqV) ≠ none ∧ Fq2.sqrt (⟨3, 4⟩ : Fq2 FqV) ≠ none ∧
    Fq2.sqrt (Fq2.xi : Fq2 FqV) = none := by
  refine ⟨⟨Fq2.u, by rw [pow_two]; decide +kernel⟩, by decide +kernel, by decide +kernel, by decide +kernel⟩

/-! ### C73 -/

/-- **C73, partial.** On the values the pairing takes (the `r`-th roots of unity), the additive notation of the target
group is a group: `+` is commutative and associative, the identity constant is neutral, `-` gives inverses, `a - a`
is the identity, `double` is `a + a`, and the set is closed. Missing: `zero()` is not the identity. -/
theorem C73_group_partial (a b c : Fq12 FqV) (ha : a ^ frParams.m = 1) (hb : b ^ frParams.m = 1) :
    gtAdd a b = gtAdd b a ∧ gtAdd (gtAdd a b) c = gtAdd a (gtAdd b c) ∧ gtAdd a gtIdentity = a ∧
      gtAdd a (gtNeg a) = gtIdentity ∧ gtSub a a = gtIdentity ∧ gtSub (gtAdd a b) b = a ∧ gtDouble a = gtAdd a a ∧
      gtAdd a b ^ frParams.m = 1 ∧ gtNeg a ^ frParams.m = 1 := by
  have h1 := gtNeg_spec ha
  have h2 := gtNeg_spec hb
  refine ⟨mul_comm _ _, mul_assoc _ _ _, mul_one _, h1, h1, ?_, Fq12.square_eq a, ?_, ?_⟩
  · unfold gtSub
    rw [show gtAdd (gtAdd a b) (gtNeg b) = gtAdd a (gtAdd b (gtNeg b)) from mul_assoc _ _ _, h2]
    exact mul_one _
  · unfold gtAdd
    rw [mul_pow, ha, hb, one_mul]
  · unfold gtNeg
    rw [Fq12.conjugate_eq, ← pow_mul, mul_comm, pow_mul, ha, one_pow]

/-- **C73 is false.** `zero()` is not the identity of the group: adding it to anything gives `zero()`, which is no
`r`-th root of unity. -/
theorem C73_zero_refuted (a : Fq12 FqV) :
    gtAdd gtZero a = gtZero ∧ gtZero ≠ gtIdentity ∧ gtZero ^ frParams.m ≠ 1 := by
  refine ⟨zero_mul _, zero_ne_one, ?_⟩
  have : (0 : Fq12 FqV) ^ frParams.m = 0 := zero_pow frParams_prime.ne_zero
  exact fun h => zero_ne_one (this.symm.trans h)

/-- **C73.** The generator constant of the target group is the pairing of the generators of G1 and G2; it is a
non-trivial `r`-th root of unity, so the pairing is not degenerate. -/
theorem C73_generator :
    pairing g1Gen g2Gen = some gtGenerator ∧ gtGenerator ^ frParams.m = 1 ∧ gtGenerator ≠ 1 :=
  ⟨pairing_generators, gtGenerator_pow, gtGenerator_ne_one⟩

end Kogarashi.Props
