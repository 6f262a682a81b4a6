import Verif.Tower.QuickRun

/-!
# Property C91: the pairing with the code's own squaring

Everything here is on raw limbs: `codePairing` uses the `square` and `invert` of the code.
-/

namespace Kogarashi.Props

open Kogarashi Spec Tower Curve Kogarashi.Field Limbs Tower.Quick

/-- **C91**: as long as no squaring of the run loses a carry, the pairing of the code on limbs gives the limbs of the
pairing.  Missing: runs in which a squaring goes wrong, refuted below. -/
theorem C91_pairing_partial {p : Aff FqW} {q : Aff (Fq2 FqW)} {z : Fq12 FqW} (h : RunsRight p q z) :
    codePairing (limbsG1 p) (limbsG2 q) = some (limbs12 z) ∧ pairing (readG1 p) (readG2 q) = some (read12 z) := by
  refine ⟨runsRight_code h, ?_⟩
  rw [← C79_pairing_partial, runsRight_field h, Option.map_some]

/-- **C91**: two such runs are bilinear and not degenerate. -/
theorem C91_bilinear_partial {p p' : Aff FqW} {P : (curve g1B).Point} {q q' : Aff (Fq2 FqW)} {Q : (curve g2B).Point}
    {z z' : Fq12 FqW} (k l : Nat) (hp : AffRep g1B (readG1 p) P) (hp' : AffRep g1B (readG1 p') (k • P))
    (hq : AffRep g2B (readG2 q) Q) (hq' : AffRep g2B (readG2 q') (l • Q)) (hQ : frParams.m • Q = 0)
    (h : RunsRight p q z) (h' : RunsRight p' q' z') :
    codePairing (limbsG1 p) (limbsG2 q) = some (limbs12 z) ∧ codePairing (limbsG1 p') (limbsG2 q') = some (limbs12 z') ∧
      z' = z ^ (k * l) ∧ (z = 1 ↔ P = 0 ∨ Q = 0) := by
  obtain ⟨a, h1, h2, h3⟩ := C79_bilinear_partial k l hp hp' hq hq' hQ
  rw [runsRight_field h] at h1
  rw [runsRight_field h'] at h2
  refine ⟨runsRight_code h, runsRight_code h', ?_, ?_⟩
  · rw [Option.some_inj.mp h1]
    exact Option.some_inj.mp h2
  · rw [Option.some_inj.mp h1]
    exact h3

/-- **C91** fails in general: at a point of the twist the code returns, without a panic, an element that is not the
pairing. -/
theorem C91_pairing_refuted : ∃ (p : Aff FqW) (q : Aff (Fq2 FqW)) (z : Fq12 FqW), AffRep g1B (readG1 p) g1Point ∧
    (read2 q.y) ^ 2 = (read2 q.x) ^ 3 + g2B ∧
    codePairing (limbsG1 p) (limbsG2 q) = some (limbs12 z) ∧ pairing (readG1 p) (readG2 q) ≠ some (read12 z) := by
  obtain ⟨z, z', h1, h2, h3⟩ := bad_differs
  refine ⟨g1GenW, badTwist, z, ?_, ?_, h1, ?_⟩
  · have e : readG1 g1GenW = g1Gen := by
      have e : readG1 g1GenW = ⟨den g1GenW.x, den g1GenW.y, false⟩ := rfl
      rw [e, g1GenW_x, g1GenW_y]
      rfl
    rw [e]
    exact g1Gen_rep
  · rw [← read_g2BW, ← map_pow, ← map_pow, ← map_add]
    have h : badTwist.y * badTwist.y = badTwist.x * badTwist.x * badTwist.x + g2BW := by decide +kernel
    rw [pow_two, pow_succ, pow_two, h]
  · rw [← C79_pairing_partial, h2, Option.map_some]
    intro e
    exact h3 (read12_inj (Option.some_inj.mp e)).symm

theorem den_montOf {a : L4} (h : Canonical fqParams a) : den (montOf a) = (a.val : FqV) := by
  obtain ⟨h1, h2⟩ := toMontForm_denote fqParams_valid (v := a) h.1
  rw [montOf, den_wordOf h1, coeff_eq, h2]

theorem read_g2GenW : readG2 g2GenW = g2Gen := by
  have e : readG2 g2GenW = ⟨⟨den g2GenW.x.c0, den g2GenW.x.c1⟩, ⟨den g2GenW.y.c0, den g2GenW.y.c1⟩, false⟩ := rfl
  rw [e, g2GenW]
  dsimp only
  rw [den_montOf (by unfold Canonical; decide +kernel), den_montOf (by unfold Canonical; decide +kernel),
    den_montOf (by unfold Canonical; decide +kernel), den_montOf (by unfold Canonical; decide +kernel)]
  rfl

/-- The generators: the code's own run is right, and what it returns is the generator of the target group. -/
example : ∃ z, RunsRight g1GenW g2GenW z ∧ codePairing (limbsG1 g1GenW) (limbsG2 g2GenW) = some (limbs12 z) ∧
    read12 z = gtGenerator ∧ gtGenerator ≠ 1 := by
  obtain ⟨z, hz⟩ := gen_runs
  obtain ⟨h1, h2⟩ := C91_pairing_partial hz
  refine ⟨z, hz, h1, ?_, gtGenerator_ne_one⟩
  have e : readG1 g1GenW = g1Gen := by
    have e : readG1 g1GenW = ⟨den g1GenW.x, den g1GenW.y, false⟩ := rfl
    rw [e, g1GenW_x, g1GenW_y]
    rfl
  rw [e, read_g2GenW, pairing_generators] at h2
  exact (Option.some_inj.mp h2).symm

end Kogarashi.Props
