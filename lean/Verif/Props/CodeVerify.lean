import Verif.Groth16.CodeVerifyRun
import Verif.Props.CodePairing
import Verif.Props.Groth16Bn254

/-!
# Property C92: Groth16 verification with the code's own arithmetic

`codeVerify` takes limbs and makes every squaring and inversion with the routines of the code, both in the loop over the
public inputs and in the pairing.  `VerifyRight` says which runs lose no carry.
-/

namespace Kogarashi.Props

open Kogarashi Spec Tower Curve Kogarashi.Field Limbs Tower.Quick Groth16

/-- The equation of the verifier: `e(A,B) = e(α,β) · e(ic₀ + Σ xᵢ icᵢ, γ) · e(C,δ)`, the target group written additively. -/
def GrothEq {F G1 G2 GT : Type} [_root_.Field F] [AddCommGroup G1] [Module F G1] [AddCommGroup G2] [Module F G2]
    [AddCommGroup GT] [Module F GT] (e : G1 →ₗ[F] G2 →ₗ[F] GT) (V : VKey G1 G2) (ρ : Groth16.Proof G1 G2) (inputs : List F) : Prop :=
  e ρ.a ρ.b = e V.alphaG1 V.betaG2 + e (publicPoint V.ic inputs) V.gammaG2 + e ρ.c V.deltaG2

theorem verify_grothEq {F G1 G2 GT : Type} [_root_.Field F] [DecidableEq F] [AddCommGroup G1] [Module F G1]
    [AddCommGroup G2] [Module F G2] [AddCommGroup GT] [Module F GT] [DecidableEq G1] [DecidableEq G2] [DecidableEq GT]
    {e : G1 →ₗ[F] G2 →ₗ[F] GT} {V : VKey G1 G2} {ρ : Groth16.Proof G1 G2} {inputs : List F} (hl : inputs.length + 1 = V.ic.length) :
    (verify e (V.prepare e) ρ inputs = .ok () ↔ GrothEq e V ρ inputs) ∧
    (verify e (V.prepare e) ρ inputs = .error .proofVerificationError ↔ ¬ GrothEq e V ρ inputs) := by
  have q := C45_verify (e := e) V ρ inputs
  exact ⟨q.2.1.trans (and_iff_right hl), q.2.2.trans (and_iff_right hl)⟩

/-- **C92**: a run that loses no carry does not panic and ends as the verifier on residues does.  Missing: the other runs,
refuted below. -/
theorem C92_refines_partial {vk : RVKey FqW} {π : RProof FqW} {inputs : List L4} {I : Aff FqW} {ab z : Fq12 FqW}
    (hl : inputs.length + 1 = vk.ic.length) (h : VerifyRight vk π inputs I ab z) :
    codeVerify (vk.map limbsG1 limbsG2) (π.map limbsG1 limbsG2) inputs =
      ((readVKey vk).prepare.bind fun k => cVerify k (readProof π) inputs) := by
  obtain ⟨h1, h2⟩ := codeVerify_refines hl h
  rw [h1, h2]

/-- **C92**: such a run accepts exactly the proofs for which the equation holds, and rejects the
others with `ProofVerificationError`. -/
theorem C92_accepts_partial {vk : RVKey FqW} {V : VKey BG1 BG2} (hk : KeyRep (readVKey vk) V) {π : RProof FqW}
    {ρ : Groth16.Proof BG1 BG2} (hπ : ProofRep (readProof π) ρ) {inputs : List L4}
    (hi : ∀ i ∈ inputs, Canonical frParams i) (hl : inputs.length + 1 = vk.ic.length) {I : Aff FqW} {ab z : Fq12 FqW}
    (h : VerifyRight vk π inputs I ab z) :
    (codeVerify (vk.map limbsG1 limbsG2) (π.map limbsG1 limbsG2) inputs = some (.ok ()) ↔
      GrothEq bnE V ρ (inputs.map (denote frParams))) ∧
    (codeVerify (vk.map limbsG1 limbsG2) (π.map limbsG1 limbsG2) inputs = some (.error .proofVerificationError) ↔
      ¬ GrothEq bnE V ρ (inputs.map (denote frParams))) := by
  have hn : (readVKey vk).ic.length = vk.ic.length := List.length_map _
  have hne : (readVKey vk).ic ≠ [] := by
    intro e
    rw [e, ← hl] at hn
    exact absurd hn (by simp)
  have hV : (inputs.map (denote frParams)).length + 1 = V.ic.length := by
    rw [List.length_map, ← hk.ic.length_eq, hn, hl]
  have e := (C92_refines_partial hl h).trans (C75_refines hk hne hπ hi)
  have q := verify_grothEq (e := bnE) (ρ := ρ) hV
  generalize codeVerify (vk.map limbsG1 limbsG2) (π.map limbsG1 limbsG2) inputs = o at e ⊢
  subst e
  exact ⟨Option.some_inj.trans q.1, Option.some_inj.trans q.2⟩

/-- **C92**: whatever the limbs, a wrong number of inputs is answered with both numbers, before any arithmetic, and a key
without elements is a panic. -/
theorem C92_length (k : RPVKey L4) (π : RProof L4) (inputs : List L4) :
    (k.ic = [] → lVerify k π inputs = none) ∧
    (k.ic ≠ [] → inputs.length + 1 ≠ k.ic.length →
      lVerify k π inputs = some (.error (.inconsistentPublicInputsLen (k.ic.length - 1) inputs.length))) := by
  constructor
  · intro e
    unfold lVerify
    rw [e]
  · intro hne hl
    unfold lVerify
    split
    · rename_i e
      exact absurd e hne
    · rw [if_pos hl]

theorem read_g1GenW : readG1 g1GenW = g1Gen := by
  have e : readG1 g1GenW = ⟨den g1GenW.x, den g1GenW.y, false⟩ := rfl
  rw [e, g1GenW_x, g1GenW_y]
  rfl

theorem read_negGenW : readG1 negGenW = g1Gen.neg := by
  rw [← read_g1GenW]
  have e : readG1 negGenW = ⟨den g1GenW.x, den (-g1GenW.y), false⟩ := rfl
  rw [e, map_neg]
  rfl

theorem badW_rep : ∃ Q, AffRep g1B (readG1 badW) Q := by
  obtain ⟨Q, cx, cy, h⟩ := badPoint_holds
  refine ⟨Q, ?_⟩
  have e : readG1 badW = ⟨den (wordOf badPoint.x), den (wordOf badPoint.y), false⟩ := rfl
  rw [e, den_wordOf cx, den_wordOf cy, coeff_eq, coeff_eq]
  have hf : badPoint.inf = false := rfl
  rw [hf] at h
  exact h

theorem read_badNegW : readG1 badNegW = (readG1 badW).neg := by
  have e : readG1 badNegW = ⟨den badW.x, den (-badW.y), false⟩ := rfl
  rw [e, map_neg]
  rfl

theorem two_denote : Canonical frParams twoL ∧ denote frParams twoL = 1 + 1 := by
  obtain ⟨h1, h2⟩ := toMontForm_denote frParams_valid (v := ⟨2, 0, 0, 0⟩) (by decide)
  exact ⟨h1, h2.trans (by decide +kernel)⟩

theorem lin_bad {F G1 G2 GT : Type} [_root_.Field F] [AddCommGroup G1] [Module F G1] [AddCommGroup G2] [Module F G2]
    [AddCommGroup GT] [Module F GT] (e : G1 →ₗ[F] G2 →ₗ[F] GT) (P R : G1) (Q : G2) {x : F} (hx : x = 1 + 1) :
    GrothEq e ⟨P, P, Q, Q, P, Q, [-R, R]⟩ ⟨R, Q, -P⟩ [x] := by
  unfold GrothEq
  dsimp only
  have h : publicPoint [-R, R] [x] = -R + (x • R + 0) := rfl
  rw [h, hx, map_add, map_add, map_neg, map_neg, map_zero, map_smul, LinearMap.add_apply, LinearMap.add_apply,
    LinearMap.neg_apply, LinearMap.neg_apply, LinearMap.smul_apply, LinearMap.zero_apply]
  module

/-- **C92** fails in general: there are a key and a proof, of canonical limbs that hold points of the groups, such that the
equation of the verifier holds and the code answers `ProofVerificationError`. -/
theorem C92_verify_refuted : ∃ (vk : RVKey FqW) (V : VKey BG1 BG2) (π : RProof FqW) (ρ : Groth16.Proof BG1 BG2) (inputs : List L4),
    KeyRep (readVKey vk) V ∧ ProofRep (readProof π) ρ ∧ (∀ i ∈ inputs, Canonical frParams i) ∧
    GrothEq bnE V ρ (inputs.map (denote frParams)) ∧
    ((readVKey vk).prepare.bind fun k => cVerify k (readProof π) inputs) = some (.ok ()) ∧
    codeVerify (vk.map limbsG1 limbsG2) (π.map limbsG1 limbsG2) inputs = some (.error .proofVerificationError) := by
  obtain ⟨R, hR⟩ := badW_rep
  have hg1 : AffRep g1B (readG1 g1GenW) g1Point := by rw [read_g1GenW]; exact g1Gen_rep
  have hg2 : AffRep g2B (readG2 g2GenW) (g2Base : (curve g2B).Point) := by rw [read_g2GenW]; exact g2Gen_rep
  have hng : AffRep g1B (readG1 negGenW) (-g1Point) := by rw [read_negGenW]; exact affNeg_rep g1Gen_rep
  have hnR : AffRep g1B (readG1 badNegW) (-R) := by rw [read_badNegW]; exact affNeg_rep hR
  have hk : KeyRep (readVKey badKeyW) ⟨g1Point, g1Point, g2Base, g2Base, g1Point, g2Base, [-R, R]⟩ :=
    ⟨hg1, hg2, hg2, hg2, .cons hnR (.cons hR .nil)⟩
  have hπ : ProofRep (readProof badProofW) ⟨R, g2Base, -g1Point⟩ := ⟨hR, hg2, hng⟩
  have hi : ∀ i ∈ [twoL], Canonical frParams i := by
    intro i h
    rw [List.mem_singleton.mp h]
    exact two_denote.1
  have heq := lin_bad bnE g1Point R g2Base two_denote.2
  have e := C75_refines hk (List.cons_ne_nil _ _) hπ hi
  have q := (verify_grothEq (e := bnE) (V := ⟨g1Point, g1Point, g2Base, g2Base, g1Point, g2Base, [-R, R]⟩)
    (ρ := ⟨R, g2Base, -g1Point⟩) (inputs := [twoL].map (denote frParams)) (Eq.refl 2)).1.mpr heq
  exact ⟨badKeyW, ⟨g1Point, g1Point, g2Base, g2Base, g1Point, g2Base, [-R, R]⟩, badProofW, ⟨R, g2Base, -g1Point⟩, [twoL], hk, hπ,
    hi, heq, e.trans (congrArg some q), bad_verdict⟩

/-- A key and a proof of multiples of the generators, with one public input: the run loses no carry and the code accepts. -/
example : ∃ z, VerifyRight genKeyW genProofW [twoL] threeG z z ∧
    codeVerify (genKeyW.map limbsG1 limbsG2) (genProofW.map limbsG1 limbsG2) [twoL] = some (.ok ()) := by
  obtain ⟨z, hz⟩ := gen_right
  refine ⟨z, hz, ?_⟩
  rw [(codeVerify_refines (by rfl) hz).1, if_neg (not_not.mpr rfl)]

end Kogarashi.Props
