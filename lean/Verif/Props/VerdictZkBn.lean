import Verif.Props.VerdictZk
import Verif.Props.VerdictBn
import Verif.Props.Groth16StructMore

/-!
# C80 for every number of constraints: secrecy over BN254

`C104_exact` and `C46_same_or_disjoint` for the structs of the code.
-/

namespace Kogarashi.Props

open Kogarashi Spec Tower Curve Kogarashi.Field Limbs Groth16

/-- An affine struct stands for at most one point. -/
theorem affRep_unique {K : Type} [_root_.Field K] [DecidableEq K] {b : K} {p : Aff K} {P Q : (curve b).Point} (hP : AffRep b p P)
    (hQ : AffRep b p Q) : P = Q := (affEq_iff hP hQ).mp ((affEq_iff hP hP).mpr rfl)

/-- A proof struct holds at most one triple of points. -/
theorem proofRep_unique {π : SProof FqV (Fq2 FqV)} {ρ ρ' : Groth16.Proof BG1 BG2}
    (h : SProofRep (AddMonoidHom.id BG1) g2Torsion.subtype π ρ) (h' : SProofRep (AddMonoidHom.id BG1) g2Torsion.subtype π ρ') : ρ = ρ' := by
  obtain ⟨a, b, c⟩ := h
  obtain ⟨a', b', c'⟩ := h'
  have ea : ρ.a = ρ'.a := affRep_unique a a'
  have eb : ρ.b = ρ'.b := Subtype.val_injective (affRep_unique b b')
  have ec : ρ.c = ρ'.c := affRep_unique c c'
  cases ρ
  cases ρ'
  simp only at ea eb ec
  rw [ea, eb, ec]

/-- **C80, every number of constraints** (simulation). On structs, some honest proof is accepted exactly when the honest proofs hold, up to
a bijection of the coins, the points of a simulator that has the toxic waste and no witness. -/
theorem C80_simulation_exact {t : Trapdoor FrW} {cs0 cs : CS FrW} (sh : SameShape cs0 cs) (wf : Wf cs)
    (hl : cs0.x.length + cs0.w.length < 2 ^ 64) {p : SParams FqV (Fq2 FqV)} {vk : CPVKey} (hs : bnSetup t cs0 = some (.ok (p, vk))) :
    ∃ P V, KeysRep (p, vk) (P, V) ∧
      ((∃ r s π, bnProve p r s cs = some (.ok π) ∧ bnVerify vk π cs.x.tail = some (.ok ())) ↔
        ∃ φ : FrW × FrW ≃ FrW × FrW, ∀ c, ∃ π, bnProve p c.1 c.2 cs = some (.ok π) ∧
          SProofRep (AddMonoidHom.id BG1) g2Torsion.subtype π (simulate g1Point g2Base t P.vk cs.x.tail (φ c))) := by
  obtain ⟨P, V, hS, hk, sz, hic⟩ := keys_of hs hl
  refine ⟨P, V, hk, ?_⟩
  have key := C104_exact (e := bnEW) envW g1Point_ne g2Base_ne bnEW_base sh wf hS
  constructor
  · rintro ⟨r, s, π, a, b⟩
    have h := C80_prove_refines hk.1 sz r s cs
    rw [a] at h
    obtain ⟨ρ, h1, h2⟩ := h.left
    rw [bnVerify_same hk (ne_nil_of sh wf hic) h2] at b
    obtain ⟨φ, H⟩ := key.mp ⟨r, s, ρ, h1, Option.some.inj b⟩
    refine ⟨φ, fun c => ?_⟩
    have h := C80_prove_refines hk.1 sz c.1 c.2 cs
    rw [H c] at h
    exact h.right
  · rintro ⟨φ, H⟩
    obtain ⟨π, a, b⟩ := H (0, 0)
    refine ⟨0, 0, π, a, ?_⟩
    rw [bnVerify_same hk (ne_nil_of sh wf hic) b, C104_simulated_accepted hS _ ?_ _]
    have w := wf.1
    have l := sh.1
    unfold CS.l
    rw [l]
    cases hx : cs.x with
    | nil => rw [hx] at w; simp at w
    | cons a b => rfl

/-- **C80, every number of constraints** (secrecy). For two assignments with the same public inputs, either a bijection of the coins gives
proof structs with the same three points, or no proof struct of the one ever has the three points of a proof struct of the other. -/
theorem C80_same_or_disjoint {t : Trapdoor FrW} {cs0 cs cs' : CS FrW} (sh : SameShape cs0 cs) (sh' : SameShape cs0 cs') (wf : Wf cs)
    (wf' : Wf cs') (hx : cs.x = cs'.x) (hl : cs0.x.length + cs0.w.length < 2 ^ 64) {p : SParams FqV (Fq2 FqV)} {vk : CPVKey}
    (hs : bnSetup t cs0 = some (.ok (p, vk))) :
    (∃ φ : FrW × FrW ≃ FrW × FrW, ∀ c, ∃ π π' ρ, bnProve p c.1 c.2 cs = some (.ok π) ∧
      bnProve p (φ c).1 (φ c).2 cs' = some (.ok π') ∧
      SProofRep (AddMonoidHom.id BG1) g2Torsion.subtype π ρ ∧ SProofRep (AddMonoidHom.id BG1) g2Torsion.subtype π' ρ) ∨
    ∀ r s r' s' π π' ρ, bnProve p r s cs = some (.ok π) → bnProve p r' s' cs' = some (.ok π') →
      ¬ (SProofRep (AddMonoidHom.id BG1) g2Torsion.subtype π ρ ∧ SProofRep (AddMonoidHom.id BG1) g2Torsion.subtype π' ρ) := by
  obtain ⟨P, V, hS, hk, sz, hic⟩ := keys_of hs hl
  obtain ⟨W, -, runs⟩ := C43_verdict (e := bnEW) envW g1Point_ne g2Base_ne bnEW_base sh wf
  rcases C46_same_or_disjoint envW g1Point_ne g2Base_ne sh sh' wf wf' hx hS with ⟨φ, H⟩ | H
  · refine Or.inl ⟨φ, fun c => ?_⟩
    obtain ⟨ρ, c1, -⟩ := runs t P V hS c.1 c.2
    have h := C80_prove_refines hk.1 sz c.1 c.2 cs
    have h' := C80_prove_refines hk.1 sz (φ c).1 (φ c).2 cs'
    rw [c1] at h
    rw [← H c, c1] at h'
    obtain ⟨π, h1, h2⟩ := h.right
    obtain ⟨π', h3, h4⟩ := h'.right
    exact ⟨π, π', ρ, h1, h3, h2, h4⟩
  · refine Or.inr fun r s r' s' π π' ρ a a' hρ => ?_
    have h := C80_prove_refines hk.1 sz r s cs
    have h' := C80_prove_refines hk.1 sz r' s' cs'
    rw [a] at h
    rw [a'] at h'
    obtain ⟨ρ1, h1, h2⟩ := h.left
    obtain ⟨ρ2, h3, h4⟩ := h'.left
    refine H r s r' s' ?_
    rw [h1, h3, proofRep_unique h2 hρ.1, proofRep_unique h4 hρ.2]

/-- Keys that the setup returns, and the equivalence for the proofs made with them. -/
example : ∃ (t : Trapdoor FrW) (p : SParams FqV (Fq2 FqV)) (vk : CPVKey), bnSetup t (prodCs 0 0) = some (.ok (p, vk)) ∧
    ∀ a : FrW, ∃ P V, KeysRep (p, vk) (P, V) ∧
      ((∃ r s π, bnProve p r s (prodCs a 1) = some (.ok π) ∧ bnVerify vk π (prodCs a 1).x.tail = some (.ok ())) ↔
        ∃ φ : FrW × FrW ≃ FrW × FrW, ∀ c, ∃ π, bnProve p c.1 c.2 (prodCs a 1) = some (.ok π) ∧
          SProofRep (AddMonoidHom.id BG1) g2Torsion.subtype π (simulate g1Point g2Base t P.vk (prodCs a 1).x.tail (φ c))) := by
  obtain ⟨bad, hb, H⟩ := C80_runs_partial (prodCs 0 0) (prodCs_wf 0 0) (prodCs_m 0 0).ge (by rw [prodCs_m]; decide) (prodCs_len 0 0)
  obtain ⟨tau, ht⟩ := exists_notMem bad (by rw [prodCs_m] at hb; exact hb)
  obtain ⟨p, vk, h1, -⟩ := H ⟨1, 1, 1, 1, tau⟩ ht one_ne_zero one_ne_zero
  exact ⟨_, p, vk, h1, fun a => C80_simulation_exact (prodCs_shape 0 0 a 1) (prodCs_wf a 1) (prodCs_len 0 0) h1⟩

end Kogarashi.Props
