import Verif.Props.Groth16StructMore
import Verif.Props.Forgery
import Verif.Props.Leaks

/-!
# Property C80, continued: leaks and forgeries on the structs of the code

`C46_witness_all_refuted` and `C102_forgery_all_refuted` with no abstract group in the program.
-/

namespace Kogarashi.Props

open Kogarashi Spec Tower Curve Kogarashi.Field Limbs Groth16

/-- **C80 is false of secrecy for every number of constraints that is not a power of two**: `hidden m v` is satisfied whatever the value `v`
of its witness, with the same public inputs, yet on structs, for all but few `τ`, the proof made from `v` is accepted exactly when `v = 0`,
and no struct is both a proof made from `0` and one made from `1`. -/
theorem C80_witness_all_refuted (m : Nat) (hm : ∀ k, m + 2 ≠ 2 ^ k) :
    (∀ v : FrW, (hidden m v).m = m + 2 ∧ Wf (hidden m v) ∧ Satisfies (stored (hidden m v)) (hidden m v) ∧
      SameShape (hidden m 0) (hidden m v) ∧ (hidden m v).x = (hidden m 0).x) ∧
    ∃ bad : Finset FrW, bad.card ≤ 2 ^ Nat.clog 2 (m + 2) + (m + 2) ∧ ∀ t : Trapdoor FrW, t.tau ∉ bad → ∀ p vk,
      bnSetup t (hidden m 0) = some (.ok (p, vk)) →
      (∀ v r s, ∃ π, bnProve p r s (hidden m v) = some (.ok π) ∧ (bnVerify vk π [] = some (.ok ()) ↔ v = 0)) ∧
      ∀ r s r' s', bnProve p r s (hidden m 0) ≠ bnProve p r' s' (hidden m 1) := by
  obtain ⟨hc, bad, hb, H⟩ := C46_witness_all_refuted (e := bnEW) envW g1Point_ne g2Base_ne bnEW_base m hm
  refine ⟨hc, bad, hb, fun t ht p vk hs => ?_⟩
  obtain ⟨P, V, hS, hk, sz, hic⟩ := keys_of hs (by simp [hidden])
  obtain ⟨H1, -⟩ := H t ht P V hS
  have one : ∀ v r s, ∃ π, bnProve p r s (hidden m v) = some (.ok π) ∧ (bnVerify vk π [] = some (.ok ()) ↔ v = 0) := by
    intro v r s
    obtain ⟨ρ, c1, c2⟩ := H1 v r s
    have h := C80_prove_refines hk.1 sz r s (hidden m v)
    rw [c1] at h
    obtain ⟨π, h1, h2⟩ := h.right
    refine ⟨π, h1, ?_⟩
    rw [bnVerify_same hk (ne_nil_of (hc 0).2.2.2.1 (hc 0).2.1 hic) h2, ← c2]
    exact ⟨fun h => Option.some.inj h, fun h => congrArg some h⟩
  refine ⟨one, fun r s r' s' he => ?_⟩
  obtain ⟨π, h1, h2⟩ := one 0 r s
  obtain ⟨π', h1', h2'⟩ := one 1 r' s'
  rw [h1, h1'] at he
  cases he
  exact one_ne_zero (h2'.mp (h2.mpr rfl))

/-- **C80 is false of simulation for every number of constraints that is not a power of two**, on structs. -/
theorem C80_simulation_all_refuted (m : Nat) (hm : ∀ k, m + 2 ≠ 2 ^ k) :
    (∀ v : FrW, (hidden m v).m = m + 2 ∧ Satisfies (stored (hidden m v)) (hidden m v) ∧ (hidden m v).x = (hidden m 0).x) ∧
    ∃ bad : Finset FrW, bad.card ≤ 2 ^ Nat.clog 2 (m + 2) + (m + 2) ∧ ∀ t : Trapdoor FrW, t.tau ∉ bad → ∀ p vk,
      bnSetup t (hidden m 0) = some (.ok (p, vk)) → ¬ ∃ sim : FrW × FrW → SProof FqV (Fq2 FqV), ∀ v : FrW,
        ∃ φ : FrW × FrW ≃ FrW × FrW, ∀ c, bnProve p c.1 c.2 (hidden m v) = some (.ok (sim (φ c))) := by
  obtain ⟨h, bad, hb, H⟩ := C80_witness_all_refuted m hm
  refine ⟨fun v => ⟨(h v).1, (h v).2.2.1, (h v).2.2.2.2⟩, bad, hb, fun t ht p vk hs => ?_⟩
  rintro ⟨sim, hsim⟩
  obtain ⟨φ, h0⟩ := hsim 0
  obtain ⟨ψ, h1⟩ := hsim 1
  refine (H t ht p vk hs).2 0 0 (ψ.symm (φ (0, 0))).1 (ψ.symm (φ (0, 0))).2 ?_
  rw [h0 (0, 0), h1 (ψ.symm (φ (0, 0))), Equiv.apply_symm_apply]

/-- The struct with the coordinates of a point. -/
theorem affine_of {K : Type} [_root_.Field K] [DecidableEq K] {b : K} (Q : (curve b).Point) : ∃ p : Aff K, AffRep b p Q := by
  rcases Q with _ | ⟨x, y, h⟩
  · exact ⟨⟨0, 0, true⟩, rfl⟩
  · exact ⟨⟨x, y, false⟩, rfl, rfl, rfl⟩

/-- **C80 is false of soundness for every number of constraints that is not a power of two** (up to `2^28`): `unitCs` has a constraint between
constants that does not hold, so no assignment satisfies it, yet whatever the toxic waste there is a proof struct the verifier of the code
accepts. -/
theorem C80_forgery_all_refuted {m : Nat} (hm : ∀ k, m ≠ 2 ^ k) (h0 : 0 < m) (hS : domainLog m ≤ frS) :
    let cs := unitCs (omega frS frRootW (domainLog m)) m (2 ^ domainLog m)
    cs.m = m ∧ Wf cs ∧ (∀ z : Assignment FrW, ¬ Satisfies z cs) ∧
    ∀ (t : Trapdoor FrW) p vk, bnSetup t cs = some (.ok (p, vk)) → ∃ π, bnVerify vk π [] = some (.ok ()) := by
  intro cs
  obtain ⟨hc, w, viol, H⟩ := C102_forgery_all_refuted (g1 := g1Point) (g2 := g2Base) (e := bnEW) envW hm h0 hS
  refine ⟨hc, w, viol, fun t p vk hs => ?_⟩
  obtain ⟨P, V, hS, hk, sz, hic⟩ := keys_of hs (by simp [cs, unitCs, consts])
  have hv := H t P V hS
  set ρ := (forger : AffineProver FrW).prove g1Point g2Base P
  obtain ⟨a, ha⟩ := affine_of ρ.a
  obtain ⟨b, hb⟩ := affine_of (g2Torsion.subtype ρ.b)
  obtain ⟨c, hc⟩ := affine_of ρ.c
  refine ⟨⟨a, b, c⟩, ?_⟩
  rw [bnVerify_same hk (ne_nil_of ⟨rfl, rfl, rfl⟩ w hic) (ρ := ρ) ⟨ha, hb, hc⟩]
  exact congrArg some hv

theorem exists_notMem_two {K : Type} [_root_.Field K] [DecidableEq K] (h2 : (2 : K) ≠ 0) (s : Finset K) (h : s.card ≤ 2) : ∃ x, x ∉ s := by
  by_contra hn
  push Not at hn
  have h3 := Finset.card_le_card (fun x _ => hn x : ({0, 1, -1} : Finset K) ⊆ s)
  have hc : ({0, 1, -1} : Finset K).card = 3 := Finset.card_eq_three.mpr
    ⟨0, 1, -1, zero_ne_one, fun h => one_ne_zero (neg_eq_zero.mp h.symm), fun h => h2 (by linear_combination h), rfl⟩
  omega

theorem three_ne (k : Nat) : 3 ≠ 2 ^ k := by
  rcases k with _ | _ | k
  · omega
  · omega
  · rw [pow_succ, pow_succ]; omega

/-- Three constraints, on structs: a key exists, no assignment satisfies the circuit, and a proof struct is accepted with that key. -/
example : ∃ (t : Trapdoor FrW) (p : SParams FqV (Fq2 FqV)) (vk : CPVKey) (π : SProof FqV (Fq2 FqV)),
    bnSetup t (unitCs (omega frS frRootW (domainLog 3)) 3 (2 ^ domainLog 3)) = some (.ok (p, vk)) ∧ bnVerify vk π [] = some (.ok ()) := by
  have hl : domainLog 3 ≤ frS := le_trans ((Nat.clog_le_iff_le_pow (by norm_num)).mpr (by norm_num : 3 ≤ 2 ^ 2)) (by decide)
  obtain ⟨hm, wf, -, H⟩ := C80_forgery_all_refuted three_ne (by norm_num) hl
  obtain ⟨bad, hb, R⟩ := C80_runs_partial (unitCs (omega frS frRootW (domainLog 3)) 3 (2 ^ domainLog 3)) wf (by rw [hm]; norm_num)
    (by rw [hm]; decide) (by simp [unitCs, consts])
  obtain ⟨tau, ht⟩ := exists_notMem_two envW.two bad (by rw [hm] at hb; exact hb)
  obtain ⟨p, vk, h1, -⟩ := R ⟨1, 1, 1, 1, tau⟩ ht one_ne_zero one_ne_zero
  obtain ⟨π, h2⟩ := H _ p vk h1
  exact ⟨_, p, vk, π, h1, h2⟩

/-- Three constraints, none of which any assignment satisfies: a key exists, and with it the honest prover's struct is accepted. -/
example : ∃ (t : Trapdoor FrW) (p : SParams FqV (Fq2 FqV)) (vk : CPVKey) (π : SProof FqV (Fq2 FqV)),
    bnSetup t (falseCs (omega frS frRootW 2) (2 ^ 2 - 1)) = some (.ok (p, vk)) ∧
    bnProve p 1 2 (falseCs (omega frS frRootW 2) (2 ^ 2 - 1)) = some (.ok π) ∧ bnVerify vk π [] = some (.ok ()) := by
  obtain ⟨hm, wf, -, H⟩ := C80_unsat_all_refuted (le_refl 2) (by decide)
  obtain ⟨bad, hb, R⟩ := C80_runs_partial (falseCs (omega frS frRootW 2) (2 ^ 2 - 1)) wf (by rw [hm]; norm_num)
    (by rw [hm]; decide) (by simp [falseCs, consts])
  obtain ⟨tau, ht⟩ := exists_notMem_two envW.two bad (by rw [hm] at hb; exact hb)
  obtain ⟨p, vk, h1, -⟩ := R ⟨1, 1, 1, 1, tau⟩ ht one_ne_zero one_ne_zero
  obtain ⟨π, h2, h3⟩ := H _ p vk h1 1 2
  exact ⟨_, p, vk, π, h1, h2, h3⟩

end Kogarashi.Props
