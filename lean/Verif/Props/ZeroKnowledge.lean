import Verif.Props.Groth16Bn254

/-!
# Property C104: Groth16 proofs can be simulated
-/

namespace Kogarashi.Props

open Kogarashi Spec Groth16

variable {F G1 G2 GT : Type} [_root_.Field F] [DecidableEq F]
variable [AddCommGroup G1] [Module F G1] [AddCommGroup G2] [Module F G2] [AddCommGroup GT] [Module F GT]
variable [DecidableEq G1] [DecidableEq G2] [DecidableEq GT]
variable {S : Nat} {root gen : F} {g1 : G1} {g2 : G2} {e : G1 →ₗ[F] G2 →ₗ[F] GT} {t : Trapdoor F}

/-- A proof made from the toxic waste, the verifying key, the public inputs and two coins: no witness. -/
def simulate (g1 : G1) (g2 : G2) (t : Trapdoor F) (vk : VKey G1 G2) (x : List F) (c : F × F) : Groth16.Proof G1 G2 :=
  { a := c.1 • g1, b := c.2 • g2, c := t.delta⁻¹ • ((c.1 * c.2 - t.alpha * t.beta) • g1 - t.gamma • publicPoint vk.ic x) }

/-- **C104, for circuits with a power of two constraints.** For every satisfying assignment a bijection takes the coins of `create_proof` to
the coins of the simulator, with equal proofs: the two are equally distributed.  Missing: other numbers of constraints, for which no
simulator exists (`C104_simulation_refuted`). -/
theorem C104_simulation_partial (env : Env S root gen) (h1 : g1 ≠ 0) (h2 : g2 ≠ 0) (he : e g1 g2 ≠ 0) {cs0 cs : CS F} (sh : SameShape cs0 cs)
    (wf : Wf cs) (k : Nat) (hm : cs.m = 2 ^ k) (hsat : Satisfies (stored cs) cs) {p : Params G1 G2} {vk : PVKey G1 G2 GT}
    (hs : setup S root gen g1 g2 e t cs0 = some (.ok (p, vk))) :
    ∃ φ : F × F ≃ F × F, ∀ c, createProof S root gen p c.1 c.2 cs = some (.ok (simulate g1 g2 t p.vk cs.x.tail (φ c))) := by
  obtain ⟨f, d, hz, key, q, q1, q2, q3⟩ := honest_run env h1 h2 sh wf hs
  have hd := key.delta
  set U := rd (lag f t.tau cs.m) cs.matA cs.x cs.w
  set V := rd (lag f t.tau cs.m) cs.matB cs.x cs.w
  refine ⟨{ toFun := fun c => (c.1 * t.delta + t.alpha + U, c.2 * t.delta + t.beta + V)
            invFun := fun c => ((c.1 - t.alpha - U) * t.delta⁻¹, (c.2 - t.beta - V) * t.delta⁻¹)
            left_inv := fun c => by ext <;> simp only <;> field_simp <;> ring
            right_inv := fun c => by ext <;> simp only <;> field_simp <;> ring }, fun c => ?_⟩
  obtain ⟨r, s⟩ := c
  obtain ⟨π, c1, c2⟩ := C43_completeness_partial env h1 h2 sh wf k hm hsat hs r s
  rw [(q3 r s).1, Option.some.injEq, Except.ok.injEq] at c1
  simp only [Equiv.coe_fn_mk]
  rw [(q3 r s).1, Option.some.injEq, Except.ok.injEq]
  rw [← c1, setup_prepared hs] at c2
  obtain ⟨hl, heq⟩ := (C45_verify (e := e) p.vk _ cs.x.tail).2.1.mp c2
  have hl' : cs.x.tail.length + 1 = cs0.l := by
    have := key.icLen
    rw [setup_prepared hs] at this
    exact hl.trans this
  have pp : publicPoint p.vk.ic cs.x.tail = ((rd (lag f t.tau cs0.m) cs0.matA (1 :: cs.x.tail) [] * t.beta +
      rd (lag f t.tau cs0.m) cs0.matB (1 :: cs.x.tail) [] * t.alpha + rd (lag f t.tau cs0.m) cs0.matC (1 :: cs.x.tail) []) * t.gamma⁻¹) • g1 := by
    rw [← key.ic _ hl', setup_prepared hs]
    exact (icAcc_public _ _).symm
  have vg : p.vk.gammaG2 = t.gamma • g2 := by
    have := key.pGamma
    rw [setup_prepared hs] at this
    exact neg_injective this
  unfold simulate
  rw [pp] at heq ⊢
  rw [vg, key.vkAlpha, key.vkBeta2, key.vkDelta2] at heq
  generalize (rd (lag f t.tau cs0.m) cs0.matA (1 :: cs.x.tail) [] * t.beta + rd (lag f t.tau cs0.m) cs0.matB (1 :: cs.x.tail) [] * t.alpha +
    rd (lag f t.tau cs0.m) cs0.matC (1 :: cs.x.tail) []) * t.gamma⁻¹ = Z at heq ⊢
  have ha : (proofScalars f t r s cs q).a = r * t.delta + t.alpha + U := rfl
  have hb : (proofScalars f t r s cs q).b = s * t.delta + t.beta + V := rfl
  rw [ha, hb] at heq ⊢
  generalize (proofScalars f t r s cs q).c = c at heq ⊢
  simp only [map_smul, LinearMap.smul_apply, smul_smul, ← add_smul] at heq
  have hc : c = t.delta⁻¹ * (((r * t.delta + t.alpha + U) * (s * t.delta + t.beta + V) - t.alpha * t.beta) - t.gamma * Z) := by
    rw [← sub_eq_zero, ← sub_smul] at heq
    have := (smul_eq_zero.mp heq).resolve_right he
    field_simp
    linear_combination -this
  congr 1
  rw [hc]
  module

/-- Simulated proofs are accepted for every input vector of the right length, whether or not it has a witness. -/
theorem C104_simulated_accepted {cs0 : CS F} {p : Params G1 G2} {vk : PVKey G1 G2 GT}
    (hs : setup S root gen g1 g2 e t cs0 = some (.ok (p, vk))) (x : List F) (hx : x.length + 1 = cs0.l) (c : F × F) :
    verify e vk (simulate g1 g2 t p.vk x c) x = .ok () := by
  obtain ⟨f, -, key⟩ := setup_keys hs
  have hd := key.delta
  have hl := key.icLen
  have vg := key.pGamma
  rw [setup_prepared hs] at hl vg ⊢
  have vg : p.vk.gammaG2 = t.gamma • g2 := neg_injective vg
  refine (C45_verify (e := e) p.vk _ x).2.1.mpr ⟨hx.trans hl.symm, ?_⟩
  rw [vg, key.vkAlpha, key.vkBeta2, key.vkDelta2]
  unfold simulate
  simp only [map_smul, map_sub, LinearMap.smul_apply, LinearMap.sub_apply, smul_smul, smul_sub]
  rw [mul_inv_cancel_left₀ hd, mul_inv_cancel_left₀ hd]
  module

/-- **C104 is false of three constraints.** The circuit `free3` has no public inputs and every private value satisfies it; yet for all but at
most five `τ` no simulator, whatever it may depend on besides the private value, has the distribution of the proofs both for 0 and for 1. -/
theorem C104_simulation_refuted (env : Env S root gen) (hS : 2 ≤ S) (h1 : g1 ≠ 0) (h2 : g2 ≠ 0) (he : e g1 g2 ≠ 0) :
    (∀ w : F, Satisfies (stored (free3 w)) (free3 w) ∧ (free3 w).x = (free3 0).x) ∧
    ∃ bad : Finset F, bad.card ≤ 5 ∧ ∀ t : Trapdoor F, t.tau ∉ bad → ∀ p vk,
      setup S root gen g1 g2 e t (free3 0) = some (.ok (p, vk)) → ¬ ∃ sim : F × F → Groth16.Proof G1 G2, ∀ w : F,
        ∃ φ : F × F ≃ F × F, ∀ c, createProof S root gen p c.1 c.2 (free3 w) = some (.ok (sim (φ c))) := by
  obtain ⟨h, bad, hb, H⟩ := C46_witness_indistinguishable_refuted (e := e) env hS h1 h2 he
  refine ⟨fun w => ⟨(h w).2.1, (h w).2.2.2⟩, bad, hb, fun t ht p vk hs => ?_⟩
  rintro ⟨sim, hsim⟩
  obtain ⟨φ, h0⟩ := hsim 0
  obtain ⟨ψ, h1⟩ := hsim 1
  refine (H t ht p vk hs).2 0 0 (ψ.symm (φ (0, 0))).1 (ψ.symm (φ (0, 0))).2 ?_
  rw [h0 (0, 0), h1 (ψ.symm (φ (0, 0))), Equiv.apply_symm_apply]

/-- A key of the demonstration circuit: its honest proofs are simulated, and an input without a witness has simulated proofs too. -/
example : ∃ (t : Trapdoor (ZMod 97)) (p : Params (ZMod 97) (ZMod 97)) (vk : PVKey (ZMod 97) (ZMod 97) (ZMod 97)),
    setup 5 (28 : ZMod 97) 5 1 1 (LinearMap.mul (ZMod 97) (ZMod 97)) t demoG = some (.ok (p, vk)) ∧
    (∃ φ : ZMod 97 × ZMod 97 ≃ ZMod 97 × ZMod 97, ∀ c, createProof 5 28 5 p c.1 c.2 demoG = some (.ok (simulate 1 1 t p.vk [6, 9] (φ c)))) ∧
    verify (LinearMap.mul (ZMod 97) (ZMod 97)) vk (simulate 1 1 t p.vk [5, 5] (1, 2)) [5, 5] = .ok () := by
  obtain ⟨t, p, vk, hs⟩ := demo_setup demoG (demoG_wf [2, 3] rfl) (by decide) (by decide)
  exact ⟨t, p, vk, hs, C104_simulation_partial demoEnv one_ne_zero one_ne_zero (by simp) (demoG_shape [2, 3] rfl) (demoG_wf [2, 3] rfl) 1 rfl
    demoG_sat.1 hs, C104_simulated_accepted hs [5, 5] rfl (1, 2)⟩

end Kogarashi.Props
