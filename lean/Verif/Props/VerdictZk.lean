import Verif.Props.Verdict
import Verif.Props.ZeroKnowledge

/-!
# C46 and C104 for every number of constraints

Honest proofs hide the witness exactly when they are accepted.
-/

namespace Kogarashi.Props

open Kogarashi Spec Groth16

variable {F G1 G2 GT : Type} [_root_.Field F] [DecidableEq F]
variable [AddCommGroup G1] [Module F G1] [AddCommGroup G2] [Module F G2] [AddCommGroup GT] [Module F GT]
variable [DecidableEq G1] [DecidableEq G2] [DecidableEq GT]
variable {S : Nat} {root gen : F} {g1 : G1} {g2 : G2} {e : G1 →ₗ[F] G2 →ₗ[F] GT} {t : Trapdoor F}

/-- The argument of `C104_simulation_partial`, which needs only that the proofs are accepted. -/
theorem simulation_of_accepted (env : Env S root gen) (h1 : g1 ≠ 0) (h2 : g2 ≠ 0) (he : e g1 g2 ≠ 0) {cs0 cs : CS F} (sh : SameShape cs0 cs)
    (wf : Wf cs) {p : Params G1 G2} {vk : PVKey G1 G2 GT} (hs : setup S root gen g1 g2 e t cs0 = some (.ok (p, vk)))
    (hacc : ∀ r s, ∃ π, createProof S root gen p r s cs = some (.ok π) ∧ verify e vk π cs.x.tail = .ok ()) :
    ∃ φ : F × F ≃ F × F, ∀ c, createProof S root gen p c.1 c.2 cs = some (.ok (simulate g1 g2 t p.vk cs.x.tail (φ c))) := by
  obtain ⟨f, d, hz, key, q, q1, q2, q3⟩ := honest_run env h1 h2 sh wf hs
  have hd := key.delta
  set U := rd (lag f t.tau cs.m) cs.matA cs.x cs.w
  set V := rd (lag f t.tau cs.m) cs.matB cs.x cs.w
  refine ⟨{ toFun := fun c => (c.1 * t.delta + t.alpha + U, c.2 * t.delta + t.beta + V)
            invFun := fun c => ((c.1 - t.alpha - U) * t.delta⁻¹, (c.2 - t.beta - V) * t.delta⁻¹)
            left_inv := fun c => by ext <;> simp only <;> field_simp <;> ring
            right_inv := fun c => by ext <;> simp only <;> field_simp <;> ring }, fun c => ?_⟩
  obtain ⟨r, s⟩ := c
  obtain ⟨π, c1, c2⟩ := hacc r s
  rw [(q3 r s).1, Option.some.injEq, Except.ok.injEq] at c1
  simp only [Equiv.coe_fn_mk]
  rw [(q3 r s).1, Option.some.injEq, Except.ok.injEq]
  rw [← c1, setup_prepared hs] at c2
  obtain ⟨hl, heq⟩ := (C45_verify (e := e) p.vk _ cs.x.tail).2.1.mp c2
  have hl' : cs.x.tail.length + 1 = cs0.l := by
    have := key.icLen
    rw [setup_prepared hs] at this
    exact hl.trans this
  have pp : publicPoint p.vk.ic cs.x.tail = ((rd (lag f t.tau cs0.m) cs0.matA (1 :: cs.x.tail) [] * t.beta +
      rd (lag f t.tau cs0.m) cs0.matB (1 :: cs.x.tail) [] * t.alpha + rd (lag f t.tau cs0.m) cs0.matC (1 :: cs.x.tail) []) * t.gamma⁻¹) • g1 := by
    rw [← key.ic _ hl', setup_prepared hs]
    exact (icAcc_public _ _).symm
  have vg : p.vk.gammaG2 = t.gamma • g2 := by
    have := key.pGamma
    rw [setup_prepared hs] at this
    exact neg_injective this
  unfold simulate
  rw [pp] at heq ⊢
  rw [vg, key.vkAlpha, key.vkBeta2, key.vkDelta2] at heq
  generalize (rd (lag f t.tau cs0.m) cs0.matA (1 :: cs.x.tail) [] * t.beta + rd (lag f t.tau cs0.m) cs0.matB (1 :: cs.x.tail) [] * t.alpha +
    rd (lag f t.tau cs0.m) cs0.matC (1 :: cs.x.tail) []) * t.gamma⁻¹ = Z at heq ⊢
  have ha : (proofScalars f t r s cs q).a = r * t.delta + t.alpha + U := rfl
  have hb : (proofScalars f t r s cs q).b = s * t.delta + t.beta + V := rfl
  rw [ha, hb] at heq ⊢
  generalize (proofScalars f t r s cs q).c = c at heq ⊢
  simp only [map_smul, LinearMap.smul_apply, smul_smul, ← add_smul] at heq
  have hc : c = t.delta⁻¹ * (((r * t.delta + t.alpha + U) * (s * t.delta + t.beta + V) - t.alpha * t.beta) - t.gamma * Z) := by
    rw [← sub_eq_zero, ← sub_smul] at heq
    have := (smul_eq_zero.mp heq).resolve_right he
    field_simp
    linear_combination -this
  congr 1
  rw [hc]
  module

/-- **C104, every number of constraints.** With keys `setup` returned, some honest proof is accepted exactly when the honest proofs and
the simulated ones are equally distributed, whether or not the assignment satisfies the circuit. -/
theorem C104_exact (env : Env S root gen) (h1 : g1 ≠ 0) (h2 : g2 ≠ 0) (he : e g1 g2 ≠ 0) {cs0 cs : CS F} (sh : SameShape cs0 cs)
    (wf : Wf cs) {p : Params G1 G2} {vk : PVKey G1 G2 GT} (hs : setup S root gen g1 g2 e t cs0 = some (.ok (p, vk))) :
    (∃ r s π, createProof S root gen p r s cs = some (.ok π) ∧ verify e vk π cs.x.tail = .ok ()) ↔
      ∃ φ : F × F ≃ F × F, ∀ c, createProof S root gen p c.1 c.2 cs = some (.ok (simulate g1 g2 t p.vk cs.x.tail (φ c))) := by
  obtain ⟨P, -, H⟩ := C43_verdict env h1 h2 he sh wf
  constructor
  · rintro ⟨r, s, π, a, b⟩
    refine simulation_of_accepted env h1 h2 he sh wf hs fun r' s' => ?_
    obtain ⟨π1, a1, b1⟩ := H t p vk hs r s
    rw [a1, Option.some.injEq, Except.ok.injEq] at a
    rw [← a, b1] at b
    obtain ⟨π2, a2, b2⟩ := H t p vk hs r' s'
    exact ⟨π2, a2, b2.mpr b⟩
  · rintro ⟨φ, h⟩
    refine ⟨0, 0, _, h (0, 0), C104_simulated_accepted hs _ ?_ _⟩
    have w := wf.1
    have l := sh.1
    unfold CS.l
    rw [l]
    cases hx : cs.x with
    | nil => rw [hx] at w; simp at w
    | cons a b => rfl

/-- **C46, every number of constraints.** Two assignments with the same public inputs, satisfying or not: either their proofs are equally
distributed (a bijection of the coins gives equal proofs), or no proof of the one is ever a proof of the other. -/
theorem C46_same_or_disjoint (env : Env S root gen) (h1 : g1 ≠ 0) (h2 : g2 ≠ 0) {cs0 cs cs' : CS F} (sh : SameShape cs0 cs)
    (sh' : SameShape cs0 cs') (wf : Wf cs) (wf' : Wf cs') (hx : cs.x = cs'.x) {p : Params G1 G2} {vk : PVKey G1 G2 GT}
    (hs : setup S root gen g1 g2 e t cs0 = some (.ok (p, vk))) :
    (∃ φ : F × F ≃ F × F, ∀ c, createProof S root gen p c.1 c.2 cs = createProof S root gen p (φ c).1 (φ c).2 cs') ∨
      ∀ r s r' s', createProof S root gen p r s cs ≠ createProof S root gen p r' s' cs' := by
  obtain ⟨f, d, hz, key, q, q1, q2, q3⟩ := honest_run env h1 h2 sh wf hs
  obtain ⟨f', d', hz', key', q', q1', q2', q3'⟩ := honest_run env h1 h2 sh' wf' hs
  have m1 : cs.m = cs'.m := (SameShape.m sh).symm.trans (SameShape.m sh')
  have ff : f = f' := by have := d.new; rw [m1, d'.new] at this; exact (Option.some.inj this).symm
  subst ff
  have eA : cs.matA = cs'.matA := by unfold CS.matA; rw [← sh.cons, ← sh'.cons]
  have eB : cs.matB = cs'.matB := by unfold CS.matB; rw [← sh.cons, ← sh'.cons]
  have eC : cs.matC = cs'.matC := by unfold CS.matC; rw [← sh.cons, ← sh'.cons]
  have hd := key.delta
  by_cases hD : rd (lag f t.tau cs.m) cs.matA cs.x cs.w * rd (lag f t.tau cs.m) cs.matB cs.x cs.w - rd (lag f t.tau cs.m) cs.matC cs.x cs.w
      - f.z t.tau * qEval cs.m q t.tau =
    rd (lag f t.tau cs'.m) cs'.matA cs'.x cs'.w * rd (lag f t.tau cs'.m) cs'.matB cs'.x cs'.w - rd (lag f t.tau cs'.m) cs'.matC cs'.x cs'.w
      - f.z t.tau * qEval cs'.m q' t.tau
  · left
    set U := rd (lag f t.tau cs.m) cs.matA cs.x cs.w with hU
    set V := rd (lag f t.tau cs.m) cs.matB cs.x cs.w with hV
    set U' := rd (lag f t.tau cs'.m) cs'.matA cs'.x cs'.w with hU'
    set V' := rd (lag f t.tau cs'.m) cs'.matB cs'.x cs'.w with hV'
    refine ⟨{ toFun := fun c => (c.1 + (U - U') * t.delta⁻¹, c.2 + (V - V') * t.delta⁻¹)
              invFun := fun c => (c.1 - (U - U') * t.delta⁻¹, c.2 - (V - V') * t.delta⁻¹)
              left_inv := fun c => by simp
              right_inv := fun c => by simp }, fun c => ?_⟩
    obtain ⟨r, s⟩ := c
    simp only [Equiv.coe_fn_mk]
    rw [(q3 r s).1, (q3' _ _).1]
    have ha : (proofScalars f t r s cs q).a = (proofScalars f t (r + (U - U') * t.delta⁻¹) (s + (V - V') * t.delta⁻¹) cs' q').a := by
      simp only [proofScalars]; field_simp; ring
    have hb : (proofScalars f t r s cs q).b = (proofScalars f t (r + (U - U') * t.delta⁻¹) (s + (V - V') * t.delta⁻¹) cs' q').b := by
      simp only [proofScalars]; field_simp; ring
    have hc : (proofScalars f t r s cs q).c = (proofScalars f t (r + (U - U') * t.delta⁻¹) (s + (V - V') * t.delta⁻¹) cs' q').c := by
      apply mul_right_cancel₀ hd
      rw [scalar_c f t hd, scalar_c f t hd, ← hU, ← hV, ← hU', ← hV', hD, ha, hb, eA, eB, eC, hx, m1]
    rw [ha, hb, hc]
  · right
    intro r s r' s' h
    apply hD
    rw [(q3 r s).1, (q3' r' s').1, Option.some.injEq, Except.ok.injEq, Groth16.Proof.mk.injEq] at h
    have inj1 : ∀ a b : F, a • g1 = b • g1 → a = b := fun a b h => smul_left_injective F h1 h
    have inj2 : ∀ a b : F, a • g2 = b • g2 → a = b := fun a b h => smul_left_injective F h2 h
    have ha := inj1 _ _ h.1
    have hb := inj2 _ _ h.2.1
    have hc := inj1 _ _ h.2.2
    have c1 := scalar_c f t hd r s cs q
    have c2 := scalar_c f t hd r' s' cs' q'
    rw [hc, ha, hb, c2, ← eA, ← eB, ← eC, ← hx, ← m1] at c1
    rw [← eA, ← eB, ← eC, ← hx, ← m1]
    linear_combination c1

/-- **C46, every number of constraints.** If, with the keys at hand, an honest proof of each of the two assignments is accepted, their
proofs are equally distributed. -/
theorem C46_accepted (env : Env S root gen) (h1 : g1 ≠ 0) (h2 : g2 ≠ 0) (he : e g1 g2 ≠ 0) {cs0 cs cs' : CS F} (sh : SameShape cs0 cs)
    (sh' : SameShape cs0 cs') (wf : Wf cs) (wf' : Wf cs') (hx : cs.x = cs'.x) {p : Params G1 G2} {vk : PVKey G1 G2 GT}
    (hs : setup S root gen g1 g2 e t cs0 = some (.ok (p, vk)))
    (ha : ∃ r s π, createProof S root gen p r s cs = some (.ok π) ∧ verify e vk π cs.x.tail = .ok ())
    (ha' : ∃ r s π, createProof S root gen p r s cs' = some (.ok π) ∧ verify e vk π cs'.x.tail = .ok ()) :
    ∃ φ : F × F ≃ F × F, ∀ c, createProof S root gen p c.1 c.2 cs = createProof S root gen p (φ c).1 (φ c).2 cs' := by
  obtain ⟨φ, h⟩ := (C104_exact env h1 h2 he sh wf hs).mp ha
  obtain ⟨ψ, h'⟩ := (C104_exact env h1 h2 he sh' wf' hs).mp ha'
  refine ⟨φ.trans ψ.symm, fun c => ?_⟩
  rw [h, h', hx]
  simp

/-- The three-constraint circuit of low degree: accepted, hence simulated. -/
example : ∃ (t : Trapdoor (ZMod 97)) (p : Params (ZMod 97) (ZMod 97)) (vk : PVKey (ZMod 97) (ZMod 97) (ZMod 97)),
    setup 5 (28 : ZMod 97) 5 1 1 (LinearMap.mul (ZMod 97) (ZMod 97)) t lowG = some (.ok (p, vk)) ∧
    ∃ φ : ZMod 97 × ZMod 97 ≃ ZMod 97 × ZMod 97, ∀ c, createProof 5 28 5 p c.1 c.2 lowG = some (.ok (simulate 1 1 t p.vk [] (φ c))) := by
  have wf : Wf lowG := consts3_wf _ _ _
  obtain ⟨t, p, vk, hs, h⟩ := lowG_accepted
  obtain ⟨π, a, b⟩ := h 0 0
  exact ⟨t, p, vk, hs, (C104_exact demoEnv one_ne_zero one_ne_zero (by simp) ⟨rfl, rfl, rfl⟩ wf hs).mp ⟨0, 0, π, a, b⟩⟩

/-- `C46_same_or_disjoint` on the circuit of `C46_witness_indistinguishable_refuted`, with its two witnesses: there the second case holds. -/
example (hS : 2 ≤ S) (env : Env S root gen) (h1 : g1 ≠ 0) (h2 : g2 ≠ 0) (he : e g1 g2 ≠ 0) {p : Params G1 G2} {vk : PVKey G1 G2 GT}
    (hs : setup S root gen g1 g2 e t (free3 0) = some (.ok (p, vk))) :
    (∃ φ : F × F ≃ F × F, ∀ c, createProof S root gen p c.1 c.2 (free3 0) = createProof S root gen p (φ c).1 (φ c).2 (free3 1)) ∨
      ∀ r s r' s', createProof S root gen p r s (free3 0) ≠ createProof S root gen p r' s' (free3 1) := by
  have k := (C46_witness_indistinguishable_refuted env hS h1 h2 he).1
  exact C46_same_or_disjoint env h1 h2 (k 0).2.2.1 (k 1).2.2.1 (k 0).1 (k 1).1 rfl hs

end Kogarashi.Props
