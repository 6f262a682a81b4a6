import Verif.Groth16.Concrete
import Verif.Props.Groth16
import Verif.Props.Bilinear

/-!
# Property C75: the Groth16 verifier of the code, over BN254

`CVKey.prepare` and `cVerify` are the code on affine structs, limbs and prepared coefficients (`none` is a panic);
`KeyRep`, `ProofRep` say which points of Mathlib's curve groups the structs hold, `BG2` being the r-torsion of the
twist.  `bnE` is the pairing of the code as a bilinear map (`C75_pairing`).
-/

namespace Kogarashi.Props

open Kogarashi Spec Tower Curve Kogarashi.Field Limbs Groth16

/-- `bnE` is what the code computes. -/
theorem C75_pairing {p : Aff FqV} {P : BG1} (hp : AffRep g1B p P) {g : Aff (Fq2 FqV)} (Q : BG2)
    (hg : AffRep g2B g (Q : (curve g2B).Point)) : pairing p g = some (gtVal (bnE P Q)) := pairing_bnE hp Q hg

/-- **C75**. For every key, proof and input vector, preparing the key and verifying never panics, and ends as the
verifier over the abstract groups does. -/
theorem C75_refines {vk : CVKey} {V : VKey BG1 BG2} (hk : KeyRep vk V) (hne : vk.ic ≠ []) {π : CProof}
    {ρ : Groth16.Proof BG1 BG2} (hπ : ProofRep π ρ) {inputs : List L4} (hi : ∀ i ∈ inputs, Canonical frParams i) :
    (vk.prepare.bind fun k => cVerify k π inputs) = some (verify bnE (V.prepare bnE) ρ (inputs.map (denote frParams))) :=
  verify_refines hk hne hπ hi

theorem gtVal_inj_iff {x y : BGT} : x = y ↔ gtVal x = gtVal y := ⟨congrArg _, fun h => gtVal_injective h⟩

/-- **C75**, the accepted proofs: the key has one element more than there are inputs, and
`e(A,B) = e(α,β) · e(ic₀ + Σ xᵢ icᵢ, γ) · e(C,δ)` in Fq12, where `I` is any struct holding the combination. -/
theorem C75_accepts {vk : CVKey} {V : VKey BG1 BG2} (hk : KeyRep vk V) (hne : vk.ic ≠ []) {π : CProof}
    {ρ : Groth16.Proof BG1 BG2} (hπ : ProofRep π ρ) {inputs : List L4} (hi : ∀ i ∈ inputs, Canonical frParams i)
    {I : Aff FqV} (hI : AffRep g1B I (publicPoint V.ic (inputs.map (denote frParams)))) :
    (vk.prepare.bind fun k => cVerify k π inputs) = some (.ok ()) ↔ inputs.length + 1 = vk.ic.length ∧
      ∃ ab αβ iγ cδ, pairing π.a π.b = some ab ∧ pairing vk.alphaG1 vk.betaG2 = some αβ ∧
        pairing I vk.gammaG2 = some iγ ∧ pairing π.c vk.deltaG2 = some cδ ∧ ab = αβ * iγ * cδ := by
  have hln : V.ic.length = vk.ic.length := hk.ic.length_eq.symm
  rw [C75_refines hk hne hπ hi, Option.some_inj, (C45_verify (e := bnE) V ρ (inputs.map (denote frParams))).2.1,
    List.length_map, hln, gtVal_inj_iff, gtVal_add, gtVal_add]
  refine and_congr_right fun _ => ?_
  have p1 := pairing_bnE hπ.a ρ.b hπ.b
  have p2 := pairing_bnE hk.alpha V.betaG2 hk.beta
  have p3 := pairing_bnE hI V.gammaG2 hk.gamma
  have p4 := pairing_bnE hπ.c V.deltaG2 hk.delta
  constructor
  · intro h; exact ⟨_, _, _, _, p1, p2, p3, p4, h⟩
  · rintro ⟨a, b, c, d, h1, h2, h3, h4, h⟩
    rw [p1] at h1; rw [p2] at h2; rw [p3] at h3; rw [p4] at h4
    rw [Option.some.inj h1, Option.some.inj h2, Option.some.inj h3, Option.some.inj h4]
    exact h

theorem setup_prepared {F G1 G2 GT : Type} [_root_.Field F] [DecidableEq F] [AddCommGroup G1] [Module F G1]
    [AddCommGroup G2] [Module F G2] [AddCommGroup GT] [Module F GT] [DecidableEq G1] [DecidableEq G2] [DecidableEq GT]
    {S : Nat} {root gen : F} {g1 : G1} {g2 : G2} {e : G1 →ₗ[F] G2 →ₗ[F] GT} {t : Trapdoor F} {cs : CS F}
    {p : Params G1 G2} {vk : PVKey G1 G2 GT} (h : setup S root gen g1 g2 e t cs = some (.ok (p, vk))) :
    vk = p.vk.prepare e := by
  simp only [setup, Option.bind_eq_bind, Option.bind_eq_some_iff] at h
  obtain ⟨f, hf, h⟩ := h
  split at h
  · simp at h
  split at h
  · simp at h
  simp only [Option.bind_eq_some_iff, Option.some.injEq, Except.ok.injEq, Prod.mk.injEq] at h
  obtain ⟨x1, -, x2, -, x3, -, x4, -, x5, -, rfl, rfl⟩ := h
  rfl

theorem bnE_base : bnE g1Point g2Base ≠ 0 := fun h => ePoint_base_ne (congrArg Additive.toMul h)

/-- The pairing of two non-zero elements is not zero. -/
theorem bnE_ne {P : BG1} {Q : BG2} (h1 : P ≠ 0) (h2 : Q ≠ 0) : bnE P Q ≠ 0 := fun h =>
  (ePoint_eq_one (congrArg Additive.toMul h)).elim h1 h2

/-- **C75**, completeness for circuits with a power of two constraints, over the groups of BN254: keys from the setup,
an honest proof, their structs: the verifier of the code accepts.  Missing: other numbers of constraints, for which
it is false (`C43_completeness_refuted`). -/
theorem C75_completeness_partial {g1 : BG1} {g2 : BG2} (h1 : g1 ≠ 0) (h2 : g2 ≠ 0) {t : Trapdoor FrV} {cs0 cs : CS FrV}
    (sh : SameShape cs0 cs) (wf : Wf cs) (k : Nat) (hm : cs.m = 2 ^ k) (hsat : Satisfies (stored cs) cs)
    {p : Params BG1 BG2} {pvk : PVKey BG1 BG2 BGT}
    (hs : setup frS (denote frParams frRootOfUnity) 7 g1 g2 bnE t cs0 = some (.ok (p, pvk))) (r s : FrV) :
    ∃ ρ, createProof frS (denote frParams frRootOfUnity) 7 p r s cs = some (.ok ρ) ∧
      ∀ vk π inputs, KeyRep vk p.vk → ProofRep π ρ → (∀ i ∈ inputs, Canonical frParams i) →
        inputs.map (denote frParams) = cs.x.tail → (vk.prepare.bind fun k => cVerify k π inputs) = some (.ok ()) := by
  obtain ⟨ρ, c1, c2⟩ := C43_completeness_partial C43_env_bn254 h1 h2 sh wf k hm hsat hs r s
  refine ⟨ρ, c1, fun vk π inputs hk hπ hi hin => ?_⟩
  have hp : pvk = p.vk.prepare bnE := setup_prepared hs
  rw [hp] at c2
  have hne : vk.ic ≠ [] := by
    intro h
    have hl := ((C45_verify (e := bnE) p.vk ρ cs.x.tail).2.1.mp c2).1
    rw [← hk.ic.length_eq, h] at hl
    exact Nat.succ_ne_zero _ hl
  rw [C75_refines hk hne hπ hi, hin, c2]

/-- **C75**, soundness against a prover who runs the code on an unsatisfying assignment, for circuits with a power of
two constraints: for all but at most `2n - 2` values of `τ` the verifier of the code rejects.  Missing: other numbers
of constraints, for which it is false (`C47_unsat_refuted`). -/
theorem C75_unsat_partial {g1 : BG1} {g2 : BG2} (h1 : g1 ≠ 0) (h2 : g2 ≠ 0) {cs0 cs : CS FrV} (sh : SameShape cs0 cs)
    (wf : Wf cs) (k : Nat) (hm : cs.m = 2 ^ k) {c : Constraint FrV} (hc : c ∈ cs.cons) (hviol : ¬ Holds (stored cs) c) :
    ∃ bad : Finset FrV, bad.card ≤ 2 * 2 ^ k - 2 ∧ ∀ t : Trapdoor FrV, t.tau ∉ bad → ∀ p pvk,
      setup frS (denote frParams frRootOfUnity) 7 g1 g2 bnE t cs0 = some (.ok (p, pvk)) → ∀ r s ρ,
      createProof frS (denote frParams frRootOfUnity) 7 p r s cs = some (.ok ρ) →
      ∀ vk π inputs, KeyRep vk p.vk → ProofRep π ρ → (∀ i ∈ inputs, Canonical frParams i) → vk.ic ≠ [] →
        inputs.map (denote frParams) = cs.x.tail → (vk.prepare.bind fun k => cVerify k π inputs) ≠ some (.ok ()) := by
  obtain ⟨bad, hb, H⟩ := C47_unsat_partial (e := bnE) C43_env_bn254 h1 h2 (bnE_ne h1 h2) sh wf k hm hc hviol
  refine ⟨bad, hb, fun t ht p pvk hs r s ρ hρ vk π inputs hk hπ hi hne hin => ?_⟩
  have := H t ht p pvk hs r s ρ hρ
  rw [setup_prepared hs] at this
  rw [C75_refines hk hne hπ hi, hin]
  exact fun h => this (Option.some.inj h)

/-- Non-vacuity: a key of generators and a proof of generators are structs the theorems speak about. -/
def demoBnKey : CVKey := ⟨g1Gen, g2Gen, g2Gen, g2Gen, [g1Gen, g1Gen]⟩
/-- The same as points. -/
noncomputable def demoBnPoints : VKey BG1 BG2 :=
  ⟨g1Point, g1Point, g2Base, g2Base, g1Point, g2Base, [g1Point, g1Point]⟩

theorem demoBnKey_rep : KeyRep demoBnKey demoBnPoints :=
  ⟨g1Gen_rep, g2Gen_rep, g2Gen_rep, g2Gen_rep, .cons g1Gen_rep (.cons g1Gen_rep .nil)⟩

theorem lin_demo {F G1 G2 GT : Type} [_root_.Field F] [AddCommGroup G1] [Module F G1] [AddCommGroup G2] [Module F G2]
    [AddCommGroup GT] [Module F GT] (e : G1 →ₗ[F] G2 →ₗ[F] GT) (P : G1) (Q : G2) {x : F} (hx : x + 1 + 1 + 1 = 0) :
    e P Q = e P Q + e (publicPoint [P, P] [x]) Q + e (P + P) Q := by
  have h : publicPoint [P, P] [x] = P + (x • P + 0) := rfl
  have h3 : x = -3 := by linear_combination hx
  rw [h, h3, map_add, map_add, map_add, map_zero, map_smul, LinearMap.add_apply, LinearMap.add_apply, LinearMap.add_apply,
    LinearMap.smul_apply, LinearMap.zero_apply]
  module

theorem demo_verify {F G1 G2 GT : Type} [_root_.Field F] [DecidableEq F] [AddCommGroup G1] [Module F G1]
    [AddCommGroup G2] [Module F G2] [AddCommGroup GT] [Module F GT] [DecidableEq G1] [DecidableEq G2] [DecidableEq GT]
    (e : G1 →ₗ[F] G2 →ₗ[F] GT) (P : G1) (Q : G2) {x : F} (hx : x + 1 + 1 + 1 = 0) :
    verify e (VKey.prepare e ⟨P, P, Q, Q, P, Q, [P, P]⟩) ⟨P, Q, P + P⟩ [x] = .ok () :=
  (C45_verify (e := e) ⟨P, P, Q, Q, P, Q, [P, P]⟩ ⟨P, Q, P + P⟩ [x]).2.1.mpr ⟨rfl, lin_demo e P Q hx⟩

/-- With that key and the input `-3`, whose combination is `-2G`, the verifier of the code accepts the proof
`(G, G, 2G)`: `1 = 1 - 2 + 2`. -/
example {c : Aff FqV} (hc : AffRep g1B c (g1Point + g1Point)) {i : L4} (hi : Canonical frParams i)
    (hv : denote frParams i + 1 + 1 + 1 = 0) :
    (demoBnKey.prepare.bind fun k => cVerify k ⟨g1Gen, g2Gen, c⟩ [i]) = some (.ok ()) := by
  have hπ : ProofRep ⟨g1Gen, g2Gen, c⟩ ⟨g1Point, g2Base, g1Point + g1Point⟩ := ⟨g1Gen_rep, g2Gen_rep, hc⟩
  rw [C75_refines demoBnKey_rep (List.cons_ne_nil _ _) hπ (by intro j hj; rw [List.mem_singleton.mp hj]; exact hi),
    List.map_cons, List.map_nil]
  unfold demoBnPoints
  rw [demo_verify bnE g1Point g2Base hv]

end Kogarashi.Props
