import Verif.Props.Groth16Struct
import Verif.Props.Completeness
import Verif.Props.ZeroKnowledge
import Verif.Props.SetupPanics
import Verif.Props.FalseStatements

/-!
# Property C80, continued: sizes, binding and simulation on the structs of the code

`Completeness.lean`, C48 and C104, with no abstract group in the program: `bnSetup`, `bnProve`, `bnVerify`.
-/

namespace Kogarashi.Props

open Kogarashi Spec Tower Curve Kogarashi.Field Limbs Groth16

/-- **C80 is false for every number of constraints that is not a power of two**: `clash m`, with `m + 2` constraints, is
satisfied, yet for all but at most `2^⌈log₂ (m + 2)⌉ + m + 2` values of `τ` the verifier rejects the honest proof. -/
theorem C80_completeness_all_refuted (m : Nat) (hm : ∀ k, m + 2 ≠ 2 ^ k) :
    (clash m : CS FrW).m = m + 2 ∧ Wf (clash m : CS FrW) ∧ Satisfies (stored (clash m)) (clash m : CS FrW) ∧
    ∃ bad : Finset FrW, bad.card ≤ 2 ^ Nat.clog 2 (m + 2) + (m + 2) ∧ ∀ t : Trapdoor FrW, t.tau ∉ bad → ∀ p vk,
      bnSetup t (clash m) = some (.ok (p, vk)) → ∀ r s, ∃ π, bnProve p r s (clash m) = some (.ok π) ∧ bnVerify vk π [] ≠ some (.ok ()) := by
  obtain ⟨hc, w, sat, bad, hb, H⟩ := C43_completeness_all_refuted (e := bnEW) envW g1Point_ne g2Base_ne bnEW_base m hm
  refine ⟨hc, w, sat, bad, hb, fun t ht p vk hs r s => ?_⟩
  obtain ⟨P, V, hS, hk, sz, hic⟩ := keys_of hs (by simp [clash, consts])
  obtain ⟨ρ, c1, c2⟩ := H t ht P V hS r s
  have h := C80_prove_refines hk.1 sz r s (clash m)
  rw [c1] at h
  obtain ⟨π, h1, h2⟩ := h.right
  refine ⟨π, h1, ?_⟩
  rw [bnVerify_same hk (ne_nil_of ⟨rfl, rfl, rfl⟩ w hic) h2]
  exact fun h => c2 (Option.some.inj h)

/-- **C80**, when the setup on structs panics, for `2^k` constraints (`1 ≤ k ≤ 28`) and non-zero `γ`, `δ`: exactly when `τ` is one
of the points of the domain before some constraint that mentions a wire. -/
theorem C80_setup_panics (cs : CS FrW) (wf : Wf cs) (t : Trapdoor FrW) {k : Nat} (hk : 1 ≤ k) (hkS : k ≤ frS) (hm : cs.m = 2 ^ k)
    (hg : t.gamma ≠ 0) (hd : t.delta ≠ 0) :
    bnSetup t cs = none ↔ ∃ l j, l < j ∧ Mentions cs j ∧ t.tau = omega frS frRootW k ^ l := by
  rw [← C44_outcome_pow (g1 := g1Point) (g2 := g2Base) (e := bnEW) envW cs wf t hk hkS hm hg hd]
  have h := C80_setup_refines t cs
  constructor
  · intro h0
    rw [h0] at h
    exact h.none_left
  · intro h0
    rw [h0] at h
    exact h.none_right

/-- The product circuit, on structs, with `τ = 1` (`= ω^0`). -/
example : bnSetup ⟨1, 1, 1, 1, 1⟩ (prodCs 0 0) = none :=
  (C80_setup_panics (prodCs 0 0) (prodCs_wf 0 0) ⟨1, 1, 1, 1, 1⟩ (le_refl 1) (by decide) (prodCs_m 0 0) one_ne_zero one_ne_zero).mpr
    ⟨0, 1, by omega, ⟨_, rfl, .inl (by simp)⟩, (pow_zero _).symm⟩

/-- **C80 is false of rejection for every number of constraints `2^k - 1`**: no assignment satisfies any of the constraints of
`falseCs`, yet on structs what the prover makes is accepted, for every toxic waste for which the setup returns. -/
theorem C80_unsat_all_refuted {k : Nat} (hk : 2 ≤ k) (hkS : k ≤ frS) :
    let cs := falseCs (omega frS frRootW k) (2 ^ k - 1)
    cs.m = 2 ^ k - 1 ∧ Wf cs ∧ (∀ z : Assignment FrW, z Wire.ONE = 1 → ∀ c ∈ cs.cons, ¬ Holds z c) ∧
    ∀ (t : Trapdoor FrW) p vk, bnSetup t cs = some (.ok (p, vk)) →
      ∀ r s, ∃ π, bnProve p r s cs = some (.ok π) ∧ bnVerify vk π [] = some (.ok ()) := by
  intro cs
  obtain ⟨hc, w, viol, H⟩ := C47_unsat_all_refuted (e := bnEW) envW g1Point_ne g2Base_ne hk hkS
  refine ⟨hc, w, viol, fun t p vk hs r s => ?_⟩
  obtain ⟨P, V, hS, hk, sz, hic⟩ := keys_of hs (by simp [cs, falseCs, consts])
  obtain ⟨ρ, c1, c2⟩ := H t P V hS r s
  have h := C80_prove_refines hk.1 sz r s cs
  rw [c1] at h
  obtain ⟨π, h1, h2⟩ := h.right
  refine ⟨π, h1, ?_⟩
  rw [bnVerify_same hk (ne_nil_of ⟨rfl, rfl, rfl⟩ w hic) h2]
  exact congrArg some c2

/-- **C80**, binding, for input vectors some constraint tells apart: for all but at most `m - 1` values of `τ` there are
`U`, `V`, `W`, not all zero and depending on `τ` alone, such that a proof struct (any that holds points of the groups)
accepted for both vectors forces `βU + αV + W = 0` between the remaining secrets.  Missing: vectors no constraint tells
apart, for which it is false (`C48_unused_input_refuted`). -/
theorem C80_binding_partial (cs0 : CS FrW) (hl : cs0.x.length + cs0.w.length < 2 ^ 64) (x x' : List FrW) (hx : x.length + 1 = cs0.l)
    (hx' : x'.length + 1 = cs0.l) (hd : Distinguishes cs0 x x') :
    ∃ bad : Finset FrW, bad.card ≤ cs0.m - 1 ∧ ∀ tau, tau ∉ bad → ∃ U V W : FrW, ¬ (U = 0 ∧ V = 0 ∧ W = 0) ∧
      ∀ (t : Trapdoor FrW) p vk, t.tau = tau → bnSetup t cs0 = some (.ok (p, vk)) →
        ∀ π ρ, SProofRep (AddMonoidHom.id BG1) g2Torsion.subtype π ρ →
          bnVerify vk π x = some (.ok ()) → bnVerify vk π x' = some (.ok ()) → t.beta * U + t.alpha * V + W = 0 := by
  obtain ⟨bad, hb, H⟩ := C48_binding_partial (e := bnEW) envW bnEW_base cs0 x x' hx hx' hd
  refine ⟨bad, hb, fun tau ht => ?_⟩
  obtain ⟨U, V, W, h0, h1⟩ := H tau ht
  refine ⟨U, V, W, h0, fun t p vk htau hs π ρ hπ v1 v2 => ?_⟩
  obtain ⟨P, K, hS, hk, sz, hic⟩ := keys_of hs hl
  have hne : p.ic ≠ [] := by
    intro h
    rw [h] at hic
    have : cs0.l = cs0.x.length := rfl
    rw [this, ← hic] at hx
    simp at hx
  rw [bnVerify_same hk hne hπ] at v1 v2
  exact h1 t P K htau hS ρ (Option.some.inj v1) (Option.some.inj v2)

/-- **C80**, simulation, for circuits with a power of two constraints: the keys hold points `P`, `V` of the groups, and a
bijection takes the prover's coins to those of a simulator that has the toxic waste and no witness, such that the
prover's struct holds the three points the simulator makes.  Missing: other numbers of constraints, for which it is
false (`C104_simulation_refuted`). -/
theorem C80_simulation_partial {t : Trapdoor FrW} {cs0 cs : CS FrW} (sh : SameShape cs0 cs) (wf : Wf cs) (k : Nat) (hm : cs.m = 2 ^ k)
    (hsat : Satisfies (stored cs) cs) (hl : cs0.x.length + cs0.w.length < 2 ^ 64) {p : SParams FqV (Fq2 FqV)} {vk : CPVKey}
    (hs : bnSetup t cs0 = some (.ok (p, vk))) :
    ∃ P V, KeysRep (p, vk) (P, V) ∧ ∃ φ : FrW × FrW ≃ FrW × FrW, ∀ c, ∃ π, bnProve p c.1 c.2 cs = some (.ok π) ∧
      SProofRep (AddMonoidHom.id BG1) g2Torsion.subtype π (simulate g1Point g2Base t P.vk cs.x.tail (φ c)) := by
  obtain ⟨P, V, hS, hk, sz, hic⟩ := keys_of hs hl
  obtain ⟨φ, H⟩ := C104_simulation_partial (e := bnEW) envW g1Point_ne g2Base_ne bnEW_base sh wf k hm hsat hS
  refine ⟨P, V, hk, φ, fun c => ?_⟩
  have h := C80_prove_refines hk.1 sz c.1 c.2 cs
  rw [H c] at h
  exact h.right

/-- **C80**: a struct that holds the points the simulator makes is accepted for every input vector of the right length,
whether or not it has a witness: acceptance is worth nothing to someone who does not trust the setup. -/
theorem C80_simulated_accepted {t : Trapdoor FrW} {cs0 : CS FrW} (hl : cs0.x.length + cs0.w.length < 2 ^ 64)
    {p : SParams FqV (Fq2 FqV)} {vk : CPVKey} (hs : bnSetup t cs0 = some (.ok (p, vk))) (x : List FrW) (hx : x.length + 1 = cs0.l)
    (c : FrW × FrW) :
    ∃ P V, KeysRep (p, vk) (P, V) ∧ ∀ π, SProofRep (AddMonoidHom.id BG1) g2Torsion.subtype π (simulate g1Point g2Base t P.vk x c) →
      bnVerify vk π x = some (.ok ()) := by
  obtain ⟨P, V, hS, hk, sz, hic⟩ := keys_of hs hl
  refine ⟨P, V, hk, fun π hπ => ?_⟩
  have hne : p.ic ≠ [] := by
    intro h
    rw [h] at hic
    have : cs0.l = cs0.x.length := rfl
    rw [this, ← hic] at hx
    simp at hx
  rw [bnVerify_same hk hne hπ, C104_simulated_accepted hS x hx c]

/-- Keys of a circuit with two constraints whose honest proofs are simulated on structs. -/
example : ∃ (t : Trapdoor FrW) (p : SParams FqV (Fq2 FqV)) (vk : CPVKey), bnSetup t (prodCs 0 0) = some (.ok (p, vk)) ∧
    ∀ a b : FrW, ∃ P V, KeysRep (p, vk) (P, V) ∧ ∃ φ : FrW × FrW ≃ FrW × FrW, ∀ c, ∃ π, bnProve p c.1 c.2 (prodCs a b) = some (.ok π) ∧
      SProofRep (AddMonoidHom.id BG1) g2Torsion.subtype π (simulate g1Point g2Base t P.vk [a * b] (φ c)) := by
  obtain ⟨bad, hb, H⟩ := C80_runs_partial (prodCs 0 0) (prodCs_wf 0 0) (prodCs_m 0 0).ge (by rw [prodCs_m]; decide) (prodCs_len 0 0)
  obtain ⟨tau, ht⟩ := exists_notMem bad (by rw [prodCs_m] at hb; exact hb)
  obtain ⟨p, vk, h1, -⟩ := H ⟨1, 1, 1, 1, tau⟩ ht one_ne_zero one_ne_zero
  refine ⟨_, p, vk, h1, fun a b => ?_⟩
  rw [← prodCs_tail a b]
  exact C80_simulation_partial (prodCs_shape 0 0 a b) (prodCs_wf a b) 1 (prodCs_m a b) (prodCs_sat a b) (prodCs_len 0 0) h1

/-- Two inputs that the second constraint of that circuit tells apart. -/
example : Distinguishes (prodCs (0 : FrW) 0) [0] [1] := by
  refine ⟨_, List.mem_cons_of_mem _ (List.mem_cons_self ..), Or.inl ?_⟩
  simp [rowVal, publicOnly]

end Kogarashi.Props
