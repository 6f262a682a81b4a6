import Verif.Props.Verdict
import Verif.Props.Groth16Struct

/-!
# C80 for every number of constraints: the verdict on an honestly made proof over BN254

`C43_verdict` and its consequences for the structs of the code.
-/

namespace Kogarashi.Props

open Kogarashi Spec Tower Curve Kogarashi.Field Limbs Groth16 Polynomial

/-- **C80, every number of constraints.** For a circuit and an assignment there is a polynomial of degree at most `n + m - 2` such that,
with any keys the setup returns and any coins, the prover returns a proof, and the verifier accepts it exactly when the polynomial vanishes
at `τ`.  `hl`: the number of wires fits `usize`. -/
theorem C80_verdict {cs0 cs : CS FrW} (sh : SameShape cs0 cs) (wf : Wf cs) (hl : cs0.x.length + cs0.w.length < 2 ^ 64) :
    ∃ V : FrW[X], V.natDegree ≤ 2 ^ domainLog cs.m + cs.m - 2 ∧
      ∀ t p vk, bnSetup t cs0 = some (.ok (p, vk)) → ∀ r s, ∃ π, bnProve p r s cs = some (.ok π) ∧
        (bnVerify vk π cs.x.tail = some (.ok ()) ↔ V.eval t.tau = 0) := by
  obtain ⟨V, hd, H⟩ := C43_verdict (e := bnEW) envW g1Point_ne g2Base_ne bnEW_base sh wf
  refine ⟨V, hd, fun t p vk hs r s => ?_⟩
  obtain ⟨P, K, hS, hk, sz, hic⟩ := keys_of hs hl
  obtain ⟨ρ, c1, c2⟩ := H t P K hS r s
  have h := C80_prove_refines hk.1 sz r s cs
  rw [c1] at h
  obtain ⟨π, h1, h2⟩ := h.right
  refine ⟨π, h1, ?_⟩
  rw [bnVerify_same hk (ne_nil_of sh wf hic) h2, ← c2]
  exact ⟨fun h => Option.some.inj h, fun h => by rw [h]⟩

/-- **C80** (all or few), over BN254: either every honestly made proof is accepted, or for all but at most `n + m - 2` values of `τ` none
is. -/
theorem C80_all_or_few {cs0 cs : CS FrW} (sh : SameShape cs0 cs) (wf : Wf cs) (hl : cs0.x.length + cs0.w.length < 2 ^ 64) :
    (∀ t p vk, bnSetup t cs0 = some (.ok (p, vk)) → ∀ r s π, bnProve p r s cs = some (.ok π) →
      bnVerify vk π cs.x.tail = some (.ok ())) ∨
    ∃ few : Finset FrW, few.card ≤ 2 ^ domainLog cs.m + cs.m - 2 ∧ ∀ t : Trapdoor FrW, t.tau ∉ few → ∀ p vk,
      bnSetup t cs0 = some (.ok (p, vk)) → ∀ r s π, bnProve p r s cs = some (.ok π) → bnVerify vk π cs.x.tail ≠ some (.ok ()) := by
  obtain ⟨V, hd, H⟩ := C80_verdict sh wf hl
  by_cases hV : V = 0
  · left
    intro t p vk hs r s π hπ
    obtain ⟨π', a, b⟩ := H t p vk hs r s
    rw [a, Option.some.injEq, Except.ok.injEq] at hπ
    rw [← hπ, b, hV, eval_zero]
  · refine Or.inr ⟨V.roots.toFinset, (Multiset.toFinset_card_le _).trans ((card_roots' _).trans hd), ?_⟩
    intro t ht p vk hs r s π hπ hacc
    obtain ⟨π', a, b⟩ := H t p vk hs r s
    rw [a, Option.some.injEq, Except.ok.injEq] at hπ
    rw [← hπ, b] at hacc
    exact ht (by simpa [hV] using hacc)

/-- **C80**, completeness over BN254 for every number of constraints, when the columns of values are of low degree
(`C43_low_degree_partial`).  Missing: the other satisfying assignments, some of which are rejected (`C80_completeness_all_refuted`). -/
theorem C80_low_degree_partial {cs0 cs : CS FrW} (sh : SameShape cs0 cs) (wf : Wf cs) (hl : cs0.x.length + cs0.w.length < 2 ^ 64)
    (hsat : Satisfies (stored cs) cs)
    (ha : LowDegree (omega frS frRootW (domainLog cs.m)) (2 ^ domainLog cs.m) (cs.cons.map fun c => rowVal (stored cs) c.a))
    (hb : LowDegree (omega frS frRootW (domainLog cs.m)) (2 ^ domainLog cs.m) (cs.cons.map fun c => rowVal (stored cs) c.b))
    (hc : LowDegree (omega frS frRootW (domainLog cs.m)) (2 ^ domainLog cs.m) (cs.cons.map fun c => rowVal (stored cs) c.c))
    {t : Trapdoor FrW} {p : SParams FqV (Fq2 FqV)} {vk : CPVKey} (hs : bnSetup t cs0 = some (.ok (p, vk))) (r s : FrW) :
    ∃ π, bnProve p r s cs = some (.ok π) ∧ bnVerify vk π cs.x.tail = some (.ok ()) := by
  obtain ⟨P, V, hS, hk, sz, hic⟩ := keys_of hs hl
  obtain ⟨ρ, c1, c2⟩ := C43_low_degree_partial envW g1Point_ne g2Base_ne sh wf hsat ha hb hc hS r s
  have h := C80_prove_refines hk.1 sz r s cs
  rw [c1] at h
  obtain ⟨π, h1, h2⟩ := h.right
  refine ⟨π, h1, ?_⟩
  rw [bnVerify_same hk (ne_nil_of sh wf hic) h2, c2]

/-- Three constraints on BN254. -/
example : ∃ V : FrW[X], V.natDegree ≤ 2 ^ domainLog (ones3 : CS FrW).m + (ones3 : CS FrW).m - 2 ∧
    ∀ t p vk, bnSetup t ones3 = some (.ok (p, vk)) → ∀ r s, ∃ π, bnProve p r s ones3 = some (.ok π) ∧
      (bnVerify vk π (ones3 : CS FrW).x.tail = some (.ok ()) ↔ V.eval t.tau = 0) :=
  C80_verdict ⟨rfl, rfl, rfl⟩ C80_completeness_refuted.1 (by simp [ones3, consts3])

end Kogarashi.Props
