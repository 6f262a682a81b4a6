import Verif.Props.AffineCut
import Verif.Props.AffineBn

/-!
# C102 over BN254 for every number of constraints
-/

namespace Kogarashi.Props

open Kogarashi Spec Tower Curve Kogarashi.Field Limbs Groth16 Nova

/-- The numbers of BN254 leave room for every circuit the transforms of the code can handle. -/
theorem fr_large {m n : Nat} (hm : m ≤ 2 ^ 28) (hn : n ≤ 2 ^ 28) :
    (2 * n + 6) * frParams.m ^ 4 < (frParams.m - m) * (frParams.m - 1) ^ 2 * frParams.m ^ 2 := by
  have h1 : (2 ^ 30 : Nat) * frParams.m ^ 4 < (frParams.m - 2 ^ 28) * (frParams.m - 1) ^ 2 * frParams.m ^ 2 := by decide +kernel
  have h2 : 2 * n + 6 ≤ 2 ^ 30 := by omega
  calc (2 * n + 6) * frParams.m ^ 4 ≤ 2 ^ 30 * frParams.m ^ 4 := Nat.mul_le_mul_right _ h2
    _ < (frParams.m - 2 ^ 28) * (frParams.m - 1) ^ 2 * frParams.m ^ 2 := h1
    _ ≤ (frParams.m - m) * (frParams.m - 1) ^ 2 * frParams.m ^ 2 :=
        Nat.mul_le_mul_right _ (Nat.mul_le_mul_right _ (Nat.sub_le_sub_left hm _))

/-- Acceptance by the verifier on structs is acceptance in the groups. -/
theorem acceptingBn_iff {g1 : BG1} {g2 : BG2} {cs : CS FrV} (wf : Wf cs) (P : AffineProver FrV) {inputs : List L4}
    (hi : ∀ i ∈ inputs, Canonical frParams i) (t : Trapdoor FrV) : AcceptingBn g1 g2 cs P inputs t ↔
      Accepting frS (denote frParams frRootOfUnity) 7 g1 g2 bnE cs P (inputs.map (denote frParams)) t := by
  have ne : ∀ {p : Params BG1 BG2} {pvk} {vk : CVKey}, setup frS (denote frParams frRootOfUnity) 7 g1 g2 bnE t cs = some (.ok (p, pvk)) →
      KeyRep vk p.vk → vk.ic ≠ [] := by
    intro p pvk vk hs hk h0
    obtain ⟨f, -, key⟩ := setup_keys hs
    have h3 := hk.ic
    rw [h0] at h3
    have h4 : p.vk.ic = [] := List.forall₂_nil_left_iff.mp h3
    have h5 := key.icLen
    rw [setup_prepared hs] at h5
    simp only [VKey.prepare, h4, List.length_nil] at h5
    have h6 := wf.one
    have h7 : cs.x = [] := List.length_eq_zero_iff.mp h5.symm
    rw [h7] at h6
    simp at h6
  constructor
  · rintro ⟨p, pvk, hs, vk, π, hk, hπ, hv⟩
    rw [C75_refines hk (ne hs hk) hπ hi] at hv
    refine ⟨p, pvk, hs, ?_⟩
    rw [setup_prepared hs]
    exact Option.some.inj hv
  · rintro ⟨p, pvk, hs, hv⟩
    obtain ⟨vk, π, hk', hπ⟩ := structs_exist p.vk (P.prove g1 g2 p)
    refine ⟨p, pvk, hs, vk, π, hk', hπ, ?_⟩
    rw [C75_refines hk' (ne hs hk') hπ hi, ← setup_prepared hs, hv]

/-- **C102 on BN254, every number of constraints, exactly.** For a circuit with 2 to `2^28` constraints and public inputs of the right
length: some prover who combines the parameters, with the witness `w`, is accepted by the code's verifier for more than `(2n + 6)·r⁴` of
the `r⁵` values of the toxic waste, if and only if the column polynomials cut after `m` terms multiply on the domain. -/
theorem C102_bn254_exact {g1 : BG1} {g2 : BG2} (h1 : g1 ≠ 0) (h2 : g2 ≠ 0) {cs : CS FrV} (wf : Wf cs) (hm : 2 ≤ cs.m) (hS : cs.m ≤ 2 ^ 28)
    {inputs : List L4} (hi : ∀ i ∈ inputs, Canonical frParams i) (hx : inputs.length + 1 = cs.l) (w : List FrV) :
    (∃ P : AffineProver FrV, P.c.l = w ∧ (2 * 2 ^ domainLog cs.m + 6) * frParams.m ^ 4 < Nat.card {t // AcceptingBn g1 g2 cs P inputs t}) ↔
      CutHolds (omega frS (denote frParams frRootOfUnity) (domainLog cs.m)) (2 ^ domainLog cs.m)
        (assign (inputs.map (denote frParams)) w) cs := by
  have hn : 2 ^ domainLog cs.m ≤ 2 ^ 28 := by
    refine Nat.pow_le_pow_right (by norm_num) ?_
    unfold domainLog
    exact Nat.clog_le_of_le_pow hS
  have key := C102_exact (e := bnE) C43_env_bn254 h1 h2 (bnE_ne h1 h2) wf hm hS
    (by rw [Nat.card_zmod]; exact fr_large hS hn) (inputs.map (denote frParams)) w (by rw [List.length_map]; exact hx)
  rw [Nat.card_zmod] at key
  rw [← key]
  refine exists_congr fun P => and_congr_right fun _ => ?_
  rw [Nat.card_congr (Equiv.subtypeEquivRight (acceptingBn_iff wf P hi))]

/-- `1·1 = 1`, three times, on BN254. -/
example (w : List FrV) :
    (∃ P : AffineProver FrV, P.c.l = w ∧ (2 * 2 ^ domainLog (ones3 : CS FrV).m + 6) * frParams.m ^ 4 <
      Nat.card {t // AcceptingBn g1Point g2Base ones3 P [] t}) ↔
    CutHolds (omega frS (denote frParams frRootOfUnity) (domainLog (ones3 : CS FrV).m)) (2 ^ domainLog (ones3 : CS FrV).m) (assign [] w) ones3 := by
  have wf : Wf (ones3 : CS FrV) := consts3_wf _ _ _
  have hm : (ones3 : CS FrV).m = 3 := rfl
  exact C102_bn254_exact g1Point_ne g2Base_ne wf (by rw [hm]; norm_num) (by rw [hm]; norm_num) (by simp) rfl w

end Kogarashi.Props
