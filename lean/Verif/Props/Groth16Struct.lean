import Verif.Groth16.StructBn

/-!
# Property C80: Groth16 on BN254 from end to end

`bnSetup`, `bnProve` and `bnVerify` are the three entry points on the structs of the code: affine and projective
points, scalars as limbs, multi-scalar multiplication by windows, Miller loops on prepared coefficients.  `none` is a
panic.  The specification is the same as that of C43 to C48, with no abstract group in it.
-/

namespace Kogarashi.Props

open Kogarashi Spec Tower Curve Kogarashi.Field Limbs Groth16

theorem g1Point_ne : g1Point ≠ 0 := fun h => bnE_base (by rw [h, map_zero, LinearMap.zero_apply])
theorem g2Base_ne : g2Base ≠ 0 := fun h => bnE_base (by rw [h, map_zero])
theorem bnEW_base : bnEW g1Point g2Base ≠ 0 := bnE_base

/-- **C80**. For every toxic waste and every system the setup on structs ends as the setup over the groups: it panics
with it, fails with the same error, or returns keys whose structs hold its points. -/
theorem C80_setup_refines (t : Trapdoor FrW) (cs : CS FrW) :
    Same KeysRep (bnSetup t cs) (setup frS frRootW frGenW g1Point g2Base bnEW t cs) := bnSetup_same t cs

/-- **C80**. The same for the prover, with any parameters. -/
theorem C80_prove_refines {p : SParams FqV (Fq2 FqV)} {P : Params BG1 BG2}
    (hp : SParamsRep (AddMonoidHom.id BG1) g2Torsion.subtype p P) (hl : p.Sized) (r s : FrW) (cs : CS FrW) :
    Same (SProofRep (AddMonoidHom.id BG1) g2Torsion.subtype) (bnProve p r s cs) (createProof frS frRootW frGenW P r s cs) :=
  bnProve_same hp hl r s cs

/-- The keys of a run of the setup, as points. -/
theorem keys_of {t : Trapdoor FrW} {cs0 : CS FrW} {p : SParams FqV (Fq2 FqV)} {vk : CPVKey} (hs : bnSetup t cs0 = some (.ok (p, vk)))
    (hl : cs0.x.length + cs0.w.length < 2 ^ 64) :
    ∃ P V, setup frS frRootW frGenW g1Point g2Base bnEW t cs0 = some (.ok (P, V)) ∧ KeysRep (p, vk) (P, V) ∧ p.Sized ∧
      p.ic.length = cs0.x.length := by
  have h := C80_setup_refines t cs0
  rw [hs] at h
  obtain ⟨⟨P, V⟩, h1, h2⟩ := h.left
  obtain ⟨h3, h4⟩ := sized_of h1 h2 hl
  exact ⟨P, V, h1, h2, h3, h4⟩

theorem ne_nil_of {cs0 cs : CS FrW} (sh : SameShape cs0 cs) (wf : Wf cs) {l : List (Aff FqV)} (h : l.length = cs0.x.length) : l ≠ [] := by
  intro h0
  have h1 := sh.1
  have h2 := wf.1
  rw [h0] at h
  cases hx : cs.x with
  | nil => rw [hx] at h2; simp at h2
  | cons a b => rw [hx] at h1; rw [← h] at h1; simp at h1

/-- **C80**, completeness for circuits with a power of two constraints: whatever the toxic waste and the prover's coins,
if the setup returned keys and the prover's assignment satisfies the circuit, then the prover returns a proof and the
verifier accepts it, all of them on structs, with no panic.  Missing: other numbers of constraints, for which it is
false (`C80_completeness_refuted`); `hl`: the number of wires fits `usize`. -/
theorem C80_completeness_partial {t : Trapdoor FrW} {cs0 cs : CS FrW} (sh : SameShape cs0 cs) (wf : Wf cs) (k : Nat)
    (hm : cs.m = 2 ^ k) (hsat : Satisfies (stored cs) cs) (hl : cs0.x.length + cs0.w.length < 2 ^ 64)
    {p : SParams FqV (Fq2 FqV)} {vk : CPVKey} (hs : bnSetup t cs0 = some (.ok (p, vk))) (r s : FrW) :
    ∃ π, bnProve p r s cs = some (.ok π) ∧ bnVerify vk π cs.x.tail = some (.ok ()) := by
  obtain ⟨P, V, hS, hk, sz, hic⟩ := keys_of hs hl
  obtain ⟨ρ, c1, c2⟩ := C43_completeness_partial envW g1Point_ne g2Base_ne sh wf k hm hsat hS r s
  have h := C80_prove_refines hk.1 sz r s cs
  rw [c1] at h
  obtain ⟨π, h1, h2⟩ := h.right
  refine ⟨π, h1, ?_⟩
  rw [bnVerify_same hk (ne_nil_of sh wf hic) h2, c2]

/-- **C80**, no panic: for circuits with 2 to `2^28` constraints, and all but at most `m - 1` values of `τ`, the setup
returns keys and the prover a proof.  Missing: at most one constraint, and the exceptional `τ`, for which it is false
(`C80_small_refuted`, `C44_tau_refuted`). -/
theorem C80_runs_partial (cs0 : CS FrW) (wf0 : Wf cs0) (hm : 2 ≤ cs0.m) (hS : cs0.m ≤ 2 ^ frS) (hl : cs0.x.length + cs0.w.length < 2 ^ 64) :
    ∃ bad : Finset FrW, bad.card ≤ cs0.m - 1 ∧ ∀ t : Trapdoor FrW, t.tau ∉ bad → t.gamma ≠ 0 → t.delta ≠ 0 →
      ∃ p vk, bnSetup t cs0 = some (.ok (p, vk)) ∧ ∀ cs, SameShape cs0 cs → Wf cs → ∀ r s, ∃ π, bnProve p r s cs = some (.ok π) := by
  obtain ⟨bad, hb, H⟩ := C44_runs_partial (e := bnEW) envW g1Point_ne g2Base_ne cs0 wf0 hm hS
  refine ⟨bad, hb, fun t ht hg hd => ?_⟩
  obtain ⟨P, V, h1, h2⟩ := H t ht hg hd
  have h := C80_setup_refines t cs0
  rw [h1] at h
  obtain ⟨⟨p, vk⟩, h3, h4⟩ := h.right
  refine ⟨p, vk, h3, fun cs sh wf r s => ?_⟩
  obtain ⟨ρ, h5⟩ := h2 cs sh wf r s
  have h := C80_prove_refines h4.1 (sized_of h1 h4 hl).1 r s cs
  rw [h5] at h
  obtain ⟨π, h6, -⟩ := h.right
  exact ⟨π, h6⟩

/-- **C80 is false of small circuits**: with at most one constraint the setup panics. -/
theorem C80_small_refuted (t : Trapdoor FrW) (cs : CS FrW) (hm : cs.m ≤ 1) : bnSetup t cs = none := by
  have h := C80_setup_refines t cs
  rw [C44_small_refuted cs hm] at h
  exact h.none_right

/-- **C80**, an unsatisfying assignment, for circuits with a power of two constraints: for all but at most `2n - 2`
values of `τ` the verifier rejects what the prover makes of it.  Missing: other numbers of constraints, for which it is
false (`C80_unsat_refuted`). -/
theorem C80_unsat_partial {cs0 cs : CS FrW} (sh : SameShape cs0 cs) (wf : Wf cs) (k : Nat) (hm : cs.m = 2 ^ k)
    (hl : cs0.x.length + cs0.w.length < 2 ^ 64) {c : Constraint FrW} (hc : c ∈ cs.cons) (hviol : ¬ Holds (stored cs) c) :
    ∃ bad : Finset FrW, bad.card ≤ 2 * 2 ^ k - 2 ∧ ∀ t : Trapdoor FrW, t.tau ∉ bad → ∀ p vk, bnSetup t cs0 = some (.ok (p, vk)) →
      ∀ r s π, bnProve p r s cs = some (.ok π) → bnVerify vk π cs.x.tail = some (.error .proofVerificationError) := by
  obtain ⟨bad, hb, H⟩ := C47_unsat_partial (e := bnEW) envW g1Point_ne g2Base_ne bnEW_base sh wf k hm hc hviol
  refine ⟨bad, hb, fun t ht p vk hs r s π hπ => ?_⟩
  obtain ⟨P, V, hS, hk, sz, hic⟩ := keys_of hs hl
  have h := C80_prove_refines hk.1 sz r s cs
  rw [hπ] at h
  obtain ⟨ρ, h1, h2⟩ := h.left
  have h3 := H t ht P V hS r s ρ h1
  rw [bnVerify_same hk (ne_nil_of sh wf hic) h2]
  obtain ⟨_, _, h4⟩ := hk
  dsimp only at h4
  rw [h4] at h3 ⊢
  have cv := C45_verify (e := bnEW) P.vk ρ cs.x.tail
  have hlen : cs.x.tail.length + 1 = P.vk.ic.length := by
    have l6 := (setup_lengths hS).2.2.2.2.2
    have := sh.1
    have w := wf.1
    cases hx : cs.x with
    | nil => rw [hx] at w; simp at w
    | cons a b => rw [hx] at this; rw [l6, this]; rfl
  rw [cv.2.2.mpr ⟨hlen, fun h => h3 (cv.2.1.mpr ⟨hlen, h⟩)⟩]

/-- **C80 is false of three constraints**: `1·1 = 1`, three times, is satisfied, and for all but at most five values of
`τ` the verifier rejects the honest proof. -/
theorem C80_completeness_refuted : Wf (ones3 : CS FrW) ∧ Satisfies (stored ones3) (ones3 : CS FrW) ∧
    ∃ bad : Finset FrW, bad.card ≤ 5 ∧ ∀ t : Trapdoor FrW, t.tau ∉ bad → ∀ p vk, bnSetup t ones3 = some (.ok (p, vk)) →
      ∀ r s, ∃ π, bnProve p r s ones3 = some (.ok π) ∧ bnVerify vk π [] ≠ some (.ok ()) := by
  obtain ⟨w, sat, bad, hb, H⟩ := C43_completeness_refuted (e := bnEW) envW (by decide) g1Point_ne g2Base_ne bnEW_base
  refine ⟨w, sat, bad, hb, fun t ht p vk hs r s => ?_⟩
  obtain ⟨P, V, hS, hk, sz, hic⟩ := keys_of hs (by simp [ones3, consts3])
  obtain ⟨ρ, c1, c2⟩ := H t ht P V hS r s
  have h := C80_prove_refines hk.1 sz r s ones3
  rw [c1] at h
  obtain ⟨π, h1, h2⟩ := h.right
  refine ⟨π, h1, ?_⟩
  rw [bnVerify_same hk (ne_nil_of ⟨rfl, rfl, rfl⟩ w hic) h2]
  exact fun h => c2 (Option.some.inj h)

/-- **C80 is false of three constraints**: no assignment satisfies the circuit, and the verifier accepts the proof the
prover makes, whatever the toxic waste and the coins. -/
theorem C80_unsat_refuted :
    let cs := false3 (omega frS frRootW 2)
    Wf cs ∧ (∀ z, ¬ Satisfies z cs) ∧ ∀ (t : Trapdoor FrW) (p) (vk), bnSetup t cs = some (.ok (p, vk)) →
      ∀ r s, ∃ π, bnProve p r s cs = some (.ok π) ∧ bnVerify vk π [] = some (.ok ()) := by
  intro cs
  obtain ⟨w, sat, H⟩ := C47_unsat_refuted (e := bnEW) envW (by decide) g1Point_ne g2Base_ne
  refine ⟨w, sat, fun t p vk hs r s => ?_⟩
  obtain ⟨P, V, hS, hk, sz, hic⟩ := keys_of hs (by simp [cs, false3, consts3])
  obtain ⟨ρ, c1, c2⟩ := H t P V hS r s
  have h := C80_prove_refines hk.1 sz r s cs
  rw [c1] at h
  obtain ⟨π, h1, h2⟩ := h.right
  refine ⟨π, h1, ?_⟩
  rw [bnVerify_same hk (ne_nil_of ⟨rfl, rfl, rfl⟩ w hic) h2, c2]

/-- **C80**, zero knowledge for circuits with a power of two constraints: for two satisfying assignments with the same
public inputs, a bijection of the prover's coins takes each proof for one to a proof for the other with the same three
points.  Missing: other numbers of constraints, for which it is false (`C46_witness_indistinguishable_refuted`). -/
theorem C80_witness_partial {t : Trapdoor FrW} {cs0 cs cs' : CS FrW} (sh : SameShape cs0 cs) (sh' : SameShape cs0 cs') (wf : Wf cs)
    (wf' : Wf cs') (k : Nat) (hm : cs0.m = 2 ^ k) (hx : cs.x = cs'.x) (hsat : Satisfies (stored cs) cs)
    (hsat' : Satisfies (stored cs') cs') (hl : cs0.x.length + cs0.w.length < 2 ^ 64) {p : SParams FqV (Fq2 FqV)} {vk : CPVKey}
    (hs : bnSetup t cs0 = some (.ok (p, vk))) :
    ∃ φ : FrW × FrW ≃ FrW × FrW, ∀ c, ∃ π π' ρ, bnProve p c.1 c.2 cs = some (.ok π) ∧ bnProve p (φ c).1 (φ c).2 cs' = some (.ok π') ∧
      SProofRep (AddMonoidHom.id BG1) g2Torsion.subtype π ρ ∧ SProofRep (AddMonoidHom.id BG1) g2Torsion.subtype π' ρ := by
  obtain ⟨P, V, hS, hk, sz, hic⟩ := keys_of hs hl
  obtain ⟨φ, H⟩ := C46_witness_indistinguishable_partial envW g1Point_ne g2Base_ne sh sh' wf wf' k hm hx hsat hsat' hS
  refine ⟨φ, fun c => ?_⟩
  obtain ⟨ρ, c1, -⟩ := C43_completeness_partial envW g1Point_ne g2Base_ne sh wf k ((SameShape.m sh).symm.trans hm) hsat hS c.1 c.2
  have h := C80_prove_refines hk.1 sz c.1 c.2 cs
  have h' := C80_prove_refines hk.1 sz (φ c).1 (φ c).2 cs'
  rw [c1] at h
  rw [← H c, c1] at h'
  obtain ⟨π, h1, h2⟩ := h.right
  obtain ⟨π', h3, h4⟩ := h'.right
  exact ⟨π, π', ρ, h1, h3, h2, h4⟩

/-! ### A circuit -/

section demo
variable {K : Type} [_root_.Field K]

/-- `w₀·w₁ = x₁` and `x₁·1 = x₁`. -/
def prodCs (a b : K) : CS K :=
  { x := [1, a * b], w := [a, b], cons := [Constraint.mk [(.wit 0, 1)] [(.wit 1, 1)] [(.inst 1, 1)],
      Constraint.mk [(.inst 1, 1)] [(Wire.ONE, 1)] [(.inst 1, 1)]] }

theorem prodCs_wf (a b : K) : Wf (prodCs a b) := by
  have row : ∀ v, Allocated (prodCs a b) v → RowOk (prodCs a b) [(v, 1)] := fun v hv => ⟨by simp [DistinctWires], by simpa using hv⟩
  refine ⟨rfl, fun k hk => ?_⟩
  simp only [prodCs, List.mem_cons, List.not_mem_nil, or_false] at hk
  rcases hk with rfl | rfl <;> exact ⟨row _ (by simp [Allocated, prodCs]), row _ (by simp [Allocated, prodCs, Wire.ONE]),
    row _ (by simp [Allocated, prodCs])⟩

theorem prodCs_sat (a b : K) : Satisfies (stored (prodCs a b)) (prodCs a b) := by
  refine ⟨by simp [stored, CS.get, Row.readWire, Wire.ONE, prodCs], fun k hk => ?_⟩
  simp only [prodCs, List.mem_cons, List.not_mem_nil, or_false] at hk
  rcases hk with rfl | rfl <;> simp [Holds, rowVal, stored, CS.get, Row.readWire, Wire.ONE, prodCs]

theorem prodCs_len (a b : K) : (prodCs a b).x.length + (prodCs a b).w.length < 2 ^ 64 := by simp [prodCs]
theorem prodCs_tail (a b : K) : (prodCs a b).x.tail = [a * b] := rfl
theorem prodCs_shape (a b c d : K) : SameShape (prodCs a b) (prodCs c d) := ⟨rfl, rfl, rfl⟩
theorem prodCs_m (a b : K) : (prodCs a b).m = 2 := rfl

theorem exists_notMem [DecidableEq K] (s : Finset K) (h : s.card ≤ 1) : ∃ x, x ∉ s := by
  by_contra hn
  push Not at hn
  have h2 := Finset.card_le_card (fun x _ => hn x : ({0, 1} : Finset K) ⊆ s)
  rw [Finset.card_pair zero_ne_one] at h2
  omega

end demo

/-- Non-vacuity: there is toxic waste for which the setup returns keys, and the prover's proof that it knows two factors
of `a·b` verifies, for every `a`, `b` and coins. -/
example : ∃ (t : Trapdoor FrW) (p : SParams FqV (Fq2 FqV)) (vk : CPVKey), bnSetup t (prodCs 0 0) = some (.ok (p, vk)) ∧
    ∀ a b r s : FrW, ∃ π, bnProve p r s (prodCs a b) = some (.ok π) ∧ bnVerify vk π [a * b] = some (.ok ()) := by
  obtain ⟨bad, hb, H⟩ := C80_runs_partial (prodCs 0 0) (prodCs_wf 0 0) (prodCs_m 0 0).ge (by rw [prodCs_m]; decide) (prodCs_len 0 0)
  obtain ⟨tau, ht⟩ := exists_notMem bad (by rw [prodCs_m] at hb; exact hb)
  obtain ⟨p, vk, h1, -⟩ := H ⟨1, 1, 1, 1, tau⟩ ht one_ne_zero one_ne_zero
  refine ⟨_, p, vk, h1, fun a b r s => ?_⟩
  rw [← prodCs_tail a b]
  exact C80_completeness_partial (prodCs_shape 0 0 a b) (prodCs_wf a b) 1 (prodCs_m a b) (prodCs_sat a b) (prodCs_len 0 0) h1 r s

end Kogarashi.Props
