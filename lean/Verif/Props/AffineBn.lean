import Verif.Props.Affine
import Verif.Props.Groth16Struct
import Verif.Nova.StructProof
import Verif.Props.Random

/-!
# Properties C102 and C103 over BN254
-/

namespace Kogarashi.Props

open Kogarashi Spec Tower Curve Kogarashi.Field Limbs Groth16 Nova

/-- The toxic waste for which the code's verifier, on structs holding the key and the prover's points, accepts. -/
def AcceptingBn (g1 : BG1) (g2 : BG2) (cs0 : CS FrV) (P : AffineProver FrV) (inputs : List L4) (t : Trapdoor FrV) : Prop :=
  ∃ p pvk, setup frS (denote frParams frRootOfUnity) 7 g1 g2 bnE t cs0 = some (.ok (p, pvk)) ∧
    ∃ vk π, KeyRep vk p.vk ∧ ProofRep π (P.prove g1 g2 p) ∧ (vk.prepare.bind fun k => cVerify k π inputs) = some (.ok ())

/-- **C102 on BN254**, for circuits with a power of two constraints.  Missing: other numbers of constraints, for which it is false
(`C102_knowledge_refuted`). -/
theorem C102_bn254_partial {g1 : BG1} {g2 : BG2} (h1 : g1 ≠ 0) (h2 : g2 ≠ 0) {cs0 : CS FrV} (wf : Wf cs0) {k : Nat} (hm : cs0.m = 2 ^ k)
    (P : AffineProver FrV) {inputs : List L4} (hi : ∀ i ∈ inputs, Canonical frParams i)
    (hmany : (2 * 2 ^ k + 6) * frParams.m ^ 4 < Nat.card {t // AcceptingBn g1 g2 cs0 P inputs t}) :
    Satisfies (assign (inputs.map (denote frParams)) P.c.l) cs0 := by
  have : Finite (Trapdoor FrV) := Finite.of_injective (fun t : Trapdoor FrV => (t.alpha, t.beta, t.gamma, t.delta, t.tau)) (by
    rintro ⟨a, b, c, d, t⟩ ⟨a', b', c', d', t'⟩ hh
    simp only [Prod.mk.injEq] at hh
    obtain ⟨rfl, rfl, rfl, rfl, rfl⟩ := hh
    rfl)
  refine C102_knowledge_partial (e := bnE) C43_env_bn254 (bnE_ne h1 h2) hm P _
    (lt_of_lt_of_le ?_ (Nat.card_mono (s := {t | AcceptingBn g1 g2 cs0 P inputs t}) (Set.toFinite _) ?_)) (g1 := g1) (g2 := g2)
  · rw [Nat.card_zmod]
    exact hmany
  · rintro t ⟨p, pvk, hs, vk, π, hk, hπ, hv⟩
    obtain ⟨f, -, key⟩ := setup_keys hs
    have hne : vk.ic ≠ [] := by
      intro h0
      have h3 := hk.ic
      rw [h0] at h3
      have h4 : p.vk.ic = [] := List.forall₂_nil_left_iff.mp h3
      have h5 := key.icLen
      rw [setup_prepared hs] at h5
      simp only [VKey.prepare, h4, List.length_nil] at h5
      have h6 := wf.one
      have h7 : cs0.x = [] := List.length_eq_zero_iff.mp h5.symm
      rw [h7] at h6
      simp at h6
    rw [C75_refines hk hne hπ hi] at hv
    refine ⟨p, pvk, hs, ?_⟩
    rw [setup_prepared hs]
    exact Option.some.inj hv

section Malleable
variable {F G1 G2 GT : Type} [_root_.Field F] [DecidableEq F]
variable [AddCommGroup G1] [Module F G1] [AddCommGroup G2] [Module F G2] [AddCommGroup GT] [Module F GT]
variable [DecidableEq G1] [DecidableEq G2] [DecidableEq GT] {e : G1 →ₗ[F] G2 →ₗ[F] GT}

/-- **C103 is false of the protocol.** Whoever holds an accepted proof makes others for the same inputs from the proof and the key alone:
by scaling the first two elements inversely, and by shifting the second along `δ`. -/
theorem C103_unique_refuted (vk : VKey G1 G2) (π : Groth16.Proof G1 G2) (x : List F) (h : verify e (vk.prepare e) π x = .ok ()) :
    (∀ u : F, u ≠ 0 → verify e (vk.prepare e) ⟨u • π.a, u⁻¹ • π.b, π.c⟩ x = .ok ()) ∧
    (∀ s : F, verify e (vk.prepare e) ⟨π.a, π.b + s • vk.deltaG2, π.c + s • π.a⟩ x = .ok ()) ∧
    (∀ u : F, π.a ≠ 0 → u ≠ 1 → u • π.a ≠ π.a) ∧ (∀ s : F, vk.deltaG2 ≠ 0 → s ≠ 0 → π.b + s • vk.deltaG2 ≠ π.b) := by
  obtain ⟨hl, heq⟩ := (C45_verify (e := e) vk π x).2.1.mp h
  refine ⟨fun u hu => (C45_verify (e := e) vk _ x).2.1.mpr ⟨hl, ?_⟩, fun s => (C45_verify (e := e) vk _ x).2.1.mpr ⟨hl, ?_⟩, fun u ha hu h0 => ?_,
    fun s hd hs h0 => ?_⟩
  · simp only [map_smul, LinearMap.smul_apply, smul_smul]
    rw [inv_mul_cancel₀ hu, one_smul]
    exact heq
  · simp only [map_add, map_smul, LinearMap.add_apply, LinearMap.smul_apply, heq]
    abel
  · have : (u - 1) • π.a = 0 := by rw [sub_smul, one_smul, h0, sub_self]
    rcases smul_eq_zero.mp this with h3 | h3
    · exact hu (sub_eq_zero.mp h3)
    · exact ha h3
  · exact (smul_ne_zero hs hd) (by simpa using h0)

/-- **C103, what holds.** Two elements of an accepted proof determine the third: any change changes at least two. -/
theorem C103_unique_partial (hnd : ∀ P Q, e P Q = 0 → P = 0 ∨ Q = 0) {vk : VKey G1 G2} (hd : vk.deltaG2 ≠ 0) {π ρ : Groth16.Proof G1 G2} {x : List F}
    (h : verify e (vk.prepare e) π x = .ok ()) (k : verify e (vk.prepare e) ρ x = .ok ()) :
    (π.a = ρ.a → π.b = ρ.b → π = ρ) ∧ (π.a = ρ.a → π.c = ρ.c → π.a ≠ 0 → π = ρ) ∧ (π.b = ρ.b → π.c = ρ.c → π.b ≠ 0 → π = ρ) := by
  obtain ⟨-, h⟩ := (C45_verify (e := e) vk π x).2.1.mp h
  obtain ⟨-, k⟩ := (C45_verify (e := e) vk ρ x).2.1.mp k
  obtain ⟨a, b, c⟩ := π
  obtain ⟨a', b', c'⟩ := ρ
  simp only at h k
  refine ⟨?_, ?_, ?_⟩
  · rintro rfl rfl
    have : e (c - c') vk.deltaG2 = 0 := by
      rw [map_sub, LinearMap.sub_apply, sub_eq_zero]
      exact add_left_cancel (h.symm.trans k)
    rw [sub_eq_zero.mp ((hnd _ _ this).resolve_right hd)]
  · rintro rfl rfl ha
    have : e a (b - b') = 0 := by rw [map_sub, h, k, sub_self]
    rw [sub_eq_zero.mp ((hnd _ _ this).resolve_left ha)]
  · rintro rfl rfl hb
    have : e (a - a') b = 0 := by rw [map_sub, LinearMap.sub_apply, h, k, sub_self]
    rw [sub_eq_zero.mp ((hnd _ _ this).resolve_right hb)]

end Malleable

theorem forall₂_aff_exists : ∀ L : List BG1, ∃ l, List.Forall₂ (AffRep g1B) l L
  | [] => ⟨[], .nil⟩
  | P :: L => by
    obtain ⟨p, hp⟩ := aff_exists g1B P
    obtain ⟨l, hl⟩ := forall₂_aff_exists L
    exact ⟨p :: l, .cons hp hl⟩

/-- Structs holding any given key and proof exist. -/
theorem structs_exist (V : VKey BG1 BG2) (ρ : Groth16.Proof BG1 BG2) : ∃ vk π, KeyRep vk V ∧ ProofRep π ρ := by
  obtain ⟨a, ha⟩ := aff_exists g1B V.alphaG1
  obtain ⟨b, hb⟩ := aff_exists g2B (V.betaG2 : (curve g2B).Point)
  obtain ⟨c, hc⟩ := aff_exists g2B (V.gammaG2 : (curve g2B).Point)
  obtain ⟨d, hd⟩ := aff_exists g2B (V.deltaG2 : (curve g2B).Point)
  obtain ⟨l, hl⟩ := forall₂_aff_exists V.ic
  obtain ⟨x, hx⟩ := aff_exists g1B ρ.a
  obtain ⟨y, hy⟩ := aff_exists g2B (ρ.b : (curve g2B).Point)
  obtain ⟨z, hz⟩ := aff_exists g1B ρ.c
  exact ⟨⟨a, b, c, d, l⟩, ⟨x, y, z⟩, ⟨ha, hb, hc, hd, hl⟩, ⟨hx, hy, hz⟩⟩

/-- **C102 on BN254**: the premise of `C102_bn254_partial` is met.  For every satisfied circuit with a power of two constraints the
honest prover is accepted for all but a small part of the toxic waste. -/
theorem C102_bn254_many {g1 : BG1} {g2 : BG2} (h1 : g1 ≠ 0) (h2 : g2 ≠ 0) {cs : CS FrV} (wf : Wf cs) {k : Nat} (hm : cs.m = 2 ^ k)
    (hk : 1 ≤ k) (hS : k ≤ frS) (hsat : Satisfies (stored cs) cs) {inputs : List L4} (hi : ∀ i ∈ inputs, Canonical frParams i)
    (hx : inputs.map (denote frParams) = cs.x.tail) :
    ∃ P : AffineProver FrV, P.c.l = cs.w ∧ (frParams.m - 2 ^ k) * (frParams.m - 1) ^ 2 * frParams.m ^ 2 ≤
      Nat.card {t // AcceptingBn g1 g2 cs P inputs t} := by
  have : Finite (Trapdoor FrV) := Finite.of_injective (fun t : Trapdoor FrV => (t.alpha, t.beta, t.gamma, t.delta, t.tau)) (by
    rintro ⟨a, b, c, d, t⟩ ⟨a', b', c', d', t'⟩ hh
    simp only [Prod.mk.injEq] at hh
    obtain ⟨rfl, rfl, rfl, rfl, rfl⟩ := hh
    rfl)
  obtain ⟨P, hP, hc⟩ := C102_many (e := bnE) C43_env_bn254 h1 h2 wf hm hk hS hsat
  rw [Nat.card_zmod] at hc
  refine ⟨P, hP, hc.trans (Nat.card_mono (t := {t | AcceptingBn g1 g2 cs P inputs t}) (Set.toFinite _) ?_)⟩
  rintro t ⟨p, pvk, hs, hv⟩
  obtain ⟨vk, π, hk', hπ⟩ := structs_exist p.vk (P.prove g1 g2 p)
  refine ⟨p, pvk, hs, vk, π, hk', hπ, ?_⟩
  obtain ⟨f, -, key⟩ := setup_keys hs
  have hne : vk.ic ≠ [] := by
    intro h0
    have h3 := hk'.ic
    rw [h0] at h3
    have h4 : p.vk.ic = [] := List.forall₂_nil_left_iff.mp h3
    have h5 := key.icLen
    rw [setup_prepared hs] at h5
    simp only [VKey.prepare, h4, List.length_nil] at h5
    have h6 := wf.one
    have h7 : cs.x = [] := List.length_eq_zero_iff.mp h5.symm
    rw [h7] at h6
    simp at h6
  rw [C75_refines hk' hne hπ hi, hx, ← setup_prepared hs, hv]

/-- **C103 is false of the code.** For every key and accepted proof with a nonzero first element there is an accepted proof with another. -/
theorem C103_bn254_refuted {vk : CVKey} {V : VKey BG1 BG2} (hk : KeyRep vk V) (hne : vk.ic ≠ []) {π : CProof} {ρ : Groth16.Proof BG1 BG2}
    (hπ : ProofRep π ρ) {inputs : List L4} (hi : ∀ i ∈ inputs, Canonical frParams i) (ha : ρ.a ≠ 0)
    (h : (vk.prepare.bind fun k => cVerify k π inputs) = some (.ok ())) :
    ∃ π' ρ', ProofRep π' ρ' ∧ ρ'.a ≠ ρ.a ∧ π'.a ≠ π.a ∧ (vk.prepare.bind fun k => cVerify k π' inputs) = some (.ok ()) := by
  rw [C75_refines hk hne hπ hi] at h
  obtain ⟨m1, -, m3, -⟩ := C103_unique_refuted (e := bnE) V ρ _ (Option.some.inj h)
  have hd : ((2 : FrV) • ρ.a) ≠ ρ.a := m3 2 ha (fun h2 => by
    have h3 : (1 : FrV) = 0 := by linear_combination h2
    exact one_ne_zero h3)
  have hρ : ProofRep ⟨affOf ((2 : FrV) • ρ.a), affOf (((2 : FrV)⁻¹ • ρ.b : BG2) : (curve g2B).Point), π.c⟩ ⟨(2 : FrV) • ρ.a, (2 : FrV)⁻¹ • ρ.b, ρ.c⟩ :=
    ⟨affOf_rep _, affOf_rep _, hπ.c⟩
  refine ⟨_, _, hρ, hd, fun h0 => hd ?_, ?_⟩
  · have h1 := hπ.a
    rw [← h0] at h1
    exact affRep_unique hρ.a h1
  · rw [C75_refines hk hne hρ hi, m1 2 fr_two_ne_zero]

/-- BN254's pairing is as `C103_unique_partial` asks, and its verifier accepts a proof with a nonzero first element. -/
example : (∀ P Q, bnE P Q = 0 → P = 0 ∨ Q = 0) ∧ g1Point ≠ 0 ∧ (g2Base : BG2) ≠ 0 ∧
    verify bnE (VKey.prepare bnE demoBnPoints) ⟨g1Point, g2Base, g1Point + g1Point⟩ [-3] = .ok () := by
  refine ⟨fun P Q h => ?_, ?_, ?_, ?_⟩
  · by_contra hn
    rw [not_or] at hn
    exact bnE_ne hn.1 hn.2 h
  · exact g1Point_ne
  · exact g2Base_ne
  · unfold demoBnPoints
    exact demo_verify bnE g1Point g2Base (by ring)

end Kogarashi.Props
