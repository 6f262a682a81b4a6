import Verif.Props.ProgramsPad

/-!
# C43, C46, C47, C80, C102, C104, for circuits of every size, padded

The properties of Groth16 that fail for some numbers of constraints hold for every circuit whose author adds trivial equations until the number
is a power of two.
-/

namespace Kogarashi

open Spec

/-- A circuit whose `synthesize` ends with `n` calls of `enforce_eq` (`zkstd/src/circuit/gadget/field.rs:183-185`) on the constant zero. -/
def padCs {F : Type} [_root_.Field F] [DecidableEq F] (cs : CS F) (n : Nat) : CS F :=
  { cs with cons := cs.cons ++ List.replicate n ⟨Circ.const 0, Row.one, Circ.const 0⟩ }

namespace Props

open Kogarashi Spec Groth16 Polynomial Kogarashi.Field

section
variable {F : Type} [_root_.Field F] [DecidableEq F]

/-- `padCs` is what the calls do. -/
theorem padCs_calls (cs : CS F) (n : Nat) :
    (List.replicate n (Circ.enforceEq (F := F) (Circ.const 0) (Circ.const 0))).foldl (fun s c => s.bind fun r => c r.2) (some ((), cs)) =
      some ((), padCs cs n) := by
  induction n with
  | zero => simp [padCs]
  | succ n ih =>
    rw [List.replicate_succ', List.foldl_append, ih]
    show some _ = some _
    simp only [padCs, CS.mulGate, CS.append, List.append_assoc]
    rw [← List.replicate_succ']

/-- Padding changes neither the assignments that satisfy the circuit nor the wires. -/
theorem padCs_sat (cs : CS F) (n : Nat) (z : Assignment F) : Satisfies z (padCs cs n) ↔ Satisfies z cs := by
  constructor
  · rintro ⟨h, h'⟩
    exact ⟨h, fun c hc => h' c (List.mem_append_left _ hc)⟩
  · rintro ⟨h, h'⟩
    refine ⟨h, fun c hc => ?_⟩
    rcases List.mem_append.mp hc with hc | hc
    · exact h' c hc
    · rw [List.eq_of_mem_replicate hc]
      simp [Holds, rowVal, Circ.const]

theorem padCs_wf {cs : CS F} (wf : Wf cs) (n : Nat) : Wf (padCs cs n) := by
  have ok : ∀ {r : Row F}, RowOk cs r → RowOk (padCs cs n) r := fun h => ⟨h.distinct, h.allocated⟩
  refine ⟨wf.one, fun c hc => ?_⟩
  rcases List.mem_append.mp hc with hc | hc
  · exact ⟨ok (wf.rows c hc).a, ok (wf.rows c hc).b, ok (wf.rows c hc).c⟩
  · rw [List.eq_of_mem_replicate hc]
    exact ⟨ok (Circ.const_ok wf 0), ok (RowOk.one wf), ok (Circ.const_ok wf 0)⟩

theorem padCs_shape {cs cs' : CS F} (sh : SameShape cs cs') (n : Nat) : SameShape (padCs cs n) (padCs cs' n) :=
  ⟨sh.x, sh.w, by simp only [padCs, sh.cons]⟩

/-- The logarithm of the number of constraints after padding: that of the domain, and at least one. -/
def padLog (cs : CS F) : Nat := max 1 (domainLog cs.m)

/-- The number of trivial equations to add. -/
def padding (cs : CS F) : Nat := 2 ^ padLog cs - cs.m

theorem padCs_m (cs : CS F) : (padCs cs (padding cs)).m = 2 ^ padLog cs := by
  have := (m_le cs.m).trans (Nat.pow_le_pow_right (by norm_num : 1 ≤ 2) (le_max_right 1 (domainLog cs.m)))
  have h : (padCs cs (padding cs)).m = cs.m + (2 ^ padLog cs - cs.m) := by simp [padCs, CS.m, padding]
  rw [h]
  unfold padLog
  omega

omit [_root_.Field F] [DecidableEq F] in
theorem padding_same {cs cs' : CS F} (sh : SameShape cs cs') : padding cs' = padding cs ∧ padLog cs' = padLog cs := by
  have : cs'.m = cs.m := by rw [CS.m, CS.m, sh.cons]
  unfold padding padLog
  rw [this]
  exact ⟨rfl, rfl⟩

theorem padCs_pow {cs cs' : CS F} (sh : SameShape cs cs') : (padCs cs' (padding cs)).m = 2 ^ padLog cs := by
  rw [← (padding_same sh).1, ← (padding_same sh).2]
  exact padCs_m cs'

theorem violated {cs : CS F} (wf : Wf cs) (n : Nat) (h : ¬ Satisfies (stored cs) cs) : ∃ c ∈ (padCs cs n).cons, ¬ Holds (stored (padCs cs n)) c := by
  by_contra hc
  push Not at hc
  exact h ⟨wf.stored_one, fun c hc' => hc c (List.mem_append_left _ hc')⟩
end

section
variable {F G1 G2 GT : Type} [_root_.Field F] [DecidableEq F]
variable [AddCommGroup G1] [Module F G1] [AddCommGroup G2] [Module F G2] [AddCommGroup GT] [Module F GT]
variable [DecidableEq G1] [DecidableEq G2] [DecidableEq GT]
variable {S : Nat} {root gen : F} {g1 : G1} {g2 : G2} {e : G1 →ₗ[F] G2 →ₗ[F] GT}

/-- **C44, C43, C47, padded circuits.** For every circuit, padded: the setup succeeds for all but `2^k - 1` values of `τ` (with room for the domain);
every satisfying assignment gives an accepted proof; every other one a rejected proof, for all but `2·2^k - 2` values of `τ`. -/
theorem C43_padded (env : Env S root gen) (h1 : g1 ≠ 0) (h2 : g2 ≠ 0) (he : e g1 g2 ≠ 0) {cs0 cs : CS F} (sh : SameShape cs0 cs) (wf0 : Wf cs0) (wf : Wf cs) :
    (∀ z, Satisfies z (padCs cs (padding cs0)) ↔ Satisfies z cs) ∧
    (padLog cs0 ≤ S → ∃ bad : Finset F, bad.card ≤ 2 ^ padLog cs0 - 1 ∧ ∀ t : Trapdoor F, t.tau ∉ bad → t.gamma ≠ 0 → t.delta ≠ 0 →
      ∃ p vk, setup S root gen g1 g2 e t (padCs cs0 (padding cs0)) = some (.ok (p, vk))) ∧
    (Satisfies (stored cs) cs → ∀ t p vk, setup S root gen g1 g2 e t (padCs cs0 (padding cs0)) = some (.ok (p, vk)) →
      ∀ r s, ∃ π, createProof S root gen p r s (padCs cs (padding cs0)) = some (.ok π) ∧ verify e vk π cs.x.tail = .ok ()) ∧
    (¬ Satisfies (stored cs) cs → ∃ bad : Finset F, bad.card ≤ 2 * 2 ^ padLog cs0 - 2 ∧ ∀ t : Trapdoor F, t.tau ∉ bad → ∀ p vk,
      setup S root gen g1 g2 e t (padCs cs0 (padding cs0)) = some (.ok (p, vk)) →
      ∀ r s π, createProof S root gen p r s (padCs cs (padding cs0)) = some (.ok π) → verify e vk π cs.x.tail ≠ .ok ()) := by
  have hm := padCs_m cs0
  have hm' := padCs_pow sh
  have sh' := padCs_shape sh (padding cs0)
  have wf' := padCs_wf wf (padding cs0)
  refine ⟨padCs_sat cs _, fun hS => ?_, fun hsat t p vk hs r s => ?_, fun hsat => ?_⟩
  · obtain ⟨bad, hb, H⟩ := C44_runs_partial (e := e) env h1 h2 _ (padCs_wf wf0 (padding cs0))
      (by rw [hm]; exact (Nat.pow_le_pow_right (by norm_num) (le_max_left _ _) : 2 ^ 1 ≤ 2 ^ padLog cs0))
      (by rw [hm]; exact Nat.pow_le_pow_right (by norm_num) hS)
    rw [hm] at hb
    refine ⟨bad, hb, fun t a b c => ?_⟩
    obtain ⟨p, vk, h, -⟩ := H t a b c
    exact ⟨p, vk, h⟩
  · exact C43_completeness_partial env h1 h2 sh' wf' _ hm' ((padCs_sat cs _ _).mpr hsat) hs r s
  · obtain ⟨c, hc, hv⟩ := violated wf (padding cs0) hsat
    exact C47_unsat_partial env h1 h2 he sh' wf' _ hm' hc hv

/-- **C104, C46, padded circuits.** For every circuit, padded, and every satisfying assignment the prover's proofs are the simulator's, up to a
bijection of the coins; so two assignments with the same public inputs give the same proofs. -/
theorem C104_padded (env : Env S root gen) (h1 : g1 ≠ 0) (h2 : g2 ≠ 0) (he : e g1 g2 ≠ 0) {cs0 cs : CS F} (sh : SameShape cs0 cs) (wf : Wf cs)
    (hsat : Satisfies (stored cs) cs) {t : Trapdoor F} {p : Groth16.Params G1 G2} {vk : PVKey G1 G2 GT}
    (hs : setup S root gen g1 g2 e t (padCs cs0 (padding cs0)) = some (.ok (p, vk))) :
    ∃ φ : F × F ≃ F × F, ∀ c, createProof S root gen p c.1 c.2 (padCs cs (padding cs0)) = some (.ok (simulate g1 g2 t p.vk cs.x.tail (φ c))) :=
  C104_simulation_partial env h1 h2 he (padCs_shape sh _) (padCs_wf wf _) _ (padCs_pow sh) ((padCs_sat cs _ _).mpr hsat) hs

/-- **C102, padded circuits.** For every circuit, padded: a prover who publishes fixed combinations of the parameters and is accepted for more than
`(2·2^k + 6)·|F|⁴` values of the toxic waste knows a witness of the original circuit. -/
theorem C102_padded [Fintype F] (env : Env S root gen) (he : e g1 g2 ≠ 0) (cs : CS F) (P : AffineProver F) (x : List F)
    (hmany : (2 * 2 ^ padLog cs + 6) * Nat.card F ^ 4 < Nat.card {t // Accepting S root gen g1 g2 e (padCs cs (padding cs)) P x t}) :
    Satisfies (assign x P.c.l) cs :=
  (padCs_sat cs _ _).mp (C102_knowledge_partial env he (padCs_m cs) P x hmany)
end

/-- **C80, padded circuits on BN254**, with the code's own structs; the wires fit `usize`. -/
theorem C80_padded {cs0 cs : CS FrW} (sh : SameShape cs0 cs) (wf0 : Wf cs0) (wf : Wf cs) (hl : cs0.x.length + cs0.w.length < 2 ^ 64) :
    (padLog cs0 ≤ frS → ∃ bad : Finset FrW, bad.card ≤ 2 ^ padLog cs0 - 1 ∧ ∀ t : Trapdoor FrW, t.tau ∉ bad → t.gamma ≠ 0 → t.delta ≠ 0 →
      ∃ p vk, bnSetup t (padCs cs0 (padding cs0)) = some (.ok (p, vk))) ∧
    (Satisfies (stored cs) cs → ∀ t p vk, bnSetup t (padCs cs0 (padding cs0)) = some (.ok (p, vk)) →
      ∀ r s, ∃ π, bnProve p r s (padCs cs (padding cs0)) = some (.ok π) ∧ bnVerify vk π cs.x.tail = some (.ok ())) ∧
    (¬ Satisfies (stored cs) cs → ∃ bad : Finset FrW, bad.card ≤ 2 * 2 ^ padLog cs0 - 2 ∧ ∀ t : Trapdoor FrW, t.tau ∉ bad → ∀ p vk,
      bnSetup t (padCs cs0 (padding cs0)) = some (.ok (p, vk)) →
      ∀ r s π, bnProve p r s (padCs cs (padding cs0)) = some (.ok π) → bnVerify vk π cs.x.tail = some (.error .proofVerificationError)) := by
  have hm' := padCs_pow sh
  have sh' := padCs_shape sh (padding cs0)
  have wf' := padCs_wf wf (padding cs0)
  refine ⟨fun hS => ?_, fun hsat t p vk hs r s => ?_, fun hsat => ?_⟩
  · obtain ⟨bad, hb, H⟩ := (C43_padded (e := bnEW) envW g1Point_ne g2Base_ne bnEW_base sh wf0 wf).2.1 hS
    refine ⟨bad, hb, fun t a b c => ?_⟩
    obtain ⟨p, vk, h⟩ := H t a b c
    have h' := C80_setup_refines t (padCs cs0 (padding cs0))
    rw [h] at h'
    obtain ⟨⟨p', vk'⟩, h1, -⟩ := h'.right
    exact ⟨p', vk', h1⟩
  · exact C80_completeness_partial sh' wf' _ hm' ((padCs_sat cs _ _).mpr hsat) hl hs r s
  · obtain ⟨c, hc, hv⟩ := violated wf (padding cs0) hsat
    exact C80_unsat_partial sh' wf' _ hm' hl hc hv

/-- `ones3`, whose honest proofs are rejected (`C80_completeness_refuted`), gets one more equation, and then its proofs are accepted. -/
example : padding (ones3 : CS FrW) = 1 ∧ padLog (ones3 : CS FrW) = 2 ∧ padLog (ones3 : CS FrW) ≤ frS ∧ Wf (ones3 : CS FrW) ∧
    (ones3 : CS FrW).x.length + (ones3 : CS FrW).w.length < 2 ^ 64 := by
  have h : domainLog (ones3 : CS FrW).m = 2 := domainLog_three
  refine ⟨?_, ?_, ?_, C80_completeness_refuted.1, by simp [ones3, consts3]⟩
  · unfold padding padLog
    rw [h]; rfl
  · unfold padLog
    rw [h]; rfl
  · unfold padLog
    rw [h]; decide

end Props

end Kogarashi
