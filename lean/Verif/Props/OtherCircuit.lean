import Verif.Groth16.Synth
import Verif.Props.Affine
import Verif.Props.Keys

/-!
# Property C117: a Groth16 key used with another circuit
-/

namespace Kogarashi.Props

open Kogarashi Spec Groth16 Polynomial Field

variable {F G1 G2 GT : Type} [_root_.Field F] [DecidableEq F]
variable [AddCommGroup G1] [Module F G1] [AddCommGroup G2] [Module F G2] [AddCommGroup GT] [Module F GT]
variable [DecidableEq G1] [DecidableEq G2] [DecidableEq GT]
variable {S : Nat} {root gen : F} {g1 : G1} {g2 : G2} {e : G1 →ₗ[F] G2 →ₗ[F] GT} {t : Trapdoor F}

/-- **C117, errors of the circuit.** An error that `synthesize` returns is what `setup` and `create_proof` return. -/
theorem C117_error {C : Type} (T : CircuitType F C) (err : GErr) :
    (T.synthesize T.default = .error err → T.setup S root gen g1 g2 e t = some (.error err)) ∧
    ∀ (p : Params G1 G2) (r s : F) (c : C), T.synthesize c = .error err → T.createProof S root gen p r s c = some (.error err) := by
  refine ⟨fun h => ?_, fun p r s c h => ?_⟩
  · unfold CircuitType.setup; rw [h]
  · unfold CircuitType.createProof; rw [h]

private theorem slice_some {α : Type} {v : List α} {n : Nat} (h : n ≤ v.length) : sliceFrom v n = some (v.drop n) := by
  unfold sliceFrom; rw [if_pos h]

private theorem slice_none {α : Type} {v : List α} {n : Nat} (h : ¬ n ≤ v.length) : sliceFrom v n = none := by
  unfold sliceFrom; rw [if_neg h]

/-- **C117, what `create_proof` answers** on a key made for `cs0` and a circuit `cs` with no relation to it: it panics exactly when `cs` has at most
one constraint, more than the field has room for, or more public inputs than `cs0` has wires; in every other case it returns a proof.  It
never returns an error. -/
theorem C117_run_partial (env : Env S root gen) (h1 : g1 ≠ 0) (h2 : g2 ≠ 0) {cs0 cs : CS F} (wf : Wf cs) {p : Params G1 G2} {vk : PVKey G1 G2 GT}
    (hs : setup S root gen g1 g2 e t cs0 = some (.ok (p, vk))) (r s : F) :
    (createProof S root gen p r s cs = none ↔ cs.m ≤ 1 ∨ 2 ^ S < cs.m ∨ cs0.x.length + cs0.w.length < cs.x.length) ∧
    ∀ err, createProof S root gen p r s cs ≠ some (.error err) := by
  have L := C114_lengths hs
  obtain ⟨f0, -, key⟩ := setup_keys hs
  have n1 : ¬ (p.vk.deltaG1 = 0 ∨ p.vk.deltaG2 = 0) := by
    rw [key.vkDelta1, key.vkDelta2]
    rintro (h | h)
    · rcases smul_eq_zero.mp h with h | h
      · exact key.delta h
      · exact h1 h
    · rcases smul_eq_zero.mp h with h | h
      · exact key.delta h
      · exact h2 h
  have hdom : (∃ f, Fft.new S root gen (domainLog cs.m) = some f) ↔ ¬ (cs.m ≤ 1 ∨ 2 ^ S < cs.m) := by
    rw [C40_new S root gen env.small env.two env.rootOk env.genOk]
    have a1 : 1 ≤ domainLog cs.m ↔ 2 ≤ cs.m := by
      constructor
      · intro h
        by_contra hc
        have : domainLog cs.m = 0 := Nat.clog_of_right_le_one (by omega) 2
        omega
      · exact fun h => Nat.clog_pos (by norm_num) h
    have a2 : domainLog cs.m ≤ S ↔ cs.m ≤ 2 ^ S := Nat.clog_le_iff_le_pow (by norm_num)
    rw [a1, a2]
    omega
  cases hf : Fft.new S root gen (domainLog cs.m) with
  | none =>
    have : cs.m ≤ 1 ∨ 2 ^ S < cs.m := by
      by_contra h
      obtain ⟨f, h'⟩ := hdom.mpr h
      rw [hf] at h'; cases h'
    have e : createProof S root gen p r s cs = none := by unfold createProof; rw [hf]; rfl
    rw [e]
    exact ⟨⟨fun _ => by tauto, fun _ => rfl⟩, fun _ h => by cases h⟩
  | some f =>
    have hm := hdom.mp ⟨f, hf⟩
    obtain ⟨q, q1, -, -⟩ := quotient_spec (env.domain hf) (env.coset' hf) (cs.matA.map (rowVal (stored cs))) (cs.matB.map (rowVal (stored cs)))
      (cs.matC.map (rowVal (stored cs)))
    by_cases hl : cs.x.length ≤ cs0.x.length + cs0.w.length
    · have la : cs.l ≤ p.a.length := by rw [L.2.2.2.1]; exact hl
      have lb : cs.l ≤ p.bG1.length := by rw [L.2.2.2.2.1]; exact hl
      have lc : cs.l ≤ p.bG2.length := by rw [L.2.2.2.2.2]; exact hl
      have : ∃ π, createProof S root gen p r s cs = some (.ok π) := by
        simp only [createProof, hf, evaluate_eq_some wf, q1, slice_some la, slice_some lb, slice_some lc, Option.bind_eq_bind, Option.bind_some,
          if_neg n1]
        exact ⟨_, rfl⟩
      obtain ⟨π, hπ⟩ := this
      rw [hπ]
      refine ⟨⟨(fun h => by cases h), fun h => ?_⟩, fun _ h => by cases h⟩
      rcases h with h | h | h
      · exact absurd (Or.inl h) hm
      · exact absurd (Or.inr h) hm
      · omega
    · have la : ¬ cs.l ≤ p.a.length := by rw [L.2.2.2.1]; exact hl
      have e : createProof S root gen p r s cs = none := by
        simp only [createProof, hf, evaluate_eq_some wf, q1, slice_none la, Option.bind_eq_bind, Option.bind_some, Option.bind_none]
      rw [e]
      exact ⟨⟨fun _ => by right; right; omega, fun _ => rfl⟩, fun _ h => by cases h⟩

/-- **C117 is false**: with the key for the circuit that says `1·1 = 1` three times, a proof for the circuit that says it twice is returned
without an error. -/
theorem C117_error_refuted (env : Env S root gen) (h1 : g1 ≠ 0) (h2 : g2 ≠ 0) {p : Params G1 G2} {vk : PVKey G1 G2 GT}
    (hs : setup S root gen g1 g2 e t (ones3 : CS F) = some (.ok (p, vk))) (r s : F) :
    (ones2 : CS F).m ≠ (ones3 : CS F).m ∧ ∃ π, createProof S root gen p r s (ones2 : CS F) = some (.ok π) := by
  have wf : Wf (ones2 : CS F) := by
    refine ⟨rfl, fun k hk => ?_⟩
    simp only [ones2, List.mem_cons, List.not_mem_nil, or_false, or_self] at hk
    subst hk
    have row : RowOk (ones2 : CS F) [(Wire.ONE, 1)] := ⟨by simp [DistinctWires], by simp [Allocated, Wire.ONE, ones2]⟩
    exact ⟨row, row, row⟩
  obtain ⟨H1, H2⟩ := C117_run_partial env h1 h2 wf hs r s
  refine ⟨(show (2 : Nat) ≠ 3 by decide), ?_⟩
  rcases hc : createProof S root gen p r s (ones2 : CS F) with _ | ⟨err | π⟩
  · have := H1.mp hc
    obtain ⟨f0, hf0, -⟩ := setup_keys hs
    have h2S : 3 ≤ 2 ^ S :=
      (Nat.clog_le_iff_le_pow (by norm_num)).mp ((C40_new S root gen env.small env.two env.rootOk env.genOk _).mp ⟨f0, hf0⟩).2
    have m2 : (ones2 : CS F).m = 2 := rfl
    have x1 : (ones2 : CS F).x.length = 1 := rfl
    have x3 : (ones3 : CS F).x.length = 1 := rfl
    rw [m2, x1, x3] at this
    omega
  · exact absurd hc (H2 err)
  · exact ⟨π, rfl⟩

private theorem combo_append {G : Type} [AddCommGroup G] [Module F G] : ∀ (x w : List F) (Ps : List G), x.length ≤ Ps.length →
    combo (x ++ w) Ps = combo x Ps + combo w (Ps.drop x.length)
  | [], w, Ps, _ => by simp [combo]
  | a :: x, w, [], h => by simp at h
  | a :: x, w, P :: Ps, h => by
    have := combo_append x w Ps (by simpa using h)
    unfold combo at this
    simp only [combo, List.cons_append, List.zipWith_cons_cons, List.sum_cons, this, List.length_cons, List.drop_succ_cons]
    abel

private theorem combo_map {G : Type} [AddCommGroup G] [Module F G] (s : F) : ∀ (x : List F) (Ps : List G),
    combo (x.map (s * ·)) Ps = s • combo x Ps
  | [], Ps => by simp [combo]
  | a :: x, [] => by simp [combo]
  | a :: x, P :: Ps => by
    have := combo_map s x Ps
    unfold combo at this
    simp only [combo, List.map_cons, List.zipWith_cons_cons, List.sum_cons, this, smul_add, mul_smul]

/-- Whatever the circuit and the parameters, what `create_proof` returns is a combination of the parameters with coefficients that the circuit
and the coins fix. -/
theorem C117_combination_partial (cs : CS F) (r s : F) :
    ∃ P : AffineProver F, P.c.l = cs.w ∧ ∀ (g1 : G1) (g2 : G2) (p : Params G1 G2) π,
      createProof S root gen p r s cs = some (.ok π) → π = P.prove g1 g2 p := by
  by_cases hq : ∃ f a b c q, Fft.new S root gen (domainLog cs.m) = some f ∧ cs.evaluate = some (a, b, c) ∧ quotient f a b c = some q
  · obtain ⟨f, a, b, c, q, hf, he, hq⟩ := hq
    refine ⟨⟨⟨0, 1, 0, r, [], [], [], cs.x ++ cs.w, []⟩, ⟨0, 1, 0, s, cs.x ++ cs.w⟩,
      ⟨0, s, r, s * r, [], q, cs.w, (cs.x ++ cs.w).map (s * ·), (cs.x ++ cs.w).map (r * ·)⟩⟩, rfl, fun g1 g2 p π h => ?_⟩
    by_cases la : cs.x.length ≤ p.a.length
    on_goal 2 => simp [createProof, hf, he, hq, slice_none (show ¬ cs.l ≤ p.a.length from la)] at h
    by_cases lb : cs.x.length ≤ p.bG1.length
    on_goal 2 => simp [createProof, hf, he, hq, slice_some (show cs.l ≤ p.a.length from la), slice_none (show ¬ cs.l ≤ p.bG1.length from lb)] at h
    by_cases lc : cs.x.length ≤ p.bG2.length
    on_goal 2 => simp [createProof, hf, he, hq, slice_some (show cs.l ≤ p.a.length from la), slice_some (show cs.l ≤ p.bG1.length from lb),
      slice_none (show ¬ cs.l ≤ p.bG2.length from lc)] at h
    simp only [createProof, hf, he, hq, slice_some (show cs.l ≤ p.a.length from la), slice_some (show cs.l ≤ p.bG1.length from lb),
      slice_some (show cs.l ≤ p.bG2.length from lc), Option.bind_eq_bind, Option.bind_some] at h
    split at h
    · cases h
    · have h := Except.ok.inj (Option.some.inj h)
      have c0 : ∀ {G : Type} [AddCommGroup G] [Module F G] (L : List G), combo ([] : List F) L = 0 := by intro G _ _ L; simp [combo]
      have ms : ∀ {G : Type} [AddCommGroup G] [Module F G] (L : List G) (c : List F), msmSum L c = combo c L := fun _ _ => rfl
      have hl : cs.l = cs.x.length := rfl
      rw [← h]
      simp only [AffineProver.prove, G1Comb.point, G2Comb.point, c0, combo_map, combo_append _ _ _ la, combo_append _ _ _ lb, combo_append _ _ _ lc, ms, hl]
      congr 1 <;> module
  · refine ⟨⟨⟨0, 0, 0, 0, [], [], [], [], []⟩, ⟨0, 0, 0, 0, []⟩, ⟨0, 0, 0, 0, [], [], cs.w, [], []⟩⟩, rfl, fun g1 g2 p π h => absurd ?_ hq⟩
    unfold createProof at h
    cases hf : Fft.new S root gen (domainLog cs.m) with
    | none => rw [hf] at h; cases h
    | some f =>
      cases he : cs.evaluate with
      | none => rw [hf, he] at h; cases h
      | some abc =>
        obtain ⟨a, b, c⟩ := abc
        cases hq : quotient f a b c with
        | none => rw [hf, he] at h; simp [hq] at h
        | some q => exact ⟨f, a, b, c, q, rfl, rfl, hq⟩

/-- The toxic waste for which a proof that `create_proof` makes for the circuit `cs` under the key of `cs0` is accepted for the inputs `x`. -/
def Confused (S : Nat) (root gen : F) (g1 : G1) (g2 : G2) (e : G1 →ₗ[F] G2 →ₗ[F] GT) (cs0 cs : CS F) (r s : F) (x : List F) (t : Trapdoor F) : Prop :=
  ∃ p vk π, setup S root gen g1 g2 e t cs0 = some (.ok (p, vk)) ∧ createProof S root gen p r s cs = some (.ok π) ∧ verify e vk π x = .ok ()

/-- **C117, for keys of circuits with a power of two constraints.** Proofs made for any other circuit are rejected, whatever the inputs, for all but
`(2n + 6)·|F|⁴` of the `|F|⁵` values of the toxic waste, unless the witness of that circuit satisfies the circuit of the key for those inputs.
Missing: other numbers of constraints, where proofs of false statements are accepted (`C47_unsat_refuted`), and that an error is reported. -/
theorem C117_rejected_partial [Fintype F] (env : Env S root gen) (he : e g1 g2 ≠ 0) {cs0 : CS F} {k : Nat} (hm : cs0.m = 2 ^ k) (cs : CS F)
    (r s : F) (x : List F) (hno : ¬ Satisfies (assign x cs.w) cs0) :
    Nat.card {t // Confused S root gen g1 g2 e cs0 cs r s x t} ≤ (2 * 2 ^ k + 6) * Nat.card F ^ 4 := by
  obtain ⟨P, hl, hP⟩ := C117_combination_partial (S := S) (root := root) (gen := gen) (G1 := G1) (G2 := G2) cs r s
  by_contra hcon
  apply hno
  rw [← hl]
  refine C102_knowledge_partial env he hm P x ((not_le.mp hcon).trans_le ?_)
  have : Finite (Trapdoor F) := by
    refine Finite.of_injective (fun t => (t.alpha, t.beta, t.gamma, t.delta, t.tau)) ?_
    rintro ⟨⟩ ⟨⟩ h
    simp only [Prod.mk.injEq] at h
    obtain ⟨rfl, rfl, rfl, rfl, rfl⟩ := h
    rfl
  refine Nat.card_le_card_of_injective (fun t => ⟨t.1, ?_⟩) ?_
  · obtain ⟨p, vk, π, a, b, c⟩ := t.2
    rw [hP g1 g2 p π b] at c
    exact ⟨p, vk, a, c⟩
  · intro a b h
    simp only [Subtype.mk.injEq] at h
    exact Subtype.ext h

/-! ### The hypotheses are met -/

/-- A key for the three-constraint circuit, and the proof that `create_proof` returns for the two-constraint one. -/
example : ∃ t p vk, setup 5 (28 : ZMod 97) 5 (1 : ZMod 97) (1 : ZMod 97) (LinearMap.mul (ZMod 97) (ZMod 97)) t ones3 = some (.ok (p, vk)) ∧
    ∀ r s, ∃ π, createProof 5 (28 : ZMod 97) 5 p r s ones2 = some (.ok π) := by
  obtain ⟨t, p, vk, h⟩ := demo_setup ones3 (consts3_wf _ _ _) (by decide) (by decide)
  exact ⟨t, p, vk, h, fun r s => (C117_error_refuted demoEnv one_ne_zero one_ne_zero h r s).2⟩

/-- A circuit with six public inputs makes `create_proof` panic under the key of a circuit with five wires. -/
example : ∃ (t : Trapdoor (ZMod 97)) (p : Params (ZMod 97) (ZMod 97)) (vk : PVKey (ZMod 97) (ZMod 97) (ZMod 97)),
    setup 5 (28 : ZMod 97) 5 1 1 (LinearMap.mul (ZMod 97) (ZMod 97)) t demoG = some (.ok (p, vk)) ∧
    ∀ r s, createProof 5 (28 : ZMod 97) 5 p r s { ones2 with x := [1, 2, 3, 4, 5, 6] } = none := by
  obtain ⟨t, p, vk, h⟩ := demo_setup demoG (demoG_wf [2, 3] rfl) (by decide) (by decide)
  refine ⟨t, p, vk, h, fun r s => (C117_run_partial demoEnv one_ne_zero one_ne_zero ?_ h r s).1.mpr (Or.inr (Or.inr (by decide)))⟩
  refine ⟨rfl, fun k hk => ?_⟩
  simp only [ones2, List.mem_cons, List.not_mem_nil, or_false, or_self] at hk
  subst hk
  have row : RowOk ({ ones2 with x := [1, 2, 3, 4, 5, 6] } : CS (ZMod 97)) [(Wire.ONE, 1)] :=
    ⟨by simp [DistinctWires], by simp [Allocated, Wire.ONE]⟩
  exact ⟨row, row, row⟩

/-- The witness of the two-constraint circuit, which is empty, does not satisfy the demonstration circuit. -/
example : ¬ Satisfies (assign [6, 9] (ones2 : CS (ZMod 97)).w) demoG := by
  intro h
  have := h.2 (Constraint.mk [(.wit 0, 1)] [(.wit 1, 1)] [(.inst 1, 1)]) (by simp [demoG])
  exact absurd this (by unfold Holds; decide)

/-- A circuit that refuses odd values. -/
example : ∃ T : CircuitType (ZMod 97) Nat, T.synthesize T.default = .ok ones2 ∧ T.synthesize 1 = .error .proofVerificationError :=
  ⟨⟨0, fun n => if n % 2 = 1 then .error .proofVerificationError else .ok ones2⟩, rfl, rfl⟩

end Kogarashi.Props
