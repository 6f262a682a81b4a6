import Verif.Props.Padding

/-!
# C35, C36, more: exactly what `is_neq` lets a prover claim, and what an unbound public value means for Groth16
-/

namespace Kogarashi.Props

open Kogarashi Spec Groth16 Polynomial Kogarashi.Field

section
variable {F : Type} [_root_.Field F] [DecidableEq F]

/-- **C35, `is_neq` exactly.** From an assignment that satisfies the circuit so far, the flag can be given the value `r` exactly if the two values
differ or `r = 0`; the flag `is_eq` returns can be given every value. -/
theorem C35_exact {cs : CS F} (wf : Wf cs) {x y : Row F} (hx : RowOk cs x) (hy : RowOk cs y) :
    (∃ out cs', Circ.isNeq x y cs = some (out, cs') ∧ ∀ z, Satisfies z cs → ∀ r,
      ((∃ z', AgreeOn cs z z' ∧ Satisfies z' cs' ∧ z' out = r) ↔ rowVal z x ≠ rowVal z y ∨ r = 0)) ∧
    ∃ out cs', Circ.isEq x y cs = some (out, cs') ∧ ∀ z, Satisfies z cs → ∀ r, ∃ z', AgreeOn cs z z' ∧ Satisfies z' cs' ∧ z' out = r := by
  obtain ⟨⟨o, c, e, -, -, im⟩, ⟨o2, c2, e2, -, -, -⟩, -⟩ := C35_honest_partial wf hx hy wf.alloc_one wf.alloc_one
  refine ⟨⟨o, c, e, fun z hz r => ⟨?_, ?_⟩⟩, o2, c2, e2, fun z hz r => ?_⟩
  · rintro ⟨z', ag, hs, rfl⟩
    by_cases h : rowVal z x = rowVal z y
    · refine Or.inr ((im.sound z' hs).2 ?_)
      rw [← Row.rowVal_congr (fun e he => ag _ (hx.allocated e he)), ← Row.rowVal_congr (fun e he => ag _ (hy.allocated e he)), h]
    · exact Or.inl h
  · intro h
    by_cases hne : rowVal z x = rowVal z y
    · obtain rfl := h.resolve_left (fun h => h hne)
      obtain ⟨z', ag, hs⟩ := im.complete z hz trivial
      refine ⟨z', ag, hs, (im.sound z' hs).2 ?_⟩
      rw [← Row.rowVal_congr (fun e he => ag _ (hx.allocated e he)), ← Row.rowVal_congr (fun e he => ag _ (hy.allocated e he)), hne]
    · obtain ⟨o', c', z', e', ag, hs, hv⟩ := C35_is_neq_refuted wf hx hy hz hne r
      obtain ⟨rfl, rfl⟩ := Prod.mk.inj (Option.some.inj (e.symm.trans e'))
      exact ⟨z', ag, hs, hv⟩
  · obtain ⟨o', c', z', e', ag, hs, hv⟩ := C35_is_eq_refuted wf hx hy hz r
    obtain ⟨rfl, rfl⟩ := Prod.mk.inj (Option.some.inj (e2.symm.trans e'))
    exact ⟨z', ag, hs, hv⟩

/-- The circuit `inputize` leaves, with another value on its public wire. -/
def republish (cs : CS F) (v : F) : CS F := { cs with x := cs.x ++ [v] }

theorem republish_wf {cs : CS F} (wf : Wf cs) (v : F) : Wf (republish cs v) := by
  have ext : Extends cs (republish cs v) := ⟨⟨[v], rfl⟩, List.prefix_refl _, List.prefix_refl _⟩
  refine ⟨?_, fun k hk => ?_⟩
  · have := wf.one
    rw [republish, List.getElem?_append_left (by rw [List.getElem?_eq_some_iff] at this; exact this.1)]
    exact this
  · have ok := wf.rows k hk
    exact ⟨ok.a.mono ext, ok.b.mono ext, ok.c.mono ext⟩

theorem republish_sat {cs : CS F} (wf : Wf cs) (hs : Satisfies (stored cs) cs) (v : F) : Satisfies (stored (republish cs v)) (republish cs v) := by
  have ag : AgreeOn cs (stored cs) (stored (republish cs v)) := by
    intro w hw
    cases w with
    | inst i =>
      have hi : i < cs.x.length := hw
      show (cs.x[i]?).getD 0 = ((cs.x ++ [v])[i]?).getD 0
      rw [List.getElem?_append_left hi]
    | wit i => rfl
  exact ⟨(republish_wf wf v).stored_one, fun k hk => (holds_congr ag (wf.rows k hk)).mp (hs.2 k hk)⟩

omit [_root_.Field F] [DecidableEq F] in
theorem republish_shape (cs : CS F) (u v : F) : SameShape (republish cs u) (republish cs v) :=
  ⟨by simp [republish], rfl, rfl⟩

omit [DecidableEq F] in
theorem republish_tail {cs : CS F} (wf : Wf cs) (v : F) : (republish cs v).x.tail = cs.x.tail ++ [v] := by
  have := wf.one
  cases hx : cs.x with
  | nil => rw [hx] at this; cases this
  | cons a l => simp [republish, hx]
end

section
variable {F G1 G2 GT : Type} [_root_.Field F] [DecidableEq F]
variable [AddCommGroup G1] [Module F G1] [AddCommGroup G2] [Module F G2] [AddCommGroup GT] [Module F GT]
variable [DecidableEq G1] [DecidableEq G2] [DecidableEq GT]
variable {S : Nat} {root gen : F} {g1 : G1} {g2 : G2} {e : G1 →ₗ[F] G2 →ₗ[F] GT}

/-- **C36, in Groth16 proofs.** Take any circuit whose last step publishes a value with `inputize`, with a power of two constraints, keys made for
it, and any assignment that satisfies it.  For every `v` the prover makes a proof that the verifier accepts with `v` in place of the published
value, all other public inputs being the same. -/
theorem C36_groth16_refuted (env : Env S root gen) (h1 : g1 ≠ 0) (h2 : g2 ≠ 0) {cs : CS F} (wf : Wf cs) {x : Row F} (hx : RowOk cs x)
    {k : Nat} (hm : cs.m = 2 ^ k) (hsat : Satisfies (stored cs) cs) : ∃ out cs', Circ.inputize x cs = some (out, cs') ∧
    cs'.x.tail = cs.x.tail ++ [rowVal (stored cs) x] ∧
    ∀ t p (vk : PVKey G1 G2 GT), setup S root gen g1 g2 e t cs' = some (.ok (p, vk)) → ∀ v r s, ∃ cs'', SameShape cs' cs'' ∧
      ∃ π, createProof S root gen p r s cs'' = some (.ok π) ∧ verify e vk π (cs.x.tail ++ [v]) = .ok () := by
  refine ⟨Row.ofWire (.inst cs.x.length), republish cs (rowVal (stored cs) x), ?_, republish_tail wf _, fun t p vk hs v r s => ?_⟩
  · unfold Circ.inputize; rw [Circ.bind_eq (Circ.value_eq hx)]; rfl
  · refine ⟨republish cs v, republish_shape cs _ v, ?_⟩
    rw [← republish_tail wf v]
    exact C43_completeness_partial env h1 h2 (republish_shape cs _ v) (republish_wf wf v) k hm (republish_sat wf hsat v) hs r s
end

/-- **C36, in Groth16 proofs on BN254**, with the code's own structs; the wires fit `usize`. -/
theorem C36_bn254_refuted {cs : CS FrW} (wf : Wf cs) {x : Row FrW} (hx : RowOk cs x) {k : Nat} (hm : cs.m = 2 ^ k) (hsat : Satisfies (stored cs) cs)
    (hl : cs.x.length + 1 + cs.w.length < 2 ^ 64) : ∃ out cs', Circ.inputize x cs = some (out, cs') ∧
    cs'.x.tail = cs.x.tail ++ [rowVal (stored cs) x] ∧
    ∀ t p vk, bnSetup t cs' = some (.ok (p, vk)) → ∀ v r s, ∃ cs'', SameShape cs' cs'' ∧
      ∃ π, bnProve p r s cs'' = some (.ok π) ∧ bnVerify vk π (cs.x.tail ++ [v]) = some (.ok ()) := by
  refine ⟨Row.ofWire (.inst cs.x.length), republish cs (rowVal (stored cs) x), ?_, republish_tail wf _, fun t p vk hs v r s => ?_⟩
  · unfold Circ.inputize; rw [Circ.bind_eq (Circ.value_eq hx)]; rfl
  · refine ⟨republish cs v, republish_shape cs _ v, ?_⟩
    rw [← republish_tail wf v]
    exact C80_completeness_partial (republish_shape cs _ v) (republish_wf wf v) k hm (republish_sat wf hsat v)
      (by simpa [republish] using hl) hs r s

/-- A circuit with four constraints that publishes its first private input, 4, after two public inputs: proofs with every other value in place of
it are accepted. -/
example : ∃ cs : CS FrW, Circ.program demoProgramBn ![4 * (2 + 3), 4 * 4 - 2] ![4, 2] CS.init = some ((), cs) ∧
    ∃ out cs', Circ.inputize (Row.ofWire (.wit 0)) cs = some (out, cs') ∧ cs'.x.tail = cs.x.tail ++ [4] ∧
    ∀ t p vk, bnSetup t cs' = some (.ok (p, vk)) → ∀ v r s, ∃ cs'', SameShape cs' cs'' ∧
      ∃ π, bnProve p r s cs'' = some (.ok π) ∧ bnVerify vk π (cs.x.tail ++ [v]) = some (.ok ()) := by
  obtain ⟨cs, e, -, hw, wf, -, hh⟩ := program_run demoProgramBn ![4 * (2 + 3), 4 * 4 - 2] ![4, 2]
  have hs := hh (by
    unfold Program.Holds demoProgramBn
    simp only [List.mem_cons, List.not_mem_nil, or_false, forall_eq_or_imp, forall_eq, Expr.eval]
    exact ⟨rfl, rfl⟩)
  obtain ⟨c0, e0, m0, l0, v0, w0⟩ : ∃ c0 : CS FrW, Circ.program demoProgramBn ![4 * (2 + 3), 4 * 4 - 2] ![4, 2] CS.init = some ((), c0) ∧ c0.m = 2 ^ 2 ∧
      c0.x.length + 1 + c0.w.length < 2 ^ 64 ∧ rowVal (stored c0) (Row.ofWire (.wit 0)) = 4 ∧ 0 < c0.w.length :=
    ⟨_, rfl, by decide +kernel, by decide +kernel, by decide +kernel, by decide +kernel⟩
  obtain rfl := (Prod.mk.inj (Option.some.inj (e.symm.trans e0))).2
  have := C36_bn254_refuted wf (x := Row.ofWire (.wit 0)) (RowOk.ofWire w0) m0 hs l0
  rw [v0] at this
  exact ⟨cs, e, this⟩

/-- The public values of an assignment. -/
def publicValues {F : Type} (cs : CS F) (z : Assignment F) : List F := (List.range (cs.x.length - 1)).map fun i => z (.inst (i + 1))

section
variable {F : Type} [_root_.Field F] [DecidableEq F]

theorem withValues_sat {cs : CS F} (wf : Wf cs) {z : Assignment F} (hz : Satisfies z cs) : Satisfies (stored (cs.withValues z)) (cs.withValues z) := by
  refine ⟨(Circ.wf_withValues wf hz.1).stored_one, fun c hc => ?_⟩
  exact (holds_congr (fun w hw => (Circ.stored_withValues hw).symm) (wf.rows c hc)).mp (hz.2 c hc)

omit [_root_.Field F] [DecidableEq F] in
theorem withValues_tail (cs : CS F) (z : Assignment F) : (cs.withValues z).x.tail = publicValues cs z := by
  show ((List.range cs.x.length).map fun i => z (.inst i)).tail = _
  rw [publicValues]
  cases cs.x.length with
  | zero => rfl
  | succ n => simp [List.range_succ_eq_map]

variable {G1 G2 GT : Type}
variable [AddCommGroup G1] [Module F G1] [AddCommGroup G2] [Module F G2] [AddCommGroup GT] [Module F GT]
variable [DecidableEq G1] [DecidableEq G2] [DecidableEq GT]
variable {S : Nat} {root gen : F} {g1 : G1} {g2 : G2} {e : G1 →ₗ[F] G2 →ₗ[F] GT}

/-- **C43, every satisfying assignment.** With keys for a circuit, padded, a prover can make an accepted proof from every assignment that satisfies
its constraints, for the public values of that assignment: also from those `synthesize` never computes. -/
theorem C43_assignment (env : Env S root gen) (h1 : g1 ≠ 0) (h2 : g2 ≠ 0) (he : e g1 g2 ≠ 0) {cs : CS F} (wf : Wf cs) {t : Trapdoor F}
    {p : Groth16.Params G1 G2} {vk : PVKey G1 G2 GT} (hs : setup S root gen g1 g2 e t (padCs cs (padding cs)) = some (.ok (p, vk)))
    {z : Assignment F} (hz : Satisfies z cs) (r s : F) : ∃ cs', SameShape (padCs cs (padding cs)) cs' ∧
      ∃ π, createProof S root gen p r s cs' = some (.ok π) ∧ verify e vk π (publicValues cs z) = .ok () := by
  have sh := Circ.sameShape_withValues cs z
  have := (C43_padded (e := e) env h1 h2 he sh wf (Circ.wf_withValues wf hz.1)).2.2.1 (withValues_sat wf hz) t p vk hs r s
  rw [withValues_tail] at this
  exact ⟨padCs (cs.withValues z) (padding cs), padCs_shape sh _, this⟩

/-- **C35, in Groth16 proofs.** A circuit that computes `is_eq` of two values and enforces that the answer is one enforces nothing: whatever the
rest of the circuit and the values, equal or not, there are accepted proofs. -/
theorem C35_groth16_refuted (env : Env S root gen) (h1 : g1 ≠ 0) (h2 : g2 ≠ 0) (he : e g1 g2 ≠ 0) {cs : CS F} (wf : Wf cs) {x y : Row F}
    (hx : RowOk cs x) (hy : RowOk cs y) :
    ∃ cs', (Circ.isEq x y >>= fun o => Circ.enforceEqConstant (Circ.ofBin o) 1) cs = some ((), cs') ∧ ∀ z, Satisfies z cs →
      ∃ z', AgreeOn cs z z' ∧ ∀ t p (vk : PVKey G1 G2 GT), setup S root gen g1 g2 e t (padCs cs' (padding cs')) = some (.ok (p, vk)) → ∀ r s,
        ∃ cs'', SameShape (padCs cs' (padding cs')) cs'' ∧
          ∃ π, createProof S root gen p r s cs'' = some (.ok π) ∧ verify e vk π (publicValues cs' z') = .ok () := by
  obtain ⟨o, c, ec, al, -, im⟩ := (C35_honest_partial wf hx hy wf.alloc_one wf.alloc_one).2.1
  obtain ⟨c', ec', im'⟩ := C32_enforce_eq_constant im.wf (Circ.ofBin_ok al) 1
  refine ⟨c', by rw [Circ.bind_eq ec]; exact ec', fun z hz => ?_⟩
  obtain ⟨o', d, z1, e1, ag, sat, hv⟩ := C35_is_eq_refuted wf hx hy hz 1
  obtain ⟨rfl, rfl⟩ := Prod.mk.inj (Option.some.inj (ec.symm.trans e1))
  obtain ⟨z2, ag2, sat2⟩ := im'.complete z1 sat (by rw [Circ.rowVal_ofBin, hv])
  refine ⟨z2, fun w hw => (ag w hw).trans (ag2 w (im.grows.alloc hw)), fun t p vk hs r s => ?_⟩
  exact C43_assignment env h1 h2 he im'.wf hs sat2 r s
end

/-- The hypotheses of the last theorem, with two different values. -/
example : Wf demo ∧ RowOk demo demoRow ∧ RowOk demo (Row.ofWire (.wit 1)) ∧ Satisfies (stored demo) demo ∧
    rowVal (stored demo) demoRow ≠ rowVal (stored demo) (Row.ofWire (.wit 1)) :=
  ⟨demo_wf, demo_row, RowOk.ofWire (by decide : 1 < 5), demo_sat, by decide⟩

end Kogarashi.Props
