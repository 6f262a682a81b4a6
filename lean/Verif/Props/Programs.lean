import Verif.R1cs.Program
import Verif.Props.R1cs
import Verif.Props.Affine

/-!
# Property C119: circuits of arithmetic programs
-/

namespace Kogarashi.Props

open Kogarashi Spec Groth16 Polynomial Kogarashi.Field

section
variable {F : Type} [_root_.Field F] [DecidableEq F] {np nw : Nat}

theorem program_run (P : Program F np nw) (x : Fin np → F) (w : Fin nw → F) : ∃ cs, Circ.program P x w CS.init = some ((), cs) ∧
    cs.x = 1 :: List.ofFn x ∧ List.ofFn w <+: cs.w ∧ Wf cs ∧
    (∀ z, Satisfies z cs → P.Holds (fun i => z (.inst (i + 1))) (fun i => z (.wit i))) ∧ (P.Holds x w → Satisfies (stored cs) cs) := by
  have e1 := Circ.allocInst_eq (List.ofFn x) (CS.init : CS F)
  have e2 := Circ.allocWit_eq (List.ofFn w) { (CS.init : CS F) with x := (CS.init : CS F).x ++ List.ofFn x }
  generalize hpx : (List.range (List.ofFn x).length).map (fun i => (Row.ofWire (.inst ((CS.init : CS F).x.length + i)) : Row F)) = px at e1
  generalize hpw : (List.range (List.ofFn w).length).map (fun i => (Row.ofWire (.wit (({ (CS.init : CS F) with
    x := (CS.init : CS F).x ++ List.ofFn x } : CS F).w.length + i)) : Row F)) = pw at e2
  have gx : ∀ i : Fin np, px.getD i [] = Row.ofWire (.inst (i + 1)) := by
    intro i
    rw [← hpx, List.getD_eq_getElem _ _ (by simp)]
    simp [CS.init, Nat.add_comm]
  have gw : ∀ i : Fin nw, pw.getD i [] = Row.ofWire (.wit i) := by
    intro i
    rw [← hpw, List.getD_eq_getElem _ _ (by simp)]
    simp [CS.init]
  let c0 : CS F := ⟨1 :: List.ofFn x, List.ofFn w, []⟩
  have wf0 : Wf c0 := ⟨rfl, fun k hk => absurd hk (by simp [c0])⟩
  have ox : ∀ i : Fin np, RowOk c0 (px.getD i []) := fun i => by rw [gx]; exact RowOk.ofWire (by simp [Allocated, c0])
  have ow : ∀ i : Fin nw, RowOk c0 (pw.getD i []) := fun i => by rw [gw]; exact RowOk.ofWire (by simp [Allocated, c0])
  obtain ⟨cs, e3, ex, r⟩ := Circ.enforceAll_run P wf0 ox ow
  have ev : ∀ z (e : Expr F np nw), Circ.exprAt px pw z e = e.eval (fun i => z (.inst (i + 1))) (fun i => z (.wit i)) := by
    intro z e
    unfold Circ.exprAt
    congr 1
    · funext i; rw [gx, Row.rowVal_ofWire]
    · funext i; rw [gw, Row.rowVal_ofWire]
  refine ⟨cs, ?_, ex, r.ext.w, r.wf, fun z hz p hp => ?_, fun h => ?_⟩
  · unfold Circ.program
    rw [Circ.bind_eq e1, Circ.bind_eq e2]
    exact e3
  · have := r.sound z hz.1 ((satisfies_iff r.ext z).mp hz).2 p hp
    rwa [ev, ev] at this
  · refine (satisfies_iff r.ext _).mpr ⟨⟨r.wf.stored_one, fun k hk => absurd hk (by simp [c0])⟩, r.honest fun p hp => ?_⟩
    have s1 : (fun i : Fin np => stored c0 (.inst (i + 1))) = x := by
      funext i
      simp [stored, CS.get, Row.readWire, c0]
    have s2 : (fun i : Fin nw => stored c0 (.wit i)) = w := by
      funext i
      simp [stored, CS.get, Row.readWire, c0]
    rw [ev, ev, s1, s2]
    exact h p hp

/-- **C119, the shape.** The constraints and the number of wires do not depend on the inputs. -/
theorem C119_shape (P : Program F np nw) (x x' : Fin np → F) (w w' : Fin nw → F) {cs cs' : CS F}
    (h : Circ.program P x w CS.init = some ((), cs)) (h' : Circ.program P x' w' CS.init = some ((), cs')) : SameShape cs cs' := by
  unfold Circ.program at h h'
  rw [Circ.bind_eq (Circ.allocInst_eq _ _), Circ.bind_eq (Circ.allocWit_eq _ _)] at h h'
  simp only [List.length_ofFn] at h h'
  rcases Circ.enforceAll_uniform _ _ P ⟨CS.init.x ++ List.ofFn x, CS.init.w ++ List.ofFn w, CS.init.cons⟩
      ⟨CS.init.x ++ List.ofFn x', CS.init.w ++ List.ofFn w', CS.init.cons⟩ ⟨by simp, by simp, rfl⟩ with ⟨h1, -⟩ | ⟨a, c1, c2, h1, h2, s⟩
  · exact absurd (h1.symm.trans h) (by simp)
  · obtain rfl := (Prod.mk.inj (Option.some.inj (h1.symm.trans h))).2
    obtain rfl := (Prod.mk.inj (Option.some.inj (h2.symm.trans h'))).2
    exact s

/-- **C119.** For every program of arithmetic equations and all inputs: building its circuit does not panic and publishes the public inputs; `is_sat`
answers whether the equations hold of the inputs; and, whatever inputs the circuit was built with, an assignment of the circuit is a solution
of the equations (its first wires are the private inputs), and every solution extends to an assignment of the circuit. -/
theorem C119_program (P : Program F np nw) (x : Fin np → F) (w : Fin nw → F) :
    ∃ cs, Circ.program P x w CS.init = some ((), cs) ∧ Wf cs ∧ cs.x = 1 :: List.ofFn x ∧
      (∃ b, cs.isSat = some b ∧ (b = true ↔ P.Holds x w)) ∧
      (∀ x' v, Satisfies (assign (List.ofFn x') v) cs → P.Holds x' (fun i => v.getD i 0)) ∧
      (∀ x' w', P.Holds x' w' → ∃ v, v.length = cs.w.length ∧ (∀ i : Fin nw, v.getD i 0 = w' i) ∧ Satisfies (assign (List.ofFn x') v) cs) := by
  have as1 : ∀ (x' : Fin np → F) v, (fun i : Fin np => assign (List.ofFn x') v (.inst (i + 1))) = x' := by
    intro x' v
    funext i
    simp [assign]
  have st : ∀ (x' : Fin np → F) (c : CS F), c.x = 1 :: List.ofFn x' → stored c = assign (List.ofFn x') c.w := by
    intro x' c hc
    funext u
    cases u with
    | inst i =>
      cases i with
      | zero => simp [stored, CS.get, Row.readWire, assign, hc]
      | succ i => simp [stored, CS.get, Row.readWire, assign, hc, List.getD_eq_getElem?_getD]
    | wit i => simp [stored, CS.get, Row.readWire, assign, List.getD_eq_getElem?_getD]
  have sound : ∀ {c : CS F}, (∀ z, Satisfies z c → P.Holds (fun i => z (.inst (i + 1))) (fun i => z (.wit i))) → ∀ x' v,
      Satisfies (assign (List.ofFn x') v) c → P.Holds x' (fun i => v.getD i 0) := by
    intro c h x' v hs
    have := h _ hs
    rw [as1] at this
    exact this
  have wits : ∀ {w' : Fin nw → F} {v : List F}, List.ofFn w' <+: v → ∀ i : Fin nw, v.getD i 0 = w' i := by
    rintro w' v ⟨t, rfl⟩ i
    rw [List.getD_eq_getElem?_getD, List.getElem?_append_left (by simp)]
    simp
  obtain ⟨cs, e, hx, hw, wf, hs, hh⟩ := program_run P x w
  refine ⟨cs, e, wf, hx, ?_, sound hs, fun x' w' h => ?_⟩
  · obtain ⟨b, hb, hi⟩ := C31_is_sat (cs := cs) (fun k hk r hr e he => by
      have ok := wf.rows k hk
      simp only [List.mem_cons, List.not_mem_nil, or_false] at hr
      rcases hr with rfl | rfl | rfl
      · exact ok.a.allocated e he
      · exact ok.b.allocated e he
      · exact ok.c.allocated e he)
    refine ⟨b, hb, hi.trans ⟨fun h => ?_, fun h => (hh h).2⟩⟩
    have sat : Satisfies (stored cs) cs := ⟨wf.stored_one, h⟩
    rw [st x cs hx] at sat
    have := sound hs x cs.w sat
    rwa [show (fun i : Fin nw => cs.w.getD i 0) = w from funext (wits hw)] at this
  · obtain ⟨cs', e', hx', hw', -, -, hh'⟩ := program_run P x' w'
    have sh := C119_shape P x x' w w' e e'
    have sat := hh' h
    rw [st x' cs' hx'] at sat
    refine ⟨cs'.w, sh.w.symm, wits hw', sat.1, ?_⟩
    rw [sh.cons]
    exact sat.2

/-- **C119, the statement proved.** For the public inputs `x'` the circuit has an assignment exactly when the equations have a solution. -/
theorem C119_statement (P : Program F np nw) (x : Fin np → F) (w : Fin nw → F) {cs : CS F} (h : Circ.program P x w CS.init = some ((), cs))
    (x' : Fin np → F) : (∃ v, Satisfies (assign (List.ofFn x') v) cs) ↔ ∃ w', P.Holds x' w' := by
  obtain ⟨c, e, -, -, -, h1, h2⟩ := C119_program P x w
  obtain rfl := (Prod.mk.inj (Option.some.inj (e.symm.trans h))).2
  constructor
  · rintro ⟨v, hv⟩; exact ⟨_, h1 x' v hv⟩
  · rintro ⟨w', hw⟩
    obtain ⟨v, -, -, hv⟩ := h2 x' w' hw
    exact ⟨v, hv⟩

end

section
variable {F G1 G2 GT : Type} [_root_.Field F] [DecidableEq F]
variable [AddCommGroup G1] [Module F G1] [AddCommGroup G2] [Module F G2] [AddCommGroup GT] [Module F GT]
variable [DecidableEq G1] [DecidableEq G2] [DecidableEq GT]
variable {S : Nat} {root gen : F} {g1 : G1} {g2 : G2} {e : G1 →ₗ[F] G2 →ₗ[F] GT} {np nw : Nat}

/-- **C119, Groth16 for programs whose circuit has a power of two constraints.** With keys made from any inputs `x₀`, `w₀`: a prover whose inputs
solve the equations gets a proof that is accepted for their public inputs; and one who publishes fixed combinations of the parameters and is
accepted for more than `(2n + 6)·|F|⁴` of the values of the toxic waste knows a solution.  Missing: other numbers of constraints, for which
completeness and soundness fail (`C43_completeness_all_refuted`, `C102_knowledge_refuted`). -/
theorem C119_groth16_partial (env : Env S root gen) (h1 : g1 ≠ 0) (h2 : g2 ≠ 0) (he : e g1 g2 ≠ 0) (P : Program F np nw)
    {x0 : Fin np → F} {w0 : Fin nw → F} {cs0 : CS F} (hc0 : Circ.program P x0 w0 CS.init = some ((), cs0)) {k : Nat} (hm : cs0.m = 2 ^ k) :
    (∀ t p (vk : PVKey G1 G2 GT), setup S root gen g1 g2 e t cs0 = some (.ok (p, vk)) → ∀ x w, P.Holds x w →
      ∃ cs, Circ.program P x w CS.init = some ((), cs) ∧
        ∀ r s, ∃ π, createProof S root gen p r s cs = some (.ok π) ∧ verify e vk π (List.ofFn x) = .ok ()) ∧
    ∀ [Fintype F] (A : AffineProver F) (x : Fin np → F),
      (2 * 2 ^ k + 6) * Nat.card F ^ 4 < Nat.card {t // Accepting S root gen g1 g2 e cs0 A (List.ofFn x) t} →
      P.Holds x (fun i => A.c.l.getD i 0) := by
  constructor
  · intro t p vk hs x w hw
    obtain ⟨cs, ec, wf, hx, -, -, -⟩ := C119_program P x w
    obtain ⟨cs', ec', -, -, -, -, hh⟩ := program_run P x w
    obtain rfl := (Prod.mk.inj (Option.some.inj (ec.symm.trans ec'))).2
    have sh := C119_shape P x0 x w0 w hc0 ec
    refine ⟨cs, ec, fun r s => ?_⟩
    obtain ⟨π, a, b⟩ := C43_completeness_partial env h1 h2 sh wf k (by rw [← hm, CS.m, CS.m, sh.cons]) (hh hw) hs r s
    rw [hx] at b
    exact ⟨π, a, b⟩
  · intro _ A x hmany
    obtain ⟨c, ec, -, -, -, hs, -⟩ := C119_program P x0 w0
    obtain rfl := (Prod.mk.inj (Option.some.inj (ec.symm.trans hc0))).2
    exact hs x _ (C102_knowledge_partial env he hm A (List.ofFn x) hmany)

end

/-! ### A program -/

/-- `w₀·(w₁ + 3) = x₀` and `w₀² - w₁ = x₁`. -/
def demoProgram : Program (ZMod 97) 2 2 :=
  [(.mul (.priv 0) (.add (.priv 1) (.const 3)), .pub 0), (.sub (.square (.priv 0)) (.priv 1), .pub 1)]

example : demoProgram.Holds ![14, 0] ![2, 4] ∧ ¬ demoProgram.Holds ![14, 1] ![2, 4] := by
  unfold Program.Holds demoProgram
  simp only [List.mem_cons, List.not_mem_nil, or_false, forall_eq_or_imp, forall_eq, Expr.eval]
  decide

/-- Its circuit has four constraints. -/
example : ∃ cs, Circ.program demoProgram ![14, 0] ![2, 4] CS.init = some ((), cs) ∧ cs.m = 2 ^ 2 ∧ cs.isSat = some true :=
  ⟨_, rfl, by decide, by decide⟩

/-- It has keys, and the proof for the solution is accepted. -/
example : ∃ t p vk cs, setup 5 (28 : ZMod 97) 5 (1 : ZMod 97) (1 : ZMod 97) (LinearMap.mul (ZMod 97) (ZMod 97)) t cs = some (.ok (p, vk)) ∧
    ∀ r s, ∃ π, createProof 5 (28 : ZMod 97) 5 p r s cs = some (.ok π) ∧ verify (LinearMap.mul (ZMod 97) (ZMod 97)) vk π [14, 0] = .ok () := by
  obtain ⟨cs, e, wf, hx, -⟩ := C119_program demoProgram ![14, 0] ![2, 4]
  have hm : cs.m = 2 ^ 2 := by
    have e' : Circ.program demoProgram ![14, 0] ![2, 4] CS.init = some ((), _) := rfl
    obtain rfl := (Prod.mk.inj (Option.some.inj (e'.symm.trans e))).2
    decide
  obtain ⟨t, p, vk, h⟩ := demo_setup cs wf (by rw [hm]; decide) (by rw [hm]; decide)
  obtain ⟨c, ec, hr⟩ := (C119_groth16_partial demoEnv one_ne_zero one_ne_zero (by decide) demoProgram e hm).1 t p vk h ![14, 0] ![2, 4] (by
    unfold Program.Holds demoProgram
    simp only [List.mem_cons, List.not_mem_nil, or_false, forall_eq_or_imp, forall_eq, Expr.eval]
    decide)
  obtain rfl := (Prod.mk.inj (Option.some.inj (ec.symm.trans e))).2
  exact ⟨t, p, vk, c, h, hr⟩

end Kogarashi.Props
