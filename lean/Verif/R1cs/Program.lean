import Verif.R1cs.Run
import Verif.Spec.Program

/-!
# Circuits written with the arithmetic gadgets

What a caller of the library writes to turn an arithmetic program into a constraint system: allocate the inputs, compute every expression
with the gadgets, enforce every equation.
-/

namespace Kogarashi.Circ

open Spec

variable {F : Type} [Field F] [DecidableEq F]

/-- Public inputs, one after the other (`zkstd/src/circuit/gadget/field.rs:14-19` `instance`). -/
def allocInst : List F → Circ F (List (Row F))
  | [] => pure []
  | v :: vs => do
    let r ← inst v
    let rs ← allocInst vs
    pure (r :: rs)

/-- Private inputs, one after the other (`zkstd/src/circuit/gadget/field.rs:21-26` `witness`). -/
def allocWit : List F → Circ F (List (Row F))
  | [] => pure []
  | v :: vs => do
    let r ← wit v
    let rs ← allocWit vs
    pure (r :: rs)

/-- An expression: `constant` (`field.rs:40-42`), `+`, `-`, unary `-` (`field.rs:280-302`), scaling as `mul` with a constant
as its first operand does it (`scale_is_mul`), `mul` (`field.rs:48-61`), `square` (`field.rs:44-46`), `add` (`field.rs:63-76`), operands from left to right. -/
def build {np nw : Nat} (px pw : List (Row F)) : Expr F np nw → Circ F (Row F)
  | .pub i => pure (px.getD i [])
  | .priv i => pure (pw.getD i [])
  | .const c => pure (Circ.const c)
  | .add a b => do
    let x ← build px pw a
    let y ← build px pw b
    pure (x.add y)
  | .sub a b => do
    let x ← build px pw a
    let y ← build px pw b
    pure (x.sub y)
  | .neg a => do
    let x ← build px pw a
    pure x.neg
  | .scale a k => do
    let x ← build px pw a
    pure (x.smul k)
  | .mul a b => do
    let x ← build px pw a
    let y ← build px pw b
    mul x y
  | .square a => do
    let x ← build px pw a
    square x
  | .sum a b => do
    let x ← build px pw a
    let y ← build px pw b
    add x y

/-- The equations, one after the other (`field.rs:183-185` `enforce_eq`). -/
def enforceAll {np nw : Nat} (px pw : List (Row F)) : Program F np nw → Circ F Unit
  | [] => pure ()
  | p :: ps => do
    let a ← build px pw p.1
    let b ← build px pw p.2
    enforceEq a b
    enforceAll px pw ps

/-- The circuit of a program with the given inputs, as `synthesize` of a circuit would write it. -/
def program {np nw : Nat} (P : Program F np nw) (x : Fin np → F) (w : Fin nw → F) : Circ F Unit := do
  let px ← allocInst (List.ofFn x)
  let pw ← allocWit (List.ofFn w)
  enforceAll px pw P

/-- Scaling a row is `mul` with a constant first operand. -/
theorem scale_is_mul (k : F) (x : Row F) : mul (const k) x = pure (x.smul k) := rfl

/-! ### What a run does -/

theorem allocInst_eq : ∀ (vs : List F) (cs : CS F), allocInst vs cs =
    some ((List.range vs.length).map (fun i => Row.ofWire (.inst (cs.x.length + i))), { cs with x := cs.x ++ vs })
  | [], cs => by simp [allocInst, pure_eq]
  | v :: vs, cs => by
    show (inst v >>= _) cs = _
    rw [bind_eq (show inst v cs = some (Row.ofWire (.inst cs.x.length), { cs with x := cs.x ++ [v] }) from rfl), bind_eq (allocInst_eq vs _), pure_eq]
    simp only [List.length_append, List.length_cons, List.length_nil, List.append_assoc, List.cons_append, List.nil_append, Option.some.injEq,
      Prod.mk.injEq, and_true]
    rw [List.range_succ_eq_map]
    simp only [List.map_cons, List.map_map, Nat.add_zero]
    congr 1
    apply List.map_congr_left
    intro i _
    simp only [Function.comp]
    congr 2
    omega

theorem allocWit_eq : ∀ (vs : List F) (cs : CS F), allocWit vs cs =
    some ((List.range vs.length).map (fun i => Row.ofWire (.wit (cs.w.length + i))), { cs with w := cs.w ++ vs })
  | [], cs => by simp [allocWit, pure_eq]
  | v :: vs, cs => by
    show (wit v >>= _) cs = _
    rw [bind_eq (show wit v cs = some (Row.ofWire (.wit cs.w.length), { cs with w := cs.w ++ [v] }) from rfl), bind_eq (allocWit_eq vs _), pure_eq]
    simp only [List.length_append, List.length_cons, List.length_nil, List.append_assoc, List.cons_append, List.nil_append, Option.some.injEq,
      Prod.mk.injEq, and_true]
    rw [List.range_succ_eq_map]
    simp only [List.map_cons, List.map_map, Nat.add_zero]
    congr 1
    apply List.map_congr_left
    intro i _
    simp only [Function.comp]
    congr 2
    omega

theorem mul_x {x y o : Row F} {cs c : CS F} (hx : RowOk cs x) (hy : RowOk cs y) (h : mul x y cs = some (o, c)) : c.x = cs.x := by
  unfold mul at h
  cases hcx : x.asConstant with
  | some k => rw [hcx] at h; cases h; rfl
  | none =>
    cases hcy : y.asConstant with
    | some k => rw [hcx, hcy] at h; cases h; rfl
    | none =>
      rw [hcx, hcy] at h
      dsimp only at h
      rw [bind_eq (value_eq hx), bind_eq (value_eq hy)] at h
      cases h; rfl

theorem add_x {x y o : Row F} {cs c : CS F} (hx : RowOk cs x) (hy : RowOk cs y) (h : add x y cs = some (o, c)) : c.x = cs.x := by
  unfold add at h
  cases hcx : x.asConstant with
  | some k => rw [hcx] at h; cases h; rfl
  | none =>
    cases hcy : y.asConstant with
    | some k => rw [hcx, hcy] at h; cases h; rfl
    | none =>
      rw [hcx, hcy] at h
      dsimp only at h
      rw [bind_eq (value_eq hx), bind_eq (value_eq hy)] at h
      cases h; rfl

/-- The value of an expression under an assignment. -/
abbrev exprAt {np nw : Nat} (px pw : List (Row F)) (z : Assignment F) (e : Expr F np nw) : F :=
  e.eval (fun i => rowVal z (px.getD i [])) (fun i => rowVal z (pw.getD i []))

theorem exprAt_ext {np nw : Nat} {px pw : List (Row F)} {cs c : CS F} (h : Extends cs c) (hx : ∀ i : Fin np, RowOk cs (px.getD i []))
    (hw : ∀ i : Fin nw, RowOk cs (pw.getD i [])) (e : Expr F np nw) : exprAt px pw (stored c) e = exprAt px pw (stored cs) e := by
  unfold exprAt
  congr 1
  · funext i; exact h.rowVal_eq (hx i)
  · funext i; exact h.rowVal_eq (hw i)

theorem build_run {np nw : Nat} {px pw : List (Row F)} (e : Expr F np nw) : ∀ {cs : CS F} (_ : Wf cs) (_ : ∀ i : Fin np, RowOk cs (px.getD i []))
    (_ : ∀ i : Fin nw, RowOk cs (pw.getD i [])), ∃ out cs', build px pw e cs = some (out, cs') ∧ cs'.x = cs.x ∧ RowOk cs' out ∧
      Run cs cs' (fun z => rowVal z out = exprAt px pw z e) True := by
  have two : ∀ {a b : Expr F np nw} {cs : CS F} (_ : Wf cs) (_ : ∀ i : Fin np, RowOk cs (px.getD i [])) (_ : ∀ i : Fin nw, RowOk cs (pw.getD i []))
      (_ : ∀ {cs : CS F} (_ : Wf cs) (_ : ∀ i : Fin np, RowOk cs (px.getD i [])) (_ : ∀ i : Fin nw, RowOk cs (pw.getD i [])),
        ∃ out cs', build px pw a cs = some (out, cs') ∧ cs'.x = cs.x ∧ RowOk cs' out ∧ Run cs cs' (fun z => rowVal z out = exprAt px pw z a) True)
      (_ : ∀ {cs : CS F} (_ : Wf cs) (_ : ∀ i : Fin np, RowOk cs (px.getD i [])) (_ : ∀ i : Fin nw, RowOk cs (pw.getD i [])),
        ∃ out cs', build px pw b cs = some (out, cs') ∧ cs'.x = cs.x ∧ RowOk cs' out ∧ Run cs cs' (fun z => rowVal z out = exprAt px pw z b) True),
      ∃ x y c1 c2, build px pw a cs = some (x, c1) ∧ build px pw b c1 = some (y, c2) ∧ c2.x = cs.x ∧ RowOk c2 x ∧ RowOk c2 y ∧
        Run cs c2 (fun z => rowVal z x = exprAt px pw z a ∧ rowVal z y = exprAt px pw z b) True := by
    intro a b cs wf hx hw iha ihb
    obtain ⟨x, c1, e1, x1, ok1, r1⟩ := iha wf hx hw
    obtain ⟨y, c2, e2, x2, ok2, r2⟩ := ihb r1.wf (fun i => (hx i).mono r1.ext) (fun i => (hw i).mono r1.ext)
    exact ⟨x, y, c1, c2, e1, e2, x2.trans x1, ok1.mono r2.ext, ok2, (r1.trans r2).weaken (fun _ _ h => h) (fun h => ⟨h, h⟩)⟩
  induction e with
  | pub i => intro cs wf hx hw; exact ⟨_, cs, rfl, rfl, hx i, (Run.refl wf).weaken (fun z _ _ => rfl) id⟩
  | priv i => intro cs wf hx hw; exact ⟨_, cs, rfl, rfl, hw i, (Run.refl wf).weaken (fun z _ _ => rfl) id⟩
  | const c =>
    intro cs wf hx hw
    exact ⟨_, cs, rfl, rfl, const_ok wf c, (Run.refl wf).weaken (fun z hz _ => by rw [rowVal_const, hz, one_mul]; rfl) id⟩
  | add a b iha ihb =>
    intro cs wf hx hw
    obtain ⟨x, y, c1, c2, e1, e2, ex, ok1, ok2, r⟩ := two wf hx hw iha ihb
    refine ⟨_, c2, (by simp only [build]; rw [bind_eq e1, bind_eq e2, pure_eq]), ex, ok1.add ok2, r.weaken (fun z _ h => ?_) id⟩
    rw [Row.rowVal_add z ok1.1 ok2.1, h.1, h.2]; rfl
  | sub a b iha ihb =>
    intro cs wf hx hw
    obtain ⟨x, y, c1, c2, e1, e2, ex, ok1, ok2, r⟩ := two wf hx hw iha ihb
    refine ⟨_, c2, (by simp only [build]; rw [bind_eq e1, bind_eq e2, pure_eq]), ex, ok1.sub ok2, r.weaken (fun z _ h => ?_) id⟩
    rw [Row.rowVal_sub z ok1.1 ok2.1, h.1, h.2]; rfl
  | neg a ih =>
    intro cs wf hx hw
    obtain ⟨x, c1, e1, ex, ok1, r⟩ := ih wf hx hw
    refine ⟨_, c1, (by simp only [build]; rw [bind_eq e1, pure_eq]), ex, ok1.neg, r.weaken (fun z _ h => ?_) id⟩
    rw [Row.rowVal_neg, h]; rfl
  | scale a k ih =>
    intro cs wf hx hw
    obtain ⟨x, c1, e1, ex, ok1, r⟩ := ih wf hx hw
    refine ⟨_, c1, (by simp only [build]; rw [bind_eq e1, pure_eq]), ex, ok1.smul k, r.weaken (fun z _ h => ?_) id⟩
    rw [Row.rowVal_smul, h]; rfl
  | mul a b iha ihb =>
    intro cs wf hx hw
    obtain ⟨x, y, c1, c2, e1, e2, ex, ok1, ok2, r⟩ := two wf hx hw iha ihb
    obtain ⟨o, c3, e3, ok3, r3⟩ := mul_run r.wf ok1 ok2
    refine ⟨o, c3, (by simp only [build]; rw [bind_eq e1, bind_eq e2, e3]), (mul_x ok1 ok2 e3).trans ex, ok3,
      (r.trans r3).weaken (fun z _ h => ?_) (fun h => ⟨h, h⟩)⟩
    rw [h.2, h.1.1, h.1.2]; rfl
  | square a ih =>
    intro cs wf hx hw
    obtain ⟨x, c1, e1, ex, ok1, r⟩ := ih wf hx hw
    obtain ⟨o, c3, e3, ok3, r3⟩ := mul_run r.wf ok1 ok1
    refine ⟨o, c3, (by simp only [build]; rw [bind_eq e1]; exact e3), (mul_x ok1 ok1 e3).trans ex, ok3,
      (r.trans r3).weaken (fun z _ h => ?_) (fun h => ⟨h, h⟩)⟩
    rw [h.2, h.1]; rfl
  | sum a b iha ihb =>
    intro cs wf hx hw
    obtain ⟨x, y, c1, c2, e1, e2, ex, ok1, ok2, r⟩ := two wf hx hw iha ihb
    obtain ⟨o, c3, e3, ok3, r3⟩ := add_run r.wf ok1 ok2
    refine ⟨o, c3, (by simp only [build]; rw [bind_eq e1, bind_eq e2, e3]), (add_x ok1 ok2 e3).trans ex, ok3,
      (r.trans r3).weaken (fun z _ h => ?_) (fun h => ⟨h, h⟩)⟩
    rw [h.2, h.1.1, h.1.2]; rfl

theorem enforceAll_run {np nw : Nat} {px pw : List (Row F)} (P : Program F np nw) : ∀ {cs : CS F} (_ : Wf cs)
    (_ : ∀ i : Fin np, RowOk cs (px.getD i [])) (_ : ∀ i : Fin nw, RowOk cs (pw.getD i [])), ∃ cs', enforceAll px pw P cs = some ((), cs') ∧
      cs'.x = cs.x ∧ Run cs cs' (fun z => ∀ p ∈ P, exprAt px pw z p.1 = exprAt px pw z p.2)
        (∀ p ∈ P, exprAt px pw (stored cs) p.1 = exprAt px pw (stored cs) p.2) := by
  induction P with
  | nil => intro cs wf _ _; exact ⟨cs, rfl, rfl, (Run.refl wf).weaken (fun z _ _ p hp => absurd hp (by simp)) (fun _ => trivial)⟩
  | cons p ps ih =>
    intro cs wf hx hw
    obtain ⟨a, c1, e1, x1, ok1, r1⟩ := build_run p.1 wf hx hw
    obtain ⟨b, c2, e2, x2, ok2, r2⟩ := build_run p.2 r1.wf (fun i => (hx i).mono r1.ext) (fun i => (hw i).mono r1.ext)
    obtain ⟨c3, e3, r3⟩ := enforceEq_run r2.wf (ok1.mono r2.ext) ok2
    have r123 := (r1.trans r2).trans r3
    obtain ⟨c4, e4, x4, r4⟩ := ih r3.wf (fun i => (hx i).mono r123.ext) (fun i => (hw i).mono r123.ext)
    have x3 : c3.x = c2.x := by cases e3; rfl
    refine ⟨c4, ?_, x4.trans (x3.trans (x2.trans x1)), (r123.trans r4).weaken (fun z _ h => ?_) (fun h => ?_)⟩
    · simp only [enforceAll]
      rw [bind_eq e1, bind_eq e2, bind_eq e3]
      exact e4
    · intro q hq
      rcases List.mem_cons.mp hq with rfl | hq
      · rw [← h.1.1.1, ← h.1.1.2]; exact h.1.2
      · exact h.2 q hq
    · refine ⟨⟨⟨trivial, trivial⟩, ?_⟩, fun q hq => ?_⟩
      · have h1 := (r1.trans r2).at_stored ⟨trivial, trivial⟩
        rw [h1.1, h1.2, exprAt_ext (r1.trans r2).ext hx hw, exprAt_ext (r1.trans r2).ext hx hw]
        exact h p (by simp)
      · rw [exprAt_ext r123.ext hx hw, exprAt_ext r123.ext hx hw]
        exact h q (by simp [hq])

theorem build_uniform {np nw : Nat} (px pw : List (Row F)) (e : Expr F np nw) : Uniform (build px pw e) (build px pw e) := by
  induction e with
  | pub i => exact Uniform.pure _
  | priv i => exact Uniform.pure _
  | const c => exact Uniform.pure _
  | add a b iha ihb => exact iha.bind fun _ => ihb.bind fun _ => Uniform.pure _
  | sub a b iha ihb => exact iha.bind fun _ => ihb.bind fun _ => Uniform.pure _
  | neg a ih => exact ih.bind fun _ => Uniform.pure _
  | scale a k ih => exact ih.bind fun _ => Uniform.pure _
  | mul a b iha ihb => exact iha.bind fun _ => ihb.bind fun _ => Uniform.mul _ _
  | square a ih => exact ih.bind fun _ => Uniform.mul _ _
  | sum a b iha ihb => exact iha.bind fun _ => ihb.bind fun _ => Uniform.add _ _

theorem enforceAll_uniform {np nw : Nat} (px pw : List (Row F)) (P : Program F np nw) : Uniform (enforceAll px pw P) (enforceAll px pw P) := by
  induction P with
  | nil => exact Uniform.pure _
  | cons p ps ih => exact (build_uniform _ _ _).bind fun _ => (build_uniform _ _ _).bind fun _ => (Uniform.enforceEq _ _).bind fun _ => ih

end Kogarashi.Circ
