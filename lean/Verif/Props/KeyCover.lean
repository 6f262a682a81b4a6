import Verif.Nova.Few
import Verif.Nova.Example
import Mathlib.Tactic.Linarith

/-!
# Property C97: the keys `setup` makes and the length of the witness

`setup` sizes the commitment key by the number of constraints.  Wires are not bounded by constraints, so a step function
with enough wires has witnesses the key does not cover.
-/

namespace Kogarashi

namespace Nova

open Circ Spec Curve Props

/-- A step function that also allocates `N` wires, set to zero. -/
def padFn {F : Type} [Field F] [DecidableEq F] (FC : FnCircuit F) (N : Nat) : FnCircuit F where
  invoke := FC.invoke
  invokeCs z := do
    let o ← FC.invokeCs z
    let _ ← witList (List.replicate N 0)
    pure o

theorem padFn_ok {q : Nat} [Fact q.Prime] {FC : FnCircuit (ZMod q)} (h : FC.Ok) (N : Nat) : (padFn FC N).Ok where
  honest := by
    intro cs rows vals wf hl hh
    refine HP.bind (h.honest cs rows vals wf hl hh) fun o c1 e1 w1 ho => ?_
    refine HP.bind (witList_hp _ w1) fun _ c2 e2 w2 _ => HP.pure w2 ?_
    exact HasL.mono ho e2
  shaped := by
    intro rows
    exact (h.shaped rows).bindE fun _ => (witList_coh rfl).bindE fun _ => Coh.pure rfl
  noInst := by
    intro rows
    exact (h.noInst rows).bind fun _ => (NoInst.witList _).bind fun _ => NoInst.pure _
  length := h.length

variable {p q : Nat} [Fact p.Prime] [Fact q.Prime] {G : Type} [AddCommGroup G] [Module (ZMod p) G] [DecidableEq G]

theorem bind_inv {F : Type} [Field F] [DecidableEq F] {α β : Type} {g : Circ F α} {f : α → Circ F β} {c c' : CS F} {b : β}
    (h : (g >>= f) c = some (b, c')) : ∃ a d, g c = some (a, d) ∧ f a d = some (b, c') := by
  cases e : g c with
  | none => rw [bind_none e] at h; simp at h
  | some v =>
    obtain ⟨x, d⟩ := v
    rw [bind_eq e] at h
    exact ⟨x, d, rfl, h⟩

/-- The part of `Augmented.body` before the step function (`circuit/augmented.rs:46-113`): the next instance, the step number and the
two states. -/
def before (D : Driver p q G) (A : Augmented p q G) :
    Circ (ZMod q) (RInstRow q × Row (ZMod q) × List (Row (ZMod q)) × List (Row (ZMod q))) := do
  let i ← wit ((A.i : Nat) : ZMod q)
  let z0 ← witList A.z0
  let zi ← witList (A.zi.getD A.z0)
  let dummy ← rinstWitness D.env (RInst.dummy 2 : RInst (ZMod p) G)
  let single ← instWitness D.env (A.single.getD (Inst.dummy 2))
  let range ← rinstWitness D.env (A.range.getD (RInst.dummy 2))
  let commitT ← D.env.witness (A.commitT.getD 0)
  let baseCase ← isEq i (const 0)
  let notBaseCase ← isNeq i (const 0)
  let nextBase ← baseInst D.nb A.isPrimary dummy single
  let ux ← rinstHash D.nb D.env.consts range i z0 zi
  conditionalEnforceEqual single.x0 ux notBaseCase
  let r ← challengeCirc D.nb D.env.consts range commitT
  let nextNonBase ← nifsVerify D.carry D.nb D.b3 p r range single commitT
  let next ← rinstSelect nextBase nextNonBase baseCase
  pure (next, i, z0, zi)

theorem generate_split {D : Driver p q G} {A : Augmented p q G} {FC : FnCircuit (ZMod q)} {c c' : CS (ZMod q)} {o : List (Row (ZMod q))}
    (h : A.generate D FC c = some (o, c')) :
    ∃ t d, before D A c = some (t, d) ∧ ∃ zn d1, FC.invokeCs t.2.2.2 d = some (zn, d1) ∧
      ∃ x d2, rinstHash D.nb D.env.consts t.1 (Row.add t.2.1 (const 1)) t.2.2.1 zn d1 = some (x, d2) ∧
        c'.cons.length ≤ d2.cons.length ∧ d2.w.length ≤ c'.w.length := by
  unfold Augmented.generate at h
  obtain ⟨⟨x1, nx, zn⟩, e, hb, h⟩ := bind_inv h
  have hin : c'.cons.length ≤ e.cons.length ∧ e.w.length ≤ c'.w.length := by
    dsimp only at h
    obtain ⟨_, e1, h1, h⟩ := bind_inv h
    obtain ⟨_, e2, h2, h⟩ := bind_inv h
    have a1 := Few.inputize x1 _ _ _ h1
    have a2 := Few.inputize nx _ _ _ h2
    have a3 := Few.pure zn _ _ _ h
    omega
  unfold Augmented.body at hb
  obtain ⟨i, e1, h1, hb⟩ := bind_inv hb
  obtain ⟨z0, e2, h2, hb⟩ := bind_inv hb
  obtain ⟨zi, e3, h3, hb⟩ := bind_inv hb
  obtain ⟨du, e4, h4, hb⟩ := bind_inv hb
  obtain ⟨si, e5, h5, hb⟩ := bind_inv hb
  obtain ⟨ra, e6, h6, hb⟩ := bind_inv hb
  obtain ⟨ct, e7, h7, hb⟩ := bind_inv hb
  obtain ⟨bc, e8, h8, hb⟩ := bind_inv hb
  obtain ⟨nb, e9, h9, hb⟩ := bind_inv hb
  obtain ⟨bi, e10, h10, hb⟩ := bind_inv hb
  obtain ⟨ux, e11, h11, hb⟩ := bind_inv hb
  obtain ⟨u, e12, h12, hb⟩ := bind_inv hb
  obtain ⟨r, e13, h13, hb⟩ := bind_inv hb
  obtain ⟨nn, e14, h14, hb⟩ := bind_inv hb
  obtain ⟨ne, e15, h15, hb⟩ := bind_inv hb
  obtain ⟨zn', e16, h16, hb⟩ := bind_inv hb
  obtain ⟨nx', e17, h17, hb⟩ := bind_inv hb
  have hlast : e17 = e := by
    have h' : some (_, e17) = some (_, e) := hb
    simp only [Option.some.injEq, Prod.mk.injEq] at h'
    exact h'.2
  subst hlast
  refine ⟨(ne, i, z0, zi), e15, ?_, zn', e16, h16, nx', e17, h17, hin⟩
  unfold before
  rw [bind_eq h1, bind_eq h2, bind_eq h3, bind_eq h4, bind_eq h5, bind_eq h6, bind_eq h7, bind_eq h8, bind_eq h9, bind_eq h10,
    bind_eq h11, bind_eq h12, bind_eq h13, bind_eq h14, bind_eq h15]
  rfl

/-- However many wires the step function allocates, the constraints of the augmented circuit stay bounded. -/
theorem generate_pad (D : Driver p q G) (FC : FnCircuit (ZMod q)) (A : Augmented p q G) :
    ∃ K, ∀ N c o, A.generate D (padFn FC N) CS.init = some (o, c) → c.cons.length ≤ K ∧ N ≤ c.w.length := by
  cases hb : before D A CS.init with
  | none =>
    refine ⟨0, fun N c o h => ?_⟩
    obtain ⟨t, d, h1, -⟩ := generate_split h
    rw [hb] at h1; simp at h1
  | some v =>
    obtain ⟨t, d⟩ := v
    cases hf : FC.invokeCs t.2.2.2 d with
    | none =>
      refine ⟨0, fun N c o h => ?_⟩
      obtain ⟨t', d', h1, zn, d1, h2, -⟩ := generate_split h
      rw [hb] at h1; cases h1
      obtain ⟨a, e, h3, -⟩ := bind_inv h2
      rw [hf] at h3; simp at h3
    | some v =>
      obtain ⟨zn, e⟩ := v
      obtain ⟨k, hk⟩ := Few.rinstHash D.nb D.env.consts t.1 (Row.add t.2.1 (const 1)) t.2.2.1 zn
      refine ⟨e.cons.length + k, fun N c o h => ?_⟩
      obtain ⟨t', d', h1, zn', d1, h2, x, d2, h3, h4, h5⟩ := generate_split h
      rw [hb] at h1; cases h1
      obtain ⟨a, e', h6, h7⟩ := bind_inv h2
      rw [hf] at h6; cases h6
      obtain ⟨rs, e2, h8, h9⟩ := bind_inv h7
      have h' : some (zn, e2) = some (zn', d1) := h9
      cases h'
      obtain ⟨k1, k2⟩ := Few.witList _ h8
      have k3 := hk _ _ _ h3
      rw [List.length_replicate] at k2
      rw [k1] at k3
      omega

end Nova

namespace Props

open Spec Curve Nova

theorem clog_bound (m : Nat) : 2 ^ keyLog m ≤ 2 * m + 1 := by
  unfold keyLog
  rcases Nat.lt_or_ge 1 m with h | h
  · have := Nat.pow_pred_clog_lt_self (b := 2) (by norm_num) h
    have h0 : 0 < Nat.clog 2 m := Nat.clog_pos (by norm_num) h
    have : 2 ^ Nat.clog 2 m = 2 * 2 ^ (Nat.clog 2 m).pred := by
      rw [← pow_succ', Nat.pred_eq_sub_one, Nat.sub_add_cancel h0]
    omega
  · rw [Nat.clog_of_right_le_one h]
    omega

/-- Entries of the committed vector beyond the length of the key have no influence on the commitment. -/
theorem commit_beyond {F G : Type} [Field F] [AddCommGroup G] [Module F G] (g : List G) (v t t' : List F) (h : g.length ≤ v.length) :
    Nova.commit g (v ++ t) = Nova.commit g (v ++ t') := by
  have key : ∀ s : List F, (v ++ s).zip g = v.zip g := by
    intro s
    conv_lhs => rw [← List.append_nil g]
    rw [List.zip_eq_zip_take_min, List.zip_eq_zip_take_min (l₁ := v)]
    have : min (v ++ s).length (g ++ []).length = min v.length g.length := by
      rw [List.length_append, List.append_nil]; omega
    rw [this, List.append_nil, List.take_append_of_le_length (by omega)]
  unfold Nova.commit
  rw [key, key]

/-- **C97, coverage of the witness is false.** For every curve and every step function the library accepts there is a step function
computing the same values for which `setup` makes a shorter key than the witness, and then two witnesses of the length `setup`
fixes, one different from the other, have the same commitment under every key of the length `setup` asks for. -/
theorem C97_covers_witness_refuted {p q : Nat} [Fact p.Prime] [Fact q.Prime] {b : ZMod q} [Module (ZMod p) (curve b).Point]
    {D : Driver p q (curve b).Point} (hD : D.Ok) {FC : FnCircuit (ZMod q)} (hF : FC.Ok) (isPrimary : Bool) :
    ∃ FC' : FnCircuit (ZMod q), FC'.Ok ∧ FC'.invoke = FC.invoke ∧ ∃ S, setupShape D FC' isPrimary = some S ∧
      2 ^ keyLog S.m + 1 < S.witnessLength ∧
      ∀ {G' : Type} [AddCommGroup G'] [Module (ZMod q) G'] (key : List G'), key.length = 2 ^ keyLog S.m + 1 →
        ∃ w w' : List (ZMod q), w ≠ w' ∧ w.length = S.witnessLength ∧ w'.length = S.witnessLength ∧ Nova.commit key w = Nova.commit key w' := by
  obtain ⟨K, hK⟩ := generate_pad D FC (⟨isPrimary, 0, [0], none, none, none, none⟩ : Augmented p q (curve b).Point)
  refine ⟨padFn FC (2 * K + 3), padFn_ok hF _, rfl, ?_⟩
  obtain ⟨S, hS, -⟩ := setupShape_some hD (padFn_ok hF (2 * K + 3)) isPrimary
  have hlt : 2 ^ keyLog S.m + 1 < S.witnessLength := by
    unfold setupShape at hS
    rw [Option.bind_eq_bind, Option.bind_eq_some_iff] at hS
    obtain ⟨⟨o, c⟩, h1, h2⟩ := hS
    obtain ⟨k1, k2⟩ := hK _ _ _ h1
    cases h2
    have k3 := clog_bound c.cons.length
    have k4 : (Shape.ofCS c).m = c.cons.length := rfl
    have k5 : (Shape.ofCS c).witnessLength = c.w.length := rfl
    rw [k4, k5]
    omega
  refine ⟨S, hS, hlt, ?_⟩
  intro G' _ _ key hkey
  refine ⟨List.replicate (S.witnessLength - 1) 0 ++ [0], List.replicate (S.witnessLength - 1) 0 ++ [1], ?_, ?_, ?_, ?_⟩
  · intro h
    have := List.append_cancel_left h
    simp at this
  · simp; omega
  · simp; omega
  · exact commit_beyond _ _ _ _ (by rw [List.length_replicate]; omega)

/-- Non-vacuity: the cycle of the test suite, with any MiMC constants. -/
example (fp : CarryBits) (k1 : List FrV) (k2 : List FqV) :
    ∃ FC' : FnCircuit FrV, FC'.Ok ∧ FC'.invoke = (exampleFn FrV).invoke ∧
      ∃ S, setupShape (bn254Cycle fp k1 k2).D1 FC' true = some S ∧ 2 ^ keyLog S.m + 1 < S.witnessLength := by
  obtain ⟨F, h1, h2, S, h3, h4, -⟩ := C97_covers_witness_refuted (bn254Cycle_ok fp k1 k2).D1 (bn254Cycle_ok fp k1 k2).FC1 true
  exact ⟨F, h1, h2, S, h3, h4⟩

end Props

end Kogarashi
