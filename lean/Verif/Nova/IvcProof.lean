import Verif.Nova.Ivc
import Verif.Nova.CircuitProof
import Verif.Nova.Coherent
import Verif.Nova.NoInst
import Verif.Props.Folding

/-!
# The invariant of the incremental prover
-/

set_option exponentiation.threshold 1600

namespace Kogarashi.Nova

open Spec Curve Props

/-! ## Shapes -/

section
variable {F G : Type} [Field F] [DecidableEq F] [AddCommGroup G] [Module F G] [DecidableEq G]

/-- The matrices mention the constant wire and witness wires only. -/
structure ShapeOk (S : Shape F) : Prop where
  wires : ∀ r ∈ S.a ++ S.b ++ S.c, ∀ e ∈ r, e.1 = .inst 0 ∨ ∃ i, e.1 = .wit i ∧ i < S.witnessLength
  a : S.a.length = S.m
  b : S.b.length = S.m
  c : S.c.length = S.m
  inst : S.instanceLength = 2

theorem ShapeOk.fits {S : Shape F} (h : ShapeOk S) (x : List F) {w : List F} (hw : w.length = S.witnessLength) : Fits S x w := by
  refine ⟨fun r hr e he => ?_, h.a.le, h.b.le, h.c.le⟩
  rcases h.wires r hr e he with h1 | ⟨i, h1, h2⟩
  · rw [h1]; exact Nat.zero_le _
  · rw [h1]; show i < w.length; omega

theorem ShapeOk.rowVal {S : Shape F} (h : ShapeOk S) (u : F) (x x' w : List F) {r : Row F} (hr : r ∈ S.a ++ S.b ++ S.c) :
    rowVal (relaxedAsg u x w) r = rowVal (relaxedAsg u x' w) r := by
  refine Row.rowVal_congr fun e he => ?_
  rcases h.wires r hr e he with h1 | ⟨i, h1, _⟩ <;> rw [h1] <;> rfl

theorem getD_mem_or {α : Type} (l : List α) (d : α) (i : Nat) : l.getD i d ∈ l ∨ l.getD i d = d := by
  rw [List.getD_eq_getElem?_getD]
  cases h : l[i]? with
  | none => right; rfl
  | some a => left; exact List.mem_of_getElem? h

theorem ShapeOk.rowVal_getD {S : Shape F} (h : ShapeOk S) (u : F) (x x' w : List F) {l : List (Row F)}
    (hl : ∀ r ∈ l, r ∈ S.a ++ S.b ++ S.c) (i : Nat) :
    Spec.rowVal (relaxedAsg u x w) (l.getD i []) = Spec.rowVal (relaxedAsg u x' w) (l.getD i []) := by
  rcases getD_mem_or l [] i with h1 | h1
  · exact h.rowVal u x x' w (hl _ h1)
  · rw [h1]; rfl

theorem ShapeOk.plain {S : Shape F} (h : ShapeOk S) {x w : List F} (x' : List F) (hp : PlainHolds S x w) : PlainHolds S x' w := by
  intro i hi
  rw [h.rowVal_getD 1 x' x w (l := S.a) (by intro r hr; simp [hr]), h.rowVal_getD 1 x' x w (l := S.b) (by intro r hr; simp [hr]),
    h.rowVal_getD 1 x' x w (l := S.c) (by intro r hr; simp [hr])]
  exact hp i hi

theorem ShapeOk.isSat_iff {S : Shape F} (h : ShapeOk S) {ck : List G} {i : Inst F G} {w : List F} (hw : w.length = S.witnessLength) :
    isSat S ck i w = some true ↔ PlainHolds S i.x w ∧ i.commitW = commit ck w := by
  obtain ⟨b, hb, hiff⟩ := C50_is_sat (ck := ck) (h.fits i.x hw)
  rw [hb, ← hiff]; simp

theorem ShapeOk.isSat_any {S : Shape F} (h : ShapeOk S) {ck : List G} {i : Inst F G} {w : List F} (hw : w.length = S.witnessLength)
    (hs : isSat S ck i w = some true) (x' : List F) : isSat S ck ⟨i.commitW, x'⟩ w = some true := by
  rw [h.isSat_iff hw] at hs ⊢
  exact ⟨h.plain x' hs.1, hs.2⟩

theorem ShapeOk.relaxed_iff {S : Shape F} (h : ShapeOk S) {i : RInst F G} {w : RWit F} (hw : w.w.length = S.witnessLength)
    (he : w.e.length = S.m) : isSatRelaxed S i w = some true ↔ RelaxedHolds S i.u i.x w.w w.e := by
  obtain ⟨b, hb, hiff⟩ := C50_is_sat_relaxed (G := G) (i := i) (h.fits i.x hw) he
  rw [hb, ← hiff]; simp

theorem ShapeOk.ofInst {S : Shape F} (h : ShapeOk S) {ck : List G} {i : Inst F G} {w : List F} (hw : w.length = S.witnessLength)
    (hs : isSat S ck i w = some true) : isSatRelaxed S (RInst.ofInst i) (RWit.ofWit S w) = some true := by
  rw [h.relaxed_iff hw (by simp [RWit.ofWit])]
  have := ((h.isSat_iff hw).mp hs).1
  intro k hk
  rw [show (RInst.ofInst i).u = 1 from rfl, show (RInst.ofInst i).x = i.x from rfl, show (RWit.ofWit S w).w = w from rfl, this k hk]
  simp [RWit.ofWit, List.getD_replicate]

theorem rowVal_zero {z : Assignment F} (hz : ∀ w, z w = 0) (r : Row F) : Spec.rowVal z r = 0 := by
  unfold Spec.rowVal
  refine List.sum_eq_zero fun v hv => ?_
  obtain ⟨e, _, rfl⟩ := List.mem_map.mp hv
  rw [hz, zero_mul]

theorem ShapeOk.dummy {S : Shape F} (h : ShapeOk S) (n : Nat) :
    isSatRelaxed S (RInst.dummy n : RInst F G) (RWit.dummy S.witnessLength S.m) = some true := by
  rw [h.relaxed_iff (by simp [RWit.dummy]) (by simp [RWit.dummy])]
  have hz : ∀ w, relaxedAsg (RInst.dummy n : RInst F G).u (RInst.dummy n : RInst F G).x (RWit.dummy S.witnessLength S.m : RWit F).w w = 0 := by
    intro w
    cases w with
    | inst i => cases i with
      | zero => rfl
      | succ i => simp [relaxedAsg, RInst.dummy]
    | wit i => simp [relaxedAsg, RWit.dummy]
  intro k hk
  rw [rowVal_zero hz, rowVal_zero hz, rowVal_zero hz]
  simp [RWit.dummy, List.getD_replicate]

theorem ofCS_sameShape {c1 c2 : CS F} (h : SameShape c1 c2) : Shape.ofCS c1 = Shape.ofCS c2 := by
  simp [Shape.ofCS, CS.m, CS.l, CS.matA, CS.matB, CS.matC, h.x, h.w, h.cons]

theorem Wf.init : Wf (CS.init : CS F) := ⟨rfl, by simp [CS.init]⟩

theorem satisfies_init : Satisfies (stored (CS.init : CS F)) CS.init := ⟨rfl, by simp [CS.init]⟩

theorem valueList_eq : ∀ {rows : List (Row F)} {vs : List F} {cs : CS F}, HasL cs rows vs → valueList rows cs = some (vs, cs)
  | [], [], _, _ => rfl
  | r :: rows, v :: vs, cs, h => by
    cases h with
    | cons h1 h2 =>
      unfold valueList
      rw [Circ.bind_eq (Circ.value_eq h1.ok), Circ.bind_eq (valueList_eq h2), h1.val]
      rfl

end

/-! ## One run of the augmented circuit -/

/-- What is assumed of a step function and its circuit: on one-element inputs the circuit, run honestly, computes
the function with satisfied constraints; its shape does not depend on the values; it adds no public inputs. -/
structure FnCircuit.Ok {q : Nat} [Fact q.Prime] (FC : FnCircuit (ZMod q)) : Prop where
  honest : FC.Honest
  shaped : FC.Shaped
  noInst : ∀ rows, NoInst (FC.invokeCs rows)
  length : ∀ v, v.length = 1 → (FC.invoke v).length = 1

theorem FnCircuit.Ok.iterate_length {q : Nat} [Fact q.Prime] {FC : FnCircuit (ZMod q)} (h : FC.Ok) {z : List (ZMod q)}
    (hz : z.length = 1) : ∀ n, (FC.invoke^[n] z).length = 1
  | 0 => hz
  | n + 1 => by rw [Function.iterate_succ_apply']; exact h.length _ (h.iterate_length hz n)

section
variable {p q : Nat} [Fact p.Prime] [Fact q.Prime] {b : ZMod q} [Module (ZMod p) (curve b).Point]

/-- What is assumed of the driver: 254-bit fields, the curve's constants, no point of order two. -/
structure Driver.Ok (D : Driver p q (curve b).Point) : Prop where
  q254 : BitParams q 254
  p254 : BitParams p 254
  noTwo : NoOrderTwo b
  nb : D.nb = 254
  b3 : D.b3 = b + b + b
  env : CurveEnv D.env

theorem BitParams.two_ne (B : BitParams q 254) : (2 : ZMod q) ≠ 0 := by
  intro h
  have h1 : (((2 : Nat) : ZMod q)).val = 2 := val_cast_lt (B.big (n := 2) (by norm_num))
  rw [show (((2 : Nat) : ZMod q)) = 0 from by exact_mod_cast h, ZMod.val_zero] at h1
  omega

theorem generate_run {D : Driver p q (curve b).Point} (hD : D.Ok) {FC : FnCircuit (ZMod q)} (hF : FC.Ok)
    {A : Augmented p q (curve b).Point} {v0 v1 : ZMod p} (g : A.Good D.env v0 v1) :
    ∃ rows cs next, A.generate D FC CS.init = some (rows, cs) ∧ Wf cs ∧ Satisfies (stored cs) cs ∧
      HasL cs rows (FC.invoke (A.zi.getD A.z0)) ∧ nextInst D.env A = some next ∧
      cs.x = [1, reread v1, ((hashNat D.env next (A.i + 1) A.z0 (FC.invoke (A.zi.getD A.z0)) : Nat) : ZMod q)] ∧
      ∀ k ∈ cs.cons, ∀ r ∈ [k.a, k.b, k.c], ∀ e ∈ r, e.1 = .inst 0 ∨ ∃ i, e.1 = .wit i ∧ i < cs.w.length := by
  obtain ⟨o, c0, hrun, ⟨next, hn, h1, h2, h3⟩, e0, w0, s0⟩ := HP.satisfied Wf.init
    (body_hp hD.q254 hD.p254 hD.q254.two_ne hD.noTwo hD.nb hD.b3 hD.env hF.honest g Wf.init)
  have hx0 : c0.x = [1] := NoInst.body D hF.noInst A _ _ _ hrun
  obtain ⟨_, c1, hr1, hc1, e1, w1, s1⟩ := HP.satisfied w0 (HP.inputize w0 h1)
  obtain ⟨_, c2, hr2, hc2, e2, w2, s2⟩ := HP.satisfied w1 (HP.inputize w1 (h2.mono e1))
  refine ⟨o.2.2, c2, next, ?_, w2, s2 (s1 (s0 satisfies_init)), (h3.mono e1).mono e2, hn, ?_, ?_⟩
  · unfold Augmented.generate
    rw [Circ.bind_eq hrun]
    obtain ⟨o1, o2, o3⟩ := o
    dsimp only
    rw [Circ.bind_eq hr1, Circ.bind_eq hr2]
    rfl
  · rw [hc2, hc1, hx0]; rfl
  · have hcons : c2.cons = c0.cons := by rw [hc2, hc1]
    have hw : c2.w = c0.w := by rw [hc2, hc1]
    rw [hcons, hw]
    intro k hk r hr e he
    have hok := w0.rows k hk
    have hal : Allocated c0 e.1 := by
      simp only [List.mem_cons, List.not_mem_nil, or_false] at hr
      rcases hr with rfl | rfl | rfl
      · exact hok.a.allocated e he
      · exact hok.b.allocated e he
      · exact hok.c.allocated e he
    cases hw' : e.1 with
    | inst i =>
      rw [hw'] at hal
      have : i < c0.x.length := hal
      rw [hx0] at this
      left
      have : i = 0 := by simpa using this
      rw [this]
    | wit i =>
      rw [hw'] at hal
      exact Or.inr ⟨i, rfl, hal⟩

theorem good_setup (hp : BitParams p 254) (E : Env q (curve b).Point) (isPrimary : Bool) {z0 : List (ZMod q)} (hz : z0.length = 1) :
    (⟨isPrimary, 0, z0, none, none, none, none⟩ : Augmented p q (curve b).Point).Good E 0 0 where
  i := by norm_num
  zi := hz
  single := rfl
  lt0 := by rw [ZMod.val_zero]; norm_num
  lt1 := by rw [ZMod.val_zero]; norm_num
  range := rfl
  u := by
    have := hp.big (n := 2 ^ 128) (by norm_num)
    show (0 : ZMod p).val + 2 ^ 128 ≤ p
    rw [ZMod.val_zero]; omega
  link := Or.inl rfl

theorem setupShape_some {D : Driver p q (curve b).Point} (hD : D.Ok) {FC : FnCircuit (ZMod q)} (hF : FC.Ok) (isPrimary : Bool) :
    ∃ S, setupShape D FC isPrimary = some S ∧ ShapeOk S := by
  obtain ⟨rows, cs, next, hrun, wf, _, _, _, hx, hwires⟩ := generate_run hD hF
    (good_setup (b := b) hD.p254 D.env isPrimary (z0 := [0]) rfl)
  refine ⟨Shape.ofCS cs, ?_, ?_⟩
  · unfold setupShape; rw [hrun]; rfl
  · refine ⟨?_, by simp [Shape.ofCS, CS.matA, CS.m], by simp [Shape.ofCS, CS.matB, CS.m], by simp [Shape.ofCS, CS.matC, CS.m], ?_⟩
    · intro r hr e he
      simp only [Shape.ofCS, CS.matA, CS.matB, CS.matC, List.mem_append, List.mem_map] at hr
      rcases hr with (⟨k, hk, rfl⟩ | ⟨k, hk, rfl⟩) | ⟨k, hk, rfl⟩
      · exact hwires k hk k.a (by simp) e he
      · exact hwires k hk k.b (by simp) e he
      · exact hwires k hk k.c (by simp) e he
    · simp [Shape.ofCS, CS.l, hx]

theorem runCircuit_spec {G' : Type} [AddCommGroup G'] [Module (ZMod q) G'] [DecidableEq G'] {D : Driver p q (curve b).Point}
    (hD : D.Ok) {FC : FnCircuit (ZMod q)} (hF : FC.Ok) {A : Augmented p q (curve b).Point} {v0 v1 : ZMod p}
    (g : A.Good D.env v0 v1) (hz : A.z0.length = 1) {S : Shape (ZMod q)} (hS : setupShape D FC A.isPrimary = some S)
    (hok : ShapeOk S) (ck : List G') :
    ∃ next w u, nextInst D.env A = some next ∧
      runCircuit D FC A S ck = some (u, w, FC.invoke (A.zi.getD A.z0)) ∧
      u.x = [reread v1, ((hashNat D.env next (A.i + 1) A.z0 (FC.invoke (A.zi.getD A.z0)) : Nat) : ZMod q)] ∧
      w.length = S.witnessLength ∧ isSat S ck u w = some true := by
  obtain ⟨rows, cs, next, hrun, wf, hsat, hrows, hn, hx, hwires⟩ := generate_run hD hF g
  unfold setupShape at hS
  simp only [Option.bind_eq_bind, Option.bind_eq_some_iff, Option.some.injEq] at hS
  obtain ⟨⟨rows', cs'⟩, hrun', hS⟩ := hS
  obtain ⟨_, hshape⟩ := generate_coh D hF.shaped (A := A) (A' := ⟨A.isPrimary, 0, [0], none, none, none, none⟩) rfl
    (by simpa using hz) (by simpa using g.zi) CS.init CS.init rows rows' cs cs' ⟨rfl, rfl, rfl⟩ hrun hrun'
  have hS' : S = Shape.ofCS cs := by rw [ofCS_sameShape hshape]; exact hS.symm
  have hwl : cs.w.length = S.witnessLength := by rw [hS']; rfl
  have hinst : instanceAndWitness cs S ck = some (⟨commit ck cs.w, cs.x.drop 1⟩, cs.w) := by
    unfold instanceAndWitness
    rw [if_pos ⟨hwl, by rw [hS']; rfl, by rw [hok.inst, hx]; rfl⟩]
  refine ⟨next, cs.w, ⟨commit ck cs.w, cs.x.drop 1⟩, hn, ?_, ?_, hwl, ?_⟩
  · unfold runCircuit
    rw [hrun]
    simp only [Option.bind_eq_bind, Option.bind_some]
    rw [hinst]
    simp only [Option.bind_some]
    rw [valueList_eq hrows]
    rfl
  · show cs.x.drop 1 = _
    rw [hx]; rfl
  · rw [hok.isSat_iff hwl]
    refine ⟨?_, rfl⟩
    have key : ∀ k ∈ cs.cons, ∀ r ∈ [k.a, k.b, k.c], rowVal (relaxedAsg 1 (cs.x.drop 1) cs.w) r = rowVal (stored cs) r := by
      intro k hk r hr
      refine Row.rowVal_congr fun e he => ?_
      rcases hwires k hk r hr e he with h1 | ⟨i, h1, h2⟩
      · rw [h1]; exact hsat.1.symm
      · rw [h1]
        show cs.w.getD i 0 = (cs.get (.wit i)).getD 0
        rw [List.getD_eq_getElem?_getD]; rfl
    intro i hi
    rw [hS'] at hi ⊢
    have hi' : i < cs.cons.length := hi
    simp only [Shape.ofCS, CS.matA, CS.matB, CS.matC]
    rw [List.getD_eq_getElem _ _ (by simpa using hi'), List.getD_eq_getElem _ _ (by simpa using hi'),
      List.getD_eq_getElem _ _ (by simpa using hi')]
    simp only [List.getElem_map]
    have hk := List.getElem_mem hi'
    rw [key _ hk _ (by simp), key _ hk _ (by simp), key _ hk _ (by simp)]
    exact hsat.2 _ hk

theorem prove_spec {G : Type} [AddCommGroup G] [Module (ZMod p) G] [DecidableEq G] (hp : p ≤ 2 ^ 256) (E : Env q G)
    {S : Shape (ZMod p)} {ck : List G} {i1 : RInst (ZMod p) G} {w1 : RWit (ZMod p)} {i2 : Inst (ZMod p) G} {w2 : List (ZMod p)}
    (h1 : isSatRelaxed S i1 w1 = some true) (h2 : isSat S ck i2 w2 = some true)
    (hx : i1.x.length = i2.x.length) (hw : w1.w.length = w2.length) :
    ∃ i' w' T, prove E S ck i1 w1 i2 w2 = some (i', w', T) ∧ isSatRelaxed S i' w' = some true ∧
      i'.x.length = i1.x.length ∧ w'.w.length = w1.w.length ∧
      i1.fold i2 ((challengeNat E T i1 : Nat) : ZMod p) T = some i' := by
  obtain ⟨i', w', T, h3, h4, h5, h6⟩ := C50_prove hp E h1 h2 hx hw
  refine ⟨i', w', T, h3, h4, h5, h6, ?_⟩
  have := C51_agree h3
  unfold verify at this
  rw [challenge_eq hp] at this
  exact this

theorem fold_u {G : Type} [AddCommGroup G] [Module (ZMod p) G] [DecidableEq G] (hp : BitParams p 254) {i1 i' : RInst (ZMod p) G} {i2 : Inst (ZMod p) G} {T : G}
    {r n : Nat} (hr : r < 2 ^ 128) (h : i1.fold i2 (r : ZMod p) T = some i') (hu : i1.u.val ≤ n * 2 ^ 128) (hn : n < 2 ^ 64) :
    i'.u.val ≤ (n + 1) * 2 ^ 128 := by
  obtain ⟨-, rfl⟩ := RInst.fold_some h
  have hb := hp.big (n := 2 ^ 200) (by norm_num)
  have hrp : r < p := lt_trans (lt_trans hr (by norm_num)) hb
  have h64 : n * 2 ^ 128 + 2 ^ 128 ≤ 2 ^ 200 := by
    exact le_trans (Nat.add_le_add_right (Nat.mul_le_mul_right _ hn.le) _) (by norm_num : 2 ^ 64 * 2 ^ 128 + 2 ^ 128 ≤ 2 ^ 200)
  show (i1.u + (r : ZMod p)).val ≤ _
  rw [ZMod.val_add_of_lt (by rw [val_cast_lt hrp]; omega), val_cast_lt hrp]
  omega

end

/-! ## The invariant -/

section
variable {P S : Nat} [Fact P.Prime] [Fact S.Prime] {b1 : ZMod S} {b2 : ZMod P}
  [Module (ZMod P) (curve b1).Point] [Module (ZMod S) (curve b2).Point]

/-- What is assumed of the curve cycle and the two step functions. -/
structure Cycle.Ok (C : Cycle P S (curve b1).Point (curve b2).Point) : Prop where
  D1 : C.D1.Ok
  D2 : C.D2.Ok
  FC1 : C.FC1.Ok
  FC2 : C.FC2.Ok

/-- The public parameters come from `setup`. -/
structure PublicParams.Ok (C : Cycle P S (curve b1).Point (curve b2).Point) (pp : PublicParams P S (curve b1).Point (curve b2).Point) : Prop where
  setup1 : setupShape C.D1 C.FC1 true = some pp.shape1
  setup2 : setupShape C.D2 C.FC2 false = some pp.shape2
  ok1 : ShapeOk pp.shape1
  ok2 : ShapeOk pp.shape2

theorem setup_some {C : Cycle P S (curve b1).Point (curve b2).Point} (hC : C.Ok) (gen1 : Nat → List (curve b1).Point)
    (gen2 : Nat → List (curve b2).Point) : ∃ pp, setup C gen1 gen2 = some pp ∧ pp.Ok C := by
  obtain ⟨s1, h1, k1⟩ := setupShape_some hC.D1 hC.FC1 true
  obtain ⟨s2, h2, k2⟩ := setupShape_some hC.D2 hC.FC2 false
  refine ⟨⟨s1, s2, gen1 (keyLog s1.m), gen2 (keyLog s2.m)⟩, ?_, h1, h2, k1, k2⟩
  unfold setup; rw [h1, h2]; rfl

theorem setup_ok {C : Cycle P S (curve b1).Point (curve b2).Point} (hC : C.Ok) {gen1 : Nat → List (curve b1).Point}
    {gen2 : Nat → List (curve b2).Point} {pp : PublicParams P S (curve b1).Point (curve b2).Point} (h : setup C gen1 gen2 = some pp) :
    pp.Ok C := by
  obtain ⟨pp', h', k⟩ := setup_some hC gen1 gen2
  rw [h'] at h; cases h; exact k

/-- After `n ≥ 1` steps. -/
structure Inv (C : Cycle P S (curve b1).Point (curve b2).Point) (pp : PublicParams P S (curve b1).Point (curve b2).Point)
    (z01 : List (ZMod P)) (z02 : List (ZMod S)) (n : Nat) (st : Ivc P S (curve b1).Point (curve b2).Point) : Prop where
  start1 : st.z01 = z01
  start2 : st.z02 = z02
  zi1 : st.zi1 = C.FC1.invoke^[n] z01
  zi2 : st.zi2 = C.FC2.invoke^[n] z02
  sat0 : isSat pp.shape2 pp.ck2 st.single2 st.wsingle2 = some true
  sat1 : isSatRelaxed pp.shape1 st.range1 st.wrange1 = some true
  sat2 : isSatRelaxed pp.shape2 st.range2 st.wrange2 = some true
  x : st.single2.x = [((hashNat C.D1.env st.range2 n z01 st.zi1 : Nat) : ZMod S),
    ((hashNat C.D2.env st.range1 n z02 st.zi2 : Nat) : ZMod S)]
  l0 : st.wsingle2.length = pp.shape2.witnessLength
  l1 : st.wrange1.w.length = pp.shape1.witnessLength
  l2 : st.wrange2.w.length = pp.shape2.witnessLength
  x1 : st.range1.x.length = 2
  x2 : st.range2.x.length = 2
  u1 : st.range1.u.val ≤ n * 2 ^ 128
  u2 : st.range2.u.val ≤ n * 2 ^ 128

variable {C : Cycle P S (curve b1).Point (curve b2).Point} {pp : PublicParams P S (curve b1).Point (curve b2).Point}
  {z01 : List (ZMod P)} {z02 : List (ZMod S)}

theorem val_hash {p : Nat} [Fact p.Prime] (hp : BitParams p 254) {n : Nat} (h : n < 2 ^ 252) : ((n : Nat) : ZMod p).val = n :=
  val_cast_lt (lt_trans h (hp.big (by norm_num)))

theorem init_inv (hC : C.Ok) (hpp : pp.Ok C) (h1 : z01.length = 1) (h2 : z02.length = 1) :
    ∃ st, ivcInit C pp z01 z02 = some st ∧ st.i = 0 ∧ Inv C pp z01 z02 1 st := by
  obtain ⟨n1, w1, u1, hn1, hr1, hx1, hl1, hs1⟩ := runCircuit_spec hC.D1 hC.FC1
    (good_setup hC.D1.p254 C.D1.env true h1) h1 hpp.setup1 hpp.ok1 pp.ck1
  have hn1' : n1 = RInst.dummy 2 := by
    have : some (RInst.dummy 2) = some n1 := hn1
    cases this; rfl
  subst hn1'
  have g2 : (⟨false, 0, z02, none, some u1, none, none⟩ : Augmented P S (curve b1).Point).Good C.D2.env
      0 ((hashNat C.D1.env (RInst.dummy 2 : RInst (ZMod S) (curve b2).Point) 1 z01 (C.FC1.invoke z01) : Nat) : ZMod P) := by
    have g := good_setup (b := b1) hC.D2.p254 C.D2.env false h2
    refine ⟨g.i, g.zi, ?_, g.lt0, ?_, g.range, g.u, Or.inl rfl⟩
    · show u1.x = _
      rw [hx1]
      congr 1
      have := reread_nat (p := S) (q := P) hC.D2.q254.lt256 (n := 0) (Fact.out : S.Prime).pos
      simpa using this
    · rw [val_hash hC.D2.p254 (hashNat_lt _ _ _ _ _)]; exact hashNat_lt _ _ _ _ _
  obtain ⟨n2, w2, u2, hn2, hr2, hx2, hl2, hs2⟩ := runCircuit_spec hC.D2 hC.FC2 g2 h2 hpp.setup2 hpp.ok2 pp.ck2
  have hn2' : n2 = RInst.ofInst u1 := by
    have : some (RInst.ofInst u1) = some n2 := hn2
    cases this; rfl
  subst hn2'
  refine ⟨⟨0, z01, z02, C.FC1.invoke z01, C.FC2.invoke z02, u2, w2, RInst.ofInst u1, RWit.ofWit pp.shape1 w1, RInst.dummy 2, RWit.dummy pp.shape2.witnessLength pp.shape2.m⟩, ?_, rfl, ?_⟩
  · unfold ivcInit
    rw [hr1]
    simp only [Option.bind_eq_bind, Option.bind_some]
    rw [hr2, hpp.ok2.inst]
    rfl
  · refine ⟨rfl, rfl, rfl, rfl, hs2, hpp.ok1.ofInst hl1 hs1, hpp.ok2.dummy 2, ?_, hl2, hl1, by simp [RWit.dummy], ?_, rfl, ?_, ?_⟩
    · show u2.x = _
      rw [hx2]
      congr 1
      exact reread_nat hC.D2.p254.lt256 (lt_trans (hashNat_lt _ _ _ _ _) (hC.D2.p254.big (by norm_num)))
    · show u1.x.length = 2
      rw [hx1]; rfl
    · show (1 : ZMod P).val ≤ _
      rw [ZMod.val_one'' (by have := hC.D2.p254.big (n := 1) (by norm_num); omega)]
      norm_num
    · show (0 : ZMod S).val ≤ _
      rw [ZMod.val_zero]; omega

theorem step_inv (hC : C.Ok) (hpp : pp.Ok C) (h1 : z01.length = 1) (h2 : z02.length = 1) {n : Nat} (hn0 : n ≠ 0) (hn : n < 2 ^ 64)
    {st : Ivc P S (curve b1).Point (curve b2).Point} (hi : st.i = n) (h : Inv C pp z01 z02 n st) :
    ∃ st', proveStep C pp st = some (st', st'.proof) ∧ st'.i = n + 1 ∧ Inv C pp z01 z02 (n + 1) st' := by
  have hlz1 : st.zi1.length = 1 := by rw [h.zi1]; exact hC.FC1.iterate_length h1 n
  have hlz2 : st.zi2.length = 1 := by rw [h.zi2]; exact hC.FC2.iterate_length h2 n
  have ubound : ∀ {p : Nat} [Fact p.Prime], BitParams p 254 → ∀ u, u ≤ n * 2 ^ 128 → u + 2 ^ 128 ≤ p := by
    intro p _ B u hu
    have hb := B.big (n := 2 ^ 200) (by norm_num)
    exact le_trans (le_trans (Nat.add_le_add (hu.trans (Nat.mul_le_mul_right _ hn.le)) le_rfl)
      (by norm_num : 2 ^ 64 * 2 ^ 128 + 2 ^ 128 ≤ 2 ^ 200)) hb.le
  -- fold the secondary instance
  obtain ⟨r2, wr2, t2, p2, ps2, px2, pw2, pf2⟩ := prove_spec hC.D2.q254.lt256 C.D1.env h.sat2 h.sat0
    (by rw [h.x2, h.x]; rfl) (by rw [h.l2, h.l0])
  -- the primary circuit
  have g1 : (⟨true, st.i, st.z01, some st.zi1, some st.single2, some st.range2, some t2⟩ : Augmented S P (curve b2).Point).Good
      C.D1.env ((hashNat C.D1.env st.range2 n z01 st.zi1 : Nat) : ZMod S) ((hashNat C.D2.env st.range1 n z02 st.zi2 : Nat) : ZMod S) := by
    refine ⟨by rw [hi]; exact hn, hlz1, h.x, ?_, ?_, h.x2, ubound hC.D2.q254 _ h.u2, Or.inr ?_⟩
    · rw [val_hash hC.D2.q254 (hashNat_lt _ _ _ _ _)]; exact hashNat_lt _ _ _ _ _
    · rw [val_hash hC.D2.q254 (hashNat_lt _ _ _ _ _)]; exact hashNat_lt _ _ _ _ _
    · rw [val_hash hC.D2.q254 (hashNat_lt _ _ _ _ _)]
      show _ = hashNat C.D1.env st.range2 st.i st.z01 st.zi1
      rw [hi, h.start1]
  obtain ⟨n1, w1, u1, hn1, hr1, hx1, hl1, hs1⟩ := runCircuit_spec hC.D1 hC.FC1 g1
    (by show st.z01.length = 1; rw [h.start1]; exact h1) hpp.setup1 hpp.ok1 pp.ck1
  have hn1' : n1 = r2 := by
    unfold nextInst at hn1
    rw [if_neg (by show st.i ≠ 0; rw [hi]; exact hn0)] at hn1
    have : some r2 = some n1 := pf2.symm.trans hn1
    cases this; rfl
  subst hn1'
  have hx1' : u1.x = [((hashNat C.D2.env st.range1 n z02 st.zi2 : Nat) : ZMod P),
      ((hashNat C.D1.env n1 (n + 1) z01 (C.FC1.invoke st.zi1) : Nat) : ZMod P)] := by
    rw [hx1]
    have := reread_nat (q := P) hC.D2.q254.lt256 (lt_trans (hashNat_lt C.D2.env st.range1 n z02 st.zi2) (hC.D2.q254.big (by norm_num)))
    rw [this]
    show [_, ((hashNat C.D1.env n1 (st.i + 1) st.z01 (C.FC1.invoke st.zi1) : Nat) : ZMod P)] = _
    rw [hi, h.start1]
  -- fold the primary instance
  obtain ⟨r1, wr1, t1, p1, ps1, px1, pw1, pf1⟩ := prove_spec hC.D1.q254.lt256 C.D2.env h.sat1 hs1
    (by rw [h.x1, hx1']; rfl) (by rw [h.l1, hl1])
  -- the secondary circuit
  have g2 : (⟨false, st.i, st.z02, some st.zi2, some u1, some st.range1, some t1⟩ : Augmented P S (curve b1).Point).Good
      C.D2.env ((hashNat C.D2.env st.range1 n z02 st.zi2 : Nat) : ZMod P) ((hashNat C.D1.env n1 (n + 1) z01 (C.FC1.invoke st.zi1) : Nat) : ZMod P) := by
    refine ⟨by rw [hi]; exact hn, hlz2, hx1', ?_, ?_, h.x1, ubound hC.D1.q254 _ h.u1, Or.inr ?_⟩
    · rw [val_hash hC.D1.q254 (hashNat_lt _ _ _ _ _)]; exact hashNat_lt _ _ _ _ _
    · rw [val_hash hC.D1.q254 (hashNat_lt _ _ _ _ _)]; exact hashNat_lt _ _ _ _ _
    · rw [val_hash hC.D1.q254 (hashNat_lt _ _ _ _ _)]
      show _ = hashNat C.D2.env st.range1 st.i st.z02 st.zi2
      rw [hi, h.start2]
  obtain ⟨n2, w2, u2, hn2, hr2, hx2, hl2, hs2⟩ := runCircuit_spec hC.D2 hC.FC2 g2
    (by show st.z02.length = 1; rw [h.start2]; exact h2) hpp.setup2 hpp.ok2 pp.ck2
  have hn2' : n2 = r1 := by
    unfold nextInst at hn2
    rw [if_neg (by show st.i ≠ 0; rw [hi]; exact hn0)] at hn2
    have : some r1 = some n2 := pf1.symm.trans hn2
    cases this; rfl
  subst hn2'
  refine ⟨{ st with i := st.i + 1, range1 := n2, wrange1 := wr1, range2 := n1, wrange2 := wr2, single2 := u2
                    wsingle2 := w2, zi1 := C.FC1.invoke st.zi1, zi2 := C.FC2.invoke st.zi2 }, ?_, by rw [← hi], ?_⟩
  · unfold proveStep
    rw [if_neg (by rw [hi]; exact hn0), p2]
    simp only [Option.bind_eq_bind, Option.bind_some]
    rw [hr1]
    simp only [Option.bind_some]
    rw [p1]
    simp only [Option.bind_some]
    rw [hr2]
    rfl
  · refine ⟨h.start1, h.start2, ?_, ?_, hs2, ps1, ps2, ?_, hl2, ?_, ?_, ?_, ?_, ?_, ?_⟩
    · rw [Function.iterate_succ_apply', ← h.zi1]
    · rw [Function.iterate_succ_apply', ← h.zi2]
    · show u2.x = _
      rw [hx2]
      have := reread_nat (q := S) hC.D1.q254.lt256 (lt_trans (hashNat_lt C.D1.env n1 (n + 1) z01 (C.FC1.invoke st.zi1)) (hC.D1.q254.big (by norm_num)))
      rw [this]
      show [_, ((hashNat C.D2.env n2 (st.i + 1) st.z02 (C.FC2.invoke st.zi2) : Nat) : ZMod S)] = _
      rw [hi, h.start2]
    · show wr1.w.length = _
      rw [pw1, h.l1]
    · show wr2.w.length = _
      rw [pw2, h.l2]
    · show n2.x.length = 2
      rw [px1, h.x1]
    · show n1.x.length = 2
      rw [px2, h.x2]
    · exact fold_u hC.D1.q254 (challengeNat_lt _ _ _) pf1 h.u1 hn
    · exact fold_u hC.D2.q254 (challengeNat_lt _ _ _) pf2 h.u2 hn

theorem Inv.verify (hC : C.Ok) {n : Nat} {st : Ivc P S (curve b1).Point (curve b2).Point} (hi : st.i = n)
    (h : Inv C pp z01 z02 n st) : st.proof.verify C pp = some true := by
  unfold RecursiveProof.verify Ivc.proof
  dsimp only
  rw [if_neg (by rw [h.x, h.x1, h.x2]; simp), hash_eq hC.D2.q254.lt256, hash_eq hC.D1.q254.lt256]
  simp only [Option.bind_eq_bind, Option.bind_some]
  rw [h.x]
  simp only [List.getElem?_cons_zero, List.getElem?_cons_succ, Option.bind_some]
  rw [if_neg]
  · rw [h.sat1]
    simp only [Option.bind_some, Bool.not_true]
    rw [h.sat2]
    simp only [Option.bind_some, Bool.not_true]
    exact h.sat0
  · rw [hi, h.start1, h.start2]
    have := reread_nat (q := P) hC.D2.q254.lt256 (lt_trans (hashNat_lt C.D2.env st.range1 n z02 st.zi2) (hC.D2.q254.big (by norm_num)))
    rw [this]
    simp

end

end Kogarashi.Nova
