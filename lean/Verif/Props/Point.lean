import Verif.R1cs.PointProof
import Verif.Props.R1cs
import Verif.Props.Curve

/-!
# Properties C37 and C38 (and C39 for points): the point gadget

`b + b + b` is `C::b3()`; `CircRep b (ptVal z p) P` says the rows `p` carry the point `P` under `z`.
-/

namespace Kogarashi.Props

open Kogarashi Spec Curve Field

variable {F : Type} [Field F] [DecidableEq F] {b : F}

/-! ### The two curves have no point of order two -/

theorem noOrderTwo_of_powMod {m : Nat} [hm : Fact m.Prime] {n : Nat} {b : ZMod m} (hb : b = -(n : ZMod m))
    (h3 : 3 ∣ m - 1) (h256 : (m - 1) / 3 < 2 ^ 256) (h0 : n % m ≠ 0)
    (h : powMod m 256 n ((m - 1) / 3) ≠ 1) : NoOrderTwo b := by
  intro x hx
  have hx3 : x ^ 3 = (n : ZMod m) := by rw [hb] at hx; linear_combination hx
  have hx0 : x ≠ 0 := by
    rintro rfl
    apply h0
    rw [← Nat.dvd_iff_mod_eq_zero, ← ZMod.natCast_eq_zero_iff, ← hx3]; simp
  apply h
  have h1 : ((n : ZMod m)) ^ ((m - 1) / 3) = 1 := by
    rw [← hx3, ← pow_mul, Nat.mul_div_cancel' h3, ZMod.pow_card_sub_one_eq_one hx0]
  have hm1 : 1 < m := hm.out.one_lt
  rw [powMod_eq _ _ _ _ h256]
  have : ((n ^ ((m - 1) / 3) : Nat) : ZMod m) = ((1 : Nat) : ZMod m) := by push_cast; exact h1
  rw [ZMod.natCast_eq_natCast_iff] at this
  rw [this]; exact Nat.mod_eq_of_lt hm1

set_option exponentiation.threshold 1600 in
/-- BN254 G1 has no point of order two, so the gadget's formulas are complete on it. -/
theorem g1_noOrderTwo : NoOrderTwo g1B :=
  noOrderTwo_of_powMod (n := fqParams.m - 3) (by
    rw [Nat.cast_sub (by decide +kernel), ZMod.natCast_self]; simp [g1B]) (by decide +kernel) (by decide +kernel)
    (by decide +kernel) (by decide +kernel)

set_option exponentiation.threshold 1600 in
/-- Neither has Grumpkin. -/
theorem grumpkin_noOrderTwo : NoOrderTwo grumpkinB :=
  noOrderTwo_of_powMod (n := 17) (by simp [grumpkinB]) (by decide +kernel) (by decide +kernel)
    (by decide +kernel) (by decide +kernel)

/-- The point over `ZMod 13` used in the examples: `(1, 4)` on `y² = x³ + 2`. -/
noncomputable def demoPoint : (curve (2 : ZMod 13)).Point :=
  .some 1 4 (nonsingular_of_eq (by decide) (by decide) (by decide) (by decide))

theorem demo_noOrderTwo : NoOrderTwo (2 : ZMod 13) := by unfold NoOrderTwo; decide

/-- Rows carrying it: `(2 : 8 : 2)`. -/
def demoPt : PointRow (ZMod 13) := ⟨Circ.const 2, Circ.const 8, Circ.const 2⟩

theorem demoPt_ok : PtOk demo demoPt :=
  ⟨Circ.const_ok demo_wf _, Circ.const_ok demo_wf _, Circ.const_ok demo_wf _⟩

theorem demoPt_rep : CircRep 2 (ptVal (stored demo) demoPt) demoPoint := by
  refine ⟨?_, ?_, ?_⟩ <;> decide

/-! ### C37 -/

theorem ptOk_of_shape {cs c : CS F} (sh : SameShape cs c) {p : PointRow F} (h : PtOk cs p) : PtOk c p :=
  ⟨sh.rowOk h.x, sh.rowOk h.y, sh.rowOk h.z⟩

/-- **C37, addition.** For every assignment satisfying the constraints, and whatever points the input rows
carry — equal, opposite, the identity — the output rows carry their sum; and every satisfying assignment of
the previous system extends. -/
theorem C37_add (h2 : (2 : F) ≠ 0) (hn : NoOrderTwo b) {cs : CS F} (wf : Wf cs) {p q : PointRow F}
    (hp : PtOk cs p) (hq : PtOk cs q) :
    ∃ out cs', Circ.ptAdd (b + b + b) p q cs = some (out, cs') ∧ PtOk cs' out ∧
      Implements cs cs' (fun z => ∀ P Q, CircRep b (ptVal z p) P → CircRep b (ptVal z q) Q →
        CircRep b (ptVal z out) (P + Q)) (fun _ => True) :=
  WP.implements (Uniform.ptAdd _ _ _) wf (fun _ sh w => (Circ.ptAdd_wp w _ (ptOk_of_shape sh hp) (ptOk_of_shape sh hq)).weaken
    (fun _ _ _ _ h _ => h) (fun _ z _ h P Q hP hQ => by rw [h]; exact rcbAdd_circ h2 hn hP hQ) id) (fun _ _ h => h)

/-- **C37, doubling.** -/
theorem C37_double (h2 : (2 : F) ≠ 0) (hn : NoOrderTwo b) {cs : CS F} (wf : Wf cs) {p : PointRow F}
    (hp : PtOk cs p) :
    ∃ out cs', Circ.ptDouble (b + b + b) p cs = some (out, cs') ∧ PtOk cs' out ∧
      Implements cs cs' (fun z => ∀ P, CircRep b (ptVal z p) P → CircRep b (ptVal z out) (P + P)) (fun _ => True) :=
  WP.implements (Uniform.ptDouble _ _) wf (fun _ sh w => (Circ.ptDouble_wp w _ (ptOk_of_shape sh hp)).weaken
    (fun _ _ _ _ h _ => h) (fun _ z _ h P hP => by rw [h]; exact doubleProj_circ h2 hn hP) id) (fun _ _ h => h)

/-- **C37, selection.** With a boolean selector the output carries the first point on 1, the second on 0. -/
theorem C37_select {cs : CS F} (wf : Wf cs) {p q : PointRow F} (hp : PtOk cs p) (hq : PtOk cs q) {s : Wire}
    (hs : Allocated cs s) :
    ∃ out cs', Circ.ptSelect p q s cs = some (out, cs') ∧ PtOk cs' out ∧
      Implements cs cs' (fun z => (z s = 1 → ptVal z out = ptVal z p) ∧ (z s = 0 → ptVal z out = ptVal z q))
        (fun _ => True) :=
  WP.implements (Uniform.ptSelect _ _ _) wf (fun _ sh w => (Circ.ptSelect_wp w (ptOk_of_shape sh hp) (ptOk_of_shape sh hq)
    ((sh.alloc _).mp hs)).weaken (fun _ _ _ _ h _ => h) (fun _ z _ h => ⟨fun e => by rw [h, e]; simp [ptVal],
      fun e => by rw [h, e]; simp [ptVal]⟩) id) (fun _ _ h => h)

/-- **C37, selection against the identity.** -/
theorem C37_select_identity {cs : CS F} (wf : Wf cs) {p : PointRow F} (hp : PtOk cs p) {s : Wire}
    (hs : Allocated cs s) :
    ∃ out cs', Circ.ptSelectIdentity p s cs = some (out, cs') ∧ PtOk cs' out ∧
      Implements cs cs' (fun z => (z s = 1 → ∀ P, CircRep b (ptVal z p) P → CircRep b (ptVal z out) P) ∧
        (z s = 0 → CircRep b (ptVal z out) 0)) (fun _ => True) :=
  WP.implements (Uniform.ptSelectIdentity _ _) wf (fun _ sh w => (Circ.ptSelectIdentity_wp w (ptOk_of_shape sh hp)
    ((sh.alloc _).mp hs)).weaken (fun _ _ _ _ h _ => h) (fun _ z _ h =>
      ⟨fun e P hP => by rw [h, e]; simpa [ptVal] using hP, fun e => by
        rw [h, e]; refine ⟨?_, ?_, ?_⟩ <;> simp⟩) id) (fun _ _ h => h)

theorem cross_iff {v q : Proj F} {P Q : (curve b).Point} (hv : CircRep b v P) (hq : CircRep b q Q) :
    (v.x * q.z = q.x * v.z ∧ v.y * q.z = q.y * v.z) ↔ P = Q := by
  constructor
  · rintro ⟨h1, h2⟩
    cases P with
    | zero =>
      cases Q with
      | zero => rfl
      | some x y hn =>
        exfalso
        rw [hv.2.1, mul_zero] at h2
        exact (mul_ne_zero hv.2.2 hq.1) h2
    | some x y hn =>
      cases Q with
      | zero =>
        exfalso
        rw [hq.2.1, mul_zero] at h2
        exact (mul_ne_zero hq.2.2 hv.1) h2.symm
      | some x' y' hn' =>
        obtain ⟨z1, e1, e2⟩ := hv
        obtain ⟨z2, f1, f2⟩ := hq
        rw [e1, f1] at h1
        rw [e2, f2] at h2
        have hx : x = x' := mul_right_cancel₀ (mul_ne_zero z1 z2) (by linear_combination h1)
        have hy : y = y' := mul_right_cancel₀ (mul_ne_zero z1 z2) (by linear_combination h2)
        subst hx hy; rfl
  · rintro rfl
    cases P with
    | zero => rw [hv.1, hv.2.1, hq.2.1, hq.1]; simp
    | some x y hn =>
      obtain ⟨-, e1, e2⟩ := hv
      obtain ⟨-, f1, f2⟩ := hq
      rw [e1, e2, f1, f2]
      exact ⟨by ring, by ring⟩

/-- **C37, `assert_equal_public_point`.** The constraints hold exactly when the two points are equal. -/
theorem C37_assert_equal_public {cs : CS F} (wf : Wf cs) {p : PointRow F} (hp : PtOk cs p) {q : Proj F}
    {Q : (curve b).Point} (hq : CircRep b q Q) :
    ∃ cs', Circ.ptAssertEqualPublic p q cs = some ((), cs') ∧
      Implements cs cs' (fun z => ∀ P, CircRep b (ptVal z p) P → P = Q) (fun z => CircRep b (ptVal z p) Q) := by
  obtain ⟨a, c, e, -, h⟩ := WP.implements (Uniform.ptAssertEqualPublic p q) wf (Post := fun _ _ => True)
    (S := fun _ z => ∀ P, CircRep b (ptVal z p) P → P = Q) (Pre := fun z => CircRep b (ptVal z p) Q)
    (fun _ sh w => (Circ.ptAssertEqualPublic_wp w (ptOk_of_shape sh hp) q).weaken (fun _ _ _ _ h _ => h)
      (fun _ z _ h P hP => (cross_iff hP hq).mp h) (fun h => (cross_iff h hq).mpr rfl))
    (fun z hz h => by
      unfold ptVal at h ⊢
      rwa [Circ.rowVal_withValues hp.x, Circ.rowVal_withValues hp.y, Circ.rowVal_withValues hp.z])
  exact ⟨c, e, h⟩

/-- **C37, allocation.** A point allocated as witness or as public input carries, in the honest assignment,
the native point it was allocated from. -/
theorem C37_allocate {cs : CS F} (wf : Wf cs) {a : Aff F} {P : (curve b).Point} (ha : AffRep b a P)
    (hid : a.isIdentity = true → a.x = 0 ∧ a.y ≠ 0) :
    (∃ out cs', Circ.ptInst a cs = some (out, cs') ∧ PtOk cs' out ∧ CircRep b (ptVal (stored cs') out) P) ∧
    (∃ out cs', Circ.ptWit a.x a.y a.isIdentity cs = some (out, cs') ∧ PtOk cs' out ∧
      CircRep b (ptVal (stored cs') out) P) := by
  have key : CircRep b (⟨a.x, a.y, if a.isIdentity then 0 else 1⟩ : Proj F) P := by
    cases P with
    | zero =>
      have h : a.isIdentity = true := ha
      exact ⟨(hid h).1, by simp [h], (hid h).2⟩
    | some x y hn =>
      obtain ⟨h1, h2, h3⟩ := ha
      have h1 : a.isIdentity = false := h1
      exact ⟨by simp [h1], by simp [h1, h2], by simp [h1, h3]⟩
  obtain ⟨o, c, e, ⟨h1, h2⟩, -⟩ := Circ.ptInst_wp wf a
  obtain ⟨o', c', e', ⟨h1', h2'⟩, -⟩ := Circ.ptWit_wp wf a.x a.y a.isIdentity
  exact ⟨⟨o, c, e, h1, h2 ▸ key⟩, ⟨o', c', e', h1', h2' ▸ key⟩⟩

/-- **C37, `descale`: what does hold.** The honest assignment normalises: the output carries the same point, with
third coordinate 1, or is `(0 : 1 : 0)`.  Missing: soundness, which is false (`C37_descale_refuted`). -/
theorem C37_descale_partial {cs : CS F} (wf : Wf cs) {p : PointRow F} (hp : PtOk cs p) {P : (curve b).Point}
    (hP : CircRep b (ptVal (stored cs) p) P) :
    ∃ out cs', Circ.ptDescale p cs = some (out, cs') ∧ PtOk cs' out ∧ CircRep b (ptVal (stored cs') out) P ∧
      ((ptVal (stored cs') out).z = 1 ∨ ptVal (stored cs') out = ⟨0, 1, 0⟩) ∧
      Implements cs cs' (fun _ => True) (fun _ => True) := by
  obtain ⟨o, c, e, ⟨h1, h2⟩, r⟩ := Circ.ptDescale_wp wf hp
  obtain ⟨o', c', e', -, hi⟩ := WP.implements (Uniform.ptDescale p) wf (Post := fun _ _ => True)
    (S := fun _ _ => True) (Pre := fun _ => True)
    (fun _ sh w => (Circ.ptDescale_wp w (ptOk_of_shape sh hp)).weaken (fun _ _ _ _ _ _ => trivial) (fun _ _ _ h => h) id)
    (fun _ _ h => h)
  obtain ⟨rfl, rfl⟩ : o' = o ∧ c' = c := by rw [e] at e'; simpa using e'.symm
  refine ⟨o', c', e, h1, ?_, ?_, hi⟩
  · rw [h2]
    cases P with
    | zero => rw [if_pos (show rowVal (stored cs) p.z = 0 from hP.2.1)]; exact ⟨rfl, rfl, one_ne_zero⟩
    | some x y hn =>
      obtain ⟨k1, k2, k3⟩ := hP
      simp only [ptVal] at k1 k2 k3
      rw [if_neg k1, k2, k3]
      exact ⟨one_ne_zero, by field_simp, by field_simp⟩
  · rw [h2]; split <;> simp

/-- **C37 is false of `descale`**: the inverse it multiplies by is a free witness, so for any `t` a satisfying
assignment gives the output `(x·t : y·t : 1)`, whatever the third coordinate of the input (not zero) is. -/
theorem C37_descale_refuted {cs : CS F} (wf : Wf cs) {p : PointRow F} (hp : PtOk cs p) {z : Assignment F}
    (hz : Satisfies z cs) (hne : rowVal z p.z ≠ 0) (t : F) :
    ∃ out cs' z', Circ.ptDescale p cs = some (out, cs') ∧ AgreeOn cs z z' ∧ Satisfies z' cs' ∧
      ptVal z' out = ⟨rowVal z p.x * t, rowVal z p.y * t, 1⟩ := by
  obtain ⟨px, py, pz⟩ := hp
  obtain ⟨tv, c1, z1, e1, ag1, sat1, v1⟩ := C35_is_neq_refuted wf pz (Circ.const_ok wf 0) hz
    (by rw [Circ.rowVal_const, mul_zero]; exact hne) 1
  obtain ⟨tv', c1', e1', al1, -, r1⟩ := Circ.isNeq_run wf pz (Circ.const_ok wf 0)
  obtain ⟨rfl, rfl⟩ : tv' = tv ∧ c1' = c1 := by rw [e1] at e1'; simpa using e1'.symm
  have pz1 := pz.mono r1.ext
  obtain ⟨mw, c2, e2, al2, na2, -, k2, r2⟩ := Circ.witWire_run r1.wf (rowVal (stored c1') p.z)⁻¹
  have e2' : Circ.wit (rowVal (stored c1') p.z)⁻¹ c1' = some (Row.ofWire mw, c2) := by
    simp only [Circ.witWire, Option.some.injEq, Prod.mk.injEq] at e2
    obtain ⟨rfl, rfl⟩ := e2; rfl
  obtain ⟨z2, ag2, sat2, v2⟩ := override_free r1.wf k2 na2 sat1 t
  have x02 := r1.ext.trans r2.ext
  -- the two products and the selection are complete gadgets
  obtain ⟨tx, c3, e3, ok3, h3⟩ := C32_mul r2.wf (px.mono x02) (RowOk.ofWire al2)
  obtain ⟨z3, ag3, sat3⟩ := h3.complete z2 sat2 trivial
  have w3 := (h3.sound z3 sat3).2
  obtain ⟨ty, c4, e4, ok4, h4⟩ := C32_mul h3.wf (py.mono (x02.trans h3.grows)) (RowOk.ofWire (h3.grows.alloc al2))
  obtain ⟨z4, ag4, sat4⟩ := h4.complete z3 sat3 trivial
  have w4 := (h4.sound z4 sat4).2
  have x24 := h3.grows.trans h4.grows
  have altv : Allocated c4 tv' := (r2.ext.trans x24).alloc al1
  obtain ⟨out, c5, e5, -, h5⟩ := WP.implements (Uniform.ptSelectIdentity ⟨tx, ty, Circ.const 1⟩ tv') h4.wf
    (Post := fun _ _ => True) (S := fun o z => ptVal z o = ⟨rowVal z tx * z tv', rowVal z ty * z tv' + 1 - z tv',
      rowVal z (Circ.const 1) * z tv'⟩) (Pre := fun _ => True)
    (fun _ sh w => (Circ.ptSelectIdentity_wp w (ptOk_of_shape sh ⟨ok3.mono h4.grows, ok4, Circ.const_ok h4.wf _⟩)
      ((sh.alloc _).mp altv)).weaken (fun _ _ _ _ _ _ => trivial) (fun _ _ _ h => h) id) (fun _ _ h => h)
  obtain ⟨z5, ag5, sat5⟩ := h5.complete z4 sat4 trivial
  have w5 := (h5.sound z5 sat5).2
  have agr : AgreeOn c2 z2 z5 := fun w hw =>
    (ag3 w hw).trans ((ag4 w (h3.grows.alloc hw)).trans (ag5 w (x24.alloc hw)))
  have ag : AgreeOn cs z z5 := fun w hw =>
    (ag1 w hw).trans ((ag2 w (r1.ext.alloc hw)).trans (agr w (x02.alloc hw)))
  refine ⟨out, c5, z5, ?_, ag, sat5, ?_⟩
  · unfold Circ.ptDescale
    rw [Circ.bind_eq e1, Circ.bind_eq (Circ.value_eq pz1), Circ.bind_eq e2', Circ.bind_eq e3, Circ.bind_eq e4]
    exact e5
  · have f1 : z5 tv' = 1 := by rw [← agr _ (r2.ext.alloc al1), ← ag2 _ al1, v1]
    have f2 : z5 mw = t := by rw [← agr _ al2, v2]
    have cong : ∀ {r : Row F}, RowOk cs r → rowVal z5 r = rowVal z r := fun h =>
      (Row.rowVal_congr (fun e he => ag _ (h.allocated e he))).symm
    have g3 : rowVal z5 tx = rowVal z5 p.x * z5 mw := by
      have a35 : AgreeOn c3 z3 z5 := fun w hw => (ag4 w hw).trans (ag5 w (h4.grows.alloc hw))
      rw [← Row.rowVal_congr (fun e he => a35 _ (ok3.allocated e he)), w3, Row.rowVal_ofWire,
        a35 _ (h3.grows.alloc al2),
        Row.rowVal_congr (fun e he => a35 _ ((px.mono (x02.trans h3.grows)).allocated e he))]
    have g4 : rowVal z5 ty = rowVal z5 p.y * z5 mw := by
      rw [← Row.rowVal_congr (fun e he => ag5 _ (ok4.allocated e he)), w4, Row.rowVal_ofWire,
        ag5 _ (x24.alloc al2),
        Row.rowVal_congr (fun e he => ag5 _ ((py.mono (x02.trans x24)).allocated e he))]
    rw [w5, f1, g3, g4, f2, cong px, cong py, Circ.rowVal_const, sat5.1]
    simp

example : PtOk demo demoPt ∧ CircRep 2 (ptVal (stored demo) demoPt) demoPoint ∧ NoOrderTwo (2 : ZMod 13) ∧
    (2 : ZMod 13) ≠ 0 ∧ Satisfies (stored demo) demo ∧ rowVal (stored demo) demoPt.z ≠ 0 ∧
    CircRep 2 (⟨1, 4, 1⟩ : Proj (ZMod 13)) demoPoint ∧ AffRep (2 : ZMod 13) ⟨1, 4, false⟩ demoPoint ∧
    Allocated demo (.wit 2) ∧ stored demo (.wit 2) = 1 :=
  ⟨demoPt_ok, demoPt_rep, demo_noOrderTwo, by decide, demo_sat, by decide, by refine ⟨?_, ?_, ?_⟩ <;> decide,
    ⟨rfl, rfl, rfl⟩, (by decide : 2 < 5), by decide⟩

/-! ### C38 -/

variable {m : Nat} [hm : Fact m.Prime]

theorem foldl_eq_beValue (ds : List Nat) : ds.foldl (fun acc d => 2 * acc + d) 0 = beValue 2 ds := rfl

theorem bits_wp {b : ZMod m} (h2 : (2 : ZMod m) ≠ 0) (hn : NoOrderTwo b) {p : PointRow (ZMod m)} {bits : List Wire}
    {c : CS (ZMod m)} (wf : Wf c) (hp : PtOk c p) (hb : ∀ s ∈ bits, Allocated c s) :
    WP c (Circ.ptScalarLoop (b + b + b) p bits Circ.ptIdentity) (fun o c => PtOk c o)
      (fun o z => ∀ (P : (curve b).Point) (n : Nat), CircRep b (ptVal z p) P → SpellBits z bits n →
        CircRep b (ptVal z o) (n • P)) True := by
  refine (Circ.ptScalarLoop_wp h2 hn bits wf hp hb (Circ.ptIdentity_ok wf)).weaken (fun _ _ _ _ h _ => h)
    (fun o z hz h P n hP hs => ?_) id
  obtain ⟨ds, hd, he, hv⟩ := hs
  have := h P 0 ds hP (by
    rw [zero_smul]
    refine ⟨?_, ?_, ?_⟩ <;> simp [ptVal, Circ.ptIdentity, Circ.rowVal_const, hz]) hd he
  rwa [foldl_eq_beValue, hv] at this

/-- **C38, what does hold.** For every satisfying assignment the output carries `n • P` for some `n` below the field
order, and the honest assignment has `n` the value of the scalar.  Missing: that every satisfying assignment has
that `n` — false, see `C38_scalar_refuted`. -/
theorem C38_scalar_partial {b : ZMod m} (h2 : (2 : ZMod m) ≠ 0) (hn : NoOrderTwo b) {nb : Nat} (hnb : nb ≤ 256)
    (hlo : 2 ^ (nb - 1) < m) (hhi : m ≤ 2 ^ nb) {cs : CS (ZMod m)} (wf : Wf cs) {p : PointRow (ZMod m)}
    (hp : PtOk cs p) {s : Row (ZMod m)} (hs : RowOk cs s) :
    ∃ out cs', Circ.ptScalar nb (b + b + b) p s cs = some (out, cs') ∧ PtOk cs' out ∧
      Implements cs cs' (fun z => ∀ P, CircRep b (ptVal z p) P → ∃ n, n < m ∧ CircRep b (ptVal z out) (n • P))
        (fun _ => True) ∧
      (∀ P, CircRep b (ptVal (stored cs) p) P →
        CircRep b (ptVal (stored cs') out) ((rowVal (stored cs) s).val • P)) := by
  have hm0 : 0 < m := hm.out.pos
  have main : ∀ c, SameShape cs c → Wf c → WP c (Circ.ptScalar nb (b + b + b) p s)
      (fun o c' => PtOk c' o ∧ (∀ P, CircRep b (ptVal (stored c) p) P →
        CircRep b (ptVal (stored c') o) ((rowVal (stored c) s).val • P)))
      (fun o z => ∀ P, CircRep b (ptVal z p) P → ∃ n, n < m ∧ CircRep b (ptVal z o) (n • P)) True := by
    intro c sh w
    obtain ⟨all, c1, bits, c2, -, -, -, e, hl, hal, -, hsp, r⟩ :=
      Circ.toBits_run w (sh.rowOk hs) hnb hlo hhi (n := 256) (by norm_num) le_rfl
    have hp2 := Circ.PtOk.mono (ptOk_of_shape sh hp) r.ext
    obtain ⟨o, c3, e3, ho, r3⟩ := bits_wp h2 hn r.wf hp2 hal
    refine ⟨o, c3, ?_, ⟨ho, fun P hP => ?_⟩, (r.trans r3).weaken (fun z hz h P hP => ?_) (fun h => ⟨h, h⟩)⟩
    · unfold Circ.ptScalar; rw [Circ.bind_eq e]; exact e3
    · have hpe : ptVal (stored c3) p = ptVal (stored c) p := by
        have hpc := ptOk_of_shape sh hp
        have x := r.ext.trans r3.ext
        unfold ptVal
        rw [x.rowVal_eq hpc.x, x.rowVal_eq hpc.y, x.rowVal_eq hpc.z]
      refine r3.at_stored trivial P _ (hpe ▸ hP) ?_
      obtain ⟨ds, hd, he, hv⟩ := hsp
      refine ⟨ds, hd, ?_, ?_⟩
      · rw [← he]
        exact List.map_congr_left (fun w hw => r3.ext.stored_eq (hal w hw))
      · rw [hv, Nat.mod_eq_of_lt]
        have : nb ≤ 256 := hnb
        calc (rowVal (stored c) s).val < m := ZMod.val_lt _
          _ ≤ 2 ^ nb := hhi
          _ ≤ 2 ^ 256 := Nat.pow_le_pow_right (by norm_num) hnb
    · obtain ⟨⟨n, hle, hsp⟩, h⟩ := h
      rw [if_neg (by omega)] at hle
      exact ⟨n, by omega, h P n hP hsp⟩
  obtain ⟨o, c, e, ⟨h1, h2⟩, -⟩ := main cs ⟨rfl, rfl, rfl⟩ wf
  obtain ⟨o', c', e', -, hi⟩ := WP.implements (Uniform.ptScalar nb (b + b + b) p s) wf (Post := fun _ _ => True)
    (S := fun o z => ∀ P, CircRep b (ptVal z p) P → ∃ n, n < m ∧ CircRep b (ptVal z o) (n • P)) (Pre := fun _ => True)
    (fun c sh w => (main c sh w).weaken (fun _ _ _ _ _ _ => trivial) (fun _ _ _ h => h) id) (fun _ _ h => h)
  obtain ⟨rfl, rfl⟩ : o' = o ∧ c' = c := by rw [e] at e'; simpa using e'.symm
  exact ⟨o', c', e, h1, hi, h2⟩

/-- **C38 is false as stated**: the decomposition is not tied to the scalar, so any multiple `n • P`, `n` below
the field order, is the output under some satisfying assignment with the same inputs. -/
theorem C38_scalar_refuted {b : ZMod m} (h2 : (2 : ZMod m) ≠ 0) (hn : NoOrderTwo b) {nb : Nat} (hnb : nb ≤ 256)
    (hlo : 2 ^ (nb - 1) < m) (hhi : m ≤ 2 ^ nb) {cs : CS (ZMod m)} (wf : Wf cs) {p : PointRow (ZMod m)}
    (hp : PtOk cs p) {s : Row (ZMod m)} (hs : RowOk cs s) {z : Assignment (ZMod m)} (hz : Satisfies z cs)
    {P : (curve b).Point} (hP : CircRep b (ptVal z p) P) {n : Nat} (hlt : n < m) :
    ∃ out cs' z', Circ.ptScalar nb (b + b + b) p s cs = some (out, cs') ∧ AgreeOn cs z z' ∧ Satisfies z' cs' ∧
      CircRep b (ptVal z' out) (n • P) := by
  obtain ⟨bits, c2, z2, e2, ag2, sat2, sp2⟩ := Circ.toBits_free wf hs hnb hlo hhi (n := 256) (by norm_num) le_rfl
    (m := n) (by rw [if_neg (by omega)]; omega) hz
  obtain ⟨all, c1, bits', c2', -, -, -, e, hl, hal, -, -, r⟩ :=
    Circ.toBits_run wf hs hnb hlo hhi (n := 256) (by norm_num) le_rfl
  obtain ⟨rfl, rfl⟩ : bits' = bits ∧ c2' = c2 := by rw [e] at e2; simpa using e2
  obtain ⟨o, c3, e3, -, hi⟩ := WP.implements (Uniform.ptScalarLoop (b + b + b) p bits' Circ.ptIdentity) r.wf
    (Post := fun _ _ => True) (S := fun o z => ∀ (P : (curve b).Point) (n : Nat), CircRep b (ptVal z p) P →
      SpellBits z bits' n → CircRep b (ptVal z o) (n • P)) (Pre := fun _ => True)
    (fun c sh w => (bits_wp h2 hn w (ptOk_of_shape sh (Circ.PtOk.mono hp r.ext)) (fun s h => (sh.alloc _).mp (hal s h))).weaken
      (fun _ _ _ _ _ _ => trivial) (fun _ _ _ h => h) id) (fun _ _ h => h)
  obtain ⟨z3, ag3, sat3⟩ := hi.complete z2 sat2 trivial
  have ag : AgreeOn cs z z3 := fun w hw => (ag2 w hw).trans (ag3 w (r.ext.alloc hw))
  refine ⟨o, c3, z3, ?_, ag, sat3, ?_⟩
  · unfold Circ.ptScalar; rw [Circ.bind_eq e]; exact e3
  · have cong : ∀ {r : Row (ZMod m)}, RowOk cs r → rowVal z3 r = rowVal z r := fun h =>
      (Row.rowVal_congr (fun e he => ag _ (h.allocated e he))).symm
    refine (hi.sound z3 sat3).2 P n ?_ ?_
    · unfold ptVal at hP ⊢
      rwa [cong hp.x, cong hp.y, cong hp.z]
    · obtain ⟨ds, hd, he, hv⟩ := sp2
      exact ⟨ds, hd, by rw [← he]; exact List.map_congr_left (fun w hw => (ag3 w (hal w hw)).symm), hv⟩

/-- The bounds on `NUM_BITS` of both drivers, and a case meeting every hypothesis. -/
example : (2 ^ (254 - 1) < fqParams.m ∧ fqParams.m ≤ 2 ^ 254) ∧ (2 ^ (254 - 1) < frParams.m ∧ frParams.m ≤ 2 ^ 254) ∧
    NoOrderTwo g1B ∧ NoOrderTwo grumpkinB ∧
    (2 ^ (4 - 1) < 13 ∧ 13 ≤ 2 ^ 4) ∧ RowOk demo demoRow ∧ CircRep 2 (ptVal (stored demo) demoPt) demoPoint :=
  ⟨by decide +kernel, by decide +kernel, g1_noOrderTwo, grumpkin_noOrderTwo, by decide, demo_row, demoPt_rep⟩

/-! ### C39 for the point gadget -/

/-- **C39, point gadgets.** -/
theorem C39_point_gadgets (b3 x y x' y' : F) (i i' : Bool) (a a' : Aff F) (p q : PointRow F) (v : Proj F) (s : Wire) :
    Uniform (Circ.ptInst a) (Circ.ptInst a') ∧ Uniform (Circ.ptWit x y i) (Circ.ptWit x' y' i') ∧
    Uniform (Circ.ptAdd b3 p q) (Circ.ptAdd b3 p q) ∧ Uniform (Circ.ptDouble b3 p) (Circ.ptDouble b3 p) ∧
    Uniform (Circ.ptSelect p q s) (Circ.ptSelect p q s) ∧
    Uniform (Circ.ptSelectIdentity p s) (Circ.ptSelectIdentity p s) ∧
    Uniform (Circ.ptDescale p) (Circ.ptDescale p) ∧
    Uniform (Circ.ptAssertEqualPublic p v) (Circ.ptAssertEqualPublic p v) :=
  ⟨.ptInst a a', .ptWit x y x' y' i i', .ptAdd b3 p q, .ptDouble b3 p, .ptSelect p q s, .ptSelectIdentity p s,
    .ptDescale p, .ptAssertEqualPublic p v⟩

/-- **C39, `scalar_point`.** -/
theorem C39_scalar_point (nb : Nat) (b3 : ZMod m) (p : PointRow (ZMod m)) (s : Row (ZMod m)) :
    Uniform (Circ.ptScalar nb b3 p s) (Circ.ptScalar nb b3 p s) := .ptScalar nb b3 p s

end Kogarashi.Props
