import Verif.Props.PrimeField
import Verif.Props.Curve

/-!
# Weierstrass points on machine words

`Curve/Weierstrass.lean` computes in a Lean field.  Here are the same routines of
`zkstd/src/arithmetic/points/weierstrass.rs` on coordinates `[u64; 4]`, with the field operations of the 256-bit back
end, `square` included, and the relation between the two.
-/

namespace Kogarashi.Curve.Limb

open Kogarashi Spec Kogarashi.Field Limbs Props

variable (P : FieldParams)

/-- `to_extended` (`macros/curve/weierstrass.rs` lines 33-43). -/
def toExtended (p : Aff L4) : Proj L4 := if p.inf then ⟨FieldParams.zero, P.one, FieldParams.zero⟩ else ⟨p.x, p.y, P.one⟩

/-- `double_affine_point` (`weierstrass.rs` lines 39-60). -/
def doubleAffine (b3 : L4) (p : Aff L4) : Proj L4 :=
  let t0 := P.square p.y
  let z3 := P.double (P.double (P.double t0))
  let x3 := P.mul b3 z3
  let y3 := P.add t0 b3
  let z3 := P.mul p.y z3
  let t1 := P.double b3
  let t2 := P.add t1 b3
  let t0 := P.sub t0 t2
  let y3 := P.mul t0 y3
  let y3 := P.add x3 y3
  let t1 := P.mul p.x p.y
  let x3 := P.mul t0 t1
  let x3 := P.double x3
  ⟨x3, y3, z3⟩

/-- `double_projective_point` (`arithmetic/points/weierstrass.rs` lines 140-163). -/
def doubleProj (b3 : L4) (p : Proj L4) : Proj L4 :=
  let t0 := P.square p.y
  let z3 := P.double (P.double (P.double t0))
  let t1 := P.mul p.y p.z
  let t2 := P.square p.z
  let t2 := P.mul t2 b3
  let x3 := P.mul t2 z3
  let y3 := P.add t0 t2
  let z3 := P.mul t1 z3
  let t1 := P.double t2
  let t2 := P.add t1 t2
  let t0 := P.sub t0 t2
  let y3 := P.mul t0 y3
  let y3 := P.add x3 y3
  let t1 := P.mul p.x p.y
  let x3 := P.mul t0 t1
  let x3 := P.double x3
  ⟨x3, y3, z3⟩

/-- `add_affine_point` (`weierstrass.rs` lines 5-36). -/
def addAffine (b3 : L4) (lhs rhs : Aff L4) : Proj L4 :=
  if lhs.inf then toExtended P rhs
  else if rhs.inf then toExtended P lhs
  else if lhs.x = rhs.x then
    if lhs.y = rhs.y then doubleAffine P b3 lhs else ⟨FieldParams.zero, P.one, FieldParams.zero⟩
  else
    let s := P.sub lhs.y rhs.y
    let u := P.sub lhs.x rhs.x
    let uu := P.square u
    let w := P.sub (P.square s) (P.mul uu (P.add lhs.x rhs.x))
    let uuu := P.mul uu u
    ⟨P.mul u w, P.sub (P.mul s (P.sub (P.mul lhs.x uu) w)) (P.mul lhs.y uuu), uuu⟩

/-- `add_projective_point` (`weierstrass.rs` lines 102-139). -/
def addProj (b3 : L4) (lhs rhs : Proj L4) : Proj L4 :=
  if lhs.z = FieldParams.zero then rhs
  else if rhs.z = FieldParams.zero then lhs
  else
    let s1 := P.mul lhs.y rhs.z
    let s2 := P.mul rhs.y lhs.z
    let u1 := P.mul lhs.x rhs.z
    let u2 := P.mul rhs.x lhs.z
    if u1 = u2 then
      if s1 = s2 then doubleProj P b3 lhs else ⟨FieldParams.zero, P.one, FieldParams.zero⟩
    else
      let s := P.sub s1 s2
      let u := P.sub u1 u2
      let uu := P.square u
      let v := P.mul lhs.z rhs.z
      let w := P.sub (P.mul (P.square s) v) (P.mul uu (P.add u1 u2))
      let uuu := P.mul uu u
      ⟨P.mul u w, P.sub (P.mul s (P.sub (P.mul u1 uu) w)) (P.mul s1 uuu), P.mul uuu v⟩

/-- `Neg` (`bn254/src/g1.rs` lines 166-176). -/
def neg (p : Proj L4) : Proj L4 := ⟨p.x, P.neg p.y, p.z⟩

/-- One iteration of `scalar_point` (`arithmetic/points/weierstrass.rs` lines 169-176). -/
def scalarStep (b3 : L4) (point res : Proj L4) (naf : Naf) : Proj L4 :=
  let res := doubleProj P b3 res
  match naf with
  | .plus => addProj P b3 res point
  | .minus => addProj P b3 res (neg P point)
  | .zero => res

/-- `scalar_point` (`arithmetic/points/weierstrass.rs` lines 167-178), given the digits. -/
def scalarPoint (b3 : L4) (point : Proj L4) (nafs : List Naf) : Proj L4 :=
  nafs.foldl (scalarStep P b3 point) ⟨FieldParams.zero, P.one, FieldParams.zero⟩

/-- `to_affine` (`macros/curve/weierstrass.rs` lines 57-66). -/
def toAffine (p : Proj L4) : Aff L4 :=
  match P.invert p.z with
  | some zInv => ⟨P.mul p.x zInv, P.mul p.y zInv, false⟩
  | none => ⟨FieldParams.zero, P.one, true⟩

/-- `is_on_curve` of an affine point (`group.rs` lines 58-66). -/
def affIsOnCurve (b : L4) (p : Aff L4) : Bool :=
  if p.inf then true else decide (P.square p.y = P.add (P.mul (P.square p.x) p.x) b)

/-- `is_on_curve` of a projective point (`group.rs` lines 142-150). -/
def projIsOnCurve (b : L4) (p : Proj L4) : Bool :=
  if p.z = FieldParams.zero then true
  else decide (P.mul (P.square p.y) p.z =
    P.add (P.mul (P.square p.x) p.x) (P.mul (P.mul b (P.square p.z)) p.z))

/-! ### The elements each routine squares -/

/-- Squared by `addAffine`. -/
def sqAddAffine (lhs rhs : Aff L4) : List L4 :=
  if lhs.inf then [] else if rhs.inf then []
  else if lhs.x = rhs.x then (if lhs.y = rhs.y then [lhs.y] else [])
  else [P.sub lhs.x rhs.x, P.sub lhs.y rhs.y]

/-- Squared by `addProj`. -/
def sqAddProj (lhs rhs : Proj L4) : List L4 :=
  if lhs.z = FieldParams.zero then [] else if rhs.z = FieldParams.zero then []
  else if P.mul lhs.x rhs.z = P.mul rhs.x lhs.z then
    (if P.mul lhs.y rhs.z = P.mul rhs.y lhs.z then [lhs.y, lhs.z] else [])
  else [P.sub (P.mul lhs.x rhs.z) (P.mul rhs.x lhs.z), P.sub (P.mul lhs.y rhs.z) (P.mul rhs.y lhs.z)]

/-- Squared by `scalarStep`. -/
def sqScalarStep (b3 : L4) (point res : Proj L4) (naf : Naf) : List L4 :=
  res.y :: res.z :: match naf with
  | .plus => sqAddProj P (doubleProj P b3 res) point
  | .minus => sqAddProj P (doubleProj P b3 res) (neg P point)
  | .zero => []

/-- Squared by `scalarPoint` from an accumulator. -/
def sqScalar (b3 : L4) (point : Proj L4) : List Naf → Proj L4 → List L4
  | [], _ => []
  | d :: ds, res => sqScalarStep P b3 point res d ++ sqScalar b3 point ds (scalarStep P b3 point res d)

/-! ### Refinement -/

variable {P}

/-- The limbs `a` are canonical and stand for `x`. -/
def El (P : FieldParams) (a : L4) (x : ZMod P.m) : Prop := Canonical P a ∧ denote P a = x

/-- No squaring in the list loses a carry. -/
def Exact (P : FieldParams) (l : List L4) : Prop := ∀ a ∈ l, P.square a = P.mul a a

theorem El.mul (hP : ValidParams P) {a b : L4} {x y : ZMod P.m} (h : El P a x) (h' : El P b y) : El P (P.mul a b) (x * y) := by
  obtain ⟨r1, r2⟩ := mul_denote hP h.1 h'.1
  exact ⟨r1, by rw [r2, h.2, h'.2]⟩
theorem El.add (hP : ValidParams P) {a b : L4} {x y : ZMod P.m} (h : El P a x) (h' : El P b y) : El P (P.add a b) (x + y) := by
  obtain ⟨r1, r2⟩ := add_denote hP h.1 h'.1
  exact ⟨r1, by rw [r2, h.2, h'.2]⟩
theorem El.sub (hP : ValidParams P) {a b : L4} {x y : ZMod P.m} (h : El P a x) (h' : El P b y) : El P (P.sub a b) (x - y) := by
  obtain ⟨r1, r2⟩ := sub_denote hP h.1 h'.1
  exact ⟨r1, by rw [r2, h.2, h'.2]⟩
variable [Fact P.m.Prime]

theorem El.dbl (hP : ValidParams P) {a : L4} {x : ZMod P.m} (h : El P a x) : El P (P.double a) (dbl x) := by
  obtain ⟨r1, r2⟩ := double_denote hP h.1
  exact ⟨r1, by rw [r2, h.2]; rfl⟩
theorem El.neg (hP : ValidParams P) {a : L4} {x : ZMod P.m} (h : El P a x) : El P (P.neg a) (-x) := by
  obtain ⟨r1, r2⟩ := neg_denote hP h.1
  exact ⟨r1, by rw [r2, h.2]⟩
theorem El.zero (hP : ValidParams P) : El P FieldParams.zero 0 := ⟨zero_canonical hP, denote_zero⟩
theorem El.one (hP : ValidParams P) : El P P.one 1 := ⟨r_canonical hP, denote_one hP⟩
theorem El.inj (hP : ValidParams P) {a b : L4} {x y : ZMod P.m} (h : El P a x) (h' : El P b y) : a = b ↔ x = y :=
  ⟨fun e => by rw [← h.2, ← h'.2, e], fun e => denote_inj hP h.1 h'.1 (by rw [h.2, h'.2, e])⟩

theorem El.sq (hP : ValidParams P) {a : L4} {x : ZMod P.m} (h : El P a x) (hs : P.square a = P.mul a a) :
    El P (P.square a) (sq x) := by rw [hs]; exact h.mul hP h

/-- Projective struct of limbs against one of residues. -/
structure PEl (P : FieldParams) (p : Proj L4) (q : Proj (ZMod P.m)) : Prop where
  x : El P p.x q.x
  y : El P p.y q.y
  z : El P p.z q.z

/-- Affine struct of limbs against one of residues. -/
structure AEl (P : FieldParams) (p : Aff L4) (q : Aff (ZMod P.m)) : Prop where
  x : El P p.x q.x
  y : El P p.y q.y
  inf : p.inf = q.inf

theorem identity_el (hP : ValidParams P) : PEl P ⟨FieldParams.zero, P.one, FieldParams.zero⟩ Proj.identity :=
  ⟨El.zero hP, El.one hP, El.zero hP⟩

theorem toExtended_el (hP : ValidParams P) {p : Aff L4} {q : Aff (ZMod P.m)} (h : AEl P p q) :
    PEl P (toExtended P p) q.toExtended := by
  unfold toExtended Aff.toExtended Aff.isIdentity
  rw [h.inf]
  split
  · exact identity_el hP
  · exact ⟨h.x, h.y, El.one hP⟩

theorem doubleAffine_el (hP : ValidParams P) {b3 : L4} {c : ZMod P.m} (hb : El P b3 c) {p : Aff L4} {q : Aff (ZMod P.m)}
    (h : AEl P p q) (hs : Exact P [p.y]) : PEl P (doubleAffine P b3 p) (Curve.doubleAffine c q) := by
  have t0 := h.y.sq hP (hs _ List.mem_cons_self)
  have z3 := ((t0.dbl hP).dbl hP).dbl hP
  have t0' := t0.sub hP ((hb.dbl hP).add hP hb)
  exact ⟨(t0'.mul hP (h.x.mul hP h.y)).dbl hP, (hb.mul hP z3).add hP (t0'.mul hP (t0.add hP hb)), h.y.mul hP z3⟩

theorem doubleProj_el (hP : ValidParams P) {b3 : L4} {c : ZMod P.m} (hb : El P b3 c) {p : Proj L4} {q : Proj (ZMod P.m)}
    (h : PEl P p q) (hs : Exact P [p.y, p.z]) : PEl P (doubleProj P b3 p) (Curve.doubleProj c q) := by
  have t0 := h.y.sq hP (hs _ List.mem_cons_self)
  have t2 := (h.z.sq hP (hs _ (List.mem_cons_of_mem _ List.mem_cons_self))).mul hP hb
  have z3 := ((t0.dbl hP).dbl hP).dbl hP
  have t0' := t0.sub hP ((t2.dbl hP).add hP t2)
  exact ⟨(t0'.mul hP (h.x.mul hP h.y)).dbl hP, (t2.mul hP z3).add hP (t0'.mul hP (t0.add hP t2)),
    (h.y.mul hP h.z).mul hP z3⟩

theorem addAffine_el (hP : ValidParams P) {b3 : L4} {c : ZMod P.m} (hb : El P b3 c) {p p' : Aff L4} {q q' : Aff (ZMod P.m)}
    (h : AEl P p q) (h' : AEl P p' q') (hs : Exact P (sqAddAffine P p p')) :
    PEl P (addAffine P b3 p p') (Curve.addAffine c q q') := by
  unfold addAffine Curve.addAffine
  unfold sqAddAffine at hs
  unfold Aff.isIdentity
  rw [h.inf, h'.inf] at hs ⊢
  by_cases h1 : q.inf = true
  · rw [if_pos h1, if_pos h1]; exact toExtended_el hP h'
  rw [if_neg h1] at hs ⊢; rw [if_neg h1]
  by_cases h2 : q'.inf = true
  · rw [if_pos h2, if_pos h2]; exact toExtended_el hP h
  rw [if_neg h2] at hs ⊢; rw [if_neg h2]
  by_cases h3 : p.x = p'.x
  · rw [if_pos h3] at hs
    rw [if_pos h3, if_pos ((h.x.inj hP h'.x).mp h3)]
    by_cases h4 : p.y = p'.y
    · rw [if_pos h4] at hs
      rw [if_pos h4, if_pos ((h.y.inj hP h'.y).mp h4)]
      exact doubleAffine_el hP hb h hs
    · rw [if_neg h4, if_neg (fun e => h4 ((h.y.inj hP h'.y).mpr e))]
      exact identity_el hP
  · rw [if_neg h3] at hs
    rw [if_neg h3, if_neg (fun e => h3 ((h.x.inj hP h'.x).mpr e))]
    have s := h.y.sub hP h'.y
    have u := h.x.sub hP h'.x
    have uu := u.sq hP (hs _ List.mem_cons_self)
    have w := (s.sq hP (hs _ (List.mem_cons_of_mem _ List.mem_cons_self))).sub hP (uu.mul hP (h.x.add hP h'.x))
    have uuu := uu.mul hP u
    exact ⟨u.mul hP w, (s.mul hP ((h.x.mul hP uu).sub hP w)).sub hP (h.y.mul hP uuu), uuu⟩

theorem addProj_el (hP : ValidParams P) {b3 : L4} {c : ZMod P.m} (hb : El P b3 c) {p p' : Proj L4} {q q' : Proj (ZMod P.m)}
    (h : PEl P p q) (h' : PEl P p' q') (hs : Exact P (sqAddProj P p p')) :
    PEl P (addProj P b3 p p') (Curve.addProj c q q') := by
  unfold addProj Curve.addProj
  unfold sqAddProj at hs
  unfold Proj.isIdentity
  have z1 := h.z.inj hP (El.zero hP)
  have z2 := h'.z.inj hP (El.zero hP)
  by_cases h1 : p.z = FieldParams.zero
  · rw [if_pos h1, if_pos (decide_eq_true (z1.mp h1))]; exact h'
  rw [if_neg h1] at hs ⊢; rw [if_neg (fun e => h1 (z1.mpr (of_decide_eq_true e)))]
  by_cases h2 : p'.z = FieldParams.zero
  · rw [if_pos h2, if_pos (decide_eq_true (z2.mp h2))]; exact h
  rw [if_neg h2] at hs ⊢; rw [if_neg (fun e => h2 (z2.mpr (of_decide_eq_true e)))]
  have s1 := h.y.mul hP h'.z
  have s2 := h'.y.mul hP h.z
  have u1 := h.x.mul hP h'.z
  have u2 := h'.x.mul hP h.z
  dsimp only
  by_cases h3 : P.mul p.x p'.z = P.mul p'.x p.z
  · rw [if_pos h3] at hs
    rw [if_pos h3, if_pos ((u1.inj hP u2).mp h3)]
    by_cases h4 : P.mul p.y p'.z = P.mul p'.y p.z
    · rw [if_pos h4] at hs
      rw [if_pos h4, if_pos ((s1.inj hP s2).mp h4)]
      exact doubleProj_el hP hb h hs
    · rw [if_neg h4, if_neg (fun e => h4 ((s1.inj hP s2).mpr e))]
      exact identity_el hP
  · rw [if_neg h3] at hs
    rw [if_neg h3, if_neg (fun e => h3 ((u1.inj hP u2).mpr e))]
    have s := s1.sub hP s2
    have u := u1.sub hP u2
    have uu := u.sq hP (hs _ List.mem_cons_self)
    have v := h.z.mul hP h'.z
    have w := ((s.sq hP (hs _ (List.mem_cons_of_mem _ List.mem_cons_self))).mul hP v).sub hP (uu.mul hP (u1.add hP u2))
    have uuu := uu.mul hP u
    exact ⟨u.mul hP w, (s.mul hP ((u1.mul hP uu).sub hP w)).sub hP (s1.mul hP uuu), uuu.mul hP v⟩

theorem neg_el (hP : ValidParams P) {p : Proj L4} {q : Proj (ZMod P.m)} (h : PEl P p q) : PEl P (neg P p) q.neg :=
  ⟨h.x, h.y.neg hP, h.z⟩

theorem scalarStep_el (hP : ValidParams P) {b3 : L4} {c : ZMod P.m} (hb : El P b3 c) {p r : Proj L4} {q s : Proj (ZMod P.m)}
    (h : PEl P p q) (h' : PEl P r s) (d : Naf) (hs : Exact P (sqScalarStep P b3 p r d)) :
    PEl P (scalarStep P b3 p r d) (Curve.scalarStep c q s d) := by
  have hd := doubleProj_el hP hb h' (fun a ha => hs a (by
    rcases List.mem_cons.mp ha with rfl | ha
    · exact List.mem_cons_self
    · rw [List.mem_singleton.mp ha]; exact List.mem_cons_of_mem _ List.mem_cons_self))
  have hr : Exact P _ := fun a ha => hs a (List.mem_cons_of_mem _ (List.mem_cons_of_mem _ ha))
  cases d with
  | plus => exact addProj_el hP hb hd h hr
  | minus => exact addProj_el hP hb hd (neg_el hP h) hr
  | zero => exact hd

theorem scalar_el (hP : ValidParams P) {b3 : L4} {c : ZMod P.m} (hb : El P b3 c) {p : Proj L4} {q : Proj (ZMod P.m)}
    (h : PEl P p q) : ∀ (ds : List Naf) (r : Proj L4) (s : Proj (ZMod P.m)), PEl P r s → Exact P (sqScalar P b3 p ds r) →
    PEl P (ds.foldl (scalarStep P b3 p) r) (ds.foldl (Curve.scalarStep c q) s)
  | [], _, _, hr, _ => hr
  | d :: ds, r, s, hr, hs => by
    rw [List.foldl_cons, List.foldl_cons]
    unfold sqScalar at hs
    exact scalar_el hP hb h ds _ _ (scalarStep_el hP hb h hr d fun a ha => hs a (List.mem_append_left _ ha))
      fun a ha => hs a (List.mem_append_right _ ha)

theorem toAffine_el (hP : ValidParams P) {p : Proj L4} {q : Proj (ZMod P.m)} (h : PEl P p q)
    (hs : Exact P (squaredBy P p.z (B256.toBits (B256.littleFermat P.p)) P.one)) : AEl P (toAffine P p) q.toAffine := by
  have z1 := h.z.inj hP (El.zero hP)
  unfold toAffine Proj.toAffine
  by_cases h0 : p.z = FieldParams.zero
  · rw [if_pos (z1.mp h0), (C04_invert_none p.z).mpr h0]
    exact ⟨El.zero hP, El.one hP, rfl⟩
  · rw [if_neg (fun e => h0 (z1.mpr e))]
    obtain ⟨b, e1, e2, e3⟩ := invert_value hP (Fact.out) h.z.1 h0 hs
    rw [e1]
    have hb : El P b q.z⁻¹ := by
      refine ⟨e2, eq_inv_of_mul_eq_one_right ?_⟩
      have := h.z.mul hP (⟨e2, rfl⟩ : El P b _)
      rw [← this.2, e3, (El.one hP).2]
    exact ⟨h.x.mul hP hb, h.y.mul hP hb, rfl⟩

end Kogarashi.Curve.Limb
