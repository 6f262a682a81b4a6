import Verif.Spec.Point
import Verif.R1cs.Wp
import Verif.R1cs.Bits
import Verif.Curve.WeierstrassProof

/-! # The point gadget -/

namespace Kogarashi

open Spec Curve WeierstrassCurve.Affine

variable {F : Type} [Field F] [DecidableEq F] {b : F}

/-- Values computed by `PointAssignment::add`. -/
def rcbAdd (b3 : F) (p q : Proj F) : Proj F :=
  ⟨(p.x * q.y + q.x * p.y) * (p.y * q.y - b3 * (p.z * q.z)) - b3 * (p.y * q.z + q.y * p.z) * (p.x * q.z + q.x * p.z),
   (p.y * q.y + b3 * (p.z * q.z)) * (p.y * q.y - b3 * (p.z * q.z)) + 3 * b3 * (p.x * q.x) * (p.x * q.z + q.x * p.z),
   (p.y * q.z + q.y * p.z) * (p.y * q.y + b3 * (p.z * q.z)) + 3 * (p.x * q.x) * (p.x * q.y + q.x * p.y)⟩

theorem _root_.Kogarashi.Spec.CircRep.proj {v : Proj F} {P : (curve b).Point} (h : CircRep b v P) : ProjRep b v P := by
  cases P with
  | zero => exact h.2.1
  | some x y hn => exact h

/-- Two representations of one point are proportional. -/
theorem _root_.Kogarashi.Spec.CircRep.unique {v : Proj F} {P Q : (curve b).Point} (h : CircRep b v P) (h' : CircRep b v Q) : P = Q :=
  (projEq_iff h.proj h'.proj).mp ((projEq_iff h.proj h.proj).mpr rfl)

theorem y_ne_zero (hn : NoOrderTwo b) {x y : F} (h : (curve b).Nonsingular x y) : y ≠ 0 := by
  rintro rfl
  apply hn x
  have := eqn h
  linear_combination -this

theorem doubleProj_circ (h2 : (2 : F) ≠ 0) (hn : NoOrderTwo b) {v : Proj F} {P : (curve b).Point}
    (h : CircRep b v P) : CircRep b (doubleProj (b + b + b) v) (P + P) := by
  have hp := doubleProj_rep h2 h.proj
  cases P with
  | zero =>
    obtain ⟨hx, hz, hy⟩ := h
    change CircRep b _ (0 + 0)
    rw [add_zero]
    refine ⟨?_, ?_, ?_⟩
    · simp [doubleProj, hx, hz, Curve.sq, dbl]
    · simp [doubleProj, hz]
    · simp [doubleProj, hz, hy, Curve.sq, dbl]
  | some x y hns =>
    have hz : (doubleProj (b + b + b) v).z ≠ 0 := by
      obtain ⟨h1, h3, h4⟩ := h
      have hy := y_ne_zero hn hns
      have e : (doubleProj (b + b + b) v).z = 2 ^ 3 * (y * v.z) ^ 3 * v.z := by
        simp only [doubleProj, Curve.sq, dbl, h4]; ring
      rw [e]
      exact mul_ne_zero (mul_ne_zero (pow_ne_zero 3 h2) (pow_ne_zero 3 (mul_ne_zero hy h1))) h1
    generalize Point.some x y hns + Point.some x y hns = Q at *
    cases Q with
    | zero => exact absurd hp hz
    | some _ _ _ => exact hp

theorem rcb_scale (b3 : F) (x y z x' y' z' : F) :
    rcbAdd b3 ⟨x * z, y * z, z⟩ ⟨x' * z', y' * z', z'⟩ =
      ⟨(rcbAdd b3 ⟨x, y, 1⟩ ⟨x', y', 1⟩).x * (z * z') ^ 2, (rcbAdd b3 ⟨x, y, 1⟩ ⟨x', y', 1⟩).y * (z * z') ^ 2,
        (rcbAdd b3 ⟨x, y, 1⟩ ⟨x', y', 1⟩).z * (z * z') ^ 2⟩ := by
  simp only [rcbAdd, Proj.mk.injEq]
  refine ⟨?_, ?_, ?_⟩ <;> ring

theorem _root_.Kogarashi.Spec.CircRep.scale {v : Proj F} {k : F} (hk : k ≠ 0) {P : (curve b).Point} (h : CircRep b v P) :
    CircRep b ⟨v.x * k, v.y * k, v.z * k⟩ P := by
  cases P with
  | zero => exact ⟨by simp [h.1], by simp [h.2.1], mul_ne_zero h.2.2 hk⟩
  | some x y hn =>
    obtain ⟨h1, h2, h3⟩ := h
    exact ⟨mul_ne_zero h1 hk, by simp only [h2]; ring, by simp only [h3]; ring⟩

/-- The formulas of the gadget on two finite points. -/
theorem rcb_finite (h2 : (2 : F) ≠ 0) (hn : NoOrderTwo b) {x y x' y' : F} (hns : (curve b).Nonsingular x y)
    (hns' : (curve b).Nonsingular x' y') :
    CircRep b (rcbAdd (b + b + b) ⟨x, y, 1⟩ ⟨x', y', 1⟩) (Point.some x y hns + Point.some x' y' hns') := by
  have e1 := eqn hns
  have e2 := eqn hns'
  have hy := y_ne_zero hn hns
  by_cases hx : x = x'
  · subst hx
    by_cases hyy : y = y'
    · subst hyy
      have hd := doubleProj_circ h2 hn (v := ⟨x, y, 1⟩) (P := Point.some x y hns) ⟨one_ne_zero, by simp, by simp⟩
      have : rcbAdd (b + b + b) ⟨x, y, 1⟩ ⟨x, y, 1⟩ = doubleProj (b + b + b) ⟨x, y, 1⟩ := by
        simp only [rcbAdd, doubleProj, Curve.sq, dbl, Proj.mk.injEq]
        refine ⟨?_, ?_, ?_⟩
        · ring
        · linear_combination (-18 * b) * e1
        · linear_combination (-6 * y) * e1
      rw [this]; exact hd
    · rw [opposite hns hns' hyy]
      have hyn : y' = -y := by
        have : (y - y') * (y + y') = 0 := by linear_combination e1 - e2
        rcases mul_eq_zero.mp this with h | h
        · exact absurd (sub_eq_zero.mp h) hyy
        · linear_combination h
      subst hyn
      refine ⟨?_, ?_, ?_⟩
      · simp only [rcbAdd]; ring
      · simp only [rcbAdd]; ring
      · have e : (rcbAdd (b + b + b) ⟨x, y, 1⟩ ⟨x, -y, 1⟩).y = x ^ 6 + 20 * b * x ^ 3 - 8 * b ^ 2 := by
          simp only [rcbAdd]
          linear_combination (y ^ 2 + x ^ 3 + b) * e1
        rw [e]
        intro h0
        have hy4 : (4 : F) * y ^ 2 ≠ 0 := by
          have : (4 : F) = 2 * 2 := by norm_num
          rw [this]; exact mul_ne_zero (mul_ne_zero h2 h2) (pow_ne_zero 2 hy)
        apply hn ((x ^ 4 - 8 * b * x) / (4 * y ^ 2))
        have key : (x ^ 4 - 8 * b * x) ^ 3 + b * (4 * y ^ 2) ^ 3 = 0 := by
          linear_combination (x ^ 6 + 20 * b * x ^ 3 - 8 * b ^ 2) * h0 + 64 * b * (y ^ 4 + y ^ 2 * (x ^ 3 + b) + (x ^ 3 + b) ^ 2) * e1
        rw [div_pow, div_add' _ _ _ (pow_ne_zero 3 hy4), key, zero_div]
  · have hd : x - x' ≠ 0 := sub_ne_zero.mpr hx
    have hb : b = y ^ 2 - x ^ 3 := by linear_combination -e1
    have hR : y ^ 2 - x ^ 3 - (y' ^ 2 - x' ^ 3) = 0 := by linear_combination e1 - e2
    set V := rcbAdd (b + b + b) ⟨x, y, 1⟩ ⟨x', y', 1⟩ with hV
    have hX : V.x * (x - x') ^ 2 = ((y - y') ^ 2 - (x - x') ^ 2 * (x + x')) * V.z := by
      rw [hV]; simp only [rcbAdd, hb]
      linear_combination (-3 * x ^ 3 * y' - 3 * x ^ 2 * y * x' + 3 * x ^ 2 * x' * y' + 3 * x * y * x' ^ 2 - 3 * y ^ 3 + 2 * y ^ 2 * y' + y * y' ^ 2) * hR
    have hY : V.y * (x - x') ^ 3 = ((y - y') * (x * (x - x') ^ 2 - ((y - y') ^ 2 - (x - x') ^ 2 * (x + x'))) - y * (x - x') ^ 3) * V.z := by
      rw [hV]; simp only [rcbAdd, hb]
      linear_combination (9 * x ^ 6 + (-18) * x ^ 5 * x' + 9 * x ^ 4 * x' ^ 2 + (-12) * x ^ 3 * y ^ 2 + 3 * x ^ 3 * y * y' + (-3) * x ^ 3 * y' ^ 2 + 27 * x ^ 2 * y ^ 2 * x' + (-6) * x ^ 2 * y * x' * y' + 3 * x ^ 2 * x' * y' ^ 2 + (-15) * x * y ^ 2 * x' ^ 2 + 3 * x * y * x' ^ 2 * y' + 3 * y ^ 4 + (-5) * y ^ 3 * y' + 1 * y ^ 2 * y' ^ 2 + 1 * y * y' ^ 3) * hR
    have hZ : V.z ≠ 0 := by
      intro h0
      have hYD : (y + y') * (x * (x - x') ^ 2 - ((y + y') ^ 2 - (x - x') ^ 2 * (x + x'))) - y * (x - x') ^ 3 = 0 := by
        rw [hV] at h0; simp only [rcbAdd, hb] at h0
        linear_combination (2 * y + y') * hR - h0
      apply hn (((y + y') ^ 2 - (x - x') ^ 2 * (x + x')) / (x - x') ^ 2)
      have key : ((y + y') ^ 2 - (x - x') ^ 2 * (x + x')) ^ 3 + b * ((x - x') ^ 2) ^ 3 = 0 := by
        rw [hb]
        linear_combination (2 * x ^ 6 + (-9) * x ^ 5 * x' + 15 * x ^ 4 * x' ^ 2 + (-1) * x ^ 3 * y ^ 2 + (-2) * x ^ 3 * y * y' + (-10) * x ^ 3 * x' ^ 3 + (-1) * x ^ 3 * y' ^ 2 + 3 * x ^ 2 * y ^ 2 * x' + 6 * x ^ 2 * y * x' * y' + 3 * x ^ 2 * x' * y' ^ 2 + (-3) * x * y ^ 2 * x' ^ 2 + (-6) * x * y * x' ^ 2 * y' + 3 * x * x' ^ 5 + (-3) * x * x' ^ 2 * y' ^ 2 + 1 * y ^ 2 * x' ^ 3 + 2 * y * x' ^ 3 * y' + (-1) * x' ^ 6 + 1 * x' ^ 3 * y' ^ 2) * hR + ((y + y') * (x * (x - x') ^ 2 - ((y + y') ^ 2 - (x - x') ^ 2 * (x + x'))) - y * (x - x') ^ 3) * hYD
      rw [div_pow, div_add' _ _ _ (pow_ne_zero 3 (pow_ne_zero 2 hd)), key, zero_div]
    have hrep : ProjRep b V (Point.some x y hns + Point.some x' y' hns') := by
      have hd3 := pow_ne_zero 3 hd
      have := add_core hns hns' hx (X := V.x) (Y := V.y) (Z := V.z) (k := V.z / (x - x') ^ 3) (div_ne_zero hZ hd3)
        (by field_simp; linear_combination hX) (by field_simp; linear_combination hY) (by field_simp)
      exact this
    generalize Point.some x y hns + Point.some x' y' hns' = Q at *
    cases Q with
    | zero => exact absurd hrep hZ
    | some _ _ _ => exact hrep

theorem rcbAdd_circ (h2 : (2 : F) ≠ 0) (hn : NoOrderTwo b) {v v' : Proj F} {P P' : (curve b).Point}
    (h : CircRep b v P) (h' : CircRep b v' P') : CircRep b (rcbAdd (b + b + b) v v') (P + P') := by
  have hy0 : ∀ {v : Proj F} {P : (curve b).Point}, CircRep b v P → v.y ≠ 0 := by
    intro v P h
    cases P with
    | zero => exact h.2.2
    | some x y hns => rw [h.2.2]; exact mul_ne_zero (y_ne_zero hn hns) h.1
  cases P with
  | zero =>
    obtain ⟨hx, hz, hy⟩ := h
    change CircRep b _ (0 + P')
    rw [zero_add]
    have e : rcbAdd (b + b + b) v v' = ⟨v'.x * (v.y ^ 2 * v'.y), v'.y * (v.y ^ 2 * v'.y), v'.z * (v.y ^ 2 * v'.y)⟩ := by
      simp only [rcbAdd, hx, hz, Proj.mk.injEq]
      refine ⟨?_, ?_, ?_⟩ <;> ring
    rw [e]
    exact h'.scale (mul_ne_zero (pow_ne_zero 2 hy) (hy0 h'))
  | some x y hns =>
    cases P' with
    | zero =>
      obtain ⟨hx, hz, hy⟩ := h'
      change CircRep b _ (Point.some x y hns + 0)
      rw [add_zero]
      have e : rcbAdd (b + b + b) v v' = ⟨v.x * (v'.y ^ 2 * v.y), v.y * (v'.y ^ 2 * v.y), v.z * (v'.y ^ 2 * v.y)⟩ := by
        simp only [rcbAdd, hx, hz, Proj.mk.injEq]
        refine ⟨?_, ?_, ?_⟩ <;> ring
      rw [e]
      exact h.scale (mul_ne_zero (pow_ne_zero 2 hy) (hy0 h))
    | some x' y' hns' =>
      obtain ⟨vx, vy, vz⟩ := v
      obtain ⟨ux, uy, uz⟩ := v'
      obtain ⟨h1, h3, h4⟩ := h
      obtain ⟨k1, k3, k4⟩ := h'
      simp only at h1 h3 h4 k1 k3 k4
      subst h3 h4 k3 k4
      rw [rcb_scale]
      exact (rcb_finite h2 hn hns hns').scale (pow_ne_zero 2 (mul_ne_zero h1 k1))

namespace Circ

theorem PtOk.mono {c c' : CS F} {p : PointRow F} (h : PtOk c p) (e : Extends c c') : PtOk c' p :=
  ⟨h.x.mono e, h.y.mono e, h.z.mono e⟩

theorem ptAdd_wp {cs : CS F} (wf : Wf cs) (b3 : F) {p q : PointRow F} (hp : PtOk cs p) (hq : PtOk cs q) :
    WP cs (ptAdd b3 p q) (fun o c => PtOk c o) (fun o z => ptVal z o = rcbAdd b3 (ptVal z p) (ptVal z q)) True := by
  obtain ⟨px, py, pz⟩ := hp
  obtain ⟨qx, qy, qz⟩ := hq
  unfold ptAdd
  refine WP.bind (WP.mul wf (by rowok) (by rowok)) id (fun t0 c1 x1 w1 o1 _ => ?_)
  refine WP.bind (WP.mul w1 (by rowok) (by rowok)) id (fun t1 c2 x2 w2 o2 _ => ?_)
  refine WP.bind (WP.mul w2 (by rowok) (by rowok)) id (fun t2 c3 x3 w3 o3 _ => ?_)
  refine WP.bind (WP.mul w3 (by rowok) (by rowok)) id (fun t3 c4 x4 w4 o4 _ => ?_)
  refine WP.bind (WP.mul w4 (by rowok) (by rowok)) id (fun t4 c5 x5 w5 o5 _ => ?_)
  refine WP.bind (WP.mul w5 (by rowok) (by rowok)) id (fun t5 c6 x6 w6 o6 _ => ?_)
  refine WP.bind (WP.mul w6 (by rowok) (by rowok)) id (fun t6 c7 x7 w7 o7 _ => ?_)
  refine WP.bind (WP.mul w7 (by rowok) (by rowok)) id (fun t7 c8 x8 w8 o8 _ => ?_)
  refine WP.bind (WP.mul w8 (by rowok) (by rowok)) id (fun t8 c9 x9 w9 o9 _ => ?_)
  refine WP.bind (WP.mul w9 (by rowok) (by rowok)) id (fun t9 c10 x10 w10 o10 _ => ?_)
  refine WP.bind (WP.mul w10 (by rowok) (by rowok)) id (fun t10 c11 x11 w11 o11 _ => ?_)
  refine WP.bind (WP.mul w11 (by rowok) (by rowok)) id (fun t11 c12 x12 w12 o12 _ => ?_)
  refine WP.bind (WP.mul w12 (by rowok) (by rowok)) id (fun t12 c13 x13 w13 o13 _ => ?_)
  refine WP.bind (WP.mul w13 (by rowok) (by rowok)) id (fun t13 c14 x14 w14 o14 _ => ?_)
  refine WP.pure w14 ⟨by rowok, by rowok, by rowok⟩ ?_
  intro z hz e14 e13 e12 e11 e10 e9 e8 e7 e6 e5 e4 e3 e2 e1
  simp (maxDischargeDepth := 8) only [Row.rowVal_add, Row.rowVal_sub, rowVal_const, Row.distinct_add, Row.distinct_sub, distinct_const, hz,
    o1.1, o2.1, o3.1, o4.1, o5.1, o6.1, o7.1, o8.1, o9.1, o10.1, o11.1, o12.1, o13.1, o14.1,
    px.1, py.1, pz.1, qx.1, qy.1, qz.1, ptVal, rcbAdd, Proj.mk.injEq, one_mul] at *
  simp only [e1, e2, e3, e4, e5, e6, e7, e8, e9, e10, e11, e12, e13, e14]
  refine ⟨?_, ?_, ?_⟩ <;> ring

theorem ptDouble_wp {cs : CS F} (wf : Wf cs) (b3 : F) {p : PointRow F} (hp : PtOk cs p) :
    WP cs (ptDouble b3 p) (fun o c => PtOk c o) (fun o z => ptVal z o = doubleProj b3 (ptVal z p)) True := by
  obtain ⟨px, py, pz⟩ := hp
  unfold ptDouble
  refine WP.bind (WP.mul wf (by rowok) (by rowok)) id (fun t0 c1 x1 w1 o1 _ => ?_)
  refine WP.bind (WP.mul w1 (by rowok) (by rowok)) id (fun t1 c2 x2 w2 o2 _ => ?_)
  refine WP.bind (WP.mul w2 (by rowok) (by rowok)) id (fun t2 c3 x3 w3 o3 _ => ?_)
  refine WP.bind (WP.mul w3 (by rowok) (by rowok)) id (fun t3 c4 x4 w4 o4 _ => ?_)
  refine WP.bind (WP.mul w4 (by rowok) (by rowok)) id (fun t4 c5 x5 w5 o5 _ => ?_)
  refine WP.bind (WP.mul w5 (by rowok) (by rowok)) id (fun t5 c6 x6 w6 o6 _ => ?_)
  refine WP.bind (WP.mul w6 (by rowok) (by rowok)) id (fun t6 c7 x7 w7 o7 _ => ?_)
  refine WP.bind (WP.mul w7 (by rowok) (by rowok)) id (fun t7 c8 x8 w8 o8 _ => ?_)
  refine WP.bind (WP.mul w8 (by rowok) (by rowok)) id (fun t8 c9 x9 w9 o9 _ => ?_)
  refine WP.pure w9 ⟨by rowok, by rowok, by rowok⟩ ?_
  intro z hz e9 e8 e7 e6 e5 e4 e3 e2 e1
  simp (maxDischargeDepth := 8) only [Row.rowVal_add, Row.rowVal_sub, rowVal_const, Row.distinct_add, Row.distinct_sub, distinct_const, hz,
    o1.1, o2.1, o3.1, o4.1, o5.1, o6.1, o7.1, o8.1, o9.1,
    px.1, py.1, pz.1, ptVal, doubleProj, Curve.sq, dbl, Proj.mk.injEq, one_mul] at *
  simp only [e1, e2, e3, e4, e5, e6, e7, e8, e9]
  exact ⟨trivial, trivial, trivial⟩

theorem ptSelectIdentity_wp {cs : CS F} (wf : Wf cs) {p : PointRow F} (hp : PtOk cs p) {s : Bin}
    (hs : Allocated cs s) :
    WP cs (ptSelectIdentity p s) (fun o c => PtOk c o)
      (fun o z => ptVal z o = ⟨rowVal z p.x * z s, rowVal z p.y * z s + 1 - z s, rowVal z p.z * z s⟩) True := by
  obtain ⟨px, py, pz⟩ := hp
  unfold ptSelectIdentity
  refine WP.bind (WP.mul wf (by rowok) (by rowok)) id (fun t0 c1 x1 w1 o1 _ => ?_)
  refine WP.bind (WP.mul w1 (by rowok) (by rowok)) id (fun t1 c2 x2 w2 o2 _ => ?_)
  refine WP.bind (WP.mul w2 (by rowok) (by rowok)) id (fun t2 c3 x3 w3 o3 _ => ?_)
  refine WP.pure w3 ⟨by rowok, by rowok, by rowok⟩ ?_
  intro z hz e3 e2 e1
  simp (maxDischargeDepth := 8) only [Row.rowVal_add, Row.rowVal_sub, rowVal_const, Row.distinct_add, Row.distinct_sub, distinct_const,
    distinct_ofBin, hz, o1.1, o2.1, o3.1, px.1, py.1, pz.1, ptVal, Proj.mk.injEq, one_mul, rowVal_ofBin] at *
  simp only [e1, e2, e3, and_self]

theorem ptSelect_wp {cs : CS F} (wf : Wf cs) {p q : PointRow F} (hp : PtOk cs p) (hq : PtOk cs q) {s : Bin}
    (hs : Allocated cs s) :
    WP cs (ptSelect p q s) (fun o c => PtOk c o)
      (fun o z => ptVal z o = ⟨rowVal z p.x * z s + rowVal z q.x * (1 - z s),
        rowVal z p.y * z s + rowVal z q.y * (1 - z s), rowVal z p.z * z s + rowVal z q.z * (1 - z s)⟩) True := by
  obtain ⟨px, py, pz⟩ := hp
  obtain ⟨qx, qy, qz⟩ := hq
  unfold ptSelect
  refine WP.bind (WP.conditionalSelect wf (by rowok) (by rowok) (by rowok)) id (fun t0 c1 x1 w1 o1 _ => ?_)
  refine WP.bind (WP.conditionalSelect w1 (by rowok) (by rowok) (by rowok)) id (fun t1 c2 x2 w2 o2 _ => ?_)
  refine WP.bind (WP.conditionalSelect w2 (by rowok) (by rowok) (by rowok)) id (fun t2 c3 x3 w3 o3 _ => ?_)
  refine WP.pure w3 ⟨by rowok, by rowok, by rowok⟩ ?_
  intro z hz e3 e2 e1
  simp only [ptVal, e1, e2, e3]

theorem ptWit_wp {cs : CS F} (wf : Wf cs) (x y : F) (i : Bool) :
    WP cs (ptWit x y i) (fun o c => PtOk c o ∧ ptVal (stored c) o = ⟨x, y, if i then 0 else 1⟩) (fun _ _ => True) True := by
  unfold ptWit
  refine WP.bind (WP.wit wf _) id (fun t0 c1 x1 w1 o1 _ => ?_)
  refine WP.bind (WP.wit w1 _) id (fun t1 c2 x2 w2 o2 _ => ?_)
  refine WP.bind (WP.wit w2 _) id (fun t2 c3 x3 w3 o3 _ => ?_)
  obtain ⟨o1, v1⟩ := o1
  obtain ⟨o2, v2⟩ := o2
  obtain ⟨o3, v3⟩ := o3
  refine WP.pure w3 ⟨⟨by rowok, by rowok, by rowok⟩, ?_⟩ (fun _ _ _ _ _ => trivial)
  simp only [ptVal]
  rw [v3, x3.rowVal_eq o2, v2, (x2.trans x3).rowVal_eq o1, v1]

theorem ptInst_wp {cs : CS F} (wf : Wf cs) (a : Aff F) :
    WP cs (ptInst a) (fun o c => PtOk c o ∧ ptVal (stored c) o = ⟨a.x, a.y, if a.isIdentity then 0 else 1⟩)
      (fun _ _ => True) True := by
  unfold ptInst
  refine WP.bind (WP.inst wf _) id (fun t0 c1 x1 w1 o1 _ => ?_)
  refine WP.bind (WP.inst w1 _) id (fun t1 c2 x2 w2 o2 _ => ?_)
  refine WP.bind (WP.inst w2 _) id (fun t2 c3 x3 w3 o3 _ => ?_)
  obtain ⟨o1, v1⟩ := o1
  obtain ⟨o2, v2⟩ := o2
  obtain ⟨o3, v3⟩ := o3
  refine WP.pure w3 ⟨⟨by rowok, by rowok, by rowok⟩, ?_⟩ (fun _ _ _ _ _ => trivial)
  simp only [ptVal]
  rw [v3, x3.rowVal_eq o2, v2, (x2.trans x3).rowVal_eq o1, v1]

theorem ptAssertEqualPublic_wp {cs : CS F} (wf : Wf cs) {p : PointRow F} (hp : PtOk cs p) (q : Proj F) :
    WP cs (ptAssertEqualPublic p q) (fun _ _ => True)
      (fun _ z => rowVal z p.x * q.z = q.x * rowVal z p.z ∧ rowVal z p.y * q.z = q.y * rowVal z p.z)
      (rowVal (stored cs) p.x * q.z = q.x * rowVal (stored cs) p.z ∧
        rowVal (stored cs) p.y * q.z = q.y * rowVal (stored cs) p.z) := by
  obtain ⟨px, py, pz⟩ := hp
  unfold ptAssertEqualPublic
  refine WP.bind (WP.mul wf (by rowok) (by rowok)) (fun _ => trivial) (fun t0 c1 x1 w1 o1 v1 => ?_)
  refine WP.bind (WP.mul w1 (by rowok) (by rowok)) (fun _ => trivial) (fun t1 c2 x2 w2 o2 v2 => ?_)
  refine WP.bind (WP.enforceEq w2 (by rowok) (by rowok)) (fun h => ?_) (fun _ c3 x3 w3 _ _ => ?_)
  · have v1 := v1 h
    have v2 := v2 h
    rw [x2.rowVal_eq o1, v1, v2, rowVal_const, rowVal_const, w1.stored_one, w2.stored_one, one_mul, one_mul,
      x1.rowVal_eq px, (x1.trans x2).rowVal_eq pz]
    exact h.1
  refine WP.bind (WP.mul w3 (by rowok) (by rowok)) (fun _ => trivial) (fun t3 c4 x4 w4 o4 v4 => ?_)
  refine WP.bind (WP.mul w4 (by rowok) (by rowok)) (fun _ => trivial) (fun t4 c5 x5 w5 o5 v5 => ?_)
  refine WP.weaken (WP.enforceEq w5 (by rowok) (by rowok)) (fun _ _ _ _ _ _ => trivial) (fun _ z hz h => ?_) (fun h => ?_)
  · intro e5 e4 e3 e2 e1
    rw [rowVal_const, hz, one_mul] at e1 e2 e4 e5
    rw [← e1, ← e2, ← e4, ← e5]
    exact ⟨e3, h⟩
  · have v4 := v4 h
    have v5 := v5 h
    rw [x5.rowVal_eq o4, v4, v5, rowVal_const, rowVal_const, w4.stored_one, w5.stored_one, one_mul, one_mul,
      (x1.trans (x2.trans (x3.trans x4))).rowVal_eq py, (x1.trans (x2.trans (x3.trans (x4.trans x5)))).rowVal_eq pz]
    exact h.2

theorem ptIdentity_ok {cs : CS F} (wf : Wf cs) : PtOk cs (ptIdentity : PointRow F) :=
  ⟨const_ok wf 0, const_ok wf 1, const_ok wf 0⟩

/-- `n` times the accumulator's point, bit after bit. -/
theorem ptScalarLoop_wp (h2 : (2 : F) ≠ 0) (hn : NoOrderTwo b) {p : PointRow F} : ∀ (bits : List Bin) {cs : CS F}
    (_ : Wf cs) (_ : PtOk cs p) (_ : ∀ s ∈ bits, Allocated cs s) {res : PointRow F} (_ : PtOk cs res),
    WP cs (ptScalarLoop (b + b + b) p bits res) (fun o c => PtOk c o)
      (fun o z => ∀ (P : (curve b).Point) (n : Nat) (ds : List Nat), CircRep b (ptVal z p) P →
        CircRep b (ptVal z res) (n • P) → (∀ d ∈ ds, d = 0 ∨ d = 1) → bits.map z = ds.map (fun d : Nat => (d : F)) →
        CircRep b (ptVal z o) ((ds.foldl (fun acc d => 2 * acc + d) n) • P)) True := by
  intro bits
  induction bits with
  | nil =>
    intro cs wf hp _ res hr
    refine WP.pure wf hr (fun z hz P n ds hP hR hd he => ?_)
    cases ds with
    | nil => exact hR
    | cons _ _ => simp at he
  | cons s bits ih =>
    intro cs wf hp hb res hr
    unfold ptScalarLoop
    refine WP.bind (ptDouble_wp wf _ hr) id (fun r1 c1 x1 w1 o1 _ => ?_)
    refine WP.bind (ptSelectIdentity_wp w1 (PtOk.mono hp x1) (x1.alloc (hb s (by simp)))) id (fun q c2 x2 w2 o2 _ => ?_)
    refine WP.bind (ptAdd_wp w2 _ (PtOk.mono o1 x2) o2) id (fun r3 c3 x3 w3 o3 _ => ?_)
    have x13 := x1.trans (x2.trans x3)
    refine WP.weaken (ih w3 (PtOk.mono hp x13) (fun s' h' => x13.alloc (hb s' (by simp [h']))) o3)
      (fun _ _ _ _ h _ => h) (fun o z hz h => ?_) id
    intro e3 e2 e1 P n ds hP hR hd he
    cases ds with
    | nil => simp at he
    | cons d ds =>
      simp only [List.map_cons, List.cons.injEq] at he
      obtain ⟨hs, he⟩ := he
      rw [List.foldl_cons]
      refine h P (2 * n + d) ds hP ?_ (fun d' h' => hd d' (by simp [h'])) he
      rw [e3, e1, e2, hs]
      have hdb := doubleProj_circ h2 hn hR
      rw [← add_smul, ← two_mul n] at hdb
      rcases hd d (by simp) with rfl | rfl
      · have : CircRep b (⟨rowVal z p.x * ((0 : ℕ) : F), rowVal z p.y * ((0 : ℕ) : F) + 1 - ((0 : ℕ) : F),
            rowVal z p.z * ((0 : ℕ) : F)⟩ : Proj F) (0 : (curve b).Point) := by
          refine ⟨?_, ?_, ?_⟩ <;> simp
        have := rcbAdd_circ h2 hn hdb this
        rwa [add_zero] at this
      · have : CircRep b (⟨rowVal z p.x * ((1 : ℕ) : F), rowVal z p.y * ((1 : ℕ) : F) + 1 - ((1 : ℕ) : F),
            rowVal z p.z * ((1 : ℕ) : F)⟩ : Proj F) P := by
          simpa [ptVal] using hP
        have := rcbAdd_circ h2 hn hdb this
        rwa [add_smul, one_smul]

theorem _root_.Kogarashi.Spec.Uniform.ptAdd (b3 : F) (p q : PointRow F) : Uniform (ptAdd b3 p q) (ptAdd b3 p q) := by
  unfold Circ.ptAdd
  exact (Uniform.mul _ _).bind fun _ => (Uniform.mul _ _).bind fun _ => (Uniform.mul _ _).bind fun _ => (Uniform.mul _ _).bind fun _ => (Uniform.mul _ _).bind fun _ => (Uniform.mul _ _).bind fun _ => (Uniform.mul _ _).bind fun _ => (Uniform.mul _ _).bind fun _ => (Uniform.mul _ _).bind fun _ => (Uniform.mul _ _).bind fun _ => (Uniform.mul _ _).bind fun _ => (Uniform.mul _ _).bind fun _ => (Uniform.mul _ _).bind fun _ => (Uniform.mul _ _).bind fun _ => Uniform.pure _
theorem _root_.Kogarashi.Spec.Uniform.ptDouble (b3 : F) (p : PointRow F) : Uniform (ptDouble b3 p) (ptDouble b3 p) := by
  unfold Circ.ptDouble
  exact (Uniform.mul _ _).bind fun _ => (Uniform.mul _ _).bind fun _ => (Uniform.mul _ _).bind fun _ => (Uniform.mul _ _).bind fun _ => (Uniform.mul _ _).bind fun _ => (Uniform.mul _ _).bind fun _ => (Uniform.mul _ _).bind fun _ => (Uniform.mul _ _).bind fun _ => (Uniform.mul _ _).bind fun _ => Uniform.pure _
theorem _root_.Kogarashi.Spec.Uniform.ptSelectIdentity (p : PointRow F) (s : Bin) :
    Uniform (ptSelectIdentity p s) (ptSelectIdentity p s) := by
  unfold Circ.ptSelectIdentity; uniform
theorem _root_.Kogarashi.Spec.Uniform.ptSelect (p q : PointRow F) (s : Bin) :
    Uniform (ptSelect p q s) (ptSelect p q s) := by
  unfold Circ.ptSelect; uniform
theorem _root_.Kogarashi.Spec.Uniform.ptWit (x y x' y' : F) (i i' : Bool) :
    Uniform (ptWit x y i) (ptWit x' y' i') := by
  unfold Circ.ptWit; uniform
theorem _root_.Kogarashi.Spec.Uniform.ptInst (a a' : Aff F) : Uniform (ptInst a) (ptInst a') := by
  unfold Circ.ptInst; uniform
theorem _root_.Kogarashi.Spec.Uniform.ptAssertEqualPublic (p : PointRow F) (q : Proj F) :
    Uniform (ptAssertEqualPublic p q) (ptAssertEqualPublic p q) := by
  unfold Circ.ptAssertEqualPublic; uniform
theorem _root_.Kogarashi.Spec.Uniform.ptDescale (p : PointRow F) : Uniform (ptDescale p) (ptDescale p) := by
  unfold Circ.ptDescale
  have := Uniform.ptSelectIdentity (F := F)
  refine (Uniform.isNeq _ _).bind fun _ => Uniform.value fun _ _ => (Uniform.wit _ _).bind fun _ =>
    (Uniform.mul _ _).bind fun _ => (Uniform.mul _ _).bind fun _ => this _ _
theorem _root_.Kogarashi.Spec.Uniform.ptScalarLoop (b3 : F) (p : PointRow F) : ∀ (bits : List Bin) (res : PointRow F),
    Uniform (ptScalarLoop b3 p bits res) (ptScalarLoop b3 p bits res) := by
  intro bits
  induction bits with
  | nil => intro res; exact Uniform.pure _
  | cons s bits ih =>
    intro res
    unfold Circ.ptScalarLoop
    exact (Uniform.ptDouble _ _).bind fun _ => (Uniform.ptSelectIdentity _ _).bind fun _ =>
      (Uniform.ptAdd _ _ _).bind fun _ => ih _
theorem _root_.Kogarashi.Spec.Uniform.ptScalar {m : Nat} [Fact m.Prime] (nb : Nat) (b3 : ZMod m) (p : PointRow (ZMod m))
    (s : Row (ZMod m)) : Uniform (ptScalar nb b3 p s) (ptScalar nb b3 p s) :=
  (Uniform.toBits _ _ _).bind fun _ => Uniform.ptScalarLoop _ _ _ _

theorem ptDescale_wp {cs : CS F} (wf : Wf cs) {p : PointRow F} (hp : PtOk cs p) :
    WP cs (ptDescale p) (fun o c => PtOk c o ∧ ptVal (stored c) o =
        if rowVal (stored cs) p.z = 0 then ⟨0, 1, 0⟩ else
          ⟨rowVal (stored cs) p.x * (rowVal (stored cs) p.z)⁻¹, rowVal (stored cs) p.y * (rowVal (stored cs) p.z)⁻¹, 1⟩)
      (fun _ _ => True) True := by
  obtain ⟨px, py, pz⟩ := hp
  unfold ptDescale
  refine WP.bind (WP.isNeq wf (by rowok) (by rowok)) id (fun tv c1 x1 w1 o1 _ => ?_)
  obtain ⟨a1, s1⟩ := o1
  rw [rowVal_const, mul_zero] at s1
  refine WP.bind (WP.value w1 (by rowok)) id (fun vz c1' x1' w1' o1' _ => ?_)
  refine WP.bind (WP.wit w1' _) id (fun inv c2 x2 w2 o2 _ => ?_)
  obtain ⟨o2, v2⟩ := o2
  refine WP.bind (WP.mul w2 (by rowok) (by rowok)) id (fun tx c3 x3 w3 o3 v3 => ?_)
  refine WP.bind (WP.mul w3 (by rowok) (by rowok)) id (fun ty c4 x4 w4 o4 v4 => ?_)
  refine WP.weaken (ptSelectIdentity_wp w4 (p := ⟨tx, ty, const 1⟩) ⟨by rowok, by rowok, by rowok⟩ (by rowok))
    (fun o c x5 w5 ho hs => ⟨ho, ?_⟩) (fun _ _ _ _ => by intros; trivial) id
  have v3 := v3 trivial
  have v4 := v4 trivial
  have hs := hs trivial
  rw [hs]
  have e4 : Extends c1 c := x1'.trans (x2.trans (x3.trans (x4.trans x5)))
  have e0 : Extends cs c := x1.trans e4
  rw [e4.stored_eq a1, s1]
  have k1 : rowVal (stored c) inv = (rowVal (stored cs) p.z)⁻¹ := by
    rw [(x3.trans (x4.trans x5)).rowVal_eq o2, v2, o1', (x1.trans x1').rowVal_eq pz]
  have k3 : rowVal (stored c) tx = rowVal (stored cs) p.x * (rowVal (stored cs) p.z)⁻¹ := by
    rw [(x4.trans x5).rowVal_eq o3, v3, ← (x4.trans x5).rowVal_eq (by rowok : RowOk c3 inv), k1,
      (x1.trans (x1'.trans (x2.trans x3))).rowVal_eq px]
  have k4 : rowVal (stored c) ty = rowVal (stored cs) p.y * (rowVal (stored cs) p.z)⁻¹ := by
    rw [x5.rowVal_eq o4, v4, ← x5.rowVal_eq (by rowok : RowOk c4 inv), k1,
      (x1.trans (x1'.trans (x2.trans (x3.trans x4)))).rowVal_eq py]
  rw [k3, k4, rowVal_const, w5.stored_one]
  split <;> simp

end Circ

end Kogarashi
