import Verif.Tower.CodeSim
import Verif.Spec.ExactRun

/-!
# Watched runs are followed by the code on limbs and by the field
-/

namespace Kogarashi.Tower

open Limbs Kogarashi.Field Spec Props Curve Curve.Limb

/-- The limbs of a watched element that is still right. -/
def OnLimbs (e : Option FqW) (x : L4) : Prop := ∀ w, e = some w → w.limbs = x
/-- The value of a watched element that is still right. -/
def OnField (e : Option FqW) (x : FqW) : Prop := ∀ w, e = some w → w = x

theorem onBind {X : Type} {r : Option FqW → X → Prop} {v : FqW → X} (hr : ∀ e x, r e x ↔ ∀ w, e = some w → v w = x)
    {f : FqW → FqW → FqW} {g : X → X → X} (h : ∀ x y, v (f x y) = g (v x) (v y)) {a b : Option FqW} {c d : X}
    (ha : r a c) (hb : r b d) : r (a.bind fun x => b.map fun y => f x y) (g c d) := by
  rw [hr] at *
  intro w hw
  obtain ⟨x, hx, hw⟩ := Option.bind_eq_some_iff.mp hw
  obtain ⟨y, hy, hw⟩ := Option.map_eq_some_iff.mp hw
  rw [← hw, h, ha x hx, hb y hy]

theorem onMap {X : Type} {r : Option FqW → X → Prop} {v : FqW → X} (hr : ∀ e x, r e x ↔ ∀ w, e = some w → v w = x)
    {f : FqW → FqW} {g : X → X} (h : ∀ x, v (f x) = g (v x)) {a : Option FqW} {c : X} (ha : r a c) :
    r (a.map fun x => f x) (g c) := by
  rw [hr] at *
  intro w hw
  obtain ⟨x, hx, hw⟩ := Option.map_eq_some_iff.mp hw
  rw [← hw, h, ha x hx]

theorem limbs_double (x : FqW) : (x + x).limbs = fqParams.double x.limbs := by
  have h1 := double_denote fqParams_valid x.canonical
  have h2 := add_denote fqParams_valid x.canonical x.canonical
  exact denote_inj fqParams_valid h2.1 h1.1 (h2.2.trans h1.2.symm)

theorem limbs_invert {x : FqW} (h0 : x ≠ 0) (h : InvertRight x.limbs) : fqParams.invert x.limbs = some (x⁻¹).limbs := by
  have hne : x.limbs ≠ B256.zero := fun e => h0 (Words.ext e)
  obtain ⟨b, hb, hc, hm⟩ := invert_value fqParams_valid fqParams_prime x.canonical hne h
  have e : x * ⟨b, hc⟩ = 1 := Words.ext hm
  rw [hb, ← eq_inv_of_mul_eq_one_right e]

theorem sim_limbs : Sim watched codeBase OnLimbs where
  zero w hw := by
    rw [← Option.some_inj.mp hw]; rfl
  one w hw := by
    rw [← Option.some_inj.mp hw]; rfl
  add := onBind (v := Words.limbs) (f := fun x y => x + y) (g := codeBase.add) (fun _ _ => Iff.rfl) (fun _ _ => rfl)
  sub := onBind (v := Words.limbs) (f := fun x y => x - y) (g := codeBase.sub) (fun _ _ => Iff.rfl) (fun _ _ => rfl)
  neg := onMap (v := Words.limbs) (f := fun x => -x) (g := codeBase.neg) (fun _ _ => Iff.rfl) (fun _ => rfl)
  double := onMap (v := Words.limbs) (f := fun x => x + x) (g := codeBase.double) (fun _ _ => Iff.rfl) limbs_double
  mul := onBind (v := Words.limbs) (f := fun x y => x * y) (g := codeBase.mul) (fun _ _ => Iff.rfl) (fun _ _ => rfl)
  square := by
    intro a b h w hw
    obtain ⟨x, hx, hw⟩ := Option.bind_eq_some_iff.mp hw
    unfold watchSquare at hw
    split at hw
    · rename_i hs
      rw [← Option.some_inj.mp hw, ← h x hx]
      exact hs.symm
    · exact absurd hw (by simp)
  invert := by
    intro a b c h hc
    obtain ⟨x, hx, hc⟩ := Option.bind_eq_some_iff.mp hc
    unfold watchInvert at hc
    split at hc
    · exact absurd hc (by simp)
    · rename_i h0
      split at hc
      · rename_i hi
        refine ⟨(x⁻¹).limbs, ?_, ?_⟩
        · rw [← h x hx]
          exact limbs_invert h0 hi
        · rw [← Option.some_inj.mp hc]
          intro w hw
          rw [Option.some_inj.mp hw]
      · exact absurd hc (by simp)
  isZero := by
    intro a b h hz
    match a, h, hz with
    | none, _, hz => exact absurd hz (by simp [watched])
    | some x, h, hz =>
      have h0 : ¬ x = 0 := of_decide_eq_false ((Option.elim_some true watchZero x).symm.trans hz)
      apply decide_eq_false
      intro e
      apply h0
      apply Words.ext
      rw [h x rfl, e]
      rfl

theorem sim_field : Sim watched (fieldBase FqW) OnField where
  zero w hw := (Option.some_inj.mp hw).symm
  one w hw := (Option.some_inj.mp hw).symm
  add := onBind (v := id) (f := fun x y => x + y) (g := fun x y => x + y) (fun _ _ => Iff.rfl) (fun _ _ => rfl)
  sub := onBind (v := id) (f := fun x y => x - y) (g := fun x y => x - y) (fun _ _ => Iff.rfl) (fun _ _ => rfl)
  neg := onMap (v := id) (f := fun x => -x) (g := fun x => -x) (fun _ _ => Iff.rfl) (fun _ => rfl)
  double := onMap (v := id) (f := fun x => x + x) (g := fun x => x + x) (fun _ _ => Iff.rfl) (fun _ => rfl)
  mul := onBind (v := id) (f := fun x y => x * y) (g := fun x y => x * y) (fun _ _ => Iff.rfl) (fun _ _ => rfl)
  square := by
    intro a b h w hw
    obtain ⟨x, hx, hw⟩ := Option.bind_eq_some_iff.mp hw
    unfold watchSquare at hw
    split at hw
    · rw [← Option.some_inj.mp hw, h x hx]
      rfl
    · exact absurd hw (by simp)
  invert := by
    intro a b c h hc
    obtain ⟨x, hx, hc⟩ := Option.bind_eq_some_iff.mp hc
    unfold watchInvert at hc
    split at hc
    · exact absurd hc (by simp)
    · rename_i h0
      split at hc
      · refine ⟨x⁻¹, ?_, ?_⟩
        · rw [← h x hx]
          exact if_neg h0
        · rw [← Option.some_inj.mp hc]
          intro w hw
          exact (Option.some_inj.mp hw).symm
      · exact absurd hc (by simp)
  isZero := by
    intro a b h hz
    match a, h, hz with
    | none, _, hz => exact absurd hz (by simp [watched])
    | some x, h, hz =>
      rw [← h x rfl]
      exact hz

theorem limbs_wordOf {a : L4} (h : Canonical fqParams a) : (wordOf a).limbs = a := by
  unfold wordOf
  rw [dif_pos h]

theorem onLimbs2 {a : Fq2 L4} (h : Canon2 a) : R2 OnLimbs (watch2 (wordOf2 a)) a := by
  constructor
  · intro w hw
    rw [← Option.some_inj.mp hw]
    exact limbs_wordOf h.1
  · intro w hw
    rw [← Option.some_inj.mp hw]
    exact limbs_wordOf h.2

theorem onField2 (a : Fq2 FqW) : R2 OnField (watch2 a) a := by
  constructor <;> exact fun w hw => (Option.some_inj.mp hw).symm

theorem consts_limbs : RK OnLimbs constsWatched constsCode where
  fq2C1 i := by
    intro w hw
    rw [← Option.some_inj.mp hw]
    exact limbs_wordOf (getD_all canon_fq2C1 canon2_zero.1 i)
  fq6C1 i := onLimbs2 (getD_all canon_fq6C1 canon2_zero i)
  fq6C2 i := onLimbs2 (getD_all canon_fq6C2 canon2_zero i)
  fq12C1 i := onLimbs2 (getD_all canon_fq12C1 canon2_zero i)
  xiQ := onLimbs2 canon_xiQ

theorem consts_field : RK OnField constsWatched constsW where
  fq2C1 i w hw := (Option.some_inj.mp hw).symm
  fq6C1 i := onField2 _
  fq6C2 i := onField2 _
  fq12C1 i := onField2 _
  xiQ := onField2 _

theorem watch_limbs2 (a : Fq2 FqW) : R2 OnLimbs (watch2 a) (limbs2 a) := by
  constructor
  · intro w hw; rw [← Option.some_inj.mp hw]; rfl
  · intro w hw; rw [← Option.some_inj.mp hw]; rfl

theorem eq_of_r2 {X : Type} {r : Option FqW → X → Prop} {v : FqW → X} (hr : ∀ e x, r e x ↔ ∀ w, e = some w → v w = x)
    {a : Fq2 FqW} {b : Fq2 X} (h : R2 r (watch2 a) b) : (⟨v a.c0, v a.c1⟩ : Fq2 X) = b := by
  obtain ⟨h0, h1⟩ := h
  rw [hr] at h0 h1
  obtain ⟨b0, b1⟩ := b
  have e0 : v a.c0 = b0 := h0 _ rfl
  have e1 : v a.c1 = b1 := h1 _ rfl
  rw [e0, e1]

theorem eq_of_r12 {X : Type} {r : Option FqW → X → Prop} {v : FqW → X} (hr : ∀ e x, r e x ↔ ∀ w, e = some w → v w = x)
    {a : Fq12 FqW} {b : Fq12 X} (h : R12 r (watch12 a) b) :
    (⟨⟨⟨v a.c0.c0.c0, v a.c0.c0.c1⟩, ⟨v a.c0.c1.c0, v a.c0.c1.c1⟩, ⟨v a.c0.c2.c0, v a.c0.c2.c1⟩⟩,
      ⟨⟨v a.c1.c0.c0, v a.c1.c0.c1⟩, ⟨v a.c1.c1.c0, v a.c1.c1.c1⟩, ⟨v a.c1.c2.c0, v a.c1.c2.c1⟩⟩⟩ : Fq12 X) = b := by
  obtain ⟨⟨h0, h1, h2⟩, ⟨h3, h4, h5⟩⟩ := h
  obtain ⟨⟨b0, b1, b2⟩, ⟨b3, b4, b5⟩⟩ := b
  have e0 := eq_of_r2 hr h0
  have e1 := eq_of_r2 hr h1
  have e2 := eq_of_r2 hr h2
  have e3 := eq_of_r2 hr h3
  have e4 := eq_of_r2 hr h4
  have e5 := eq_of_r2 hr h5
  dsimp only at e0 e1 e2 e3 e4 e5
  rw [← e0, ← e1, ← e2, ← e3, ← e4, ← e5]

theorem runsRight_code {p : Aff FqW} {q : Aff (Fq2 FqW)} {z : Fq12 FqW} (h : RunsRight p q z) :
    codePairing (limbsG1 p) (limbsG2 q) = some (limbs12 z) := by
  obtain ⟨y, hy, hr⟩ := sim_limbs.pairing consts_limbs (p' := limbsG1 p) (q' := limbsG2 q)
    ⟨fun w hw => by rw [← Option.some_inj.mp hw]; rfl, fun w hw => by rw [← Option.some_inj.mp hw]; rfl, rfl⟩
    ⟨watch_limbs2 _, watch_limbs2 _, rfl⟩ _ h
  have e := eq_of_r12 (v := Words.limbs) (fun _ _ => Iff.rfl) hr
  unfold codePairing
  rw [hy, ← e]
  rfl

theorem runsRight_field {p : Aff FqW} {q : Aff (Fq2 FqW)} {z : Fq12 FqW} (h : RunsRight p q z) :
    constsW.pairing p q = some z := by
  obtain ⟨y, hy, hr⟩ := sim_field.pairing consts_field (p' := p) (q' := q)
    ⟨fun w hw => (Option.some_inj.mp hw).symm, fun w hw => (Option.some_inj.mp hw).symm, rfl⟩
    ⟨onField2 _, onField2 _, rfl⟩ _ h
  have e := eq_of_r12 (v := id) (fun _ _ => Iff.rfl) hr
  rw [fieldBase_pairing] at hy
  rw [hy, ← e]
  rfl

end Kogarashi.Tower
