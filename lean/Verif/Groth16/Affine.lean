import Verif.Groth16.ProtocolMain
import Verif.Groth16.Extract
import Verif.Spec.Affine

/-!
# What arbitrary combinations of the parameters are
-/

namespace Kogarashi.Groth16

open Kogarashi Spec

variable {F G1 G2 GT : Type} [_root_.Field F] [DecidableEq F]
variable [AddCommGroup G1] [Module F G1] [AddCommGroup G2] [Module F G2] [AddCommGroup GT] [Module F GT]
variable [DecidableEq G1] [DecidableEq G2] [DecidableEq GT]
variable {S : Nat} {root gen : F} {g1 : G1} {g2 : G2} {e : G1 →ₗ[F] G2 →ₗ[F] GT} {t : Trapdoor F}

omit [DecidableEq F] in
theorem dot_append (us vs : List F) : ∀ cs : List F, dot cs (us ++ vs) = dot (cs.take us.length) us + dot (cs.drop us.length) vs := by
  unfold dot
  induction us with
  | nil => intro cs; simp
  | cons u us ih =>
    intro cs
    cases cs with
    | nil => simp
    | cons c cs => simp [ih cs, add_assoc]

/-- The combinations of the key's lists. -/
structure KeyAll (g1 : G1) (g2 : G2) (t : Trapdoor F) (f : Fft F) (cs : CS F) (p : Params G1 G2) : Prop where
  a : ∀ x, combo x p.a = rd (lag f t.tau cs.m) cs.matA (x.take cs.l) (x.drop cs.l) • g1
  b1 : ∀ x, combo x p.bG1 = rd (lag f t.tau cs.m) cs.matB (x.take cs.l) (x.drop cs.l) • g1
  b2 : ∀ x, combo x p.bG2 = rd (lag f t.tau cs.m) cs.matB (x.take cs.l) (x.drop cs.l) • g2
  l : ∀ w, combo w p.l = ((rd (lag f t.tau cs.m) cs.matA [] w * t.beta + rd (lag f t.tau cs.m) cs.matB [] w * t.alpha +
    rd (lag f t.tau cs.m) cs.matC [] w) * t.delta⁻¹) • g1
  h : ∀ q, combo q p.h = ((f.z t.tau * t.delta⁻¹) * qEval cs.m q t.tau) • g1
  ic : ∀ x, combo x p.vk.ic = ((rd (lag f t.tau cs.m) cs.matA x [] * t.beta + rd (lag f t.tau cs.m) cs.matB x [] * t.alpha +
    rd (lag f t.tau cs.m) cs.matC x []) * t.gamma⁻¹) • g1
  gamma2 : p.vk.gammaG2 = t.gamma • g2

theorem setup_all {cs : CS F} {p : Params G1 G2} {vk : PVKey G1 G2 GT}
    (h : setup S root gen g1 g2 e t cs = some (.ok (p, vk))) :
    ∃ f, Fft.new S root gen (domainLog cs.m) = some f ∧ KeyAll g1 g2 t f cs p := by
  obtain ⟨f', hf', key⟩ := setup_keys h
  simp only [setup, Option.bind_eq_bind, Option.bind_eq_some_iff] at h
  obtain ⟨f, hf, h⟩ := h
  have ff : f' = f := by rw [hf] at hf'; exact (Option.some.inj hf').symm
  subst ff
  refine ⟨f', hf, ?_⟩
  split at h
  · simp at h
  rename_i hg
  split at h
  · simp at h
  rename_i hd
  simp only [Option.bind_eq_some_iff, Option.some.injEq, Except.ok.injEq, Prod.mk.injEq] at h
  obtain ⟨⟨ax, aw⟩, hA, ⟨bx, bw⟩, hB, ⟨cx, cw⟩, hC, inputs, hi, aux, ha, rfl, rfl⟩ := h
  obtain ⟨us, vs, ws, e1, e2, e3, e4, e5, e6, e7, e8, e9⟩ := evalCols_eq hi
  obtain ⟨us', vs', ws', e1', e2', e3', e4', e5', e6', e7', e8', e9'⟩ := evalCols_eq ha
  obtain ⟨lA, lA', -, -⟩ := xAndW_spec hA
  have lu : us.length = cs.l := by rw [e1, List.length_map, lA]
  have lv : vs.length = cs.l := by omega
  have gx : ∀ x, dot x us = rd (lag f' t.tau cs.m) cs.matA x [] := fun x => by rw [e1]; exact rd_pub hA x
  have gy : ∀ x, dot x vs = rd (lag f' t.tau cs.m) cs.matB x [] := fun x => by rw [e2]; exact rd_pub hB x
  have gz : ∀ x, dot x ws = rd (lag f' t.tau cs.m) cs.matC x [] := fun x => by rw [e3]; exact rd_pub hC x
  have gx' : ∀ x, dot x us' = rd (lag f' t.tau cs.m) cs.matA [] x := fun x => by rw [e1']; exact rd_aux hA x
  have gy' : ∀ x, dot x vs' = rd (lag f' t.tau cs.m) cs.matB [] x := fun x => by rw [e2']; exact rd_aux hB x
  refine ⟨?_, ?_, ?_, key.l, key.h, ?_, rfl⟩
  · intro x
    change msmSum _ x = _
    dsimp only
    rw [e6, e6', ← List.map_append, msmSum_smul, dot_append, lu, gx, gx', ← rd_split]
  · intro x
    change msmSum _ x = _
    dsimp only
    rw [e7, e7', ← List.map_append, msmSum_smul, dot_append, lv, gy, gy', ← rd_split]
  · intro x
    change msmSum _ x = _
    dsimp only
    rw [e8, e8', ← List.map_append, msmSum_smul, dot_append, lv, gy, gy', ← rd_split]
  · intro x
    change msmSum _ x = _
    dsimp only
    rw [e9, msmSum_smul, dot_ext _ _ _ _ _ _ _ e4 e5, gx, gy, gz]

end Kogarashi.Groth16
