import Verif.Props.Groth16StructMore

/-!
# C48, exactly: which input vectors the verifier tells apart
-/

namespace Kogarashi.Props

open Kogarashi Spec Tower Curve Kogarashi.Field Limbs Groth16

section
variable {F G1 G2 GT : Type} [_root_.Field F] [DecidableEq F]
variable [AddCommGroup G1] [Module F G1] [AddCommGroup G2] [Module F G2] [AddCommGroup GT] [Module F GT]
variable [DecidableEq G1] [DecidableEq G2] [DecidableEq GT]
variable {S : Nat} {root gen : F} {g1 : G1} {g2 : G2} {e : G1 →ₗ[F] G2 →ₗ[F] GT} {t : Trapdoor F}

theorem rowsDot_congr (φ : Nat → F) {z z' : Assignment F} : ∀ (M : List (Row F)) (i : Nat), (∀ r ∈ M, rowVal z r = rowVal z' r) →
    rowsDot φ z i M = rowsDot φ z' i M := by
  intro M i h
  rw [rowsDot_sum _ _ _ _ M.length le_rfl, rowsDot_sum _ _ _ _ M.length le_rfl]
  refine Finset.sum_congr rfl fun a ha => ?_
  have ha := Finset.mem_range.mp ha
  rw [List.getD_eq_getElem _ _ (by simpa using ha), List.getD_eq_getElem _ _ (by simpa using ha), List.getElem_map, List.getElem_map,
    h _ (List.getElem_mem ha)]

/-- **C48, the other half.** If no constraint tells two input vectors apart, the verifier treats them alike: with any keys `setup` returns,
every proof is accepted for both or for neither.  With `C48_binding_partial` this decides every pair of input vectors. -/
theorem C48_undistinguished {cs0 : CS F} {p : Params G1 G2} {vk : PVKey G1 G2 GT} (hs : setup S root gen g1 g2 e t cs0 = some (.ok (p, vk)))
    {x x' : List F} (hx : x.length + 1 = cs0.l) (hx' : x'.length + 1 = cs0.l) (hd : ¬ Distinguishes cs0 x x') (π : Groth16.Proof G1 G2) :
    verify e vk π x = verify e vk π x' := by
  obtain ⟨f, -, key⟩ := setup_keys hs
  have same : ∀ c ∈ cs0.cons, rowVal (publicOnly (1 :: x)) c.a = rowVal (publicOnly (1 :: x')) c.a ∧
      rowVal (publicOnly (1 :: x)) c.b = rowVal (publicOnly (1 :: x')) c.b ∧ rowVal (publicOnly (1 :: x)) c.c = rowVal (publicOnly (1 :: x')) c.c := by
    intro c hc
    by_contra h
    exact hd ⟨c, hc, by tauto⟩
  rw [publicOnly_eq, publicOnly_eq] at same
  have ea : rd (lag f t.tau cs0.m) cs0.matA (1 :: x) [] = rd (lag f t.tau cs0.m) cs0.matA (1 :: x') [] :=
    rowsDot_congr _ _ _ (by intro r hr; obtain ⟨c, hc, rfl⟩ := List.mem_map.mp hr; exact (same c hc).1)
  have eb : rd (lag f t.tau cs0.m) cs0.matB (1 :: x) [] = rd (lag f t.tau cs0.m) cs0.matB (1 :: x') [] :=
    rowsDot_congr _ _ _ (by intro r hr; obtain ⟨c, hc, rfl⟩ := List.mem_map.mp hr; exact (same c hc).2.1)
  have ec : rd (lag f t.tau cs0.m) cs0.matC (1 :: x) [] = rd (lag f t.tau cs0.m) cs0.matC (1 :: x') [] :=
    rowsDot_congr _ _ _ (by intro r hr; obtain ⟨c, hc, rfl⟩ := List.mem_map.mp hr; exact (same c hc).2.2)
  have ei : icAcc vk.ic x = icAcc vk.ic x' := by rw [key.ic _ hx, key.ic _ hx', ea, eb, ec]
  unfold verify
  rw [ei, show x.length = x'.length by omega]

/-- **C48, exactly.** For two input vectors of the right length: either every proof gets the same verdict for both, whatever the keys, or for
all but at most `m - 1` values of `τ` a proof accepted for both forces a relation between the remaining secrets. -/
theorem C48_exact (env : Env S root gen) (he : e g1 g2 ≠ 0) (cs0 : CS F) (x x' : List F) (hx : x.length + 1 = cs0.l)
    (hx' : x'.length + 1 = cs0.l) :
    (∀ (t : Trapdoor F) p vk, setup S root gen g1 g2 e t cs0 = some (.ok (p, vk)) → ∀ π, verify e vk π x = verify e vk π x') ∨
    ∃ bad : Finset F, bad.card ≤ cs0.m - 1 ∧ ∀ tau, tau ∉ bad → ∃ U V W : F, ¬ (U = 0 ∧ V = 0 ∧ W = 0) ∧
      ∀ (t : Trapdoor F) p vk, t.tau = tau → setup S root gen g1 g2 e t cs0 = some (.ok (p, vk)) → ∀ π,
        verify e vk π x = .ok () → verify e vk π x' = .ok () → t.beta * U + t.alpha * V + W = 0 := by
  by_cases h : Distinguishes cs0 x x'
  · exact Or.inr (C48_binding_partial env he cs0 x x' hx hx' h)
  · exact Or.inl fun t p vk hs π => C48_undistinguished hs hx hx' h π

end

/-- **C80, C48's other half on BN254.** If no constraint tells two input vectors apart, the verifier of the code gives every proof struct
that holds points of the groups the same verdict for both. -/
theorem C80_undistinguished {t : Trapdoor FrW} {cs0 : CS FrW} (hl : cs0.x.length + cs0.w.length < 2 ^ 64)
    {p : SParams FqV (Fq2 FqV)} {vk : CPVKey} (hs : bnSetup t cs0 = some (.ok (p, vk))) {x x' : List FrW} (hx : x.length + 1 = cs0.l)
    (hx' : x'.length + 1 = cs0.l) (hd : ¬ Distinguishes cs0 x x') (π : SProof FqV (Fq2 FqV)) (ρ : Groth16.Proof BG1 BG2)
    (hπ : SProofRep (AddMonoidHom.id BG1) g2Torsion.subtype π ρ) : bnVerify vk π x = bnVerify vk π x' := by
  obtain ⟨P, V, hS, hk, sz, hic⟩ := keys_of hs hl
  have hne : p.ic ≠ [] := by
    intro h
    rw [h] at hic
    have : cs0.l = cs0.x.length := rfl
    rw [this, ← hic] at hx
    simp at hx
  rw [bnVerify_same hk hne hπ, bnVerify_same hk hne hπ, C48_undistinguished hS hx hx' hd ρ]

/-- Two public inputs read only through their sum: `[1, 2]` and `[2, 1]` are not told apart, `[1, 2]` and `[1, 1]` are. -/
def sumCs : CS (ZMod 97) :=
  { x := [1, 0, 0], w := [], cons := [Constraint.mk [(.inst 1, 1), (.inst 2, 1)] [(Wire.ONE, 1)] [(.inst 1, 1), (.inst 2, 1)],
      Constraint.mk [(Wire.ONE, 1)] [(Wire.ONE, 1)] [(Wire.ONE, 1)]] }

example : ¬ Distinguishes sumCs [1, 2] [2, 1] ∧ Distinguishes sumCs [1, 2] [1, 1] := by
  constructor
  · rintro ⟨c, hc, h⟩
    simp only [sumCs, List.mem_cons, List.not_mem_nil, or_false] at hc
    rcases hc with rfl | rfl <;> revert h <;> decide
  · exact ⟨_, List.mem_cons_self, by decide⟩

end Kogarashi.Props
