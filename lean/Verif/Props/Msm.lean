import Verif.Groth16.MsmProof
import Verif.Props.Curve

/-!
# Property C42: multi-scalar multiplication
-/

namespace Kogarashi.Props

open Kogarashi Spec Groth16 Curve Field Limbs

variable {F : Type} [Field F] [DecidableEq F] {b : F}

/-- The operators of `G1Affine`/`G1Projective` (and every other curve of the workspace), from `Curve/Weierstrass.lean`. -/
def weierstrassOps (b : F) : MsmOps (Aff F) (Proj F) where
  zero := Proj.identity
  addAA := addAffine (b + b + b)
  addEA := projAddAff (b + b + b)
  addEE := addProj (b + b + b)
  dbl := doubleProj (b + b + b)

/-- **C42.** For every number of bases and scalars the result is the sum of `scalar · base` over the common prefix.
(A slice has fewer than `2^64` elements on every supported platform.) -/
theorem C42_msm (h2 : (2 : F) ≠ 0) {S : FieldParams} (hS : ValidParams S) {bases : List (Aff F)}
    {Ps : List (curve b).Point} (hP : List.Forall₂ (AffRep b) bases Ps) (ks : List L4) (hk : ∀ k ∈ ks, Canonical S k)
    (hlen : bases.length < 2 ^ 64) :
    ProjRep b (msm (weierstrassOps b) bases (ks.map S.toBytes)) (List.zipWith (fun k P => value S k • P) ks Ps).sum := by
  have L : MsmLaws (weierstrassOps b) (AffRep b) (ProjRep b) :=
    { zero := rfl
      addAA := fun ha hb => addAffine_rep h2 ha hb
      addEA := fun {e b' P Q} he hb => by rw [add_comm]; exact addMixed_rep h2 hb he
      addEE := fun he hf => addProj_rep h2 he hf
      dbl := fun he => doubleProj_rep h2 he }
  have h := msm_rep L hP (coeffs := ks.map S.toBytes) (by
    intro bs hbs
    obtain ⟨k, hk', rfl⟩ := List.mem_map.mp hbs
    obtain ⟨h1, h3, -⟩ := toBytes_spec hS (hk k hk')
    exact ⟨h1, h3⟩) hlen
  have e : ∀ (ks : List L4), (∀ k ∈ ks, Canonical S k) → ∀ Ps : List (curve b).Point,
      List.zipWith (fun bs P => leValue 256 bs • P) (ks.map S.toBytes) Ps = List.zipWith (fun k P => value S k • P) ks Ps := by
    intro ks
    induction ks with
    | nil => intro _ Ps; simp
    | cons k ks ih =>
      intro hk Ps
      cases Ps with
      | nil => simp
      | cons P Ps =>
        rw [List.map_cons, List.zipWith_cons_cons, List.zipWith_cons_cons, ih (fun x hx => hk x (by simp [hx])),
          (toBytes_spec hS (hk k (by simp))).2.2]
  rwa [e ks hk] at h

/-- **C42**, digit extraction on its own: `get_at` returns the base-`2^c` digit of the scalar, for every segment. -/
theorem C42_digit {S : FieldParams} (hS : ValidParams S) {k : L4} (hk : Canonical S k) {c : Nat} (hc : c ≤ 57) (i : Nat) :
    getAt i c (S.toBytes k) = value S k / 2 ^ (i * c) % 2 ^ c := by
  obtain ⟨h1, h2, h3⟩ := toBytes_spec hS hk
  rw [getAt_eq h2 h1 hc, h3]

/-- The generator of G1 as a point of the curve. -/
noncomputable def g1GenPoint : (curve g1B).Point :=
  .some 1 2 (nonsingular_of_eq (by decide +kernel) (by decide +kernel) (by decide +kernel) (by decide +kernel))

/-- Non-vacuity: two bases (the generator and the identity), a canonical scalar, and one length per window rule. -/
example : List.Forall₂ (AffRep g1B) [g1Gen, Aff.identity] [g1GenPoint, 0] ∧ Canonical frParams badSquare ∧
    windowSize 2 = 1 ∧ windowSize 31 = 3 ∧ windowSize 1000 = 8 := by
  refine ⟨.cons ⟨rfl, rfl, rfl⟩ (.cons rfl .nil), by unfold Canonical; decide +kernel, by decide, by decide, by decide +kernel⟩

end Kogarashi.Props
