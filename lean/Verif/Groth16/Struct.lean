import Verif.Groth16.Protocol
import Verif.Field.Canon
import Verif.Props.Msm

/-!
# Groth16 setup and prover on the structs of the code

`Groth16/Protocol.lean` is over abstract groups.  Here are `ZkSnark::setup` and `Prover::create_proof` over affine and
projective structs, with `msm_curve_addition`, scalar multiplication by NAF digits and limb scalars, and the relation
between the two.  `S` is the scalar field, `F1`, `F2` the coordinate fields of the two groups.
-/

namespace Kogarashi.Groth16

open Kogarashi Spec Curve Kogarashi.Field Limbs Props

/-- A scalar type whose values are canonical limb arrays of the field with parameters `S`: what `Fr`
(`bn254/src/fr.rs`) gives the code here. -/
class LimbScalar (S : outParam FieldParams) (K : Type) where
  valid : ValidParams S
  limbs : K → L4
  canonical : ∀ k, Canonical S (limbs k)

variable {S : FieldParams} {K : Type} [_root_.Field K] [DecidableEq K] [LimbScalar S K] {F F1 F2 : Type} [_root_.Field F] [DecidableEq F] [_root_.Field F1] [DecidableEq F1]
  [_root_.Field F2] [DecidableEq F2]

/-! ### The code -/

/-- `Mul<Fr>` of a projective point (`bn254/src/g1.rs` lines 186-192, `g2.rs`); `none` if the recoding panics. -/
def mulProjW (b : F) (p : Proj F) (k : K) : Option (Proj F) := (S.toNafs (LimbScalar.limbs k)).map (scalarPoint (b + b + b) p)

/-- `Mul<Fr>` of an affine point (`bn254/src/g1.rs` lines 101-107, `g2.rs`). -/
def mulAffW (b : F) (p : Aff F) (k : K) : Option (Proj F) := mulProjW b p.toExtended k

/-- `(g * k).into()` (`groth16/src/zksnark.rs` line 177; `zkstd/src/macros/curve/weierstrass.rs` lines 77-81). -/
def mulIntoW (b : F) (p : Aff F) (k : K) : Option (Aff F) := (mulAffW b p k).map Proj.toAffine

/-- `if !at.is_zero() { g * at }` over a vector of identities (`groth16/src/zksnark.rs` lines 172-188). -/
def mulNzW (b : F) (p : Aff F) (k : K) : Option (Aff F) := if k ≠ 0 then mulIntoW b p k else some Aff.identity

/-- `msm_curve_addition` (`groth16/src/msm.rs` lines 6-48). -/
def msmW (b : F) (bases : List (Aff F)) (coeffs : List K) : Proj F :=
  msm (weierstrassOps b) bases (coeffs.map fun k => S.toBytes (LimbScalar.limbs k))

/-- `PARAM_B` and `ADDITIVE_GENERATOR` of the two groups (`bn254/src/params.rs` lines 8-44). -/
structure Gens (F1 F2 : Type) where
  b1 : F1
  b2 : F2
  g1 : Aff F1
  g2 : Aff F2

/-- `Parameters` with its `VerifyingKey` (`groth16/src/params.rs` lines 7-29, `verifier.rs` lines 18-45). -/
structure SParams (F1 F2 : Type) where
  alphaG1 : Aff F1
  betaG1 : Aff F1
  betaG2 : Aff F2
  gammaG2 : Aff F2
  deltaG1 : Aff F1
  deltaG2 : Aff F2
  ic : List (Aff F1)
  h : List (Aff F1)
  l : List (Aff F1)
  a : List (Aff F1)
  bG1 : List (Aff F1)
  bG2 : List (Aff F2)

/-- `Proof` (`groth16/src/proof.rs` lines 7-11). -/
structure SProof (F1 F2 : Type) where
  a : Aff F1
  b : Aff F2
  c : Aff F1

/-- What `eval` writes for one wire (`groth16/src/zksnark.rs` lines 131-194). -/
structure SQuery (F1 F2 : Type) where
  a : Aff F1
  bG1 : Aff F1
  bG2 : Aff F2
  ext : Aff F1

/-- `eval` (`groth16/src/zksnark.rs` lines 131-194). -/
def sEvalCols (c : Gens F1 F2) (pt : List K) (inv alpha beta : K) :
    List (List (K × Nat)) → List (List (K × Nat)) → List (List (K × Nat)) → Option (List (SQuery F1 F2))
  | ca :: cas, cb :: cbs, cc :: ccs => do
    let at_ ← evalAtTau pt ca
    let bt ← evalAtTau pt cb
    let ct ← evalAtTau pt cc
    let a ← mulNzW c.b1 c.g1 at_
    let bG1 ← mulNzW c.b1 c.g1 bt
    let bG2 ← mulNzW c.b2 c.g2 bt
    let ext ← mulIntoW c.b1 c.g1 ((at_ * beta + bt * alpha + ct) * inv)
    let rest ← sEvalCols c pt inv alpha beta cas cbs ccs
    some (⟨a, bG1, bG2, ext⟩ :: rest)
  | [], [], [] => some []
  | _, _, _ => none

/-- `ZkSnark::setup` (`groth16/src/zksnark.rs` lines 17-127) up to the parameters. -/
def sSetup (c : Gens F1 F2) (s : Nat) (root gen : K) (t : Trapdoor K) (cs : CS K) :
    Option (Except GErr (SParams F1 F2)) := do
  let fft ← Fft.new s root gen (domainLog cs.m)
  if t.gamma = 0 then some (.error .proverInversionFailed)
  else if t.delta = 0 then some (.error .proverInversionFailed)
  else
    let powersOfTau := powersFrom t.tau cs.m 1
    let coeff := fft.z t.tau * t.delta⁻¹
    let h ← (powersOfTau.take (cs.m - 1)).mapM (fun p => mulIntoW c.b1 c.g1 (p * coeff))
    let pt := idft fft powersOfTau
    let (ax, aw) ← Matrix.xAndW cs.matA cs.l cs.w.length
    let (bx, bw) ← Matrix.xAndW cs.matB cs.l cs.w.length
    let (cx, cw) ← Matrix.xAndW cs.matC cs.l cs.w.length
    let inputs ← sEvalCols c pt t.gamma⁻¹ t.alpha t.beta ax bx cx
    let aux ← sEvalCols c pt t.delta⁻¹ t.alpha t.beta aw bw cw
    let alphaG1 ← mulIntoW c.b1 c.g1 t.alpha
    let betaG1 ← mulIntoW c.b1 c.g1 t.beta
    let betaG2 ← mulIntoW c.b2 c.g2 t.beta
    let gammaG2 ← mulIntoW c.b2 c.g2 t.gamma
    let deltaG1 ← mulIntoW c.b1 c.g1 t.delta
    let deltaG2 ← mulIntoW c.b2 c.g2 t.delta
    some (.ok
      { alphaG1 := alphaG1, betaG1 := betaG1, betaG2 := betaG2, gammaG2 := gammaG2, deltaG1 := deltaG1, deltaG2 := deltaG2
        ic := inputs.map (·.ext), h := h, l := aux.map (·.ext), a := inputs.map (·.a) ++ aux.map (·.a)
        bG1 := inputs.map (·.bG1) ++ aux.map (·.bG1), bG2 := inputs.map (·.bG2) ++ aux.map (·.bG2) })

/-- `Prover::create_proof` (`groth16/src/prover.rs` lines 20-99). -/
def sCreateProof (b1 : F1) (b2 : F2) (s : Nat) (root gen : K) (p : SParams F1 F2) (r s' : K)
    (cs : CS K) : Option (Except GErr (SProof F1 F2)) := do
  let fft ← Fft.new s root gen (domainLog cs.m)
  let (a, b, c) ← cs.evaluate
  let q ← quotient fft a b c
  let q := msmW b1 p.h q
  let l := msmW b1 p.l cs.w
  let aInputs := msmW b1 p.a cs.x
  let aAux := msmW b1 (← sliceFrom p.a cs.l) cs.w
  let b1Inputs := msmW b1 p.bG1 cs.x
  let b1Aux := msmW b1 (← sliceFrom p.bG1 cs.l) cs.w
  let b2Inputs := msmW b2 p.bG2 cs.x
  let b2Aux := msmW b2 (← sliceFrom p.bG2 cs.l) cs.w
  if p.deltaG1.isIdentity = true ∨ p.deltaG2.isIdentity = true then some (.error .proverSubVersionCrsAttack)
  else
    let rDelta ← mulAffW b1 p.deltaG1 r
    let gA := projAddAff (b1 + b1 + b1) rDelta p.alphaG1
    let gB := projAddAff (b2 + b2 + b2) (← mulAffW b2 p.deltaG2 s') p.betaG2
    let gC := addProj (b1 + b1 + b1) (addProj (b1 + b1 + b1) (← mulProjW b1 rDelta s') (← mulAffW b1 p.alphaG1 s'))
      (← mulAffW b1 p.betaG1 r)
    let aAnswer := addProj (b1 + b1 + b1) aInputs aAux
    let gA := addProj (b1 + b1 + b1) gA aAnswer
    let gC := addProj (b1 + b1 + b1) gC (← mulProjW b1 aAnswer s')
    let b1Answer := addProj (b1 + b1 + b1) b1Inputs b1Aux
    let b2Answer := addProj (b2 + b2 + b2) b2Inputs b2Aux
    let gB := addProj (b2 + b2 + b2) gB b2Answer
    let gC := addProj (b1 + b1 + b1) gC (← mulProjW b1 b1Answer r)
    let gC := addProj (b1 + b1 + b1) gC (addProj (b1 + b1 + b1) q l)
    some (.ok ⟨gA.toAffine, gB.toAffine, gC.toAffine⟩)

/-! ### Refinement -/

/-- The two runs end in the same way, with related results. -/
inductive Same {A B : Type} (R : A → B → Prop) : Option (Except GErr A) → Option (Except GErr B) → Prop where
  | panic : Same R none none
  | err (e : GErr) : Same R (some (.error e)) (some (.error e))
  | ok {a : A} {b : B} (h : R a b) : Same R (some (.ok a)) (some (.ok b))

/-- Both runs panic, or both return and the results are related. -/
inductive OptRel {A B : Type} (R : A → B → Prop) : Option A → Option B → Prop where
  | none : OptRel R none none
  | some {a : A} {b : B} (h : R a b) : OptRel R (some a) (some b)

theorem OptRel.bind {A B A' B' : Type} {R : A → B → Prop} {R' : A' → B' → Prop} {x : Option A} {y : Option B} {f : A → Option A'}
    {g : B → Option B'} (h : OptRel R x y) (hfg : ∀ a b, R a b → OptRel R' (f a) (g b)) : OptRel R' (x >>= f) (y >>= g) := by
  cases h with
  | none => exact .none
  | some h => exact hfg _ _ h

theorem Same.bind {A B A' B' : Type} {R : A → B → Prop} {R' : A' → B' → Prop} {x : Option A} {y : Option B}
    {f : A → Option (Except GErr A')} {g : B → Option (Except GErr B')} (h : OptRel R x y)
    (hfg : ∀ a b, R a b → Same R' (f a) (g b)) : Same R' (x >>= f) (y >>= g) := by
  cases h with
  | none => exact .panic
  | some h => exact hfg _ _ h

theorem OptRel.bind_eq {A A' B' : Type} {R' : A' → B' → Prop} (x : Option A) {f : A → Option A'}
    {g : A → Option B'} (hfg : ∀ a, OptRel R' (f a) (g a)) : OptRel R' (x >>= f) (x >>= g) := by
  cases x with
  | none => exact .none
  | some a => exact hfg a

theorem Same.bind_eq {A A' B' : Type} {R' : A' → B' → Prop} (x : Option A) {f : A → Option (Except GErr A')}
    {g : A → Option (Except GErr B')} (hfg : ∀ a, Same R' (f a) (g a)) : Same R' (x >>= f) (x >>= g) := by
  cases x with
  | none => exact .panic
  | some a => exact hfg a

theorem OptRel.bind_left {A A' B' : Type} {R' : A' → B' → Prop} {x : Option A} {a : A} (h : x = Option.some a) {f : A → Option A'}
    {y : Option B'} (hf : OptRel R' (f a) y) : OptRel R' (x >>= f) y := by
  subst h; exact hf

theorem Same.bind_left {A A' B' : Type} {R' : A' → B' → Prop} {x : Option A} {a : A} (h : x = Option.some a)
    {f : A → Option (Except GErr A')} {y : Option (Except GErr B')} (hf : Same R' (f a) y) : Same R' (x >>= f) y := by
  subst h; exact hf

theorem Same.ite {A B : Type} {R : A → B → Prop} {c c' : Prop} [Decidable c] [Decidable c'] (hc : c ↔ c') {e : GErr}
    {x : Option (Except GErr A)} {y : Option (Except GErr B)} (h : ¬ c → Same R x y) :
    Same R (if c then some (.error e) else x) (if c' then some (.error e) else y) := by
  by_cases hh : c
  · rw [if_pos hh, if_pos (hc.mp hh)]; exact .err e
  · rw [if_neg hh, if_neg (fun h' => hh (hc.mpr h'))]; exact h hh

section group
variable {b : F} {G : Type} [AddCommGroup G] [Module K G]

/-- The scalar field acts as the integers the limbs stand for. -/
def ActsBy (K : Type) [_root_.Field K] [LimbScalar S K] (G : Type) [AddCommGroup G] [Module K G] : Prop :=
  ∀ (k : K) (Q : G), k • Q = value S (LimbScalar.limbs k) • Q

theorem mulProjW_rep (h2 : (2 : F) ≠ 0) (act : ActsBy K G) (ι : G →+ (curve b).Point) {p : Proj F} {Q : G} (hp : ProjRep b p (ι Q))
    (k : K) : ∃ r, mulProjW b p k = some r ∧ ProjRep b r (ι (k • Q)) := by
  obtain ⟨nafs, e1, e2⟩ := C22_scalar_mul h2 (LimbScalar.valid K) (LimbScalar.canonical k) hp
  refine ⟨_, by rw [mulProjW, e1]; rfl, ?_⟩
  rw [act, map_nsmul]
  exact e2

theorem mulAffW_rep (h2 : (2 : F) ≠ 0) (act : ActsBy K G) (ι : G →+ (curve b).Point) {p : Aff F} {Q : G} (hp : AffRep b p (ι Q))
    (k : K) : ∃ r, mulAffW b p k = some r ∧ ProjRep b r (ι (k • Q)) :=
  mulProjW_rep h2 act ι (toExtended_rep hp) k

theorem mulIntoW_rep (h2 : (2 : F) ≠ 0) (act : ActsBy K G) (ι : G →+ (curve b).Point) {p : Aff F} {Q : G} (hp : AffRep b p (ι Q))
    (k : K) : ∃ r, mulIntoW b p k = some r ∧ AffRep b r (ι (k • Q)) := by
  obtain ⟨r, e1, e2⟩ := mulAffW_rep h2 act ι hp k
  exact ⟨_, by rw [mulIntoW, e1]; rfl, toAffine_rep e2⟩

theorem msmW_rep (h2 : (2 : F) ≠ 0) (act : ActsBy K G) (ι : G →+ (curve b).Point) {bases : List (Aff F)} {Qs : List G}
    (hP : List.Forall₂ (fun p Q => AffRep b p (ι Q)) bases Qs) (hl : bases.length < 2 ^ 64) (ks : List K) :
    ProjRep b (msmW b bases ks) (ι (msmSum Qs ks)) := by
  have h := C42_msm h2 (S := S) (LimbScalar.valid K) (bases := bases) (Ps := Qs.map ι) (by
    rw [List.forall₂_map_right_iff]; exact hP) (ks.map LimbScalar.limbs) (by
      intro k hk
      obtain ⟨w, -, rfl⟩ := List.mem_map.mp hk
      exact LimbScalar.canonical w) hl
  rw [List.map_map] at h
  have e : ∀ (ks : List K) (Qs : List G),
      (List.zipWith (fun k P => value S k • P) (ks.map LimbScalar.limbs) (Qs.map ι)).sum = ι (msmSum Qs ks) := by
    intro ks
    induction ks with
    | nil => intro Qs; simp [msmSum]
    | cons k ks ih =>
      intro Qs
      cases Qs with
      | nil => simp [msmSum]
      | cons Q Qs =>
        have := ih Qs
        simp only [msmSum] at this ⊢
        simp only [List.map_cons, List.zipWith_cons_cons, List.sum_cons, map_add, this, act k Q, map_nsmul]
  rw [e] at h
  exact h

theorem identity_rep (ι : G →+ (curve b).Point) : AffRep b (Aff.identity : Aff F) (ι 0) := by
  rw [map_zero]; rfl

theorem isIdentity_iff (ι : G →+ (curve b).Point) (hi : Function.Injective ι) {p : Aff F} {Q : G} (hp : AffRep b p (ι Q)) :
    p.isIdentity = true ↔ Q = 0 := by
  rw [← map_eq_zero_iff ι hi]
  unfold Aff.isIdentity
  generalize ι Q = P at hp
  cases P with
  | zero => exact ⟨fun _ => rfl, fun _ => hp⟩
  | some x y h =>
    constructor
    · intro h'; rw [hp.1] at h'; cases h'
    · intro h'; exact (WeierstrassCurve.Affine.Point.some_ne_zero _ h').elim

theorem mapM_rep {A : Type} {f : A → Option (Aff F)} {g : A → G} {ι : G →+ (curve b).Point}
    (h : ∀ x, ∃ r, f x = some r ∧ AffRep b r (ι (g x))) : ∀ l : List A,
    ∃ rs, l.mapM f = some rs ∧ List.Forall₂ (fun p Q => AffRep b p (ι Q)) rs (l.map g)
  | [] => ⟨[], rfl, .nil⟩
  | x :: l => by
    obtain ⟨r, e1, e2⟩ := h x
    obtain ⟨rs, e3, e4⟩ := mapM_rep h l
    refine ⟨r :: rs, ?_, .cons e2 e4⟩
    rw [List.mapM_cons, e1, e3]
    rfl

end group

section protocol
variable {G1 G2 : Type} [AddCommGroup G1] [Module K G1] [AddCommGroup G2] [Module K G2]
variable [DecidableEq G1] [DecidableEq G2] {b1 : F1} {b2 : F2}

/-- The structs hold the points. -/
structure SParamsRep (ι1 : G1 →+ (curve b1).Point) (ι2 : G2 →+ (curve b2).Point) (p : SParams F1 F2) (P : Params G1 G2) : Prop where
  alphaG1 : AffRep b1 p.alphaG1 (ι1 P.vk.alphaG1)
  betaG1 : AffRep b1 p.betaG1 (ι1 P.vk.betaG1)
  betaG2 : AffRep b2 p.betaG2 (ι2 P.vk.betaG2)
  gammaG2 : AffRep b2 p.gammaG2 (ι2 P.vk.gammaG2)
  deltaG1 : AffRep b1 p.deltaG1 (ι1 P.vk.deltaG1)
  deltaG2 : AffRep b2 p.deltaG2 (ι2 P.vk.deltaG2)
  ic : List.Forall₂ (fun p Q => AffRep b1 p (ι1 Q)) p.ic P.vk.ic
  h : List.Forall₂ (fun p Q => AffRep b1 p (ι1 Q)) p.h P.h
  l : List.Forall₂ (fun p Q => AffRep b1 p (ι1 Q)) p.l P.l
  a : List.Forall₂ (fun p Q => AffRep b1 p (ι1 Q)) p.a P.a
  bG1 : List.Forall₂ (fun p Q => AffRep b1 p (ι1 Q)) p.bG1 P.bG1
  bG2 : List.Forall₂ (fun p Q => AffRep b2 p (ι2 Q)) p.bG2 P.bG2

/-- The structs hold the points. -/
structure SProofRep (ι1 : G1 →+ (curve b1).Point) (ι2 : G2 →+ (curve b2).Point) (π : SProof F1 F2) (ρ : Proof G1 G2) : Prop where
  a : AffRep b1 π.a (ι1 ρ.a)
  b : AffRep b2 π.b (ι2 ρ.b)
  c : AffRep b1 π.c (ι1 ρ.c)

/-- The structs hold the points. -/
structure SQueryRep (ι1 : G1 →+ (curve b1).Point) (ι2 : G2 →+ (curve b2).Point) (q : SQuery F1 F2) (Q : Query G1 G2) : Prop where
  a : AffRep b1 q.a (ι1 Q.a)
  bG1 : AffRep b1 q.bG1 (ι1 Q.bG1)
  bG2 : AffRep b2 q.bG2 (ι2 Q.bG2)
  ext : AffRep b1 q.ext (ι1 Q.ext)

/-- A slice has fewer than `2^64` elements. -/
def SParams.Sized (p : SParams F1 F2) : Prop :=
  p.h.length < 2 ^ 64 ∧ p.l.length < 2 ^ 64 ∧ p.a.length < 2 ^ 64 ∧ p.bG1.length < 2 ^ 64 ∧ p.bG2.length < 2 ^ 64

theorem cond_rep {b : F} {G : Type} [AddCommGroup G] [Module K G] (h2 : (2 : F) ≠ 0) (act : ActsBy K G)
    (ι : G →+ (curve b).Point) {p : Aff F} {Q : G} (hp : AffRep b p (ι Q)) (k : K) :
    ∃ r, mulNzW b p k = some r ∧ AffRep b r (ι (if k ≠ 0 then k • Q else 0)) := by
  unfold mulNzW
  by_cases h : k ≠ 0
  · rw [if_pos h, if_pos h]; exact mulIntoW_rep h2 act ι hp k
  · rw [if_neg h, if_neg h]; exact ⟨_, rfl, identity_rep ι⟩

theorem map_rel {A B : Type} {R : A → B → Prop} {b : F} {G : Type} [AddCommGroup G] {ι : G →+ (curve b).Point} {f : A → Aff F} {g : B → G}
    {l : List A} {L : List B} (h : List.Forall₂ R l L) (hfg : ∀ a b', R a b' → AffRep b (f a) (ι (g b'))) :
    List.Forall₂ (fun p Q => AffRep b p (ι Q)) (l.map f) (L.map g) := by
  rw [List.forall₂_map_left_iff, List.forall₂_map_right_iff]
  exact h.imp hfg

theorem sliceFrom_rep {b : F} {G : Type} [AddCommGroup G] {ι : G →+ (curve b).Point} {l : List (Aff F)} {L : List G}
    (h : List.Forall₂ (fun p Q => AffRep b p (ι Q)) l L) (n : Nat) :
    OptRel (fun r R => r.length ≤ l.length ∧ List.Forall₂ (fun p Q => AffRep b p (ι Q)) r R) (sliceFrom l n) (sliceFrom L n) := by
  unfold sliceFrom
  rw [← h.length_eq]
  by_cases hn : n ≤ l.length
  · rw [if_pos hn, if_pos hn]
    exact .some ⟨by rw [List.length_drop]; omega, List.forall₂_drop n h⟩
  · rw [if_neg hn, if_neg hn]; exact .none

variable (h2 : (2 : F1) ≠ 0) (h2' : (2 : F2) ≠ 0) (act1 : ActsBy K G1) (act2 : ActsBy K G2)
  (ι1 : G1 →+ (curve b1).Point) (ι2 : G2 →+ (curve b2).Point)
include h2 h2' act1 act2

theorem evalCols_rep {p1 : Aff F1} {p2 : Aff F2} {g1 : G1} {g2 : G2} (hg1 : AffRep b1 p1 (ι1 g1)) (hg2 : AffRep b2 p2 (ι2 g2))
    (pt : List K) (inv alpha beta : K) : ∀ as bs cs : List (List (K × Nat)),
    OptRel (List.Forall₂ (SQueryRep ι1 ι2)) (sEvalCols ⟨b1, b2, p1, p2⟩ pt inv alpha beta as bs cs)
      (evalCols g1 g2 pt inv alpha beta as bs cs)
  | [], [], [] => .some .nil
  | [], [], _ :: _ => .none
  | [], _ :: _, [] => .none
  | [], _ :: _, _ :: _ => .none
  | _ :: _, [], [] => .none
  | _ :: _, [], _ :: _ => .none
  | _ :: _, _ :: _, [] => .none
  | a :: as, b :: bs, c :: cs => by
    have ih := evalCols_rep hg1 hg2 pt inv alpha beta as bs cs
    rw [evalCols, sEvalCols]
    refine .bind_eq _ fun at_ => .bind_eq _ fun bt => .bind_eq _ fun ct => ?_
    obtain ⟨r1, e1, k1⟩ := cond_rep h2 act1 ι1 hg1 at_
    obtain ⟨r2, e2, k2⟩ := cond_rep h2 act1 ι1 hg1 bt
    obtain ⟨r3, e3, k3⟩ := cond_rep h2' act2 ι2 hg2 bt
    obtain ⟨r4, e4, k4⟩ := mulIntoW_rep h2 act1 ι1 hg1 ((at_ * beta + bt * alpha + ct) * inv)
    refine .bind_left e1 (.bind_left e2 (.bind_left e3 (.bind_left e4 (.bind ih fun rest rest' hr => ?_))))
    exact .some (.cons ⟨k1, k2, k3, k4⟩ hr)

variable {GT : Type} [AddCommGroup GT] [Module K GT] [DecidableEq GT]

theorem sSetup_same {p1 : Aff F1} {p2 : Aff F2} {g1 : G1} {g2 : G2} (hg1 : AffRep b1 p1 (ι1 g1)) (hg2 : AffRep b2 p2 (ι2 g2))
    (e : G1 →ₗ[K] G2 →ₗ[K] GT) (s : Nat) (root gen : K) (t : Trapdoor K) (cs : CS K) :
    Same (fun p P => SParamsRep ι1 ι2 p P.1 ∧ P.2 = P.1.vk.prepare e) (sSetup ⟨b1, b2, p1, p2⟩ s root gen t cs)
      (setup s root gen g1 g2 e t cs) := by
  unfold sSetup setup
  refine .bind_eq _ fun fft => .ite Iff.rfl fun _ => .ite Iff.rfl fun _ => ?_
  obtain ⟨hs, eh, kh⟩ := mapM_rep (ι := ι1) (f := fun p => mulIntoW b1 p1 (p * (fft.z t.tau * t.delta⁻¹)))
    (g := fun p => (p * (fft.z t.tau * t.delta⁻¹)) • g1) (fun x => mulIntoW_rep h2 act1 ι1 hg1 _)
    ((powersFrom t.tau cs.m 1).take (cs.m - 1))
  refine .bind_left eh (.bind_eq _ ?_)
  rintro ⟨ax, aw⟩
  refine .bind_eq _ ?_
  rintro ⟨bx, bw⟩
  refine .bind_eq _ ?_
  rintro ⟨cx, cw⟩
  refine .bind (evalCols_rep h2 h2' act1 act2 ι1 ι2 hg1 hg2 _ _ _ _ _ _ _) fun inputs inputs' q1 => ?_
  refine .bind (evalCols_rep h2 h2' act1 act2 ι1 ι2 hg1 hg2 _ _ _ _ _ _ _) fun aux aux' q2 => ?_
  obtain ⟨x1, d1, c1⟩ := mulIntoW_rep h2 act1 ι1 hg1 t.alpha
  obtain ⟨x2, d2, c2⟩ := mulIntoW_rep h2 act1 ι1 hg1 t.beta
  obtain ⟨x3, d3, c3⟩ := mulIntoW_rep h2' act2 ι2 hg2 t.beta
  obtain ⟨x4, d4, c4⟩ := mulIntoW_rep h2' act2 ι2 hg2 t.gamma
  obtain ⟨x5, d5, c5⟩ := mulIntoW_rep h2 act1 ι1 hg1 t.delta
  obtain ⟨x6, d6, c6⟩ := mulIntoW_rep h2' act2 ι2 hg2 t.delta
  refine .bind_left d1 (.bind_left d2 (.bind_left d3 (.bind_left d4 (.bind_left d5 (.bind_left d6 ?_)))))
  have ext1 := map_rel (f := (·.ext)) (g := (·.ext)) q1 fun _ _ h => h.ext
  have ext2 := map_rel (f := (·.ext)) (g := (·.ext)) q2 fun _ _ h => h.ext
  have a1 := map_rel (f := (·.a)) (g := (·.a)) q1 fun _ _ h => h.a
  have a2 := map_rel (f := (·.a)) (g := (·.a)) q2 fun _ _ h => h.a
  have u1 := map_rel (f := (·.bG1)) (g := (·.bG1)) q1 fun _ _ h => h.bG1
  have u2 := map_rel (f := (·.bG1)) (g := (·.bG1)) q2 fun _ _ h => h.bG1
  have v1 := map_rel (f := (·.bG2)) (g := (·.bG2)) q1 fun _ _ h => h.bG2
  have v2 := map_rel (f := (·.bG2)) (g := (·.bG2)) q2 fun _ _ h => h.bG2
  exact .ok ⟨⟨c1, c2, c3, c4, c5, c6, ext1, kh, ext2, List.rel_append a1 a2, List.rel_append u1 u2, List.rel_append v1 v2⟩, rfl⟩

theorem sCreateProof_same (inj1 : Function.Injective ι1) (inj2 : Function.Injective ι2) {p : SParams F1 F2} {P : Params G1 G2}
    (hp : SParamsRep ι1 ι2 p P) (hl : p.Sized) (s : Nat) (root gen r s' : K) (cs : CS K) :
    Same (SProofRep ι1 ι2) (sCreateProof b1 b2 s root gen p r s' cs) (createProof s root gen P r s' cs) := by
  obtain ⟨lh, ll, la, lb1, lb2⟩ := hl
  unfold sCreateProof createProof
  refine .bind_eq _ fun fft => .bind_eq _ ?_
  rintro ⟨a, b, c⟩
  refine .bind_eq _ fun q => ?_
  refine .bind (sliceFrom_rep hp.a cs.l) fun sa SA ka => ?_
  refine .bind (sliceFrom_rep hp.bG1 cs.l) fun sb SB kb => ?_
  refine .bind (sliceFrom_rep hp.bG2 cs.l) fun sc SC kc => ?_
  obtain ⟨na, ka⟩ := ka
  obtain ⟨nb, kb⟩ := kb
  obtain ⟨nc, kc⟩ := kc
  have i1 := isIdentity_iff ι1 inj1 hp.deltaG1
  have i2 := isIdentity_iff ι2 inj2 hp.deltaG2
  refine .ite (by rw [i1, i2]) fun _ => ?_
  have mq := msmW_rep h2 act1 ι1 hp.h lh q
  have ml := msmW_rep h2 act1 ι1 hp.l ll cs.w
  have mai := msmW_rep h2 act1 ι1 hp.a la cs.x
  have maa := msmW_rep h2 act1 ι1 ka (by omega) cs.w
  have mbi := msmW_rep h2 act1 ι1 hp.bG1 lb1 cs.x
  have mba := msmW_rep h2 act1 ι1 kb (by omega) cs.w
  have mci := msmW_rep h2' act2 ι2 hp.bG2 lb2 cs.x
  have mca := msmW_rep h2' act2 ι2 kc (by omega) cs.w
  have add1 : ∀ {x y : Proj F1} {X Y : G1}, ProjRep b1 x (ι1 X) → ProjRep b1 y (ι1 Y) →
      ProjRep b1 (addProj (b1 + b1 + b1) x y) (ι1 (X + Y)) := fun hx hy => by rw [map_add]; exact addProj_rep h2 hx hy
  have add2 : ∀ {x y : Proj F2} {X Y : G2}, ProjRep b2 x (ι2 X) → ProjRep b2 y (ι2 Y) →
      ProjRep b2 (addProj (b2 + b2 + b2) x y) (ι2 (X + Y)) := fun hx hy => by rw [map_add]; exact addProj_rep h2' hx hy
  have mix1 : ∀ {x : Proj F1} {y : Aff F1} {X Y : G1}, ProjRep b1 x (ι1 X) → AffRep b1 y (ι1 Y) →
      ProjRep b1 (projAddAff (b1 + b1 + b1) x y) (ι1 (X + Y)) := fun {x y X Y} hx hy => by
    rw [add_comm X Y, map_add]; exact addMixed_rep h2 hy hx
  have mix2 : ∀ {x : Proj F2} {y : Aff F2} {X Y : G2}, ProjRep b2 x (ι2 X) → AffRep b2 y (ι2 Y) →
      ProjRep b2 (projAddAff (b2 + b2 + b2) x y) (ι2 (X + Y)) := fun {x y X Y} hx hy => by
    rw [add_comm X Y, map_add]; exact addMixed_rep h2' hy hx
  have ans1 := add1 mai maa
  have ans2 := add1 mbi mba
  have ans3 := add2 mci mca
  obtain ⟨x1, d1, c1⟩ := mulAffW_rep h2 act1 ι1 hp.deltaG1 r
  obtain ⟨x2, d2, c2⟩ := mulAffW_rep h2' act2 ι2 hp.deltaG2 s'
  obtain ⟨x3, d3, c3⟩ := mulProjW_rep h2 act1 ι1 c1 s'
  obtain ⟨x4, d4, c4⟩ := mulAffW_rep h2 act1 ι1 hp.alphaG1 s'
  obtain ⟨x5, d5, c5⟩ := mulAffW_rep h2 act1 ι1 hp.betaG1 r
  obtain ⟨x6, d6, c6⟩ := mulProjW_rep h2 act1 ι1 ans1 s'
  obtain ⟨x7, d7, c7⟩ := mulProjW_rep h2 act1 ι1 ans2 r
  refine .bind_left d1 (.bind_left d2 (.bind_left d3 (.bind_left d4 (.bind_left d5 (.bind_left d6 (.bind_left d7 ?_))))))
  exact .ok ⟨toAffine_rep (add1 (mix1 c1 hp.alphaG1) ans1), toAffine_rep (add2 (mix2 c2 hp.betaG2) ans3),
    toAffine_rep (add1 (add1 (add1 (add1 (add1 c3 c4) c5) c6) c7) (add1 mq ml))⟩

end protocol

end Kogarashi.Groth16
