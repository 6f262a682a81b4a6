import Verif.Groth16.Protocol
import Verif.Tower.Bilinear
import Mathlib.LinearAlgebra.BilinearMap

/-!
# The Groth16 verifier on the structs of the code, and the groups of BN254

`Groth16/Protocol.lean` is over abstract groups with a bilinear map.  Here is the verifier over affine and projective
structs, prepared coefficients and Fq12, and the instance of the abstract groups it computes in.
-/

namespace Kogarashi.Groth16

open Kogarashi Spec Tower Curve Kogarashi.Field Limbs Props

/-! ### The code -/

/-- `VerifyingKey` (`groth16/src/verifier.rs` lines 18-45); the two members `beta_g1`, `delta_g1` the verifier does
not read are left out. -/
structure CVKey where
  alphaG1 : Aff FqV
  betaG2 : Aff (Fq2 FqV)
  gammaG2 : Aff (Fq2 FqV)
  deltaG2 : Aff (Fq2 FqV)
  ic : List (Aff FqV)

/-- `PreparedVerifyingKey` (`groth16/src/verifier.rs` lines 65-75). -/
structure CPVKey where
  alphaBeta : Fq12 FqV
  negGamma : G2Pairing FqV
  negDelta : G2Pairing FqV
  ic : List (Aff FqV)

/-- `Proof` (`groth16/src/proof.rs` lines 7-11). -/
structure CProof where
  a : Aff FqV
  b : Aff (Fq2 FqV)
  c : Aff FqV

/-- `VerifyingKey::prepare` (`groth16/src/verifier.rs` lines 48-62); `none` is a panic. -/
def CVKey.prepare (vk : CVKey) : Option CPVKey := do
  let f ← multiMillerLoop [(vk.alphaG1, Tower.prepare vk.betaG2)]
  let ab ← finalExp f
  some ⟨ab, Tower.prepare (negAff vk.gammaG2), Tower.prepare (negAff vk.deltaG2), vk.ic⟩

/-- The loop over the public inputs (`groth16/src/proof.rs` lines 25-29). -/
def cAccLoop : List (L4 × Aff FqV) → Proj FqV → Option (Proj FqV)
  | [], acc => some acc
  | (i, b) :: rest, acc => do
    let nafs ← frParams.toNafs i
    cAccLoop rest (addProj (g1B + g1B + g1B) acc (scalarPoint (g1B + g1B + g1B) b.toExtended nafs))

/-- `Proof::verify` (`groth16/src/proof.rs` lines 14-50); `none` is a panic, such as that of `ic.len() - 1` and
`ic[0]` on an empty key. -/
def cVerify (vk : CPVKey) (π : CProof) (inputs : List L4) : Option (Except GErr Unit) :=
  match vk.ic with
  | [] => none
  | ic0 :: rest =>
    if inputs.length + 1 ≠ vk.ic.length then some (.error (.inconsistentPublicInputsLen (vk.ic.length - 1) inputs.length))
    else do
      let acc ← cAccLoop (inputs.zip rest) ic0.toExtended
      let f ← multiMillerLoop [(π.a, Tower.prepare π.b), (acc.toAffine, vk.negGamma), (π.c, vk.negDelta)]
      let p ← finalExp f
      if p ≠ vk.alphaBeta then some (.error .proofVerificationError) else some (.ok ())

/-! ### The groups -/

/-- G1. -/
abbrev BG1 := (curve g1B).Point
/-- G2: the points of the twist killed by the order of Fr. -/
abbrev BG2 := g2Torsion
/-- The target group, written additively. -/
abbrev BGT := Additive bn.M

noncomputable instance : Module FrV BG2 := AddCommGroup.zmodModule (fun Q => Subtype.ext Q.2)

theorem bgt_smul (x : BGT) : frParams.m • x = 0 := by
  have := bn.M_pow (Additive.toMul x)
  rw [bn_r] at this
  exact congrArg Additive.ofMul this

noncomputable instance : Module FrV BGT := AddCommGroup.zmodModule bgt_smul

noncomputable instance : DecidableEq BG2 := Classical.decEq _
noncomputable instance : DecidableEq BGT := Classical.decEq _

/-- The pairing, additive in the second argument. -/
noncomputable def eRight (P : BG1) : BG2 →+ BGT where
  toFun Q := Additive.ofMul (ePoint P Q)
  map_zero' := congrArg Additive.ofMul (ePoint_zero_right P)
  map_add' Q Q' := congrArg Additive.ofMul (ePoint_add_right P Q Q')

/-- The pairing, additive in the first argument. -/
noncomputable def eLeft (Q : BG2) : BG1 →+ BGT where
  toFun P := Additive.ofMul (ePoint P Q)
  map_zero' := congrArg Additive.ofMul (ePoint_zero_left Q)
  map_add' P P' := congrArg Additive.ofMul (ePoint_add_left P P' Q)

/-- The pairing of BN254 as a bilinear map over Fr. -/
noncomputable def bnE : BG1 →ₗ[FrV] BG2 →ₗ[FrV] BGT :=
  LinearMap.mk₂ FrV (fun P Q => Additive.ofMul (ePoint P Q)) (fun P P' Q => (eLeft Q).map_add P P')
    (fun c P Q => ZMod.map_smul (eLeft Q) c P) (fun P Q Q' => (eRight P).map_add Q Q')
    (fun c P Q => ZMod.map_smul (eRight P) c Q)

theorem bnE_apply (P : BG1) (Q : BG2) : bnE P Q = Additive.ofMul (ePoint P Q) := rfl

/-- The element of Fq12. -/
def gtVal (x : BGT) : Fq12 FqV := (((Additive.toMul x : bn.M) : (Fq12 FqV)ˣ) : Fq12 FqV)

theorem gtVal_add (x y : BGT) : gtVal (x + y) = gtVal x * gtVal y := rfl
theorem gtVal_injective : Function.Injective gtVal := fun _ _ h => congrArg Additive.ofMul (bn.M_ext h)

theorem pairing_bnE {p : Aff FqV} {P : BG1} (hp : AffRep g1B p P) {g : Aff (Fq2 FqV)} (Q : BG2)
    (hg : AffRep g2B g (Q : (curve g2B).Point)) : pairing p g = some (gtVal (bnE P Q)) := pairing_ePoint hp Q hg

/-! ### Refinement -/

/-- One factor of the Miller loop. -/
def factor (p : Aff FqV) (g : G2Pairing FqV) : Fq12 FqV :=
  if p.inf = true ∨ g.isInfinity = true then 1 else single fullSchedule 1 p g.coeffs

theorem prepared_ok (g : Aff (Fq2 FqV)) (h : (Tower.prepare g).isInfinity = false) :
    (Tower.prepare g).coeffs.length = passes fullSchedule :=
  (prepare_length g ((prepare_inf g).symm.trans h)).2

theorem miller_factors (ps : List (Aff FqV × Aff (Fq2 FqV))) :
    multiMillerLoop (ps.map fun x => (x.1, Tower.prepare x.2)) =
      some (ps.map fun x => factor x.1 (Tower.prepare x.2)).prod := by
  rw [multiMillerLoop_eq]
  · rw [List.map_map]; rfl
  · intro pq hpq _ h2
    rw [List.mem_map] at hpq
    obtain ⟨x, -, rfl⟩ := hpq
    exact prepared_ok _ h2

theorem factor_pow {p : Aff FqV} {g : Aff (Fq2 FqV)} {v : Fq12 FqV} (h : pairing p g = some v) :
    factor p (Tower.prepare g) ≠ 0 ∧ v = factor p (Tower.prepare g) ^ finalE := by
  have e := miller_factors [(p, g)]
  rw [List.map_cons, List.map_nil, List.map_cons, List.map_nil, List.prod_singleton] at e
  rw [pairing_of e, finalExp_eq] at h
  by_cases h0 : factor p (Tower.prepare g) = 0
  · rw [if_pos h0] at h; cases h
  · rw [if_neg h0] at h
    exact ⟨h0, (Option.some.inj h).symm⟩

theorem neg_rep2 {g : Aff (Fq2 FqV)} {Q : (curve g2B).Point} (h : AffRep g2B g Q) : AffRep g2B (negAff g) (-Q) := by
  cases Q with
  | zero => exact h
  | some x y hn =>
    obtain ⟨h1, h2, h3⟩ := h
    rw [WeierstrassCurve.Affine.Point.neg_some]
    refine ⟨h1, h2, ?_⟩
    rw [negY_curve]
    exact congrArg Neg.neg h3

theorem prepare_refines {vk : CVKey} {V : VKey BG1 BG2} (h1 : AffRep g1B vk.alphaG1 V.alphaG1)
    (h2 : AffRep g2B vk.betaG2 (V.betaG2 : (curve g2B).Point)) :
    vk.prepare = some ⟨gtVal (V.prepare bnE).alphaBeta, Tower.prepare (negAff vk.gammaG2),
      Tower.prepare (negAff vk.deltaG2), vk.ic⟩ := by
  have h := pairing_bnE h1 V.betaG2 h2
  unfold pairing at h
  rw [Option.bind_eq_bind, Option.bind_eq_some_iff] at h
  obtain ⟨f, hf, hv⟩ := h
  unfold CVKey.prepare
  rw [hf, Option.bind_eq_bind, Option.bind_some, hv]
  rfl

theorem acc_refines : ∀ (l : List (L4 × Aff FqV)) (L : List BG1) (acc : Proj FqV) (A : BG1),
    List.Forall₂ (fun x P => Canonical frParams x.1 ∧ AffRep g1B x.2 P) l L → ProjRep g1B acc A →
    ∃ acc', cAccLoop l acc = some acc' ∧
      ProjRep g1B acc' (((l.map fun x => denote frParams x.1).zip L).foldl (fun acc e => acc + e.1 • e.2) A) := by
  intro l
  induction l with
  | nil =>
    intro L acc A h ha
    cases h
    exact ⟨acc, rfl, ha⟩
  | cons x l ih =>
    intro L acc A h ha
    obtain ⟨i, b⟩ := x
    cases h with
    | cons hx hl =>
      rename_i P L
      obtain ⟨hc, hb⟩ := hx
      obtain ⟨nafs, e1, e2⟩ := C22_scalar_mul_affine (b := g1B) g1_two frParams_valid hc hb
      have hs := addProj_rep (b := g1B) g1_two ha e2
      have es : A + value frParams i • P = A + denote frParams i • P := by
        have := Nat.cast_smul_eq_nsmul FrV (value frParams i) P
        rw [value_cast frParams_valid] at this
        rw [this]
      rw [es] at hs
      obtain ⟨acc', r1, r2⟩ := ih L _ _ hl hs
      refine ⟨acc', ?_, r2⟩
      unfold cAccLoop
      rw [e1]
      exact r1

/-- The negation in G2. -/
theorem neg_coe (Q : BG2) : ((-Q : BG2) : (curve g2B).Point) = -(Q : (curve g2B).Point) := rfl

theorem finalExp_three {f1 f2 f3 v1 v2 v3 : Fq12 FqV} (h1 : f1 ≠ 0 ∧ v1 = f1 ^ finalE) (h2 : f2 ≠ 0 ∧ v2 = f2 ^ finalE)
    (h3 : f3 ≠ 0 ∧ v3 = f3 ^ finalE) : finalExp (f1 * (f2 * (f3 * 1))) = some (v1 * v2 * v3) := by
  have h : f1 * (f2 * (f3 * 1)) ≠ 0 :=
    mul_ne_zero h1.1 (mul_ne_zero h2.1 (mul_ne_zero h3.1 one_ne_zero))
  have e := finalExp_eq (f1 * (f2 * (f3 * 1)))
  rw [if_neg h] at e
  rw [e, h1.2, h2.2, h3.2, mul_one, mul_pow, mul_pow, mul_assoc]
  rfl

theorem miller_three (p1 p2 p3 : Aff FqV) (g1 g2 g3 : Aff (Fq2 FqV)) :
    multiMillerLoop [(p1, Tower.prepare g1), (p2, Tower.prepare g2), (p3, Tower.prepare g3)] =
      some (factor p1 (Tower.prepare g1) * (factor p2 (Tower.prepare g2) * (factor p3 (Tower.prepare g3) * 1))) :=
  miller_factors [(p1, g1), (p2, g2), (p3, g3)]

/-- What the structs hold. -/
structure KeyRep (vk : CVKey) (V : VKey BG1 BG2) : Prop where
  alpha : AffRep g1B vk.alphaG1 V.alphaG1
  beta : AffRep g2B vk.betaG2 (V.betaG2 : (curve g2B).Point)
  gamma : AffRep g2B vk.gammaG2 (V.gammaG2 : (curve g2B).Point)
  delta : AffRep g2B vk.deltaG2 (V.deltaG2 : (curve g2B).Point)
  ic : List.Forall₂ (AffRep g1B) vk.ic V.ic

/-- What the proof holds. -/
structure ProofRep (π : CProof) (ρ : Groth16.Proof BG1 BG2) : Prop where
  a : AffRep g1B π.a ρ.a
  b : AffRep g2B π.b (ρ.b : (curve g2B).Point)
  c : AffRep g1B π.c ρ.c

theorem zip_rep : ∀ (inputs : List L4) {l : List (Aff FqV)} {L : List BG1}, List.Forall₂ (AffRep g1B) l L →
    inputs.length = l.length → (∀ i ∈ inputs, Canonical frParams i) →
    List.Forall₂ (fun (x : L4 × Aff FqV) P => Canonical frParams x.1 ∧ AffRep g1B x.2 P) (inputs.zip l) L ∧
      (inputs.zip l).map (fun x => denote frParams x.1) = inputs.map (denote frParams) := by
  intro inputs
  induction inputs with
  | nil =>
    intro l L h hl _
    cases h with
    | nil => exact ⟨.nil, rfl⟩
    | cons _ _ => cases hl
  | cons i inputs ih =>
    intro l L h hl hc
    cases h with
    | nil => cases hl
    | cons h1 h2 =>
      obtain ⟨a, b⟩ := ih h2 (Nat.succ.inj hl) (fun j hj => hc j (List.mem_cons_of_mem _ hj))
      refine ⟨.cons ⟨hc i List.mem_cons_self, h1⟩ a, ?_⟩
      rw [List.zip_cons_cons, List.map_cons, List.map_cons, b]

theorem verify_refines {vk : CVKey} {V : VKey BG1 BG2} (hk : KeyRep vk V) (hne : vk.ic ≠ []) {π : CProof}
    {ρ : Groth16.Proof BG1 BG2} (hπ : ProofRep π ρ) {inputs : List L4} (hi : ∀ i ∈ inputs, Canonical frParams i) :
    (vk.prepare.bind fun k => cVerify k π inputs) = some (verify bnE (V.prepare bnE) ρ (inputs.map (denote frParams))) := by
  rw [prepare_refines hk.alpha hk.beta, Option.bind_some]
  unfold cVerify verify
  have hic : (V.prepare bnE).ic = V.ic := rfl
  have hln : V.ic.length = vk.ic.length := hk.ic.length_eq.symm
  rw [hic, hln, List.length_map]
  obtain ⟨ic0, rest, e⟩ := List.exists_cons_of_ne_nil hne
  have hicr := hk.ic
  obtain ⟨alphaG1, betaG2, gammaG2, deltaG2, ic⟩ := vk
  dsimp only at e hicr ⊢
  subst e
  generalize hV : V.ic = vic at hicr
  cases hicr with
  | cons h0 hr =>
    rename_i IC0 REST
    dsimp only
    by_cases hl : inputs.length + 1 = (ic0 :: rest).length
    · rw [if_neg (not_not.mpr hl), if_neg (not_not.mpr hl)]
      obtain ⟨z1, z2⟩ := zip_rep inputs hr (Nat.succ.inj hl) hi
      obtain ⟨acc, a1, a2⟩ := acc_refines _ _ _ _ z1 (toExtended_rep h0)
      rw [z2] at a2
      have ea : icAcc (IC0 :: REST) (inputs.map (denote frParams)) =
        ((inputs.map (denote frParams)).zip REST).foldl (fun acc e => acc + e.1 • e.2) IC0 := rfl
      rw [← ea] at a2
      have p1 := factor_pow (pairing_bnE hπ.a ρ.b hπ.b)
      have hg := neg_rep2 hk.gamma
      have hd := neg_rep2 hk.delta
      rw [← neg_coe] at hg hd
      have p2 := factor_pow (pairing_bnE (toAffine_rep a2) (-V.gammaG2) hg)
      have p3 := factor_pow (pairing_bnE hπ.c (-V.deltaG2) hd)
      rw [a1, Option.bind_eq_bind, Option.bind_some, miller_three, Option.bind_eq_bind, Option.bind_some,
        finalExp_three p1 p2 p3, Option.bind_some, ← gtVal_add, ← gtVal_add]
      have hz : (V.prepare bnE).negGamma = -V.gammaG2 := rfl
      have hz' : (V.prepare bnE).negDelta = -V.deltaG2 := rfl
      rw [hz, hz']
      by_cases hq : bnE ρ.a ρ.b + bnE (icAcc (IC0 :: REST) (inputs.map (denote frParams))) (-V.gammaG2) +
          bnE ρ.c (-V.deltaG2) = (V.prepare bnE).alphaBeta
      · rw [if_neg (not_not.mpr (congrArg gtVal hq)), if_neg (not_not.mpr hq)]
      · rw [if_pos (fun h => hq (gtVal_injective h)), if_pos hq]
    · rw [if_pos hl, if_pos hl]

end Kogarashi.Groth16
