import Verif.Groth16.Struct
import Verif.Props.Groth16Bn254

/-!
# Groth16 on BN254 from end to end

`setup`, `create_proof` and `verify` on the structs of BN254 with scalars as limbs (`Words frParams`, the arithmetic of
the code with `square` repaired), and the abstract protocol they are compared with.
-/

namespace Kogarashi.Groth16

open Kogarashi Spec Tower Curve Kogarashi.Field Limbs Props

/-- The scalar field as limbs. -/
abbrev FrW := Words frParams

instance : LimbScalar frParams FrW := ⟨frParams_valid, Words.limbs, Words.canonical⟩

/-- `ROOT_OF_UNITY` (`bn254/src/fr.rs` lines 55-65). -/
def frRootW : FrW := ⟨frRootOfUnity, frRoot_canonical⟩
/-- `MULTIPLICATIVE_GENERATOR` (`bn254/src/fr.rs` lines 18-21). -/
def frGenW : FrW := ⟨frParams.toMontForm ⟨7, 0, 0, 0⟩, (toMontForm_denote frParams_valid (by decide)).1⟩

/-- `PARAM_B` and the generators of the two groups (`bn254/src/params.rs`). -/
def bnGens : Gens FqV (Fq2 FqV) := ⟨g1B, g2B, g1Gen, g2Gen⟩

/-- The verifying key inside the parameters (`groth16/src/params.rs` lines 7-29). -/
def SParams.key (p : SParams FqV (Fq2 FqV)) : CVKey := ⟨p.alphaG1, p.betaG2, p.gammaG2, p.deltaG2, p.ic⟩
/-- The proof as the verifier takes it (`groth16/src/proof.rs` lines 7-11). -/
def SProof.toC (π : SProof FqV (Fq2 FqV)) : CProof := ⟨π.a, π.b, π.c⟩

/-- `ZkSnark::setup` (`groth16/src/zksnark.rs` lines 17-127). -/
def bnSetup (t : Trapdoor FrW) (cs : CS FrW) : Option (Except GErr (SParams FqV (Fq2 FqV) × CPVKey)) :=
  (sSetup bnGens frS frRootW frGenW t cs).bind fun
    | .error e => some (.error e)
    | .ok p => p.key.prepare.bind fun k => some (.ok (p, k))

/-- `Prover::create_proof` (`groth16/src/prover.rs` lines 20-99). -/
def bnProve (p : SParams FqV (Fq2 FqV)) (r s : FrW) (cs : CS FrW) : Option (Except GErr (SProof FqV (Fq2 FqV))) :=
  sCreateProof g1B g2B frS frRootW frGenW p r s cs

/-- `Verifier::verify` (`groth16/src/verifier.rs` lines 14-16, `proof.rs` lines 14-50). -/
def bnVerify (k : CPVKey) (π : SProof FqV (Fq2 FqV)) (inputs : List FrW) : Option (Except GErr Unit) :=
  cVerify k π.toC (inputs.map Words.limbs)

/-! ### The abstract protocol over limb scalars -/

theorem env_lift {K F : Type} [_root_.Field K] [_root_.Field F] (φ : K →+* F) {S : Nat} {root gen : K} (env : Env S (φ root) (φ gen)) :
    Env S root gen where
  small := env.small
  two h := env.two (by rw [← map_ofNat φ 2, h, map_zero])
  rootOk := φ.injective (by rw [map_pow, env.rootOk, map_neg, map_one])
  genOk h := env.genOk (by rw [h, map_zero])
  cosetOk h := env.cosetOk (by rw [← map_pow, h, map_one])

theorem hom_limbs (a : FrW) : Words.hom a = denote frParams a.limbs := rfl

theorem hom_frGenW : Words.hom frGenW = (7 : FrV) := by
  rw [hom_limbs, frGenW, (toMontForm_denote frParams_valid (v := ⟨7, 0, 0, 0⟩) (by decide)).2]
  rfl

theorem envW : Env frS frRootW frGenW :=
  env_lift Words.hom (by rw [hom_frGenW]; exact C43_env_bn254)

noncomputable instance : Module FrW BG1 := Module.compHom BG1 (Words.hom (P := frParams))
noncomputable instance : Module FrW BG2 := Module.compHom BG2 (Words.hom (P := frParams))
noncomputable instance : Module FrW BGT := Module.compHom BGT (Words.hom (P := frParams))

theorem smulW1 (k : FrW) (Q : BG1) : k • Q = (Words.hom k : FrV) • Q := rfl
theorem smulW2 (k : FrW) (Q : BG2) : k • Q = (Words.hom k : FrV) • Q := rfl
theorem smulWT (k : FrW) (Q : BGT) : k • Q = (Words.hom k : FrV) • Q := rfl

theorem hom_value (k : FrW) : Words.hom k = ((value frParams k.limbs : Nat) : FrV) := by
  rw [value_cast frParams_valid]; rfl

theorem act1 : ActsBy FrW BG1 := fun k Q => by
  rw [smulW1, hom_value, Nat.cast_smul_eq_nsmul]; rfl
theorem act2 : ActsBy FrW BG2 := fun k Q => by
  rw [smulW2, hom_value, Nat.cast_smul_eq_nsmul]; rfl

/-- The pairing of BN254 as a bilinear map over the limb scalars. -/
noncomputable def bnEW : BG1 →ₗ[FrW] BG2 →ₗ[FrW] BGT :=
  LinearMap.mk₂ FrW (fun P Q => bnE P Q) (fun P P' Q => by rw [map_add, LinearMap.add_apply])
    (fun c P Q => by rw [smulW1, smulWT, map_smul, LinearMap.smul_apply]) (fun P Q Q' => map_add _ _ _)
    (fun c P Q => by rw [smulW2, smulWT, map_smul])

theorem bnEW_apply (P : BG1) (Q : BG2) : bnEW P Q = bnE P Q := rfl

theorem verify_comp {K F G1 G2 GT : Type} [_root_.Field K] [_root_.Field F] [AddCommGroup G1] [Module F G1] [Module K G1]
    [AddCommGroup G2] [Module F G2] [Module K G2] [AddCommGroup GT] [Module F GT] [Module K GT] [DecidableEq GT]
    (φ : K → F) (e : G1 →ₗ[F] G2 →ₗ[F] GT) (e' : G1 →ₗ[K] G2 →ₗ[K] GT) (he : ∀ P Q, e' P Q = e P Q)
    (hs : ∀ (k : K) (P : G1), k • P = φ k • P) (V : VKey G1 G2) (ρ : Groth16.Proof G1 G2) (xs : List K) :
    verify e' (V.prepare e') ρ xs = verify e (V.prepare e) ρ (xs.map φ) := by
  have key : ∀ (xs : List K) (l : List G1) (a : G1), (xs.zip l).foldl (fun acc e => acc + e.1 • e.2) a =
      ((xs.map φ).zip l).foldl (fun acc e => acc + e.1 • e.2) a := by
    intro xs
    induction xs with
    | nil => intro l a; rfl
    | cons x xs ih =>
      intro l a
      cases l with
      | nil => rfl
      | cons P l =>
        simp only [List.zip_cons_cons, List.map_cons, List.foldl_cons]
        rw [ih, hs]
  have acc : icAcc (V.prepare e').ic xs = icAcc (V.prepare e).ic (xs.map φ) := key _ _ _
  unfold verify
  by_cases h : xs.length + 1 ≠ V.ic.length
  · rw [if_pos (show xs.length + 1 ≠ (V.prepare e').ic.length from h),
      if_pos (show (xs.map φ).length + 1 ≠ (V.prepare e).ic.length by rw [List.length_map]; exact h), List.length_map]
    rfl
  · rw [if_neg (show ¬ (xs.length + 1 ≠ (V.prepare e').ic.length) from h),
      if_neg (show ¬ ((xs.map φ).length + 1 ≠ (V.prepare e).ic.length) by rw [List.length_map]; exact h), acc]
    refine if_congr ?_ rfl rfl
    simp only [VKey.prepare, he]

theorem verifyW (V : VKey BG1 BG2) (ρ : Groth16.Proof BG1 BG2) (xs : List FrW) :
    verify bnEW (V.prepare bnEW) ρ xs = verify bnE (V.prepare bnE) ρ ((xs.map Words.limbs).map (denote frParams)) := by
  rw [verify_comp (Words.hom (P := frParams)) bnE bnEW bnEW_apply smulW1 V ρ xs, List.map_map]
  rfl

theorem setup_lengths {K G1 G2 GT : Type} [_root_.Field K] [DecidableEq K] [AddCommGroup G1] [Module K G1]
    [AddCommGroup G2] [Module K G2] [AddCommGroup GT] [Module K GT] [DecidableEq G1] [DecidableEq G2] [DecidableEq GT]
    {S : Nat} {root gen : K} {g1 : G1} {g2 : G2} {e : G1 →ₗ[K] G2 →ₗ[K] GT} {t : Trapdoor K} {cs : CS K}
    {p : Params G1 G2} {vk : PVKey G1 G2 GT} (h : setup S root gen g1 g2 e t cs = some (.ok (p, vk))) :
    p.h.length ≤ 2 ^ S ∧ p.l.length = cs.w.length ∧ p.a.length = cs.x.length + cs.w.length ∧
      p.bG1.length = cs.x.length + cs.w.length ∧ p.bG2.length = cs.x.length + cs.w.length ∧ p.vk.ic.length = cs.x.length := by
  simp only [setup, Option.bind_eq_bind, Option.bind_eq_some_iff] at h
  obtain ⟨f, hf, h⟩ := h
  have hk := (new_some hf).2
  have hm := m_le cs.m
  have hp : 2 ^ domainLog cs.m ≤ 2 ^ S := Nat.pow_le_pow_right (by norm_num) hk
  split at h
  · simp at h
  split at h
  · simp at h
  simp only [Option.bind_eq_some_iff, Option.some.injEq, Except.ok.injEq, Prod.mk.injEq] at h
  obtain ⟨⟨ax, aw⟩, hA, ⟨bx, bw⟩, hB, ⟨cx, cw⟩, hC, inputs, hi, aux, ha, rfl, rfl⟩ := h
  obtain ⟨us, vs, ws, e1, -, -, -, -, e6, -⟩ := evalCols_eq hi
  obtain ⟨us', vs', ws', e1', -, -, -, -, e6', -⟩ := evalCols_eq ha
  obtain ⟨lA, lA', -, -⟩ := xAndW_spec hA
  have li : inputs.length = cs.x.length := by
    have := congrArg List.length e6
    rw [List.length_map, List.length_map, e1, List.length_map, lA] at this
    exact this
  have la : aux.length = cs.w.length := by
    have := congrArg List.length e6'
    rw [List.length_map, List.length_map, e1', List.length_map, lA'] at this
    exact this
  refine ⟨?_, ?_, ?_, ?_, ?_, ?_⟩
  · simp only [List.length_map, List.length_take]; omega
  all_goals simp only [List.length_map, List.length_append]; omega

theorem Same.left {A B : Type} {R : A → B → Prop} {a : A} {y : Option (Except GErr B)} (h : Same R (some (.ok a)) y) :
    ∃ b, y = some (.ok b) ∧ R a b := by
  cases h with
  | ok h => exact ⟨_, rfl, h⟩

theorem Same.right {A B : Type} {R : A → B → Prop} {b : B} {x : Option (Except GErr A)} (h : Same R x (some (.ok b))) :
    ∃ a, x = some (.ok a) ∧ R a b := by
  cases h with
  | ok h => exact ⟨_, rfl, h⟩

theorem Same.none_left {A B : Type} {R : A → B → Prop} {x : Option (Except GErr B)} (h : Same R none x) : x = none := by
  cases h; rfl

theorem Same.none_right {A B : Type} {R : A → B → Prop} {x : Option (Except GErr A)} (h : Same R x none) : x = none := by
  cases h with
  | panic => rfl

/-- The key of the structs holds the key of the points. -/
theorem SParamsRep.key {p : SParams FqV (Fq2 FqV)} {P : Params BG1 BG2}
    (h : SParamsRep (AddMonoidHom.id BG1) g2Torsion.subtype p P) : KeyRep p.key P.vk :=
  ⟨h.alphaG1, h.betaG2, h.gammaG2, h.deltaG2, h.ic⟩

theorem SProofRep.toC {π : SProof FqV (Fq2 FqV)} {ρ : Groth16.Proof BG1 BG2}
    (h : SProofRep (AddMonoidHom.id BG1) g2Torsion.subtype π ρ) : ProofRep π.toC ρ := ⟨h.a, h.b, h.c⟩

/-- The keys the code returns and those of the abstract protocol. -/
def KeysRep (k : SParams FqV (Fq2 FqV) × CPVKey) (K : Params BG1 BG2 × PVKey BG1 BG2 BGT) : Prop :=
  SParamsRep (AddMonoidHom.id BG1) g2Torsion.subtype k.1 K.1 ∧ k.1.key.prepare = some k.2 ∧ K.2 = K.1.vk.prepare bnEW

theorem bnSetup_same (t : Trapdoor FrW) (cs : CS FrW) :
    Same KeysRep (bnSetup t cs) (setup frS frRootW frGenW g1Point g2Base bnEW t cs) := by
  have h := sSetup_same (K := FrW) (p1 := g1Gen) (p2 := g2Gen) (g1 := g1Point) (g2 := g2Base) g1_two fq2_two act1 act2 (AddMonoidHom.id BG1)
    g2Torsion.subtype g1Gen_rep g2Gen_rep bnEW frS frRootW frGenW t cs
  unfold bnSetup bnGens
  generalize sSetup (Gens.mk g1B g2B g1Gen g2Gen) frS frRootW frGenW t cs = x at h ⊢
  generalize setup frS frRootW frGenW g1Point g2Base bnEW t cs = y at h ⊢
  cases h with
  | panic => exact .panic
  | err e => exact .err e
  | @ok p P h =>
    have hk := h.1.key
    have hp := prepare_refines hk.alpha hk.beta
    simp only [Option.bind_some]
    rw [hp]
    exact .ok ⟨h.1, hp, h.2⟩

theorem bnProve_same {p : SParams FqV (Fq2 FqV)} {P : Params BG1 BG2}
    (hp : SParamsRep (AddMonoidHom.id BG1) g2Torsion.subtype p P) (hl : p.Sized) (r s : FrW) (cs : CS FrW) :
    Same (SProofRep (AddMonoidHom.id BG1) g2Torsion.subtype) (bnProve p r s cs) (createProof frS frRootW frGenW P r s cs) :=
  sCreateProof_same (K := FrW) g1_two fq2_two act1 act2 (AddMonoidHom.id BG1) g2Torsion.subtype Function.injective_id
    Subtype.val_injective hp hl frS frRootW frGenW r s cs

theorem bnVerify_same {k : SParams FqV (Fq2 FqV) × CPVKey} {K : Params BG1 BG2 × PVKey BG1 BG2 BGT} (hk : KeysRep k K)
    (hne : k.1.ic ≠ []) {π : SProof FqV (Fq2 FqV)} {ρ : Groth16.Proof BG1 BG2}
    (hπ : SProofRep (AddMonoidHom.id BG1) g2Torsion.subtype π ρ) (inputs : List FrW) :
    bnVerify k.2 π inputs = some (verify bnEW K.2 ρ inputs) := by
  obtain ⟨h1, h2, h3⟩ := hk
  have := verify_refines h1.key hne hπ.toC (inputs := inputs.map Words.limbs) (by
    intro i hi
    obtain ⟨w, -, rfl⟩ := List.mem_map.mp hi
    exact w.canonical)
  rw [h2, Option.bind_some] at this
  rw [h3, verifyW]
  exact this

theorem sized_of {t : Trapdoor FrW} {cs : CS FrW} {K : Params BG1 BG2 × PVKey BG1 BG2 BGT} {k : SParams FqV (Fq2 FqV) × CPVKey}
    (hs : setup frS frRootW frGenW g1Point g2Base bnEW t cs = some (.ok K)) (hk : KeysRep k K)
    (hl : cs.x.length + cs.w.length < 2 ^ 64) : k.1.Sized ∧ k.1.ic.length = cs.x.length := by
  obtain ⟨P, V⟩ := K
  obtain ⟨l1, l2, l3, l4, l5, l6⟩ := setup_lengths hs
  obtain ⟨h1, -, -⟩ := hk
  have hS : (2 : Nat) ^ frS ≤ 2 ^ 63 := Nat.pow_le_pow_right (by norm_num) (by decide)
  have e1 : k.1.h.length = _ := h1.h.length_eq
  have e2 : k.1.l.length = _ := h1.l.length_eq
  have e3 : k.1.a.length = _ := h1.a.length_eq
  have e4 : k.1.bG1.length = _ := h1.bG1.length_eq
  have e5 : k.1.bG2.length = _ := h1.bG2.length_eq
  have e6 : k.1.ic.length = _ := h1.ic.length_eq
  refine ⟨⟨?_, ?_, ?_, ?_, ?_⟩, by rw [e6, l6]⟩
  · rw [e1]
    exact lt_of_le_of_lt (l1.trans hS) (by norm_num)
  · rw [e2, l2]; omega
  · rw [e3, l3]; exact hl
  · rw [e4, l4]; exact hl
  · rw [e5, l5]; exact hl

end Kogarashi.Groth16
