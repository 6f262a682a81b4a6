import Verif.Tower.CodeRun
import Verif.Props.Words
import Verif.Groth16.Concrete

/-!
# The Groth16 verifier on raw limbs

`Concrete` is the verifier on residues.  Here it runs on limb arrays, with the routines of the code, `square` and `invert`
included; nothing requires the limbs to be canonical.
-/

namespace Kogarashi.Groth16

open Kogarashi Spec Tower Curve Kogarashi.Field Limbs Props

/-- `VerifyingKey` (`groth16/src/verifier.rs` lines 18-45), over any representation of Fq; the two members `beta_g1`,
`delta_g1` the verifier does not read are left out. -/
structure RVKey (A : Type) where
  alphaG1 : Aff A
  betaG2 : Aff (Fq2 A)
  gammaG2 : Aff (Fq2 A)
  deltaG2 : Aff (Fq2 A)
  ic : List (Aff A)

/-- `PreparedVerifyingKey` (`groth16/src/verifier.rs` lines 65-75). -/
structure RPVKey (A : Type) where
  alphaBeta : Fq12 A
  negGamma : G2Pairing A
  negDelta : G2Pairing A
  ic : List (Aff A)

/-- `Proof` (`groth16/src/proof.rs` lines 7-11). -/
structure RProof (A : Type) where
  a : Aff A
  b : Aff (Fq2 A)
  c : Aff A

/-- `VerifyingKey::prepare` (`groth16/src/verifier.rs` lines 48-62); `none` is a panic. -/
def lPrepare (vk : RVKey L4) : Option (RPVKey L4) := do
  let f ← codeBase.multiMillerLoop [(vk.alphaG1, codeBase.prepare constsCode vk.betaG2)]
  let ab ← codeBase.finalExp constsCode f
  some ⟨ab, codeBase.prepare constsCode (codeBase.negAff vk.gammaG2), codeBase.prepare constsCode (codeBase.negAff vk.deltaG2),
    vk.ic⟩

/-- The loop over the public inputs (`groth16/src/proof.rs` lines 25-29), for a curve over the field `P` with scalars `S`. -/
def accLoop (P S : FieldParams) (b3 : L4) : List (L4 × Aff L4) → Proj L4 → Option (Proj L4)
  | [], acc => some acc
  | (i, b) :: rest, acc => do
    let nafs ← S.toNafs i
    accLoop P S b3 rest (Limb.addProj P b3 acc (Limb.scalarPoint P b3 (Limb.toExtended P b) nafs))

/-- The loop for G1 of BN254. -/
abbrev lAccLoop := accLoop fqParams frParams g1B3L

/-- `Proof::verify` (`groth16/src/proof.rs` lines 14-50); `none` is a panic, such as that of `ic.len() - 1` and
`ic[0]` on an empty key. -/
def lVerify (vk : RPVKey L4) (π : RProof L4) (inputs : List L4) : Option (Except GErr Unit) :=
  match vk.ic with
  | [] => none
  | ic0 :: rest =>
    if inputs.length + 1 ≠ vk.ic.length then some (.error (.inconsistentPublicInputsLen (vk.ic.length - 1) inputs.length))
    else do
      let acc ← lAccLoop (inputs.zip rest) (Limb.toExtended fqParams ic0)
      let f ← codeBase.multiMillerLoop [(π.a, codeBase.prepare constsCode π.b), (Limb.toAffine fqParams acc, vk.negGamma),
        (π.c, vk.negDelta)]
      let p ← codeBase.finalExp constsCode f
      if p ≠ vk.alphaBeta then some (.error .proofVerificationError) else some (.ok ())

/-- Key, proof and inputs in, verdict out: `prepare` followed by `verify`. -/
def codeVerify (vk : RVKey L4) (π : RProof L4) (inputs : List L4) : Option (Except GErr Unit) :=
  (lPrepare vk).bind fun k => lVerify k π inputs

/-! ### What a run squares -/

/-- Squared by the loop over the public inputs. -/
def sqAcc (P S : FieldParams) (b3 : L4) : List (L4 × Aff L4) → Proj L4 → List L4
  | [], _ => []
  | (i, b) :: rest, acc =>
    (S.toNafs i).elim [] fun nafs =>
      let pt := Limb.scalarPoint P b3 (Limb.toExtended P b) nafs
      Limb.sqScalar P b3 (Limb.toExtended P b) nafs ⟨FieldParams.zero, P.one, FieldParams.zero⟩ ++
        (Limb.sqAddProj P acc pt ++ sqAcc P S b3 rest (Limb.addProj P b3 acc pt))

/-- Squared by the loop for G1 of BN254. -/
abbrev sqAccLoop := sqAcc fqParams frParams g1B3L

/-- The pairing part of `verify`, key preparation included. -/
def pairingPart {A : Type} (O : Base A) (k : Consts A) (vk : RVKey A) (π : RProof A) (I : Aff A) : Option (Fq12 A) := do
  let f ← O.multiMillerLoop [(π.a, O.prepare k π.b), (I, O.prepare k (O.negAff vk.gammaG2)), (π.c, O.prepare k (O.negAff vk.deltaG2))]
  O.finalExp k f

/-- A point as watched elements. -/
def watchG1 (p : Aff FqW) : Aff (Option FqW) := ⟨some p.x, some p.y, p.inf⟩
/-- A point as watched elements. -/
def watchG2 (q : Aff (Fq2 FqW)) : Aff (Fq2 (Option FqW)) := ⟨watch2 q.x, watch2 q.y, q.inf⟩
/-- A key with its coordinates changed. -/
def RVKey.map {A B : Type} (f : Aff A → Aff B) (g : Aff (Fq2 A) → Aff (Fq2 B)) (vk : RVKey A) : RVKey B :=
  ⟨f vk.alphaG1, g vk.betaG2, g vk.gammaG2, g vk.deltaG2, vk.ic.map f⟩
/-- A proof with its coordinates changed. -/
def RProof.map {A B : Type} (f : Aff A → Aff B) (g : Aff (Fq2 A) → Aff (Fq2 B)) (π : RProof A) : RProof B :=
  ⟨f π.a, g π.b, f π.c⟩

/-- Preparing the key and verifying makes no wrong squaring; `I` is the point the inputs are turned into, `ab` the pairing of
the key and `z` the pairing the verifier computes. -/
structure VerifyRight (vk : RVKey FqW) (π : RProof FqW) (inputs : List L4) (I : Aff FqW) (ab z : Fq12 FqW) : Prop where
  key : RunsRight vk.alphaG1 vk.betaG2 ab
  acc : ∃ ic0 rest r, vk.ic = ic0 :: rest ∧
    lAccLoop (inputs.zip (rest.map limbsG1)) (Limb.toExtended fqParams (limbsG1 ic0)) = some r ∧
    (∀ x ∈ sqAccLoop (inputs.zip (rest.map limbsG1)) (Limb.toExtended fqParams (limbsG1 ic0)), SquareRight x) ∧
    InvertRight r.z ∧ Limb.toAffine fqParams r = limbsG1 I
  run : pairingPart watched constsWatched (vk.map watchG1 watchG2) (π.map watchG1 watchG2) (watchG1 I) = some (watch12 z)

/-- The residues of a key. -/
noncomputable def readVKey (vk : RVKey FqW) : CVKey :=
  ⟨readG1 vk.alphaG1, readG2 vk.betaG2, readG2 vk.gammaG2, readG2 vk.deltaG2, vk.ic.map readG1⟩
/-- The residues of a proof. -/
noncomputable def readProof (π : RProof FqW) : CProof := ⟨readG1 π.a, readG2 π.b, readG1 π.c⟩

/-! ### Proofs -/

theorem aEl_limbs (p : Aff FqW) : Limb.AEl fqParams (limbsG1 p) (readG1 p) := ⟨p.x.el, p.y.el, rfl⟩

theorem accLoop_el : ∀ (l : List (L4 × Aff FqW)) {acc : Proj L4} {acc' : Proj FqV} {r : Proj L4}, Limb.PEl fqParams acc acc' →
    lAccLoop (l.map fun x => (x.1, limbsG1 x.2)) acc = some r →
    (∀ x ∈ sqAccLoop (l.map fun x => (x.1, limbsG1 x.2)) acc, SquareRight x) →
    ∃ r', cAccLoop (l.map fun x => (x.1, readG1 x.2)) acc' = some r' ∧ Limb.PEl fqParams r r'
  | [], acc, acc', r, h, hr, _ => by
    rw [List.map_nil, lAccLoop, accLoop, Option.some_inj] at hr
    subst hr
    exact ⟨acc', rfl, h⟩
  | (i, b) :: rest, acc, acc', r, h, hr, hs => by
    rw [List.map_cons] at hr hs
    rw [lAccLoop, accLoop] at hr
    rw [sqAccLoop, sqAcc] at hs
    obtain ⟨nafs, hn, hr⟩ := Option.bind_eq_some_iff.mp hr
    rw [hn, Option.elim_some] at hs
    dsimp only at hs hr
    have hb := Limb.toExtended_el fqParams_valid (aEl_limbs b)
    have hp : Limb.PEl fqParams (Limb.scalarPoint fqParams g1B3L (Limb.toExtended fqParams (limbsG1 b)) nafs)
        (Curve.scalarPoint (g1B + g1B + g1B) (readG1 b).toExtended nafs) :=
      Limb.scalar_el fqParams_valid g1B3L_el hb nafs _ _ (Limb.identity_el fqParams_valid)
        (fun x hx => hs x (List.mem_append_left _ hx))
    have ha := Limb.addProj_el fqParams_valid g1B3L_el h hp
      (fun x hx => hs x (List.mem_append_right _ (List.mem_append_left _ hx)))
    obtain ⟨r', e1, e2⟩ := accLoop_el rest ha hr
      (fun x hx => hs x (List.mem_append_right _ (List.mem_append_right _ hx)))
    refine ⟨r', ?_, e2⟩
    rw [List.map_cons, cAccLoop, hn]
    exact e1

theorem map_zip_snd {A B C : Type} (f : B → C) : ∀ (l : List A) (m : List B),
    (l.zip m).map (fun x => (x.1, f x.2)) = l.zip (m.map f)
  | [], _ => rfl
  | _ :: _, [] => rfl
  | a :: l, b :: m => by rw [List.zip_cons_cons, List.map_cons, map_zip_snd f l m, List.map_cons, List.zip_cons_cons]

section
variable {A B : Type} {O : Base A} {O' : Base B} {r : A → B → Prop} {k : Consts A} {k' : Consts B}

theorem Sim_pairingPart (S : Sim O O' r) (K : RK r k k') {vk : RVKey A} {vk' : RVKey B} {π : RProof A} {π' : RProof B}
    {I : Aff A} {I' : Aff B} (hg : RA (R2 r) vk.gammaG2 vk'.gammaG2) (hd : RA (R2 r) vk.deltaG2 vk'.deltaG2)
    (ha : RA r π.a π'.a) (hb : RA (R2 r) π.b π'.b) (hc : RA r π.c π'.c) (hI : RA r I I') :
    RO (R12 r) (pairingPart O k vk π I) (pairingPart O' k' vk' π' I') := by
  intro x hx
  unfold pairingPart at hx ⊢
  obtain ⟨f, e1, e2⟩ := Option.bind_eq_some_iff.mp hx
  obtain ⟨g, g1, g2⟩ := S.multiMillerLoop
    (l' := [(π'.a, O'.prepare k' π'.b), (I', O'.prepare k' (O'.negAff vk'.gammaG2)), (π'.c, O'.prepare k' (O'.negAff vk'.deltaG2))])
    (List.Forall₂.cons ⟨ha, S.prepare K hb⟩ (.cons ⟨hI, S.prepare K (S.negAff hg)⟩ (.cons ⟨hc, S.prepare K (S.negAff hd)⟩ .nil))) f e1
  obtain ⟨y, y1, y2⟩ := S.finalExp K g2 x e2
  exact ⟨y, by rw [g1, Option.bind_eq_bind, Option.bind_some, y1], y2⟩
end

theorem watch_limbsG1 (p : Aff FqW) : RA OnLimbs (watchG1 p) (limbsG1 p) :=
  ⟨fun w hw => by rw [← Option.some_inj.mp hw]; rfl, fun w hw => by rw [← Option.some_inj.mp hw]; rfl, rfl⟩
theorem watch_limbsG2 (q : Aff (Fq2 FqW)) : RA (R2 OnLimbs) (watchG2 q) (limbsG2 q) := ⟨watch_limbs2 _, watch_limbs2 _, rfl⟩
theorem watch_fieldG1 (p : Aff FqW) : RA OnField (watchG1 p) p :=
  ⟨fun _ hw => (Option.some_inj.mp hw).symm, fun _ hw => (Option.some_inj.mp hw).symm, rfl⟩
theorem watch_fieldG2 (q : Aff (Fq2 FqW)) : RA (R2 OnField) (watchG2 q) q := ⟨onField2 _, onField2 _, rfl⟩

theorem pairingPart_code {vk : RVKey FqW} {π : RProof FqW} {I : Aff FqW} {z : Fq12 FqW}
    (h : pairingPart watched constsWatched (vk.map watchG1 watchG2) (π.map watchG1 watchG2) (watchG1 I) = some (watch12 z)) :
    pairingPart codeBase constsCode (vk.map limbsG1 limbsG2) (π.map limbsG1 limbsG2) (limbsG1 I) = some (limbs12 z) := by
  obtain ⟨y, hy, hr⟩ := Sim_pairingPart sim_limbs consts_limbs (vk := vk.map watchG1 watchG2) (vk' := vk.map limbsG1 limbsG2)
    (π := π.map watchG1 watchG2) (π' := π.map limbsG1 limbsG2) (watch_limbsG2 _) (watch_limbsG2 _) (watch_limbsG1 _)
    (watch_limbsG2 _) (watch_limbsG1 _) (watch_limbsG1 I) _ h
  have e := eq_of_r12 (v := Words.limbs) (fun _ _ => Iff.rfl) hr
  rw [hy, ← e]
  rfl

theorem pairingPart_field {vk : RVKey FqW} {π : RProof FqW} {I : Aff FqW} {z : Fq12 FqW}
    (h : pairingPart watched constsWatched (vk.map watchG1 watchG2) (π.map watchG1 watchG2) (watchG1 I) = some (watch12 z)) :
    pairingPart (fieldBase FqW) constsW vk π I = some z := by
  obtain ⟨y, hy, hr⟩ := Sim_pairingPart sim_field consts_field (vk := vk.map watchG1 watchG2) (vk' := vk)
    (π := π.map watchG1 watchG2) (π' := π) (watch_fieldG2 _) (watch_fieldG2 _) (watch_fieldG1 _)
    (watch_fieldG2 _) (watch_fieldG1 _) (watch_fieldG1 I) _ h
  have e := eq_of_r12 (v := id) (fun _ _ => Iff.rfl) hr
  rw [hy, ← e]
  rfl

theorem read_negAff (q : Aff (Fq2 FqW)) : readG2 (negAff q) = negAff (readG2 q) := by
  unfold readG2 negAff
  dsimp only
  rw [map_neg]

theorem read_prepare (q : Aff (Fq2 FqW)) : mapG2 den (constsW.prepare q) = Tower.prepare (readG2 q) := by
  rw [← prepareV]
  exact Consts.map_prepare agree q

theorem pairingPart_residue {vk : RVKey FqW} {π : RProof FqW} {I : Aff FqW} {z : Fq12 FqW}
    (h : pairingPart (fieldBase FqW) constsW vk π I = some z) :
    ∃ f, multiMillerLoop [(readG1 π.a, Tower.prepare (readG2 π.b)), (readG1 I, Tower.prepare (negAff (readG2 vk.gammaG2))),
      (readG1 π.c, Tower.prepare (negAff (readG2 vk.deltaG2)))] = some f ∧ finalExp f = some (read12 z) := by
  unfold pairingPart at h
  obtain ⟨f, e1, e2⟩ := Option.bind_eq_some_iff.mp h
  rw [fb_multiMillerLoop, fb_prepare, fb_prepare, fb_prepare, fb_negAff, fb_negAff] at e1
  rw [fb_finalExp] at e2
  refine ⟨read12 f, ?_, ?_⟩
  · have m := map_multiMillerLoop den [(π.a, constsW.prepare π.b), (I, constsW.prepare (negAff vk.gammaG2)),
      (π.c, constsW.prepare (negAff vk.deltaG2))]
    rw [e1, Option.map_some] at m
    rw [← read_negAff, ← read_negAff, ← read_prepare, ← read_prepare, ← read_prepare]
    exact m
  · have m := Consts.map_finalExp agree f
    rw [finalExpV, e2, Option.map_some] at m
    exact m.symm

theorem prepare_code {vk : RVKey FqW} {ab : Fq12 FqW} (h : RunsRight vk.alphaG1 vk.betaG2 ab) :
    lPrepare (vk.map limbsG1 limbsG2) = some ⟨limbs12 ab, codeBase.prepare constsCode (codeBase.negAff (vk.map limbsG1 limbsG2).gammaG2),
      codeBase.prepare constsCode (codeBase.negAff (vk.map limbsG1 limbsG2).deltaG2), (vk.map limbsG1 limbsG2).ic⟩ := by
  have e := runsRight_code h
  unfold codePairing Base.pairing at e
  obtain ⟨f, e1, e2⟩ := Option.bind_eq_some_iff.mp e
  unfold lPrepare
  have h1 : codeBase.multiMillerLoop [((vk.map limbsG1 limbsG2).alphaG1, codeBase.prepare constsCode (vk.map limbsG1 limbsG2).betaG2)] = some f := e1
  rw [h1, Option.bind_eq_bind, Option.bind_some, e2, Option.bind_some]

theorem prepare_residue {vk : RVKey FqW} {ab : Fq12 FqW} (h : RunsRight vk.alphaG1 vk.betaG2 ab) :
    (readVKey vk).prepare = some ⟨read12 ab, Tower.prepare (negAff (readG2 vk.gammaG2)),
      Tower.prepare (negAff (readG2 vk.deltaG2)), vk.ic.map readG1⟩ := by
  have e : pairing (readG1 vk.alphaG1) (readG2 vk.betaG2) = some (read12 ab) := by
    rw [← C79_pairing_partial, runsRight_field h, Option.map_some]
  unfold pairing at e
  obtain ⟨f, e1, e2⟩ := Option.bind_eq_some_iff.mp e
  unfold CVKey.prepare
  have h1 : multiMillerLoop [((readVKey vk).alphaG1, Tower.prepare (readVKey vk).betaG2)] = some f := e1
  rw [h1, Option.bind_eq_bind, Option.bind_some, e2, Option.bind_some]
  rfl

theorem limbs12_inj : Function.Injective limbs12 := by
  rintro ⟨⟨⟨a0, a1⟩, ⟨a2, a3⟩, ⟨a4, a5⟩⟩, ⟨⟨a6, a7⟩, ⟨a8, a9⟩, ⟨a10, a11⟩⟩⟩
    ⟨⟨⟨b0, b1⟩, ⟨b2, b3⟩, ⟨b4, b5⟩⟩, ⟨⟨b6, b7⟩, ⟨b8, b9⟩, ⟨b10, b11⟩⟩⟩ h
  simp only [limbs12, limbs6, limbs2, Fq12.mk.injEq, Fq6.mk.injEq, Fq2.mk.injEq, ← Words.ext_iff] at h ⊢
  exact h

theorem cVerify_cons {vk : CPVKey} {π : CProof} {inputs : List L4} {ic0 : Aff FqV} {rest : List (Aff FqV)} {r : Proj FqV}
    {f p : Fq12 FqV} (h : vk.ic = ic0 :: rest) (hl : inputs.length + 1 = vk.ic.length)
    (h1 : cAccLoop (inputs.zip rest) ic0.toExtended = some r)
    (h2 : multiMillerLoop [(π.a, Tower.prepare π.b), (r.toAffine, vk.negGamma), (π.c, vk.negDelta)] = some f)
    (h3 : finalExp f = some p) :
    cVerify vk π inputs = if p ≠ vk.alphaBeta then some (.error .proofVerificationError) else some (.ok ()) := by
  unfold cVerify
  split
  · rename_i e; rw [e] at h; exact absurd h (by simp)
  · rename_i a b e
    rw [e] at h
    obtain ⟨rfl, rfl⟩ := List.cons.inj h
    rw [if_neg (not_not.mpr hl), h1, Option.bind_eq_bind, Option.bind_some, h2, Option.bind_eq_bind, Option.bind_some, h3,
      Option.bind_some]

theorem lVerify_cons {vk : RPVKey L4} {π : RProof L4} {inputs : List L4} {ic0 : Aff L4} {rest : List (Aff L4)} {r : Proj L4}
    {f p : Fq12 L4} (h : vk.ic = ic0 :: rest) (hl : inputs.length + 1 = vk.ic.length)
    (h1 : lAccLoop (inputs.zip rest) (Limb.toExtended fqParams ic0) = some r)
    (h2 : codeBase.multiMillerLoop [(π.a, codeBase.prepare constsCode π.b), (Limb.toAffine fqParams r, vk.negGamma),
        (π.c, vk.negDelta)] = some f)
    (h3 : codeBase.finalExp constsCode f = some p) :
    lVerify vk π inputs = if p ≠ vk.alphaBeta then some (.error .proofVerificationError) else some (.ok ()) := by
  unfold lVerify
  split
  · rename_i e; rw [e] at h; exact absurd h (by simp)
  · rename_i a b e
    rw [e] at h
    obtain ⟨rfl, rfl⟩ := List.cons.inj h
    rw [if_neg (not_not.mpr hl), h1, Option.bind_eq_bind, Option.bind_some, h2, Option.bind_eq_bind, Option.bind_some, h3,
      Option.bind_some]

/-- A right run ends as the verifier on residues does. -/
theorem codeVerify_refines {vk : RVKey FqW} {π : RProof FqW} {inputs : List L4} {I : Aff FqW} {ab z : Fq12 FqW}
    (hl : inputs.length + 1 = vk.ic.length) (h : VerifyRight vk π inputs I ab z) :
    codeVerify (vk.map limbsG1 limbsG2) (π.map limbsG1 limbsG2) inputs =
        (if z ≠ ab then some (.error .proofVerificationError) else some (.ok ())) ∧
      ((readVKey vk).prepare.bind fun k => cVerify k (readProof π) inputs) =
        (if z ≠ ab then some (.error .proofVerificationError) else some (.ok ())) := by
  obtain ⟨ic0, rest, r, hic, hr, hs, hi, hI⟩ := h.acc
  constructor
  · unfold codeVerify
    rw [prepare_code h.key, Option.bind_some]
    have e := pairingPart_code h.run
    unfold pairingPart at e
    obtain ⟨f, e1, e2⟩ := Option.bind_eq_some_iff.mp e
    rw [← hI] at e1
    have q1 : (vk.map limbsG1 limbsG2).ic = limbsG1 ic0 :: rest.map limbsG1 := by
      unfold RVKey.map
      dsimp only
      rw [hic, List.map_cons]
    have q2 : inputs.length + 1 = (vk.map limbsG1 limbsG2).ic.length := by
      unfold RVKey.map
      dsimp only
      rw [List.length_map]
      exact hl
    generalize vk.map limbsG1 limbsG2 = kk at *
    generalize π.map limbsG1 limbsG2 = pp at *
    rw [lVerify_cons (vk := ⟨limbs12 ab, codeBase.prepare constsCode (codeBase.negAff kk.gammaG2),
      codeBase.prepare constsCode (codeBase.negAff kk.deltaG2), kk.ic⟩) q1 q2 hr e1 e2]
    have hz : limbs12 z ≠ limbs12 ab ↔ z ≠ ab := limbs12_inj.ne_iff
    dsimp only
    simp only [hz]
  · rw [prepare_residue h.key, Option.bind_some]
    obtain ⟨f, e1, e2⟩ := pairingPart_residue (pairingPart_field h.run)
    have h0 := Limb.toExtended_el fqParams_valid (aEl_limbs ic0)
    rw [← map_zip_snd limbsG1] at hr hs
    obtain ⟨r', c1, c2⟩ := accLoop_el (inputs.zip rest) h0 hr hs
    rw [map_zip_snd readG1] at c1
    have ha := Limb.toAffine_el fqParams_valid c2 hi
    have hr' : r'.toAffine = readG1 I := by
      have hL := aEl_limbs I
      rw [← hI] at hL
      obtain ⟨x1, x2, x3⟩ := ha
      obtain ⟨y1, y2, y3⟩ := hL
      generalize r'.toAffine = u at *
      generalize readG1 I = v at *
      obtain ⟨u1, u2, u3⟩ := u
      obtain ⟨v1, v2, v3⟩ := v
      dsimp only at *
      rw [← x1.2, ← y1.2, ← x2.2, ← y2.2, ← x3, ← y3]
    rw [cVerify_cons (ic0 := readG1 ic0) (rest := rest.map readG1) (r := r') (f := f) (p := read12 z)
      (by dsimp only; rw [hic, List.map_cons])
      (by dsimp only; rw [List.length_map]; exact hl) c1 (by rw [hr']; exact e1) e2]
    have hz : read12 z ≠ read12 ab ↔ z ≠ ab := read12_inj.ne_iff
    dsimp only
    simp only [hz]

end Kogarashi.Groth16
