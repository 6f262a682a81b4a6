import Verif.Props.RawTranscript

/-!
# Property C94: commitments, folding and recursive verification with the arithmetic of the code

The functions ending in `S` (`Nova/Raw.lean`) are those of C87 and C88 with the squaring and the inversion of the code
(`codeOps`), which loses a carry for some elements.  `sqCommit`, `sqHash` list what a run squares.
-/

set_option exponentiation.threshold 1600

namespace Kogarashi.Props

open Kogarashi Spec Nova Nova.Raw Curve Kogarashi.Field Limbs Groth16 Tower

/-! ### Prover and verifier, whatever the squaring -/

section
variable {F K : Type} [_root_.Field F] [DecidableEq F] [_root_.Field K] [DecidableEq K] {o : SqOps F} {c : Conv F K}

omit [_root_.Field K] [DecidableEq K] in
theorem commitLoopS_some (hn : ∀ k, (c.nafs k).isSome) (b : F) : ∀ (l : List (K × Aff F)) (acc : Proj F),
    ∃ r, commitLoopS o c b l acc = some r
  | [], acc => ⟨acc, rfl⟩
  | (k, g) :: l, acc => by
    obtain ⟨ds, hd⟩ := Option.isSome_iff_exists.mp (hn k)
    unfold commitLoopS mulAffS
    rw [hd, Option.map_some, Option.bind_some]
    exact commitLoopS_some hn b l _

omit [_root_.Field K] [DecidableEq K] in
theorem commitS_some (hn : ∀ k, (c.nafs k).isSome) (b : F) (g : List (Aff F)) (m : List K) : ∃ r, commitS o c b g m = some r := by
  obtain ⟨r, hr⟩ := commitLoopS_some (o := o) hn b (m.zip g) Proj.identity
  unfold commitS
  rw [hr]
  exact ⟨_, rfl⟩

omit [_root_.Field K] [DecidableEq K] in
theorem foldPointS_some (hn : ∀ k, (c.nafs k).isSome) (b : F) (acc a : Aff F) (k : K) : ∃ r, foldPointS o c b acc a k = some r := by
  obtain ⟨ds, hd⟩ := Option.isSome_iff_exists.mp (hn k)
  unfold foldPointS mulAffS
  rw [hd]
  exact ⟨_, rfl⟩

theorem isSatS_unit {b : F} {S : Shape K} {ck : List (Aff F)} {i : Inst K (Aff F)} {w : List K}
    (h : isSatS o c b S ck i w = some true) :
    isSat (G := PUnit.{1}) S [] ⟨PUnit.unit, i.x⟩ w = some true := by
  unfold isSatS at h
  simp only [Option.bind_eq_bind, Option.bind_eq_some_iff, Option.some.injEq, Bool.and_eq_true] at h
  obtain ⟨az, ha, bz, hb, cz, hc, ab, hab, -, -, ht, -⟩ := h
  unfold isSat
  simp only [Option.bind_eq_bind]
  rw [ha, hb, hc, Option.bind_some, Option.bind_some, Option.bind_some, hab, Option.bind_some, ht]
  rfl

theorem prove_any (hn : ∀ k, (c.nafs k).isSome) (ha : ∀ i, (c.absorb i).isSome) (consts : List F) (b : F) {S : Shape K}
    {ck : List (Aff F)} {i1 : RInst K (Aff F)} {w1 : RWit K} {i2 : Inst K (Aff F)} {w2 : List K}
    (s1 : isSatRelaxed S i1 w1 = some true) (s2 : isSatS o c b S ck i2 w2 = some true)
    (hx : i1.x.length = i2.x.length) (hw : w1.w.length = w2.length) :
    ∃ i' w' T, proveS o c consts b S ck i1 w1 i2 w2 = some (i', w', T) ∧ isSatRelaxed S i' w' = some true ∧
      verifyS o c consts b T i1 i2 = some i' ∧ i'.x.length = i1.x.length ∧ w'.w.length = w1.w.length := by
  obtain ⟨t, ht, hall⟩ := C50_fold (G := PUnit.{1}) (i1 := ⟨PUnit.unit, PUnit.unit, i1.u, i1.x⟩) (i2 := ⟨PUnit.unit, i2.x⟩)
    (S := S) (w1 := w1) (w2 := w2) s1 (isSatS_unit s2) hx hw
  have ht' : crossTerm S i1 w1 i2 w2 = some t := ht
  obtain ⟨T, hT⟩ := commitS_some (o := o) hn b ck t
  obtain ⟨a, hab⟩ := Option.isSome_iff_exists.mp (ha i1)
  have hr : challengeS o c consts T i1 = some (squeezeS o c consts (pointS T ++ a) challengeBits) := by
    unfold challengeS; rw [hab]; rfl
  generalize squeezeS o c consts (pointS T ++ a) challengeBits = r at hr
  obtain ⟨j', w', hj, hw', hs⟩ := hall r PUnit.unit
  obtain ⟨e, he⟩ := foldPointS_some (o := o) hn b i1.commitE T r
  obtain ⟨v, hv⟩ := foldPointS_some (o := o) hn b i1.commitW i2.commitW r
  have hx' : zipVec (· + ·) i1.x (vecScale i2.x r) = some j'.x ∧ j'.u = i1.u + r := by
    unfold RInst.fold at hj
    simp only [Option.bind_eq_bind, Option.bind_eq_some_iff, Option.some.injEq] at hj
    obtain ⟨x, h1, rfl⟩ := hj
    exact ⟨h1, rfl⟩
  have hf : foldS o c b i1 i2 r T = some ⟨v, e, i1.u + r, j'.x⟩ := by
    unfold foldS
    rw [he, hv, hx'.1]
    rfl
  have hlw : w'.w.length = w1.w.length := by
    unfold RWit.fold at hw'
    simp only [Option.bind_eq_bind, Option.bind_eq_some_iff, Option.some.injEq] at hw'
    obtain ⟨e, -, w, h1, rfl⟩ := hw'
    obtain ⟨h2, rfl⟩ := zipVec_some h1
    dsimp only
    rw [List.length_zipWith, ← h2, Nat.min_self]
  have hlx : j'.x.length = i1.x.length := by
    obtain ⟨h2, h3⟩ := zipVec_some hx'.1
    rw [h3, List.length_zipWith, ← h2, Nat.min_self]
  refine ⟨⟨v, e, i1.u + r, j'.x⟩, w', T, ?_, ?_, ?_, hlx, hlw⟩
  · unfold proveS
    rw [ht', Option.bind_eq_bind, Option.bind_some, hT, Option.bind_eq_bind, Option.bind_some, hr, Option.bind_eq_bind,
      Option.bind_some, hf, Option.bind_eq_bind, Option.bind_some, hw']
    rfl
  · rw [← hs]
    unfold isSatRelaxed
    rw [hx'.2]
  · unfold verifyS
    rw [hr, Option.bind_eq_bind, Option.bind_some, hf]

end

section
variable {P Q : FieldParams} [hvP : ValidWords P] [hvQ : ValidWords Q]

theorem conv_nafs (k : Words P) : ((conv P Q).nafs k).isSome := by
  obtain ⟨ds, h, -⟩ := C09_naf_partial hvP.valid k.canonical
  show (P.toNafs k.limbs).isSome = true
  rw [h]; rfl

theorem conv_absorb (i : RInst (Words P) (Aff (Words Q))) : ((conv P Q).absorb i).isSome := by
  show (wAbsorb i).isSome = true
  have key : ∀ xs : List (Words P), (xs.mapM (wAbsorbX (Q := Q))).isSome := by
    intro xs
    induction xs with
    | nil => rfl
    | cons x xs ih =>
      have e := hom_absorbX (Q := Q) x
      rw [absorbX_eq (words_m_le (P := P))] at e
      obtain ⟨l, hl, -⟩ := Option.map_eq_some_iff.mp e
      obtain ⟨ls, hls⟩ := Option.isSome_iff_exists.mp ih
      rw [List.mapM_cons, hl, hls]
      rfl
  obtain ⟨ls, hls⟩ := Option.isSome_iff_exists.mp (key i.x)
  unfold wAbsorb
  rw [hls]
  rfl

/-- **C94, folding.** With the arithmetic of the code, carry losses included: a satisfying relaxed pair and a satisfying plain pair
of equal lengths fold without a panic into a pair that satisfies the relaxed relation, and the verifier recomputes the prover's
instance, commitments included. -/
theorem C94_prover (consts : List (Words Q)) (b : Words Q) {S : Shape (Words P)} {ck : List (Aff (Words Q))}
    {i1 : RInst (Words P) (Aff (Words Q))} {w1 : RWit (Words P)} {i2 : Inst (Words P) (Aff (Words Q))} {w2 : List (Words P)}
    (s1 : isSatRelaxed S i1 w1 = some true) (s2 : isSatS codeOps (conv P Q) b S ck i2 w2 = some true)
    (hx : i1.x.length = i2.x.length) (hw : w1.w.length = w2.length) :
    ∃ i' w' T, proveS codeOps (conv P Q) consts b S ck i1 w1 i2 w2 = some (i', w', T) ∧ isSatRelaxed S i' w' = some true ∧
      verifyS codeOps (conv P Q) consts b T i1 i2 = some i' ∧ i'.x.length = i1.x.length ∧ w'.w.length = w1.w.length :=
  prove_any conv_nafs conv_absorb consts b s1 s2 hx hw

variable {B : ZMod Q.m} {b : Words Q} [Module (ZMod P.m) (curve B).Point]

/-- **C94, commitments, the part that holds.** When no squaring of the run loses a carry, `commit` returns the struct of
`Σ mᵢ • Gᵢ`, whatever structs stand for the generators. -/
theorem C94_commit_partial (hb : Words.hom b = B) {g : List (Aff (Words Q))} {G : List (curve B).Point} (hg : List.Forall₂ Stands g G)
    (m : List (Words P)) (hex : ∀ x ∈ sqCommit codeOps (conv P Q) b g m, Q.square x.limbs = Q.mul x.limbs x.limbs) :
    ∃ c, commitS codeOps (conv P Q) b g m = some c ∧ Normal c (List.zipWith (fun k X => (Words.hom k : ZMod P.m) • X) m G).sum := by
  have e : commitS codeOps (conv P Q) b g m = commitS exactOps (conv P Q) b g m :=
    commitS_eq codeOps_lawful fun x hx => Words.ext (hex x hx)
  rw [e, commit_words]
  exact C87_commit hb hg m

end

/-! ### A commitment that is not one -/

/-- `badPoint` as a struct of `Words`. -/
def badGen : Aff (Words fqParams) := ⟨⟨badPoint.x, by decide +kernel⟩, ⟨badPoint.y, by decide +kernel⟩, false⟩

theorem badGen_stands : ∃ X : (curve g1B).Point, Stands badGen X := by
  obtain ⟨X, hX⟩ := badPoint_holds
  refine ⟨X, ?_⟩
  exact hX.2.2

/-- The struct is not flagged and its coordinates do not meet the curve equation. -/
def offCurve (a : Aff (Words fqParams)) : Bool := !a.inf && !(decide (a.y * a.y = a.x * a.x * a.x + g1BW))

theorem offCurve_not {a : Aff (Words fqParams)} (h : offCurve a = true) (X : (curve g1B).Point) : ¬ Stands a X := by
  unfold offCurve at h
  rw [Bool.and_eq_true, Bool.not_eq_true', Bool.not_eq_true', decide_eq_false_iff_not] at h
  intro hs
  cases X with
  | zero =>
    have e : a.inf = true := hs
    rw [h.1] at e
    cases e
  | some x y hn =>
    obtain ⟨-, e1, e2⟩ := hs
    have hx : Words.hom a.x = x := e1
    have hy : Words.hom a.y = y := e2
    apply h.2
    apply hom_inj
    rw [map_mul, map_add, map_mul, map_mul, hx, hy, g1BW_hom]
    have he := equation_curve.mp hn.1
    linear_combination he

theorem any_some {A : Type} {o : Option A} {p : A → Bool} (h : o.any p = true) : ∃ a, o = some a ∧ p a = true := by
  cases o with
  | none => cases h
  | some a => exact ⟨a, rfl, h⟩

/-- **C94 is false of the code for commitments.** There is a generator, a struct that stands for a point of G1, such that the
commitment to the scalar 2 is a struct that stands for no point of the curve. -/
theorem C94_commit_refuted : ∃ (g : Aff (Words fqParams)) (X : (curve g1B).Point) (c : Aff (Words fqParams)), Stands g X ∧
    commitS codeOps (conv frParams fqParams) g1BW [g] [wOfU64 2] = some c ∧ ∀ Y : (curve g1B).Point, ¬ Stands c Y := by
  obtain ⟨X, hX⟩ := badGen_stands
  have h : (commitS codeOps (conv frParams fqParams) g1BW [badGen] [wOfU64 2]).any offCurve = true := by decide +kernel
  obtain ⟨c, hc, ho⟩ := any_some h
  exact ⟨badGen, X, c, hX, hc, offCurve_not ho⟩

/-! ### The recursive verifier -/

section
variable {P S : FieldParams} [ValidWords P] [ValidWords S]

/-- **C94, recursive verification, the part that holds.** When no squaring of its run loses a carry, `RecursiveProof::verify`
returns what it does with exact arithmetic (C88). -/
theorem C94_recursive_partial {k1 : List (Words P)} {k2 : List (Words S)} {b2 : Words P} {s1 : Shape (Words P)}
    {s2 : Shape (Words S)} {ck2 : List (Aff (Words P))} {w : WRecursiveProof P S}
    (h1 : ∀ x ∈ sqHash codeOps (conv S P) k1 w.range2 w.i w.z01 w.zi1, P.square x.limbs = P.mul x.limbs x.limbs)
    (h2 : ∀ x ∈ sqHash codeOps (conv P S) k2 w.range1 w.i w.z02 w.zi2, S.square x.limbs = S.mul x.limbs x.limbs)
    (h3 : ∀ x ∈ sqCommit codeOps (conv S P) b2 ck2 w.wsingle2, P.square x.limbs = P.mul x.limbs x.limbs) :
    recVerifyS codeOps codeOps k1 k2 b2 s1 s2 ck2 w = w.verify k1 k2 b2 s1 s2 ck2 :=
  recVerifyS_eq (fun x hx => Words.ext (h1 x hx)) (fun x hx => Words.ext (h2 x hx)) fun x hx => Words.ext (h3 x hx)

theorem rec_reject {k1 : List (Words P)} {k2 : List (Words S)} {b2 : Words P} {s1 : Shape (Words P)} {s2 : Shape (Words S)}
    {ck2 : List (Aff (Words P))} {w : WRecursiveProof P S} (hv : w.verify k1 k2 b2 s1 s2 ck2 = some true)
    (hne : ∀ h h', hashS codeOps (conv S P) k1 w.range2 w.i w.z01 w.zi1 = some h →
      hashS exactOps (conv S P) k1 w.range2 w.i w.z01 w.zi1 = some h' → h ≠ h') :
    recVerifyS codeOps codeOps k1 k2 b2 s1 s2 ck2 w = some false := by
  have hash_some : ∀ {A B : FieldParams} [ValidWords A] [ValidWords B] (k : List (Words B)) (i : RInst (Words A) (Aff (Words B)))
      (n : Nat) (z z' : List (Words B)), ∃ h, hashS codeOps (conv A B) k i n z z' = some h := by
    intro A B _ _ k i n z z'
    obtain ⟨a, ha⟩ := Option.isSome_iff_exists.mp (conv_absorb i)
    unfold hashS
    rw [ha]
    exact ⟨_, rfl⟩
  obtain ⟨h1, e1⟩ := hash_some k1 w.range2 w.i w.z01 w.zi1
  obtain ⟨h2, e2⟩ := hash_some k2 w.range1 w.i w.z02 w.zi2
  unfold WRecursiveProof.verify at hv
  unfold recVerifyS
  split at hv
  · cases hv
  · rename_i hl
    rw [if_neg hl, e1, e2]
    rw [← hash_words] at hv
    simp only [Option.bind_eq_bind, Option.bind_eq_some_iff] at hv
    obtain ⟨h1', e1', h2', -, x0, ex0, x1, ex1, hv⟩ := hv
    have hn := hne h1 h1' e1 e1'
    simp only [Option.bind_eq_bind, Option.bind_some]
    rw [ex0, ex1, Option.bind_some, Option.bind_some]
    split at hv
    · cases hv
    · rename_i hq
      rw [if_pos]
      left
      intro e
      apply hq
      left
      intro e'
      exact hn (e.trans e'.symm)

end

theorem normal_zero {Q : FieldParams} [ValidWords Q] {B : ZMod Q.m} : Normal (Aff.identity : Aff (Words Q)) (0 : (curve B).Point) := by
  show mapAff Words.hom (Aff.identity : Aff (Words Q)) = Aff.identity
  simp [mapAff, Aff.identity]

theorem first_proof {p s : Nat} [Fact p.Prime] [Fact s.Prime] {b1 : ZMod s} {b2 : ZMod p} [Module (ZMod p) (curve b1).Point]
    [Module (ZMod s) (curve b2).Point] {C : Cycle p s (curve b1).Point (curve b2).Point}
    {pp : PublicParams p s (curve b1).Point (curve b2).Point} {st : Ivc p s (curve b1).Point (curve b2).Point} {z01 z02}
    (hi : ivcInit C pp z01 z02 = some st) {pfs} (hs : steps C pp 1 st = some pfs) :
    ∃ pf st', pfs = [pf] ∧ proveStep C pp st = some (st', pf) ∧ pf.range2 = RInst.dummy pp.shape2.instanceLength := by
  unfold ivcInit at hi
  simp only [Option.bind_eq_bind, Option.bind_eq_some_iff, Option.some.injEq] at hi
  obtain ⟨a1, -, a2, -, rfl⟩ := hi
  unfold steps proveStep at hs
  unfold proveStep
  rw [if_pos rfl] at hs ⊢
  simp only [Option.bind_eq_bind, Option.bind_some, steps, Option.some.injEq] at hs
  exact ⟨_, _, hs.symm, rfl, rfl⟩

theorem range2_dummy {p s : Nat} [Fact p.Prime] [Fact s.Prime] {b1 : ZMod s} {b2 : ZMod p} [Module (ZMod p) (curve b1).Point]
    [Module (ZMod s) (curve b2).Point] {C : Cycle p s (curve b1).Point (curve b2).Point}
    {pp : PublicParams p s (curve b1).Point (curve b2).Point} {pf : RecursiveProof p s (curve b1).Point (curve b2).Point} {n : Nat}
    (hv : pf.verify C pp = some true) (hr : pf.range2 = RInst.dummy n) : pf.range2 = ⟨0, 0, 0, [0, 0]⟩ := by
  unfold RecursiveProof.verify at hv
  split at hv
  · cases hv
  · rename_i hl
    have h2 : pf.range2.x.length = 2 := by
      by_contra h
      exact hl (Or.inr (Or.inr h))
    rw [hr] at h2
    have : n = 2 := by simpa [RInst.dummy] using h2
    rw [hr, this]
    rfl

theorem dummy2_unique {i : RInst (Words fqParams) (Aff (Words frParams))}
    (h : RInstHolds i (⟨0, 0, 0, [0, 0]⟩ : RInst FqV (curve grumpkinB).Point)) : i = dummy2 := by
  obtain ⟨h1, h2, h3, h4⟩ := h
  obtain ⟨cw, ce, u, x⟩ := i
  have e1 : cw = Aff.identity := C87_normal_unique h1 normal_zero
  have e2 : ce = Aff.identity := C87_normal_unique h2 normal_zero
  have e3 : u = 0 := hom_inj (h3.symm.trans (map_zero _).symm)
  have e4 : x = [0, 0] := List.map_injective_iff.mpr hom_inj (h4.symm.trans (by
    rw [List.map_cons, List.map_cons, List.map_nil, map_zero]))
  rw [e1, e2, e3, e4]
  rfl

theorem z1W_hom : (exampleFn FrV).invoke [Words.hom z0W] = [Words.hom z1W] := by
  have h5 : Words.hom (wOfU64 5 : Words frParams) = 5 := by
    rw [hom_ofU64 (by norm_num)]; norm_num
  have key : ∀ z f : Words frParams, Words.hom f = 5 → (exampleFn FrV).invoke [Words.hom z] = [Words.hom (z * z * z + z + f)] := by
    intro z f hf
    rw [map_add, map_add, map_mul, map_mul, hf]
    rfl
  exact key z0W _ h5

/-- **C94 is false of the code for the recursive proof.** The library's cycle and example function, the round constants the library
derives: there is an input from which the proof of the first step, as exact arithmetic makes it, satisfies the verifier with exact
squares, for all generators, and is rejected by the verifier of the code, whose hash of the outputs differs from the one the circuit
computes by multiplying. -/
theorem C94_first_step_refuted (fp : CarryBits) (gen1 : Nat → List (curve g1B).Point) (gen2 : Nat → List (curve grumpkinB).Point) (z02 : FqV) :
    ∃ (z0 : Words frParams) (pp : _) (st st' : _) (pf : _),
      setup (bn254Cycle fp ((mimcWords frParams).map Words.hom) ((mimcWords fqParams).map Words.hom)) gen1 gen2 = some pp ∧
      ivcInit (bn254Cycle fp ((mimcWords frParams).map Words.hom) ((mimcWords fqParams).map Words.hom)) pp [Words.hom z0] [z02] = some st ∧
      proveStep (bn254Cycle fp ((mimcWords frParams).map Words.hom) ((mimcWords fqParams).map Words.hom)) pp st = some (st', pf) ∧
      (∃ w : WRecursiveProof frParams fqParams, ProofHolds w pf) ∧
      ∀ {s1 s2 ck2}, ParamsHold s1 s2 ck2 pp → ∀ {w : WRecursiveProof frParams fqParams}, ProofHolds w pf →
        w.verify (mimcWords frParams) (mimcWords fqParams) grumpkinBW s1 s2 ck2 = some true ∧
        recVerifyS codeOps codeOps (mimcWords frParams) (mimcWords fqParams) grumpkinBW s1 s2 ck2 w = some false := by
  obtain ⟨pp, st, pfs, h1, h2, h3, -, h5⟩ := C60_complete (bn254Cycle_ok fp ((mimcWords frParams).map Words.hom)
    ((mimcWords fqParams).map Words.hom)) gen1 gen2 (Words.hom z0W) z02 1 (by norm_num)
  obtain ⟨pf, st', rfl, h6, h7⟩ := first_proof h2 h3
  have hg := h5 0 pf rfl
  refine ⟨z0W, pp, st, st', pf, h1, h2, h6, lift_proof pf, ?_⟩
  intro s1 s2 ck2 hpp w hw
  have hi : w.i = 1 := hw.i.trans hg.i
  have hv : w.verify (mimcWords frParams) (mimcWords fqParams) grumpkinBW s1 s2 ck2 = some true := by
    rw [C88_verify (bn254_holds fp _ _) hpp hw (by rw [hi]; norm_num)]
    exact hg.accepted
  refine ⟨hv, rec_reject hv ?_⟩
  have hr : w.range2 = dummy2 := by
    have := hw.range2
    rw [range2_dummy hg.accepted h7] at this
    exact dummy2_unique this
  have hz0 : w.z01 = [z0W] := List.map_injective_iff.mpr hom_inj (hw.z01.symm.trans (hg.start1.trans rfl))
  have hz1 : w.zi1 = [z1W] := List.map_injective_iff.mpr hom_inj (hw.zi1.symm.trans (hg.out1.trans z1W_hom))
  rw [hr, hi, hz0, hz1]
  exact firstHash_ne

/-- C94, non-vacuity: the run that commits to 3 with the generator of G1 squares 150 elements or more and none of them loses a
carry. -/
example : (sqCommit codeOps (conv frParams fqParams) g1BW [novaGenW] [wOfU64 3]).length ≥ 150 ∧
    ∀ x ∈ sqCommit codeOps (conv frParams fqParams) g1BW [novaGenW] [wOfU64 3],
      fqParams.square x.limbs = fqParams.mul x.limbs x.limbs := by
  decide +kernel

/-- C94, non-vacuity: `x = 2, w = (2, 4)` over the key `(G, badGen)`, whose commitment the code gets wrong or not, folded into
`1 * 1 = 1` with `u = 1`. -/
example (consts : List (Words fqParams)) : ∃ c2 i' w' T,
    isSatS codeOps (conv frParams fqParams) g1BW mulShape [novaGenW, badGen] ⟨c2, [1 + 1]⟩ [1 + 1, 1 + 1 + (1 + 1)] = some true ∧
    proveS codeOps (conv frParams fqParams) consts g1BW mulShape [novaGenW, badGen] ⟨Aff.identity, Aff.identity, 1, [1]⟩ ⟨[1, 1], [0]⟩
      ⟨c2, [1 + 1]⟩ [1 + 1, 1 + 1 + (1 + 1)] = some (i', w', T) ∧ isSatRelaxed mulShape i' w' = some true := by
  obtain ⟨c2, hc⟩ := commitS_some (o := codeOps) (c := conv frParams fqParams) conv_nafs g1BW [novaGenW, badGen]
    [1 + 1, 1 + 1 + (1 + 1)]
  have t1 : isSatRelaxed mulShape (⟨Aff.identity, Aff.identity, 1, [1]⟩ : RInst (Words frParams) (Aff (Words fqParams)))
      ⟨[1, 1], [0]⟩ = some true := by decide +kernel
  have t2 : isSatS codeOps (conv frParams fqParams) g1BW mulShape [novaGenW, badGen] ⟨c2, [1 + 1]⟩ [1 + 1, 1 + 1 + (1 + 1)] =
      some true := by
    have pa : Matrix.prod mulShape.a mulShape.m 2 [(1 : Words frParams), 1 + 1, 1 + 1, 1 + 1 + (1 + 1)] = some [1 + 1] := by decide +kernel
    have pb : Matrix.prod mulShape.b mulShape.m 2 [(1 : Words frParams), 1 + 1, 1 + 1, 1 + 1 + (1 + 1)] = some [1 + 1] := by decide +kernel
    have pc : Matrix.prod mulShape.c mulShape.m 2 [(1 : Words frParams), 1 + 1, 1 + 1, 1 + 1 + (1 + 1)] = some [1 + 1 + (1 + 1)] := by
      decide +kernel
    have pz : zipVec (· * ·) [(1 + 1 : Words frParams)] [1 + 1] = some [1 + 1 + (1 + 1)] := by decide +kernel
    have pe : ∀ {F : Type} [_root_.Field F] [DecidableEq F] (a : Aff F), a.eq a = true := by
      intro F _ _ a
      simp [Aff.eq]
    unfold isSatS
    simp only [List.length_cons, List.length_nil, List.cons_append, List.nil_append, Option.bind_eq_bind]
    rw [pa, pb, pc]
    simp only [Option.bind_some]
    rw [pz, Option.bind_some, hc, Option.bind_some, pe]
    simp
  obtain ⟨i', w', T, h1, h2, -⟩ := C94_prover consts g1BW t1 t2 rfl rfl
  exact ⟨c2, i', w', T, t2, h1, h2⟩

/-- C94, non-vacuity: a proof whose verification loses no carry. -/
example : ∃ w : WRecursiveProof frParams fqParams,
    (∀ x ∈ sqHash codeOps (conv fqParams frParams) [1, 1 + 1] w.range2 w.i w.z01 w.zi1,
      frParams.square x.limbs = frParams.mul x.limbs x.limbs) ∧
    (∀ x ∈ sqHash codeOps (conv frParams fqParams) [1, 1 + 1] w.range1 w.i w.z02 w.zi2,
      fqParams.square x.limbs = fqParams.mul x.limbs x.limbs) ∧
    ∀ x ∈ sqCommit codeOps (conv fqParams frParams) grumpkinBW [⟨1, 1, false⟩] w.wsingle2,
      frParams.square x.limbs = frParams.mul x.limbs x.limbs :=
  ⟨⟨1, [1], [1], [1 + 1], [1 + 1], ⟨Aff.identity, [1, 1]⟩, [1 + 1], ⟨novaGenW, novaGenW, 1, [1, 1]⟩, ⟨[], []⟩,
    ⟨⟨1, 1, false⟩, Aff.identity, 1, [1, 1 + 1]⟩, ⟨[], []⟩⟩, by decide +kernel⟩

end Kogarashi.Props
