import Verif.Pallet.Bytes
import Verif.Nova.OnWireProof
import Verif.Props.Scale
import Verif.Props.Pallet
import Verif.Props.RawNova

/-!
# Property C98: proofs sent to the pallet as bytes

`submit` decodes the arguments of `set_thing_1` and dispatches the call; `bnCheck` is `RecursiveProof::verify` on the decoded
words, canonical or not, with the arithmetic of the code.
-/

namespace Kogarashi.Props

open Kogarashi Spec Nova Nova.Raw Nova.OnWire Curve Kogarashi.Field Limbs Groth16 Tower Scale Spec.Scale Pallet

/-! ### The bytes of a call -/

theorem law_u32 : Lawful u32C (· < 2 ^ 32) where
  round {x e} hx he r := by
    simp only [u32C, Option.some.injEq] at he ⊢
    subst he
    rw [readN_append 4 _ r (length_leBytes 4 x), Option.map_some, leNat_leBytes, Nat.mod_eq_of_lt (by omega)]
  unique {bs x r} h := by
    simp only [u32C, Option.map_eq_some_iff, Prod.mk.injEq] at h
    obtain ⟨⟨c, r'⟩, h, h1, h2⟩ := h
    simp only at h1 h2
    subst h1 h2
    obtain ⟨hl, hb⟩ := readN_some h
    have hlt := leNat_lt c
    rw [hl] at hlt
    refine ⟨by omega, c, ?_, hb⟩
    have := leBytes_leNat c
    rw [hl] at this
    simp only [u32C, this]

theorem lays_u32 : Lays u32C (· < 2 ^ 32) (fun _ => True) (le 4) where
  ok _ _ := by simp only [u32C, le_eq]
  long _ h := absurd trivial h

/-- The arguments decode from their layout: the value, the proof, the parameters. -/
theorem args_dec {val : Nat} {q : WireProof} {pp : WireParams} (hv : val < 2 ^ 32) (hq : ProofTyped q) (hf : ProofFits q)
    (hp : ParamsTyped pp) (hpf : ParamsFits pp) (rest : List Byte) :
    setThing1C.dec (le 4 val ++ (proof q ++ params pp) ++ rest) = some ((val, q, pp), rest) := by
  have l := lays_u32.pair (lays_proof.pair lays_params)
  have w := law_u32.pair (law_proof.pair law_params)
  exact w.round (x := (val, q, pp)) ⟨hv, hq, hp⟩ (l.ok (x := (val, q, pp)) ⟨hv, hq, hp⟩ ⟨trivial, hf, hpf⟩) rest

/-- Whatever the proof, a signed call with an accepted proof stores the value, and one with a rejected proof changes nothing. -/
theorem submit_of {Account : Type} {check : WireParams → WireProof → Option Bool} {who : Account} {bs rest : List Byte} {val : Nat}
    {q : WireProof} {pp : WireParams} (h : setThing1C.dec bs = some ((val, q, pp), rest)) {b : Bool} (hc : check pp q = some b) (st : State) :
    submit check (.signed who) bs st = some (if b then (some (.ok ()), ⟨val, st.thing2, st.events ++ [⟨1, val⟩]⟩)
      else (some (.error (.other "invalid proof")), st)) := by
  unfold submit
  rw [h, Option.map_some]
  cases b <;> simp [dispatch, Pallet.setThing1, novaVerify, ensureSigned, hc, apiVerify]

/-! ### Canonical proofs -/

section
variable {P Q : FieldParams} [hvP : ValidWords P] [hvQ : ValidWords Q]

theorem words_limbs (l : List (Words P)) : Spec.Scale.Words (l.map Words.limbs) := by
  intro a ha
  obtain ⟨w, -, rfl⟩ := List.mem_map.mp ha
  exact w.canonical.1

theorem point_limbs (a : Aff (Words P)) : PointWords (affTo Words.limbs a) := ⟨a.x.canonical.1, a.y.canonical.1⟩

theorem proofTo_typed {w : WRecursiveProof P Q} (h : w.i < 2 ^ 64) : ProofTyped (proofTo w) :=
  ⟨h, words_limbs _, words_limbs _, words_limbs _, words_limbs _, ⟨point_limbs _, words_limbs _⟩, words_limbs _,
    ⟨point_limbs _, point_limbs _, w.range1.u.canonical.1, words_limbs _⟩, ⟨words_limbs _, words_limbs _⟩,
    ⟨point_limbs _, point_limbs _, w.range2.u.canonical.1, words_limbs _⟩, ⟨words_limbs _, words_limbs _⟩⟩

end

/-- The parameters as words; `ck1` is not read by `verify`. -/
def paramsTo (s1 : Shape (Words frParams)) (s2 : Shape (Words fqParams)) (ck1 : List RawAff) (ck2 : List (Aff (Words frParams))) : WireParams :=
  ⟨shapeTo s1, shapeTo s2, ck1, ck2.map (affTo Words.limbs)⟩

/-- The verifier on canonical words is `recVerifyS` (C94). -/
theorem bnCheck_canonical (s1 : Shape (Words frParams)) (s2 : Shape (Words fqParams)) (ck1 : List RawAff)
    (ck2 : List (Aff (Words frParams))) (w : WRecursiveProof frParams fqParams) :
    bnCheck grumpkinBW.limbs (paramsTo s1 s2 ck1 ck2) (proofTo w) =
      recVerifyS codeOps codeOps (mimcWords frParams) (mimcWords fqParams) grumpkinBW s1 s2 ck2 w := by
  unfold bnCheck
  rw [← limbs_consts frParams, ← limbs_consts fqParams]
  exact verify_canonical _ _ _ _ _ _ _ _

/-- **C98, canonical proofs.** The encoding of a proof and of parameters whose field elements are canonical decodes to them, and the
call does what the verifier on the proof says: it stores the value if the proof is accepted and changes nothing if it is rejected. -/
theorem C98_canonical {s1 : Shape (Words frParams)} {s2 : Shape (Words fqParams)} {ck1 : List RawAff} {ck2 : List (Aff (Words frParams))}
    {w : WRecursiveProof frParams fqParams} {val : Nat} (hv : val < 2 ^ 32) (hi : w.i < 2 ^ 64) (hf : ProofFits (proofTo w))
    (hp : ParamsTyped (paramsTo s1 s2 ck1 ck2)) (hpf : ParamsFits (paramsTo s1 s2 ck1 ck2)) {b : Bool}
    (hb : recVerifyS codeOps codeOps (mimcWords frParams) (mimcWords fqParams) grumpkinBW s1 s2 ck2 w = some b)
    {Account : Type} (who : Account) (st : State) :
    submit (bnCheck grumpkinBW.limbs) (.signed who) (le 4 val ++ (proof (proofTo w) ++ params (paramsTo s1 s2 ck1 ck2))) st =
      some (if b then (some (.ok ()), ⟨val, st.thing2, st.events ++ [⟨1, val⟩]⟩)
        else (some (.error (.other "invalid proof")), st)) := by
  have h := args_dec hv (proofTo_typed hi) hf hp hpf []
  rw [List.append_nil] at h
  exact submit_of h ((bnCheck_canonical s1 s2 ck1 ck2 w).trans hb) st

/-- **C98, honest proofs, the part that holds.** For every number of steps: the bytes of a proof `prove_step` returns and of the
parameters of `setup` make the call store the value, when no squaring of the verifier's run loses a carry. -/
theorem C98_honest_partial (fp : CarryBits) (gen1 : Nat → List (curve g1B).Point) (gen2 : Nat → List (curve grumpkinB).Point) (z01 : FrV) (z02 : FqV)
    (N : Nat) (hN : N < 2 ^ 64) :
    ∃ pp st pfs, setup (bn254Cycle fp ((mimcWords frParams).map Words.hom) ((mimcWords fqParams).map Words.hom)) gen1 gen2 = some pp ∧
      ivcInit (bn254Cycle fp ((mimcWords frParams).map Words.hom) ((mimcWords fqParams).map Words.hom)) pp [z01] [z02] = some st ∧
      steps (bn254Cycle fp ((mimcWords frParams).map Words.hom) ((mimcWords fqParams).map Words.hom)) pp N st = some pfs ∧
      pfs.length = N ∧ ∀ (n : Nat) (pf : RecursiveProof frParams.m fqParams.m (curve g1B).Point (curve grumpkinB).Point),
      pfs[n]? = some pf → ∀ {s1 : Shape (Words frParams)} {s2 : Shape (Words fqParams)} {ck1 : List RawAff} {ck2 : List (Aff (Words frParams))},
      ParamsHold s1 s2 ck2 pp → ParamsTyped (paramsTo s1 s2 ck1 ck2) → ParamsFits (paramsTo s1 s2 ck1 ck2) →
      ∀ {w : WRecursiveProof frParams fqParams}, ProofHolds w pf → ProofFits (proofTo w) →
      (∀ x ∈ sqHash codeOps (conv fqParams frParams) (mimcWords frParams) w.range2 w.i w.z01 w.zi1,
        frParams.square x.limbs = frParams.mul x.limbs x.limbs) →
      (∀ x ∈ sqHash codeOps (conv frParams fqParams) (mimcWords fqParams) w.range1 w.i w.z02 w.zi2,
        fqParams.square x.limbs = fqParams.mul x.limbs x.limbs) →
      (∀ x ∈ sqCommit codeOps (conv fqParams frParams) grumpkinBW ck2 w.wsingle2,
        frParams.square x.limbs = frParams.mul x.limbs x.limbs) →
      ∀ {val : Nat}, val < 2 ^ 32 → ∀ {Account : Type} (who : Account) (st : State),
        submit (bnCheck grumpkinBW.limbs) (.signed who) (le 4 val ++ (proof (proofTo w) ++ params (paramsTo s1 s2 ck1 ck2))) st =
          some (some (.ok ()), ⟨val, st.thing2, st.events ++ [⟨1, val⟩]⟩) := by
  obtain ⟨pp, st, pfs, h1, h2, h3, h4, h5⟩ := C88_complete (bn254_holds fp _ _) (bn254Cycle_ok fp ((mimcWords frParams).map Words.hom)
    ((mimcWords fqParams).map Words.hom)) gen1 gen2 z01 z02 N hN
  refine ⟨pp, st, pfs, h1, h2, h3, h4, ?_⟩
  intro n pf hn s1 s2 ck1 ck2 hpp ht hfit w hw hf e1 e2 e3 val hv Account who st'
  obtain ⟨a, i, -⟩ := (h5 n pf hn).2 hpp hw
  have hlt : n < N := by rw [← h4]; exact (List.getElem?_eq_some_iff.mp hn).1
  have hr := (C94_recursive_partial (s1 := s1) (s2 := s2) e1 e2 e3).trans a
  have := C98_canonical (ck1 := ck1) hv (by rw [i]; omega) hf ht hfit hr who st'
  rwa [if_pos rfl] at this

/-- **C98, honest proofs, refuted.** There is an input from which the bytes of the first proof, as exact arithmetic makes it, leave the
storage as it was, whatever generators the setup drew. -/
theorem C98_honest_refuted (fp : CarryBits) (gen1 : Nat → List (curve g1B).Point) (gen2 : Nat → List (curve grumpkinB).Point) (z02 : FqV) :
    ∃ (z0 : Words frParams) (pp : _) (st st' : _) (pf : _),
      setup (bn254Cycle fp ((mimcWords frParams).map Words.hom) ((mimcWords fqParams).map Words.hom)) gen1 gen2 = some pp ∧
      ivcInit (bn254Cycle fp ((mimcWords frParams).map Words.hom) ((mimcWords fqParams).map Words.hom)) pp [Words.hom z0] [z02] = some st ∧
      proveStep (bn254Cycle fp ((mimcWords frParams).map Words.hom) ((mimcWords fqParams).map Words.hom)) pp st = some (st', pf) ∧
      (∃ w : WRecursiveProof frParams fqParams, ProofHolds w pf) ∧
      ∀ {s1 : Shape (Words frParams)} {s2 : Shape (Words fqParams)} {ck1 : List RawAff} {ck2 : List (Aff (Words frParams))},
      ParamsHold s1 s2 ck2 pp → ParamsTyped (paramsTo s1 s2 ck1 ck2) → ParamsFits (paramsTo s1 s2 ck1 ck2) →
      ∀ {w : WRecursiveProof frParams fqParams}, ProofHolds w pf → w.i < 2 ^ 64 → ProofFits (proofTo w) →
      ∀ {val : Nat}, val < 2 ^ 32 → ∀ {Account : Type} (who : Account) (st : State),
        submit (bnCheck grumpkinBW.limbs) (.signed who) (le 4 val ++ (proof (proofTo w) ++ params (paramsTo s1 s2 ck1 ck2))) st =
          some (some (.error (.other "invalid proof")), st) := by
  obtain ⟨z0, pp, st, st', pf, h1, h2, h3, h4, h5⟩ := C94_first_step_refuted fp gen1 gen2 z02
  refine ⟨z0, pp, st, st', pf, h1, h2, h3, h4, ?_⟩
  intro s1 s2 ck1 ck2 hpp ht hfit w hw hi hf val hv Account who st''
  have := C98_canonical (ck1 := ck1) hv hi hf ht hfit (h5 hpp hw).2 who st''
  rwa [if_neg (by decide)] at this

/-! ### Two encodings of one proof -/

/-- The two words act alike as second factor of a canonical one. -/
def ActsAs (P : FieldParams) (a b : L4) : Prop := ∀ c, Canonical P c → P.mul c a = P.mul c b

theorem actsAs_twin {P : FieldParams} [Fact P.m.Prime] (hP : ValidParams P) {a b : L4} (ha : a.Wf) (hb : b.Wf) (h : denote P a = denote P b) : ActsAs P a b := by
  intro c hc
  have k : ∀ x : L4, x.Wf → Limb.El P (P.mul c x) (denote P c * denote P x) := by
    intro x hx
    obtain ⟨h1, h2⟩ := mul_denote' hP hc.1 hx (by rw [Nat.mul_comm]; exact mul_lt_of_right hP hx hc.2)
    refine ⟨h1, ?_⟩
    unfold denote
    have h3 : ((P.mul c x).val : ZMod P.m) = _ := h2
    rw [h3]; ring
  exact ((k a ha).inj hP (k b hb)).mpr (by rw [h])

theorem rowProd_acts {P : FieldParams} {l : Nat} {z z' : List L4} (hz : List.Forall₂ (ActsAs P) z z') :
    ∀ (r : List (Wire × L4)), (∀ e ∈ r, Canonical P e.2) → ∀ acc, rowProdL P l z r acc = rowProdL P l z' r acc
  | [], _, _ => rfl
  | e :: es, h, acc => by
    have key : ∀ i : Nat, (z[i]? = none ∧ z'[i]? = none) ∨ ∃ a b, z[i]? = some a ∧ z'[i]? = some b ∧ ActsAs P a b := by
      intro i
      have hl := hz.length_eq
      by_cases hi : i < z.length
      · right
        refine ⟨_, _, List.getElem?_eq_getElem hi, List.getElem?_eq_getElem (hl ▸ hi), ?_⟩
        exact hz.get hi (hl ▸ hi)
      · left
        exact ⟨List.getElem?_eq_none (by omega), List.getElem?_eq_none (by omega)⟩
    have hr : (Matrix.readZ l z e.1 = none ∧ Matrix.readZ l z' e.1 = none) ∨
        ∃ a b, Matrix.readZ l z e.1 = some a ∧ Matrix.readZ l z' e.1 = some b ∧ ActsAs P a b := by
      cases e.1 with
      | inst i => exact key i
      | wit i => exact key (i + l)
    rw [rowProdL, rowProdL]
    rcases hr with ⟨h1, h2⟩ | ⟨a, b, h1, h2, h3⟩
    · rw [h1, h2]; rfl
    · rw [h1, h2, Option.bind_some, Option.bind_some, h3 _ (h e (List.mem_cons_self ..))]
      exact rowProd_acts hz es (fun e he => h e (List.mem_cons_of_mem _ he)) _

theorem prodLoop_acts {P : FieldParams} {l : Nat} {z z' : List L4} (hz : List.Forall₂ (ActsAs P) z z') :
    ∀ (rs : List (List (Wire × L4))), (∀ r ∈ rs, ∀ e ∈ r, Canonical P e.2) → ∀ i v,
      prodLoopL P l z rs i v = prodLoopL P l z' rs i v
  | [], _, _, _ => rfl
  | r :: rs, h, i, v => by
    have ih := prodLoop_acts (l := l) hz rs fun r hr => h r (List.mem_cons_of_mem _ hr)
    rw [prodLoopL, prodLoopL, rowProd_acts hz r (h r (List.mem_cons_self ..))]
    cases rowProdL P l z' r FieldParams.zero with
    | none => rfl
    | some s =>
      rw [Option.bind_some, Option.bind_some]
      split
      · exact ih _ _
      · rfl

/-- Every coefficient of the shape is canonical. -/
def ShapeCanonical (P : FieldParams) (S : Shape L4) : Prop := ∀ m ∈ [S.a, S.b, S.c], ∀ r ∈ m, ∀ e ∈ r, Canonical P e.2

theorem isSatRelaxed_acts {P : FieldParams} {S : Shape L4} (hS : ShapeCanonical P S) (i : RInst L4 RawAff) {w w' : List L4} (e : List L4)
    (hw : List.Forall₂ (ActsAs P) w w') : isSatRelaxedL P S i ⟨w, e⟩ = isSatRelaxedL P S i ⟨w', e⟩ := by
  have refl : ∀ l : List L4, List.Forall₂ (ActsAs P) l l := fun l => List.forall₂_same.mpr fun _ _ _ _ => rfl
  have hz : List.Forall₂ (ActsAs P) (i.u :: (i.x ++ w)) (i.u :: (i.x ++ w')) :=
    .cons (fun _ _ => rfl) (List.rel_append (refl i.x) hw)
  have hp : ∀ m ∈ [S.a, S.b, S.c], prodL P m S.m (i.x.length + 1) (i.u :: (i.x ++ w)) = prodL P m S.m (i.x.length + 1) (i.u :: (i.x ++ w')) :=
    fun m hm => prodLoop_acts hz m (hS m hm) _ _
  unfold isSatRelaxedL
  simp only [hp S.a (by simp), hp S.b (by simp), hp S.c (by simp)]

theorem verifyL_acts {P Q : FieldParams} {pp : WireParams} (hS : ShapeCanonical P pp.shape1) (k1 k2 : List L4) (b2 : L4) (q : WireProof)
    {w' : List L4} (hw : List.Forall₂ (ActsAs P) q.wrange1.w w') :
    verifyL P Q k1 k2 b2 pp { q with wrange1 := ⟨w', q.wrange1.e⟩ } = verifyL P Q k1 k2 b2 pp q := by
  have h := isSatRelaxed_acts hS q.range1 q.wrange1.e hw
  unfold verifyL
  simp only [← h]

/-- **C98, one encoding per proof, refuted.** Under any parameters with canonical coefficients, every proof whose first folded witness
is not empty has another encoding, of other words, on which the call behaves the same; in particular if one is accepted so is the
other, though the bytes differ. -/
theorem C98_twin_refuted {pp : WireParams} (hS : ShapeCanonical frParams pp.shape1) (hp : ParamsTyped pp) (hpf : ParamsFits pp)
    {q : WireProof} (hq : ProofTyped q) (hf : ProofFits q) {a : L4} {t : List L4} (hz : q.wrange1.w = a :: t) (ha : Canonical frParams a)
    (b2 : L4) {val : Nat} (hv : val < 2 ^ 32) :
    ∃ q', proof q' ≠ proof q ∧ q'.i = q.i ∧ q'.zi1 = q.zi1 ∧ q'.zi2 = q.zi2 ∧ bnCheck b2 pp q' = bnCheck b2 pp q ∧
      ∀ {Account : Type} (o : Origin Account) (st : State), submit (bnCheck b2) o (le 4 val ++ (proof q' ++ params pp)) st =
        submit (bnCheck b2) o (le 4 val ++ (proof q ++ params pp)) st := by
  have hr := modulus_room
  obtain ⟨h1, h2⟩ := wordsOf_spec (n := a.val + frParams.m) (by have := ha.2; omega)
  have hne : wordsOf (a.val + frParams.m) ≠ a := by
    intro h
    rw [h] at h2
    omega
  have hd : denote frParams (wordsOf (a.val + frParams.m)) = denote frParams a := by
    rw [denote, denote, h2, Nat.cast_add, ZMod.natCast_self, add_zero]
  generalize wordsOf (a.val + frParams.m) = a' at h1 hne hd
  have hacts : List.Forall₂ (ActsAs frParams) q.wrange1.w (a' :: t) := by
    rw [hz]
    exact .cons (actsAs_twin frParams_valid ha.1 h1 hd.symm) (List.forall₂_same.mpr fun _ _ _ _ => rfl)
  have hc : bnCheck b2 pp { q with wrange1 := ⟨a' :: t, q.wrange1.e⟩ } = bnCheck b2 pp q := verifyL_acts hS _ _ _ _ hacts
  have hq' : ProofTyped { q with wrange1 := ⟨a' :: t, q.wrange1.e⟩ } :=
    ⟨hq.i, hq.z01, hq.z02, hq.zi1, hq.zi2, hq.single2, hq.wsingle2, hq.range1, ⟨by
      have := hq.wrange1.1
      rw [hz] at this
      intro b hb
      rcases List.mem_cons.1 hb with rfl | hb
      · exact h1
      · exact this b (List.mem_cons_of_mem _ hb), hq.wrange1.2⟩, hq.range2, hq.wrange2⟩
  have hf' : ProofFits { q with wrange1 := ⟨a' :: t, q.wrange1.e⟩ } := by
    intro l hl
    have h0 := hf q.wrange1.w (by simp)
    rw [hz] at h0
    simp only [List.mem_cons, List.not_mem_nil, or_false] at hl
    rcases hl with rfl | rfl | rfl | rfl | rfl | rfl | rfl | rfl | rfl | rfl | rfl | rfl
    case inr.inr.inr.inr.inr.inr.inr.inl => simpa using h0
    all_goals exact hf _ (by simp)
  refine ⟨{ q with wrange1 := ⟨a' :: t, q.wrange1.e⟩ }, ?_, rfl, rfl, rfl, hc, ?_⟩
  · intro h
    have e1 := C81_proof_roundtrip hq' hf' []
    rw [h, C81_proof_roundtrip hq hf []] at e1
    simp only [Option.some.injEq, Prod.mk.injEq, and_true] at e1
    have := congrArg (fun p : WireProof => p.wrange1.w) e1
    simp only [hz, List.cons.injEq, and_true] at this
    exact hne this.symm
  · intro Account o st
    have d1 := args_dec hv hq' hf' hp hpf []
    have d2 := args_dec hv hq hf hp hpf []
    rw [List.append_nil] at d1 d2
    unfold submit
    rw [d1, d2, Option.map_some, Option.map_some]
    cases o <;> simp [dispatch, Pallet.setThing1, novaVerify, ensureSigned, hc]

/-! ### Parameters of the sender -/

section
variable {P Q : FieldParams} [hvP : ValidWords P] [hvQ : ValidWords Q]

/-- A hash of 252 bits is the second public input of some instance. -/
theorem short_reread {bits : List Nat} (hb : ∀ b ∈ bits, b = 0 ∨ b = 1) (hl : bits.length ≤ 252) (hQ : 2 ^ 252 ≤ Q.m) :
    rereadL Q P (wReadBits bits 1 0 : Words Q).limbs = readBitsL P bits P.one FieldParams.zero := by
  have hN : beValue 2 bits.reverse < 2 ^ 252 := by
    have h1 : beValue 2 bits.reverse < 2 ^ bits.reverse.length := beValue_two_lt fun b h =>
      hb b (List.mem_reverse.mp h)
    rw [List.length_reverse] at h1
    exact h1.trans_le (Nat.pow_le_pow_right (by norm_num) hl)
  have e : ∀ {R : FieldParams} [ValidWords R], Words.hom (wReadBits bits 1 0 : Words R) = ((beValue 2 bits.reverse : Nat) : ZMod R.m) := by
    intro R _
    rw [hom_readBits, map_one, map_zero, readBitsLE_eq _ hb, zero_add, one_mul]
  have h2 : (wReread (wReadBits bits 1 0 : Words Q) : Words P) = wReadBits bits 1 0 := by
    apply hom_inj
    have : NeZero Q.m := ⟨by omega⟩
    rw [hom_reread, reread_eq words_m_le, e, e, ZMod.val_natCast, Nat.mod_eq_of_lt (by omega)]
  rw [← reread_words, h2]
  exact readBits_words _ _ _

end

/-- Parameters without constraints and without generators. -/
def noParams : WireParams := ⟨⟨0, 0, 0, [], [], []⟩, ⟨0, 0, 0, [], [], []⟩, [], []⟩

theorem noParams_ok : ParamsTyped noParams ∧ ParamsFits noParams := by
  have ht : ShapeTyped (⟨0, 0, 0, [], [], []⟩ : Shape L4) := ⟨by norm_num, by norm_num, by norm_num, by simp [MatTyped]⟩
  refine ⟨⟨⟨ht, ht⟩, by simp [noParams], by simp [noParams]⟩, ?_⟩
  simp [ParamsFits, noParams, ShapeFits, MatFits]

/-- The relaxed instance of zeros. -/
def zeroRInst : RInst L4 RawAff := ⟨⟨FieldParams.zero, FieldParams.zero, true⟩, ⟨FieldParams.zero, FieldParams.zero, true⟩,
  FieldParams.zero, [FieldParams.zero, FieldParams.zero]⟩

theorem zeroAbsorb {P Q : FieldParams} [ValidWords P] [ValidWords Q] : ∃ a, absorbL P Q zeroRInst = some a := by
  have h := absorb_words (P := P) (Q := Q) ⟨⟨0, 0, true⟩, ⟨0, 0, true⟩, 0, [0, 0]⟩
  obtain ⟨a, ha⟩ := Option.isSome_iff_exists.mp (conv_absorb (P := P) (Q := Q) ⟨⟨0, 0, true⟩, ⟨0, 0, true⟩, 0, [0, 0]⟩)
  have ha' : wAbsorb (⟨⟨0, 0, true⟩, ⟨0, 0, true⟩, 0, [0, 0]⟩ : RInst (Words P) (Aff (Words Q))) = some a := ha
  rw [ha'] at h
  exact ⟨_, h⟩

theorem squeezeL_canonical {P Q : FieldParams} [hvP : ValidWords P] (cs st : List L4) (n : Nat) : Canonical P (squeezeL P Q cs st n) := by
  unfold squeezeL
  have h := readBits_words (P := P) ((Q.toBits (spongeL Q.add Q.mul Q.square cs st FieldParams.zero)).reverse.take n) 1 0
  have h' : (wReadBits ((Q.toBits (spongeL Q.add Q.mul Q.square cs st FieldParams.zero)).reverse.take n) 1 0 : Words P).limbs =
    readBitsL P ((Q.toBits (spongeL Q.add Q.mul Q.square cs st FieldParams.zero)).reverse.take n) P.one FieldParams.zero := h
  rw [← h']
  exact Words.canonical _

theorem noParams_sat (P : FieldParams) (i : RInst L4 RawAff) : isSatRelaxedL P ⟨0, 0, 0, [], [], []⟩ i ⟨[], []⟩ = some true := rfl

theorem noParams_plain (P Q : FieldParams) (b : L4) (i : Inst L4 RawAff) (h : i.commitW.inf = true) :
    isSatL P Q b ⟨0, 0, 0, [], [], []⟩ [] i [] = some true := by
  have hc : commitL P Q b [] [] = some ⟨FieldParams.zero, Q.one, true⟩ := by
    have hi : Q.invert FieldParams.zero = none := by
      unfold FieldParams.invert B256.invert
      exact if_pos rfl
    unfold commitL
    rw [List.zip_nil_left, accLoop, Option.map_some, Limb.toAffine, hi]
  have e : isSatL P Q b ⟨0, 0, 0, [], [], []⟩ [] i [] =
      (commitL P Q b [] []).bind fun c => some (true && affEqL i.commitW c) := rfl
  rw [e, hc, Option.bind_some, affEqL, h]
  rfl

/-- **C98, the gate, refuted on bytes.** The parameters are an argument of the call.  Whatever step count, inputs and outputs one wants
to claim, there are bytes claiming them, found by hashing, on which any signed call stores any value: no computation and no key
from a setup is needed, and no assumption on the arithmetic. -/
theorem C98_gate_refuted {i val : Nat} (hi : i < 2 ^ 64) (hv : val < 2 ^ 32) {z01 z02 zi1 zi2 : List L4}
    (hz : ∀ l ∈ [z01, z02, zi1, zi2], Spec.Scale.Words l ∧ l.length < 2 ^ 32) (b2 : L4) :
    ∃ (bs : List Byte) (q : WireProof) (pp : WireParams), setThing1C.dec bs = some ((val, q, pp), []) ∧ q.i = i ∧ q.z01 = z01 ∧ q.z02 = z02 ∧
      q.zi1 = zi1 ∧ q.zi2 = zi2 ∧ ∀ {Account : Type} (who : Account) (st : State), submit (bnCheck b2) (.signed who) bs st =
        some (some (.ok ()), ⟨val, st.thing2, st.events ++ [⟨1, val⟩]⟩) := by
  obtain ⟨a1, ha1⟩ := zeroAbsorb (P := fqParams) (Q := frParams)
  obtain ⟨a2, ha2⟩ := zeroAbsorb (P := frParams) (Q := fqParams)
  let k1 := Blake.mimcConstants frParams
  let k2 := Blake.mimcConstants fqParams
  let st2 : List L4 := fqParams.fromU64 (i % 2 ^ 64) :: (z02 ++ zi2 ++ a2)
  let bits := (fqParams.toBits (spongeL fqParams.add fqParams.mul fqParams.square k2 st2 FieldParams.zero)).reverse.take 252
  let h1 := squeezeL fqParams frParams k1 (frParams.fromU64 (i % 2 ^ 64) :: (z01 ++ zi1 ++ a1)) hashBits
  let x1 : L4 := (wReadBits bits 1 0 : Words fqParams).limbs
  have hx1 : rereadL fqParams frParams x1 = squeezeL frParams fqParams k2 st2 hashBits := by
    refine short_reread (fun b hb => ?_) (List.length_take_le _ _) (by decide +kernel)
    exact toBits_bits _ b (List.mem_reverse.mp (List.mem_of_mem_take hb))
  have e1 : hashL fqParams frParams k1 zeroRInst i z01 zi1 = some h1 := by
    unfold hashL
    rw [ha1, Option.map_some]
  have e2 : hashL frParams fqParams k2 zeroRInst i z02 zi2 = some (squeezeL frParams fqParams k2 st2 hashBits) := by
    unfold hashL
    rw [ha2, Option.map_some]
  let q : WireProof := ⟨i, z01, z02, zi1, zi2, ⟨⟨FieldParams.zero, FieldParams.zero, true⟩, [h1, x1]⟩, [], zeroRInst, ⟨[], []⟩, zeroRInst,
    ⟨[], []⟩⟩
  have hcheck : bnCheck b2 noParams q = some true := by
    have s1 := noParams_sat frParams zeroRInst
    have s2 := noParams_sat fqParams zeroRInst
    have s3 := noParams_plain fqParams frParams b2 ⟨⟨FieldParams.zero, FieldParams.zero, true⟩, [h1, x1]⟩ rfl
    have gen : ∀ (o1 o2 : Option L4) (g1 g2 g3 : Option Bool) (r : L4 → L4) (u v w : L4), o1 = some u → o2 = some w → r v = w →
        g1 = some true → g2 = some true → g3 = some true →
        (o1.bind fun a => o2.bind fun b => [u, v][0]?.bind fun x0 => [u, v][1]?.bind fun x1 =>
          if a ≠ x0 ∨ b ≠ r x1 then some false else g1.bind fun a => if (!a) = true then some false else g2.bind fun b =>
            if (!b) = true then some false else g3) = some true := by
      rintro _ _ _ _ _ r u v w rfl rfl rfl rfl rfl rfl
      simp
    have hlen : ¬ (q.single2.x.length ≠ 2 ∨ q.range1.x.length ≠ 2 ∨ q.range2.x.length ≠ 2) := by
      simp [q, zeroRInst]
    unfold bnCheck verifyL
    rw [if_neg hlen]
    exact gen _ _ _ _ _ _ _ _ _ e1 e2 hx1 s1 s2 s3
  have w0 : (FieldParams.zero : L4).Wf := (zero_canonical frParams_valid).1
  have p0 : PointWords (⟨FieldParams.zero, FieldParams.zero, true⟩ : RawAff) := ⟨w0, w0⟩
  have wx : Spec.Scale.Words [FieldParams.zero, FieldParams.zero] := by
    intro a ha
    simp only [List.mem_cons, List.not_mem_nil, or_false, or_self] at ha
    rw [ha]; exact w0
  have r0 : RInstWords zeroRInst := ⟨p0, p0, w0, wx⟩
  have wn : Spec.Scale.Words [] := by intro a ha; cases ha
  have hx : Spec.Scale.Words [h1, x1] := by
    intro a ha
    simp only [List.mem_cons, List.not_mem_nil, or_false] at ha
    rcases ha with rfl | rfl
    · exact (squeezeL_canonical (P := fqParams) _ _ _).1
    · exact (Words.canonical _).1
  have hq : ProofTyped q := ⟨hi, (hz z01 (by simp)).1, (hz z02 (by simp)).1, (hz zi1 (by simp)).1, (hz zi2 (by simp)).1, ⟨p0, hx⟩, wn,
    r0, ⟨wn, wn⟩, r0, ⟨wn, wn⟩⟩
  have hf : ProofFits q := by
    intro l hl
    simp only [q, zeroRInst, List.mem_cons, List.not_mem_nil, or_false] at hl
    rcases hl with rfl | rfl | rfl | rfl | rfl | rfl | rfl | rfl | rfl | rfl | rfl | rfl
    · exact (hz _ (by simp)).2
    · exact (hz _ (by simp)).2
    · exact (hz _ (by simp)).2
    · exact (hz _ (by simp)).2
    all_goals simp
  have hd := args_dec hv hq hf noParams_ok.1 noParams_ok.2 []
  rw [List.append_nil] at hd
  refine ⟨_, q, noParams, hd, rfl, rfl, rfl, rfl, rfl, fun who st => ?_⟩
  have := submit_of (who := who) hd hcheck st
  rwa [if_pos rfl] at this

/-- The proof of zeros, with one public input missing. -/
def wireDemo : WRecursiveProof frParams fqParams := ⟨1, [0], [0], [1], [1], ⟨⟨0, 0, true⟩, [1]⟩, [], ⟨⟨0, 0, true⟩, ⟨0, 0, true⟩, 0, [0, 0]⟩,
  ⟨[], []⟩, ⟨⟨0, 0, true⟩, ⟨0, 0, true⟩, 0, [0, 0]⟩, ⟨[], []⟩⟩

/-- Non-vacuity of `C98_canonical`: the bytes of `wireDemo` leave the storage as it was. -/
example (st : State) : submit (bnCheck grumpkinBW.limbs) (.signed "eve")
    (le 4 5 ++ (proof (proofTo wireDemo) ++ params (paramsTo ⟨0, 0, 0, [], [], []⟩ ⟨0, 0, 0, [], [], []⟩ [] []))) st =
      some (some (.error (.other "invalid proof")), st) := by
  have := C98_canonical (s1 := ⟨0, 0, 0, [], [], []⟩) (s2 := ⟨0, 0, 0, [], [], []⟩) (ck1 := []) (ck2 := []) (w := wireDemo) (val := 5)
    (by norm_num) (by simp [wireDemo]) (by simp [ProofFits, proofTo, wireDemo, instTo, rinstTo, rwitTo]) noParams_ok.1 noParams_ok.2 (b := false)
    (by unfold recVerifyS; exact if_pos (by simp [wireDemo])) "eve" st
  rwa [if_neg (by decide)] at this

/-- Non-vacuity of `C98_gate_refuted`: bytes that claim 2^40 steps from 3 to 7. -/
example : ∃ bs : List Byte, ∀ st : State, submit (bnCheck grumpkinBW.limbs) (.signed "eve") bs st =
    some (some (.ok ()), ⟨5, st.thing2, st.events ++ [⟨1, 5⟩]⟩) := by
  obtain ⟨bs, q, pp, -, -, -, -, -, -, h⟩ := C98_gate_refuted (i := 2 ^ 40) (val := 5) (z01 := [⟨3, 0, 0, 0⟩]) (z02 := []) (zi1 := [⟨7, 0, 0, 0⟩])
    (zi2 := []) (by norm_num) (by norm_num) (by simp [Spec.Scale.Words, L4.Wf]) grumpkinBW.limbs
  exact ⟨bs, h "eve"⟩

/-- Non-vacuity of `C98_twin_refuted`: the demo proof of C81 with a witness, under parameters without constraints. -/
example : ∃ q', proof q' ≠ proof { scaleDemo with wrange1 := ⟨[⟨1, 2, 3, 4⟩], []⟩ } := by
  obtain ⟨h1, h2⟩ := scaleDemo_typed
  obtain ⟨q', h, -⟩ := C98_twin_refuted (pp := noParams) (by simp [ShapeCanonical, noParams]) noParams_ok.1 noParams_ok.2
    (q := { scaleDemo with wrange1 := ⟨[⟨1, 2, 3, 4⟩], []⟩ })
    ⟨h1.i, h1.z01, h1.z02, h1.zi1, h1.zi2, h1.single2, h1.wsingle2, h1.range1, by simp [Spec.Scale.Words, L4.Wf], h1.range2, h1.wrange2⟩
    (by
      intro l hl
      simp only [List.mem_cons, List.not_mem_nil, or_false] at hl
      rcases hl with rfl | rfl | rfl | rfl | rfl | rfl | rfl | rfl | rfl | rfl | rfl | rfl
      case inr.inr.inr.inr.inr.inr.inr.inl => simp
      case inr.inr.inr.inr.inr.inr.inr.inr.inl => simp
      all_goals exact h2 _ (by simp))
    (a := ⟨1, 2, 3, 4⟩) (t := []) rfl ⟨by decide, by decide +kernel⟩ grumpkinBW.limbs (val := 0) (by norm_num)
  exact ⟨q', h⟩

end Kogarashi.Props
