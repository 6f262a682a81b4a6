import Verif.Nova.OnWire

/-!
# On canonical limbs, `OnWire` is `Raw`
-/

namespace Kogarashi.Nova.OnWire

open Kogarashi Spec Curve Kogarashi.Field Limbs Groth16 Raw Scale

/-! ### Changing the representation -/

/-- The coordinates of a point changed. -/
def affTo {A B : Type} (f : A → B) (p : Aff A) : Aff B := ⟨f p.x, f p.y, p.inf⟩
/-- The coordinates of a point changed. -/
def projTo {A B : Type} (f : A → B) (p : Proj A) : Proj B := ⟨f p.x, f p.y, f p.z⟩

theorem projTo_x {A B : Type} (f : A → B) (p : Proj A) : (projTo f p).x = f p.x := rfl
theorem projTo_y {A B : Type} (f : A → B) (p : Proj A) : (projTo f p).y = f p.y := rfl
theorem projTo_z {A B : Type} (f : A → B) (p : Proj A) : (projTo f p).z = f p.z := rfl
theorem projTo_mk {A B : Type} (f : A → B) (x y z : A) : projTo f ⟨x, y, z⟩ = ⟨f x, f y, f z⟩ := rfl

/-- `f` turns the operations of `F` into the limb routines of `P`. -/
structure Turns {F : Type} [_root_.Field F] (P : FieldParams) (s : F → F) (f : F → L4) : Prop where
  inj : ∀ a b, f a = f b ↔ a = b
  zero : f 0 = FieldParams.zero
  one : f 1 = P.one
  add : ∀ a b, f (a + b) = P.add (f a) (f b)
  sub : ∀ a b, f (a - b) = P.sub (f a) (f b)
  mul : ∀ a b, f (a * b) = P.mul (f a) (f b)
  neg : ∀ a, f (-a) = P.neg (f a)
  dbl : ∀ a, f (dbl a) = P.double (f a)
  sq : ∀ a, f (s a) = P.square (f a)

section
variable {F : Type} [_root_.Field F] {P : FieldParams} {s : F → F} {f : F → L4} (t : Turns P s f)
include t

theorem Turns.isZero (a : F) : f a = FieldParams.zero ↔ a = 0 := by rw [← t.zero]; exact t.inj _ _

theorem toExtended_to (p : Aff F) : Limb.toExtended P (affTo f p) = projTo f p.toExtended := by
  rcases p with ⟨x, y, i⟩
  cases i <;> simp [Limb.toExtended, affTo, projTo, Aff.toExtended, Aff.isIdentity, t.zero, t.one]

theorem doubleProj_to (b3 : F) (p : Proj F) : Limb.doubleProj P (f b3) (projTo f p) = projTo f (doubleProjS s b3 p) := by
  simp only [Limb.doubleProj, doubleProjS, projTo, t.add, t.sub, t.mul, t.dbl, t.sq]

theorem identity_to : (⟨FieldParams.zero, P.one, FieldParams.zero⟩ : Proj L4) = projTo f Proj.identity := by
  simp only [projTo, Proj.identity, t.zero, t.one]

variable [DecidableEq F]

theorem addProj_to (b3 : F) (p q : Proj F) : Limb.addProj P (f b3) (projTo f p) (projTo f q) = projTo f (addProjS s b3 p q) := by
  have hd := doubleProj_to t b3 p
  have hi := identity_to t
  unfold Limb.addProj addProjS
  rw [hd, hi]
  simp only [Proj.isIdentity, decide_eq_true_eq, projTo_x, projTo_y, projTo_z, t.isZero, ← t.add, ← t.sub, ← t.mul, ← t.sq, t.inj,
    ← projTo_mk]
  split_ifs <;> rfl

theorem neg_to (p : Proj F) : Limb.neg P (projTo f p) = projTo f p.neg := by
  simp only [Limb.neg, projTo, Proj.neg, t.neg]

theorem scalarStep_to (b3 : F) (p r : Proj F) (d : Naf) :
    Limb.scalarStep P (f b3) (projTo f p) (projTo f r) d = projTo f (scalarStepS s b3 p r d) := by
  cases d <;> simp only [Limb.scalarStep, scalarStepS, doubleProj_to t, addProj_to t, neg_to t]

theorem scalarPoint_to (b3 : F) (p : Proj F) (ds : List Naf) :
    Limb.scalarPoint P (f b3) (projTo f p) ds = projTo f (scalarPointS s b3 p ds) := by
  unfold Limb.scalarPoint scalarPointS
  rw [identity_to t]
  generalize (Proj.identity : Proj F) = r
  induction ds generalizing r with
  | nil => rfl
  | cons d ds ih => rw [List.foldl_cons, List.foldl_cons, scalarStep_to t, ih]

theorem toAffine_to {o : SqOps F} (hi : ∀ a, P.invert (f a) = if a = 0 then none else some (f (o.inv a))) (p : Proj F) :
    Limb.toAffine P (projTo f p) = affTo f (toAffineS o p) := by
  unfold Limb.toAffine toAffineS
  simp only [projTo, hi]
  split <;> rename_i h
  · split at h
    · cases h
    · rename_i h0
      rw [if_neg h0]
      cases h
      simp only [affTo, t.mul]
  · split at h
    · rename_i h0
      rw [if_pos h0]
      simp only [affTo, Aff.identity, t.zero, t.one]
    · cases h

theorem accLoop_to {K : Type} {S : FieldParams} {g : K → L4} {o : SqOps F} (ho : o.sq = s) {c : Conv F K}
    (hn : ∀ k, S.toNafs (g k) = c.nafs k) (b : F) : ∀ (l : List (K × Aff F)) (acc : Proj F),
    accLoop P S (P.add (P.add (f b) (f b)) (f b)) (l.map fun e => (g e.1, affTo f e.2)) (projTo f acc) =
      (commitLoopS o c b l acc).map (projTo f)
  | [], acc => rfl
  | (k, a) :: l, acc => by
    have ih := accLoop_to ho hn b l
    rw [← t.add, ← t.add] at ih ⊢
    rw [List.map_cons, accLoop, commitLoopS, mulAffS, hn k]
    cases e : c.nafs k with
    | none => rfl
    | some nafs =>
      rw [Option.bind_eq_bind, Option.bind_some, Option.map_some, Option.bind_some, toExtended_to t, scalarPoint_to t,
        addProj_to t, ih, ho]

theorem commit_to {K : Type} {S : FieldParams} {g : K → L4} {o : SqOps F} (ho : o.sq = s) {c : Conv F K}
    (hn : ∀ k, S.toNafs (g k) = c.nafs k)
    (hi : ∀ a, P.invert (f a) = if a = 0 then none else some (f (o.inv a))) (b : F) (ck : List (Aff F)) (m : List K) :
    commitL S P (f b) (ck.map (affTo f)) (m.map g) = (commitS o c b ck m).map (affTo f) := by
  have e : (m.map g).zip (ck.map (affTo f)) = (m.zip ck).map fun e => (g e.1, affTo f e.2) := by
    rw [List.zip_map]; rfl
  have h : Limb.toAffine P ∘ projTo f = affTo f ∘ toAffineS o := funext fun p => toAffine_to t hi p
  unfold commitL commitS
  rw [e, identity_to t, accLoop_to t ho hn b, Option.map_map, Option.map_map, h]

theorem affEq_to (p q : Aff F) : affEqL (affTo f p) (affTo f q) = p.eq q := by
  simp [affEqL, Aff.eq, affTo, Aff.isIdentity, t.inj]

omit t [DecidableEq F] in
theorem readZ_to (l : Nat) (z : List F) (w : Wire) : Matrix.readZ l (z.map f) w = (Matrix.readZ l z w).map f := by
  cases w <;> simp only [Matrix.readZ, List.getElem?_map]

/-- A matrix with its coefficients changed. -/
def rowsTo {A B : Type} (f : A → B) (m : List (List (Wire × A))) : List (List (Wire × B)) := m.map fun r => r.map fun e => (e.1, f e.2)

omit [DecidableEq F] in
theorem rowProd_to (l : Nat) (z : List F) : ∀ (r : List (Wire × F)) (acc : F),
    rowProdL P l (z.map f) (r.map fun e => (e.1, f e.2)) (f acc) =
      (r.foldlM (fun sum e => (Matrix.readZ l z e.1).map (fun v => sum + e.2 * v)) acc).map f
  | [], _ => rfl
  | e :: es, acc => by
    have ih := rowProd_to l z es
    rw [List.map_cons, rowProdL, List.foldlM_cons, readZ_to]
    cases Matrix.readZ l z e.1 with
    | none => rfl
    | some v =>
      rw [Option.map_some, Option.bind_some, Option.map_some, Option.bind_eq_bind, Option.bind_some, ← t.mul, ← t.add]
      exact ih _

omit [DecidableEq F] in
theorem prodLoop_to (l : Nat) (z : List F) : ∀ (rs : List (List (Wire × F))) (i : Nat) (v : List F),
    prodLoopL P l (z.map f) (rowsTo f rs) i (v.map f) = (Matrix.prodLoop l z rs i v).map (List.map f)
  | [], _, _ => rfl
  | r :: rs, i, v => by
    have ih := prodLoop_to l z rs
    have h := rowProd_to t l z r 0
    rw [t.zero] at h
    rw [show rowsTo f (r :: rs) = (r.map fun e => (e.1, f e.2)) :: rowsTo f rs from rfl, prodLoopL, Matrix.prodLoop, h,
      Matrix.rowProd]
    cases (r.foldlM (fun sum e => (Matrix.readZ l z e.1).map (fun v => sum + e.2 * v)) 0) with
    | none => rfl
    | some x =>
      rw [Option.map_some, Option.bind_some, Option.bind_eq_bind, Option.bind_some, List.length_map]
      split
      · rw [← List.map_set]; exact ih _ _
      · rfl

omit [DecidableEq F] in
theorem prod_to (rows : List (List (Wire × F))) (m l : Nat) (z : List F) :
    prodL P (rowsTo f rows) m l (z.map f) = (Matrix.prod rows m l z).map (List.map f) := by
  unfold prodL Matrix.prod
  rw [← t.zero, ← List.map_replicate]
  exact prodLoop_to t l z rows 0 _

omit t [DecidableEq F] [_root_.Field F] in
theorem zipVec_to {g : F → F → F} {h : L4 → L4 → L4} (e : ∀ a b, f (g a b) = h (f a) (f b)) (a b : List F) :
    zipVec h (a.map f) (b.map f) = (zipVec g a b).map (List.map f) := by
  unfold zipVec
  rw [List.length_map, List.length_map]
  split
  · rw [Option.map_some, List.zipWith_map, List.map_zipWith]
    simp only [e]
  · rfl

theorem all_to (a b : List F) : ((a.map f).zip (b.map f)).all (fun p => p.1 == p.2) = (a.zip b).all (fun p => p.1 == p.2) := by
  rw [List.zip_map, List.all_map]
  congr 1
  funext p
  simp only [Function.comp_apply, Prod.map_fst, Prod.map_snd]
  by_cases h : p.1 = p.2
  · rw [h]; simp
  · have : f p.1 ≠ f p.2 := fun e => h ((t.inj _ _).mp e)
    simp [h, this]

theorem isSatRelaxed_to {G : Type} (S : Shape F) (i : RInst F G) (w : RWit F) (cw ce : RawAff) :
    isSatRelaxedL P ⟨S.m, S.instanceLength, S.witnessLength, rowsTo f S.a, rowsTo f S.b, rowsTo f S.c⟩
      ⟨cw, ce, f i.u, i.x.map f⟩ ⟨w.w.map f, w.e.map f⟩ = isSatRelaxed S i w := by
  have hz : f i.u :: (i.x.map f ++ w.w.map f) = (i.u :: (i.x ++ w.w)).map f := by rw [List.map_cons, List.map_append]
  have hs : ∀ c : List F, ((c.map f).map fun c => P.mul c (f i.u)) = (vecScale c i.u).map f := by
    intro c
    unfold vecScale
    rw [List.map_map, List.map_map]
    exact List.map_congr_left fun a _ => (t.mul a i.u).symm
  unfold isSatRelaxedL isSatRelaxed
  simp only [List.length_map, hz, prod_to t]
  cases Matrix.prod S.a S.m (i.x.length + 1) (i.u :: (i.x ++ w.w)) with
  | none => rfl
  | some az =>
    cases Matrix.prod S.b S.m (i.x.length + 1) (i.u :: (i.x ++ w.w)) with
    | none => rfl
    | some bz =>
      cases Matrix.prod S.c S.m (i.x.length + 1) (i.u :: (i.x ++ w.w)) with
      | none => rfl
      | some cz =>
        simp only [Option.map_some, Option.bind_eq_bind, Option.bind_some, hs, zipVec_to t.mul, zipVec_to t.add]
        cases zipVec (fun a b => a * b) az bz with
        | none => rfl
        | some azbz =>
          cases zipVec (fun a b => a + b) (vecScale cz i.u) w.e with
          | none => rfl
          | some ucze => simp only [Option.map_some, Option.bind_some, all_to t]

end

/-- `is_sat`, commitments in a curve with coordinates `F`, scalars `K`. -/
theorem isSat_to {F K : Type} [_root_.Field F] [DecidableEq F] [_root_.Field K] [DecidableEq K] {P S : FieldParams} {s : F → F}
    {r : K → K} {f : F → L4} {g : K → L4} (t : Turns P s f) (u : Turns S r g) {o : SqOps F} (ho : o.sq = s) {c : Conv F K}
    (hn : ∀ k, S.toNafs (g k) = c.nafs k)
    (hi : ∀ a, P.invert (f a) = if a = 0 then none else some (f (o.inv a))) (b : F) (H : Shape K) (ck : List (Aff F))
    (i : Inst K (Aff F)) (w : List K) :
    isSatL S P (f b) ⟨H.m, H.instanceLength, H.witnessLength, rowsTo g H.a, rowsTo g H.b, rowsTo g H.c⟩ (ck.map (affTo f))
      ⟨affTo f i.commitW, i.x.map g⟩ (w.map g) = isSatS o c b H ck i w := by
  have hz : S.one :: (i.x.map g ++ w.map g) = (1 :: (i.x ++ w)).map g := by rw [List.map_cons, List.map_append, u.one]
  unfold isSatL isSatS
  simp only [List.length_map, hz, prod_to u, commit_to t ho hn hi]
  cases Matrix.prod H.a H.m (i.x.length + 1) (1 :: (i.x ++ w)) with
  | none => rfl
  | some az =>
    cases Matrix.prod H.b H.m (i.x.length + 1) (1 :: (i.x ++ w)) with
    | none => rfl
    | some bz =>
      cases Matrix.prod H.c H.m (i.x.length + 1) (1 :: (i.x ++ w)) with
      | none => rfl
      | some cz =>
        simp only [Option.map_some, Option.bind_eq_bind, Option.bind_some, zipVec_to u.mul]
        cases zipVec (fun a b => a * b) az bz with
        | none => rfl
        | some azbz =>
          cases commitS o c b ck w with
          | none => rfl
          | some C => simp only [Option.map_some, Option.bind_some, all_to u, affEq_to t]

/-! ### Words -/

section
variable {P Q : FieldParams} [hvP : ValidWords P] [hvQ : ValidWords Q]

theorem invert_words (a : Words P) :
    P.invert a.limbs = if a = 0 then none else some ((codeOps (P := P)).inv a).limbs := by
  have hz : a = 0 ↔ a.limbs = B256.zero := Words.ext_iff
  have hl : B256.littleFermat P.p ≠ B256.zero := by
    intro h
    obtain ⟨-, h2⟩ := littleFermat_val hvP.valid
    rw [h] at h2
    have h3 : B256.zero.val = 0 := rfl
    have := hvP.valid.p_odd
    have h4 := hvP.prime.two_le
    have : P.m ≠ 2 := by intro e; rw [e] at this; omega
    omega
  unfold FieldParams.invert B256.invert B256.pow
  by_cases h : a.limbs = B256.zero
  · rw [if_pos h, if_pos (hz.mpr h)]
  · rw [if_neg h, if_neg (fun e => h (hz.mp e)), if_neg hl, if_neg h]
    have hf : ∀ (bits : List Nat) (acc : Words P), (bits.foldl (powStepS csq a) acc).limbs =
        bits.foldl (B256.powStep a.limbs P.p P.inv) acc.limbs := by
      intro bits
      induction bits with
      | nil => intro acc; rfl
      | cons b bs ih =>
        intro acc
        rw [List.foldl_cons, List.foldl_cons, ih]
        congr 1
        unfold powStepS B256.powStep
        split <;> rfl
    have h1 := hf (invBits P) 1
    have h2 : (codeOps (P := P)).inv a = (invBits P).foldl (powStepS csq a) 1 := by
      show invS (invBits P) csq a = _
      unfold invS
      rw [if_neg (fun e => h (hz.mp e))]
    rw [h2, h1]
    rfl

theorem words_turns : Turns P (codeOps (P := P)).sq (Words.limbs (P := P)) where
  inj _ _ := Words.ext_iff.symm
  zero := rfl
  one := rfl
  add _ _ := rfl
  sub _ _ := rfl
  mul _ _ := rfl
  neg _ := rfl
  dbl a := ((a + a).el.inj hvP.valid (a.el.dbl hvP.valid)).mpr (Words.res_add a a)
  sq _ := rfl

theorem readBits_words : ∀ (bs : List Nat) (m v : Words P), (wReadBits bs m v).limbs = readBitsL P bs m.limbs v.limbs
  | [], _, _ => rfl
  | b :: bs, m, v => by
    rw [wReadBits, readBitsL, readBits_words bs]
    congr 1
    split <;> rfl

theorem reread_words (x : Words P) : (wReread x : Words Q).limbs = rereadL P Q x.limbs := readBits_words _ _ _

theorem natToF_words (n : Int) : natToFL P n = (wNatToF n : Option (Words P)).map Words.limbs := by
  unfold natToFL wNatToF
  split <;> rfl

theorem limbLoop_words (w : Nat) : ∀ (k : Nat) (n : Int),
    limbLoopL P w k n = (wLimbLoop w k n : Option (List (Words P))).map (List.map Words.limbs)
  | 0, _ => rfl
  | k + 1, n => by
    rw [limbLoopL, wLimbLoop, natToF_words, limbLoop_words w k]
    cases (wNatToF (n % 2 ^ w) : Option (Words P)) with
    | none => rfl
    | some r => cases (wLimbLoop w k (n / 2 ^ w) : Option (List (Words P))) <;> rfl

theorem natToLimbs_words (n : Int) (w k : Nat) :
    natToLimbsL P n w k = (wNatToLimbs n w k : Option (List (Words P))).map (List.map Words.limbs) := by
  unfold natToLimbsL wNatToLimbs
  split
  · exact limbLoop_words w k n
  · rfl

theorem point_words (a : Aff (Words Q)) : pointL Q (affTo Words.limbs a) = (pointS a).map Words.limbs := by
  rcases a with ⟨x, y, i⟩
  cases i <;> rfl

theorem absorbX_words (x : Words P) : absorbXL P Q x.limbs = (wAbsorbX x : Option (List (Words Q))).map (List.map Words.limbs) := by
  have h := natToLimbs_words (P := P) (wFToNat x) limbWidth nLimbs
  have e : fToNatL P x.limbs = wFToNat x := rfl
  unfold absorbXL wAbsorbX
  rw [e, h]
  cases (wNatToLimbs (wFToNat x) limbWidth nLimbs : Option (List (Words P))) with
  | none => rfl
  | some ls =>
    rw [Option.bind_eq_bind, Option.bind_some, Option.map_some, Option.map_some, Option.map_some, List.map_map, List.map_map]
    refine congrArg some (List.map_congr_left fun a _ => ?_)
    rw [Function.comp_apply, Function.comp_apply, reread_words]

theorem absorbXs_words : ∀ xs : List (Words P), absorbXsL P Q (xs.map Words.limbs) =
    (xs.mapM (wAbsorbX (Q := Q))).map fun ls => ls.flatten.map Words.limbs
  | [] => rfl
  | x :: xs => by
    rw [List.map_cons, absorbXsL, absorbX_words, absorbXs_words xs, List.mapM_cons]
    cases (wAbsorbX x : Option (List (Words Q))) with
    | none => rfl
    | some a =>
      cases xs.mapM (wAbsorbX (Q := Q)) with
      | none => rfl
      | some as =>
        rw [Option.map_some, Option.bind_some, Option.map_some, Option.map_some]
        simp only [Option.bind_eq_bind, Option.bind_some, Option.pure_def, Option.map_some, List.flatten_cons, List.map_append]

/-- A relaxed instance as limbs. -/
def rinstTo (i : RInst (Words P) (Aff (Words Q))) : RInst L4 RawAff :=
  ⟨affTo Words.limbs i.commitW, affTo Words.limbs i.commitE, i.u.limbs, i.x.map Words.limbs⟩
/-- An instance as limbs. -/
def instTo (i : Inst (Words P) (Aff (Words Q))) : Inst L4 RawAff := ⟨affTo Words.limbs i.commitW, i.x.map Words.limbs⟩
/-- A witness as limbs. -/
def rwitTo (w : RWit (Words P)) : RWit L4 := ⟨w.w.map Words.limbs, w.e.map Words.limbs⟩
/-- A shape as limbs. -/
def shapeTo (S : Shape (Words P)) : Shape L4 := ⟨S.m, S.instanceLength, S.witnessLength, rowsTo Words.limbs S.a, rowsTo Words.limbs S.b,
  rowsTo Words.limbs S.c⟩
/-- A proof as limbs. -/
def proofTo (w : WRecursiveProof P Q) : WireProof :=
  ⟨w.i, w.z01.map Words.limbs, w.z02.map Words.limbs, w.zi1.map Words.limbs, w.zi2.map Words.limbs, instTo w.single2,
    w.wsingle2.map Words.limbs, rinstTo w.range1, rwitTo w.wrange1, rinstTo w.range2, rwitTo w.wrange2⟩

theorem absorb_words (i : RInst (Words P) (Aff (Words Q))) : absorbL P Q (rinstTo i) = (wAbsorb i).map (List.map Words.limbs) := by
  have h1 := absorbXs_words (Q := Q) i.x
  unfold absorbL wAbsorb
  rw [show (rinstTo i).x = i.x.map Words.limbs from rfl, h1]
  cases i.x.mapM (wAbsorbX (Q := Q)) with
  | none => rfl
  | some xs =>
    rw [Option.map_some, Option.map_some, Option.bind_eq_bind, Option.bind_some, Option.map_some]
    congr 1
    rw [List.map_append, List.map_append, List.map_append]
    have a1 := point_words i.commitW
    have a2 := point_words i.commitE
    have a3 := reread_words (Q := Q) i.u
    have b1 : ∀ a : Aff (Words Q), wPoint a = pointS a := fun _ => rfl
    rw [b1, b1, ← a1, ← a2, List.map_singleton, a3]
    rfl

theorem conv_ofU64 (n : Nat) : ((conv P Q).ofU64 n).limbs = Q.fromU64 (n % 2 ^ 64) := rfl
theorem conv_lowBits (x : Words Q) (n : Nat) :
    ((conv P Q).lowBits x n).limbs = readBitsL P ((Q.toBits x.limbs).reverse.take n) P.one FieldParams.zero := readBits_words _ _ _

theorem squeeze_to (k st : List (Words Q)) (n : Nat) :
    squeezeL P Q (k.map Words.limbs) (st.map Words.limbs) n = (squeezeS codeOps (conv P Q) k st n).limbs := by
  unfold squeezeL squeezeS
  rw [← limbs_code, conv_lowBits]

theorem hash_to (k : List (Words Q)) (i : RInst (Words P) (Aff (Words Q))) (n : Nat) (z0 zi : List (Words Q)) :
    hashL P Q (k.map Words.limbs) (rinstTo i) n (z0.map Words.limbs) (zi.map Words.limbs) =
      (hashS codeOps (conv P Q) k i n z0 zi).map Words.limbs := by
  have h1 := absorb_words i
  have h2 : (conv P Q).absorb i = wAbsorb i := rfl
  have h3 : ∀ a : List (Words Q), squeezeL P Q (k.map Words.limbs) (Q.fromU64 (n % 2 ^ 64) ::
      (z0.map Words.limbs ++ zi.map Words.limbs ++ a.map Words.limbs)) hashBits =
      (squeezeS codeOps (conv P Q) k ((conv P Q).ofU64 n :: (z0 ++ zi ++ a)) hashBits).limbs := by
    intro a
    rw [← squeeze_to, List.map_cons, List.map_append, List.map_append, conv_ofU64]
  have gen : ∀ {A B C D : Type} (o : Option A) (m : A → B) (g : B → D) (l : C → D) (g' : A → C),
      (∀ a, g (m a) = l (g' a)) → (o.map m).map g = (o.map g').map l := by
    intro A B C D o m g l g' h
    cases o with
    | none => rfl
    | some a => exact congrArg some (h a)
  unfold hashL hashS
  rw [h1, h2]
  exact gen _ _ _ _ _ h3

theorem sat_words (S : Shape (Words P)) (i : RInst (Words P) (Aff (Words Q))) (w : RWit (Words P)) :
    isSatRelaxedL P (shapeTo S) (rinstTo i) (rwitTo w) = isSatRelaxed S i w :=
  isSatRelaxed_to words_turns S i w _ _

theorem isSat_to_words (b : Words Q) (S : Shape (Words P)) (ck : List (Aff (Words Q))) (i : Inst (Words P) (Aff (Words Q)))
    (w : List (Words P)) :
    isSatL P Q b.limbs (shapeTo S) (ck.map (affTo Words.limbs)) (instTo i) (w.map Words.limbs) =
      isSatS codeOps (conv P Q) b S ck i w :=
  isSat_to words_turns words_turns rfl (fun _ => rfl) invert_words b S ck i w

/-- The tests of `verify` before the satisfaction checks, over any representation. -/
theorem checks_to {A B : Type} [DecidableEq A] [DecidableEq B] {f : A → L4} {g : B → L4} (hf : ∀ a b, f a = f b ↔ a = b)
    (hg : ∀ a b, g a = g b ↔ a = b) (h1 : Option A) (h2 : Option B) (x : List A) (r : A → B) (q : L4 → L4)
    (hq : ∀ a, q (f a) = g (r a)) (rest : Option Bool) :
    ((h1.map f).bind fun a => (h2.map g).bind fun b => (x.map f)[0]?.bind fun x0 => (x.map f)[1]?.bind fun x1 =>
      if a ≠ x0 ∨ b ≠ q x1 then some false else rest) =
    (h1.bind fun a => h2.bind fun b => x[0]?.bind fun x0 => x[1]?.bind fun x1 => if a ≠ x0 ∨ b ≠ r x1 then some false else rest) := by
  rcases h1 with _ | a
  · rfl
  rcases h2 with _ | b
  · rfl
  rcases x with _ | ⟨x0, _ | ⟨x1, xs⟩⟩
  · rfl
  · rfl
  · simp only [Option.map_some, Option.bind_some, List.map_cons, List.getElem?_cons_zero, List.getElem?_cons_succ, hq, ne_eq, hf, hg]

/-- On canonical limbs the verifier is that of `Nova/Raw.lean`. -/
theorem verify_canonical (k1 : List (Words P)) (k2 : List (Words Q)) (b2 : Words P) (s1 : Shape (Words P)) (s2 : Shape (Words Q))
    (ck1 : List RawAff) (ck2 : List (Aff (Words P))) (w : WRecursiveProof P Q) :
    verifyL P Q (k1.map Words.limbs) (k2.map Words.limbs) b2.limbs ⟨shapeTo s1, shapeTo s2, ck1, ck2.map (affTo Words.limbs)⟩
      (proofTo w) = recVerifyS codeOps codeOps k1 k2 b2 s1 s2 ck2 w := by
  have e1 := sat_words s1 w.range1 w.wrange1
  have e2 := sat_words s2 w.range2 w.wrange2
  have e3 := isSat_to_words b2 s2 ck2 w.single2 w.wsingle2
  have e4 := hash_to k1 w.range2 w.i w.z01 w.zi1
  have e5 := hash_to k2 w.range1 w.i w.z02 w.zi2
  have l1 : (w.single2.x.map Words.limbs).length = w.single2.x.length := List.length_map _
  have l2 : (w.range1.x.map Words.limbs).length = w.range1.x.length := List.length_map _
  have l3 : (w.range2.x.map Words.limbs).length = w.range2.x.length := List.length_map _
  have hc : ((proofTo w).single2.x.length ≠ 2 ∨ (proofTo w).range1.x.length ≠ 2 ∨ (proofTo w).range2.x.length ≠ 2) ↔
      (w.single2.x.length ≠ 2 ∨ w.range1.x.length ≠ 2 ∨ w.range2.x.length ≠ 2) := by
    rw [← l1, ← l2, ← l3]; exact Iff.rfl
  unfold verifyL recVerifyS
  by_cases h : w.single2.x.length ≠ 2 ∨ w.range1.x.length ≠ 2 ∨ w.range2.x.length ≠ 2
  · rw [if_pos h, if_pos (hc.mpr h)]
  · rw [if_neg h, if_neg (fun e => h (hc.mp e))]
    dsimp only [proofTo]
    rw [e1, e2, e3, e4, e5]
    exact checks_to (fun _ _ => Words.ext_iff.symm) (fun _ _ => Words.ext_iff.symm) _ _ _ _ _ (fun a => (reread_words a).symm) _

end

end Kogarashi.Nova.OnWire
