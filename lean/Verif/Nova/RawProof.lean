import Verif.Nova.Raw
import Verif.Nova.StructProof

/-!
# Nova with the code's own squaring: refinement

When no squaring of a run loses a carry, the functions of `Nova/Raw.lean` return what those of `Nova/Struct.lean` do.
-/

namespace Kogarashi.Nova.Raw

open Kogarashi Spec Curve Kogarashi.Field Limbs Groth16

/-! ### Squaring and inversion -/

theorem Exact.left {F : Type} [Mul F] {s : F → F} {l l' : List F} (h : Exact s (l ++ l')) : Exact s l :=
  fun x hx => h x (List.mem_append_left _ hx)
theorem Exact.right {F : Type} [Mul F] {s : F → F} {l l' : List F} (h : Exact s (l ++ l')) : Exact s l' :=
  fun x hx => h x (List.mem_append_right _ hx)

/-- The inversion is right when what it squares is squared right. -/
def Lawful {F : Type} [_root_.Field F] (o : SqOps F) : Prop := ∀ z, Exact o.sq (o.invSq z) → o.inv z = z⁻¹

section
variable {F : Type} [_root_.Field F] [DecidableEq F]

omit [DecidableEq F] in
theorem pow_exact (s : F → F) (a : F) (step : F → F → Nat → F)
    (hstep : ∀ acc bit, step a acc bit = if bit = 1 then acc * acc * a else acc * acc) :
    ∀ (bits : List Nat) (acc : F), Exact s (sqPow s a bits acc) → bits.foldl (powStepS s a) acc = bits.foldl (step a) acc
  | [], _, _ => rfl
  | bit :: bits, acc, h => by
    have e : powStepS s a acc bit = step a acc bit := by
      rw [hstep, powStepS, h acc List.mem_cons_self]
    rw [List.foldl_cons, List.foldl_cons, ← e]
    exact pow_exact s a step hstep bits _ fun x hx => h x (List.mem_cons_of_mem _ hx)

theorem invS_exact (bits : List Nat) (s : F → F) (step : F → F → Nat → F)
    (hstep : ∀ a acc bit, step a acc bit = if bit = 1 then acc * acc * a else acc * acc) (a v : F)
    (hv : v = if a = 0 then 0 else bits.foldl (step a) 1) (h : Exact s (sqInvS bits s a)) : invS bits s a = v := by
  rw [hv]
  unfold invS
  unfold sqInvS at h
  by_cases h0 : a = 0
  · rw [if_pos h0, if_pos h0]
  · rw [if_neg h0, if_neg h0]
    rw [if_neg h0] at h
    exact pow_exact s a step (hstep a) _ 1 h

end

theorem codeOps_lawful {P : FieldParams} [ValidWords P] : Lawful (codeOps (P := P)) := by
  intro z h
  exact invS_exact (invBits P) csq Words.powStep (fun _ _ _ => rfl) z _ rfl h

/-! ### Points -/

section
variable {F : Type} [_root_.Field F] [DecidableEq F] {s : F → F}

omit [DecidableEq F] in
theorem doubleAffineS_eq (b3 : F) {p : Aff F} (h : s p.y = p.y * p.y) : doubleAffineS s b3 p = doubleAffine b3 p := by
  unfold doubleAffineS doubleAffine Curve.sq
  rw [h]

omit [DecidableEq F] in
theorem doubleProjS_eq (b3 : F) {p : Proj F} (h : s p.y = p.y * p.y) (h' : s p.z = p.z * p.z) :
    doubleProjS s b3 p = doubleProj b3 p := by
  unfold doubleProjS doubleProj Curve.sq
  rw [h, h']

theorem addMixedS_eq (b3 : F) (p : Aff F) (q : Proj F) (h : ∀ x ∈ sqMixed p q, s x = x * x) :
    addMixedS s b3 p q = addMixed b3 p q := by
  unfold addMixedS addMixed
  unfold sqMixed at h
  by_cases h1 : p.isIdentity = true
  · rw [if_pos h1, if_pos h1]
  · rw [if_neg h1, if_neg h1]
    rw [if_neg h1] at h
    by_cases h2 : q.isIdentity = true
    · rw [if_pos h2, if_pos h2]
    · rw [if_neg h2, if_neg h2]
      rw [if_neg h2] at h
      dsimp only
      by_cases h3 : p.x * q.z = q.x
      · rw [if_pos h3, if_pos h3]
        rw [if_pos h3] at h
        by_cases h4 : p.y * q.z = q.y
        · rw [if_pos h4, if_pos h4]
          rw [if_pos h4] at h
          exact doubleAffineS_eq b3 (h _ List.mem_cons_self)
        · rw [if_neg h4, if_neg h4]
      · rw [if_neg h3, if_neg h3]
        rw [if_neg h3] at h
        unfold Curve.sq
        rw [h _ List.mem_cons_self, h _ (List.mem_cons_of_mem _ List.mem_cons_self)]

theorem addProjS_eq (b3 : F) (p q : Proj F) (h : ∀ x ∈ sqAdd p q, s x = x * x) : addProjS s b3 p q = addProj b3 p q := by
  unfold addProjS addProj
  unfold sqAdd at h
  by_cases h1 : p.isIdentity = true
  · rw [if_pos h1, if_pos h1]
  · rw [if_neg h1, if_neg h1]
    rw [if_neg h1] at h
    by_cases h2 : q.isIdentity = true
    · rw [if_pos h2, if_pos h2]
    · rw [if_neg h2, if_neg h2]
      rw [if_neg h2] at h
      dsimp only
      by_cases h3 : p.x * q.z = q.x * p.z
      · rw [if_pos h3, if_pos h3]
        rw [if_pos h3] at h
        by_cases h4 : p.y * q.z = q.y * p.z
        · rw [if_pos h4, if_pos h4]
          rw [if_pos h4] at h
          exact doubleProjS_eq b3 (h _ List.mem_cons_self) (h _ (List.mem_cons_of_mem _ List.mem_cons_self))
        · rw [if_neg h4, if_neg h4]
      · rw [if_neg h3, if_neg h3]
        rw [if_neg h3] at h
        unfold Curve.sq
        rw [h _ List.mem_cons_self, h _ (List.mem_cons_of_mem _ List.mem_cons_self)]

theorem scalarStepS_eq (b3 : F) (p r : Proj F) (d : Naf) (h : ∀ x ∈ sqScalarStep s b3 p r d, s x = x * x) :
    scalarStepS s b3 p r d = scalarStep b3 p r d := by
  unfold scalarStepS scalarStep
  unfold sqScalarStep at h
  have e : doubleProjS s b3 r = doubleProj b3 r :=
    doubleProjS_eq b3 (h _ List.mem_cons_self) (h _ (List.mem_cons_of_mem _ List.mem_cons_self))
  rw [e] at h ⊢
  cases d with
  | plus => exact addProjS_eq b3 _ _ fun x hx => h x (List.mem_cons_of_mem _ (List.mem_cons_of_mem _ hx))
  | minus => exact addProjS_eq b3 _ _ fun x hx => h x (List.mem_cons_of_mem _ (List.mem_cons_of_mem _ hx))
  | zero => rfl

theorem scalarS_eq (b3 : F) (p : Proj F) : ∀ (ds : List Naf) (r : Proj F), (∀ x ∈ sqScalar s b3 p ds r, s x = x * x) →
    ds.foldl (scalarStepS s b3 p) r = ds.foldl (scalarStep b3 p) r
  | [], _, _ => rfl
  | d :: ds, r, h => by
    rw [List.foldl_cons, List.foldl_cons]
    have e := scalarS_eq b3 p ds (scalarStepS s b3 p r d) fun x hx => h x (List.mem_append_right _ hx)
    rw [e, scalarStepS_eq b3 p r d fun x hx => h x (List.mem_append_left _ hx)]

/-! ### Transcript -/

omit [DecidableEq F] in
theorem mimcS_eq : ∀ (cs : List F) (xl xr : F), (∀ x ∈ sqMimc s cs xl xr, s x = x * x) → mimcS s cs xl xr = mimc cs xl xr
  | [], _, _, _ => rfl
  | c :: cs, xl, xr, h => by
    unfold sqMimc at h
    have e1 := h _ List.mem_cons_self
    have e2 := h _ (List.mem_cons_of_mem _ List.mem_cons_self)
    have e3 := mimcS_eq cs _ _ fun x hx => h x (List.mem_cons_of_mem _ (List.mem_cons_of_mem _ hx))
    rw [mimcS, mimc, e3, e2, e1]

theorem spongeS_eq (cs : List F) : ∀ (xs : List F) (acc : F), (∀ x ∈ sqSponge s cs xs acc, s x = x * x) →
    spongeS s cs xs acc = xs.foldl (fun acc x => acc + x + mimc cs x acc) acc
  | [], _, _ => rfl
  | x :: xs, acc, h => by
    have e := spongeS_eq cs xs _ fun y hy => h y (List.mem_append_right _ hy)
    rw [spongeS, e, List.foldl_cons, mimcS_eq cs x acc fun y hy => h y (List.mem_append_left _ hy)]

end

/-! ### Runs with two arithmetics -/

section
variable {F K : Type} [_root_.Field F] [DecidableEq F] [_root_.Field K] [DecidableEq K] {o : SqOps F} {c : Conv F K}

omit [_root_.Field K] [DecidableEq K] [DecidableEq F] in
theorem squeezeS_eq {cs st : List F} (h : Exact o.sq (sqSponge o.sq cs st 0)) (n : Nat) :
    squeezeS o c cs st n = squeezeS exactOps c cs st n := by
  classical
  unfold squeezeS
  rw [spongeS_eq cs st 0 h]
  have e : spongeS (exactOps : SqOps F).sq cs st 0 = _ := spongeS_eq cs st 0 fun _ _ => rfl
  rw [e]

omit [_root_.Field K] [DecidableEq K] [DecidableEq F] in
theorem challengeS_eq {cs : List F} {T : Aff F} {i : RInst K (Aff F)} (h : Exact o.sq (sqChallenge o c cs T i)) :
    challengeS o c cs T i = challengeS exactOps c cs T i := by
  unfold challengeS
  unfold sqChallenge at h
  cases e : c.absorb i with
  | none => rfl
  | some a =>
    rw [e, Option.elim_some] at h
    exact congrArg some (squeezeS_eq h _)

omit [_root_.Field K] [DecidableEq K] [DecidableEq F] in
theorem hashS_eq {cs : List F} {i : RInst K (Aff F)} {n : Nat} {z0 zi : List F} (h : Exact o.sq (sqHash o c cs i n z0 zi)) :
    hashS o c cs i n z0 zi = hashS exactOps c cs i n z0 zi := by
  unfold hashS
  unfold sqHash at h
  cases e : c.absorb i with
  | none => rfl
  | some a =>
    rw [e, Option.elim_some] at h
    exact congrArg some (squeezeS_eq h _)

omit [_root_.Field K] [DecidableEq K] in
theorem mulAffS_eq {b : F} {a : Aff F} {k : K} (h : Exact o.sq (sqMulAff o c b a k)) :
    mulAffS o c b a k = mulAffS exactOps c b a k := by
  unfold mulAffS
  unfold sqMulAff at h
  cases e : c.nafs k with
  | none => rfl
  | some nafs =>
    rw [e, Option.elim_some] at h
    have e1 := scalarS_eq (b + b + b) a.toExtended nafs Proj.identity h
    have e2 := scalarS_eq (s := (exactOps : SqOps F).sq) (b + b + b) a.toExtended nafs Proj.identity fun _ _ => rfl
    rw [Option.map_some, Option.map_some]
    exact congrArg some (e1.trans e2.symm)

theorem toAffineS_eq (ho : Lawful o) {p : Proj F} (h : Exact o.sq (o.invSq p.z)) : toAffineS o p = toAffineS exactOps p := by
  unfold toAffineS
  rw [ho p.z h]
  rfl

theorem addS_eq (b3 : F) (p q : Proj F) (h : Exact o.sq (sqAdd p q)) :
    addProjS o.sq b3 p q = addProjS (exactOps : SqOps F).sq b3 p q :=
  (addProjS_eq b3 p q h).trans (addProjS_eq b3 p q fun _ _ => rfl).symm

theorem mixedS_eq (b3 : F) (p : Aff F) (q : Proj F) (h : Exact o.sq (sqMixed p q)) :
    addMixedS o.sq b3 p q = addMixedS (exactOps : SqOps F).sq b3 p q :=
  (addMixedS_eq b3 p q h).trans (addMixedS_eq b3 p q fun _ _ => rfl).symm

omit [_root_.Field K] [DecidableEq K] in
theorem mulAffS_none (o' : SqOps F) {b : F} {a : Aff F} {k : K} (h : mulAffS o c b a k = none) : mulAffS o' c b a k = none := by
  unfold mulAffS at h ⊢
  rw [Option.map_eq_none_iff] at h ⊢
  exact h

omit [_root_.Field K] [DecidableEq K] in
theorem commitLoopS_eq (ho : Lawful o) (b : F) : ∀ (l : List (K × Aff F)) (acc : Proj F), Exact o.sq (sqCommitLoop o c b l acc) →
    (commitLoopS o c b l acc).map (toAffineS o) = (commitLoopS exactOps c b l acc).map (toAffineS exactOps)
  | [], acc, h => congrArg some (toAffineS_eq ho h)
  | (k, g) :: rest, acc, h => by
    rw [sqCommitLoop] at h
    rw [commitLoopS, commitLoopS]
    cases e : mulAffS o c b g k with
    | none => rw [mulAffS_none exactOps e]; rfl
    | some r =>
      rw [e, Option.elim_some] at h
      rw [← mulAffS_eq h.left, e, Option.bind_some, Option.bind_some, commitLoopS_eq ho b rest _ h.right.right,
        addS_eq _ _ _ h.right.left]

omit [_root_.Field K] [DecidableEq K] in
theorem commitS_eq (ho : Lawful o) {b : F} {g : List (Aff F)} {m : List K} (h : Exact o.sq (sqCommit o c b g m)) :
    commitS o c b g m = commitS exactOps c b g m := commitLoopS_eq ho b _ _ h

omit [_root_.Field K] [DecidableEq K] in
theorem foldPointS_eq (ho : Lawful o) {b : F} {acc a : Aff F} {k : K} (h : Exact o.sq (sqFoldPoint o c b acc a k)) :
    foldPointS o c b acc a k = foldPointS exactOps c b acc a k := by
  unfold sqFoldPoint at h
  unfold foldPointS
  cases e : mulAffS o c b a k with
  | none => rw [mulAffS_none exactOps e]; rfl
  | some r =>
    rw [e, Option.elim_some] at h
    rw [← mulAffS_eq h.left, e, Option.map_some, Option.map_some, toAffineS_eq ho h.right.right, mixedS_eq _ _ _ h.right.left]

omit [DecidableEq K] in
theorem foldS_eq (ho : Lawful o) {b : F} {i1 : RInst K (Aff F)} {i2 : Inst K (Aff F)} {r : K} {T : Aff F}
    (h : Exact o.sq (sqFold o c b i1 i2 r T)) : foldS o c b i1 i2 r T = foldS exactOps c b i1 i2 r T := by
  unfold foldS
  rw [foldPointS_eq ho h.left, foldPointS_eq ho h.right]

theorem isSatS_eq (ho : Lawful o) {b : F} {S : Shape K} {ck : List (Aff F)} {i : Inst K (Aff F)} {w : List K}
    (h : Exact o.sq (sqCommit o c b ck w)) : isSatS o c b S ck i w = isSatS exactOps c b S ck i w := by
  unfold isSatS
  rw [commitS_eq ho h]

omit [DecidableEq K] in
theorem verifyS_eq (ho : Lawful o) {cs : List F} {b : F} {T : Aff F} {i1 : RInst K (Aff F)} {i2 : Inst K (Aff F)}
    (h : Exact o.sq (sqChallenge o c cs T i1))
    (h' : ∀ r, challengeS o c cs T i1 = some r → Exact o.sq (sqFold o c b i1 i2 r T)) :
    verifyS o c cs b T i1 i2 = verifyS exactOps c cs b T i1 i2 := by
  unfold verifyS
  rw [← challengeS_eq h]
  cases e : challengeS o c cs T i1 with
  | none => rfl
  | some r => exact foldS_eq ho (h' r e)

omit [DecidableEq K] in
theorem proveS_eq (ho : Lawful o) {cs : List F} {b : F} {S : Shape K} {ck : List (Aff F)} {i1 : RInst K (Aff F)} {w1 : RWit K}
    {i2 : Inst K (Aff F)} {w2 : List K}
    (h : ∀ t, crossTerm S i1 w1 i2 w2 = some t → Exact o.sq (sqCommit o c b ck t) ∧ ∀ T, commitS o c b ck t = some T →
      Exact o.sq (sqChallenge o c cs T i1) ∧ ∀ r, challengeS o c cs T i1 = some r → Exact o.sq (sqFold o c b i1 i2 r T)) :
    proveS o c cs b S ck i1 w1 i2 w2 = proveS exactOps c cs b S ck i1 w1 i2 w2 := by
  unfold proveS
  cases e : crossTerm S i1 w1 i2 w2 with
  | none => rfl
  | some t =>
    obtain ⟨h1, h2⟩ := h t e
    rw [Option.bind_eq_bind, Option.bind_some, Option.bind_eq_bind, Option.bind_some, ← commitS_eq ho h1]
    cases e2 : commitS o c b ck t with
    | none => rfl
    | some T =>
      obtain ⟨h3, h4⟩ := h2 T e2
      rw [Option.bind_some, Option.bind_some, ← challengeS_eq h3]
      cases e3 : challengeS o c cs T i1 with
      | none => rfl
      | some r =>
        rw [Option.bind_eq_bind, Option.bind_some, Option.bind_eq_bind, Option.bind_some, foldS_eq ho (h4 r e3)]

end

/-! ### The exact run is the one of `Nova/Struct.lean` -/

section
variable {P Q : FieldParams} [hvP : ValidWords P] [hvQ : ValidWords Q]

theorem squeeze_words (cs st : List (Words Q)) (n : Nat) :
    squeezeS exactOps (conv P Q) cs st n = wSqueeze cs st n := by
  have e : spongeS (exactOps : SqOps (Words Q)).sq cs st 0 = sponge cs st := spongeS_eq cs st 0 fun _ _ => rfl
  unfold squeezeS wSqueeze
  rw [e]
  generalize sponge cs st = x
  rfl

theorem challenge_words (cs : List (Words Q)) (T : Aff (Words Q)) (i : RInst (Words P) (Aff (Words Q))) :
    challengeS exactOps (conv P Q) cs T i = wChallenge cs T i := by
  unfold challengeS wChallenge
  have e : (conv P Q).absorb i = wAbsorb i := rfl
  rw [e]
  cases (wAbsorb i : Option (List (Words Q))) with
  | none => rfl
  | some a => exact congrArg some (squeeze_words _ _ _)

theorem hash_words (cs : List (Words Q)) (i : RInst (Words P) (Aff (Words Q))) (n : Nat) (z0 zi : List (Words Q)) :
    hashS exactOps (conv P Q) cs i n z0 zi = wHash cs i n z0 zi := by
  unfold hashS wHash
  have e : (conv P Q).absorb i = wAbsorb i := rfl
  rw [e]
  cases (wAbsorb i : Option (List (Words Q))) with
  | none => rfl
  | some a => exact congrArg some (squeeze_words _ _ _)

/-- The loop of `commit` over any fields. -/
theorem commitLoop_foldlM {F K : Type} [_root_.Field F] [DecidableEq F] (c : Conv F K) (b : F) (mul : Aff F → K → Option (Proj F))
    (hm : ∀ a k, mulAffS exactOps c b a k = mul a k) : ∀ (l : List (K × Aff F)) (acc : Proj F), commitLoopS exactOps c b l acc =
      l.foldlM (fun sum ve => (mul ve.2 ve.1).map (addProj (b + b + b) sum)) acc
  | [], _ => rfl
  | (k, g) :: rest, acc => by
    rw [commitLoopS, List.foldlM_cons, hm]
    cases mul g k with
    | none => rfl
    | some r =>
      have e : addProjS (exactOps : SqOps F).sq (b + b + b) acc r = addProj (b + b + b) acc r := addProjS_eq _ _ _ fun _ _ => rfl
      rw [Option.bind_some, e, commitLoop_foldlM c b mul hm rest]
      rfl

theorem toAffine_exact {F : Type} [_root_.Field F] [DecidableEq F] (p : Proj F) : toAffineS exactOps p = p.toAffine := rfl

theorem scalar_exact {F : Type} [_root_.Field F] [DecidableEq F] (b3 : F) (p : Proj F) (ds : List Naf) :
    scalarPointS (exactOps : SqOps F).sq b3 p ds = scalarPoint b3 p ds := scalarS_eq b3 p ds _ fun _ _ => rfl

theorem mulAff_words (b : Words Q) (a : Aff (Words Q)) (k : Words P) : mulAffS exactOps (conv P Q) b a k = mulAffW b a k := by
  have key : ∀ n : Option (List Naf), n.map (scalarPointS (exactOps : SqOps (Words Q)).sq (b + b + b) a.toExtended) =
      n.map (scalarPoint (b + b + b) a.toExtended) := by
    intro n
    cases n with
    | none => rfl
    | some ds => exact congrArg some (scalar_exact _ _ ds)
  exact key (P.toNafs k.limbs)

theorem commit_words (b : Words Q) (g : List (Aff (Words Q))) (m : List (Words P)) :
    commitS exactOps (conv P Q) b g m = wCommit b g m := by
  unfold commitS wCommit
  rw [commitLoop_foldlM (conv P Q) b (mulAffW b) (mulAff_words b)]
  exact congrArg (fun f => Option.map f _) (funext toAffine_exact)

theorem foldPoint_words (b : Words Q) (acc a : Aff (Words Q)) (k : Words P) : foldPointS exactOps (conv P Q) b acc a k =
    (mulAffW b a k).map fun r => (affAddProj (b + b + b) acc r).toAffine := by
  unfold foldPointS
  rw [mulAff_words]
  refine congrArg (fun f => Option.map f _) (funext fun r => ?_)
  have e : addMixedS (exactOps : SqOps (Words Q)).sq (b + b + b) acc r = addMixed (b + b + b) acc r :=
    addMixedS_eq _ _ _ fun _ _ => rfl
  rw [e, toAffine_exact, affAddProj]

/-- Two ways to order the same computation. -/
theorem fold_order {A B C D : Type} (e w : Option A) (f g : A → B) (x : Option C) (h : B → B → C → D) :
    ((e.map f).bind fun e => (w.map g).bind fun w => x.bind fun x => some (h w e x)) =
      e.bind fun e => w.bind fun w => x.bind fun x => some (h (g w) (f e) x) := by
  cases e <;> cases w <;> rfl

theorem fold_words (b : Words Q) (i1 : RInst (Words P) (Aff (Words Q))) (i2 : Inst (Words P) (Aff (Words Q))) (r : Words P)
    (T : Aff (Words Q)) : foldS exactOps (conv P Q) b i1 i2 r T = wFold b i1 i2 r T := by
  unfold foldS wFold
  rw [foldPoint_words, foldPoint_words]
  exact fold_order (mulAffW b T r) (mulAffW b i2.commitW r) _ _ _ fun w e x => RInst.mk w e (i1.u + r) x

theorem isSat_words (b : Words Q) (S : Shape (Words P)) (ck : List (Aff (Words Q))) (i : Inst (Words P) (Aff (Words Q)))
    (w : List (Words P)) : isSatS exactOps (conv P Q) b S ck i w = wIsSat b S ck i w := by
  unfold isSatS wIsSat
  rw [commit_words]

theorem verify_words (cs : List (Words Q)) (b : Words Q) (T : Aff (Words Q)) (i1 : RInst (Words P) (Aff (Words Q)))
    (i2 : Inst (Words P) (Aff (Words Q))) : verifyS exactOps (conv P Q) cs b T i1 i2 = wVerify cs b T i1 i2 := by
  unfold verifyS wVerify
  rw [challenge_words]
  simp only [fold_words]

theorem prove_words (cs : List (Words Q)) (b : Words Q) (S : Shape (Words P)) (ck : List (Aff (Words Q)))
    (i1 : RInst (Words P) (Aff (Words Q))) (w1 : RWit (Words P)) (i2 : Inst (Words P) (Aff (Words Q))) (w2 : List (Words P)) :
    proveS exactOps (conv P Q) cs b S ck i1 w1 i2 w2 = wProve cs b S ck i1 w1 i2 w2 := by
  unfold proveS wProve
  simp only [commit_words, challenge_words, fold_words]

end

section
variable {P S : FieldParams} [ValidWords P] [ValidWords S]

theorem recVerifyS_eq {k1 : List (Words P)} {k2 : List (Words S)} {b2 : Words P} {shape1 : Shape (Words P)}
    {shape2 : Shape (Words S)} {ck2 : List (Aff (Words P))} {pf : WRecursiveProof P S}
    (h1 : Exact csq (sqHash codeOps (conv S P) k1 pf.range2 pf.i pf.z01 pf.zi1))
    (h2 : Exact csq (sqHash codeOps (conv P S) k2 pf.range1 pf.i pf.z02 pf.zi2))
    (h3 : Exact csq (sqCommit codeOps (conv S P) b2 ck2 pf.wsingle2)) :
    recVerifyS codeOps codeOps k1 k2 b2 shape1 shape2 ck2 pf = pf.verify k1 k2 b2 shape1 shape2 ck2 := by
  unfold recVerifyS WRecursiveProof.verify
  rw [hashS_eq h1, hashS_eq h2, isSatS_eq codeOps_lawful h3, hash_words, hash_words, isSat_words]

end

end Kogarashi.Nova.Raw
