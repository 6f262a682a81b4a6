import Verif.Ops.Systems
import Verif.Props.R1cs
import Verif.Props.PrimeField

/-!
# Property C99: every operator variant

Each operator is implemented for values, for references and in assigning form.  The specification is what the operator means on
the ring, group or module the operands stand for; it does not know about references.
-/

namespace Kogarashi.Props

open Kogarashi Spec Limbs Kogarashi.Field Curve Tower Ops WeierstrassCurve.Affine

/-- What an operator means in a ring. -/
def ringMeaning {R : Type} [Ring R] : Op → R → R → R
  | .add, a, b | .addAssign, a, b => a + b
  | .sub, a, b | .subAssign, a, b => a - b
  | .mul, a, b | .mulAssign, a, b => a * b
  | .neg, a, _ => -a

/-- The run returns `c`, given eight stack frames or more. -/
def Returns {K O : Type} (S : Sys K O) (o : Op) (r s : Bool) (a b c : O) : Prop :=
  ∀ n, 8 ≤ n → S.run n o ⟨r, a⟩ ⟨s, b⟩ = .ok ⟨false, c⟩

/-- The run uses up any stack. -/
def Overflows {K O : Type} (S : Sys K O) (o : Op) (r s : Bool) (a b : O) : Prop := ∀ n, S.run n o ⟨r, a⟩ ⟨s, b⟩ = .error .stack

/-- There is such an operator. -/
def Exists {K O : Type} (S : Sys K O) (o : Op) (r s : Bool) (a b : O) : Prop := (S.impl o ⟨r, S.kind a⟩ ⟨s, S.kind b⟩).isSome = true

theorem returns_of {K O : Type} {S : Sys K O} {o : Op} {r s : Bool} {a b c : O} (h : ∀ n, S.run (n + 8) o ⟨r, a⟩ ⟨s, b⟩ = .ok ⟨false, c⟩) :
    Returns S o r s a b c := by
  intro n hn
  obtain ⟨k, rfl⟩ : ∃ k, n = k + 8 := ⟨n - 8, by omega⟩
  exact h k

/-- The operators by value, on four functions. -/
def byValue {O : Type} (add sub mul : O → O → O) (neg : O → O) : Op → O → O → O
  | .add, a, b | .addAssign, a, b => add a b
  | .sub, a, b | .subAssign, a, b => sub a b
  | .mul, a, b | .mulAssign, a, b => mul a b
  | .neg, a, _ => neg a

/-! ### Prime fields -/

theorem field_run {O : Type} (add sub mul : O → O → O) (neg : O → O) {a b : O} {o : Op} {r s : Bool}
    (h : Exists (limbSys fieldImpl add sub mul neg) o r s a b) (hn : ¬ (o = .neg ∧ r = true)) :
    Returns (limbSys fieldImpl add sub mul neg) o r s a b (byValue add sub mul neg o a b) := by
  apply returns_of
  intro n
  cases o <;> cases r <;> cases s <;> first
    | rfl
    | exact (Bool.false_ne_true h).elim
    | exact absurd ⟨rfl, rfl⟩ hn

/-- **C99, prime fields, the part that holds.** Every variant but the negation of a reference computes the operation modulo the
modulus. -/
theorem C99_field_partial {P : FieldParams} (hP : ValidParams P) {a b : L4} (ha : Canonical P a) (hb : Canonical P b) {o : Op} {r s : Bool}
    (h : Exists (fieldSys P) o r s a b) (hn : ¬ (o = .neg ∧ r = true)) :
    ∃ c, Returns (fieldSys P) o r s a b c ∧ Canonical P c ∧ denote P c = ringMeaning o (denote P a) (denote P b) := by
  refine ⟨_, field_run _ _ _ _ h hn, ?_⟩
  cases o
  · exact add_denote hP ha hb
  · exact sub_denote hP ha hb
  · exact mul_denote hP ha hb
  · exact neg_denote hP ha
  · exact add_denote hP ha hb
  · exact sub_denote hP ha hb
  · exact mul_denote hP ha hb

theorem field_loop {O : Type} (add sub mul : O → O → O) (neg : O → O) (a : O) :
    Overflows (limbSys fieldImpl add sub mul neg) .neg true true a a := by
  intro n
  induction n with
  | zero => rfl
  | succ n ih => exact ih

/-- **C99, prime fields, refuted.** `-&a` never returns, whatever `a`: its body negates the same reference. -/
theorem C99_field_refuted (P : FieldParams) (a : L4) : Exists (fieldSys P) .neg true true a a ∧ Overflows (fieldSys P) .neg true true a a :=
  ⟨rfl, field_loop _ _ _ _ a⟩

/-! ### Extension fields -/

/-- **C99, extension fields, the part that holds.** By value and when a value is subtracted or assigned, and for `&a + &b` and
`&a + b`, every variant is the operation of the ring. -/
theorem C99_ext_partial {E : Type} [Ring E] (a b : E) {o : Op} {r s : Bool} (h : Exists (extSys E) o r s a b)
    (hs : o = .neg ∨ (r = false ∧ s = false) ∨ (o = .add ∧ r = true) ∨ o = .subAssign) :
    Returns (extSys E) o r s a b (ringMeaning o a b) := by
  apply returns_of
  intro n
  cases o <;> cases r <;> cases s <;> first
    | rfl
    | exact (Bool.false_ne_true h).elim
    | (refine absurd hs ?_; decide)

/-- **C99, extension fields, refuted.** What the remaining variants do: subtracting a reference or from a reference multiplies,
multiplying by a reference adds, also when assigning, and adding a reference to a value never returns. -/
theorem C99_ext_refuted {E : Type} [Ring E] (a b : E) {o : Op} {r s : Bool} (h : Exists (extSys E) o r s a b)
    (hs : ¬ (o = .neg ∨ (r = false ∧ s = false) ∨ (o = .add ∧ r = true) ∨ o = .subAssign)) :
    (o = .sub ∧ Returns (extSys E) o r s a b (a * b)) ∨
    ((o = .mul ∨ o = .mulAssign) ∧ Returns (extSys E) o r s a b (a + b)) ∨
    ((o = .add ∨ o = .addAssign) ∧ Overflows (extSys E) o r s a b) := by
  have loop : Overflows (extSys E) .add false true a b := by
    intro n
    induction n with
    | zero => rfl
    | succ n ih => exact ih
  have loop' : Overflows (extSys E) .addAssign false true a b := by
    intro n
    cases n with
    | zero => rfl
    | succ n => exact loop n
  cases o <;> cases r <;> cases s <;> first
    | exact (Bool.false_ne_true h).elim
    | (refine absurd ?_ hs; decide)
    | exact .inl ⟨rfl, returns_of fun _ => rfl⟩
    | exact .inr (.inl ⟨.inl rfl, returns_of fun _ => rfl⟩)
    | exact .inr (.inl ⟨.inr rfl, returns_of fun _ => rfl⟩)
    | exact .inr (.inr ⟨.inl rfl, loop⟩)
    | exact .inr (.inr ⟨.inr rfl, loop'⟩)

/-! ### The target group -/

theorem gt_run {O : Type} (mul : O → O → O) (conj : O → O) {a b : O} {o : Op} {r s : Bool} (h : Exists (conjSys mul conj) o r s a b) :
    Returns (conjSys mul conj) o r s a b (byValue mul (fun a b => mul a (conj b)) mul conj o a b) := by
  apply returns_of
  intro n
  cases o <;> cases r <;> cases s <;> first
    | rfl
    | exact (Bool.false_ne_true h).elim

/-- What an operator means in the target group, written additively; `*` is the same as `+`. -/
def gtMeaning {G : Type} [Group G] : Op → G → G → G
  | .add, a, b | .addAssign, a, b | .mul, a, b | .mulAssign, a, b => a * b
  | .sub, a, b | .subAssign, a, b => a / b
  | .neg, a, _ => a⁻¹

/-- **C99, the target group.** On roots of unity of the order of G1, every variant is the group operation. -/
theorem C99_gt {u v : (Fq12 FqV)ˣ} (hu : u ^ frParams.m = 1) (hv : v ^ frParams.m = 1) {o : Op} {r s : Bool}
    (h : Exists gtSys o r s (u : Fq12 FqV) (v : Fq12 FqV)) :
    Returns gtSys o r s (u : Fq12 FqV) (v : Fq12 FqV) ((gtMeaning o u v : (Fq12 FqV)ˣ) : Fq12 FqV) := by
  have conj : ∀ w : (Fq12 FqV)ˣ, w ^ frParams.m = 1 → (w : Fq12 FqV).conjugate = ((w⁻¹ : (Fq12 FqV)ˣ) : Fq12 FqV) := by
    intro w hw
    have h1 : gtAdd (w : Fq12 FqV) (gtNeg (w : Fq12 FqV)) = gtIdentity :=
      gtNeg_spec (by rw [← Units.val_pow_eq_pow_val, hw, Units.val_one])
    exact (Units.inv_eq_of_mul_eq_one_right (u := w) h1).symm
  have m : byValue (· * ·) (fun a b : Fq12 FqV => a * b.conjugate) (· * ·) Fq12.conjugate o (u : Fq12 FqV) (v : Fq12 FqV) =
      ((gtMeaning o u v : (Fq12 FqV)ˣ) : Fq12 FqV) := by
    have m2 : ((u / v : (Fq12 FqV)ˣ) : Fq12 FqV) = (u : Fq12 FqV) * (v : Fq12 FqV).conjugate := by
      rw [conj v hv, div_eq_mul_inv, Units.val_mul]
    cases o <;> simp only [byValue, gtMeaning, Units.val_mul, m2, conj u hu]
  rw [← m]
  exact gt_run _ _ h

/-! ### Rows -/

/-- What an operator means on the values of two rows, or of a row and a coefficient. -/
def rowMeaning {F : Type} [Field F] : Op → F → F → F
  | .add, a, b | .addAssign, a, b => a + b
  | .sub, a, b | .subAssign, a, b => a - b
  | .mul, a, b | .mulAssign, a, b => a * b
  | .neg, a, _ => -a

/-- The object is a row built by the API whose value is `v`, or it is the coefficient `v`. -/
def RowHas {F : Type} [Field F] [DecidableEq F] (x w : List F) : RowObj F → F → Prop
  | .row r, v => ApiRow r ∧ r.evaluate x w = some v
  | .coeff c, v => c = v

/-- **C99, rows.** Every variant of the operators of rows is linear on their values. -/
theorem C99_rows {F : Type} [Field F] [DecidableEq F] {x w : List F} {a b : RowObj F} {va vb : F} (ha : RowHas x w a va) (hb : RowHas x w b vb)
    {o : Op} {r s : Bool} (h : Exists (rowSys F) o r s a b) :
    ∃ c : Row F, Returns (rowSys F) o r s a b (.row c) ∧ RowHas x w (.row c) (rowMeaning o va vb) := by
  rcases a with a | a <;> rcases b with b | b <;> cases o <;> cases r <;> cases s <;> first
    | exact (Bool.false_ne_true h).elim
    | exact ⟨a.add b, returns_of fun _ => rfl, .add ha.1 hb.1, (C30_linear ha.1 hb.1 ha.2 hb.2 0).1⟩
    | exact ⟨a.sub b, returns_of fun _ => rfl, .sub ha.1 hb.1, (C30_linear ha.1 hb.1 ha.2 hb.2 0).2.1⟩
    | exact ⟨a.neg, returns_of fun _ => rfl, .neg ha.1, (C30_linear ha.1 ha.1 ha.2 ha.2 0).2.2.1⟩
    | (obtain rfl : b = vb := hb
       exact ⟨a.smul b, returns_of fun _ => rfl, .smul b ha.1, (C30_linear ha.1 ha.1 ha.2 ha.2 b).2.2.2⟩)

/-! ### Points -/

section
variable {F : Type} [Field F] [DecidableEq F] {b : F} {S : FieldParams}

/-- What an object stands for: a point of the curve or a natural number. -/
def PtHas (b : F) (S : FieldParams) : PtObj (Aff F) (Proj F) L4 → (curve b).Point ⊕ Nat → Prop
  | .aff p, .inl P => AffRep b p P
  | .proj p, .inl P => ProjRep b p P
  | .scal k, .inr n => Canonical S k ∧ value S k = n
  | _, _ => False

/-- What an operator means on points and numbers. -/
def ptMeaning : Op → (curve b).Point ⊕ Nat → (curve b).Point ⊕ Nat → Option (curve b).Point
  | .add, .inl P, .inl Q | .addAssign, .inl P, .inl Q => some (P + Q)
  | .sub, .inl P, .inl Q | .subAssign, .inl P, .inl Q => some (P - Q)
  | .mul, .inl P, .inr n | .mulAssign, .inl P, .inr n | .mul, .inr n, .inl P => some (n • P)
  | .neg, .inl P, _ => some (-P)
  | _, _, _ => none

/-- The variants that fail: an affine minus a projective point, one of them by reference, and adding to a reference. -/
def PtWrong {A J K : Type} (o : Op) (r s : Bool) (a c : PtObj A J K) : Prop :=
  (o = .sub ∧ (∃ p q, a = .aff p ∧ c = .proj q) ∧ (r = true ∨ s = true)) ∨ (o = .addAssign ∧ r = true)

/-- The operators by value. -/
def ptByValue {A J K : Type} (f : PtFns A J K) : Op → PtObj A J K → PtObj A J K → Option (PtObj A J K)
  | .add, .aff p, .aff q => some (.proj (f.addAffine p q))
  | .add, .aff p, .proj q => some (.proj (f.addMixed p q))
  | .add, .proj p, .aff q | .addAssign, .proj p, .aff q => some (.proj (f.addMixed q p))
  | .add, .proj p, .proj q | .addAssign, .proj p, .proj q => some (.proj (f.addProj p q))
  | .sub, .aff p, .aff q => some (.proj (f.addAffine p (f.negA q)))
  | .sub, .aff p, .proj q => some (.proj (f.addMixed p (f.negJ q)))
  | .sub, .proj p, .aff q | .subAssign, .proj p, .aff q => some (.proj (f.addMixed (f.negA q) p))
  | .sub, .proj p, .proj q | .subAssign, .proj p, .proj q => some (.proj (f.addProj p (f.negJ q)))
  | .mul, .aff p, .scal k | .mul, .scal k, .aff p => (f.scalarPoint (f.toExtended p) k).map .proj
  | .mul, .proj p, .scal k | .mul, .scal k, .proj p | .mulAssign, .proj p, .scal k => (f.scalarPoint p k).map .proj
  | .neg, .aff p, _ => some (.aff (f.negA p))
  | .neg, .proj p, _ => some (.proj (f.negJ p))
  | _, _, _ => none

theorem pt_run {A J K : Type} (f : PtFns A J K) {a c d : PtObj A J K} {o : Op} {r s : Bool} (h : Exists (ptSys f) o r s a c)
    (hw : ¬ PtWrong o r s a c) (hd : ptByValue f o a c = some d) : Returns (ptSys f) o r s a c d := by
  have sc : ∀ (p : J) (k : K), (f.scalarPoint p k).map PtObj.proj = some d →
      (ptSys f).fn2 .scalarPoint (.proj p) (.scal k) = .ok d := by
    intro p k hk
    obtain ⟨q, h1, rfl⟩ := Option.map_eq_some_iff.mp hk
    show (match f.scalarPoint p k with | some q => Except.ok (PtObj.proj q) | none => Except.error Stop.panic) = _
    rw [h1]
  have fin : ∀ {x : Except Stop (PtObj A J K)}, x = .ok d → (x.bind fun z => .ok (⟨false, z⟩ : Val (PtObj A J K))) = .ok ⟨false, d⟩ := by
    rintro _ rfl; rfl
  apply returns_of
  intro n
  rcases a with p | p | k <;> rcases c with q | q | l <;> cases o <;> cases r <;> cases s <;> first
    | exact (Bool.false_ne_true h).elim
    | exact congrArg (fun z => Except.ok (⟨false, z⟩ : Val (PtObj A J K))) (Option.some.inj hd)
    | exact fin (sc _ _ hd)
    | exact absurd (.inr ⟨rfl, rfl⟩) hw
    | exact absurd (.inl ⟨rfl, ⟨p, q, rfl, rfl⟩, .inl rfl⟩) hw
    | exact absurd (.inl ⟨rfl, ⟨p, q, rfl, rfl⟩, .inr rfl⟩) hw

/-- **C99, points, the part that holds.** Every other variant of `+`, `-`, `*`, unary `-`, `+=`, `-=` and `*=`, between affine points,
projective points and scalars in either order, is the operation of the group of the curve; none panics. -/
theorem C99_points_partial (h2 : (2 : F) ≠ 0) (hS : ValidParams S) {a c : PtObj (Aff F) (Proj F) L4} {x y : (curve b).Point ⊕ Nat}
    (ha : PtHas b S a x) (hc : PtHas b S c y) {o : Op} {r s : Bool} (h : Exists (pointSys F (b + b + b) S) o r s a c)
    (hw : ¬ PtWrong o r s a c) :
    ∃ (d : PtObj (Aff F) (Proj F) L4) (P : (curve b).Point), ptMeaning o x y = some P ∧ PtHas b S d (.inl P) ∧
      Returns (pointSys F (b + b + b) S) o r s a c d := by
  have key : ∃ (d : PtObj (Aff F) (Proj F) L4) (P : (curve b).Point), ptMeaning o x y = some P ∧ PtHas b S d (.inl P) ∧
      ptByValue (weierstrassFns F (b + b + b) S) o a c = some d := by
    have sc : ∀ {p : Proj F} {P : (curve b).Point} {k : L4} {n : Nat}, ProjRep b p P → Canonical S k ∧ value S k = n →
        ∃ q, ((S.toNafs k).map (scalarPoint (b + b + b) p)).map (PtObj.proj (A := Aff F) (K := L4)) = some (.proj q) ∧ ProjRep b q (n • P) := by
      rintro p P k n hp ⟨hk, rfl⟩
      obtain ⟨nafs, h1, h3⟩ := C22_scalar_mul h2 hS hk hp
      exact ⟨_, by rw [h1]; rfl, h3⟩
    have cm : ∀ {q : Proj F} {X Y : (curve b).Point}, ProjRep b q (Y + X) → ProjRep b q (X + Y) := by
      intro q X Y hq; rw [add_comm]; exact hq
    have sb : ∀ {q : Proj F} {X Y : (curve b).Point}, ProjRep b q (X + -Y) → ProjRep b q (X - Y) := by
      intro q X Y hq; rw [sub_eq_add_neg]; exact hq
    have no : ∀ {Q : Prop}, (∀ r s, ¬ Exists (pointSys F (b + b + b) S) o r s a c) → Q := fun hno => absurd h (hno r s)
    clear h hw
    rcases a with p | p | k <;> rcases c with q | q | l <;> rcases x with X | n <;> rcases y with Y | m <;>
      (try exact ha.elim) <;> (try exact hc.elim) <;> cases o
    all_goals first
      | (refine no fun r s h => ?_; cases r <;> cases s <;> exact Bool.false_ne_true h)
      | exact ⟨.proj _, _, rfl, addAffine_rep h2 ha hc, rfl⟩
      | exact ⟨.proj _, _, rfl, addMixed_rep h2 ha hc, rfl⟩
      | exact ⟨.proj _, _, rfl, addProj_rep h2 ha hc, rfl⟩
      | exact ⟨.proj _, _, rfl, cm (addMixed_rep h2 hc ha), rfl⟩
      | exact ⟨.proj _, _, rfl, sb (addAffine_rep h2 ha (affNeg_rep hc)), rfl⟩
      | exact ⟨.proj _, _, rfl, sb (addMixed_rep h2 ha (neg_rep hc)), rfl⟩
      | exact ⟨.proj _, _, rfl, sb (addProj_rep h2 ha (neg_rep hc)), rfl⟩
      | exact ⟨.proj _, _, rfl, sb (cm (addMixed_rep h2 (affNeg_rep hc) ha)), rfl⟩
      | exact ⟨.aff _, _, rfl, affNeg_rep ha, rfl⟩
      | exact ⟨.proj _, _, rfl, neg_rep ha, rfl⟩
      | exact (sc (toExtended_rep ha) hc).elim fun q e => ⟨.proj q, _, rfl, e.2, e.1⟩
      | exact (sc ha hc).elim fun q e => ⟨.proj q, _, rfl, e.2, e.1⟩
      | exact (sc (toExtended_rep hc) ha).elim fun q e => ⟨.proj q, _, rfl, e.2, e.1⟩
      | exact (sc hc ha).elim fun q e => ⟨.proj q, _, rfl, e.2, e.1⟩
  obtain ⟨d, P, e1, e2, e3⟩ := key
  exact ⟨d, P, e1, e2, pt_run _ h hw e3⟩

/-- **C99, points, refuted.** Taking a projective point by reference from an affine one, or the other way round, adds it; adding to a
reference to a projective point never returns. -/
theorem C99_points_refuted (h2 : (2 : F) ≠ 0) {p : Aff F} {q : Proj F} {P Q : (curve b).Point} (hp : AffRep b p P) (hq : ProjRep b q Q)
    {r s : Bool} (hr : r = true ∨ s = true) :
    (∃ d, Returns (pointSys F (b + b + b) S) .sub r s (.aff p) (.proj q) (.proj d) ∧ ProjRep b d (P + Q)) ∧
      ∀ q', Exists (pointSys F (b + b + b) S) .addAssign true false (.proj q) (.proj q') ∧
        Overflows (pointSys F (b + b + b) S) .addAssign true false (.proj q) (.proj q') := by
  refine ⟨⟨addMixed (b + b + b) p q, ?_, addMixed_rep h2 hp hq⟩, fun q' => ⟨rfl, fun n => ?_⟩⟩
  · intro n hn
    obtain ⟨k, rfl⟩ : ∃ k, n = k + 8 := ⟨n - 8, by omega⟩
    cases r <;> cases s <;> first
      | rfl
      | simp at hr
  · induction n with
    | zero => rfl
    | succ n ih => exact ih

end

/-- **C99, the variants there are.** Sums, differences and negations exist by value and by reference on every side, and so do the
assigning sums and differences from either; products likewise in prime fields, by a coefficient on rows, and between points and
scalars in either order. An extension field has no product of a reference by a value, a target group only products by value, and a
point no negation by reference. -/
theorem C99_present (r s : Bool) :
    (∀ o ∈ [Op.add, .sub, .mul, .neg], (fieldImpl o ⟨r, ()⟩ ⟨s, ()⟩).isSome) ∧
    (∀ o ∈ [Op.addAssign, .subAssign, .mulAssign], (fieldImpl o ⟨r, ()⟩ ⟨s, ()⟩).isSome = !r) ∧
    (∀ o ∈ [Op.add, .sub], (extImpl o ⟨r, ()⟩ ⟨s, ()⟩).isSome) ∧ (extImpl .mul ⟨r, ()⟩ ⟨s, ()⟩).isSome = (!r || s) ∧
    (∀ o ∈ [Op.neg, .addAssign, .subAssign, .mulAssign], (extImpl o ⟨r, ()⟩ ⟨s, ()⟩).isSome = !r) ∧
    (∀ o ∈ [Op.add, .sub, .neg], (gtImpl o ⟨r, ()⟩ ⟨s, ()⟩).isSome) ∧ (gtImpl .mul ⟨r, ()⟩ ⟨s, ()⟩).isSome = (!r && !s) ∧
    (∀ o ∈ [Op.addAssign, .subAssign], (gtImpl o ⟨r, ()⟩ ⟨s, ()⟩).isSome = !r) ∧
    (∀ o ∈ [Op.add, .sub, .neg], (rowImpl o ⟨r, .row⟩ ⟨s, .row⟩).isSome) ∧ (rowImpl .mul ⟨r, .row⟩ ⟨s, .coeff⟩).isSome ∧
    (∀ x ∈ [PtKind.aff, .proj], ∀ y ∈ [PtKind.aff, .proj], ∀ o ∈ [Op.add, .sub], (pointImpl o ⟨r, x⟩ ⟨s, y⟩).isSome) ∧
    (∀ x ∈ [PtKind.aff, .proj], (pointImpl .mul ⟨r, x⟩ ⟨s, .scal⟩).isSome ∧ (pointImpl .mul ⟨r, .scal⟩ ⟨s, x⟩).isSome ∧
      (pointImpl .neg ⟨r, x⟩ ⟨s, x⟩).isSome = !r ∧ (pointImpl .addAssign ⟨r, .proj⟩ ⟨s, x⟩).isSome = (!r || (!s && x = .proj)) ∧
      (pointImpl .subAssign ⟨r, .proj⟩ ⟨s, x⟩).isSome = !r) ∧
    (pointImpl .mulAssign ⟨r, .proj⟩ ⟨s, .scal⟩).isSome = !r := by
  cases r <;> cases s <;> decide

/-! ### Cases -/

/-- `&g - &g` and `g *= &2` in the scalar field of bn254 exist and meet the hypotheses. -/
example {o : Op} (ho : o = .sub ∨ o = .mul) : Exists (fieldSys frParams) o true true frParams.r frParams.r ∧ Canonical frParams frParams.r ∧
    ¬ (o = .neg ∧ true = true) := by
  refine ⟨?_, (by unfold Canonical; decide +kernel), ?_⟩ <;> rcases ho with rfl | rfl <;> first | rfl | simp

/-- Six times seven by value is 42, and by reference it is 13. -/
example : Returns (extSys Int) .mul false false 6 7 42 ∧ Returns (extSys Int) .mul true true 6 7 13 :=
  ⟨C99_ext_partial 6 7 rfl (by decide), returns_of fun _ => rfl⟩

/-- The generator of G1 minus itself by reference is the point at infinity. -/
example : ∃ d, PtHas g1B frParams d (.inl (0 : (curve g1B).Point)) ∧
    Returns (pointSys FqV (g1B + g1B + g1B) frParams) .sub true true (.aff g1Gen) (.aff g1Gen) d := by
  obtain ⟨d, P, h1, h3, h4⟩ := C99_points_partial (S := frParams) (o := .sub) (r := true) (s := true) g1_two frParams_valid
    (a := .aff g1Gen) (c := .aff g1Gen) (x := .inl g1Point) (y := .inl g1Point) g1Gen_rep g1Gen_rep rfl
    (by rintro (⟨-, ⟨p, q, -, h⟩, -⟩ | ⟨h, -⟩) <;> cases h)
  obtain rfl := Option.some.inj h1
  rw [sub_self] at h3
  exact ⟨d, h3, h4⟩

end Kogarashi.Props
