import Verif.Curve.Jubjub
import Verif.Props.Ops
import Verif.Props.Random

/-!
# Property C101: the group of a twisted Edwards curve, its operators and scalar multiplication
-/

namespace Kogarashi.Props

open Kogarashi Limbs Kogarashi.Field Spec Edwards Ops

variable {F : Type} [_root_.Field F] [DecidableEq F] {d : F} {A B C : F × F} {S : FieldParams}

/-- **C101, group.** With `-1` a square and `d` not, the Edwards sum makes the points an abelian group: closed, commutative, associative,
identity `(0, 1)`, inverse of `(x, y)` being `(-x, y)`. -/
theorem C101_group (h2 : (2 : F) ≠ 0) (hi : IsSquare (-1 : F)) (hd : ¬ IsSquare d) (hA : OnEdwards d A) (hB : OnEdwards d B)
    (hC : OnEdwards d C) :
    OnEdwards d (edSum d A B) ∧ edSum d A B = edSum d B A ∧ edSum d (edSum d A B) C = edSum d A (edSum d B C) ∧
      OnEdwards d (0, 1) ∧ edSum d A (0, 1) = A ∧ OnEdwards d (-A.1, A.2) ∧ edSum d A (-A.1, A.2) = (0, 1) := by
  have : Complete d := ⟨h2, hi, hd⟩
  let P : EdPoint d := ⟨A, hA⟩
  refine ⟨(C26_closed h2 hi hd hA hB).2, edSum_comm d A B, edSum_assoc h2 hi hd hA hB hC, on_zero d, ?_, on_neg hA, ?_⟩
  · exact congrArg Subtype.val (add_zero P)
  · exact congrArg Subtype.val (add_neg_cancel P)

theorem edMul_on (h2 : (2 : F) ≠ 0) (hi : IsSquare (-1 : F)) (hd : ¬ IsSquare d) (hA : OnEdwards d A) (n : Nat) : OnEdwards d (edMul d n A) := by
  have : Complete d := ⟨h2, hi, hd⟩
  let P : EdPoint d := ⟨A, hA⟩
  have h := (n • P).2
  rw [EdPoint.nsmul_val] at h
  exact h

/-- **C101, scalar multiplication.** `point * scalar` and `scalar * point`, of extended and of affine points, do not panic and stand for the
canonical value of the scalar times the point. -/
theorem C101_scalar (h2 : (2 : F) ≠ 0) (hi : IsSquare (-1 : F)) (hd : ¬ IsSquare d) (hS : ValidParams S) {k : L4} (hk : Canonical S k)
    (hA : OnEdwards d A) {p : EExt F} (hp : ExtRep p A) :
    ∃ nafs, S.toNafs k = some nafs ∧ ExtRep (Edwards.scalarPoint d p nafs) (edMul d (value S k) A) ∧
      ExtRep (Edwards.scalarPoint d (EAff.toExtended ⟨A.1, A.2⟩) nafs) (edMul d (value S k) A) := by
  have : Complete d := ⟨h2, hi, hd⟩
  obtain ⟨ds, h1, h3, -⟩ := C09_naf_partial hS hk
  let P : EdPoint d := ⟨A, hA⟩
  have key : ∀ {p : EExt F}, ExtRep p A → ExtRep (Edwards.scalarPoint d p ds) (edMul d (value S k) A) := by
    intro p hp
    have := scalarPoint_ext (A := P) hp ds
    rw [h3, natCast_zsmul, EdPoint.nsmul_val] at this
    exact this
  exact ⟨ds, h1, key hp, key ⟨one_ne_zero, by simp [EAff.toExtended], by simp [EAff.toExtended], by simp [EAff.toExtended]⟩⟩

/-- **C101, random points.** They are multiples of the generator by the random scalar, and drawing them does not panic. -/
theorem C101_random (h2 : (2 : F) ≠ 0) (hi : IsSquare (-1 : F)) (hd : ¬ IsSquare d) (hS : ValidParams S) {g : EExt F} (hA : OnEdwards d A)
    (hg : ExtRep g A) {rand : Nat → Nat} (hr : ∀ i, rand i < 2 ^ 64) :
    Canonical S (S.random rand) ∧
    (∃ q, Edwards.randomExt S d g rand = some q ∧ ExtRep q (edMul d (value S (S.random rand)) A)) ∧
    (∃ q, Edwards.randomAff S d ⟨A.1, A.2⟩ rand = some q ∧ (q.x, q.y) = edMul d (value S (S.random rand)) A) := by
  have hk : Canonical S (S.random rand) := (C06_random hS fun i _ => hr i).1
  obtain ⟨nafs, h1, h3, h4⟩ := C101_scalar h2 hi hd hS hk hA hg
  refine ⟨hk, ⟨_, by unfold Edwards.randomExt; rw [h1]; rfl, h3⟩, ?_⟩
  have ha := (C26_structure (d := d) h4 h4).2.2.2.2.2.2.1
  exact ⟨_, by unfold Edwards.randomAff; rw [h1]; exact ha, rfl⟩

/-! ### Operators -/

/-- What an object stands for: a point of the curve or a natural number. -/
def EdHas (d : F) (S : FieldParams) : PtObj (EAff F) (EExt F) L4 → (F × F) ⊕ Nat → Prop
  | .aff p, .inl A => OnEdwards d A ∧ p.x = A.1 ∧ p.y = A.2
  | .proj p, .inl A => OnEdwards d A ∧ ExtRep p A
  | .scal k, .inr n => Canonical S k ∧ value S k = n
  | _, _ => False

/-- What an operator means on points and numbers. -/
def edMeaning (d : F) : Op → (F × F) ⊕ Nat → (F × F) ⊕ Nat → Option (F × F)
  | .add, .inl A, .inl B | .addAssign, .inl A, .inl B => some (edSum d A B)
  | .sub, .inl A, .inl B | .subAssign, .inl A, .inl B => some (edSum d A (-B.1, B.2))
  | .mul, .inl A, .inr n | .mulAssign, .inl A, .inr n | .mul, .inr n, .inl A => some (edMul d n A)
  | .neg, .inl A, _ => some (-A.1, A.2)
  | _, _, _ => none

/-- Sums of affine points through extended ones. -/
def viaExt {A J K : Type} (f : PtFns A J K) : PtFns A J K := { f with addAffine := fun p q => f.addProj (f.toExtended p) (f.toExtended q) }

theorem ed_run {A J K : Type} (f : PtFns A J K) {a c e : PtObj A J K} {o : Op} {r s : Bool} (h : Exists (ptSysOf edwardsImpl f) o r s a c)
    (hw : ¬ PtWrong o r s a c) (hd : ptByValue (viaExt f) o a c = some e) : Returns (ptSysOf edwardsImpl f) o r s a c e := by
  have sc : ∀ (p : J) (k : K), (f.scalarPoint p k).map PtObj.proj = some e →
      (ptSysOf edwardsImpl f).fn2 .scalarPoint (.proj p) (.scal k) = .ok e := by
    intro p k hk
    obtain ⟨q, h1, rfl⟩ := Option.map_eq_some_iff.mp hk
    show (match f.scalarPoint p k with | some q => Except.ok (PtObj.proj q) | none => Except.error Stop.panic) = _
    rw [h1]
  have fin : ∀ {x : Except Stop (PtObj A J K)}, x = .ok e → (x.bind fun z => .ok (⟨false, z⟩ : Val (PtObj A J K))) = .ok ⟨false, e⟩ := by
    rintro _ rfl; rfl
  apply returns_of
  intro n
  rcases a with p | p | k <;> rcases c with q | q | l <;> cases o <;> cases r <;> cases s <;> first
    | exact (Bool.false_ne_true h).elim
    | exact congrArg (fun z => Except.ok (⟨false, z⟩ : Val (PtObj A J K))) (Option.some.inj hd)
    | exact fin (sc _ _ hd)
    | exact absurd (.inr ⟨rfl, rfl⟩) hw
    | exact absurd (.inl ⟨rfl, ⟨p, q, rfl, rfl⟩, .inl rfl⟩) hw
    | exact absurd (.inl ⟨rfl, ⟨p, q, rfl, rfl⟩, .inr rfl⟩) hw

/-- **C101, operators, the part that holds.** Every variant of `+`, `-`, `*`, unary `-`, `+=`, `-=` and `*=`, between affine points, extended
points and scalars in either order, except an affine minus an extended point with one of them by reference, is the operation of the group
of the curve; none panics. -/
theorem C101_ops_partial (h2 : (2 : F) ≠ 0) (hi : IsSquare (-1 : F)) (hd : ¬ IsSquare d) (hS : ValidParams S)
    {a c : PtObj (EAff F) (EExt F) L4} {x y : (F × F) ⊕ Nat} (ha : EdHas d S a x) (hc : EdHas d S c y) {o : Op} {r s : Bool}
    (h : Exists (edwardsSys F d S) o r s a c) (hw : ¬ PtWrong o r s a c) :
    ∃ (e : PtObj (EAff F) (EExt F) L4) (P : F × F), edMeaning d o x y = some P ∧ EdHas d S e (.inl P) ∧
      Returns (edwardsSys F d S) o r s a c e := by
  have key : ∃ (e : PtObj (EAff F) (EExt F) L4) (P : F × F), edMeaning d o x y = some P ∧ EdHas d S e (.inl P) ∧
      ptByValue (viaExt (edwardsFns F d S)) o a c = some e := by
    have te : ∀ {p : EAff F} {A : F × F}, OnEdwards d A ∧ p.x = A.1 ∧ p.y = A.2 → OnEdwards d A ∧ ExtRep p.toExtended A := by
      rintro ⟨u, v⟩ ⟨x, y⟩ ⟨h, rfl, rfl⟩
      exact ⟨h, one_ne_zero, by simp [EAff.toExtended], by simp [EAff.toExtended], by simp [EAff.toExtended]⟩
    have na : ∀ {p : EAff F} {A : F × F}, OnEdwards d A ∧ p.x = A.1 ∧ p.y = A.2 →
        OnEdwards d (-A.1, A.2) ∧ p.neg.x = (-A.1, A.2).1 ∧ p.neg.y = (-A.1, A.2).2 := by
      rintro ⟨u, v⟩ ⟨x, y⟩ ⟨h, rfl, rfl⟩
      exact ⟨on_neg h, rfl, rfl⟩
    have ne : ∀ {p : EExt F} {A : F × F}, OnEdwards d A ∧ ExtRep p A → OnEdwards d (-A.1, A.2) ∧ ExtRep p.neg (-A.1, A.2) :=
      fun h => ⟨on_neg h.1, neg_ext h.2⟩
    have ee : ∀ {p q : EExt F} {A B : F × F}, OnEdwards d A ∧ ExtRep p A → OnEdwards d B ∧ ExtRep q B →
        OnEdwards d (edSum d A B) ∧ ExtRep (addExt d p q) (edSum d A B) :=
      fun h k => ⟨(C26_closed h2 hi hd h.1 k.1).2, C26_add_extended h2 hi hd h.1 k.1 h.2 k.2⟩
    have ae : ∀ {p : EAff F} {q : EExt F} {A B : F × F}, OnEdwards d A ∧ p.x = A.1 ∧ p.y = A.2 → OnEdwards d B ∧ ExtRep q B →
        OnEdwards d (edSum d A B) ∧ ExtRep (addMixed d p q) (edSum d A B) := by
      rintro ⟨u, v⟩ q ⟨x, y⟩ B ⟨h, rfl, rfl⟩ k
      exact ⟨(C26_closed h2 hi hd h k.1).2, C26_add_mixed h2 hi hd h k.1 k.2⟩
    have ea : ∀ {p : EAff F} {q : EExt F} {A B : F × F}, OnEdwards d A ∧ p.x = A.1 ∧ p.y = A.2 → OnEdwards d B ∧ ExtRep q B →
        OnEdwards d (edSum d B A) ∧ ExtRep (addMixed d p q) (edSum d B A) := by
      intro p q A B h k
      rw [edSum_comm]
      exact ae h k
    have sc : ∀ {p : EExt F} {A : F × F} {k : L4} {n : Nat}, OnEdwards d A ∧ ExtRep p A → Canonical S k ∧ value S k = n →
        ∃ q, ((S.toNafs k).map (Edwards.scalarPoint d p)).map (PtObj.proj (A := EAff F) (K := L4)) = some (.proj q) ∧
          (OnEdwards d (edMul d n A) ∧ ExtRep q (edMul d n A)) := by
      rintro p A k n ⟨hA, hp⟩ ⟨hk, rfl⟩
      obtain ⟨nafs, h1, h3, -⟩ := C101_scalar h2 hi hd hS hk hA hp
      exact ⟨_, by rw [h1]; rfl, edMul_on h2 hi hd hA _, h3⟩
    have no : ∀ {Q : Prop}, (∀ r s, ¬ Exists (edwardsSys F d S) o r s a c) → Q := fun hno => absurd h (hno r s)
    clear h hw
    rcases a with p | p | k <;> rcases c with q | q | l <;> rcases x with X | n <;> rcases y with Y | m <;>
      (try exact ha.elim) <;> (try exact hc.elim) <;> cases o
    all_goals first
      | (refine no fun r s h => ?_; cases r <;> cases s <;> exact Bool.false_ne_true h)
      | exact ⟨.proj _, _, rfl, ee (te ha) (te hc), rfl⟩
      | exact ⟨.proj _, _, rfl, ae ha hc, rfl⟩
      | exact ⟨.proj _, _, rfl, ee ha hc, rfl⟩
      | exact ⟨.proj _, _, rfl, ea hc ha, rfl⟩
      | exact ⟨.proj _, _, rfl, ee (te ha) (te (na hc)), rfl⟩
      | exact ⟨.proj _, _, rfl, ae ha (ne hc), rfl⟩
      | exact ⟨.proj _, _, rfl, ee ha (ne hc), rfl⟩
      | exact ⟨.proj _, _, rfl, ea (na hc) ha, rfl⟩
      | exact ⟨.aff _, _, rfl, na ha, rfl⟩
      | exact ⟨.proj _, _, rfl, ne ha, rfl⟩
      | exact (sc (te ha) hc).elim fun q e => ⟨.proj q, _, rfl, e.2, e.1⟩
      | exact (sc ha hc).elim fun q e => ⟨.proj q, _, rfl, e.2, e.1⟩
      | exact (sc (te hc) ha).elim fun q e => ⟨.proj q, _, rfl, e.2, e.1⟩
      | exact (sc hc ha).elim fun q e => ⟨.proj q, _, rfl, e.2, e.1⟩
  obtain ⟨e, P, e1, e2, e3⟩ := key
  exact ⟨e, P, e1, e2, ed_run _ h hw e3⟩

/-- **C101, operators, refuted.** Taking an extended point from an affine one, either of them by reference, adds it: the result is right only
if the subtrahend is its own inverse. -/
theorem C101_ops_refuted (h2 : (2 : F) ≠ 0) (hi : IsSquare (-1 : F)) (hd : ¬ IsSquare d) (hA : OnEdwards d A) (hB : OnEdwards d B)
    {q : EExt F} (hq : ExtRep q B) {r s : Bool} (hr : r = true ∨ s = true) :
    ∃ e, Returns (edwardsSys F d S) .sub r s (.aff ⟨A.1, A.2⟩) (.proj q) (.proj e) ∧ ExtRep e (edSum d A B) ∧
      (B.1 ≠ 0 → ¬ ExtRep e (edSum d A (-B.1, B.2))) := by
  have : Complete d := ⟨h2, hi, hd⟩
  have hrep := C26_add_mixed h2 hi hd hA hB hq
  refine ⟨addMixed d ⟨A.1, A.2⟩ q, ?_, hrep, fun h0 h => ?_⟩
  · intro n hn
    obtain ⟨k, rfl⟩ : ∃ k, n = k + 8 := ⟨n - 8, by omega⟩
    cases r <;> cases s <;> first
      | rfl
      | simp at hr
  · have e : edSum d A B = edSum d A (-B.1, B.2) := by
      obtain ⟨z0, z1, z2, -⟩ := hrep
      obtain ⟨-, w1, w2, -⟩ := h
      exact Prod.ext (mul_right_cancel₀ z0 (z1.symm.trans w1)) (mul_right_cancel₀ z0 (z2.symm.trans w2))
    let P : EdPoint d := ⟨A, hA⟩
    let Q : EdPoint d := ⟨B, hB⟩
    have e' : P + Q = P + -Q := Subtype.ext e
    have e2 := congrArg (fun P : EdPoint d => P.1.1) (add_left_cancel e')
    have e3 : B.1 = -B.1 := e2
    exact (mul_ne_zero h2 h0) (by linear_combination e3)

/-! ### The hypotheses can be met -/

/-- The test curve: prime field, valid constants, complete, generator on the curve and not the identity, auxiliary coordinate right. -/
theorem C101_jubjub : blsScalar.m.Prime ∧ ValidParams blsScalar ∧ (2 : BlsV) ≠ 0 ∧ IsSquare (-1 : BlsV) ∧ ¬ IsSquare jubjubD ∧
    OnEdwards jubjubD (jubjubGen.x, jubjubGen.y) ∧ ExtRep jubjubGenExt (jubjubGen.x, jubjubGen.y) ∧ jubjubGen.x ≠ 0 := by
  refine ⟨blsScalar_prime, blsScalar_valid, bls_two, bls_negOne, jubjub_nonsquare, jubjub_on,
    ⟨one_ne_zero, (mul_one _).symm, (mul_one _).symm, ?_⟩, ?_⟩
  · rw [show jubjubGenExt.z = 1 from rfl, mul_one]; exact jubjub_t
  · intro h
    have := (ZMod.natCast_eq_zero_iff _ blsScalar.m).mp h
    revert this
    decide +kernel

/-- On the test curve: twice the generator by reference, and a difference that is a sum. -/
example : (∃ e P, edMeaning jubjubD .add (.inl (jubjubGen.x, jubjubGen.y)) (.inl (jubjubGen.x, jubjubGen.y)) = some P ∧
      EdHas jubjubD blsScalar e (.inl P) ∧ Returns (edwardsSys BlsV jubjubD blsScalar) .add true true (.aff jubjubGen) (.proj jubjubGenExt) e) ∧
    ∃ e, Returns (edwardsSys BlsV jubjubD blsScalar) .sub true true (.aff jubjubGen) (.proj jubjubGenExt) (.proj e) ∧
      ¬ ExtRep e (edSum jubjubD (jubjubGen.x, jubjubGen.y) (-jubjubGen.x, jubjubGen.y)) := by
  obtain ⟨-, hS, h2, hi, hd, on, ext, x0⟩ := C101_jubjub
  constructor
  · exact C101_ops_partial h2 hi hd hS (a := .aff jubjubGen) (c := .proj jubjubGenExt) (x := .inl (jubjubGen.x, jubjubGen.y))
      (y := .inl (jubjubGen.x, jubjubGen.y)) ⟨on, rfl, rfl⟩ ⟨on, ext⟩ rfl (by rintro (⟨h, -⟩ | ⟨h, -⟩) <;> cases h)
  · obtain ⟨e, h1, -, h3⟩ := C101_ops_refuted (S := blsScalar) h2 hi hd on on ext (r := true) (s := true) (.inl rfl)
    exact ⟨e, h1, h3 x0⟩

end Kogarashi.Props
