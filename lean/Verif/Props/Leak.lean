import Verif.Curve.Logged
import Verif.Limbs.PowLogged
import Verif.Props.NafWeight

/-!
# Property C116: the operations that scalar multiplication, powers and inverses execute

Which operations are executed, in order, is what an observer of the calls learns.
-/

namespace Kogarashi.Props

open Kogarashi.Limbs Kogarashi.Spec Kogarashi.Field Kogarashi.Curve

variable {F : Type} [_root_.Field F] [DecidableEq F]

/-- Replays a log on the integers, starting from zero. -/
def replay (log : List PointOp) : Int :=
  log.foldl (fun v op => match op with | .double => 2 * v | .add => v + 1 | .sub => v - 1) 0

/-- The calls that add a point. -/
def additions (log : List PointOp) : Nat := log.countP (· ≠ .double)

/-- The calls that double. -/
def doublings (log : List PointOp) : Nat := log.countP (· = .double)

private theorem logged_fst (b3 : F) (p : Proj F) : ∀ (ds : List Naf) (s : Proj F × List PointOp),
    (ds.foldl (loggedStep b3 p) s).1 = ds.foldl (scalarStep b3 p) s.1
  | [], _ => rfl
  | d :: ds, s => by
    rw [List.foldl_cons, List.foldl_cons, logged_fst b3 p ds]
    cases d <;> rfl

/-- The log of some digits. -/
private def logOf : List Naf → List PointOp
  | [] => []
  | .plus :: ds => .double :: .add :: logOf ds
  | .minus :: ds => .double :: .sub :: logOf ds
  | .zero :: ds => .double :: logOf ds

private theorem logged_snd (b3 : F) (p : Proj F) : ∀ (ds : List Naf) (s : Proj F × List PointOp),
    (ds.foldl (loggedStep b3 p) s).2 = s.2 ++ logOf ds
  | [], s => by simp [logOf]
  | d :: ds, s => by
    rw [List.foldl_cons, logged_snd b3 p ds]
    cases d <;> simp [loggedStep, logOf]

private theorem replay_logOf : ∀ (ds : List Naf) (v : Int),
    (logOf ds).foldl (fun v op => match op with | .double => 2 * v | .add => v + 1 | .sub => v - 1) v =
      ds.foldl (fun acc d => 2 * acc + nafDigit d) v
  | [], _ => rfl
  | d :: ds, v => by
    cases d <;> simp only [logOf, List.foldl_cons, replay_logOf ds, nafDigit, add_zero] <;> rfl

private theorem counts : ∀ ds : List Naf, doublings (logOf ds) = ds.length ∧ additions (logOf ds) = nonZeroDigits ds
  | [] => ⟨rfl, rfl⟩
  | d :: ds => by
    obtain ⟨h1, h2⟩ := counts ds
    unfold doublings at h1
    unfold additions nonZeroDigits at h2
    simp only [ne_eq, decide_not] at h2
    unfold doublings additions nonZeroDigits
    cases d <;> simp [logOf, h1, h2]

/-- **C116, what holds.** The logging changes nothing. The operations do not depend on the point nor on the curve: there are
`⌊log₂ 3v⌋` doublings for a scalar `v > 0`, none for zero, and as many additions as the cheapest signed digits of `v` need.
Missing: that they do not depend on the scalar, which is false. -/
theorem C116_operations_partial {P : FieldParams} (hP : ValidParams P) {a : L4} (ha : Canonical P a) :
    ∃ ds log, P.toNafs a = some ds ∧ (∀ (b3 : F) (p : Proj F), scalarPointLogged b3 p ds = (scalarPoint b3 p ds, log)) ∧
      (value P a ≠ 0 → doublings log = Nat.log 2 (3 * value P a)) ∧ (value P a = 0 → log = []) ∧
      (∀ es : List Naf, nafValue es = value P a → additions log ≤ nonZeroDigits es) := by
  obtain ⟨ds, h1, -, h3, h4, -⟩ := C113_length hP ha
  obtain ⟨ds', h1', -, h5⟩ := C113_minimal hP ha
  rw [h1] at h1'
  cases h1'
  refine ⟨ds, logOf ds, h1, fun b3 p => Prod.ext (logged_fst ..) (by simp [scalarPointLogged, logged_snd]), fun h => ?_, fun h => ?_, fun es he => ?_⟩
  · rw [(counts ds).1, h4 h]
  · rw [h3 h]; rfl
  · rw [(counts ds).2]; exact h5 es he

/-- **C116 is false: the operations reveal the scalar.** Replaying the executed operations on the integers gives it back, for every
scalar, point and curve. -/
theorem C116_replay_refuted {P : FieldParams} (hP : ValidParams P) {a : L4} (ha : Canonical P a) (b3 : F) (p : Proj F) :
    ∃ ds, P.toNafs a = some ds ∧ replay (scalarPointLogged b3 p ds).2 = value P a := by
  obtain ⟨ds, h1, h2, -⟩ := C09_naf_partial hP ha
  refine ⟨ds, h1, ?_⟩
  rw [scalarPointLogged, logged_snd, List.nil_append, ← h2]
  exact replay_logOf ds 0

/-- **C116 is false**, as a statement about two runs: they execute the same operations exactly when the scalars are equal. -/
theorem C116_distinguish_refuted {P : FieldParams} (hP : ValidParams P) {a b : L4} (ha : Canonical P a) (hb : Canonical P b)
    (b3 : F) (p q : Proj F) {ds es : List Naf} (h1 : P.toNafs a = some ds) (h2 : P.toNafs b = some es) :
    (scalarPointLogged b3 p ds).2 = (scalarPointLogged b3 q es).2 ↔ value P a = value P b := by
  obtain ⟨ds', e1, r1⟩ := C116_replay_refuted hP ha b3 p
  obtain ⟨es', e2, r2⟩ := C116_replay_refuted hP hb b3 q
  rw [h1] at e1; cases e1
  rw [h2] at e2; cases e2
  constructor
  · intro h
    rw [h, r2] at r1
    exact_mod_cast r1.symm
  · intro h
    obtain ⟨fs, k1, k2, k3⟩ := C09_naf_partial hP hb
    obtain ⟨ds', l, g1, g2, -⟩ := C116_operations_partial (F := F) hP ha
    rw [h1] at g1; cases g1
    have hun := C113_unique hP ha es (by
        rw [h2] at k1; cases k1; rw [k2, h]) (by rw [h2] at k1; cases k1; exact k3) (by
        obtain ⟨fs', m1, m2, -⟩ := C113_length hP hb
        rw [h2] at m1; cases m1; exact m2)
    rw [h1] at hun
    cases hun
    rw [g2 b3 p, g2 b3 q]

/-- The scalars one and two: one doubling and one addition, two doublings and one addition. -/
example (b3 : F) (p : Proj F) : ∃ ds es, frParams.toNafs frParams.one = some ds ∧
    frParams.toNafs (frParams.add frParams.one frParams.one) = some es ∧
    (scalarPointLogged b3 p ds).2 = [.double, .add] ∧ (scalarPointLogged b3 p es).2 = [.double, .add, .double] :=
  ⟨[.plus], [.plus, .zero], by decide +kernel, by decide +kernel, rfl, rfl⟩

example (b3 : F) (p : Proj F) := C116_replay_refuted frParams_valid (a := frParams.one) (by unfold Canonical; decide +kernel) b3 p

/-! ### Powers and inverses -/

/-- Replays the log of an exponentiation on exponents, starting from the power zero. -/
def replayPow (log : List LimbOp) : Nat :=
  log.foldl (fun e op => match op with | .square => 2 * e | .mul => e + 1) 0

private theorem pow_fst (a p : L4) (inv : Nat) : ∀ (bs : List Nat) (s : L4 × List LimbOp),
    (bs.foldl (B256.powStepLogged a p inv) s).1 = bs.foldl (B256.powStep a p inv) s.1
  | [], _ => rfl
  | b :: bs, s => by
    rw [List.foldl_cons, List.foldl_cons, pow_fst a p inv bs]
    unfold B256.powStepLogged B256.powStep
    by_cases h : b = 1 <;> simp only [h, if_true, if_false]

private def powLogOf : List Nat → List LimbOp
  | [] => []
  | b :: bs => if b = 1 then .square :: .mul :: powLogOf bs else .square :: powLogOf bs

private theorem pow_snd (a p : L4) (inv : Nat) : ∀ (bs : List Nat) (s : L4 × List LimbOp),
    (bs.foldl (B256.powStepLogged a p inv) s).2 = s.2 ++ powLogOf bs
  | [], s => by simp [powLogOf]
  | b :: bs, s => by
    rw [List.foldl_cons, pow_snd a p inv bs]
    rw [powLogOf, B256.powStepLogged]
    by_cases h : b = 1 <;> simp only [h, if_true, if_false, List.append_assoc, List.cons_append, List.nil_append]

private theorem replay_powLogOf : ∀ (bs : List Nat) (e : Nat), (∀ b ∈ bs, b = 0 ∨ b = 1) →
    (powLogOf bs).foldl (fun e op => match op with | .square => 2 * e | .mul => e + 1) e =
      bs.foldl (fun acc d => 2 * acc + d) e
  | [], _, _ => rfl
  | b :: bs, e, h => by
    have ih := fun e => replay_powLogOf bs e fun x hx => h x (List.mem_cons_of_mem _ hx)
    rcases h b (by simp) with rfl | rfl
    · simpa [powLogOf] using ih (2 * e)
    · simpa [powLogOf] using ih (2 * e + 1)

private theorem squares_powLogOf : ∀ bs : List Nat, (powLogOf bs).countP (· = .square) = bs.length
  | [] => rfl
  | b :: bs => by
    have := squares_powLogOf bs
    by_cases h : b = 1 <;> simp [powLogOf, h, this]

/-- **C116, inversion.** The field operations that inverting a non-zero element executes are the same for every element: 256
squarings, and multiplications that depend on the modulus only; they replay to the exponent `p - 2`. Zero is answered at once. -/
theorem C116_invert_partial {P : FieldParams} (hP : ValidParams P) :
    ∃ log, (∀ a, a ≠ B256.zero → B256.invertLogged a (B256.littleFermat P.p) P.r P.p P.inv = (P.invert a, log)) ∧
      log.countP (· = .square) = 256 ∧ replayPow log = P.m - 2 ∧
      B256.invertLogged B256.zero (B256.littleFermat P.p) P.r P.p P.inv = (none, []) := by
  obtain ⟨hw, hv⟩ := littleFermat_val hP
  have h2 : 2 < P.m := hP.p_gt_two
  have hne : B256.littleFermat P.p ≠ B256.zero := by
    intro h
    rw [h] at hv
    have e0 : B256.zero.val = 0 := rfl
    omega
  refine ⟨powLogOf (B256.toBits (B256.littleFermat P.p)), fun a ha => ?_, ?_, ?_, ?_⟩
  · unfold B256.invertLogged B256.powLogged FieldParams.invert B256.invert B256.pow
    simp only [if_neg ha, if_neg hne]
    exact Prod.ext (congrArg some (pow_fst ..)) ((pow_snd ..).trans (List.nil_append _))
  · rw [squares_powLogOf, toBits_length]
  · rw [← hv, ← toBits_value hw]
    exact replay_powLogOf _ 0 (toBits_bits _)
  · unfold B256.invertLogged
    rw [if_pos rfl]

/-- **C116 is false of powers**: for a non-zero base the operations of `pow` replay to the exponent. -/
theorem C116_pow_refuted (P : FieldParams) {a : L4} (ha : a ≠ B256.zero) {e : Nat} (he : e < 2 ^ 64) :
    (B256.powLogged a ⟨e, 0, 0, 0⟩ P.r P.p P.inv).1 = P.powU64 a e ∧
      replayPow (B256.powLogged a ⟨e, 0, 0, 0⟩ P.r P.p P.inv).2 = e := by
  have hw : (L4.mk e 0 0 0).Wf := ⟨he, by norm_num, by norm_num, by norm_num⟩
  unfold B256.powLogged FieldParams.powU64 B256.pow
  by_cases h : L4.mk e 0 0 0 = B256.zero
  · rw [if_pos h, if_pos h]
    refine ⟨rfl, ?_⟩
    have : e = 0 := congrArg L4.l0 h
    rw [this]; rfl
  · rw [if_neg h, if_neg h, if_neg ha, if_neg ha]
    refine ⟨pow_fst .., ?_⟩
    rw [pow_snd, List.nil_append]
    have := toBits_value hw
    refine (replay_powLogOf _ 0 (toBits_bits _)).trans (this.trans ?_)
    simp [L4.val]

/-- Inverting one and two executes the same operations; raising to the powers 2 and 3 does not. -/
example : B256.zero ≠ frParams.one ∧
    (B256.invertLogged frParams.one (B256.littleFermat frParams.p) frParams.r frParams.p frParams.inv).2.length > 256 ∧
    (B256.powLogged frParams.one ⟨2, 0, 0, 0⟩ frParams.r frParams.p frParams.inv).2 ≠
      (B256.powLogged frParams.one ⟨3, 0, 0, 0⟩ frParams.r frParams.p frParams.inv).2 :=
  ⟨by decide +kernel, by decide +kernel, by decide +kernel⟩

example := C116_invert_partial frParams_valid

end Kogarashi.Props
