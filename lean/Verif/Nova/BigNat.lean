import Verif.Nova.Doubles
import Verif.Nova.Transcript
import Mathlib.Data.Nat.Log

/-!
# Model: the big-integer gadget (`nova/src/gadget/big_nat.rs`)

`nb` is `C::NUM_BITS` of the driver.  `num_bigint::BigInt` is `Int`; its `/` truncates.
-/

namespace Kogarashi

/-- Native code that may panic, inside circuit-building code. -/
def Circ.lift {F α : Type} (o : Option α) : Circ F α := fun cs => o.map (fun a => (a, cs))

namespace Nova

/-- `big_nat.rs:68-73` `BigNatAssignment { limbs, params }` with `big_nat.rs:75-81` `BigNatParams` inlined. -/
structure BigNat (F : Type) where
  limbs : List (Row F)
  minBits : Nat
  maxWord : Int
  limbWidth : Nat
  nLimbs : Nat

variable {p : Nat} [Fact p.Prime]

open Circ

/-- The loop allocating one witness per value, `big_nat.rs:102-104` (the vector of constants it overwrites has
the length of `limb_values`). -/
def witList {F : Type} [Field F] [DecidableEq F] : List F → Circ F (List (Row F))
  | [] => pure []
  | v :: vs => do
    let r ← wit v
    let rs ← witList vs
    pure (r :: rs)

/-- `big_nat.rs:95-111` `witness_from_big_int`. -/
def bnWitness (num : Int) (w k : Nat) : Circ (ZMod p) (BigNat (ZMod p)) := do
  let vs ← lift (natToLimbs num w k)
  let limbs ← witList vs
  pure ⟨limbs, 0, 2 ^ w - 1, w, k⟩

/-- The bit vectors of the limbs, most significant limb first, `big_nat.rs:169-180`. -/
def decomposeLoop (nb w : Nat) : List (Row (ZMod p)) → Circ (ZMod p) (List Bin)
  | [] => pure []
  | r :: rs => do
    let bv ← toBits nb r w
    let rest ← decomposeLoop nb w rs
    pure (bv ++ rest)

/-- `big_nat.rs:164-181` `decompose`. -/
def bnDecompose (nb : Nat) (a : BigNat (ZMod p)) : Circ (ZMod p) (List Bin) :=
  decomposeLoop nb a.limbWidth a.limbs.reverse

/-- `big_nat.rs:116-131` `witness_from_field_assignment`. -/
def bnOfField (nb : Nat) (f : Row (ZMod p)) (w k : Nat) : Circ (ZMod p) (BigNat (ZMod p)) := do
  let v ← value f
  let a ← bnWitness (fToNat v) w k
  let bv ← bnDecompose nb a
  enforceEqBits f bv
  pure a

/-- The loop of `big_nat.rs:145-150` `enforce_well_formed`. -/
def wellFormedLoop (nb w : Nat) : List (Row (ZMod p)) → Circ (ZMod p) Unit
  | [] => pure ()
  | r :: rs => do
    let bits ← toBits nb r 256
    rangeCheckBits bits w
    wellFormedLoop nb w rs

/-- `big_nat.rs:145-150` `enforce_well_formed`. -/
def bnWellFormed (nb : Nat) (a : BigNat (ZMod p)) : Circ (ZMod p) Unit := wellFormedLoop nb a.limbWidth a.limbs

/-- Values of a list of rows. -/
def valueList {F : Type} [Field F] [DecidableEq F] : List (Row F) → Circ F (List F)
  | [] => pure []
  | r :: rs => do
    let v ← value r
    let vs ← valueList rs
    pure (v :: vs)

/-- `big_nat.rs:152-157` `value`. -/
def bnValue (a : BigNat (ZMod p)) : Circ (ZMod p) Int := do
  let vs ← valueList a.limbs
  pure (limbsToNat vs a.limbWidth)

/-- The loop of `conditional_select`, `big_nat.rs:198-200`. -/
def selectLoop {F : Type} [Field F] [DecidableEq F] (cond : Bin) : List (Row F × Row F) → Circ F (List (Row F))
  | [] => pure []
  | (a, b) :: rest => do
    let r ← conditionalSelect a b cond
    let rs ← selectLoop cond rest
    pure (r :: rs)

/-- `big_nat.rs:190-206` `conditional_select`. -/
def bnSelect (a b : BigNat (ZMod p)) (cond : Bin) : Circ (ZMod p) (BigNat (ZMod p)) :=
  if a.limbs.length = b.limbs.length then do
    let limbs ← selectLoop cond (a.limbs.zip b.limbs)
    pure { a with limbs := limbs }
  else failure

/-- The loop of `group_limbs`, `big_nat.rs:421-429`; `acc` is the vector `limbs`. -/
def groupLoop (g : Nat) (block : Row (ZMod p)) : Nat → List (Row (ZMod p)) → Row (ZMod p) → List (Row (ZMod p)) →
    Circ (ZMod p) (List (Row (ZMod p)))
  | _, [], _, acc => pure acc
  | i, l :: ls, shift, acc => do
    let shift := if i % g = 0 then const 1 else shift
    let m ← mul shift l
    let shift' ← mul shift block
    groupLoop g block (i + 1) ls shift' (acc.modify (i / g) (fun r => Row.add r m))

/-- `big_nat.rs:412-444` `group_limbs`; `self.limbs.len() - 1` underflows on an empty vector and the divisions
panic when `limbs_per_group` is zero. -/
def bnGroup (a : BigNat (ZMod p)) (g : Nat) : Circ (ZMod p) (BigNat (ZMod p)) :=
  if g = 0 ∨ a.limbs = [] then failure
  else do
    let n : Nat := (a.limbs.length - 1) / g + 1
    let block ← wit (2 ^ a.limbWidth)
    let limbs ← groupLoop g block 0 a.limbs (const 1) (List.replicate n (const 0))
    pure ⟨limbs, a.minBits, ((List.range g).map (fun i => (2 : Int) ^ (i * a.limbWidth))).sum * a.maxWord,
      a.limbWidth * g, n⟩

/-- The loop of `enforce_equal_when_carried`, `big_nat.rs:241-280`, over the zipped limbs. -/
def carryLoop (nb w : Nat) (maxWord : Int) (cb : Nat) : List (Row (ZMod p) × Row (ZMod p)) → Row (ZMod p) → Int →
    Circ (ZMod p) Unit
  | [], _, _ => pure ()
  | (a, b) :: rest, carryIn, extra => do
    let va ← value a
    let vc ← value carryIn
    let vb ← value b
    let cv ← lift (natToF (Int.tdiv (fToNat va + fToNat vc + maxWord - fToNat vb) (2 ^ w)))
    let carry ← wit cv
    let extra := extra + maxWord
    let bv ← lift (natToF (2 ^ w))
    let base ← wit bv
    let target ← mul base carry
    let ev ← lift (natToF (Int.tmod extra (2 ^ w)))
    let accumulated ← wit ev
    let mv ← lift (natToF maxWord)
    let mw ← wit mv
    enforceEqConstant (Row.sub (Row.sub (Row.add (Row.sub (Row.add carryIn a) b) mw) target) accumulated) 0
    let extra := Int.tdiv extra (2 ^ w)
    match rest with
    | _ :: _ => do
      let bits ← toBits nb carry 256
      rangeCheckBits bits cb
    | [] => do
      let xv ← lift (natToF extra)
      let x ← wit xv
      enforceEqConstant (Row.sub carry x) 0
    carryLoop nb w maxWord cb rest carry extra

/-- The two final loops of `enforce_equal_when_carried`, `big_nat.rs:282-288`. -/
def zeroLoop {F : Type} [Field F] [DecidableEq F] : List (Row F) → Circ F Unit
  | [] => pure ()
  | r :: rs => do
    enforceEqConstant r 0
    zeroLoop rs

/-- `big_nat.rs:224-289` `enforce_equal_when_carried`; `fp` is the `carry_bits` of the machine. -/
def bnEqualCarried (fp : CarryBits) (nb : Nat) (a b : BigNat (ZMod p)) : Circ (ZMod p) Unit :=
  if a.limbWidth = b.limbWidth then do
    let n : Nat := min a.limbs.length b.limbs.length
    let maxWord := max a.maxWord b.maxWord
    carryLoop nb a.limbWidth maxWord (fp.bits maxWord a.limbWidth) (a.limbs.zip b.limbs) (const 0) 0
    zeroLoop (a.limbs.drop n)
    zeroLoop (b.limbs.drop n)
  else failure

/-- `big_nat.rs:208-222` `enforce_equal_when_carried_regroup`; `usize` subtraction panics on underflow. -/
def bnEqualRegroup (fp : CarryBits) (nb : Nat) (a b : BigNat (ZMod p)) : Circ (ZMod p) Unit :=
  let maxWord := max a.maxWord b.maxWord
  let cb := fp.bits maxWord a.limbWidth
  if a.limbWidth = b.limbWidth ∧ 1 ≤ nb ∧ cb ≤ nb - 1 ∧ a.limbWidth ≠ 0 then do
    let g : Nat := (nb - 1 - cb) / a.limbWidth
    let a' ← bnGroup a g
    let b' ← bnGroup b g
    bnEqualCarried fp nb a' b'
  else failure

/-- Inner product loop of `Polynomial::mul`, `big_nat.rs:464-467`. -/
def mulInner {F : Type} [Field F] [DecidableEq F] (a : Row F) : Nat → List (Row F) → List (Row F) →
    Circ F (List (Row F))
  | _, [], prod => pure prod
  | k, b :: bs, prod => do
    let m ← mul a b
    mulInner a (k + 1) bs (prod.modify k (fun r => Row.add r m))

/-- Outer product loop of `Polynomial::mul`, `big_nat.rs:463-468`. -/
def mulOuter {F : Type} [Field F] [DecidableEq F] (bs : List (Row F)) : Nat → List (Row F) → List (Row F) →
    Circ F (List (Row F))
  | _, [], prod => pure prod
  | i, a :: as, prod => do
    let prod ← mulInner a i bs prod
    mulOuter bs (i + 1) as prod

/-- The evaluation folds of `Polynomial::mul`, `big_nat.rs:474-500`. -/
def evalRow {F : Type} [Field F] [DecidableEq F] (x : F) : List (Row F) → F → Row F → Circ F (Row F)
  | [], _, acc => pure acc
  | c :: cs, i, acc => do
    let m ← mul c (const i)
    evalRow x cs (i * x) (Row.add acc m)

/-- The checking loop of `Polynomial::mul`, `big_nat.rs:472-503`. -/
def mulCheck {F : Type} [Field F] [DecidableEq F] (as bs cs : List (Row F)) : Nat → F → Circ F Unit
  | 0, _ => pure ()
  | n + 1, x => do
    let x := x + 1
    let a ← evalRow x as 1 (const 0)
    let b ← evalRow x bs 1 (const 0)
    let c ← evalRow x cs 1 (const 0)
    let ab ← mul a b
    enforceEq ab c
    mulCheck as bs cs n x

/-- `big_nat.rs:456-507` `Polynomial::mul`; the length underflows when both vectors are empty. -/
def polyMul {F : Type} [Field F] [DecidableEq F] (as bs : List (Row F)) : Circ F (List (Row F)) :=
  if as.length + bs.length = 0 then failure
  else do
    let n : Nat := as.length + bs.length - 1
    let prod ← mulOuter bs 0 as (List.replicate n (const 0))
    mulCheck as bs prod n 0
    pure prod

/-- The row at index `i` added to `s` if the vector is long enough. -/
def addAt {F : Type} [Field F] [DecidableEq F] (s : Row F) (l : List (Row F)) (i : Nat) : Row F :=
  match l[i]? with
  | some r => Row.add s r
  | none => s

/-- `big_nat.rs:509-525` `Polynomial::add`. -/
def polyAdd {F : Type} [Field F] [DecidableEq F] (as bs : List (Row F)) : List (Row F) :=
  (List.range (max as.length bs.length)).map (fun i => addAt (addAt (const 0) as i) bs i)

/-- `big_nat.rs:446-448` `n_bits`. -/
def bnBits (a : BigNat (ZMod p)) : Nat := limbWidth * (nLimbs - 1) + Nat.size a.maxWord.natAbs

/-- `right_max_word` of `big_nat.rs:333-339` and `big_nat.rs:400-406`. -/
def rightMaxWord (q m r : BigNat (ZMod p)) : Int :=
  (min q.limbs.length m.limbs.length : Nat) * q.maxWord * m.maxWord + r.maxWord

/-- `from_poly`, `big_nat.rs:133-143`. -/
def bnOfPoly (limbs : List (Row (ZMod p))) (w : Nat) (maxWord : Int) : BigNat (ZMod p) :=
  ⟨limbs, 0, maxWord, w, limbs.length⟩

/-- `big_nat.rs:291-346` `mult_mod`; division by a zero modulus panics. -/
def bnMultMod (fp : CarryBits) (nb : Nat) (a b m : BigNat (ZMod p)) : Circ (ZMod p) (BigNat (ZMod p)) :=
  if a.limbWidth = b.limbWidth ∧ a.limbWidth ≠ 0 then do
    let quotientLimbs : Nat := (bnBits a + bnBits b - m.minBits - 1) / a.limbWidth + 1
    let va ← bnValue a
    let vb ← bnValue b
    let vm ← bnValue m
    let _ ← lift (if vm = 0 then none else some ())
    let q ← bnWitness (Int.tdiv (va * vb) vm) a.limbWidth quotientLimbs
    bnWellFormed nb q
    let r ← bnWitness (Int.tmod (va * vb) vm) a.limbWidth m.limbs.length
    bnWellFormed nb r
    let left ← polyMul a.limbs b.limbs
    let rp ← polyMul q.limbs m.limbs
    let right := polyAdd rp r.limbs
    let leftMax : Int := (min a.limbs.length b.limbs.length : Nat) * a.maxWord * b.maxWord
    bnEqualRegroup fp nb (bnOfPoly left a.limbWidth leftMax) (bnOfPoly right a.limbWidth (rightMaxWord q m r))
    pure r
  else failure

/-- One limb of `add`, `big_nat.rs:353-358`; the `(None, None)` arm is unreachable when `n_limbs` are the vector
lengths. -/
def addLimb {F : Type} [Field F] [DecidableEq F] (as bs : List (Row F)) (i : Nat) : Option (Row F) :=
  match as[i]?, bs[i]? with
  | some a, some b => some (Row.add a b)
  | some a, none => some a
  | none, some b => some b
  | none, none => none

/-- `big_nat.rs:348-369` `add`. -/
def bnAdd (a b : BigNat (ZMod p)) : Option (BigNat (ZMod p)) :=
  if a.limbWidth = b.limbWidth then do
    let n : Nat := max a.nLimbs b.nLimbs
    let limbs ← (List.range n).mapM (addLimb a.limbs b.limbs)
    some ⟨limbs, max a.minBits b.minBits, a.maxWord + b.maxWord, a.limbWidth, n⟩
  else none

/-- `big_nat.rs:371-410` `red_mod`. -/
def bnRedMod (fp : CarryBits) (nb : Nat) (a m : BigNat (ZMod p)) : Circ (ZMod p) (BigNat (ZMod p)) :=
  if a.limbWidth = m.limbWidth ∧ a.limbWidth ≠ 0 then do
    let quotientLimbs : Nat := (bnBits a - m.minBits - 1) / a.limbWidth + 1
    let va ← bnValue a
    let vm ← bnValue m
    let _ ← lift (if vm = 0 then none else some ())
    let q ← bnWitness (Int.tdiv va vm) a.limbWidth quotientLimbs
    bnWellFormed nb q
    let r ← bnWitness (Int.tmod va vm) a.limbWidth m.limbs.length
    bnWellFormed nb r
    let rp ← polyMul q.limbs m.limbs
    let right := polyAdd rp r.limbs
    bnEqualRegroup fp nb a (bnOfPoly right a.limbWidth (rightMaxWord q m r))
    pure r
  else failure

end Nova

end Kogarashi
