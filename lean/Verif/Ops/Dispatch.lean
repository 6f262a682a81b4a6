/-!
# Operator impls

The library implements each operator for values, for references and in assigning form, in macros
(`zkstd/src/macros/field/group.rs`, `zkstd/src/macros/extension_field/group.rs`, `zkstd/src/macros/curve.rs`,
`zkstd/src/macros/curve/weierstrass/group.rs`) and by hand (`bn254/src/g1.rs`, `bn254/src/gt.rs`, `zkstd/src/matrix/row.rs`).  Most bodies
are one expression that calls another operator, and which impl that is depends on whether the operands are values or references.
Here bodies are data, and running an operator looks its impl up by the types of the operands, as the compiler does; every call uses
a stack frame.

Simplifications: lifetimes and moves are not modelled (all the types are `Copy` or are cloned); in the body of an assigning operator
`self` stands for the place `*self`, and the result is the value assigned to it.
-/

namespace Kogarashi.Ops

/-- The operator traits of `core::ops` that the library implements. -/
inductive Op
  | add | sub | mul | neg | addAssign | subAssign | mulAssign
deriving DecidableEq

/-- The type of an operand: one of the types `K`, or a shared reference to it. -/
structure Ty (K : Type) where
  ref : Bool
  kind : K
deriving DecidableEq

/-- Functions that are not operators and that the bodies call. -/
inductive Fn
  /-- `add(self.0, rhs.0, p)`, or the sum limb by limb -/
  | addLimbs
  | subLimbs
  | mulLimbs
  | negLimbs
  /-- `add_affine_point` -/
  | addAffine
  /-- `add_mixed_point` -/
  | addMixed
  /-- `add_projective_point` -/
  | addProj
  /-- `{ x, y: -y, .. }` -/
  | negY
  /-- `scalar_point` -/
  | scalarPoint
  /-- `to_extended` -/
  | toExtended
  /-- `Fq12::conjugate` -/
  | conjugate
  /-- the merging of two rows -/
  | merge
  /-- the scaling of a row -/
  | scale
  /-- `-F::one()` -/
  | minusOne
deriving DecidableEq

/-- Bodies of operators. -/
inductive Body
  | self
  | rhs
  /-- `*e` -/
  | deref (e : Body)
  /-- `&e` -/
  | borrow (e : Body)
  /-- an operator applied to two operands, or to one (then the second is not used) -/
  | op (o : Op) (l r : Body)
  /-- a function of one argument; fields of references are read through them -/
  | fn1 (f : Fn) (e : Body)
  | fn2 (f : Fn) (l r : Body)

/-- Operands at run time. -/
structure Val (O : Type) where
  ref : Bool
  obj : O

/-- Why a run stops without a value. -/
inductive Stop
  /-- no impl for the operand types, or a dereference of a value: the program is not well typed -/
  | ill
  | panic
  /-- the stack is used up -/
  | stack
deriving DecidableEq

/-- A family of types and its impls. -/
structure Sys (K O : Type) where
  kind : O → K
  impl : Op → Ty K → Ty K → Option Body
  fn1 : Fn → O → Except Stop O
  fn2 : Fn → O → O → Except Stop O

variable {K O : Type}

/-- The type of an operand. -/
def Sys.ty (S : Sys K O) (v : Val O) : Ty K := ⟨v.ref, S.kind v.obj⟩

/-- The value of a body; `call` runs the operators it contains. -/
def Sys.eval (S : Sys K O) (call : Op → Val O → Val O → Except Stop (Val O)) (a b : Val O) : Body → Except Stop (Val O)
  | .self => .ok a
  | .rhs => .ok b
  | .deref e => (S.eval call a b e).bind fun v => if v.ref then .ok ⟨false, v.obj⟩ else .error .ill
  | .borrow e => (S.eval call a b e).bind fun v => .ok ⟨true, v.obj⟩
  | .op o l r => (S.eval call a b l).bind fun x => (S.eval call a b r).bind fun y => call o x y
  | .fn1 f e => (S.eval call a b e).bind fun x => (S.fn1 f x.obj).bind fun z => .ok ⟨false, z⟩
  | .fn2 f l r => (S.eval call a b l).bind fun x => (S.eval call a b r).bind fun y => (S.fn2 f x.obj y.obj).bind fun z => .ok ⟨false, z⟩

/-- Running an operator with so many stack frames. -/
def Sys.run (S : Sys K O) : Nat → Op → Val O → Val O → Except Stop (Val O)
  | 0, _, _, _ => .error .stack
  | n + 1, o, a, b => match S.impl o (S.ty a) (S.ty b) with
    | none => .error .ill
    | some body => S.eval (S.run n) a b body

/-- `*self ∘ *rhs`. -/
def derefs (o : Op) : Body := .op o (.deref .self) (.deref .rhs)
/-- `&self ∘ rhs`. -/
def borrowSelf (o : Op) : Body := .op o (.borrow .self) .rhs
/-- `self ∘ &rhs`. -/
def borrowRhs (o : Op) : Body := .op o .self (.borrow .rhs)
/-- `self ∘ rhs`. -/
def same (o : Op) : Body := .op o .self .rhs

/-! ### Prime fields -/

/-- The impls of a prime field (`zkstd/src/macros/field/group.rs` lines 35-181). -/
def fieldImpl : Op → Ty Unit → Ty Unit → Option Body
  -- lines 35-65: four variants with the same body
  | .add, _, _ => some (.fn2 .addLimbs .self .rhs)
  -- lines 81-87, 153-175
  | .sub, _, _ => some (.fn2 .subLimbs .self .rhs)
  -- lines 89-95, 103-125
  | .mul, _, _ => some (.fn2 .mulLimbs .self .rhs)
  -- lines 73-79
  | .neg, ⟨false, _⟩, _ => some (.fn1 .negLimbs .self)
  -- lines 127-133: `-self` where `self` is a reference
  | .neg, ⟨true, _⟩, _ => some (.op .neg .self .self)
  -- lines 135-139
  | .addAssign, ⟨false, _⟩, ⟨false, _⟩ => some (same .add)
  -- lines 67-71
  | .addAssign, ⟨false, _⟩, ⟨true, _⟩ => some (.fn2 .addLimbs .self .rhs)
  -- lines 141-145
  | .subAssign, ⟨false, _⟩, ⟨false, _⟩ => some (same .sub)
  -- lines 147-151
  | .subAssign, ⟨false, _⟩, ⟨true, _⟩ => some (.fn2 .subLimbs .self .rhs)
  -- lines 177-181
  | .mulAssign, ⟨false, _⟩, ⟨false, _⟩ => some (same .mul)
  -- lines 97-101: `&*self * rhs`
  | .mulAssign, ⟨false, _⟩, ⟨true, _⟩ => some (borrowSelf .mul)
  | _, _, _ => none

/-! ### Extension fields -/

/-- The impls of an extension field (`zkstd/src/macros/extension_field/group.rs` lines 40-194). -/
def extImpl : Op → Ty Unit → Ty Unit → Option Body
  -- lines 89-95: `self + rhs` where `rhs` is a reference
  | .add, ⟨false, _⟩, ⟨true, _⟩ => some (same .add)
  -- lines 40-75: the other three
  | .add, _, _ => some (.fn2 .addLimbs .self .rhs)
  -- lines 110-121
  | .sub, ⟨false, _⟩, ⟨false, _⟩ => some (.fn2 .subLimbs .self .rhs)
  -- lines 135-141: `*self * *rhs`
  | .sub, ⟨true, _⟩, ⟨true, _⟩ => some (derefs .mul)
  -- lines 143-149: `self * *rhs`
  | .sub, ⟨false, _⟩, ⟨true, _⟩ => some (.op .mul .self (.deref .rhs))
  -- lines 151-157: `*self * rhs`
  | .sub, ⟨true, _⟩, ⟨false, _⟩ => some (.op .mul (.deref .self) .rhs)
  -- lines 159-166
  | .mul, ⟨false, _⟩, ⟨false, _⟩ => some (.fn2 .mulLimbs .self .rhs)
  -- lines 180-186: `*self + *rhs`
  | .mul, ⟨true, _⟩, ⟨true, _⟩ => some (derefs .add)
  -- lines 188-194: `self + *rhs`
  | .mul, ⟨false, _⟩, ⟨true, _⟩ => some (.op .add .self (.deref .rhs))
  -- lines 97-108
  | .neg, ⟨false, _⟩, _ => some (.fn1 .negLimbs .self)
  -- lines 77-81
  | .addAssign, ⟨false, _⟩, ⟨false, _⟩ => some (same .add)
  -- lines 83-87: `*self + rhs` where `rhs` is a reference
  | .addAssign, ⟨false, _⟩, ⟨true, _⟩ => some (same .add)
  -- lines 123-127
  | .subAssign, ⟨false, _⟩, ⟨false, _⟩ => some (same .sub)
  -- lines 129-133: `*self - *rhs`
  | .subAssign, ⟨false, _⟩, ⟨true, _⟩ => some (.op .sub .self (.deref .rhs))
  -- lines 168-172
  | .mulAssign, ⟨false, _⟩, ⟨false, _⟩ => some (same .mul)
  -- lines 174-178: `&*self * rhs`
  | .mulAssign, ⟨false, _⟩, ⟨true, _⟩ => some (borrowSelf .mul)
  | _, _, _ => none

/-! ### The target group -/

/-- The impls of `Gt` (`bn254/src/gt.rs` lines 37-153). -/
def gtImpl : Op → Ty Unit → Ty Unit → Option Body
  -- lines 37-43: `&self + &rhs`
  | .add, ⟨false, _⟩, ⟨false, _⟩ => some (.op .add (.borrow .self) (.borrow .rhs))
  -- lines 45-51
  | .add, ⟨true, _⟩, ⟨true, _⟩ => some (.fn2 .mulLimbs .self .rhs)
  -- lines 53-59
  | .add, ⟨true, _⟩, ⟨false, _⟩ => some (borrowRhs .add)
  -- lines 61-67
  | .add, ⟨false, _⟩, ⟨true, _⟩ => some (borrowSelf .add)
  -- lines 69-79
  | .addAssign, ⟨false, _⟩, _ => some (same .add)
  -- lines 81-87: `-&self`
  | .neg, ⟨false, _⟩, _ => some (.op .neg (.borrow .self) (.borrow .self))
  -- lines 89-95
  | .neg, ⟨true, _⟩, _ => some (.fn1 .conjugate .self)
  -- lines 97-103
  | .sub, ⟨false, _⟩, ⟨false, _⟩ => some (.op .sub (.borrow .self) (.borrow .rhs))
  -- lines 105-111: `self + (-rhs)`
  | .sub, ⟨true, _⟩, ⟨true, _⟩ => some (.op .add .self (.op .neg .rhs .rhs))
  -- lines 113-119
  | .sub, ⟨true, _⟩, ⟨false, _⟩ => some (borrowRhs .sub)
  -- lines 121-127
  | .sub, ⟨false, _⟩, ⟨true, _⟩ => some (borrowSelf .sub)
  -- lines 129-139
  | .subAssign, ⟨false, _⟩, _ => some (same .sub)
  -- lines 141-147
  | .mul, ⟨false, _⟩, ⟨false, _⟩ => some (.fn2 .mulLimbs .self .rhs)
  -- lines 149-153
  | .mulAssign, ⟨false, _⟩, ⟨false, _⟩ => some (same .mul)
  | _, _, _ => none

/-! ### Rows of a constraint -/

/-- Rows and their coefficients. -/
inductive RowKind
  | row | coeff
deriving DecidableEq

/-- The impls of `SparseRow` (`zkstd/src/matrix/row.rs` lines 72-194). -/
def rowImpl : Op → Ty RowKind → Ty RowKind → Option Body
  -- lines 72-78: `&self + &rhs`
  | .add, ⟨false, .row⟩, ⟨false, .row⟩ => some (.op .add (.borrow .self) (.borrow .rhs))
  -- lines 80-86
  | .add, ⟨false, .row⟩, ⟨true, .row⟩ => some (borrowSelf .add)
  -- lines 88-94
  | .add, ⟨true, .row⟩, ⟨false, .row⟩ => some (borrowRhs .add)
  -- lines 96-114
  | .add, ⟨true, .row⟩, ⟨true, .row⟩ => some (.fn2 .merge .self .rhs)
  -- lines 116-122
  | .sub, ⟨false, .row⟩, ⟨false, .row⟩ => some (.op .sub (.borrow .self) (.borrow .rhs))
  -- lines 124-130
  | .sub, ⟨false, .row⟩, ⟨true, .row⟩ => some (borrowSelf .sub)
  -- lines 132-138
  | .sub, ⟨true, .row⟩, ⟨false, .row⟩ => some (borrowRhs .sub)
  -- lines 140-146: `self + -rhs`
  | .sub, ⟨true, .row⟩, ⟨true, .row⟩ => some (.op .add .self (.op .neg .rhs .rhs))
  -- lines 148-154: `self * -F::one()`
  | .neg, ⟨true, .row⟩, _ => some (.op .mul .self (.fn1 .minusOne .self))
  -- lines 156-162: `-&self`
  | .neg, ⟨false, .row⟩, _ => some (.op .neg (.borrow .self) (.borrow .self))
  -- lines 164-170: `&self * &rhs`
  | .mul, ⟨false, .row⟩, ⟨false, .coeff⟩ => some (.op .mul (.borrow .self) (.borrow .rhs))
  -- lines 172-178
  | .mul, ⟨false, .row⟩, ⟨true, .coeff⟩ => some (borrowSelf .mul)
  -- lines 180-186
  | .mul, ⟨true, .row⟩, ⟨false, .coeff⟩ => some (borrowRhs .mul)
  -- lines 188-194
  | .mul, ⟨true, .row⟩, ⟨true, .coeff⟩ => some (.fn2 .scale .self .rhs)
  | _, _, _ => none

/-! ### Points of a Weierstrass curve -/

/-- Points in the two representations, and scalars. -/
inductive PtKind
  | aff | proj | scal
deriving DecidableEq

/-- The by-reference forms in `curve_arithmetic_extension` (`zkstd/src/macros/curve.rs` lines 16-62) and `mixed_curve_operations`
(lines 126-148, 190-212, 222-244), whose bodies call operator `o`. -/
def byRef (o : Op) : Bool → Bool → Body
  | true, true => derefs o
  | false, true => borrowSelf o
  | true, false => borrowRhs o
  | false, false => same o

/-- The impls of a Weierstrass curve: by value `bn254/src/g1.rs` lines 73-200 (the same in `bn254/src/g2.rs` lines 36-190 and
`grumpkin/src/curve.rs` lines 62-168), by reference and mixed `zkstd/src/macros/curve.rs`, assigning
`zkstd/src/macros/curve/weierstrass/group.rs` lines 167-207. -/
def pointImpl : Op → Ty PtKind → Ty PtKind → Option Body
  -- g1.rs lines 73-79, 158-164; curve.rs lines 118-124, 182-188
  | .add, ⟨false, .aff⟩, ⟨false, .aff⟩ => some (.fn2 .addAffine .self .rhs)
  | .add, ⟨false, .proj⟩, ⟨false, .proj⟩ => some (.fn2 .addProj .self .rhs)
  | .add, ⟨false, .aff⟩, ⟨false, .proj⟩ => some (.fn2 .addMixed .self .rhs)
  | .add, ⟨false, .proj⟩, ⟨false, .aff⟩ => some (.fn2 .addMixed .rhs .self)
  -- curve.rs lines 16-38, 126-148, 190-212
  | .add, ⟨r, .aff⟩, ⟨s, .aff⟩ => some (byRef .add r s)
  | .add, ⟨r, .proj⟩, ⟨s, .proj⟩ => some (byRef .add r s)
  | .add, ⟨r, .aff⟩, ⟨s, .proj⟩ => some (byRef .add r s)
  | .add, ⟨r, .proj⟩, ⟨s, .aff⟩ => some (byRef .add r s)
  -- g1.rs lines 93-99, 178-184; curve.rs lines 150-156, 214-220
  | .sub, ⟨false, .aff⟩, ⟨false, .aff⟩ => some (.fn2 .addAffine .self (.op .neg .rhs .rhs))
  | .sub, ⟨false, .proj⟩, ⟨false, .proj⟩ => some (.fn2 .addProj .self (.op .neg .rhs .rhs))
  | .sub, ⟨false, .aff⟩, ⟨false, .proj⟩ => some (.fn2 .addMixed .self (.op .neg .rhs .rhs))
  | .sub, ⟨false, .proj⟩, ⟨false, .aff⟩ => some (.fn2 .addMixed (.op .neg .rhs .rhs) .self)
  -- curve.rs lines 40-62, 222-244
  | .sub, ⟨r, .aff⟩, ⟨s, .aff⟩ => some (byRef .sub r s)
  | .sub, ⟨r, .proj⟩, ⟨s, .proj⟩ => some (byRef .sub r s)
  | .sub, ⟨r, .proj⟩, ⟨s, .aff⟩ => some (byRef .sub r s)
  -- curve.rs lines 158-180: the bodies are sums
  | .sub, ⟨r, .aff⟩, ⟨s, .proj⟩ => some (byRef .add r s)
  -- g1.rs lines 101-115, 186-200
  | .mul, ⟨false, .aff⟩, ⟨false, .scal⟩ => some (.fn2 .scalarPoint (.fn1 .toExtended .self) .rhs)
  | .mul, ⟨false, .scal⟩, ⟨false, .aff⟩ => some (.fn2 .scalarPoint (.fn1 .toExtended .rhs) .self)
  | .mul, ⟨false, .proj⟩, ⟨false, .scal⟩ => some (.fn2 .scalarPoint .self .rhs)
  | .mul, ⟨false, .scal⟩, ⟨false, .proj⟩ => some (.fn2 .scalarPoint .rhs .self)
  -- curve.rs lines 64-110: references are read first
  | .mul, ⟨r, .aff⟩, ⟨s, .scal⟩ => some (byDeref r s)
  | .mul, ⟨r, .proj⟩, ⟨s, .scal⟩ => some (byDeref r s)
  | .mul, ⟨r, .scal⟩, ⟨s, .aff⟩ => some (byDeref r s)
  | .mul, ⟨r, .scal⟩, ⟨s, .proj⟩ => some (byDeref r s)
  -- g1.rs lines 81-91, 166-176
  | .neg, ⟨false, .aff⟩, _ => some (.fn1 .negY .self)
  | .neg, ⟨false, .proj⟩, _ => some (.fn1 .negY .self)
  -- group.rs lines 167-171
  | .addAssign, ⟨false, .proj⟩, ⟨false, .proj⟩ => some (same .add)
  -- group.rs lines 173-177: implemented for `&'a $projective`, so `*self` is a reference; the body is `*self += rhs`
  | .addAssign, ⟨true, .proj⟩, ⟨false, .proj⟩ => some (same .addAssign)
  -- group.rs lines 179-183: `*self += *rhs`
  | .addAssign, ⟨false, .proj⟩, ⟨true, .proj⟩ => some (.op .addAssign .self (.deref .rhs))
  -- curve.rs lines 246-256
  | .addAssign, ⟨false, .proj⟩, ⟨false, .aff⟩ => some (.fn2 .addMixed .rhs .self)
  | .addAssign, ⟨false, .proj⟩, ⟨true, .aff⟩ => some (.fn2 .addMixed (.deref .rhs) .self)
  -- group.rs lines 185-195
  | .subAssign, ⟨false, .proj⟩, ⟨false, .proj⟩ => some (same .sub)
  | .subAssign, ⟨false, .proj⟩, ⟨true, .proj⟩ => some (.op .subAssign .self (.deref .rhs))
  -- curve.rs lines 258-268
  | .subAssign, ⟨false, .proj⟩, ⟨false, .aff⟩ => some (.fn2 .addMixed (.op .neg .rhs .rhs) .self)
  | .subAssign, ⟨false, .proj⟩, ⟨true, .aff⟩ => some (.fn2 .addMixed (.op .neg (.deref .rhs) (.deref .rhs)) .self)
  -- group.rs lines 197-207
  | .mulAssign, ⟨false, .proj⟩, ⟨false, .scal⟩ => some (same .mul)
  | .mulAssign, ⟨false, .proj⟩, ⟨true, .scal⟩ => some (.op .mulAssign .self (.deref .rhs))
  | _, _, _ => none
where
  /-- `self * *rhs`, `*self * rhs`, `*self * *rhs`. -/
  byDeref : Bool → Bool → Body
    | true, true => derefs .mul
    | false, true => .op .mul .self (.deref .rhs)
    | true, false => .op .mul (.deref .self) .rhs
    | false, false => same .mul

/-- The impls of a twisted Edwards curve: by value `zkstd/tests/jubjub.rs` lines 250-344, the rest from the same macros
(`zkstd/src/macros/curve.rs`) and `zkstd/src/macros/curve/edwards/group.rs` lines 153-187. -/
def edwardsImpl : Op → Ty PtKind → Ty PtKind → Option Body
  -- jubjub.rs lines 250-256
  | .add, ⟨false, .aff⟩, ⟨false, .aff⟩ => some (.fn2 .addProj (.fn1 .toExtended .self) (.fn1 .toExtended .rhs))
  -- jubjub.rs lines 269-275
  | .sub, ⟨false, .aff⟩, ⟨false, .aff⟩ => some (.fn2 .addProj (.fn1 .toExtended .self) (.fn1 .toExtended (.op .neg .rhs .rhs)))
  -- no impl for references to extended points
  | .addAssign, ⟨true, .proj⟩, ⟨false, .proj⟩ => none
  | o, a, b => pointImpl o a b

end Kogarashi.Ops
