import Verif.Ops.Dispatch
import Verif.Curve.Weierstrass
import Verif.Curve.Edwards
import Verif.Field.Params
import Verif.R1cs.Row
import Verif.Tower.G2

/-!
# The types whose operators are modelled

What the functions called in the bodies of `Verif.Ops.Dispatch` are, for each family of types.  They are the definitions the
rest of the model uses for the by-value operators.
-/

namespace Kogarashi.Ops

open Kogarashi Limbs Kogarashi.Field Curve Tower Props

/-- A type whose operators call four functions on the contents. -/
def limbSys {O : Type} (impl : Op → Ty Unit → Ty Unit → Option Body) (add sub mul : O → O → O) (neg : O → O) : Sys Unit O where
  kind _ := ()
  impl := impl
  fn1 f a := match f with
    | .negLimbs => .ok (neg a)
    | _ => .error .ill
  fn2 f a b := match f with
    | .addLimbs => .ok (add a b)
    | .subLimbs => .ok (sub a b)
    | .mulLimbs => .ok (mul a b)
    | _ => .error .ill

/-- A prime field (`zkstd/src/macros/field/group.rs`). -/
def fieldSys (P : FieldParams) : Sys Unit L4 := limbSys fieldImpl P.add P.sub P.mul P.neg

/-- An extension field (`zkstd/src/macros/extension_field/group.rs`); its by-value operators are those of `E`. -/
def extSys (E : Type) [Add E] [Sub E] [Mul E] [Neg E] : Sys Unit E := limbSys extImpl (· + ·) (· - ·) (· * ·) (- ·)

/-- A target group with product `mul`. -/
def conjSys {O : Type} (mul : O → O → O) (conjugate : O → O) : Sys Unit O where
  kind _ := ()
  impl := gtImpl
  fn1 f a := match f with
    | .conjugate => .ok (conjugate a)
    | _ => .error .ill
  fn2 f a b := match f with
    | .mulLimbs => .ok (mul a b)
    | _ => .error .ill

/-- The target group (`bn254/src/gt.rs`); the product of its bodies is that of `Fq12` by value. -/
def gtSys : Sys Unit (Fq12 FqV) := conjSys (· * ·) Fq12.conjugate

/-- Rows and coefficients (`zkstd/src/matrix/row.rs` line 9). -/
inductive RowObj (F : Type)
  | row (r : Row F)
  | coeff (c : F)

/-- The operators of `SparseRow` (`zkstd/src/matrix/row.rs`). -/
def rowSys (F : Type) [Field F] [DecidableEq F] : Sys RowKind (RowObj F) where
  kind
    | .row _ => .row
    | .coeff _ => .coeff
  impl := rowImpl
  fn1 f _ := match f with
    | .minusOne => .ok (.coeff (-1))
    | _ => .error .ill
  fn2 f a b := match f, a, b with
    | .merge, .row a, .row b => .ok (.row (a.add b))
    | .scale, .row a, .coeff k => .ok (.row (a.smul k))
    | _, _, _ => .error .ill

/-- Points in two representations and scalars (`bn254/src/g1.rs` lines 15-22, 118-124). -/
inductive PtObj (A J K : Type)
  | aff (p : A)
  | proj (p : J)
  | scal (k : K)

/-- The functions the bodies of the operators on points call (`zkstd/src/arithmetic/points/weierstrass.rs`, `bn254/src/g1.rs`). -/
structure PtFns (A J K : Type) where
  addAffine : A → A → J
  addMixed : A → J → J
  addProj : J → J → J
  negA : A → A
  negJ : J → J
  toExtended : A → J
  /-- `none` is a panic -/
  scalarPoint : J → K → Option J

/-- The operators on points with the impls `impl` (`zkstd/src/macros/curve.rs`). -/
def ptSysOf {A J K : Type} (impl : Op → Ty PtKind → Ty PtKind → Option Body) (f : PtFns A J K) : Sys PtKind (PtObj A J K) where
  kind
    | .aff _ => .aff
    | .proj _ => .proj
    | .scal _ => .scal
  impl := impl
  fn1 g a := match g, a with
    | .negY, .aff p => .ok (.aff (f.negA p))
    | .negY, .proj p => .ok (.proj (f.negJ p))
    | .toExtended, .aff p => .ok (.proj (f.toExtended p))
    | _, _ => .error .ill
  fn2 g a b := match g, a, b with
    | .addAffine, .aff p, .aff q => .ok (.proj (f.addAffine p q))
    | .addMixed, .aff p, .proj q => .ok (.proj (f.addMixed p q))
    | .addProj, .proj p, .proj q => .ok (.proj (f.addProj p q))
    | .scalarPoint, .proj p, .scal k => match f.scalarPoint p k with
      | some q => .ok (.proj q)
      | none => .error .panic
    | _, _, _ => .error .ill

/-- The operators on points of a Weierstrass curve (`zkstd/src/macros/curve/weierstrass.rs`). -/
def ptSys {A J K : Type} (f : PtFns A J K) : Sys PtKind (PtObj A J K) := ptSysOf pointImpl f

/-- The functions of a Weierstrass curve with coefficient `b3 = 3b` and scalar field `S` (`zkstd/src/arithmetic/points/weierstrass.rs`). -/
def weierstrassFns (F : Type) [Field F] [DecidableEq F] (b3 : F) (S : FieldParams) : PtFns (Aff F) (Proj F) L4 where
  addAffine := addAffine b3
  addMixed := addMixed b3
  addProj := addProj b3
  negA := Aff.neg
  negJ := Proj.neg
  toExtended := Aff.toExtended
  scalarPoint p k := (S.toNafs k).map (scalarPoint b3 p)

/-- The operators of the points of a Weierstrass curve. -/
def pointSys (F : Type) [Field F] [DecidableEq F] (b3 : F) (S : FieldParams) : Sys PtKind (PtObj (Aff F) (Proj F) L4) :=
  ptSys (weierstrassFns F b3 S)

/-- The functions of a twisted Edwards curve with coefficient `d` and scalar field `S` (`zkstd/src/arithmetic/points/edwards.rs`,
`zkstd/tests/jubjub.rs` lines 258-320). -/
def edwardsFns (F : Type) [_root_.Field F] [DecidableEq F] (d : F) (S : FieldParams) : PtFns (Edwards.EAff F) (Edwards.EExt F) L4 where
  addAffine := Edwards.addAffine d
  addMixed := Edwards.addMixed d
  addProj := Edwards.addExt d
  negA := Edwards.EAff.neg
  negJ := Edwards.EExt.neg
  toExtended := Edwards.EAff.toExtended
  scalarPoint p k := (S.toNafs k).map (Edwards.scalarPoint d p)

/-- The operators of the points of a twisted Edwards curve. -/
def edwardsSys (F : Type) [_root_.Field F] [DecidableEq F] (d : F) (S : FieldParams) :
    Sys PtKind (PtObj (Edwards.EAff F) (Edwards.EExt F) L4) := ptSysOf edwardsImpl (edwardsFns F d S)

end Kogarashi.Ops
