import Verif.Tower.Code

/-!
# Runs of the pairing in which no squaring goes wrong

An element is `some w` while everything it was computed from is right, and `none` once a squaring on the way to it has
returned something other than the product (property C03).  The pairing run on such elements is the pairing of the code as
long as it meets no `none`; that it ends with twelve proper coefficients says that no squaring it made use of was wrong.
-/

namespace Kogarashi.Spec

open Kogarashi Limbs Kogarashi.Field Tower Curve

/-- `square` of these limbs is their product. -/
def SquareRight (a : L4) : Prop := fqParams.square a = fqParams.mul a a

instance (a : L4) : Decidable (SquareRight a) := by unfold SquareRight; infer_instance

/-- All squarings that `invert` makes are right. -/
def InvertRight (a : L4) : Prop :=
  ∀ x ∈ squaredBy fqParams a (B256.toBits (B256.littleFermat fqParams.p)) fqParams.one, SquareRight x

instance (a : L4) : Decidable (InvertRight a) := by unfold InvertRight; infer_instance

/-- The square, if `square` gets it right. -/
def watchSquare (x : FqW) : Option FqW := if SquareRight x.limbs then some (x * x) else none
/-- The inverse, if `invert` gets all its squares right. -/
def watchInvert (x : FqW) : Option (Option FqW) :=
  if x = 0 then none else if InvertRight x.limbs then some (some x⁻¹) else none

/-- Comparison with zero. -/
def watchZero (x : FqW) : Bool := decide (x = 0)

/-- Field elements that remember whether a wrong squaring went into them. -/
def watched : Base (Option FqW) where
  zero := some 0
  one := some 1
  add a b := a.bind fun x => b.map fun y => x + y
  sub a b := a.bind fun x => b.map fun y => x - y
  neg a := a.map fun x => -x
  double a := a.map fun x => x + x
  mul a b := a.bind fun x => b.map fun y => x * y
  square a := a.bind watchSquare
  invert a := a.bind watchInvert
  isZero a := a.elim true watchZero

/-- An element as a watched element. -/
def watch2 (a : Fq2 FqW) : Fq2 (Option FqW) := ⟨some a.c0, some a.c1⟩
/-- An element as a watched element. -/
def watch6 (a : Fq6 FqW) : Fq6 (Option FqW) := ⟨watch2 a.c0, watch2 a.c1, watch2 a.c2⟩
/-- An element as a watched element. -/
def watch12 (a : Fq12 FqW) : Fq12 (Option FqW) := ⟨watch6 a.c0, watch6 a.c1⟩

/-- The constants of the code as watched elements. -/
def constsWatched : Consts (Option FqW) where
  fq2C1 i := some (constsW.fq2C1 i)
  fq6C1 i := watch2 (constsW.fq6C1 i)
  fq6C2 i := watch2 (constsW.fq6C2 i)
  fq12C1 i := watch2 (constsW.fq12C1 i)
  xiQ := watch2 constsW.xiQ

/-- The run of the pairing on `p` and `q` makes no wrong squaring and ends with `z`. -/
def RunsRight (p : Aff FqW) (q : Aff (Fq2 FqW)) (z : Fq12 FqW) : Prop :=
  watched.pairing constsWatched ⟨some p.x, some p.y, p.inf⟩ ⟨watch2 q.x, watch2 q.y, q.inf⟩ = some (watch12 z)

/-- The limbs of an element. -/
def limbs2 (a : Fq2 FqW) : Fq2 L4 := ⟨a.c0.limbs, a.c1.limbs⟩
/-- The limbs of an element. -/
def limbs6 (a : Fq6 FqW) : Fq6 L4 := ⟨limbs2 a.c0, limbs2 a.c1, limbs2 a.c2⟩
/-- The limbs of an element. -/
def limbs12 (a : Fq12 FqW) : Fq12 L4 := ⟨limbs6 a.c0, limbs6 a.c1⟩
/-- The limbs of a point of G1. -/
def limbsG1 (p : Aff FqW) : Aff L4 := ⟨p.x.limbs, p.y.limbs, p.inf⟩
/-- The limbs of a point of G2. -/
def limbsG2 (q : Aff (Fq2 FqW)) : Aff (Fq2 L4) := ⟨limbs2 q.x, limbs2 q.y, q.inf⟩

end Kogarashi.Spec
