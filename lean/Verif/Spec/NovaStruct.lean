import Verif.Nova.Struct
import Verif.Spec.Curve

/-!
# What limb arrays and structs of the folding scheme stand for

A scalar or a coordinate is a limb array below the modulus; `Words.hom` is the residue it stands for.  A point struct either
stands for a point in any way (`Stands`: the coordinates of a struct flagged as the identity are not looked at) or is the
one the code computes for it (`Normal`).
-/

namespace Kogarashi.Nova

open Kogarashi Spec Curve Kogarashi.Field Limbs Groth16 Props Tower

section
variable {R S : Type} (f : R → S)

/-- The row with its coefficients mapped. -/
def rowMap (r : Row R) : Row S := r.map fun e => (e.1, f e.2)

/-- The shape with its coefficients mapped. -/
def Shape.mapF (s : Shape R) : Shape S :=
  ⟨s.m, s.instanceLength, s.witnessLength, s.a.map (rowMap f), s.b.map (rowMap f), s.c.map (rowMap f)⟩

/-- The witness with its entries mapped. -/
def RWit.mapF (w : RWit R) : RWit S := ⟨w.w.map f, w.e.map f⟩

end

/-- The affine struct the code produces for a point: the identity is `ADDITIVE_IDENTITY`. -/
def affOf {F : Type} [_root_.Field F] [DecidableEq F] {b : F} : (curve b).Point → Aff F
  | .zero => Aff.identity
  | .some x y _ => ⟨x, y, false⟩

section
variable {P Q : FieldParams} [hvP : ValidWords P] [hvQ : ValidWords Q] {B : ZMod Q.m}

/-- The struct on limbs is the one the code produces for the point. -/
def Normal (a : Aff (Words Q)) (Pt : (curve B).Point) : Prop := mapAff Words.hom a = affOf Pt

/-- The struct on limbs stands for the point (any coordinates if it is flagged as the identity). -/
def Stands (a : Aff (Words Q)) (Pt : (curve B).Point) : Prop := AffRep B (mapAff Words.hom a) Pt

/-- The instance on limbs holds the instance over residues and points. -/
structure InstHolds (i : Inst (Words P) (Aff (Words Q))) (I : Inst (ZMod P.m) (curve B).Point) : Prop where
  commitW : Normal i.commitW I.commitW
  x : I.x = i.x.map Words.hom

/-- The same for relaxed instances. -/
structure RInstHolds (i : RInst (Words P) (Aff (Words Q))) (I : RInst (ZMod P.m) (curve B).Point) : Prop where
  commitW : Normal i.commitW I.commitW
  commitE : Normal i.commitE I.commitE
  u : I.u = Words.hom i.u
  x : I.x = i.x.map Words.hom

end

section
variable {P S : FieldParams} [hvP : ValidWords P] [hvS : ValidWords S] {B1 : ZMod S.m} {B2 : ZMod P.m}

/-- The recursive proof on limbs holds the one over residues and points. -/
structure ProofHolds (w : WRecursiveProof P S) (pf : RecursiveProof P.m S.m (curve B1).Point (curve B2).Point) : Prop where
  i : w.i = pf.i
  z01 : pf.z01 = w.z01.map Words.hom
  z02 : pf.z02 = w.z02.map Words.hom
  zi1 : pf.zi1 = w.zi1.map Words.hom
  zi2 : pf.zi2 = w.zi2.map Words.hom
  single2 : InstHolds w.single2 pf.single2
  wsingle2 : pf.wsingle2 = w.wsingle2.map Words.hom
  range1 : RInstHolds w.range1 pf.range1
  wrange1 : pf.wrange1 = w.wrange1.mapF Words.hom
  range2 : RInstHolds w.range2 pf.range2
  wrange2 : pf.wrange2 = w.wrange2.mapF Words.hom

/-- The parts of the public parameters that `verify` reads, on limbs. -/
structure ParamsHold (shape1 : Shape (Words P)) (shape2 : Shape (Words S)) (ck2 : List (Aff (Words P)))
    (pp : PublicParams P.m S.m (curve B1).Point (curve B2).Point) : Prop where
  shape1 : pp.shape1 = shape1.mapF Words.hom
  shape2 : pp.shape2 = shape2.mapF Words.hom
  ck2 : List.Forall₂ Stands ck2 pp.ck2

end

end Kogarashi.Nova
