import Verif.Tower.FinalExp
import Verif.Curve.Weierstrass

/-!
# Line coefficients and the Miller loop (`bn254/src/g2.rs`, `bn254/src/pairing.rs`)
-/

namespace Kogarashi.Tower

open Props Curve Limbs

/-- `SIX_U_PLUS_2_NAF` (`bn254/src/pairing.rs` lines 5-9). -/
def sixUPlus2Naf : List Int := [
  0, 0, 0, 1, 0, 1, 0, -1, 0, 0, 1, -1, 0, 0, 1, 0, 0, 1, 1, 0, -1, 0, 0, 1, 0, -1, 0, 0, 0, 0,
  1, 1, 1, 0, 0, -1, 0, 0, 1, 0, 0, 0, 0, 0, -1, 0, 0, 1, 1, 0, 0, -1, 0, 0, 0, 1, 1, 0, -1, 0,
  0, 1, 0, 1, 1]

/-- `XI_TO_Q_MINUS_1_OVER_2` (`bn254/src/pairing.rs` lines 11-24). -/
def xiToQMinus1Over2 : Fq2 FqV := coeff2
  ⟨⟨0xe4bbdd0c2936b629, 0xbb30f162e133bacb, 0x31a9d1b6f9645366, 0x253570bea500f8dd⟩,
    ⟨0xa1d77ce45ffe77c7, 0x07affd117826d1db, 0x6d16bd27bb7edc6b, 0x2c87200285defecc⟩⟩

/-- `PairingCoeff` (`bn254/src/g2.rs` line 194). -/
structure PairingCoeff (R : Type) where
  e0 : Fq2 R
  e1 : Fq2 R
  e2 : Fq2 R
  deriving DecidableEq

/-- `G2PairingAffine` (`bn254/src/g2.rs` lines 198-201). -/
structure G2Pairing (R : Type) where
  coeffs : List (PairingCoeff R)
  isInfinity : Bool
  deriving DecidableEq

variable {R : Type} [CommRing R]

/-- `G2Projective::double_eval` (`bn254/src/g2.rs` lines 213-235): the updated point and the coefficients. -/
def doubleEval (s : Proj (Fq2 R)) : Proj (Fq2 R) × PairingCoeff R :=
  let tmp0 := s.x.square
  let tmp1 := s.y.square
  let tmp2 := tmp1.square
  let tmp3 := (tmp1 + s.x).square - tmp0 - tmp2
  let tmp3 := tmp3.double
  let tmp4 := tmp0.double + tmp0
  let tmp6 := s.x + tmp4
  let tmp5 := tmp4.square
  let zsquared := s.z.square
  let x := tmp5 - tmp3.double
  let z := (s.z + s.y).square - tmp1 - zsquared
  let y := (tmp3 - x) * tmp4 - tmp2.double.double.double
  let tmp3 := -(tmp4 * zsquared).double
  let tmp6 := tmp6.square - tmp0 - tmp5
  let tmp1 := tmp1.double.double
  let tmp6 := tmp6 - tmp1
  let tmp0 := z * zsquared
  let tmp0 := tmp0.double
  (⟨x, y, z⟩, ⟨tmp0, tmp3, tmp6⟩)

/-- `G2Projective::add_eval` (`bn254/src/g2.rs` lines 237-264): the updated point and the coefficients. -/
def addEval (s : Proj (Fq2 R)) (rhs : Aff (Fq2 R)) : Proj (Fq2 R) × PairingCoeff R :=
  let zsquared := s.z.square
  let ysquared := rhs.y.square
  let t0 := zsquared * rhs.x
  let t1 := ((rhs.y + s.z).square - ysquared - zsquared) * zsquared
  let t2 := t0 - s.x
  let t3 := t2.square
  let t4 := t3.double.double
  let t5 := t4 * t2
  let t6 := t1 - s.y.double
  let t9 := t6 * rhs.x
  let t7 := t4 * s.x
  let x := t6.square - t5 - t7.double
  let z := (s.z + t2).square - zsquared - t3
  let t10 := rhs.y + z
  let t8 := (t7 - x) * t6
  let t0 := s.y * t5
  let y := t8 - t0.double
  let t10 := t10.square - ysquared
  let ztsquared := z.square
  let t10 := t10 - ztsquared
  let t9 := t9.double - t10
  let t10 := z.double
  let t1 := -t6.double
  (⟨x, y, z⟩, ⟨t10, t1, t9⟩)

/-- Unary `-` on `G2Affine` (`bn254/src/g2.rs` lines 44-54). -/
def negAff (p : Aff (Fq2 R)) : Aff (Fq2 R) := ⟨p.x, -p.y, p.inf⟩

/-- One iteration of the loop of `G2PairingAffine::from` (`bn254/src/g2.rs` lines 279-291): the digit, the running
point and the coefficients pushed so far. -/
def prepareStep (g2 : Aff (Fq2 R)) (st : Proj (Fq2 R) × List (PairingCoeff R)) (digit : Int) :
    Proj (Fq2 R) × List (PairingCoeff R) :=
  let (t, c) := doubleEval st.1
  let cs := st.2 ++ [c]
  if digit = 1 then
    let (t, c) := addEval t g2
    (t, cs ++ [c])
  else if digit = -1 then
    let (t, c) := addEval t (negAff g2)
    (t, cs ++ [c])
  else (t, cs)

/-- The digits the loops over `(1..SIX_U_PLUS_2_NAF.len()).rev()` read (`SIX_U_PLUS_2_NAF[i - 1]`;
`bn254/src/g2.rs` lines 279-281, `bn254/src/pairing.rs` lines 47, 54): indices 63 down to 0. -/
def loopDigits : List Int := (sixUPlus2Naf.take 64).reverse

/-- The point of the first extra step (`bn254/src/g2.rs` lines 293-299). -/
def frobPoint (g2 : Aff (Fq2 FqV)) : Aff (Fq2 FqV) :=
  ⟨⟨g2.x.c0, -g2.x.c1⟩ * frobFq6C1 1, ⟨g2.y.c0, -g2.y.c1⟩ * xiToQMinus1Over2, g2.inf⟩

/-- The point of the second extra step (`bn254/src/g2.rs` lines 303-304). -/
def minusFrob2Point (g2 : Aff (Fq2 FqV)) : Aff (Fq2 FqV) := ⟨g2.x * frobFq6C1 2, g2.y, g2.inf⟩

/-- `G2PairingAffine::from` (`bn254/src/g2.rs` lines 267-313). -/
def prepare (g2 : Aff (Fq2 FqV)) : G2Pairing FqV :=
  if g2.inf then ⟨[], true⟩
  else
    let st := loopDigits.foldl (prepareStep g2) (⟨g2.x, g2.y, 1⟩, [])
    let (t, c1) := addEval st.1 (frobPoint g2)
    let (_, c2) := addEval t (minusFrob2Point g2)
    ⟨st.2 ++ [c1, c2], false⟩

/-- `Fq12::untwist` (`bn254/src/fqn.rs` lines 26-37). -/
def untwist (f : Fq12 R) (c : PairingCoeff R) (g1 : Aff R) : Fq12 R :=
  let c0 : Fq2 R := ⟨c.e0.c0 * g1.y, c.e0.c1 * g1.y⟩
  let c1 : Fq2 R := ⟨c.e1.c0 * g1.x, c.e1.c1 * g1.x⟩
  f.mulBy034 c0 c1 c.e2

/-- One `for &mut (p, ref mut coeffs) in &mut pairs` pass (`bn254/src/pairing.rs` lines 51-53, 57-59, 62-64, 70-72,
74-76); `none` is the panic of `coeffs.next().unwrap()`. The pairs are the points with the coefficients not yet
consumed. -/
def pass (acc : Fq12 R) : List (Aff R × List (PairingCoeff R)) →
    Option (Fq12 R × List (Aff R × List (PairingCoeff R)))
  | [] => some (acc, [])
  | (_, []) :: _ => none
  | (p, c :: cs) :: rest => do
    let (acc, rest) ← pass (untwist acc c p) rest
    some (acc, (p, cs) :: rest)

/-- The main loop of `multi_miller_loop` (`bn254/src/pairing.rs` lines 47-68); `first` tells whether
`i == SIX_U_PLUS_2_NAF.len() - 1`. -/
def millerMain : Bool → List Int → Fq12 R → List (Aff R × List (PairingCoeff R)) →
    Option (Fq12 R × List (Aff R × List (PairingCoeff R)))
  | _, [], acc, pairs => some (acc, pairs)
  | first, x :: xs, acc, pairs => do
    let acc := if first then acc else acc.square
    let (acc, pairs) ← pass acc pairs
    if x = 1 then
      let (acc, pairs) ← pass acc pairs
      millerMain false xs acc pairs
    else if x = -1 then
      let (acc, pairs) ← pass acc pairs
      millerMain false xs acc pairs
    else millerMain false xs acc pairs

/-- `multi_miller_loop` (`bn254/src/pairing.rs` lines 38-83); `none` is a panic (an exhausted coefficient list, or
the final assertion that none is left over). -/
def multiMillerLoop (pairs : List (Aff R × G2Pairing R)) : Option (Fq12 R) := do
  let pairs := (pairs.filter fun pq => !pq.1.inf && !pq.2.isInfinity).map fun pq => (pq.1, pq.2.coeffs)
  let (acc, pairs) ← millerMain true loopDigits 1 pairs
  let (acc, pairs) ← pass acc pairs
  let (acc, pairs) ← pass acc pairs
  if pairs.all fun pc => pc.2.isEmpty then some acc else none

/-- `pairing` (`bn254/src/pairing.rs` lines 33-36). -/
def pairing (g1 : Aff FqV) (g2 : Aff (Fq2 FqV)) : Option (Fq12 FqV) := do
  let f ← multiMillerLoop [(g1, prepare g2)]
  finalExp f

end Kogarashi.Tower
