import Verif.Tower.Frobenius

/-!
# The final exponentiation (`bn254/src/fqn.rs` lines 39-153)
-/

namespace Kogarashi.Tower

open Props

variable {R : Type} [CommRing R]

/-- `fp4_square` (`bn254/src/fqn.rs` lines 40-51). -/
def fp4Square (a b : Fq2 R) : Fq2 R × Fq2 R :=
  let t0 := a.square
  let t1 := b.square
  let t2 := t1.mulByNonres
  let c0 := t2 + t0
  let t2 := a + b
  let t2 := t2.square
  let t2 := t2 - t0
  let c1 := t2 - t1
  (c0, c1)

/-- `cyclotomic_square` (`bn254/src/fqn.rs` lines 56-92). -/
def cyclotomicSquare (f : Fq12 R) : Fq12 R :=
  let z0 := f.c0.c0
  let z4 := f.c0.c1
  let z3 := f.c0.c2
  let z2 := f.c1.c0
  let z1 := f.c1.c1
  let z5 := f.c1.c2
  let (t0, t1) := fp4Square z0 z1
  let z0 := t0 - z0
  let z0 := z0.double + t0
  let z1 := t1 + z1
  let z1 := z1.double + t1
  let (t0, t1) := fp4Square z2 z3
  let (t2, t3) := fp4Square z4 z5
  let z4 := t0 - z4
  let z4 := z4.double + t0
  let z5 := t1 + z5
  let z5 := z5.double + t1
  let t0 := t3.mulByNonres
  let z2 := t0 + z2
  let z2 := z2.double + t0
  let z3 := t2 - z3
  let z3 := z3.double + t2
  ⟨⟨z0, z4, z3⟩, ⟨z2, z1, z5⟩⟩

/-- `BN_X` (`bn254/src/params.rs` line 4). -/
def BN_X : Nat := 4965661367192848881

/-- `cycolotomic_exp` (`bn254/src/fqn.rs` lines 94-104). -/
def cyclotomicExp (f : Fq12 R) : Fq12 R :=
  ((List.range 64).reverse.map fun i => BN_X / 2 ^ i % 2 == 1).foldl
    (fun res isOne =>
      let res := cyclotomicSquare res
      if isOne then res * f else res) 1

/-- `final_exp` (`bn254/src/fqn.rs` lines 39-152); `none` is the panic of `unwrap` (lines 149) or inside `invert`. -/
def finalExp (f : Fq12 FqV) : Option (Fq12 FqV) :=
  let f1 := f.conjugate
  match f.getInvert with
  | none => none
  | some none => none
  | some (some f2) =>
    let f2 := f2 * f1
    let r := f2.frobeniusMaps 2 * f2
    let fp := r.frobeniusMaps 1
    let fp2 := r.frobeniusMaps 2
    let fp3 := fp2.frobeniusMaps 1
    let fu := cyclotomicExp r
    let fu2 := cyclotomicExp fu
    let fu3 := cyclotomicExp fu2
    let y3 := (fu.frobeniusMaps 1).conjugate
    let fu2p := fu2.frobeniusMaps 1
    let fu3p := fu3.frobeniusMaps 1
    let y2 := fu2.frobeniusMaps 2
    let y0 := fp * fp2 * fp3
    let y1 := r.conjugate
    let y5 := fu2.conjugate
    let y4 := (fu * fu2p).conjugate
    let y6 := cyclotomicSquare (fu3 * fu3p).conjugate * y4 * y5
    let t1 := y3 * y5 * y6
    let y6 := y6 * y2
    let t1 := cyclotomicSquare (cyclotomicSquare t1 * y6)
    let t0 := t1 * y1
    let t1 := t1 * y0
    let t0 := cyclotomicSquare t0 * t1
    some t0

end Kogarashi.Tower
