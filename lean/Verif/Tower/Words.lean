import Verif.Field.Canon
import Verif.Tower.Pairing
import Verif.Tower.FrobeniusProof

/-!
# The tower and the pairing on words (`bn254/src/fqn.rs`, `bn254/src/g2.rs`, `bn254/src/pairing.rs`)

The generic functions of `Fqn`, `FinalExp` and `Pairing`, instantiated at canonical limb arrays, and the functions that
use constants written again with the raw limbs of `params.rs`.  All of them commute with reading limbs as residues.
-/

namespace Kogarashi.Tower

open Limbs Kogarashi.Field Spec Props Curve

/-! ### Change of coefficients -/

section
variable {R S : Type} [CommRing R] [CommRing S]

/-- Coefficientwise change of ring. -/
def Fq2.mapHom (f : R →+* S) : Fq2 R →+* Fq2 S where
  toFun a := ⟨f a.c0, f a.c1⟩
  map_zero' := by ext <;> simp
  map_one' := by ext <;> simp
  map_add' a b := by ext <;> simp
  map_mul' a b := by ext <;> simp

@[simp] theorem Fq2.mapHom_c0 (f : R →+* S) (a : Fq2 R) : (Fq2.mapHom f a).c0 = f a.c0 := rfl
@[simp] theorem Fq2.mapHom_c1 (f : R →+* S) (a : Fq2 R) : (Fq2.mapHom f a).c1 = f a.c1 := rfl
theorem Fq2.mapHom_xi (f : R →+* S) : Fq2.mapHom f Fq2.xi = Fq2.xi := by
  ext
  · exact map_ofNat f 9
  · exact map_one f

/-- Coefficientwise change of ring. -/
def Fq6.mapHom (f : R →+* S) : Fq6 R →+* Fq6 S where
  toFun a := ⟨Fq2.mapHom f a.c0, Fq2.mapHom f a.c1, Fq2.mapHom f a.c2⟩
  map_zero' := by apply Fq6.ext' <;> simp
  map_one' := by apply Fq6.ext' <;> simp
  map_add' a b := by apply Fq6.ext' <;> simp
  map_mul' a b := by apply Fq6.ext' <;> simp [Fq2.mapHom_xi]

@[simp] theorem Fq6.mapHom_c0 (f : R →+* S) (a : Fq6 R) : (Fq6.mapHom f a).c0 = Fq2.mapHom f a.c0 := rfl
@[simp] theorem Fq6.mapHom_c1 (f : R →+* S) (a : Fq6 R) : (Fq6.mapHom f a).c1 = Fq2.mapHom f a.c1 := rfl
@[simp] theorem Fq6.mapHom_c2 (f : R →+* S) (a : Fq6 R) : (Fq6.mapHom f a).c2 = Fq2.mapHom f a.c2 := rfl
theorem Fq6.mapHom_v (f : R →+* S) : Fq6.mapHom f Fq6.v = Fq6.v := by apply Fq6.ext' <;> simp [Fq6.v]

/-- Coefficientwise change of ring. -/
def Fq12.mapHom (f : R →+* S) : Fq12 R →+* Fq12 S where
  toFun a := ⟨Fq6.mapHom f a.c0, Fq6.mapHom f a.c1⟩
  map_zero' := by apply Fq12.ext' <;> simp
  map_one' := by apply Fq12.ext' <;> simp
  map_add' a b := by apply Fq12.ext' <;> simp
  map_mul' a b := by apply Fq12.ext' <;> simp [Fq6.mapHom_v]

@[simp] theorem Fq12.mapHom_c0 (f : R →+* S) (a : Fq12 R) : (Fq12.mapHom f a).c0 = Fq6.mapHom f a.c0 := rfl
@[simp] theorem Fq12.mapHom_c1 (f : R →+* S) (a : Fq12 R) : (Fq12.mapHom f a).c1 = Fq6.mapHom f a.c1 := rfl

variable (f : R →+* S)

theorem Fq2.map_double (a : Fq2 R) : Fq2.mapHom f a.double = (Fq2.mapHom f a).double := by
  rw [Fq2.double_eq, Fq2.double_eq, map_add]
theorem Fq2.map_square (a : Fq2 R) : Fq2.mapHom f a.square = (Fq2.mapHom f a).square := by
  rw [Fq2.square_eq, Fq2.square_eq, map_mul]
theorem Fq2.map_nonres (a : Fq2 R) : Fq2.mapHom f a.mulByNonres = (Fq2.mapHom f a).mulByNonres := by
  rw [Fq2.mulByNonres_eq, Fq2.mulByNonres_eq, map_mul, Fq2.mapHom_xi]
theorem Fq2.map_conjugate (a : Fq2 R) : Fq2.mapHom f a.conjugate = (Fq2.mapHom f a).conjugate := by
  ext <;> simp [Fq2.conjugate]
theorem Fq6.map_double (a : Fq6 R) : Fq6.mapHom f a.double = (Fq6.mapHom f a).double := by
  apply Fq6.ext' <;> simp [Fq6.double, Fq2.map_double]
theorem Fq6.map_nonres (a : Fq6 R) : Fq6.mapHom f a.mulByNonres = (Fq6.mapHom f a).mulByNonres := by
  apply Fq6.ext' <;> simp [Fq6.mulByNonres, Fq2.map_nonres]
theorem Fq6.map_square (a : Fq6 R) : Fq6.mapHom f a.square = (Fq6.mapHom f a).square := by
  apply Fq6.ext' <;> simp [Fq6.square, Fq2.map_nonres, Fq2.map_double, Fq2.map_square]
theorem Fq6.map_mulBy01 (a : Fq6 R) (c d : Fq2 R) :
    Fq6.mapHom f (a.mulBy01 c d) = (Fq6.mapHom f a).mulBy01 (Fq2.mapHom f c) (Fq2.mapHom f d) := by
  apply Fq6.ext' <;> simp [Fq6.mulBy01, Fq2.map_nonres]
theorem Fq12.map_square (a : Fq12 R) : Fq12.mapHom f a.square = (Fq12.mapHom f a).square := by
  apply Fq12.ext' <;> simp [Fq12.square, Fq6.map_nonres, Fq6.map_double]
theorem Fq12.map_double (a : Fq12 R) : Fq12.mapHom f a.double = (Fq12.mapHom f a).double := by
  apply Fq12.ext' <;> simp [Fq12.double, Fq6.map_double]
theorem Fq12.map_conjugate (a : Fq12 R) : Fq12.mapHom f a.conjugate = (Fq12.mapHom f a).conjugate := by
  apply Fq12.ext' <;> simp [Fq12.conjugate]
theorem Fq12.map_mulBy034 (a : Fq12 R) (c d e : Fq2 R) : Fq12.mapHom f (a.mulBy034 c d e) =
    (Fq12.mapHom f a).mulBy034 (Fq2.mapHom f c) (Fq2.mapHom f d) (Fq2.mapHom f e) := by
  apply Fq12.ext'
  · simp only [Fq12.mulBy034, Fq12.mapHom_c0, Fq12.mapHom_c1, map_add, map_sub, Fq6.map_nonres, Fq6.map_mulBy01]
    congr 1
    apply Fq6.ext' <;> simp
  · simp only [Fq12.mulBy034, Fq12.mapHom_c0, Fq12.mapHom_c1, map_add, map_sub, Fq6.map_nonres, Fq6.map_mulBy01]
    congr 1
    congr 1
    apply Fq6.ext' <;> simp

theorem map_fp4Square (a b : Fq2 R) : fp4Square (Fq2.mapHom f a) (Fq2.mapHom f b) =
    (Fq2.mapHom f (fp4Square a b).1, Fq2.mapHom f (fp4Square a b).2) := by
  simp only [fp4Square, map_add, map_sub, Fq2.map_square, Fq2.map_nonres]

theorem map_cyclotomicSquare (a : Fq12 R) : Fq12.mapHom f (cyclotomicSquare a) = cyclotomicSquare (Fq12.mapHom f a) := by
  apply Fq12.ext' <;> apply Fq6.ext' <;>
    simp only [cyclotomicSquare, Fq12.mapHom_c0, Fq12.mapHom_c1, Fq6.mapHom_c0, Fq6.mapHom_c1, Fq6.mapHom_c2,
      map_fp4Square, map_add, map_sub, Fq2.map_double, Fq2.map_nonres]

theorem map_cyclotomicExp (a : Fq12 R) : Fq12.mapHom f (cyclotomicExp a) = cyclotomicExp (Fq12.mapHom f a) := by
  have h : ∀ (l : List Bool) (acc : Fq12 R), Fq12.mapHom f (l.foldl (fun res isOne =>
      let res := cyclotomicSquare res
      if isOne then res * a else res) acc) = l.foldl (fun res isOne =>
      let res := cyclotomicSquare res
      if isOne then res * Fq12.mapHom f a else res) (Fq12.mapHom f acc) := by
    intro l
    induction l with
    | nil => intro acc; rfl
    | cons b l ih =>
      intro acc
      rw [List.foldl_cons, List.foldl_cons, ih]
      cases b <;> simp [map_cyclotomicSquare]
  unfold cyclotomicExp
  rw [h, map_one]

/-- Coordinatewise change of ring. -/
def mapProj (p : Proj (Fq2 R)) : Proj (Fq2 S) := ⟨Fq2.mapHom f p.x, Fq2.mapHom f p.y, Fq2.mapHom f p.z⟩
/-- Coordinatewise change of ring. -/
def mapAff2 (p : Aff (Fq2 R)) : Aff (Fq2 S) := ⟨Fq2.mapHom f p.x, Fq2.mapHom f p.y, p.inf⟩
/-- Coordinatewise change of ring. -/
def mapAff (p : Aff R) : Aff S := ⟨f p.x, f p.y, p.inf⟩
/-- Change of ring of the line coefficients. -/
def mapCoeff (c : PairingCoeff R) : PairingCoeff S := ⟨Fq2.mapHom f c.e0, Fq2.mapHom f c.e1, Fq2.mapHom f c.e2⟩
/-- Change of ring of a prepared point. -/
def mapG2 (q : G2Pairing R) : G2Pairing S := ⟨q.coeffs.map (mapCoeff f), q.isInfinity⟩

theorem map_doubleEval (s : Proj (Fq2 R)) :
    doubleEval (mapProj f s) = (mapProj f (doubleEval s).1, mapCoeff f (doubleEval s).2) := by
  simp only [doubleEval, mapProj, mapCoeff, map_add, map_sub, map_mul, map_neg, Fq2.map_square, Fq2.map_double]

theorem map_addEval (s : Proj (Fq2 R)) (r : Aff (Fq2 R)) :
    addEval (mapProj f s) (mapAff2 f r) = (mapProj f (addEval s r).1, mapCoeff f (addEval s r).2) := by
  simp only [addEval, mapProj, mapAff2, mapCoeff, map_add, map_sub, map_mul, map_neg, Fq2.map_square, Fq2.map_double]

theorem map_negAff (p : Aff (Fq2 R)) : negAff (mapAff2 f p) = mapAff2 f (negAff p) := by
  simp only [negAff, mapAff2, map_neg]

theorem map_prepareStep (g : Aff (Fq2 R)) (st : Proj (Fq2 R) × List (PairingCoeff R)) (d : Int) :
    prepareStep (mapAff2 f g) (mapProj f st.1, st.2.map (mapCoeff f)) d =
      (mapProj f (prepareStep g st d).1, (prepareStep g st d).2.map (mapCoeff f)) := by
  simp only [prepareStep, map_doubleEval, map_negAff, map_addEval]
  split
  · simp
  · split
    · simp
    · simp

theorem map_prepareFold (g : Aff (Fq2 R)) (l : List Int) (st : Proj (Fq2 R) × List (PairingCoeff R)) :
    l.foldl (prepareStep (mapAff2 f g)) (mapProj f st.1, st.2.map (mapCoeff f)) =
      (mapProj f (l.foldl (prepareStep g) st).1, (l.foldl (prepareStep g) st).2.map (mapCoeff f)) := by
  induction l generalizing st with
  | nil => rfl
  | cons d l ih => rw [List.foldl_cons, List.foldl_cons, map_prepareStep, ih]

theorem map_untwist (a : Fq12 R) (c : PairingCoeff R) (p : Aff R) :
    untwist (Fq12.mapHom f a) (mapCoeff f c) (mapAff f p) = Fq12.mapHom f (untwist a c p) := by
  have e (u : Fq2 R) (t : R) : (⟨(Fq2.mapHom f u).c0 * f t, (Fq2.mapHom f u).c1 * f t⟩ : Fq2 S) =
      Fq2.mapHom f ⟨u.c0 * t, u.c1 * t⟩ := by ext <;> simp
  have h := Fq12.map_mulBy034 f a ⟨c.e0.c0 * p.y, c.e0.c1 * p.y⟩ ⟨c.e1.c0 * p.x, c.e1.c1 * p.x⟩ c.e2
  rw [← e, ← e] at h
  exact h.symm

/-- Change of ring of the pairs the loop consumes. -/
def mapPairs (l : List (Aff R × List (PairingCoeff R))) : List (Aff S × List (PairingCoeff S)) :=
  l.map fun pc => (mapAff f pc.1, pc.2.map (mapCoeff f))

theorem map_pass (a : Fq12 R) (l : List (Aff R × List (PairingCoeff R))) :
    pass (Fq12.mapHom f a) (mapPairs f l) = (pass a l).map fun r => (Fq12.mapHom f r.1, mapPairs f r.2) := by
  induction l generalizing a with
  | nil => rfl
  | cons pc l ih =>
    obtain ⟨p, cs⟩ := pc
    cases cs with
    | nil => rfl
    | cons c cs =>
      have e : mapPairs f ((p, c :: cs) :: l) = (mapAff f p, mapCoeff f c :: cs.map (mapCoeff f)) :: mapPairs f l := rfl
      rw [e]
      simp only [pass, map_untwist, ih]
      cases pass (untwist a c p) l with
      | none => rfl
      | some r => rfl

theorem map_millerMain (b : Bool) (ds : List Int) (a : Fq12 R) (l : List (Aff R × List (PairingCoeff R))) :
    millerMain b ds (Fq12.mapHom f a) (mapPairs f l) =
      (millerMain b ds a l).map fun r => (Fq12.mapHom f r.1, mapPairs f r.2) := by
  induction ds generalizing b a l with
  | nil => rfl
  | cons d ds ih =>
    have e : (if b then Fq12.mapHom f a else (Fq12.mapHom f a).square) = Fq12.mapHom f (if b then a else a.square) := by
      cases b
      · simp [Fq12.map_square]
      · simp
    simp only [millerMain, e, map_pass]
    cases h : pass (if b then a else a.square) l with
    | none => rfl
    | some r =>
      obtain ⟨a1, l1⟩ := r
      simp only [Option.map_some, Option.bind_eq_bind, Option.bind_some]
      split
      · rw [map_pass]
        cases pass a1 l1 with
        | none => rfl
        | some r => exact ih _ _ _
      · split
        · rw [map_pass]
          cases pass a1 l1 with
          | none => rfl
          | some r => exact ih _ _ _
        · exact ih _ _ _

theorem map_multiMillerLoop (l : List (Aff R × G2Pairing R)) :
    multiMillerLoop (l.map fun pq => (mapAff f pq.1, mapG2 f pq.2)) = (multiMillerLoop l).map (Fq12.mapHom f) := by
  have e : ((l.map fun pq => (mapAff f pq.1, mapG2 f pq.2)).filter fun pq => !pq.1.inf && !pq.2.isInfinity).map
      (fun pq => (pq.1, pq.2.coeffs)) =
      mapPairs f ((l.filter fun pq => !pq.1.inf && !pq.2.isInfinity).map fun pq => (pq.1, pq.2.coeffs)) := by
    unfold mapPairs
    rw [List.filter_map, List.map_map, List.map_map]
    rfl
  unfold multiMillerLoop
  simp only [e]
  generalize ((l.filter fun pq => !pq.1.inf && !pq.2.isInfinity).map fun pq => (pq.1, pq.2.coeffs)) = l1
  have h1 : (1 : Fq12 S) = Fq12.mapHom f 1 := (map_one _).symm
  rw [h1, map_millerMain]
  cases millerMain true loopDigits 1 l1 with
  | none => rfl
  | some r =>
    obtain ⟨a2, l2⟩ := r
    simp only [Option.map_some, Option.bind_eq_bind, Option.bind_some, map_pass]
    cases pass a2 l2 with
    | none => rfl
    | some r =>
      obtain ⟨a3, l3⟩ := r
      simp only [Option.map_some, Option.bind_some, map_pass]
      cases pass a3 l3 with
      | none => rfl
      | some r =>
        obtain ⟨a4, l4⟩ := r
        have e2 : ((mapPairs f l4).all fun pc => pc.2.isEmpty) = l4.all fun pc => pc.2.isEmpty := by
          unfold mapPairs
          rw [List.all_map]
          congr 1
          funext pc
          simp
        simp only [Option.map_some, Option.bind_some, e2]
        split <;> rfl

end

section
variable {F K : Type} [_root_.Field F] [_root_.Field K] [DecidableEq F] [DecidableEq K] (f : F →+* K)

theorem map_baseInvert (x : F) : Fq2.baseInvert (f x) = (Fq2.baseInvert x).map f := by
  unfold Fq2.baseInvert
  by_cases h : x = 0
  · rw [if_pos h, if_pos (by rw [h, map_zero])]; rfl
  · rw [if_neg h, if_neg (fun h' => h ((map_eq_zero f).mp h')), Option.map_some, map_inv₀]

theorem Fq2.map_getInvert (a : Fq2 F) :
    (Fq2.mapHom f a).getInvert = a.getInvert.map fun r => r.map (Fq2.mapHom f) := by
  have e : (Fq2.mapHom f a).isZero = a.isZero := by
    unfold Fq2.isZero
    simp only [Fq2.mapHom_c0, Fq2.mapHom_c1, map_eq_zero]
  unfold Fq2.getInvert
  rw [e]
  split
  · rfl
  · simp only [Fq2.mapHom_c0, Fq2.mapHom_c1]
    rw [← map_mul, ← map_mul, ← map_add, map_baseInvert]
    cases Fq2.baseInvert (a.c0 * a.c0 + a.c1 * a.c1) with
    | none => rfl
    | some t =>
      simp only [Option.map_some]
      congr 2
      ext <;> simp

theorem Fq6.map_getInvert (a : Fq6 F) :
    (Fq6.mapHom f a).getInvert = a.getInvert.map fun r => r.map (Fq6.mapHom f) := by
  unfold Fq6.getInvert
  simp only [Fq6.mapHom_c0, Fq6.mapHom_c1, Fq6.mapHom_c2, ← Fq2.map_square, ← Fq2.map_nonres, ← map_mul, ← map_sub,
    ← map_add, Fq2.map_getInvert]
  generalize Fq2.getInvert (F := F) _ = t
  cases t with
  | none => rfl
  | some t =>
    cases t with
    | none => rfl
    | some t =>
      simp only [Option.map_some]
      congr 2
      apply Fq6.ext' <;> simp

theorem Fq12.map_getInvert (a : Fq12 F) :
    (Fq12.mapHom f a).getInvert = a.getInvert.map fun r => r.map (Fq12.mapHom f) := by
  unfold Fq12.getInvert
  simp only [Fq12.mapHom_c0, Fq12.mapHom_c1, ← Fq6.map_square, ← Fq6.map_nonres, ← map_sub, Fq6.map_getInvert]
  generalize Fq6.getInvert (F := F) _ = t
  cases t with
  | none => rfl
  | some t =>
    cases t with
    | none => rfl
    | some t =>
      simp only [Option.map_some]
      congr 2
      apply Fq12.ext' <;> simp
end

/-! ### The functions with constants, over any field -/

/-- The constants of `bn254/src/params.rs` lines 59-383 and `bn254/src/pairing.rs` lines 11-24 that the pairing uses. -/
structure Consts (R : Type) where
  fq2C1 : Nat → R
  fq6C1 : Nat → Fq2 R
  fq6C2 : Nat → Fq2 R
  fq12C1 : Nat → Fq2 R
  xiQ : Fq2 R

namespace Consts

section
variable {R S : Type} [CommRing R] [CommRing S] (k : Consts R)

/-- `Fq2::frobenius_maps` (`bn254/src/fqn.rs` lines 394-399). -/
def frob2 (a : Fq2 R) (power : Nat) : Fq2 R := ⟨a.c0, a.c1 * k.fq2C1 (power % 2)⟩
/-- `Fq6::frobenius_maps` (`bn254/src/fqn.rs` lines 489-495). -/
def frob6 (a : Fq6 R) (power : Nat) : Fq6 R :=
  ⟨k.frob2 a.c0 power, k.frob2 a.c1 power * k.fq6C1 (power % 6), k.frob2 a.c2 power * k.fq6C2 (power % 6)⟩
/-- `Fq12::frobenius_maps` (`bn254/src/fqn.rs` lines 558-568). -/
def frob12 (a : Fq12 R) (power : Nat) : Fq12 R :=
  let c0 := k.frob6 a.c0 power
  let c1 := k.frob6 a.c1 power
  ⟨c0, ⟨c1.c0 * k.fq12C1 (power % 12), c1.c1 * k.fq12C1 (power % 12), c1.c2 * k.fq12C1 (power % 12)⟩⟩

/-- The point of the first extra step (`bn254/src/g2.rs` lines 293-299). -/
def frobPoint (g2 : Aff (Fq2 R)) : Aff (Fq2 R) :=
  ⟨⟨g2.x.c0, -g2.x.c1⟩ * k.fq6C1 1, ⟨g2.y.c0, -g2.y.c1⟩ * k.xiQ, g2.inf⟩
/-- The point of the second extra step (`bn254/src/g2.rs` lines 303-304). -/
def minusFrob2Point (g2 : Aff (Fq2 R)) : Aff (Fq2 R) := ⟨g2.x * k.fq6C1 2, g2.y, g2.inf⟩

/-- `G2PairingAffine::from` (`bn254/src/g2.rs` lines 267-313). -/
def prepare (g2 : Aff (Fq2 R)) : G2Pairing R :=
  if g2.inf then ⟨[], true⟩
  else
    let st := loopDigits.foldl (prepareStep g2) (⟨g2.x, g2.y, 1⟩, [])
    let (t, c1) := addEval st.1 (k.frobPoint g2)
    let (_, c2) := addEval t (k.minusFrob2Point g2)
    ⟨st.2 ++ [c1, c2], false⟩

/-- The part of `final_exp` after the inversion (`bn254/src/fqn.rs` lines 106-147). -/
def finalExpTail (f1 f2 : Fq12 R) : Fq12 R :=
  let f2 := f2 * f1
  let r := k.frob12 f2 2 * f2
  let fp := k.frob12 r 1
  let fp2 := k.frob12 r 2
  let fp3 := k.frob12 fp2 1
  let fu := cyclotomicExp r
  let fu2 := cyclotomicExp fu
  let fu3 := cyclotomicExp fu2
  let y3 := (k.frob12 fu 1).conjugate
  let fu2p := k.frob12 fu2 1
  let fu3p := k.frob12 fu3 1
  let y2 := k.frob12 fu2 2
  let y0 := fp * fp2 * fp3
  let y1 := r.conjugate
  let y5 := fu2.conjugate
  let y4 := (fu * fu2p).conjugate
  let y6 := cyclotomicSquare (fu3 * fu3p).conjugate * y4 * y5
  let t1 := y3 * y5 * y6
  let y6 := y6 * y2
  let t1 := cyclotomicSquare (cyclotomicSquare t1 * y6)
  let t0 := t1 * y1
  let t1 := t1 * y0
  cyclotomicSquare t0 * t1

/-- Constants that agree under a change of ring. -/
structure Agree (f : R →+* S) (k : Consts R) (k' : Consts S) : Prop where
  fq2C1 : ∀ i, f (k.fq2C1 i) = k'.fq2C1 i
  fq6C1 : ∀ i, Fq2.mapHom f (k.fq6C1 i) = k'.fq6C1 i
  fq6C2 : ∀ i, Fq2.mapHom f (k.fq6C2 i) = k'.fq6C2 i
  fq12C1 : ∀ i, Fq2.mapHom f (k.fq12C1 i) = k'.fq12C1 i
  xiQ : Fq2.mapHom f k.xiQ = k'.xiQ

variable {f : R →+* S} {k} {k' : Consts S} (h : Agree f k k')
include h

theorem map_frob2 (a : Fq2 R) (n : Nat) : Fq2.mapHom f (k.frob2 a n) = k'.frob2 (Fq2.mapHom f a) n := by
  ext <;> simp [frob2, h.fq2C1]

theorem map_frob6 (a : Fq6 R) (n : Nat) : Fq6.mapHom f (k.frob6 a n) = k'.frob6 (Fq6.mapHom f a) n := by
  apply Fq6.ext' <;> simp [frob6, map_frob2 h, h.fq6C1, h.fq6C2]

theorem map_frob12 (a : Fq12 R) (n : Nat) : Fq12.mapHom f (k.frob12 a n) = k'.frob12 (Fq12.mapHom f a) n := by
  apply Fq12.ext'
  · exact map_frob6 h _ _
  · apply Fq6.ext'
    all_goals simp only [frob12, Fq12.mapHom_c0, Fq12.mapHom_c1, Fq6.mapHom_c0, Fq6.mapHom_c1, Fq6.mapHom_c2, map_mul,
      h.fq12C1, ← map_frob6 h]

theorem map_finalExpTail (a b : Fq12 R) :
    Fq12.mapHom f (k.finalExpTail a b) = k'.finalExpTail (Fq12.mapHom f a) (Fq12.mapHom f b) := by
  simp only [finalExpTail, map_mul, map_frob12 h, map_cyclotomicExp, map_cyclotomicSquare, Fq12.map_conjugate]

theorem map_frobPoint (g : Aff (Fq2 R)) : mapAff2 f (k.frobPoint g) = k'.frobPoint (mapAff2 f g) := by
  have e (a : Fq2 R) : Fq2.mapHom f ⟨a.c0, -a.c1⟩ = ⟨(Fq2.mapHom f a).c0, -(Fq2.mapHom f a).c1⟩ := by ext <;> simp
  unfold frobPoint mapAff2
  simp only [map_mul, h.fq6C1, h.xiQ, e]

theorem map_minusFrob2Point (g : Aff (Fq2 R)) : mapAff2 f (k.minusFrob2Point g) = k'.minusFrob2Point (mapAff2 f g) := by
  unfold minusFrob2Point mapAff2
  simp only [map_mul, h.fq6C1]

theorem map_prepare (g : Aff (Fq2 R)) : mapG2 f (k.prepare g) = k'.prepare (mapAff2 f g) := by
  unfold prepare
  have e0 : (mapAff2 f g).inf = g.inf := rfl
  rw [e0]
  split
  · rfl
  · have e1 : ((⟨(mapAff2 f g).x, (mapAff2 f g).y, 1⟩, []) : Proj (Fq2 S) × List (PairingCoeff S)) =
        (mapProj f (⟨g.x, g.y, 1⟩ : Proj (Fq2 R)), ([] : List (PairingCoeff R)).map (mapCoeff f)) := by
      unfold mapProj
      simp only [map_one]
      rfl
    have e2 := map_prepareFold f g loopDigits (⟨g.x, g.y, 1⟩, [])
    simp only [e1]
    rw [e2]
    simp only [← map_frobPoint h, ← map_minusFrob2Point h, map_addEval]
    simp [mapG2]

end

section
variable {F K : Type} [_root_.Field F] [_root_.Field K] [DecidableEq F] [DecidableEq K] (k : Consts F)

/-- `final_exp` (`bn254/src/fqn.rs` lines 39-152). -/
def finalExp (f : Fq12 F) : Option (Fq12 F) :=
  match f.getInvert with
  | some (some f2) => some (k.finalExpTail f.conjugate f2)
  | _ => none

/-- `pairing` (`bn254/src/pairing.rs` lines 33-36). -/
def pairing (g1 : Aff F) (g2 : Aff (Fq2 F)) : Option (Fq12 F) := do
  let f ← multiMillerLoop [(g1, k.prepare g2)]
  k.finalExp f

variable {f : F →+* K} {k} {k' : Consts K} (h : Agree f k k')
include h

theorem map_finalExp (a : Fq12 F) : (k.finalExp a).map (Fq12.mapHom f) = k'.finalExp (Fq12.mapHom f a) := by
  unfold finalExp
  rw [Fq12.map_getInvert]
  cases a.getInvert with
  | none => rfl
  | some r =>
    cases r with
    | none => rfl
    | some r => simp only [Option.map_some, map_finalExpTail h, Fq12.map_conjugate]

theorem map_pairing (p : Aff F) (q : Aff (Fq2 F)) :
    (k.pairing p q).map (Fq12.mapHom f) = k'.pairing (mapAff f p) (mapAff2 f q) := by
  unfold pairing
  rw [← map_prepare h]
  have h1 := map_multiMillerLoop f [(p, k.prepare q)]
  rw [List.map_cons, List.map_nil] at h1
  rw [h1]
  cases multiMillerLoop [(p, k.prepare q)] with
  | none => rfl
  | some a => exact map_finalExp h a

end

end Consts

/-! ### Residues and words -/

/-- The constants as residues. -/
def constsV : Consts FqV := ⟨frobFq2C1, frobFq6C1, frobFq6C2, frobFq12C1, xiToQMinus1Over2⟩

theorem frobV (a : Fq12 FqV) (n : Nat) : constsV.frob12 a n = a.frobeniusMaps n := rfl

theorem finalExpV : constsV.finalExp = finalExp := by
  funext f
  unfold Consts.finalExp finalExp
  generalize f.getInvert = r
  cases r with
  | none => rfl
  | some r =>
    cases r with
    | none => rfl
    | some r => simp only [Consts.finalExpTail, frobV]

theorem prepareV (g : Aff (Fq2 FqV)) : constsV.prepare g = prepare g := rfl

theorem pairingV (p : Aff FqV) (q : Aff (Fq2 FqV)) : constsV.pairing p q = pairing p q := by
  unfold Consts.pairing pairing
  rw [prepareV, finalExpV]

/-- Elements of Fq as words. -/
abbrev FqW := Words fqParams

instance (P : FieldParams) (a : L4) : Decidable (Canonical P a) := by unfold Canonical L4.Wf; infer_instance

/-- A constant of `params.rs`, given by its limbs. -/
def wordOf (a : L4) : FqW := if h : Canonical fqParams a then ⟨a, h⟩ else 0
/-- A constant of `params.rs`, given by its limbs. -/
def wordOf2 (a : Fq2 L4) : Fq2 FqW := ⟨wordOf a.c0, wordOf a.c1⟩

/-- The limbs of `XI_TO_Q_MINUS_1_OVER_2` (`bn254/src/pairing.rs` lines 11-24). -/
def xiQRaw : Fq2 L4 :=
  ⟨⟨0xe4bbdd0c2936b629, 0xbb30f162e133bacb, 0x31a9d1b6f9645366, 0x253570bea500f8dd⟩,
    ⟨0xa1d77ce45ffe77c7, 0x07affd117826d1db, 0x6d16bd27bb7edc6b, 0x2c87200285defecc⟩⟩

/-- The constants as the limbs of `bn254/src/params.rs` and `bn254/src/pairing.rs`. -/
def constsW : Consts FqW where
  fq2C1 i := wordOf (frobFq2C1Raw.getD i ⟨0, 0, 0, 0⟩)
  fq6C1 i := wordOf2 (frobFq6C1Raw.getD i ⟨⟨0, 0, 0, 0⟩, ⟨0, 0, 0, 0⟩⟩)
  fq6C2 i := wordOf2 (frobFq6C2Raw.getD i ⟨⟨0, 0, 0, 0⟩, ⟨0, 0, 0, 0⟩⟩)
  fq12C1 i := wordOf2 (frobFq12C1Raw.getD i ⟨⟨0, 0, 0, 0⟩, ⟨0, 0, 0, 0⟩⟩)
  xiQ := wordOf2 xiQRaw

/-- The residues the words stand for. -/
noncomputable abbrev den : FqW →+* FqV := Words.hom

theorem den_wordOf {a : L4} (h : Canonical fqParams a) : den (wordOf a) = coeff a := by
  unfold wordOf
  rw [dif_pos h, coeff_eq]
  rfl

/-- Both limb arrays are canonical. -/
def Canon2 (a : Fq2 L4) : Prop := Canonical fqParams a.c0 ∧ Canonical fqParams a.c1
instance (a : Fq2 L4) : Decidable (Canon2 a) := by unfold Canon2; infer_instance

theorem den_wordOf2 {a : Fq2 L4} (h : Canon2 a) : Fq2.mapHom den (wordOf2 a) = coeff2 a := by
  unfold wordOf2 coeff2
  ext
  · exact den_wordOf h.1
  · exact den_wordOf h.2

theorem getD_all {A : Type} {p : A → Prop} {l : List A} {d : A} (hl : ∀ a ∈ l, p a) (hd : p d) (i : Nat) : p (l.getD i d) := by
  rw [List.getD_eq_getElem?_getD]
  cases h : l[i]? with
  | none => exact hd
  | some a => exact hl a (List.mem_of_getElem? h)

theorem canon2_zero : Canon2 ⟨⟨0, 0, 0, 0⟩, ⟨0, 0, 0, 0⟩⟩ := by decide +kernel
theorem canon_fq2C1 : ∀ a ∈ frobFq2C1Raw, Canonical fqParams a := by decide +kernel
theorem canon_fq6C1 : ∀ a ∈ frobFq6C1Raw, Canon2 a := by decide +kernel
theorem canon_fq6C2 : ∀ a ∈ frobFq6C2Raw, Canon2 a := by decide +kernel
theorem canon_fq12C1 : ∀ a ∈ frobFq12C1Raw, Canon2 a := by decide +kernel
theorem canon_xiQ : Canon2 xiQRaw := by decide +kernel

theorem agree : Consts.Agree den constsW constsV where
  fq2C1 i := den_wordOf (getD_all canon_fq2C1 canon2_zero.1 i)
  fq6C1 i := den_wordOf2 (getD_all canon_fq6C1 canon2_zero i)
  fq6C2 i := den_wordOf2 (getD_all canon_fq6C2 canon2_zero i)
  fq12C1 i := den_wordOf2 (getD_all canon_fq12C1 canon2_zero i)
  xiQ := den_wordOf2 canon_xiQ

theorem den_pairing (p : Aff FqW) (q : Aff (Fq2 FqW)) :
    (constsW.pairing p q).map (Fq12.mapHom den) = pairing (mapAff den p) (mapAff2 den q) := by
  rw [← pairingV]
  exact Consts.map_pairing agree p q

/-! ### `Fq2` with the code's own squaring -/

/-- `mul_ext_field` (`bn254/src/fqn.rs` lines 359-363) on limbs. -/
def Fq2.mulLimb (a b : Fq2 L4) : Fq2 L4 :=
  ⟨fqParams.sub (fqParams.mul a.c0 b.c0) (fqParams.mul a.c1 b.c1),
    fqParams.add (fqParams.mul a.c0 b.c1) (fqParams.mul a.c1 b.c0)⟩

/-- `square_ext_field` (`bn254/src/fqn.rs` lines 365-369) on limbs. -/
def Fq2.squareLimb (a : Fq2 L4) : Fq2 L4 :=
  ⟨fqParams.sub (fqParams.square a.c0) (fqParams.square a.c1), fqParams.double (fqParams.mul a.c0 a.c1)⟩

/-- `add` (`zkstd/src/macros/extension_field.rs`) on limbs. -/
def Fq2.addLimb (a b : Fq2 L4) : Fq2 L4 := ⟨fqParams.add a.c0 b.c0, fqParams.add a.c1 b.c1⟩

/-- `G2_PARAM_B` (`bn254/src/params.rs` lines 44-57). -/
def g2BLimb : Fq2 L4 :=
  ⟨fqParams.toMontForm ⟨0x3267e6dc24a138e5, 0xb5b4c5e559dbefa3, 0x81be18991be06ac3, 0x2b149d40ceb8aaae⟩,
    fqParams.toMontForm ⟨0xe4a2bd0685c315d2, 0xa74fa084e52d1852, 0xcd2cafadeed8fdf4, 0x009713b03af0fed4⟩⟩

/-- `G2Affine::is_on_curve` (`zkstd/src/macros/curve/weierstrass/group.rs` lines 59-65) on limbs. -/
def g2IsOnCurveLimb (p : Aff (Fq2 L4)) : Bool :=
  if p.inf then true
  else decide (p.y.squareLimb = Fq2.addLimb (Fq2.mulLimb p.x.squareLimb p.x) g2BLimb)

/-- The limbs of an element. -/
def Fq2.limbs (a : Fq2 FqW) : Fq2 L4 := ⟨a.c0.limbs, a.c1.limbs⟩

end Kogarashi.Tower
