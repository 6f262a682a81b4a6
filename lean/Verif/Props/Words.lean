import Verif.Tower.Words
import Verif.Props.Bilinear
import Verif.Props.CurveLimb

/-!
# Properties C78, C79: extension fields and the pairing on machine words

`Words P` are the limb arrays below the modulus; its operations are the limb routines of the code.
-/

namespace Kogarashi.Props

open Kogarashi Spec Tower Curve Kogarashi.Field Limbs

/-- **C78**, base field: with the code's addition, subtraction, negation and multiplication the canonical limb arrays are
a field, isomorphic to the residues by the value they stand for; the inverse is the power computed by square-and-multiply
with products for squares. -/
theorem C78_base {P : FieldParams} [ValidWords P] :
    (∃ e : Words P ≃+* ZMod P.m, ∀ a, e a = denote P a.limbs) ∧
    (∀ a b : Words P, (a + b).limbs = P.add a.limbs b.limbs ∧ (a - b).limbs = P.sub a.limbs b.limbs ∧
      (a * b).limbs = P.mul a.limbs b.limbs ∧ (-a).limbs = P.neg a.limbs ∧ (a + a).limbs = P.double a.limbs) ∧
    (0 : Words P).limbs = FieldParams.zero ∧ (1 : Words P).limbs = P.one := by
  refine ⟨⟨RingEquiv.ofBijective Words.hom ⟨Words.res_inj, Words.res_surj⟩, fun a => rfl⟩,
    fun a b => ⟨rfl, rfl, rfl, rfl, ?_⟩, rfl, rfl⟩
  obtain ⟨h1, h2⟩ := double_denote ValidWords.valid a.canonical
  exact denote_inj ValidWords.valid (a + a).canonical h1 (by rw [h2]; exact Words.res_add a a)

/-- The residues the coefficients stand for. -/
noncomputable abbrev read2 : Fq2 FqW →+* Fq2 FqV := Fq2.mapHom den
/-- The residues the coefficients stand for. -/
noncomputable abbrev read6 : Fq6 FqW →+* Fq6 FqV := Fq6.mapHom den
/-- The residues the coefficients stand for. -/
noncomputable abbrev read12 : Fq12 FqW →+* Fq12 FqV := Fq12.mapHom den

theorem read2_inj : Function.Injective read2 := by
  intro a b h
  ext
  · exact Words.ext_iff.mp (Words.res_inj (congrArg Fq2.c0 h))
  · exact Words.ext_iff.mp (Words.res_inj (congrArg Fq2.c1 h))

theorem read12_inj : Function.Injective read12 := by
  intro a b h
  have h0 := congrArg Fq12.c0 h
  have h1 := congrArg Fq12.c1 h
  apply Fq12.ext'
  · exact Fq6.ext' (read2_inj (congrArg Fq6.c0 h0)) (read2_inj (congrArg Fq6.c1 h0)) (read2_inj (congrArg Fq6.c2 h0))
  · exact Fq6.ext' (read2_inj (congrArg Fq6.c0 h1)) (read2_inj (congrArg Fq6.c1 h1)) (read2_inj (congrArg Fq6.c2 h1))

/-- **C78**, `Fq12`: the routines that multiply, none of which squares in the base field, are exact on limbs, for all
inputs: addition, subtraction, negation, doubling, multiplication, squaring (of `Fq12`, which multiplies in `Fq6`),
conjugation, sparse multiplication and the Frobenius maps with the limbs of the tables. -/
theorem C78_fq12 (a b : Fq12 FqW) (c d e : Fq2 FqW) (n : Nat) :
    read12 (a + b) = read12 a + read12 b ∧ read12 (a - b) = read12 a - read12 b ∧ read12 (-a) = -read12 a ∧
    read12 a.double = read12 a + read12 a ∧ read12 (a * b) = read12 a * read12 b ∧
    read12 a.square = read12 a * read12 a ∧ read12 a.conjugate = (read12 a).conjugate ∧
    read12 (a.mulBy034 c d e) = (read12 a).mulBy034 (read2 c) (read2 d) (read2 e) ∧
    read12 (constsW.frob12 a n) = (read12 a).frobeniusMaps n ∧ Function.Injective read12 := by
  refine ⟨map_add _ _ _, map_sub _ _ _, map_neg _ _, ?_, map_mul _ _ _, ?_, Fq12.map_conjugate den a,
    Fq12.map_mulBy034 den a c d e, ?_, read12_inj⟩
  · rw [Fq12.double_eq, map_add]
  · rw [Fq12.square_eq, map_mul]
  · exact (Consts.map_frob12 agree a n).trans (frobV _ _)

/-- **C78**, `Fq2` multiplication on limbs is the multiplication of the words. -/
theorem C78_fq2_mul (a b : Fq2 FqW) : Fq2.mulLimb a.limbs b.limbs = (a * b).limbs ∧ read2 (a * b) = read2 a * read2 b :=
  ⟨rfl, map_mul _ _ _⟩

/-- **C78**, `Fq2` squaring, when the coefficients lose no carry.  Missing: the others (`C78_fq2_square_refuted`). -/
theorem C78_fq2_square_partial (a : Fq2 FqW) (h : ¬ SquareLosesCarry a.c0.limbs ∧ ¬ SquareLosesCarry a.c1.limbs) :
    a.limbs.squareLimb = (a * a).limbs := by
  have s0 := (C03_square_partial fqParams_valid a.c0.canonical).mpr h.1
  have s1 := (C03_square_partial fqParams_valid a.c1.canonical).mpr h.2
  have hd := (C78_base (P := fqParams)).2.1 (a.c0 * a.c1) 0
  have hm : a.c1 * a.c0 = a.c0 * a.c1 := mul_comm _ _
  apply Fq2.ext
  · show fqParams.sub (fqParams.square a.c0.limbs) (fqParams.square a.c1.limbs) = _
    rw [s0, s1]
    rfl
  · show fqParams.double (fqParams.mul a.c0.limbs a.c1.limbs) = (a.c0 * a.c1 + a.c1 * a.c0).limbs
    rw [hm, hd.2.2.2.2]
    rfl

/-- **C78 is false of the code** for squaring: there are elements of `Fq2` whose square on limbs is not the product. -/
theorem C78_fq2_square_refuted : ∃ a : Fq2 FqW, a.limbs.squareLimb ≠ (a * a).limbs :=
  ⟨⟨⟨badSquare, by unfold Canonical; decide +kernel⟩, 0⟩, by decide +kernel⟩

/-- The words of a point of the twist whose `x` loses a carry when squared. -/
def badTwist : Aff (Fq2 FqW) :=
  ⟨⟨⟨⟨0x922766581e27a1c0, 0x301850c5a38fd547, 0xee2b92e9cf5dd258, 0xb910562ae97ba95⟩, by unfold Canonical; decide +kernel⟩,
    ⟨⟨0xa6ba871b8b1e1b3a, 0x14f1d651eb8e167b, 0xccdd46def0f28c58, 0x1c14ef83340fbe5e⟩, by unfold Canonical; decide +kernel⟩⟩,
   ⟨⟨⟨0x877e69699f81834e, 0x1d13510834c13cee, 0xd17e975000c59939, 0x27bbc240b9e78e2b⟩, by unfold Canonical; decide +kernel⟩,
    ⟨⟨0xcb87865d33c9df6e, 0xd3030f584679cd96, 0x42b51adb98918261, 0x7d1d9f542605b1a⟩, by unfold Canonical; decide +kernel⟩⟩,
   false⟩

/-- `G2_PARAM_B` as words. -/
def g2BW : Fq2 FqW := ⟨⟨g2BLimb.c0, by unfold Canonical; decide +kernel⟩, ⟨g2BLimb.c1, by unfold Canonical; decide +kernel⟩⟩

theorem read_g2BW : read2 g2BW = g2B := by
  obtain ⟨-, h2⟩ := toMontForm_denote fqParams_valid
    (v := ⟨0x3267e6dc24a138e5, 0xb5b4c5e559dbefa3, 0x81be18991be06ac3, 0x2b149d40ceb8aaae⟩) (by decide)
  obtain ⟨-, h4⟩ := toMontForm_denote fqParams_valid
    (v := ⟨0xe4a2bd0685c315d2, 0xa74fa084e52d1852, 0xcd2cafadeed8fdf4, 0x009713b03af0fed4⟩) (by decide)
  apply Fq2.ext
  · exact h2
  · exact h4

/-- **C78 is false of the code** for points of the twist: a point of the curve of G2, with canonical coordinates, is
rejected by `is_on_curve`. -/
theorem C78_g2_on_curve_refuted : ∃ p : Aff (Fq2 FqW),
    (read2 p.y) ^ 2 = (read2 p.x) ^ 3 + g2B ∧ g2IsOnCurveLimb ⟨p.x.limbs, p.y.limbs, p.inf⟩ = false := by
  refine ⟨badTwist, ?_, by decide +kernel⟩
  rw [← read_g2BW, ← map_pow, ← map_pow, ← map_add]
  have h : badTwist.y * badTwist.y = badTwist.x * badTwist.x * badTwist.x + g2BW := by decide +kernel
  rw [pow_two, pow_succ, pow_two, h]

example : ¬ SquareLosesCarry (1 : FqW).limbs ∧ (⟨1, 1⟩ : Fq2 FqW) ≠ 0 := by
  refine ⟨by unfold SquareLosesCarry; decide +kernel, by decide +kernel⟩

/-! ### C79 -/

/-- Words of a point of G1 or G2. -/
noncomputable def readG1 (p : Aff FqW) : Aff FqV := ⟨den p.x, den p.y, p.inf⟩
/-- Words of a point of G1 or G2. -/
noncomputable def readG2 (q : Aff (Fq2 FqW)) : Aff (Fq2 FqV) := ⟨read2 q.x, read2 q.y, q.inf⟩

/-- **C79**, for the code with `square` computing the product: run on limbs, with the limbs of the tables in `params.rs`,
preparation, Miller loop and final exponentiation give the limbs of the pairing, and panic never when the pairing does
not.  Runs of the code's own `square` are C91. -/
theorem C79_pairing_partial (p : Aff FqW) (q : Aff (Fq2 FqW)) :
    (constsW.pairing p q).map read12 = pairing (readG1 p) (readG2 q) := den_pairing p q

theorem lift_words {R S : Type*} [CommRing R] [CommRing S] (f : R →+* S) (hf : Function.Injective f) {o o' : Option R}
    {a : S} {n : Nat} {Z : Prop} (h1 : o.map f = some a) (h3 : o'.map f = some (a ^ n)) (hn : o.map f = some 1 ↔ Z) :
    ∃ w, o = some w ∧ o' = some (w ^ n) ∧ (w = 1 ↔ Z) := by
  obtain ⟨w, e1, e2⟩ := Option.map_eq_some_iff.mp h1
  obtain ⟨w', e3, e4⟩ := Option.map_eq_some_iff.mp h3
  refine ⟨w, e1, ?_, ?_⟩
  · rw [e3]
    congr 1
    apply hf
    rw [e4, map_pow, e2]
  · rw [← hn, e1, Option.map_some, Option.some_inj, ← map_one f]
    exact hf.eq_iff.symm

/-- **C79**, corollary: on limbs the pairing is bilinear and non-degenerate on G1 times the r-torsion of the twist. -/
theorem C79_bilinear_partial {p p' : Aff FqW} {P : (curve g1B).Point} {q q' : Aff (Fq2 FqW)} {Q : (curve g2B).Point}
    (k l : Nat) (hp : AffRep g1B (readG1 p) P) (hp' : AffRep g1B (readG1 p') (k • P)) (hq : AffRep g2B (readG2 q) Q)
    (hq' : AffRep g2B (readG2 q') (l • Q)) (hQ : frParams.m • Q = 0) :
    ∃ a, constsW.pairing p q = some a ∧ constsW.pairing p' q' = some (a ^ (k * l)) ∧ (a = 1 ↔ P = 0 ∨ Q = 0) := by
  obtain ⟨a, h1, -, h3⟩ := C74_scalar k l hp hp' hq hq' hQ
  have hn := C74_nondegenerate hp hq hQ
  rw [← C79_pairing_partial] at h1 h3 hn
  exact lift_words read12 read12_inj h1 h3 hn

/-- The words of the generator of G1 (`bn254/src/params.rs` lines 8-9). -/
def g1GenW : Aff FqW := ⟨wordOf fqParams.one, wordOf (fqParams.toMontForm ⟨2, 0, 0, 0⟩), false⟩

theorem g1GenW_x : den g1GenW.x = 1 := by
  rw [g1GenW, den_wordOf (a := fqParams.one) (r_canonical fqParams_valid), coeff_eq]
  exact denote_one fqParams_valid

theorem g1GenW_y : den g1GenW.y = 2 := by
  obtain ⟨h1, h2⟩ := toMontForm_denote fqParams_valid (v := ⟨2, 0, 0, 0⟩) (by decide)
  rw [g1GenW, den_wordOf h1, coeff_eq]
  exact h2.trans (by decide +kernel)

/-- Non-vacuity: words that hold the generators exist, their multiples too, and on limbs the pairing of the generators is not
1. -/
example (k l : Nat) : ∃ (p' : Aff FqW) (q q' : Aff (Fq2 FqW)) (a : Fq12 FqW), AffRep g1B (readG1 p') (k • g1Point) ∧
    AffRep g2B (readG2 q) g2Point ∧ AffRep g2B (readG2 q') (l • g2Point) ∧
    constsW.pairing g1GenW q = some a ∧ constsW.pairing p' q' = some (a ^ (k * l)) ∧ a ≠ 1 := by
  have surj : ∀ x : FqV, ∃ w : FqW, den w = x := Words.res_surj
  have lift1 : ∀ p : Aff FqV, ∃ w, readG1 w = p := by
    rintro ⟨x, y, i⟩
    obtain ⟨u, rfl⟩ := surj x
    obtain ⟨v, rfl⟩ := surj y
    exact ⟨⟨u, v, i⟩, rfl⟩
  have lift2 : ∀ x : Fq2 FqV, ∃ w, read2 w = x := by
    rintro ⟨x, y⟩
    obtain ⟨u, rfl⟩ := surj x
    obtain ⟨v, rfl⟩ := surj y
    exact ⟨⟨u, v⟩, rfl⟩
  have lift3 : ∀ p : Aff (Fq2 FqV), ∃ w, readG2 w = p := by
    rintro ⟨x, y, i⟩
    obtain ⟨u, rfl⟩ := lift2 x
    obtain ⟨v, rfl⟩ := lift2 y
    exact ⟨⟨u, v, i⟩, rfl⟩
  obtain ⟨p, hp⟩ := aff_exists g1B (k • g1Point)
  obtain ⟨q, hq⟩ := aff_exists g2B (l • g2Point)
  obtain ⟨p', rfl⟩ := lift1 p
  obtain ⟨q', rfl⟩ := lift3 q
  obtain ⟨g, hg⟩ := lift3 g2Gen
  have h1 : readG1 g1GenW = g1Gen := by
    have e : readG1 g1GenW = ⟨den g1GenW.x, den g1GenW.y, false⟩ := rfl
    rw [e, g1GenW_x, g1GenW_y]
    rfl
  have r1 := g1Gen_rep
  have r2 := g2Gen_rep
  rw [← h1] at r1
  rw [← hg] at r2
  obtain ⟨a, e1, e2, e3⟩ := C79_bilinear_partial k l r1 hp r2 hq g2_order
  refine ⟨p', g, q', a, hp, r2, hq, e1, e2, fun h => ?_⟩
  rcases e3.mp h with h | h
  · exact WeierstrassCurve.Affine.Point.some_ne_zero _ h
  · exact WeierstrassCurve.Affine.Point.some_ne_zero _ h

end Kogarashi.Props
