import Verif.Props.IvcPanic
import Verif.Props.Scale
import Verif.Nova.OnWireProof
import Verif.Spec.NovaStruct

/-!
# Property C110: the size of a recursive proof does not depend on the number of steps
-/

set_option exponentiation.threshold 1600

namespace Kogarashi.Props

open Kogarashi Spec Nova Curve Kogarashi.Field Limbs Spec.Scale Kogarashi.Scale Nova.OnWire

/-- The bytes of a compact integer: one, two, four, or one more than the bytes of the integer. -/
def compactSize (n : Nat) : Nat :=
  if n < 2 ^ 6 then 1 else if n < 2 ^ 14 then 2 else if n < 2 ^ 30 then 4 else Nat.log 256 n + 2

/-- The bytes of a vector of `n` field elements. -/
def vecSize (n : Nat) : Nat := compactSize n + 32 * n

/-- The bytes of a proof apart from its counter, for systems with `w1`, `w2` witness wires and `m1`, `m2` constraints: four vectors of one
element, five points, two scalars, three vectors of two public inputs, three witnesses and two error vectors. -/
def proofSize (w1 m1 w2 m2 : Nat) : Nat :=
  4 * vecSize 1 + 5 * 65 + 2 * 32 + 3 * vecSize 2 + vecSize w1 + vecSize m1 + 2 * vecSize w2 + vecSize m2

theorem le_length (k n : Nat) : (le k n).length = k := by simp [le]

theorem compact_length (n : Nat) : (compact n).length = compactSize n := by
  unfold compact compactSize
  split
  · exact le_length _ _
  · split
    · exact le_length _ _
    · split
      · exact le_length _ _
      · rw [List.length_append, le_length, le_length]; omega

theorem field_length (a : L4) : (field a).length = 32 := by
  simp only [field, List.length_append, le_length]

theorem point_length (p : RawAff) : (point p).length = 65 := by
  simp only [point, List.length_append, field_length, List.length_cons, List.length_nil]

theorem vec_length (l : List L4) : (Spec.Scale.vec field l).length = vecSize l.length := by
  unfold Spec.Scale.vec vecSize
  rw [List.length_append, compact_length, List.length_flatMap]
  congr 1
  have : ∀ l : List L4, (l.map fun a => (field a).length).sum = 32 * l.length := by
    intro l
    induction l with
    | nil => rfl
    | cons a l ih => rw [List.map_cons, List.sum_cons, ih, field_length, List.length_cons]; omega
  exact this l

theorem compactSize_le {n : Nat} (h : n < 2 ^ 64) : 1 ≤ compactSize n ∧ compactSize n ≤ 9 := by
  unfold compactSize
  split
  · omega
  · split
    · omega
    · split
      · omega
      · have : Nat.log 256 n < 8 := Nat.log_lt_of_lt_pow (by omega) (by norm_num; exact h)
        omega

theorem rinst_length (u : RInst L4 RawAff) : (rinst u).length = 2 * 65 + 32 + vecSize u.x.length := by
  simp only [rinst, List.length_append, point_length, field_length, vec_length]

/-- The size of the encoding of any proof, from the lengths of its vectors. -/
theorem proof_length (q : WireProof) : (proof q).length = compactSize q.i + vecSize q.z01.length + vecSize q.z02.length +
    vecSize q.zi1.length + vecSize q.zi2.length + 5 * 65 + 2 * 32 + vecSize q.single2.x.length + vecSize q.range1.x.length +
    vecSize q.range2.x.length + vecSize q.wsingle2.length + vecSize q.wrange1.w.length + vecSize q.wrange1.e.length +
    vecSize q.wrange2.w.length + vecSize q.wrange2.e.length := by
  simp only [proof, List.length_append, compact_length, point_length, vec_length, rinst_length]
  omega

section
variable {P S : Nat} [Fact P.Prime] [Fact S.Prime] {b1 : ZMod S} {b2 : ZMod P}
  [Module (ZMod P) (curve b1).Point] [Module (ZMod S) (curve b2).Point]
  {C : Cycle P S (curve b1).Point (curve b2).Point} {pp : PublicParams P S (curve b1).Point (curve b2).Point}
  {z01 : List (ZMod P)} {z02 : List (ZMod S)}

/-- The lengths of all the vectors of a proof. -/
structure Lengths (pp : PublicParams P S (curve b1).Point (curve b2).Point) (pf : RecursiveProof P S (curve b1).Point (curve b2).Point) :
    Prop where
  z01 : pf.z01.length = 1
  z02 : pf.z02.length = 1
  zi1 : pf.zi1.length = 1
  zi2 : pf.zi2.length = 1
  x0 : pf.single2.x.length = 2
  x1 : pf.range1.x.length = 2
  x2 : pf.range2.x.length = 2
  sized : Sized pp pf

theorem lengths_of_inv (hC : C.Ok) (hpp : pp.Ok C) (h1 : z01.length = 1) (h2 : z02.length = 1) {n : Nat}
    {st : Ivc P S (curve b1).Point (curve b2).Point} (h : Inv C pp z01 z02 n st) : Lengths pp st.proof := by
  have e : ∀ {F G : Type} [_root_.Field F] [DecidableEq F] [AddCommGroup G] [Module F G] [DecidableEq G] {S : Shape F} (_ : ShapeOk S)
      {i : RInst F G} {w : RWit F}, isSatRelaxed S i w = some true → w.e.length = S.m := by
    intro F G _ _ _ _ _ S hS i w hs
    by_contra hne
    have := (relaxed_returns hS (i := i) (w := w)).mpr (fun k => hne k.2)
    rw [this] at hs
    cases hs
  refine ⟨?_, ?_, ?_, ?_, ?_, h.x1, h.x2, ⟨h.l0, h.l1, h.l2, e hpp.ok1 h.sat1, e hpp.ok2 h.sat2⟩⟩
  · exact (congrArg List.length h.start1).trans h1
  · exact (congrArg List.length h.start2).trans h2
  · exact (congrArg List.length h.zi1).trans (hC.FC1.iterate_length h1 n)
  · exact (congrArg List.length h.zi2).trans (hC.FC2.iterate_length h2 n)
  · exact (congrArg List.length h.x).trans rfl

theorem steps_lengths (hC : C.Ok) (hpp : pp.Ok C) (h1 : z01.length = 1) (h2 : z02.length = 1) : ∀ (k : Nat) {n : Nat}
    {st : Ivc P S (curve b1).Point (curve b2).Point} {pfs}, n ≠ 0 → n + k ≤ 2 ^ 64 → st.i = n → Inv C pp z01 z02 n st → steps C pp k st = some pfs →
    ∀ j pf, pfs[j]? = some pf → pf.i = n + 1 + j ∧ Lengths pp pf
  | 0, n, st, pfs, _, _, _, _, hs, j, pf, hj => by cases hs; cases hj
  | k + 1, n, st, pfs, hn, hk, hi, h, hs, j, pf, hj => by
    obtain ⟨st', e1, e2, e3⟩ := step_inv hC hpp h1 h2 hn (by omega) hi h
    unfold steps at hs
    rw [e1] at hs
    simp only [Option.bind_eq_bind, Option.bind_some] at hs
    obtain ⟨ps, f1, f2⟩ := Option.bind_eq_some_iff.mp hs
    cases f2
    cases j with
    | zero => cases hj; exact ⟨e2, lengths_of_inv hC hpp h1 h2 e3⟩
    | succ j =>
      obtain ⟨g1, g2⟩ := steps_lengths hC hpp h1 h2 k (n := n + 1) (by omega) (by omega) e2 e3 f1 j pf hj
      exact ⟨by omega, g2⟩

theorem steps_length : ∀ (k : Nat) {st : Ivc P S (curve b1).Point (curve b2).Point} {pfs}, steps C pp k st = some pfs → pfs.length = k
  | 0, _, _, hs => by cases hs; rfl
  | k + 1, st, pfs, hs => by
    unfold steps at hs
    obtain ⟨⟨s', p'⟩, -, hs⟩ := Option.bind_eq_some_iff.mp hs
    obtain ⟨ps, f1, f2⟩ := Option.bind_eq_some_iff.mp hs
    cases f2
    rw [List.length_cons, steps_length k f1]

/-- **C110, lengths.** Every proof a prover returns, after any number of steps from any input, has vectors of the same lengths, fixed by the
parameters. -/
theorem C110_lengths_partial (hC : C.Ok) {gen1 : Nat → List (curve b1).Point} {gen2 : Nat → List (curve b2).Point} (hs : setup C gen1 gen2 = some pp)
    {y1 : ZMod P} {y2 : ZMod S} {st : Ivc P S (curve b1).Point (curve b2).Point} (hi : ivcInit C pp [y1] [y2] = some st) {N : Nat}
    (hN : N < 2 ^ 64) {pfs : List (RecursiveProof P S (curve b1).Point (curve b2).Point)} (hst : steps C pp N st = some pfs) :
    ∀ n pf, pfs[n]? = some pf → pf.i = n + 1 ∧ Lengths pp pf := by
  have hpp := setup_ok hC hs
  obtain ⟨st', hi', h0, hinv⟩ := init_inv hC hpp (z01 := [y1]) (z02 := [y2]) rfl rfl
  rw [hi] at hi'
  cases hi'
  cases N with
  | zero => cases hst; intro n pf hn; cases hn
  | succ N =>
    have hinv' : Inv C pp [y1] [y2] 1 { st with i := 1 } := ⟨hinv.start1, hinv.start2, hinv.zi1, hinv.zi2, hinv.sat0, hinv.sat1, hinv.sat2,
      hinv.x, hinv.l0, hinv.l1, hinv.l2, hinv.x1, hinv.x2, hinv.u1, hinv.u2⟩
    unfold steps proveStep at hst
    rw [if_pos h0] at hst
    simp only [Option.bind_eq_bind, Option.bind_some] at hst
    obtain ⟨ps, f1, f2⟩ := Option.bind_eq_some_iff.mp hst
    cases f2
    intro n pf hn
    cases n with
    | zero => cases hn; exact ⟨rfl, lengths_of_inv hC hpp rfl rfl hinv'⟩
    | succ n =>
      obtain ⟨g1, g2⟩ := steps_lengths hC hpp rfl rfl N (n := 1) (by omega) (by omega) rfl hinv' f1 n pf hn
      exact ⟨by omega, g2⟩

end

section
variable {P S : FieldParams} [hvP : ValidWords P] [hvS : ValidWords S] [Fact P.m.Prime] [Fact S.m.Prime] {B1 : ZMod S.m} {B2 : ZMod P.m}
  [Module (ZMod P.m) (curve B1).Point] [Module (ZMod S.m) (curve B2).Point]

/-- **C110, bytes.** The encoding of the proof returned by the `n`-th call has as many bytes as the compact integer `n` plus a number that
depends only on the sizes of the two circuits, neither on the number of steps nor on the input: between any two proofs made with the same
parameters the difference is at most eight bytes. -/
theorem C110_bytes_partial {C : Cycle P.m S.m (curve B1).Point (curve B2).Point} (hC : C.Ok) {gen1 : Nat → List (curve B1).Point}
    {gen2 : Nat → List (curve B2).Point} {pp : PublicParams P.m S.m (curve B1).Point (curve B2).Point} (hs : setup C gen1 gen2 = some pp)
    {y1 : ZMod P.m} {y2 : ZMod S.m} {st : Ivc P.m S.m (curve B1).Point (curve B2).Point} (hi : ivcInit C pp [y1] [y2] = some st) {N : Nat}
    (hN : N < 2 ^ 64) {pfs : List (RecursiveProof P.m S.m (curve B1).Point (curve B2).Point)} (hst : steps C pp N st = some pfs)
    {n : Nat} {pf : RecursiveProof P.m S.m (curve B1).Point (curve B2).Point} (hn : pfs[n]? = some pf) {w : WRecursiveProof P S}
    (hw : ProofHolds w pf) :
    (proof (proofTo w)).length =
      compactSize (n + 1) + proofSize pp.shape1.witnessLength pp.shape1.m pp.shape2.witnessLength pp.shape2.m ∧
    1 ≤ compactSize (n + 1) ∧ compactSize (n + 1) ≤ 9 := by
  obtain ⟨k, l⟩ := C110_lengths_partial hC hs hi hN hst n pf hn
  have hlt : n < pfs.length := (List.getElem?_eq_some_iff.mp hn).1
  rw [steps_length N hst] at hlt
  refine ⟨?_, compactSize_le (by omega)⟩
  have a1 := l.z01; have a2 := l.z02; have a3 := l.zi1; have a4 := l.zi2; have a5 := l.x0; have a6 := l.x1; have a7 := l.x2
  have a8 := l.sized.w0; have a9 := l.sized.w1; have a10 := l.sized.w2; have a11 := l.sized.e1; have a12 := l.sized.e2
  rw [hw.z01, List.length_map] at a1
  rw [hw.z02, List.length_map] at a2
  rw [hw.zi1, List.length_map] at a3
  rw [hw.zi2, List.length_map] at a4
  rw [hw.single2.x, List.length_map] at a5
  rw [hw.range1.x, List.length_map] at a6
  rw [hw.range2.x, List.length_map] at a7
  rw [hw.wsingle2, List.length_map] at a8
  rw [hw.wrange1] at a9 a11
  rw [hw.wrange2] at a10 a12
  simp only [RWit.mapF, List.length_map] at a9 a10 a11 a12
  rw [proof_length]
  simp only [proofTo, instTo, rinstTo, rwitTo, List.length_map, a1, a2, a3, a4, a5, a6, a7, a8, a9, a10, a11, a12, hw.i, k, proofSize]
  omega

/-- **C110 is false of the proofs the verifier accepts.** Any accepted proof can be lengthened at will, keeping its claims: the verifier does
not look at the lengths of the running witnesses. -/
theorem C110_accepted_refuted {C : Cycle P.m S.m (curve B1).Point (curve B2).Point} (hC : C.Ok) {gen1 : Nat → List (curve B1).Point}
    {gen2 : Nat → List (curve B2).Point} {pp : PublicParams P.m S.m (curve B1).Point (curve B2).Point} (hs : setup C gen1 gen2 = some pp)
    {pf : RecursiveProof P.m S.m (curve B1).Point (curve B2).Point} (hv : pf.verify C pp = some true) {w : WRecursiveProof P S}
    (hw : ProofHolds w pf) (k : Nat) :
    ∃ pf' w', ProofHolds (P := P) (S := S) (B1 := B1) (B2 := B2) w' pf' ∧ pf'.verify C pp = some true ∧ w'.i = w.i ∧ w'.z01 = w.z01 ∧ w'.z02 = w.z02 ∧ w'.zi1 = w.zi1 ∧
      w'.zi2 = w.zi2 ∧ k ≤ (proof (proofTo w')).length := by
  refine ⟨_, { w with wrange1 := ⟨w.wrange1.w ++ List.replicate k 0, w.wrange1.e⟩
                      wrange2 := ⟨w.wrange2.w ++ [], w.wrange2.e⟩ }, ?_,
    C63_longer hC hs hv (List.replicate k (Words.hom (0 : Words P))) [], rfl, rfl, rfl, rfl, rfl, ?_⟩
  · refine ⟨hw.i, hw.z01, hw.z02, hw.zi1, hw.zi2, hw.single2, hw.wsingle2, hw.range1, ?_, hw.range2, ?_⟩
    · rw [hw.wrange1]
      simp only [RWit.mapF, List.map_append, List.map_replicate]
    · rw [hw.wrange2]
      simp only [RWit.mapF, List.append_nil]
  · rw [proof_length]
    simp only [proofTo, rwitTo, List.length_map, List.length_append, List.length_replicate, vecSize]
    omega

end

/-- Non-vacuity: one, two, three steps on the BN254 cycle all give proofs of these sizes. -/
example (fp : CarryBits) (k1 : List FrV) (k2 : List FqV) (gen1 : Nat → List (curve g1B).Point) (gen2 : Nat → List (curve grumpkinB).Point) :
    ∃ pp st pfs, setup (bn254Cycle fp k1 k2) gen1 gen2 = some pp ∧ ivcInit (bn254Cycle fp k1 k2) pp [0] [1] = some st ∧
      steps (bn254Cycle fp k1 k2) pp 3 st = some pfs ∧ pfs.length = 3 ∧ ∀ pf ∈ pfs, Lengths pp pf := by
  obtain ⟨pp, st, pfs, e1, e2, e3, e4, -⟩ := C60_complete (bn254Cycle_ok fp k1 k2) gen1 gen2 0 1 3 (by norm_num)
  refine ⟨pp, st, pfs, e1, e2, e3, e4, fun pf hp => ?_⟩
  obtain ⟨n, hn⟩ := List.mem_iff_getElem?.mp hp
  exact (C110_lengths_partial (bn254Cycle_ok fp k1 k2) e1 e2 (by norm_num) e3 n pf hn).2

end Kogarashi.Props
