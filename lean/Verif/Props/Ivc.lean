import Verif.Nova.IvcProof
import Verif.Nova.Example

/-!
# Properties C59–C63: incremental verifiable computation

The hypotheses: `C.Ok` says the two fields have 254 bits, the curves have no point of order two, and the two step functions
map one-element vectors to one-element vectors and come with circuits that compute them (`FnCircuit.Ok`).
`bn254Cycle_ok` shows that the BN254/Grumpkin cycle with the step function of the test suite meets them.
The parameters are the ones `setup` returns, for arbitrary commitment-key generators.
-/

set_option exponentiation.threshold 1600

namespace Kogarashi.Props

open Kogarashi Spec Nova Curve Field

variable {P S : Nat} [Fact P.Prime] [Fact S.Prime] {b1 : ZMod S} {b2 : ZMod P}
  [Module (ZMod P) (curve b1).Point] [Module (ZMod S) (curve b2).Point]

/-- The proofs returned by `n` successive `prove_step` calls. -/
def steps (C : Cycle P S (curve b1).Point (curve b2).Point) (pp : PublicParams P S (curve b1).Point (curve b2).Point) :
    Nat → Ivc P S (curve b1).Point (curve b2).Point → Option (List (RecursiveProof P S (curve b1).Point (curve b2).Point))
  | 0, _ => some []
  | n + 1, st => do
    let (st', pf) ← proveStep C pp st
    let pfs ← steps C pp n st'
    some (pf :: pfs)

/-- What the claims say of the `n`-th proof. -/
structure GoodProof (C : Cycle P S (curve b1).Point (curve b2).Point) (pp : PublicParams P S (curve b1).Point (curve b2).Point)
    (z01 : List (ZMod P)) (z02 : List (ZMod S)) (n : Nat) (pf : RecursiveProof P S (curve b1).Point (curve b2).Point) : Prop where
  i : pf.i = n
  start1 : pf.z01 = z01
  start2 : pf.z02 = z02
  out1 : pf.zi1 = C.FC1.invoke^[n] z01
  out2 : pf.zi2 = C.FC2.invoke^[n] z02
  accepted : pf.verify C pp = some true

section
variable {C : Cycle P S (curve b1).Point (curve b2).Point} {pp : PublicParams P S (curve b1).Point (curve b2).Point}
  {z01 : List (ZMod P)} {z02 : List (ZMod S)}

theorem good_of_inv (hC : C.Ok) {n : Nat} {st : Ivc P S (curve b1).Point (curve b2).Point} (hi : st.i = n)
    (h : Inv C pp z01 z02 n st) : GoodProof C pp z01 z02 n st.proof :=
  ⟨hi, h.start1, h.start2, h.zi1, h.zi2, h.verify hC hi⟩

theorem steps_good (hC : C.Ok) (hpp : pp.Ok C) (h1 : z01.length = 1) (h2 : z02.length = 1) : ∀ (k : Nat) {n : Nat}
    {st : Ivc P S (curve b1).Point (curve b2).Point}, n ≠ 0 → n + k ≤ 2 ^ 64 → st.i = n → Inv C pp z01 z02 n st →
    ∃ pfs, steps C pp k st = some pfs ∧ pfs.length = k ∧ ∀ j pf, pfs[j]? = some pf → GoodProof C pp z01 z02 (n + 1 + j) pf
  | 0, _, _, _, _, _, _ => ⟨[], rfl, rfl, by simp⟩
  | k + 1, n, st, hn, hk, hi, h => by
    obtain ⟨st', e1, e2, e3⟩ := step_inv hC hpp h1 h2 hn (by omega) hi h
    obtain ⟨pfs, f1, f2, f3⟩ := steps_good hC hpp h1 h2 k (n := n + 1) (by omega) (by omega) e2 e3
    refine ⟨st'.proof :: pfs, ?_, by rw [List.length_cons, f2], ?_⟩
    · unfold steps
      rw [e1]
      simp only [Option.bind_eq_bind, Option.bind_some]
      rw [f1]
      rfl
    · intro j pf hj
      cases j with
      | zero => cases hj; exact good_of_inv hC e2 e3
      | succ j =>
        have := f3 j pf hj
        rwa [show n + 1 + 1 + j = n + 1 + (j + 1) from by omega] at this

end

/-- **C59 and C60.** `setup` and `init` succeed, any number of `prove_step` calls (up to the range of the `u64` counter)
succeeds, and the `n`-th proof returned carries `i = n`, the initial values, `z_n = F^n(z_0)` on both curves, and is accepted by
`verify` under the same parameters. -/
theorem C60_complete {C : Cycle P S (curve b1).Point (curve b2).Point} (hC : C.Ok) (gen1 : Nat → List (curve b1).Point)
    (gen2 : Nat → List (curve b2).Point) (z01 : ZMod P) (z02 : ZMod S) (N : Nat) (hN : N < 2 ^ 64) :
    ∃ pp st pfs, setup C gen1 gen2 = some pp ∧ ivcInit C pp [z01] [z02] = some st ∧ steps C pp N st = some pfs ∧
      pfs.length = N ∧ ∀ n pf, pfs[n]? = some pf → GoodProof C pp [z01] [z02] (n + 1) pf := by
  obtain ⟨pp, hs, hpp⟩ := setup_some hC gen1 gen2
  obtain ⟨st, hi, h0, hinv⟩ := init_inv hC hpp (z01 := [z01]) (z02 := [z02]) rfl rfl
  cases N with
  | zero => exact ⟨pp, st, [], hs, hi, rfl, rfl, by simp⟩
  | succ N =>
    have hinv' : Inv C pp [z01] [z02] 1 { st with i := 1 } := ⟨hinv.start1, hinv.start2, hinv.zi1, hinv.zi2, hinv.sat0, hinv.sat1, hinv.sat2,
      hinv.x, hinv.l0, hinv.l1, hinv.l2, hinv.x1, hinv.x2, hinv.u1, hinv.u2⟩
    obtain ⟨pfs, f1, f2, f3⟩ := steps_good hC hpp rfl rfl N (n := 1) (by omega) (by omega) rfl hinv'
    refine ⟨pp, st, Ivc.proof { st with i := 1 } :: pfs, hs, hi, ?_, by rw [List.length_cons, f2], ?_⟩
    · unfold steps proveStep
      rw [if_pos h0]
      simp only [Option.bind_eq_bind, Option.bind_some]
      rw [f1]
      rfl
    · intro n pf hn
      cases n with
      | zero => cases hn; exact good_of_inv hC rfl hinv'
      | succ n =>
        have := f3 n pf hn
        rwa [show 1 + 1 + n = n + 1 + 1 from by omega] at this

/-- **C59.** Step counts and outputs alone: every proof the prover returns, for every history it can be run through. -/
theorem C59_outputs {C : Cycle P S (curve b1).Point (curve b2).Point} (hC : C.Ok) {gen1 : Nat → List (curve b1).Point}
    {gen2 : Nat → List (curve b2).Point} {z01 : ZMod P} {z02 : ZMod S} {N : Nat} (hN : N < 2 ^ 64)
    {pp : PublicParams P S (curve b1).Point (curve b2).Point} {st : Ivc P S (curve b1).Point (curve b2).Point}
    {pfs : List (RecursiveProof P S (curve b1).Point (curve b2).Point)} (h1 : setup C gen1 gen2 = some pp)
    (h2 : ivcInit C pp [z01] [z02] = some st) (h3 : steps C pp N st = some pfs) (n : Nat) (hn : n < N) :
    ∃ pf, pfs[n]? = some pf ∧ pf.i = n + 1 ∧ pf.zi1 = C.FC1.invoke^[n + 1] [z01] ∧ pf.zi2 = C.FC2.invoke^[n + 1] [z02] := by
  obtain ⟨pp', st', pfs', e1, e2, e3, e4, e5⟩ := C60_complete hC gen1 gen2 z01 z02 N hN
  rw [h1] at e1; cases e1
  rw [h2] at e2; cases e2
  rw [h3] at e3; cases e3
  have := List.getElem?_eq_getElem (l := pfs) (i := n) (by omega)
  have g := e5 n _ this
  exact ⟨_, this, g.i, g.out1, g.out2⟩

/-- The cycle with the native functions (`FunctionCircuit::invoke`) replaced and the circuits
(`FunctionCircuit::invoke_cs`) kept. -/
def withNative {G1 G2 : Type} (C : Cycle P S G1 G2) (g1 : List (ZMod P) → List (ZMod P))
    (g2 : List (ZMod S) → List (ZMod S)) : Cycle P S G1 G2 :=
  { C with FC1 := { C.FC1 with invoke := g1 }, FC2 := { C.FC2 with invoke := g2 } }

/-- **C59.** A native function that disagrees with its circuit goes unnoticed: whatever the native
functions return (they must not panic), the prover runs without an error, and step counts and outputs are those of the functions
the circuits compute. -/
theorem C59_native {C : Cycle P S (curve b1).Point (curve b2).Point} (hC : C.Ok) (g1 : List (ZMod P) → List (ZMod P))
    (g2 : List (ZMod S) → List (ZMod S)) (gen1 : Nat → List (curve b1).Point) (gen2 : Nat → List (curve b2).Point)
    (z01 : ZMod P) (z02 : ZMod S) {N : Nat} (hN : N < 2 ^ 64) :
    ∃ pp st pfs, setup (withNative C g1 g2) gen1 gen2 = some pp ∧
      ivcInit (withNative C g1 g2) pp [z01] [z02] = some st ∧ steps (withNative C g1 g2) pp N st = some pfs ∧
      ∀ n < N, ∃ pf, pfs[n]? = some pf ∧ pf.i = n + 1 ∧ pf.zi1 = C.FC1.invoke^[n + 1] [z01] ∧
        pf.zi2 = C.FC2.invoke^[n + 1] [z02] := by
  obtain ⟨pp, st, pfs, e1, e2, e3, -, -⟩ := C60_complete hC gen1 gen2 z01 z02 N hN
  have e0 : setup (withNative C g1 g2) gen1 gen2 = setup C gen1 gen2 := rfl
  have e4 : ∀ z1 z2, ivcInit (withNative C g1 g2) pp z1 z2 = ivcInit C pp z1 z2 := fun _ _ => rfl
  have e5 : ∀ s, proveStep (withNative C g1 g2) pp s = proveStep C pp s := fun _ => rfl
  have e6 : ∀ n s, steps (withNative C g1 g2) pp n s = steps C pp n s := by
    intro n
    induction n with
    | zero => exact fun _ => rfl
    | succ n ih => intro s; rw [steps, steps, e5]; simp only [ih]
  exact ⟨pp, st, pfs, e0.trans e1, (e4 _ _).trans e2, (e6 _ _).trans e3,
    fun n hn => C59_outputs hC hN e1 e2 e3 n hn⟩

/-- C59, C60: the cycle of the library with the step function of its tests, over three steps from 0 and 1. -/
example (fp : CarryBits) (k1 : List FrV) (k2 : List FqV) (gen1 : Nat → List (curve g1B).Point) (gen2 : Nat → List (curve grumpkinB).Point) :
    ∃ pp st pfs, setup (bn254Cycle fp k1 k2) gen1 gen2 = some pp ∧ ivcInit (bn254Cycle fp k1 k2) pp [0] [1] = some st ∧
      steps (bn254Cycle fp k1 k2) pp 3 st = some pfs ∧ ∃ pf, pfs[2]? = some pf ∧ pf.i = 3 ∧
      pf.zi1 = [2460515] ∧ pf.zi2 = [44739235] ∧ pf.verify (bn254Cycle fp k1 k2) pp = some true := by
  obtain ⟨pp, st, pfs, e1, e2, e3, e4, e5⟩ := C60_complete (bn254Cycle_ok fp k1 k2) gen1 gen2 0 1 3 (by norm_num)
  have := List.getElem?_eq_getElem (l := pfs) (i := 2) (by omega)
  have g := e5 2 _ this
  exact ⟨pp, st, pfs, e1, e2, e3, _, this, g.i, g.out1.trans (show (exampleFn FrV).invoke^[3] [0] = _ by decide +kernel),
    g.out2.trans (show (exampleFn FqV).invoke^[3] [1] = _ by decide +kernel), g.accepted⟩

/-- C59: the same cycle with native functions that return an empty list. -/
example (fp : CarryBits) (k1 : List FrV) (k2 : List FqV) (gen1 : Nat → List (curve g1B).Point) (gen2 : Nat → List (curve grumpkinB).Point) :=
  C59_native (bn254Cycle_ok fp k1 k2) (fun _ => []) (fun _ => []) gen1 gen2 0 1 (N := 3) (by norm_num)

/-! ### C61, C62: forged proofs -/

/-- Under the parameters of any `setup`, for **any** step count, initial values and claimed outputs, and any
commitments, there is an accepted proof. -/
theorem forge {C : Cycle P S (curve b1).Point (curve b2).Point} (hC : C.Ok)
    {pp : PublicParams P S (curve b1).Point (curve b2).Point} (hpp : pp.Ok C) (i : Nat) (z01 zi1 : List (ZMod P))
    (z02 zi2 : List (ZMod S)) (cw1 ce1 : (curve b1).Point) (cw2 ce2 : (curve b2).Point) :
    ∃ pf : RecursiveProof P S (curve b1).Point (curve b2).Point, pf.verify C pp = some true ∧
      pf.i = i ∧ pf.z01 = z01 ∧ pf.z02 = z02 ∧ pf.zi1 = zi1 ∧ pf.zi2 = zi2 ∧
      pf.range1 = ⟨cw1, ce1, 0, [0, 0]⟩ ∧ pf.range2 = ⟨cw2, ce2, 0, [0, 0]⟩ ∧
      pf.wrange1 = RWit.dummy pp.shape1.witnessLength pp.shape1.m ∧ pf.wrange2 = RWit.dummy pp.shape2.witnessLength pp.shape2.m := by
  obtain ⟨-, w, u, -, -, -, hl, hs⟩ := runCircuit_spec hC.D2 hC.FC2
    (good_setup (b := b1) hC.D2.p254 C.D2.env false (z0 := [0]) rfl) rfl hpp.setup2 hpp.ok2 pp.ck2
  have hs' := hpp.ok2.isSat_any hl hs
    [((hashNat C.D1.env (⟨cw2, ce2, 0, [0, 0]⟩ : RInst (ZMod S) (curve b2).Point) i z01 zi1 : Nat) : ZMod S),
      ((hashNat C.D2.env (⟨cw1, ce1, 0, [0, 0]⟩ : RInst (ZMod P) (curve b1).Point) i z02 zi2 : Nat) : ZMod S)]
  refine ⟨⟨i, z01, z02, zi1, zi2, ⟨u.commitW,
      [((hashNat C.D1.env (⟨cw2, ce2, 0, [0, 0]⟩ : RInst (ZMod S) (curve b2).Point) i z01 zi1 : Nat) : ZMod S),
      ((hashNat C.D2.env (⟨cw1, ce1, 0, [0, 0]⟩ : RInst (ZMod P) (curve b1).Point) i z02 zi2 : Nat) : ZMod S)]⟩, w,
      ⟨cw1, ce1, 0, [0, 0]⟩, RWit.dummy pp.shape1.witnessLength pp.shape1.m, ⟨cw2, ce2, 0, [0, 0]⟩,
      RWit.dummy pp.shape2.witnessLength pp.shape2.m⟩, ?_, rfl, rfl, rfl, rfl, rfl, rfl, rfl, rfl, rfl⟩
  unfold RecursiveProof.verify
  dsimp only
  rw [if_neg (by simp), hash_eq hC.D2.q254.lt256, hash_eq hC.D1.q254.lt256]
  simp only [Option.bind_eq_bind, Option.bind_some, List.getElem?_cons_zero, List.getElem?_cons_succ]
  rw [if_neg]
  · rw [show isSatRelaxed pp.shape1 (⟨cw1, ce1, 0, [0, 0]⟩ : RInst (ZMod P) (curve b1).Point)
      (RWit.dummy pp.shape1.witnessLength pp.shape1.m) = some true from hpp.ok1.dummy (G := (curve b1).Point) 2]
    simp only [Option.bind_some, Bool.not_true]
    rw [show isSatRelaxed pp.shape2 (⟨cw2, ce2, 0, [0, 0]⟩ : RInst (ZMod S) (curve b2).Point)
      (RWit.dummy pp.shape2.witnessLength pp.shape2.m) = some true from hpp.ok2.dummy (G := (curve b2).Point) 2]
    simp only [Option.bind_some, Bool.not_true]
    exact hs'
  · rw [reread_nat hC.D2.q254.lt256 (lt_trans (hashNat_lt _ _ _ _ _) (hC.D2.q254.big (by norm_num)))]
    simp

/-- **C61 is false.** `is_sat_relaxed` does not look at commitments: with any parameters from `setup` and for any
non-zero group element there is an accepted proof whose running instance claims that element as the commitment to the
zero witness (whose commitment is 0). -/
theorem C61_refuted {C : Cycle P S (curve b1).Point (curve b2).Point} (hC : C.Ok) {gen1 : Nat → List (curve b1).Point}
    {gen2 : Nat → List (curve b2).Point} {pp : PublicParams P S (curve b1).Point (curve b2).Point}
    (h : setup C gen1 gen2 = some pp) {X : (curve b1).Point} (hX : X ≠ 0) :
    ∃ pf : RecursiveProof P S (curve b1).Point (curve b2).Point, pf.verify C pp = some true ∧
      commit pp.ck1 pf.wrange1.w ≠ pf.range1.commitW ∧ commit pp.ck1 pf.wrange1.e ≠ pf.range1.commitE := by
  obtain ⟨pf, h1, -, -, -, -, -, h2, -, h3, -⟩ := forge hC (setup_ok hC h) 0 [] [] [] [] X X 0 0
  have hz : ∀ n, commit pp.ck1 (List.replicate n (0 : ZMod P)) = 0 := by
    intro n
    rw [commit_eq_msum]
    unfold msum
    refine Finset.sum_eq_zero fun i _ => ?_
    have : (List.replicate n (0 : ZMod P)).getD i 0 = 0 := by
      rcases getD_mem_or (List.replicate n (0 : ZMod P)) 0 i with h | h
      · exact (List.mem_replicate.mp h).2
      · exact h
    rw [this]
    exact zero_smul (ZMod P) (pp.ck1.getD i (0 : (curve b1).Point))
  refine ⟨pf, h1, ?_, ?_⟩
  · rw [h2, h3]; show commit _ (List.replicate _ _) ≠ X; rw [hz]; exact hX.symm
  · rw [h2, h3]; show commit _ (List.replicate _ _) ≠ X; rw [hz]; exact hX.symm

/-- **C62 is false.** For every step count, initial values and claimed outputs — whatever the step functions are — some
proof claiming them is accepted. -/
theorem C62_refuted {C : Cycle P S (curve b1).Point (curve b2).Point} (hC : C.Ok) {gen1 : Nat → List (curve b1).Point}
    {gen2 : Nat → List (curve b2).Point} {pp : PublicParams P S (curve b1).Point (curve b2).Point}
    (h : setup C gen1 gen2 = some pp) (i : Nat) (z01 zi1 : List (ZMod P)) (z02 zi2 : List (ZMod S)) :
    ∃ pf : RecursiveProof P S (curve b1).Point (curve b2).Point, pf.verify C pp = some true ∧
      pf.i = i ∧ pf.z01 = z01 ∧ pf.z02 = z02 ∧ pf.zi1 = zi1 ∧ pf.zi2 = zi2 := by
  obtain ⟨pf, h1, h2, h3, h4, h5, h6, -⟩ := forge hC (setup_ok hC h) i z01 zi1 z02 zi2 0 0 0 0
  exact ⟨pf, h1, h2, h3, h4, h5, h6⟩

/-- C61, C62 with the library's own cycle: an accepted proof that one application of `z ↦ z³ + z + 5` to 0 gives 1,
and one with an unopened commitment. -/
example (fp : CarryBits) (k1 : List FrV) (k2 : List FqV) (gen1 : Nat → List (curve g1B).Point) (gen2 : Nat → List (curve grumpkinB).Point) :
    ∃ pp, setup (bn254Cycle fp k1 k2) gen1 gen2 = some pp ∧
      (∃ pf : RecursiveProof frParams.m fqParams.m (curve g1B).Point (curve grumpkinB).Point, pf.verify (bn254Cycle fp k1 k2) pp = some true ∧ pf.i = 1 ∧ pf.z01 = [0] ∧ pf.zi1 = [1] ∧
        pf.zi1 ≠ (bn254Cycle fp k1 k2).FC1.invoke^[1] pf.z01) ∧
      (∃ pf : RecursiveProof frParams.m fqParams.m (curve g1B).Point (curve grumpkinB).Point, pf.verify (bn254Cycle fp k1 k2) pp = some true ∧ commit pp.ck1 pf.wrange1.w ≠ pf.range1.commitW) := by
  obtain ⟨pp, hs, -⟩ := setup_some (bn254Cycle_ok fp k1 k2) gen1 gen2
  refine ⟨pp, hs, ?_, ?_⟩
  · obtain ⟨pf, h1, h2, h3, -, h5, -⟩ := C62_refuted (bn254Cycle_ok fp k1 k2) hs 1 [0] [1] [0] [0]
    refine ⟨pf, h1, h2, h3, h5, ?_⟩
    rw [h3, h5]
    show ([1] : List FrV) ≠ (exampleFn FrV).invoke [0]
    decide +kernel
  · obtain ⟨pf, h1, h2, -⟩ := C61_refuted (bn254Cycle_ok fp k1 k2) hs (X := g1Point) (WeierstrassCurve.Affine.Point.some_ne_zero _)
    exact ⟨pf, h1, h2⟩

/-- The vectors of a proof have the lengths the parameters prescribe. -/
structure Sized (pp : PublicParams P S (curve b1).Point (curve b2).Point) (pf : RecursiveProof P S (curve b1).Point (curve b2).Point) :
    Prop where
  w0 : pf.wsingle2.length = pp.shape2.witnessLength
  w1 : pf.wrange1.w.length = pp.shape1.witnessLength
  w2 : pf.wrange2.w.length = pp.shape2.witnessLength
  e1 : pf.wrange1.e.length = pp.shape1.m
  e2 : pf.wrange2.e.length = pp.shape2.m

/-- **C61, C62: what acceptance does mean**, for proofs with vectors of the right length: the instances have two public
inputs, the public inputs of the last secondary instance are the hashes of the claimed data, the three witnesses satisfy their
(relaxed) constraint systems, and the witness of the last secondary instance opens its commitment.
Missing from C61: the running commitments.  Missing from C62: any link between the hashes and the witnesses. -/
theorem C62_meaning_partial {C : Cycle P S (curve b1).Point (curve b2).Point} (hC : C.Ok) {gen1 : Nat → List (curve b1).Point}
    {gen2 : Nat → List (curve b2).Point} {pp : PublicParams P S (curve b1).Point (curve b2).Point}
    (h : setup C gen1 gen2 = some pp) {pf : RecursiveProof P S (curve b1).Point (curve b2).Point} (hz : Sized pp pf) :
    pf.verify C pp = some true ↔ ∃ x0 x1, pf.single2.x = [x0, x1] ∧ pf.range1.x.length = 2 ∧ pf.range2.x.length = 2 ∧
      pf.range2.hash C.D1.env pf.i pf.z01 pf.zi1 = some x0 ∧ pf.range1.hash C.D2.env pf.i pf.z02 pf.zi2 = some (reread x1) ∧
      RelaxedHolds pp.shape1 pf.range1.u pf.range1.x pf.wrange1.w pf.wrange1.e ∧
      RelaxedHolds pp.shape2 pf.range2.u pf.range2.x pf.wrange2.w pf.wrange2.e ∧
      PlainHolds pp.shape2 pf.single2.x pf.wsingle2 ∧ pf.single2.commitW = commit pp.ck2 pf.wsingle2 := by
  have hpp := setup_ok hC h
  obtain ⟨a, ha⟩ : ∃ a, isSatRelaxed pp.shape1 pf.range1 pf.wrange1 = some a :=
    (C50_is_sat_relaxed (hpp.ok1.fits _ hz.w1) hz.e1).imp fun _ h => h.1
  obtain ⟨b, hb⟩ : ∃ b, isSatRelaxed pp.shape2 pf.range2 pf.wrange2 = some b :=
    (C50_is_sat_relaxed (hpp.ok2.fits _ hz.w2) hz.e2).imp fun _ h => h.1
  rw [← hpp.ok1.relaxed_iff hz.w1 hz.e1, ← hpp.ok2.relaxed_iff hz.w2 hz.e2, ← hpp.ok2.isSat_iff hz.w0]
  unfold RecursiveProof.verify
  rw [hash_eq hC.D2.q254.lt256, hash_eq hC.D1.q254.lt256, ha, hb]
  by_cases hx : pf.single2.x.length = 2 ∧ pf.range1.x.length = 2 ∧ pf.range2.x.length = 2
  · obtain ⟨x0, x1, hx0⟩ := List.length_eq_two.mp hx.1
    rw [if_neg (by rw [hx.1, hx.2.1, hx.2.2]; simp), hx0]
    simp only [Option.bind_eq_bind, Option.bind_some, List.getElem?_cons_zero, List.getElem?_cons_succ, hx.2.1, hx.2.2, true_and]
    constructor
    · intro hv
      split at hv
      · cases hv
      · rename_i hh
        push_neg at hh
        cases a <;> cases b <;> simp at hv
        exact ⟨x0, x1, rfl, by rw [hh.1], by rw [hh.2], rfl, rfl, hv⟩
    · rintro ⟨y0, y1, hy, h1, h2, h3, h4, h5⟩
      cases hy
      cases h3
      cases h4
      rw [if_neg (by rw [Option.some.inj h1, Option.some.inj h2]; simp)]
      exact h5
  · rw [if_pos (by by_contra hc; push_neg at hc; exact hx hc)]
    constructor
    · intro hv; cases hv
    · rintro ⟨x0, x1, h1, h2, h3, -⟩
      exact absurd ⟨by rw [h1]; rfl, h2, h3⟩ hx

/-! ### C63 -/

/-- **C63 is false.** Whatever the parameters, there is a proof — well-formed but for the length of one error vector — on
which `verify` panics. -/
theorem C63_refuted {C : Cycle P S (curve b1).Point (curve b2).Point} (hC : C.Ok) {gen1 : Nat → List (curve b1).Point}
    {gen2 : Nat → List (curve b2).Point} {pp : PublicParams P S (curve b1).Point (curve b2).Point}
    (h : setup C gen1 gen2 = some pp) :
    ∃ pf : RecursiveProof P S (curve b1).Point (curve b2).Point, pf.verify C pp = none ∧
      pf.single2.x.length = 2 ∧ pf.range1.x.length = 2 ∧ pf.range2.x.length = 2 ∧
      pf.wsingle2.length = pp.shape2.witnessLength ∧ pf.wrange1.w.length = pp.shape1.witnessLength ∧
      pf.wrange2.w.length = pp.shape2.witnessLength ∧ pf.wrange2.e.length = pp.shape2.m ∧
      pf.wrange1.e.length = pp.shape1.m + 1 := by
  have hpp := setup_ok hC h
  refine ⟨⟨0, [], [], [], [], ⟨0, [((hashNat C.D1.env (RInst.dummy 2 : RInst (ZMod S) (curve b2).Point) 0 [] [] : Nat) : ZMod S),
      ((hashNat C.D2.env (RInst.dummy 2 : RInst (ZMod P) (curve b1).Point) 0 [] [] : Nat) : ZMod S)]⟩,
      List.replicate pp.shape2.witnessLength 0, RInst.dummy 2, ⟨List.replicate pp.shape1.witnessLength 0, List.replicate (pp.shape1.m + 1) 0⟩,
      RInst.dummy 2, RWit.dummy pp.shape2.witnessLength pp.shape2.m⟩, ?_, rfl, rfl, rfl, by simp, by simp, by simp [RWit.dummy],
      by simp [RWit.dummy], by simp⟩
  unfold RecursiveProof.verify
  dsimp only
  rw [if_neg (by simp [RInst.dummy]), hash_eq hC.D2.q254.lt256, hash_eq hC.D1.q254.lt256]
  simp only [Option.bind_eq_bind, Option.bind_some, List.getElem?_cons_zero, List.getElem?_cons_succ]
  rw [if_neg]
  · have : isSatRelaxed pp.shape1 (RInst.dummy 2 : RInst (ZMod P) (curve b1).Point)
        ⟨List.replicate pp.shape1.witnessLength 0, List.replicate (pp.shape1.m + 1) 0⟩ = none := by
      cases hr : isSatRelaxed pp.shape1 (RInst.dummy 2 : RInst (ZMod P) (curve b1).Point)
        ⟨List.replicate pp.shape1.witnessLength 0, List.replicate (pp.shape1.m + 1) 0⟩ with
      | none => rfl
      | some v =>
        exfalso
        unfold isSatRelaxed at hr
        simp only [Option.bind_eq_bind, Option.bind_eq_some_iff] at hr
        obtain ⟨az, -, bz, -, cz, hcz, azbz, -, ucze, hz, -⟩ := hr
        have h1 := (zipVec_some hz).1
        have h2 : cz.length = pp.shape1.m := by rw [(prod_some hcz).2]; simp [mv, hpp.ok1.c]
        simp [vecScale, h2] at h1
    rw [this]
    rfl
  · rw [reread_nat hC.D2.q254.lt256 (lt_trans (hashNat_lt _ _ _ _ _) (hC.D2.q254.big (by norm_num)))]
    simp

/-- **C63** for proofs whose vectors have the lengths the parameters prescribe (any number of public inputs and any
contents): `verify` returns. -/
theorem C63_sized_partial {C : Cycle P S (curve b1).Point (curve b2).Point} (hC : C.Ok) {gen1 : Nat → List (curve b1).Point}
    {gen2 : Nat → List (curve b2).Point} {pp : PublicParams P S (curve b1).Point (curve b2).Point}
    (h : setup C gen1 gen2 = some pp) {pf : RecursiveProof P S (curve b1).Point (curve b2).Point} (hz : Sized pp pf) :
    ∃ b, pf.verify C pp = some b := by
  have hpp := setup_ok hC h
  obtain ⟨a, ha⟩ : ∃ a, isSatRelaxed pp.shape1 pf.range1 pf.wrange1 = some a :=
    (C50_is_sat_relaxed (hpp.ok1.fits _ hz.w1) hz.e1).imp fun _ h => h.1
  obtain ⟨b, hb⟩ : ∃ b, isSatRelaxed pp.shape2 pf.range2 pf.wrange2 = some b :=
    (C50_is_sat_relaxed (hpp.ok2.fits _ hz.w2) hz.e2).imp fun _ h => h.1
  obtain ⟨c, hc⟩ : ∃ c, isSat pp.shape2 pp.ck2 pf.single2 pf.wsingle2 = some c :=
    (C50_is_sat (hpp.ok2.fits _ hz.w0)).imp fun _ h => h.1
  unfold RecursiveProof.verify
  rw [hash_eq hC.D2.q254.lt256, hash_eq hC.D1.q254.lt256, ha, hb, hc]
  split
  · exact ⟨_, rfl⟩
  · rename_i hx
    push_neg at hx
    obtain ⟨x0, x1, hx0⟩ := List.length_eq_two.mp hx.1
    rw [hx0]
    simp only [Option.bind_eq_bind, Option.bind_some, List.getElem?_cons_zero, List.getElem?_cons_succ]
    split
    · exact ⟨_, rfl⟩
    · cases a <;> cases b <;> simp

/-- `Sized` is met by the forged proofs, in particular under the library's own cycle. -/
example (fp : CarryBits) (k1 : List FrV) (k2 : List FqV) (gen1 : Nat → List (curve g1B).Point) (gen2 : Nat → List (curve grumpkinB).Point) :
    ∃ pp pf, setup (bn254Cycle fp k1 k2) gen1 gen2 = some pp ∧ Sized pp pf := by
  obtain ⟨pp, hs, -⟩ := setup_some (bn254Cycle_ok fp k1 k2) gen1 gen2
  exact ⟨pp, ⟨0, [], [], [], [], ⟨0, []⟩, List.replicate pp.shape2.witnessLength 0, RInst.dummy 2,
    RWit.dummy pp.shape1.witnessLength pp.shape1.m, RInst.dummy 2, RWit.dummy pp.shape2.witnessLength pp.shape2.m⟩, hs,
    ⟨by simp, by simp [RWit.dummy], by simp [RWit.dummy], by simp [RWit.dummy], by simp [RWit.dummy]⟩⟩

end Kogarashi.Props
