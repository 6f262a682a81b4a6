import Verif.Nova.IvcKeys
import Verif.Props.Ivc

/-!
# Property C115: parameters that change between the steps

`init` and every `prove_step` take public parameters. Nothing ties the parameters of one call to those of another. All parameters
below come from `setup` for the same pair of step functions, with any commitment keys.
-/

set_option exponentiation.threshold 1600

namespace Kogarashi.Props

open Kogarashi Spec Nova Curve Field

variable {P S : Nat} [Fact P.Prime] [Fact S.Prime] {b1 : ZMod S} {b2 : ZMod P}
  [Module (ZMod P) (curve b1).Point] [Module (ZMod S) (curve b2).Point]
  {C : Cycle P S (curve b1).Point (curve b2).Point} {z01 : List (ZMod P)} {z02 : List (ZMod S)}

/-- Parameters `setup` can return for `C`. -/
def FromSetup (C : Cycle P S (curve b1).Point (curve b2).Point) (pp : PublicParams P S (curve b1).Point (curve b2).Point) : Prop :=
  ∃ gen1 gen2, setup C gen1 gen2 = some pp

private theorem FromSetup.ok (hC : C.Ok) {pp} (h : FromSetup C pp) : pp.Ok C := by
  obtain ⟨_, _, h⟩ := h
  exact setup_ok hC h

private theorem same_shape {pp pp'} (h : PublicParams.Ok C pp) (h' : PublicParams.Ok C pp') :
    pp'.shape1 = pp.shape1 ∧ pp'.shape2 = pp.shape2 :=
  ⟨Option.some.inj (h'.setup1.symm.trans h.setup1), Option.some.inj (h'.setup2.symm.trans h.setup2)⟩

/-- Folding with one key of an instance committed with another. -/
private theorem prove_other {p q : Nat} [Fact p.Prime] [Fact q.Prime] {G : Type} [AddCommGroup G] [Module (ZMod p) G] [DecidableEq G]
    (hp : p ≤ 2 ^ 256) (E : Env q G) {S : Shape (ZMod p)} {ck : List G} (ck' : List G) {i1 : RInst (ZMod p) G} {w1 : RWit (ZMod p)}
    {i2 : Inst (ZMod p) G} {w2 : List (ZMod p)}
    (h1 : isSatRelaxed S i1 w1 = some true) (h2 : isSat S ck i2 w2 = some true)
    (hx : i1.x.length = i2.x.length) (hw : w1.w.length = w2.length) :
    ∃ i' w' T, prove E S ck' i1 w1 i2 w2 = some (i', w', T) ∧ isSatRelaxed S i' w' = some true ∧
      i'.x.length = i1.x.length ∧ w'.w.length = w1.w.length ∧
      i1.fold i2 ((challengeNat E T i1 : Nat) : ZMod p) T = some i' := by
  obtain ⟨t, ht, hall⟩ := C50_fold (G := G) h1 h2 hx hw
  obtain ⟨r, hr⟩ := challenge_isSome hp E (commit ck' t) i1
  obtain ⟨i', w', hi, hw', hs⟩ := hall r (commit ck' t)
  have hpr : prove E S ck' i1 w1 i2 w2 = some (i', w', commit ck' t) := by
    unfold prove
    rw [ht]
    simp only [Option.bind_eq_bind, Option.bind_some]
    rw [hr]
    simp only [Option.bind_some]
    rw [hi]
    simp only [Option.bind_some]
    rw [hw']
    rfl
  refine ⟨i', w', commit ck' t, hpr, hs, ?_, ?_, ?_⟩
  · obtain ⟨-, rfl⟩ := RInst.fold_some hi
    exact length_axpy hx
  · unfold RWit.fold at hw'
    simp only [Option.bind_eq_bind, Option.bind_eq_some_iff] at hw'
    obtain ⟨e, he, w, hw'', h'⟩ := hw'
    cases h'
    obtain ⟨-, rfl⟩ := zipVec_some hw''
    simp [hw]
  · have := C51_agree hpr
    unfold verify at this
    rw [challenge_eq hp] at this
    exact this

private theorem Inv.with_i {pp n} {st : Ivc P S (curve b1).Point (curve b2).Point} (h : Inv C pp z01 z02 n st) (k : Nat) :
    Inv C pp z01 z02 n { st with i := k } :=
  ⟨h.start1, h.start2, h.zi1, h.zi2, h.sat0, h.sat1, h.sat2, h.x, h.l0, h.l1, h.l2, h.x1, h.x2, h.u1, h.u2⟩

/-- One step with keys of any origin. -/
private theorem keyed_step (hC : C.Ok) {pp ppa : PublicParams P S (curve b1).Point (curve b2).Point} (hpp : pp.Ok C) (hpa : ppa.Ok C)
    (h1 : z01.length = 1) (h2 : z02.length = 1) {n : Nat} (hn0 : n ≠ 0) (hn : n < 2 ^ 64)
    {s : KeyedIvc P S (curve b1).Point (curve b2).Point} (hp1 : s.prover1.shape = pp.shape1) (hp2 : s.prover2.shape = pp.shape2)
    (hi : s.base.i = n) (h : Inv C ppa z01 z02 n s.base) :
    ∃ st' : Ivc P S (curve b1).Point (curve b2).Point, Inv C pp z01 z02 (n + 1) st' ∧ ∀ checked, keyedStep checked C pp s =
      (bump checked n).map fun i => ((⟨{ st' with i := i }, s.prover1, s.prover2⟩ : KeyedIvc P S (curve b1).Point (curve b2).Point),
        Ivc.proof { st' with i := i }) := by
  obtain ⟨es1, es2⟩ := same_shape hpp hpa
  have sat0 := h.sat0
  have sat1 := h.sat1
  have sat2 := h.sat2
  have l0 := h.l0
  have l1 := h.l1
  have l2 := h.l2
  rw [es2] at sat0 sat2 l0 l2
  rw [es1] at sat1 l1
  obtain ⟨st, ⟨sh1, c1⟩, ⟨sh2, c2⟩⟩ := s
  dsimp only at hp1 hp2 hi h sat0 sat1 sat2 l0 l1 l2 ⊢
  subst hp1 hp2
  have hlz1 : st.zi1.length = 1 := by rw [h.zi1]; exact hC.FC1.iterate_length h1 n
  have hlz2 : st.zi2.length = 1 := by rw [h.zi2]; exact hC.FC2.iterate_length h2 n
  have ubound : ∀ {p : Nat} [Fact p.Prime], BitParams p 254 → ∀ u, u ≤ n * 2 ^ 128 → u + 2 ^ 128 ≤ p := by
    intro p _ B u hu
    have hb := B.big (n := 2 ^ 200) (by norm_num)
    exact le_trans (le_trans (Nat.add_le_add (hu.trans (Nat.mul_le_mul_right _ hn.le)) le_rfl)
      (by norm_num : 2 ^ 64 * 2 ^ 128 + 2 ^ 128 ≤ 2 ^ 200)) hb.le
  obtain ⟨r2, wr2, t2, p2, ps2, px2, pw2, pf2⟩ := prove_other hC.D2.q254.lt256 C.D1.env c2 sat2 sat0
    (by rw [h.x2, h.x]; rfl) (by rw [l2, l0])
  have g1 : (⟨true, st.i, st.z01, some st.zi1, some st.single2, some st.range2, some t2⟩ : Augmented S P (curve b2).Point).Good
      C.D1.env ((hashNat C.D1.env st.range2 n z01 st.zi1 : Nat) : ZMod S) ((hashNat C.D2.env st.range1 n z02 st.zi2 : Nat) : ZMod S) := by
    refine ⟨by rw [hi]; exact hn, hlz1, h.x, ?_, ?_, h.x2, ubound hC.D2.q254 _ h.u2, Or.inr ?_⟩
    · rw [val_hash hC.D2.q254 (hashNat_lt _ _ _ _ _)]; exact hashNat_lt _ _ _ _ _
    · rw [val_hash hC.D2.q254 (hashNat_lt _ _ _ _ _)]; exact hashNat_lt _ _ _ _ _
    · rw [val_hash hC.D2.q254 (hashNat_lt _ _ _ _ _)]
      show _ = hashNat C.D1.env st.range2 st.i st.z01 st.zi1
      rw [hi, h.start1]
  obtain ⟨n1, w1, u1, hn1, hr1, hx1, hl1, hs1⟩ := runCircuit_spec hC.D1 hC.FC1 g1
    (by show st.z01.length = 1; rw [h.start1]; exact h1) hpp.setup1 hpp.ok1 pp.ck1
  have hn1' : n1 = r2 := by
    unfold nextInst at hn1
    rw [if_neg (by show st.i ≠ 0; rw [hi]; exact hn0)] at hn1
    have : some r2 = some n1 := pf2.symm.trans hn1
    cases this; rfl
  subst hn1'
  have hx1' : u1.x = [((hashNat C.D2.env st.range1 n z02 st.zi2 : Nat) : ZMod P),
      ((hashNat C.D1.env n1 (n + 1) z01 (C.FC1.invoke st.zi1) : Nat) : ZMod P)] := by
    rw [hx1]
    have := reread_nat (q := P) hC.D2.q254.lt256 (lt_trans (hashNat_lt C.D2.env st.range1 n z02 st.zi2) (hC.D2.q254.big (by norm_num)))
    rw [this]
    show [_, ((hashNat C.D1.env n1 (st.i + 1) st.z01 (C.FC1.invoke st.zi1) : Nat) : ZMod P)] = _
    rw [hi, h.start1]
  obtain ⟨r1, wr1, t1, p1, ps1, px1, pw1, pf1⟩ := prove_other hC.D1.q254.lt256 C.D2.env c1 sat1 hs1
    (by rw [h.x1, hx1']; rfl) (by rw [l1, hl1])
  have g2 : (⟨false, st.i, st.z02, some st.zi2, some u1, some st.range1, some t1⟩ : Augmented P S (curve b1).Point).Good
      C.D2.env ((hashNat C.D2.env st.range1 n z02 st.zi2 : Nat) : ZMod P) ((hashNat C.D1.env n1 (n + 1) z01 (C.FC1.invoke st.zi1) : Nat) : ZMod P) := by
    refine ⟨by rw [hi]; exact hn, hlz2, hx1', ?_, ?_, h.x1, ubound hC.D1.q254 _ h.u1, Or.inr ?_⟩
    · rw [val_hash hC.D1.q254 (hashNat_lt _ _ _ _ _)]; exact hashNat_lt _ _ _ _ _
    · rw [val_hash hC.D1.q254 (hashNat_lt _ _ _ _ _)]; exact hashNat_lt _ _ _ _ _
    · rw [val_hash hC.D1.q254 (hashNat_lt _ _ _ _ _)]
      show _ = hashNat C.D2.env st.range1 st.i st.z02 st.zi2
      rw [hi, h.start2]
  obtain ⟨n2, w2, u2, hn2, hr2, hx2, hl2, hs2⟩ := runCircuit_spec hC.D2 hC.FC2 g2
    (by show st.z02.length = 1; rw [h.start2]; exact h2) hpp.setup2 hpp.ok2 pp.ck2
  have hn2' : n2 = r1 := by
    unfold nextInst at hn2
    rw [if_neg (by show st.i ≠ 0; rw [hi]; exact hn0)] at hn2
    have : some r1 = some n2 := pf1.symm.trans hn2
    cases this; rfl
  subst hn2'
  refine ⟨{ st with range1 := n2, wrange1 := wr1, range2 := n1, wrange2 := wr2, single2 := u2
                    wsingle2 := w2, zi1 := C.FC1.invoke st.zi1, zi2 := C.FC2.invoke st.zi2 }, ?_, ?_⟩
  · refine ⟨h.start1, h.start2, ?_, ?_, hs2, ps1, ps2, ?_, hl2, ?_, ?_, ?_, ?_, ?_, ?_⟩
    · rw [Function.iterate_succ_apply', ← h.zi1]
    · rw [Function.iterate_succ_apply', ← h.zi2]
    · show u2.x = _
      rw [hx2]
      have := reread_nat (q := S) hC.D1.q254.lt256 (lt_trans (hashNat_lt C.D1.env n1 (n + 1) z01 (C.FC1.invoke st.zi1)) (hC.D1.q254.big (by norm_num)))
      rw [this]
      show [_, ((hashNat C.D2.env n2 (st.i + 1) st.z02 (C.FC2.invoke st.zi2) : Nat) : ZMod S)] = _
      rw [hi, h.start2]
    · show wr1.w.length = _
      rw [pw1, l1]
    · show wr2.w.length = _
      rw [pw2, l2]
    · show n2.x.length = 2
      rw [px1, h.x1]
    · show n1.x.length = 2
      rw [px2, h.x2]
    · exact fold_u hC.D1.q254 (challengeNat_lt _ _ _) pf1 h.u1 hn
    · exact fold_u hC.D2.q254 (challengeNat_lt _ _ _) pf2 h.u2 hn
  · intro checked
    unfold keyedStep
    dsimp only
    rw [if_neg (by rw [hi]; exact hn0), p2]
    simp only [Option.bind_eq_bind, Option.bind_some]
    rw [hr1]
    simp only [Option.bind_some]
    rw [p1]
    simp only [Option.bind_some]
    rw [hr2]
    simp only [Option.bind_some]
    rw [hi]
    cases bump checked n <;> rfl

/-- Verification under other parameters. -/
private theorem verify_other (hC : C.Ok) {pp pp' : PublicParams P S (curve b1).Point (curve b2).Point} (hpp : pp.Ok C) (hpp' : pp'.Ok C)
    {n : Nat} {st : Ivc P S (curve b1).Point (curve b2).Point} (hi : st.i = n) (h : Inv C pp z01 z02 n st) :
    st.proof.verify C pp' = some (decide (commit pp'.ck2 st.wsingle2 = commit pp.ck2 st.wsingle2)) := by
  obtain ⟨es1, es2⟩ := same_shape hpp hpp'
  have v : st.proof.verify C pp' = isSat pp.shape2 pp'.ck2 st.single2 st.wsingle2 := by
    unfold RecursiveProof.verify Ivc.proof
    dsimp only
    rw [if_neg (by rw [h.x, h.x1, h.x2]; simp), hash_eq hC.D2.q254.lt256, hash_eq hC.D1.q254.lt256]
    simp only [Option.bind_eq_bind, Option.bind_some]
    rw [h.x]
    simp only [List.getElem?_cons_zero, List.getElem?_cons_succ, Option.bind_some]
    rw [if_neg]
    · rw [es1, es2, h.sat1]
      simp only [Option.bind_some, Bool.not_true]
      rw [h.sat2]
      simp only [Option.bind_some, Bool.not_true]
      rfl
    · rw [hi, h.start1, h.start2]
      have := reread_nat (q := P) hC.D2.q254.lt256 (lt_trans (hashNat_lt C.D2.env st.range1 n z02 st.zi2) (hC.D2.q254.big (by norm_num)))
      rw [this]
      simp
  have s0 := (hpp.ok2.isSat_iff h.l0).mp h.sat0
  obtain ⟨b, hb, hiff⟩ := C50_is_sat (ck := pp'.ck2) (hpp.ok2.fits st.single2.x h.l0)
  rw [v, hb, Option.some.injEq, Bool.eq_iff_iff, decide_eq_true_iff, hiff, and_iff_right s0.1, s0.2, eq_comm]

private theorem keyed_run (hC : C.Ok) (h1 : z01.length = 1) (h2 : z02.length = 1) (checked : Bool) :
    ∀ (pps : List (PublicParams P S (curve b1).Point (curve b2).Point)) {n : Nat} {s : KeyedIvc P S (curve b1).Point (curve b2).Point}
      {ppa : PublicParams P S (curve b1).Point (curve b2).Point}, ppa.Ok C → (∀ pp ∈ pps, pp.Ok C) → n ≠ 0 → n + pps.length < 2 ^ 64 →
      s.prover1.shape = ppa.shape1 → s.prover2.shape = ppa.shape2 → s.base.i = n → Inv C ppa z01 z02 n s.base →
      ∃ pfs s', keyedRun checked C pps s = some (pfs, s') ∧ pfs.length = pps.length ∧
        (∀ j pf pp, pfs[j]? = some pf → pps[j]? = some pp → GoodProof C pp z01 z02 (n + 1 + j) pf ∧
          ∀ pp', PublicParams.Ok C pp' → pf.verify C pp' = some (decide (commit pp'.ck2 pf.wsingle2 = commit pp.ck2 pf.wsingle2))) ∧
        s'.base.i = n + pps.length ∧ s'.prover1 = s.prover1 ∧ s'.prover2 = s.prover2 ∧
        ∃ ppl, PublicParams.Ok C ppl ∧ Inv C ppl z01 z02 (n + pps.length) s'.base
  | [], n, s, ppa, ha, _, _, _, _, _, hi, h => ⟨[], s, rfl, rfl, by simp, hi, rfl, rfl, ppa, ha, h⟩
  | pp :: pps, n, s, ppa, ha, hall, hn, hk, e1, e2, hi, h => by
    have hpp := hall pp (List.mem_cons_self ..)
    obtain ⟨es1, es2⟩ := same_shape hpp ha
    rw [List.length_cons] at hk
    obtain ⟨st', hinv, hst⟩ := keyed_step hC hpp ha h1 h2 hn (by omega) (e1.trans es1) (e2.trans es2) hi h
    have hb : bump checked n = some (n + 1) := if_pos (by omega)
    obtain ⟨pfs, s', f1, f2, f3, f4, f5, f6, f7⟩ := keyed_run hC h1 h2 checked pps (n := n + 1)
      (s := ⟨{ st' with i := n + 1 }, s.prover1, s.prover2⟩) hpp (fun q hq => hall q (List.mem_cons_of_mem _ hq)) (by omega) (by omega)
      (e1.trans es1) (e2.trans es2) rfl (Inv.with_i hinv _)
    refine ⟨Ivc.proof { st' with i := n + 1 } :: pfs, s', ?_, by rw [List.length_cons, List.length_cons, f2], ?_, ?_, f5, f6, ?_⟩
    · unfold keyedRun
      rw [hst checked, hb]
      simp only [Option.map_some, Option.bind_eq_bind, Option.bind_some]
      rw [f1]
      rfl
    · intro j pf q hj hq
      cases j with
      | zero =>
        cases hj; cases hq
        exact ⟨good_of_inv hC rfl (Inv.with_i hinv _), fun pp' hpp' => verify_other hC hpp hpp' rfl (Inv.with_i hinv _)⟩
      | succ j =>
        have := f3 j pf q hj hq
        rwa [show n + 1 + 1 + j = n + 1 + (j + 1) from by omega] at this
    · rw [f4, List.length_cons]; omega
    · obtain ⟨ppl, hl, hI⟩ := f7
      exact ⟨ppl, hl, by rwa [List.length_cons, show n + (pps.length + 1) = n + 1 + pps.length from by omega]⟩

/-- The whole run, with the state it ends in. -/
private theorem keyed_all (hC : C.Ok) (checked : Bool) (z01 : ZMod P) (z02 : ZMod S)
    (pp0 : PublicParams P S (curve b1).Point (curve b2).Point) (pps : List (PublicParams P S (curve b1).Point (curve b2).Point))
    (h0 : PublicParams.Ok C pp0) (hall : ∀ pp ∈ pps, PublicParams.Ok C pp) (hN : pps.length < 2 ^ 64) :
    ∃ s pfs s', keyedInit C pp0 [z01] [z02] = some s ∧ keyedRun checked C pps s = some (pfs, s') ∧ pfs.length = pps.length ∧
      (∀ j pf pp, pfs[j]? = some pf → (if j = 0 then some pp0 else pps[j]?) = some pp → GoodProof C pp [z01] [z02] (j + 1) pf ∧
          ∀ pp', PublicParams.Ok C pp' → pf.verify C pp' = some (decide (commit pp'.ck2 pf.wsingle2 = commit pp.ck2 pf.wsingle2))) ∧
      (pps ≠ [] → s'.base.i = pps.length ∧ s'.prover1.shape = pp0.shape1 ∧ s'.prover2.shape = pp0.shape2 ∧
        ∃ ppl, PublicParams.Ok C ppl ∧ Inv C ppl [z01] [z02] pps.length s'.base) := by
  obtain ⟨st, hi, hz, hinv⟩ := init_inv hC h0 (z01 := [z01]) (z02 := [z02]) rfl rfl
  have hki : keyedInit C pp0 [z01] [z02] = some ⟨st, ⟨pp0.shape1, pp0.ck1⟩, ⟨pp0.shape2, pp0.ck2⟩⟩ := by
    unfold keyedInit; rw [hi]; rfl
  cases pps with
  | nil => exact ⟨_, [], _, hki, rfl, rfl, by simp, by simp⟩
  | cons pp pps =>
    rw [List.length_cons] at hN
    obtain ⟨pfs, s', f1, f2, f3, f4, f5, f6, f7⟩ := keyed_run hC rfl rfl checked pps (n := 1)
      (s := ⟨{ st with i := 1 }, ⟨pp0.shape1, pp0.ck1⟩, ⟨pp0.shape2, pp0.ck2⟩⟩) h0 (fun q hq => hall q (List.mem_cons_of_mem _ hq))
      (by omega) (by omega) rfl rfl rfl (Inv.with_i hinv 1)
    refine ⟨_, Ivc.proof { st with i := 1 } :: pfs, s', hki, ?_, by rw [List.length_cons, List.length_cons, f2], ?_, fun _ => ⟨?_, ?_, ?_, ?_⟩⟩
    · unfold keyedRun keyedStep
      rw [if_pos hz]
      simp only [Option.bind_eq_bind, Option.bind_some]
      rw [f1]
      rfl
    · intro j pf q hj hq
      cases j with
      | zero =>
        cases hj
        rw [if_pos rfl] at hq
        cases hq
        exact ⟨good_of_inv hC rfl (Inv.with_i hinv 1), fun pp' hpp' => verify_other hC h0 hpp' rfl (Inv.with_i hinv 1)⟩
      | succ j =>
        rw [if_neg (by omega)] at hq
        have := f3 j pf q hj hq
        rwa [show 1 + 1 + j = j + 1 + 1 from by omega] at this
    · rw [f4, List.length_cons]; omega
    · rw [f5]
    · rw [f6]
    · obtain ⟨ppl, hl, hI⟩ := f7
      exact ⟨ppl, hl, by rwa [List.length_cons, show pps.length + 1 = 1 + pps.length from by omega]⟩

/-- **C115.** `init` with parameters `pp0`, then one `prove_step` with each of `pps`, fewer than `2^64`, in any build: no call
panics. Proof number `j + 1` has the right count and outputs and is accepted under the parameters of its own call; the first one,
which `init` has prepared, under `pp0`. Under any other parameters it is accepted exactly when the secondary key commits to
the last witness in the same way: nothing of the earlier calls' parameters matters. -/
theorem C115_changing (hC : C.Ok) (checked : Bool) (z01 : ZMod P) (z02 : ZMod S)
    (pp0 : PublicParams P S (curve b1).Point (curve b2).Point) (pps : List (PublicParams P S (curve b1).Point (curve b2).Point))
    (h0 : FromSetup C pp0) (hall : ∀ pp ∈ pps, FromSetup C pp) (hN : pps.length < 2 ^ 64) :
    ∃ s pfs s', keyedInit C pp0 [z01] [z02] = some s ∧ keyedRun checked C pps s = some (pfs, s') ∧ pfs.length = pps.length ∧
      ∀ j pf pp, pfs[j]? = some pf → (if j = 0 then some pp0 else pps[j]?) = some pp → GoodProof C pp [z01] [z02] (j + 1) pf ∧
        ∀ pp', FromSetup C pp' → pf.verify C pp' = some (decide (commit pp'.ck2 pf.wsingle2 = commit pp.ck2 pf.wsingle2)) := by
  obtain ⟨s, pfs, s', f1, f2, f3, f4, -⟩ := keyed_all hC checked z01 z02 pp0 pps (h0.ok hC) (fun pp hp => (hall pp hp).ok hC) hN
  exact ⟨s, pfs, s', f1, f2, f3, fun j pf pp hj hp => ⟨(f4 j pf pp hj hp).1, fun pp' h' => (f4 j pf pp hj hp).2 pp' (h'.ok hC)⟩⟩

/-- **C115, one set of parameters.** With the same parameters in every call the copies make no difference: the model of `Nova/Ivc.lean`
returns the same proofs. -/
theorem C115_same (checked : Bool) (pp : PublicParams P S (curve b1).Point (curve b2).Point) : ∀ (N : Nat)
    (st : Ivc P S (curve b1).Point (curve b2).Point), st.i + N < 2 ^ 64 →
    (keyedRun checked C (List.replicate N pp) ⟨st, ⟨pp.shape1, pp.ck1⟩, ⟨pp.shape2, pp.ck2⟩⟩).map Prod.fst = steps C pp N st
  | 0, _, _ => rfl
  | N + 1, st, h => by
    have one : keyedStep checked C pp ⟨st, ⟨pp.shape1, pp.ck1⟩, ⟨pp.shape2, pp.ck2⟩⟩ = (proveStep C pp st).map
        fun r => (⟨r.1, ⟨pp.shape1, pp.ck1⟩, ⟨pp.shape2, pp.ck2⟩⟩, r.2) := by
      unfold keyedStep proveStep
      dsimp only
      by_cases h0 : st.i = 0
      · rw [if_pos h0, if_pos h0]; rfl
      · rw [if_neg h0, if_neg h0]
        have hb : bump checked st.i = some (st.i + 1) := if_pos (by omega)
        rw [hb]
        cases prove C.D1.env pp.shape2 pp.ck2 st.range2 st.wrange2 st.single2 st.wsingle2 with
        | none => rfl
        | some a =>
          obtain ⟨r2, wr2, t2⟩ := a
          simp only [Option.bind_eq_bind, Option.bind_some]
          cases runCircuit C.D1 C.FC1 ⟨true, st.i, st.z01, some st.zi1, some st.single2, some st.range2, some t2⟩ pp.shape1 pp.ck1 with
          | none => rfl
          | some a =>
            obtain ⟨u1, w1, zi1⟩ := a
            simp only [Option.bind_some]
            cases prove C.D2.env pp.shape1 pp.ck1 st.range1 st.wrange1 u1 w1 with
            | none => rfl
            | some a =>
              obtain ⟨r1, wr1, t1⟩ := a
              simp only [Option.bind_some]
              cases runCircuit C.D2 C.FC2 ⟨false, st.i, st.z02, some st.zi2, some u1, some st.range1, some t1⟩ pp.shape2 pp.ck2 with
              | none => rfl
              | some a => rfl
    rw [List.replicate_succ]
    unfold keyedRun steps
    rw [one]
    cases hp : proveStep C pp st with
    | none => rfl
    | some a =>
      obtain ⟨st', pf⟩ := a
      have hi : st'.i = st.i + 1 := by
        unfold proveStep at hp
        split at hp
        · rename_i h0
          cases hp
          rw [h0]
        · simp only [Option.bind_eq_bind, Option.bind_eq_some_iff, Option.some.injEq, Prod.mk.injEq] at hp
          obtain ⟨_, _, _, _, _, _, _, _, rfl, _⟩ := hp
          rfl
      have ih := C115_same checked pp N st' (by omega)
      simp only [Option.map_some, Option.bind_eq_bind, Option.bind_some]
      rw [← ih]
      cases keyedRun checked C (List.replicate N pp) ⟨st', ⟨pp.shape1, pp.ck1⟩, ⟨pp.shape2, pp.ck2⟩⟩ <;> rfl

/-- **C115, the end of the counter's range.** After `2^64 - 1` steps another call panics in a build with overflow checks;
in the release build it returns a proof that reports step 0 and carries the outputs of step `2^64`, and the call after that
the same outputs as step 1. -/
theorem C115_overflow (hC : C.Ok) (checked : Bool) (z01 : ZMod P) (z02 : ZMod S)
    (pp0 : PublicParams P S (curve b1).Point (curve b2).Point) (pps : List (PublicParams P S (curve b1).Point (curve b2).Point))
    (h0 : FromSetup C pp0) (hall : ∀ pp ∈ pps, FromSetup C pp) (hN : pps.length = 2 ^ 64 - 1)
    (pp pp' : PublicParams P S (curve b1).Point (curve b2).Point) (hp : FromSetup C pp) :
    ∃ s pfs s', keyedInit C pp0 [z01] [z02] = some s ∧ keyedRun checked C pps s = some (pfs, s') ∧ keyedStep true C pp s' = none ∧
      ∃ s1 pf1 s2 pf2, keyedStep false C pp s' = some (s1, pf1) ∧ pf1.i = 0 ∧ pf1.zi1 = C.FC1.invoke^[2 ^ 64] [z01] ∧
        pf1.zi2 = C.FC2.invoke^[2 ^ 64] [z02] ∧ keyedStep false C pp' s1 = some (s2, pf2) ∧ pf2.i = 1 ∧ pf2.zi1 = pf1.zi1 ∧
        pf2.zi2 = pf1.zi2 := by
  obtain ⟨s, pfs, s', f1, f2, -, -, f5⟩ := keyed_all hC checked z01 z02 pp0 pps (h0.ok hC) (fun pp hp => (hall pp hp).ok hC)
    (lt_of_eq_of_lt hN (by norm_num))
  obtain ⟨g1, g2, g3, ppl, g4, g5⟩ := f5 (by rintro rfl; norm_num at hN)
  rw [hN] at g1 g5
  obtain ⟨e1, e2⟩ := same_shape (hp.ok hC) (h0.ok hC)
  obtain ⟨st', hinv, hst⟩ := keyed_step hC (hp.ok hC) g4 (z01 := [z01]) (z02 := [z02]) rfl rfl (n := 2 ^ 64 - 1) (by norm_num) (by norm_num)
    (g2.trans e1) (g3.trans e2) g1 g5
  have b1 : bump true (2 ^ 64 - 1) = none := by unfold bump; rw [if_neg (by norm_num), if_pos rfl]
  have b2 : bump false (2 ^ 64 - 1) = some 0 := by unfold bump; rw [if_neg (by norm_num), if_neg (by decide)]
  have e64 : 2 ^ 64 - 1 + 1 = 2 ^ 64 := by norm_num
  rw [e64] at hinv
  have t1 := hst true
  have t2 := hst false
  rw [b1] at t1
  rw [b2] at t2
  refine ⟨s, pfs, s', f1, f2, t1, _, _, ⟨{ st' with i := 1 }, s'.prover1, s'.prover2⟩, Ivc.proof { st' with i := 1 }, t2, rfl, hinv.zi1, hinv.zi2,
    ?_, rfl, rfl, rfl⟩
  unfold keyedStep
  rw [if_pos rfl]

/-! ### The library's cycle -/

/-- Three steps on the library's cycle, each with keys of its own. -/
example (fp : CarryBits) (k1 : List FrV) (k2 : List FqV) (gen1 : Nat → Nat → List (curve g1B).Point) (gen2 : Nat → Nat → List (curve grumpkinB).Point) :
    ∃ pp0 pp1 pp2 pp3 s pfs s', keyedInit (bn254Cycle fp k1 k2) pp0 [0] [1] = some s ∧
      keyedRun false (bn254Cycle fp k1 k2) [pp1, pp2, pp3] s = some (pfs, s') ∧ pfs.length = 3 ∧
      pp0.ck1 = gen1 0 (keyLog pp0.shape1.m) ∧ pp3.ck1 = gen1 3 (keyLog pp3.shape1.m) := by
  have mk : ∀ j, ∃ pp, setup (bn254Cycle fp k1 k2) (gen1 j) (gen2 j) = some pp ∧ pp.ck1 = gen1 j (keyLog pp.shape1.m) := by
    intro j
    obtain ⟨pp, h, -⟩ := setup_some (bn254Cycle_ok fp k1 k2) (gen1 j) (gen2 j)
    refine ⟨pp, h, ?_⟩
    unfold setup at h
    simp only [Option.bind_eq_bind, Option.bind_eq_some_iff, Option.some.injEq] at h
    obtain ⟨_, _, _, _, rfl⟩ := h
    rfl
  obtain ⟨pp0, h0, c0⟩ := mk 0
  obtain ⟨pp1, h1, -⟩ := mk 1
  obtain ⟨pp2, h2, -⟩ := mk 2
  obtain ⟨pp3, h3, c3⟩ := mk 3
  obtain ⟨s, pfs, s', e1, e2, e3, -⟩ := C115_changing (bn254Cycle_ok fp k1 k2) false 0 1 pp0 [pp1, pp2, pp3] ⟨_, _, h0⟩ (by
    intro pp hp
    simp only [List.mem_cons, List.not_mem_nil, or_false] at hp
    rcases hp with rfl | rfl | rfl
    exacts [⟨_, _, h1⟩, ⟨_, _, h2⟩, ⟨_, _, h3⟩]) (by norm_num)
  exact ⟨pp0, pp1, pp2, pp3, s, pfs, s', e1, e2, e3, c0, c3⟩

end Kogarashi.Props
