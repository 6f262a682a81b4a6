import Verif.Nova.Coherent
import Verif.Nova.BigNatProof

/-!
# A prover who fills the witnesses of the big integer gadgets differently

The programs of this file ask for exactly the wires and constraints of `bnEqualRegroup`, `bnMultMod` and `bnRedMod`
(lemmas `…_shape`), but put other values in the wires: `target_base`, `accumulated`, `max_word`, `accumulated_extra` and
the carries are all free witnesses in the code (`big_nat.rs:246-276`).  They are proof devices, not models of code.
-/

set_option exponentiation.threshold 1600

namespace Kogarashi.Nova

open Spec Circ

variable {p : Nat} [Fact p.Prime]

def cheatLoop (nb w : Nat) (cb : Nat) : List (Row (ZMod p) × Row (ZMod p)) → Row (ZMod p) → Circ (ZMod p) Unit
  | [], _ => pure ()
  | (a, b) :: rest, carryIn => do
    let va ← value a
    let vc ← value carryIn
    let vb ← value b
    let cv ← lift (some 0)
    let carry ← wit cv
    let bv ← lift (some 0)
    let base ← wit bv
    let target ← mul base carry
    let ev ← lift (some (vc + va - vb))
    let accumulated ← wit ev
    let mv ← lift (some 0)
    let mw ← wit mv
    enforceEqConstant (Row.sub (Row.sub (Row.add (Row.sub (Row.add carryIn a) b) mw) target) accumulated) 0
    match rest with
    | _ :: _ => do
      let bits ← toBits nb carry 256
      rangeCheckBits bits cb
    | [] => do
      let xv ← lift (some 0)
      let x ← wit xv
      enforceEqConstant (Row.sub carry x) 0
    cheatLoop nb w cb rest carry

def cheatCarried (fp : CarryBits) (nb : Nat) (a b : BigNat (ZMod p)) : Circ (ZMod p) Unit :=
  if a.limbWidth = b.limbWidth then do
    let n : Nat := min a.limbs.length b.limbs.length
    let maxWord := max a.maxWord b.maxWord
    cheatLoop nb a.limbWidth (fp.bits maxWord a.limbWidth) (a.limbs.zip b.limbs) (const 0)
    zeroLoop (a.limbs.drop n)
    zeroLoop (b.limbs.drop n)
  else failure

def cheatRegroup (fp : CarryBits) (nb : Nat) (a b : BigNat (ZMod p)) : Circ (ZMod p) Unit :=
  let maxWord := max a.maxWord b.maxWord
  let cb := fp.bits maxWord a.limbWidth
  if a.limbWidth = b.limbWidth ∧ 1 ≤ nb ∧ cb ≤ nb - 1 ∧ a.limbWidth ≠ 0 then do
    let g : Nat := (nb - 1 - cb) / a.limbWidth
    let a' ← bnGroup a g
    let b' ← bnGroup b g
    cheatCarried fp nb a' b'
  else failure

def cheatMultMod (fp : CarryBits) (nb R : Nat) (a b m : BigNat (ZMod p)) : Circ (ZMod p) (BigNat (ZMod p)) :=
  if a.limbWidth = b.limbWidth ∧ a.limbWidth ≠ 0 then do
    let quotientLimbs : Nat := (bnBits a + bnBits b - m.minBits - 1) / a.limbWidth + 1
    let _ ← bnValue a
    let _ ← bnValue b
    let _ ← bnValue m
    let _ ← lift (some ())
    let q ← bnWitness ((0 : Nat) : Int) a.limbWidth quotientLimbs
    bnWellFormed nb q
    let r ← bnWitness (R : Int) a.limbWidth m.limbs.length
    bnWellFormed nb r
    let left ← polyMul a.limbs b.limbs
    let rp ← polyMul q.limbs m.limbs
    let right := polyAdd rp r.limbs
    cheatRegroup fp nb
      (bnOfPoly left a.limbWidth ((min a.limbs.length b.limbs.length : Nat) * a.maxWord * b.maxWord))
      (bnOfPoly right a.limbWidth (rightMaxWord q m r))
    pure r
  else failure

def cheatRedMod (fp : CarryBits) (nb R : Nat) (a m : BigNat (ZMod p)) : Circ (ZMod p) (BigNat (ZMod p)) :=
  if a.limbWidth = m.limbWidth ∧ a.limbWidth ≠ 0 then do
    let quotientLimbs : Nat := (bnBits a - m.minBits - 1) / a.limbWidth + 1
    let _ ← bnValue a
    let _ ← bnValue m
    let _ ← lift (some ())
    let q ← bnWitness ((0 : Nat) : Int) a.limbWidth quotientLimbs
    bnWellFormed nb q
    let r ← bnWitness (R : Int) a.limbWidth m.limbs.length
    bnWellFormed nb r
    let rp ← polyMul q.limbs m.limbs
    let right := polyAdd rp r.limbs
    cheatRegroup fp nb a (bnOfPoly right a.limbWidth (rightMaxWord q m r))
    pure r
  else failure

/-! ## Same shape -/

theorem cheatLoop_shape (nb w : Nat) (M : Int) (cb : Nat) : ∀ (l : List (Row (ZMod p) × Row (ZMod p))) (ci : Row (ZMod p)) (e : Int),
    Coh (carryLoop nb w M cb l ci e) (cheatLoop nb w cb l ci) Eq
  | [], _, _ => by unfold carryLoop cheatLoop; exact Coh.pure rfl
  | (a, b) :: rest, ci, e => by
    unfold carryLoop cheatLoop
    refine Coh.value _ _ fun _ _ => Coh.value _ _ fun _ _ => Coh.value _ _ fun _ _ => Coh.liftT fun _ _ =>
      Coh.bindU (Uniform.wit _ _) fun _ => Coh.liftT fun _ _ => Coh.bindU (Uniform.wit _ _) fun _ =>
      Coh.bindU (Uniform.mul _ _) fun _ => Coh.liftT fun _ _ => Coh.bindU (Uniform.wit _ _) fun _ => Coh.liftT fun _ _ =>
      Coh.bindU (Uniform.wit _ _) fun _ => Coh.bindU (Uniform.enforceEqConstant _ _) fun _ => ?_
    cases rest with
    | nil =>
      exact Coh.liftT fun _ _ => Coh.bindU (Uniform.wit _ _) fun _ => Coh.bindU (Uniform.enforceEqConstant _ _) fun _ =>
        cheatLoop_shape nb w M cb [] _ _
    | cons h t =>
      exact Coh.bindU (Uniform.toBits _ _ _) fun _ => Coh.bindU (rangeCheckBits_uniform _ _) fun _ =>
        cheatLoop_shape nb w M cb (h :: t) _ _

theorem cheatCarried_shape (fp : CarryBits) (nb : Nat) (a b : BigNat (ZMod p)) : Coh (bnEqualCarried fp nb a b) (cheatCarried fp nb a b) Eq := by
  unfold bnEqualCarried cheatCarried
  split
  · exact (cheatLoop_shape _ _ _ _ _ _ _).bindE fun _ => (zeroLoop_coh _).bindE fun _ => zeroLoop_coh _
  · exact Coh.fail _

theorem cheatRegroup_shape (fp : CarryBits) (nb : Nat) (a b : BigNat (ZMod p)) : Coh (bnEqualRegroup fp nb a b) (cheatRegroup fp nb a b) Eq := by
  unfold bnEqualRegroup cheatRegroup
  dsimp only
  split
  · exact (bnGroup_coh _ _).bindE fun _ => (bnGroup_coh _ _).bindE fun _ => cheatCarried_shape _ _ _ _
  · exact Coh.fail _

theorem cheatMultMod_shape (fp : CarryBits) (nb R : Nat) (a b m : BigNat (ZMod p)) : Coh (bnMultMod fp nb a b m) (cheatMultMod fp nb R a b m) Eq := by
  unfold bnMultMod cheatMultMod bnWellFormed
  split
  · exact (bnValue_coh _).bind fun _ _ _ => (bnValue_coh _).bind fun _ _ _ => (bnValue_coh _).bind fun _ _ _ =>
      Coh.liftT fun _ _ => (bnWitness_coh _ _ _ _).bindE fun _ => (wellFormedLoop_coh _ _ _).bindE fun _ =>
      (bnWitness_coh _ _ _ _).bindE fun _ => (wellFormedLoop_coh _ _ _).bindE fun _ => (polyMul_coh _ _).bindE fun _ =>
      (polyMul_coh _ _).bindE fun _ => (cheatRegroup_shape _ _ _ _).bindE fun _ => Coh.pure rfl
  · exact Coh.fail _

theorem cheatRedMod_shape (fp : CarryBits) (nb R : Nat) (a m : BigNat (ZMod p)) : Coh (bnRedMod fp nb a m) (cheatRedMod fp nb R a m) Eq := by
  unfold bnRedMod cheatRedMod bnWellFormed
  split
  · exact (bnValue_coh _).bind fun _ _ _ => (bnValue_coh _).bind fun _ _ _ =>
      Coh.liftT fun _ _ => (bnWitness_coh _ _ _ _).bindE fun _ => (wellFormedLoop_coh _ _ _).bindE fun _ =>
      (bnWitness_coh _ _ _ _).bindE fun _ => (wellFormedLoop_coh _ _ _).bindE fun _ =>
      (polyMul_coh _ _).bindE fun _ => (cheatRegroup_shape _ _ _ _).bindE fun _ => Coh.pure rfl
  · exact Coh.fail _

/-! ## The run satisfies its constraints -/

theorem cheatLoop_hp {nb : Nat} (B : BitParams p nb) {w cb : Nat} (hcb0 : 0 < cb) (hcb : 2 ^ cb ≤ p) :
    ∀ (pairs : List (Row (ZMod p) × Row (ZMod p))) (ns : List (Nat × Nat)) {carry : Row (ZMod p)}
      {cs : CS (ZMod p)}, Wf cs →
    List.Forall₂ (fun r (n : Nat × Nat) => Has cs r.1 (n.1 : ZMod p) ∧ Has cs r.2 (n.2 : ZMod p)) pairs ns →
    Has cs carry (0 : ZMod p) → HP cs (cheatLoop nb w cb pairs carry) (fun _ _ => True)
  | [], [], carry, cs, wf, _, _ => HP.pure wf trivial
  | (a, b) :: rest, (an, bn) :: ns, carry, cs, wf, h, hc => by
    cases h with
    | cons h1 h2 =>
      unfold cheatLoop
      refine HP.bind (HP.value wf h1.1) (fun va c1 e1 w1 hva => ?_)
      refine HP.bind (HP.value w1 (hc.mono e1)) (fun vc c2 e2 w2 hvc => ?_)
      refine HP.bind (HP.value w2 ((h1.2.mono e1).mono e2)) (fun vb c3 e3 w3 hvb => ?_)
      subst hva hvc hvb
      have e13 : Extends cs c3 := (e1.trans e2).trans e3
      refine HP.bind (HP.lift' (a := (0 : ZMod p)) w3 rfl) (fun cv c4 e4 w4 hcv => ?_)
      subst hcv
      refine HP.bind (HP.wit w4 _) (fun cr c5 e5 w5 hcr => ?_)
      refine HP.bind (HP.lift' (a := (0 : ZMod p)) w5 rfl) (fun bv c6 e6 w6 hbv => ?_)
      subst hbv
      refine HP.bind (HP.wit w6 _) (fun base c7 e7 w7 hbase => ?_)
      refine HP.bind (HP.mul w7 hbase ((hcr.mono e6).mono e7)) (fun tg c8 e8 w8 htg => ?_)
      refine HP.bind (HP.lift' (a := (0 + (an : ZMod p) - (bn : ZMod p))) w8 rfl) (fun ev c9 e9 w9 hev => ?_)
      subst hev
      refine HP.bind (HP.wit w9 _) (fun ac c10 e10 w10 hac => ?_)
      refine HP.bind (HP.lift' (a := (0 : ZMod p)) w10 rfl) (fun mv c11 e11 w11 hmv => ?_)
      subst hmv
      refine HP.bind (HP.wit w11 _) (fun mw c12 e12 w12 hmw => ?_)
      have E8 : Extends cs c8 := ((((e13.trans e4).trans e5).trans e6).trans e7).trans e8
      have E8' : Extends c8 c12 := ((e9.trans e10).trans e11).trans e12
      have E : Extends cs c12 := E8.trans E8'
      refine HP.bind (HP.enforceEqConstant w12 (((((((hc.mono E).add (h1.1.mono E)).sub (h1.2.mono E)).add hmw).sub
        (htg.mono E8')).sub (hac.mono (e11.trans e12))).cast ?_)) (fun _ c13 e13' w13 _ => ?_)
      · ring
      have hcr' : Has c13 cr (0 : ZMod p) := hcr.mono ((((e6.trans e7).trans e8).trans E8').trans e13')
      have E13 : Extends cs c13 := E.trans e13'
      have next : ∀ c14, Extends c13 c14 → Wf c14 → HP c14 (cheatLoop nb w cb rest cr) (fun _ _ => True) :=
        fun c14 e14 w14 => cheatLoop_hp B hcb0 hcb rest ns w14
          (List.Forall₂.imp (fun _ _ h => ⟨(h.1.mono E13).mono e14, (h.2.mono E13).mono e14⟩) h2) (hcr'.mono e14)
      cases rest with
      | cons r rest' =>
        dsimp only
        refine HP.bind (toBits_nat B w13 (v := 0) (hcr'.cast (by simp)) (Fact.out : p.Prime).pos)
          (fun o c14 e14 w14 ⟨ds, k1, k2, k3, k4⟩ => ?_)
        refine HP.bind (HP.rangeCheckBits w14 k1 k2 B.lt256 hcb0 hcb (k3 ▸ pow_le_of_lt hcb B.lt256)
          (by rw [k4]; positivity)) (fun _ c15 e15 w15 _ => next c15 (e14.trans e15) w15)
      | nil =>
        cases h2
        dsimp only
        refine HP.bind (HP.lift' (a := (0 : ZMod p)) w13 rfl) (fun xv c14 e14 w14 hxv => ?_)
        subst hxv
        refine HP.bind (HP.wit w14 _) (fun x c15 e15 w15 hx => ?_)
        refine HP.bind (HP.enforceEqConstant w15 (((((hcr'.mono e14).mono e15).sub hx).cast ?_)))
          (fun _ c16 e16 w16 _ => next c16 ((e14.trans e15).trans e16) w16)
        rw [sub_self]

variable {cs : CS (ZMod p)} {fp : CarryBits}

theorem cheatCarried_hp {nb : Nat} (B : BitParams p nb) (wf : Wf cs) {a b : BigNat (ZMod p)} {an bn : List Nat}
    {w Ma Mb : Nat} (ha : IsBN cs a an w Ma) (hb : IsBN cs b bn w Mb)
    {cb : Nat} (hcbe : fp.bits ((max Ma Mb : Nat) : Int) w = cb) (hcb0 : 0 < cb) (hcb : 2 ^ cb ≤ p)
    (za : ∀ j, min an.length bn.length ≤ j → an.getD j 0 = 0) (zb : ∀ j, min an.length bn.length ≤ j → bn.getD j 0 = 0) :
    HP cs (cheatCarried fp nb a b) (fun _ _ => True) := by
  unfold cheatCarried
  rw [if_pos (by rw [ha.width, hb.width])]
  dsimp only
  have hmax : max a.maxWord b.maxWord = ((max Ma Mb : Nat) : Int) := by rw [ha.max, hb.max]; push_cast; rfl
  rw [hmax, ha.width, ha.has.length, hb.has.length, hcbe]
  refine HP.bind (cheatLoop_hp (p := p) B hcb0 hcb (a.limbs.zip b.limbs) (an.zip bn) wf (zip_forall₂ ha.has hb.has)
    (Has.const wf 0)) (fun _ c1 e1 w1 _ => ?_)
  refine HP.bind (zeroLoop_hp w1 ((ha.has.drop _).mono e1) (drop_zero za)) (fun _ c2 e2 w2 _ => ?_)
  exact zeroLoop_hp w2 (((hb.has.drop _).mono e1).mono e2) (drop_zero zb)

/-- Both sides fit in the common number of groups; they need not be equal. -/
theorem cheatRegroup_hp {nb : Nat} (B : BitParams p nb) (wf : Wf cs) {a b : BigNat (ZMod p)} {an bn : List Nat}
    {w Ma Mb : Nat} (ha : IsBN cs a an w Ma) (hb : IsBN cs b bn w Mb) (hw0 : 0 < w) (ha0 : an ≠ []) (hb0 : bn ≠ [])
    {cb g : Nat} (hcbe : fp.bits ((max Ma Mb : Nat) : Int) w = cb) (hcb1 : cb ≤ nb - 1) (hnb : 1 ≤ nb)
    (hge : (nb - 1 - cb) / w = g) (hg : 0 < g)
    {M' cb' : Nat} (hM' : groupFactor g w * max Ma Mb = M')
    (hcbe' : fp.bits (M' : Int) (w * g) = cb') (hcb0 : 0 < cb') (hcb : 2 ^ cb' ≤ p)
    (hlta : leValue (2 ^ w) an < (2 ^ (w * g)) ^ (min ((an.length - 1) / g + 1) ((bn.length - 1) / g + 1)))
    (hltb : leValue (2 ^ w) bn < (2 ^ (w * g)) ^ (min ((an.length - 1) / g + 1) ((bn.length - 1) / g + 1))) :
    HP cs (cheatRegroup fp nb a b) (fun _ _ => True) := by
  have hmax : max a.maxWord b.maxWord = ((max Ma Mb : Nat) : Int) := by rw [ha.max, hb.max]; push_cast; rfl
  unfold cheatRegroup
  dsimp only
  rw [hmax, ha.width, hb.width, hcbe, if_pos ⟨rfl, hnb, hcb1, by omega⟩, hge]
  refine HP.bind (bnGroup_hp wf ha hg ha0) (fun a' c1 e1 w1 ha' => ?_)
  refine HP.bind (bnGroup_hp w1 (hb.mono e1) hg hb0) (fun b' c2 e2 w2 hb' => ?_)
  have hm : max (groupFactor g w * Ma) (groupFactor g w * Mb) = M' := by rw [← hM', Nat.mul_max_mul_left]
  have hβ : 0 < 2 ^ (w * g) := by positivity
  refine cheatCarried_hp B w2 (ha'.mono e2) hb' (cb := cb') (by rw [hm]; exact hcbe') hcb0 hcb
    (fun j hj => getD_zero_of_lt hβ ?_ hj) (fun j hj => getD_zero_of_lt hβ ?_ hj)
  · rw [length_groupAll, length_groupAll]
    rw [show leValue (2 ^ (w * g)) (groupAll g (2 ^ w) an) = leValue (2 ^ w) an by rw [pow_mul, leValue_groupAll hg]]
    exact hlta
  · rw [length_groupAll, length_groupAll]
    rw [show leValue (2 ^ (w * g)) (groupAll g (2 ^ w) bn) = leValue (2 ^ w) bn by rw [pow_mul, leValue_groupAll hg]]
    exact hltb

theorem cheat64_hp (B : BitParams p 254) (wf : Wf cs) {a b : BigNat (ZMod p)} {an bn : List Nat} {Ma : Nat}
    (ha : IsBN cs a an 64 Ma) (hb : IsBN cs b bn 64 (4 * wordMax * wordMax + wordMax)) (ha0 : an ≠ []) (hb0 : bn ≠ [])
    (hMa : Ma ≤ 4 * wordMax * wordMax + wordMax)
    (hlta : leValue (2 ^ 64) an < (2 ^ 128) ^ (min ((an.length - 1) / 2 + 1) ((bn.length - 1) / 2 + 1)))
    (hltb : leValue (2 ^ 64) bn < (2 ^ 128) ^ (min ((an.length - 1) / 2 + 1) ((bn.length - 1) / 2 + 1))) :
    HP cs (cheatRegroup fp 254 a b) (fun _ _ => True) := by
  have hmax : max Ma (4 * wordMax * wordMax + wordMax) = 4 * wordMax * wordMax + wordMax := max_eq_right hMa
  have hgf : groupFactor 2 64 = 1 + 2 ^ 64 := by simp [groupFactor, Finset.sum_range_succ]
  refine cheatRegroup_hp B wf ha hb (by norm_num) ha0 hb0 (cb := 67) (g := 2) ?_ (by norm_num) (by norm_num)
    (by norm_num) (by norm_num) (M' := (1 + 2 ^ 64) * (4 * wordMax * wordMax + wordMax)) (cb' := 67) ?_ ?_
    (by norm_num) ?_ hlta hltb
  · rw [hmax]
    rw [fp.eq (k := 130) (by norm_num) (by norm_num) (by norm_num) (by norm_num)]
  · rw [hmax, hgf]
  · rw [fp.eq (k := 194) (by norm_num) (by norm_num) (by norm_num) (by norm_num)]
  · exact (B.big (by norm_num)).le

theorem leValue_limbs0 (k : Nat) : leValue (2 ^ 64) (limbsOf 64 k 0) = 0 := by
  rw [limbsOf_value, Nat.zero_mod]

theorem cheatMultMod_hp (B : BitParams p 254) (wf : Wf cs) {a b m : BigNat (ZMod p)} {an bn mn : List Nat} {R : Nat}
    (ha : IsBN cs a an 64 wordMax) (hb : IsBN cs b bn 64 wordMax) (hm : IsBN cs m mn 64 wordMax)
    (la : an.length = 4) (lb : bn.length = 4) (lm : mn.length = 4) (hR : R < 2 ^ 256) :
    HP cs (cheatMultMod fp 254 R a b m) (fun o c => IsBN c o (limbsOf 64 4 R) 64 wordMax) := by
  have hA := leValue64_lt ha.le la
  have hB := leValue64_lt hb.le lb
  generalize eA : leValue (2 ^ 64) an = A at *
  generalize eB : leValue (2 ^ 64) bn = Bv at *
  have hAB : A * Bv < 2 ^ 512 := by
    calc A * Bv < 2 ^ 256 * 2 ^ 256 := Nat.mul_lt_mul'' hA hB
      _ = 2 ^ 512 := by norm_num
  have hql : (bnBits a + bnBits b - m.minBits - 1) / 64 + 1 = 8 := by
    rw [bnBits_of ha, bnBits_of hb, hm.minBits, size_eq (k := 63) (by norm_num) (by norm_num)]
  unfold cheatMultMod
  rw [if_pos ⟨by rw [ha.width, hb.width], by rw [ha.width]; norm_num⟩]
  dsimp only
  rw [ha.width, hql]
  refine HP.bind (bnValue_hp wf ha (wordMax_lt B)) (fun va c1 e1 w1 hva => ?_)
  refine HP.bind (bnValue_hp w1 (hb.mono e1) (wordMax_lt B)) (fun vb c2 e2 w2 hvb => ?_)
  refine HP.bind (bnValue_hp w2 ((hm.mono e1).mono e2) (wordMax_lt B)) (fun vm c3 e3 w3 hvm => ?_)
  clear hva hvb hvm
  refine HP.bind (HP.lift' (a := ()) w3 rfl) (fun _ c4 e4 w4 _ => ?_)
  refine HP.bind (bnWitness_hp w4 (by norm_num) (by positivity)) (fun q c5 e5 w5 hq => ?_)
  refine HP.bind (bnWellFormed_hp B w5 hq (by norm_num) (word_le B) (by norm_num)) (fun _ c6 e6 w6 _ => ?_)
  rw [hasN_len hm, lm]
  refine HP.bind (bnWitness_hp w6 (by norm_num) (by simpa using hR)) (fun r c7 e7 w7 hr => ?_)
  refine HP.bind (bnWellFormed_hp B w7 hr (by norm_num) (word_le B) (by norm_num)) (fun _ c8 e8 w8 _ => ?_)
  have E8 : Extends cs c8 := ((((((e1.trans e2).trans e3).trans e4).trans e5).trans e6).trans e7).trans e8
  refine HP.bind (polyMul_hp w8 (ha.has.mono E8) (hb.has.mono E8) (by omega)) (fun left c9 e9 w9 hl => ?_)
  have E9 := E8.trans e9
  have Eq9 : Extends c5 c9 := ((e6.trans e7).trans e8).trans e9
  refine HP.bind (polyMul_hp w9 (hq.has.mono Eq9) (hm.has.mono E9) (by rw [lm]; omega)) (fun rp c10 e10 w10 hrp => ?_)
  have Er10 : Extends c7 c10 := (e8.trans e9).trans e10
  have hright := polyAdd_has w10 hrp (hr.has.mono Er10)
  have hmr : rightMaxWord q m r = ((4 * wordMax * wordMax + wordMax : Nat) : Int) := by
    unfold rightMaxWord
    rw [hasN_len hq, hasN_len hm, length_limbsOf, lm, hq.max, hm.max, hr.max]
    norm_num
  rw [hasN_len ha, hasN_len hb, la, lb, ha.max, hb.max, hmr]
  have lq : (mulN (limbsOf 64 8 0) mn).length = 11 := by rw [length_mulN, length_limbsOf, lm]
  have vr : leValue (2 ^ 64) (limbsOf 64 4 R) = R := by
    rw [limbsOf_value, Nat.mod_eq_of_lt (by simpa using hR)]
  refine HP.bind (cheat64_hp B w10 (Ma := 4 * wordMax * wordMax) (an := mulN an bn)
    (bn := polyAddN (mulN (limbsOf 64 8 0) mn) (limbsOf 64 4 R))
    ⟨hl.mono e10, rfl, by norm_num [bnOfPoly], ?_, rfl, by exact hl.length⟩
    ⟨hright, rfl, rfl, ?_, rfl, by exact hright.length⟩ ?_ ?_ (by omega) ?_ ?_) (fun _ c11 e11 w11 _ => HP.pure w11 ?_)
  · intro x hx
    have := mulN_le ha.le hb.le x hx
    rw [la, lb] at this
    simpa [mul_assoc] using this
  · refine mem_le_of_getD fun j => ?_
    rw [getD_polyAddN]
    have h1 := getD_le_of_mem (mulN_le hq.le hm.le) j
    rw [length_limbsOf, lm] at h1
    have h2 := getD_le_of_mem hr.le j
    have h3 : min 8 4 * (wordMax * wordMax) = 4 * wordMax * wordMax := by norm_num
    exact Nat.add_le_add (h3 ▸ h1) h2
  · intro h
    have := congrArg List.length h
    rw [length_mulN, la, lb] at this
    simp at this
  · intro h
    have := congrArg List.length h
    rw [length_polyAddN, lq] at this
    simp at this
  · rw [leValue_mulN, eA, eB, length_mulN, la, lb, length_polyAddN, lq, length_limbsOf]
    refine lt_of_lt_of_le hAB (le_of_eq ?_)
    norm_num
  · rw [leValue_polyAddN, leValue_mulN, leValue_limbs0, zero_mul, zero_add, vr, length_mulN, la, lb, length_polyAddN, lq,
      length_limbsOf]
    refine hR.trans (lt_of_lt_of_le (b := 2 ^ 512) (by norm_num) (le_of_eq ?_))
    norm_num
  · exact hr.mono (Er10.trans e11)

theorem cheatRedMod_hp (B : BitParams p 254) (wf : Wf cs) {a m : BigNat (ZMod p)} {an mn : List Nat} {Ma R : Nat}
    (ha : IsBN cs a an 64 Ma) (hm : IsBN cs m mn 64 wordMax) (hMa : wordMax ≤ Ma) (hMa' : Ma ≤ 2 * wordMax)
    (la : an.length = 4) (lm : mn.length = 4) (hfit : leValue (2 ^ 64) an < 2 ^ 256) (hR : R < 2 ^ 256) :
    HP cs (cheatRedMod fp 254 R a m) (fun o c => IsBN c o (limbsOf 64 4 R) 64 wordMax) := by
  obtain ⟨ql, hql⟩ : ∃ ql, (bnBits a - m.minBits - 1) / 64 + 1 = ql := ⟨_, rfl⟩
  have hql45 : ql = 4 ∨ ql = 5 := by
    rw [← hql, bnBits_of ha, hm.minBits]
    exact size_cases hMa hMa'
  have hMp : Ma < p := B.big (hMa'.trans (by norm_num))
  unfold cheatRedMod
  rw [if_pos ⟨by rw [ha.width, hm.width], by rw [ha.width]; norm_num⟩]
  dsimp only
  rw [ha.width, hql]
  refine HP.bind (bnValue_hp wf ha hMp) (fun va c1 e1 w1 hva => ?_)
  refine HP.bind (bnValue_hp w1 (hm.mono e1) (wordMax_lt B)) (fun vm c3 e3 w3 hvm => ?_)
  clear hva hvm
  refine HP.bind (HP.lift' (a := ()) w3 rfl) (fun _ c4 e4 w4 _ => ?_)
  refine HP.bind (bnWitness_hp w4 (by norm_num) (by positivity)) (fun q c5 e5 w5 hq => ?_)
  refine HP.bind (bnWellFormed_hp B w5 hq (by norm_num) (word_le B) (by norm_num)) (fun _ c6 e6 w6 _ => ?_)
  rw [hasN_len hm, lm]
  refine HP.bind (bnWitness_hp w6 (by norm_num) (by simpa using hR)) (fun r c7 e7 w7 hr => ?_)
  refine HP.bind (bnWellFormed_hp B w7 hr (by norm_num) (word_le B) (by norm_num)) (fun _ c8 e8 w8 _ => ?_)
  have E8 : Extends cs c8 := (((((e1.trans e3).trans e4).trans e5).trans e6).trans e7).trans e8
  have Eq8 : Extends c5 c8 := (e6.trans e7).trans e8
  refine HP.bind (polyMul_hp w8 (hq.has.mono Eq8) (hm.has.mono E8) (by rw [lm]; omega)) (fun rp c10 e10 w10 hrp => ?_)
  have Er10 : Extends c7 c10 := e8.trans e10
  have hright := polyAdd_has w10 hrp (hr.has.mono Er10)
  have hmin : min ql 4 = 4 := by omega
  have hmr : rightMaxWord q m r = ((4 * wordMax * wordMax + wordMax : Nat) : Int) := by
    unfold rightMaxWord
    rw [hasN_len hq, hasN_len hm, length_limbsOf, lm, hq.max, hm.max, hr.max, hmin]
    norm_num
  rw [hmr]
  have lq : (mulN (limbsOf 64 ql 0) mn).length = ql + 3 := by rw [length_mulN, length_limbsOf, lm]; omega
  have vr : leValue (2 ^ 64) (limbsOf 64 4 R) = R := by
    rw [limbsOf_value, Nat.mod_eq_of_lt (by simpa using hR)]
  have hmn : min ((4 - 1) / 2 + 1) ((max (ql + 3) 4 - 1) / 2 + 1) = 2 := by omega
  refine HP.bind (cheat64_hp B w10 (Ma := Ma) (an := an)
    (bn := polyAddN (mulN (limbsOf 64 ql 0) mn) (limbsOf 64 4 R))
    (ha.mono (E8.trans e10))
    ⟨hright, rfl, rfl, ?_, rfl, by exact hright.length⟩ ?_ ?_ (hMa'.trans (by norm_num)) ?_ ?_) (fun _ c11 e11 w11 _ => HP.pure w11 ?_)
  · refine mem_le_of_getD fun j => ?_
    rw [getD_polyAddN]
    have h1 := getD_le_of_mem (mulN_le hq.le hm.le) j
    rw [length_limbsOf, lm, hmin, ← mul_assoc] at h1
    have h2 := getD_le_of_mem hr.le j
    exact Nat.add_le_add h1 h2
  · intro h; rw [h] at la; simp at la
  · intro h
    have := congrArg List.length h
    rw [length_polyAddN, lq] at this
    simp at this
  · rw [la, length_polyAddN, lq, length_limbsOf, hmn]
    exact lt_of_lt_of_le hfit (le_of_eq (by norm_num))
  · rw [leValue_polyAddN, leValue_mulN, leValue_limbs0, zero_mul, zero_add, vr, la, length_polyAddN, lq, length_limbsOf, hmn]
    exact lt_of_lt_of_le hR (le_of_eq (by norm_num))
  · exact hr.mono (Er10.trans e11)

/-- From an honest run and a cheating one of the same shape. -/
theorem cheat_run {α : Type} {cs : CS (ZMod p)} (wf : Wf cs) (hs : Satisfies (stored cs) cs) {g h : Circ (ZMod p) α}
    (co : Coh g h Eq) {P Q : α → CS (ZMod p) → Prop} (hg : HP cs g P) (hh : HP cs h Q) :
    ∃ o c z c', g cs = some (o, c) ∧ Satisfies z c ∧ AgreeOn cs z (stored cs) ∧ z = stored c' ∧ Q o c' := by
  obtain ⟨o, c, h1, -, e1, -, -⟩ := HP.satisfied wf hg
  obtain ⟨o', c', h2, hq, e2, w2, s2⟩ := HP.satisfied wf hh
  obtain ⟨he, hsh⟩ := co cs cs o o' c c' ⟨rfl, rfl, rfl⟩ h1 h2
  subst he
  have hsat := s2 hs
  refine ⟨o, c, stored c', c', h1, ⟨hsat.1, ?_⟩, fun w hw => e2.stored_eq hw, rfl, hq⟩
  rw [hsh.cons]
  exact hsat.2

end Kogarashi.Nova
