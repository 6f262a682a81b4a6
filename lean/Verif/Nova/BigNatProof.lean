import Verif.Nova.BigNat
import Verif.Nova.NatPoly
import Verif.Nova.FoldingProof
import Verif.R1cs.Honest

/-!
# The big-integer gadget run by the honest prover
-/

set_option exponentiation.threshold 1600

namespace Kogarashi

open Spec

namespace Nova

variable {p : Nat} [Fact p.Prime]

/-- Rows standing for natural numbers. -/
def HasN (c : CS (ZMod p)) (rs : List (Row (ZMod p))) (ns : List Nat) : Prop :=
  List.Forall₂ (fun r (n : Nat) => Has c r (n : ZMod p)) rs ns

theorem HasN.mono {c c' : CS (ZMod p)} {rs : List (Row (ZMod p))} {ns : List Nat} (h : HasN c rs ns) (e : Extends c c') :
    HasN c' rs ns := List.Forall₂.imp (fun _ _ h => h.mono e) h

theorem HasN.length {c : CS (ZMod p)} {rs : List (Row (ZMod p))} {ns : List Nat} (h : HasN c rs ns) :
    rs.length = ns.length := List.Forall₂.length_eq h

theorem HasN.replicate {c : CS (ZMod p)} (wf : Wf c) (n : Nat) :
    HasN c (List.replicate n (Circ.const 0)) (List.replicate n 0) := by
  induction n with
  | zero => exact List.Forall₂.nil
  | succ n ih => exact List.Forall₂.cons ((Has.const wf 0).cast (by simp)) ih

theorem HasN.modify {c : CS (ZMod p)} {rs : List (Row (ZMod p))} {ns : List Nat} (h : HasN c rs ns) {m : Row (ZMod p)}
    {v : Nat} (hm : Has c m (v : ZMod p)) (k : Nat) :
    HasN c (rs.modify k (fun r => Row.add r m)) (ns.modify k (· + v)) := by
  induction h generalizing k with
  | nil =>
    have : ([] : List (Row (ZMod p))).modify k (fun r => Row.add r m) = [] := by simp
    rw [this]
    have : ([] : List Nat).modify k (· + v) = [] := by simp
    rw [this]
    exact List.Forall₂.nil
  | cons h1 h2 ih =>
    cases k with
    | zero => exact List.Forall₂.cons (Has.cast (Has.add h1 hm) (by push_cast; rfl)) h2
    | succ k =>
      rw [List.modify_succ_cons, List.modify_succ_cons]
      exact List.Forall₂.cons h1 (ih k)

theorem HasN.getElem? {c : CS (ZMod p)} {rs : List (Row (ZMod p))} {ns : List Nat} (h : HasN c rs ns) (i : Nat) :
    (∃ r n, rs[i]? = some r ∧ ns[i]? = some n ∧ Has c r (n : ZMod p)) ∨ (rs[i]? = none ∧ ns[i]? = none) := by
  induction h generalizing i with
  | nil => right; simp
  | cons h1 h2 ih =>
    cases i with
    | zero => left; exact ⟨_, _, rfl, rfl, h1⟩
    | succ i => simpa using ih i

theorem HasN.drop {c : CS (ZMod p)} {rs : List (Row (ZMod p))} {ns : List Nat} (h : HasN c rs ns) (n : Nat) :
    HasN c (rs.drop n) (ns.drop n) := List.forall₂_drop n h

/-- The bit sizes a driver fixes. -/
structure BitParams (p nb : Nat) : Prop where
  le : nb ≤ 256
  lo : 2 ^ (nb - 1) < p
  hi : p ≤ 2 ^ nb

theorem BitParams.lt256 {nb : Nat} (h : BitParams p nb) : p ≤ 2 ^ 256 :=
  h.hi.trans (Nat.pow_le_pow_right (by norm_num) h.le)

theorem val_cast_lt {n : Nat} (h : n < p) : ((n : ZMod p)).val = n := by
  rw [ZMod.val_natCast, Nat.mod_eq_of_lt h]

variable {cs : CS (ZMod p)} {fp : CarryBits}

theorem witList_hp {F : Type} [Field F] [DecidableEq F] : ∀ (vs : List F) {cs : CS F}, Wf cs →
    HP cs (witList vs) (fun o c => HasL c o vs)
  | [], cs, wf => HP.pure wf List.Forall₂.nil
  | v :: vs, cs, wf => by
    unfold witList
    refine HP.bind (HP.wit wf v) (fun r c e w h => ?_)
    refine HP.bind (witList_hp vs w) (fun rs c2 e2 w2 h2 => ?_)
    exact HP.pure w2 (List.Forall₂.cons (h.mono e2) h2)

theorem hasN_of_hasL {c : CS (ZMod p)} {rs : List (Row (ZMod p))} : ∀ {ns : List Nat},
    HasL c rs (ns.map (fun d : Nat => (d : ZMod p))) → HasN c rs ns := by
  intro ns h
  unfold HasL at h
  rwa [List.forall₂_map_right_iff] at h

/-- What a big-integer assignment is known to hold. -/
structure IsBN (c : CS (ZMod p)) (a : BigNat (ZMod p)) (ns : List Nat) (w M : Nat) : Prop where
  has : HasN c a.limbs ns
  width : a.limbWidth = w
  max : a.maxWord = (M : Int)
  le : ∀ n ∈ ns, n ≤ M
  minBits : a.minBits = 0
  count : a.nLimbs = ns.length

theorem IsBN.mono {c c' : CS (ZMod p)} {a : BigNat (ZMod p)} {ns : List Nat} {w M : Nat} (h : IsBN c a ns w M)
    (e : Extends c c') : IsBN c' a ns w M := ⟨h.has.mono e, h.width, h.max, h.le, h.minBits, h.count⟩

theorem bnWitness_hp (wf : Wf cs) {n w k : Nat} (hw : w ≤ 511) (h : n < 2 ^ (k * w)) :
    HP cs (bnWitness (n : Int) w k) (fun o c => IsBN c o (limbsOf w k n) w (2 ^ w - 1)) := by
  unfold bnWitness
  refine HP.bind (HP.lift' wf (natToLimbs_eq hw h)) (fun vs c e w1 hvs => ?_)
  subst hvs
  refine HP.bind (witList_hp _ w1) (fun rs c2 e2 w2 h2 => HP.pure w2 ?_)
  refine ⟨hasN_of_hasL h2, rfl, ?_, ?_, rfl, by simp [limbsOf]⟩
  · have : 1 ≤ 2 ^ w := Nat.one_le_two_pow
    push_cast [Nat.cast_sub this]; rfl
  · intro d hd
    have := limbsOf_lt d hd
    omega

theorem valueList_hp : ∀ {rs : List (Row (ZMod p))} {ns : List Nat} {cs : CS (ZMod p)}, Wf cs → HasN cs rs ns →
    HP cs (valueList rs) (fun o _ => o = ns.map (fun d : Nat => (d : ZMod p)))
  | [], [], _, wf, _ => HP.pure wf rfl
  | r :: rs, n :: ns, cs, wf, h => by
    cases h with
    | cons h1 h2 =>
      unfold valueList
      refine HP.bind (HP.value wf h1) (fun v c e w hv => ?_)
      refine HP.bind (valueList_hp w (HasN.mono h2 e)) (fun vs c2 e2 w2 hvs => HP.pure w2 ?_)
      simp [hv, hvs]

theorem limbsToNat_cast (w : Nat) : ∀ {ns : List Nat}, (∀ n ∈ ns, n < p) →
    limbsToNat (ns.map (fun d : Nat => (d : ZMod p))) w = ((leValue (2 ^ w) ns : Nat) : Int)
  | [], _ => rfl
  | n :: ns, h => by
    have ih := limbsToNat_cast w (ns := ns) (fun n hn => h n (by simp [hn]))
    unfold limbsToNat at ih ⊢
    rw [List.map_cons, List.reverse_cons, List.foldl_append, ih]
    simp only [List.foldl_cons, List.foldl_nil, leValue, fToNat]
    rw [val_cast_lt (h n (by simp))]
    push_cast; ring

theorem bnValue_hp (wf : Wf cs) {a : BigNat (ZMod p)} {ns : List Nat} {w M : Nat} (h : IsBN cs a ns w M) (hM : M < p) :
    HP cs (bnValue a) (fun v _ => v = ((leValue (2 ^ w) ns : Nat) : Int)) := by
  unfold bnValue
  refine HP.bind (valueList_hp wf h.has) (fun vs c e w1 hvs => HP.pure w1 ?_)
  rw [hvs, h.width]
  exact limbsToNat_cast w (fun n hn => lt_of_le_of_lt (h.le n hn) hM)

theorem toBits_nat {nb : Nat} (B : BitParams p nb) (wf : Wf cs) {x : Row (ZMod p)} {v : Nat} (hx : Has cs x (v : ZMod p))
    (hv : v < p) : HP cs (Circ.toBits nb x 256) (fun o c => ∃ ds, HasBits c o ds ∧ (∀ d ∈ ds, d = 0 ∨ d = 1) ∧
      o.length = 256 ∧ beValue 2 ds = v) := by
  refine (HP.toBits wf hx B.le B.lo B.hi (by norm_num) le_rfl).mono (fun o c _ _ ⟨ds, h1, h2, h3, _, h4⟩ => ⟨ds, h1, h2, h3, ?_⟩)
  rw [h4, val_cast_lt hv]
  exact Nat.mod_eq_of_lt (lt_of_lt_of_le hv B.lt256)

theorem pow_le_of_lt {w : Nat} (h : 2 ^ w ≤ p) (B : p ≤ 2 ^ 256) : w ≤ 256 :=
  (Nat.pow_le_pow_iff_right (by norm_num : 1 < 2)).mp (h.trans B)

theorem rangeBits_nat {nb : Nat} (B : BitParams p nb) (wf : Wf cs) {x : Row (ZMod p)} {v w : Nat}
    (hx : Has cs x (v : ZMod p)) (hv : v < 2 ^ w) (hw0 : 0 < w) (hw : 2 ^ w ≤ p) :
    HP cs (Circ.toBits nb x 256 >>= fun bits => Circ.rangeCheckBits bits w) (fun _ _ => True) := by
  refine HP.bind (toBits_nat B wf hx (by omega)) (fun o c e w1 ⟨ds, h1, h2, h3, h4⟩ => ?_)
  exact HP.rangeCheckBits w1 h1 h2 B.lt256 hw0 hw (h3 ▸ pow_le_of_lt hw B.lt256) (by omega)

theorem wellFormedLoop_hp {nb : Nat} (B : BitParams p nb) {w : Nat} (hw0 : 0 < w) (hw : 2 ^ w ≤ p) :
    ∀ {rs : List (Row (ZMod p))} {ns : List Nat} {cs : CS (ZMod p)}, Wf cs → HasN cs rs ns → (∀ n ∈ ns, n < 2 ^ w) →
    HP cs (wellFormedLoop nb w rs) (fun _ _ => True)
  | [], [], cs, wf, _, _ => HP.pure wf trivial
  | r :: rs, n :: ns, cs, wf, h, hl => by
    cases h with
    | cons h1 h2 =>
      unfold wellFormedLoop
      refine HP.bind (toBits_nat B wf h1 (lt_of_lt_of_le (hl n (by simp)) hw)) (fun o c e w1 ⟨ds, k1, k2, k3, k4⟩ => ?_)
      refine HP.bind (HP.rangeCheckBits w1 k1 k2 B.lt256 hw0 hw (k3 ▸ pow_le_of_lt hw B.lt256)
        (by rw [k4]; exact hl n (by simp))) (fun _ c2 e2 w2 _ => ?_)
      exact wellFormedLoop_hp B hw0 hw w2 ((HasN.mono h2 e).mono e2) (fun n hn => hl n (by simp [hn]))

theorem bnWellFormed_hp {nb : Nat} (B : BitParams p nb) (wf : Wf cs) {a : BigNat (ZMod p)} {ns : List Nat} {w M : Nat}
    (h : IsBN cs a ns w M) (hw0 : 0 < w) (hw : 2 ^ w ≤ p) (hM : M < 2 ^ w) :
    HP cs (bnWellFormed nb a) (fun _ _ => True) := by
  unfold bnWellFormed
  rw [h.width]
  exact wellFormedLoop_hp B hw0 hw wf h.has (fun n hn => lt_of_le_of_lt (h.le n hn) hM)

/-! ## Polynomial products -/

theorem mulInner_hp {a : Row (ZMod p)} {av : Nat} : ∀ {bs : List (Row (ZMod p))} {bn : List Nat} (k : Nat)
    {prod : List (Row (ZMod p))} {pn : List Nat} {cs : CS (ZMod p)}, Wf cs → Has cs a (av : ZMod p) → HasN cs bs bn →
    HasN cs prod pn → HP cs (mulInner a k bs prod) (fun o c => HasN c o (mulInnerN av k bn pn))
  | [], [], k, prod, pn, cs, wf, _, _, hp => HP.pure wf hp
  | b :: bs, n :: bn, k, prod, pn, cs, wf, ha, hb, hp => by
    cases hb with
    | cons h1 h2 =>
      unfold mulInner
      refine HP.bind (HP.mul wf ha h1) (fun m c e w hm => ?_)
      exact mulInner_hp (k + 1) w (ha.mono e) (HasN.mono h2 e) ((hp.mono e).modify (hm.cast (by push_cast; rfl)) k)

theorem mulOuter_hp {bs : List (Row (ZMod p))} {bn : List Nat} : ∀ {as : List (Row (ZMod p))} {an : List Nat} (i : Nat)
    {prod : List (Row (ZMod p))} {pn : List Nat} {cs : CS (ZMod p)}, Wf cs → HasN cs as an → HasN cs bs bn →
    HasN cs prod pn → HP cs (mulOuter bs i as prod) (fun o c => HasN c o (mulOuterN bn i an pn))
  | [], [], i, prod, pn, cs, wf, _, _, hp => HP.pure wf hp
  | a :: as, n :: an, i, prod, pn, cs, wf, ha, hb, hp => by
    cases ha with
    | cons h1 h2 =>
      unfold mulOuter
      refine HP.bind (mulInner_hp i wf h1 hb hp) (fun pr c e w hpr => ?_)
      exact mulOuter_hp (i + 1) w (HasN.mono h2 e) (hb.mono e) hpr

theorem evalRow_hp {t : Nat} : ∀ {cf : List (Row (ZMod p))} {cn : List Nat} (i : Nat)
    {acc : Row (ZMod p)} {av : Nat} {cs : CS (ZMod p)}, Wf cs → HasN cs cf cn → Has cs acc (av : ZMod p) →
    HP cs (evalRow (t : ZMod p) cf (i : ZMod p) acc) (fun o c => Has c o ((av + i * leValue t cn : Nat) : ZMod p))
  | [], [], i, acc, av, cs, wf, _, ha => HP.pure wf (ha.cast (by simp [leValue]))
  | r :: cf, n :: cn, i, acc, av, cs, wf, h, ha => by
    cases h with
    | cons h1 h2 =>
      unfold evalRow
      refine HP.bind (HP.mul wf h1 (Has.const wf _)) (fun m c e w hm => ?_)
      have := evalRow_hp (t := t) (i * t) w (HasN.mono h2 e)
        (((ha.mono e).add hm).cast (w := ((av + n * i : Nat) : ZMod p)) (by push_cast; rfl))
      rw [show ((i * t : Nat) : ZMod p) = (i : ZMod p) * t by push_cast; rfl] at this
      refine this.mono (fun o c' _ _ h => h.cast ?_)
      rw [leValue]
      push_cast; ring

theorem mulCheck_hp {as bs cf : List (Row (ZMod p))} {an bn cn : List Nat} (hv : ∀ t, leValue t cn = leValue t an * leValue t bn) :
    ∀ (k t : Nat) {cs : CS (ZMod p)}, Wf cs → HasN cs as an → HasN cs bs bn → HasN cs cf cn →
    HP cs (mulCheck as bs cf k (t : ZMod p)) (fun _ _ => True)
  | 0, t, cs, wf, _, _, _ => HP.pure wf trivial
  | k + 1, t, cs, wf, ha, hb, hc => by
    unfold mulCheck
    have e1 : (t : ZMod p) + 1 = ((t + 1 : Nat) : ZMod p) := by push_cast; rfl
    have z : ∀ {c : CS (ZMod p)}, Wf c → Has c (Circ.const 0) ((0 : Nat) : ZMod p) := fun w => (Has.const w 0).cast (by simp)
    have o1 : (1 : ZMod p) = ((1 : Nat) : ZMod p) := by simp
    simp only [e1]
    rw [o1]
    refine HP.bind (evalRow_hp (t := t + 1) 1 wf ha (z wf)) (fun a c e w h1 => ?_)
    refine HP.bind (evalRow_hp (t := t + 1) 1 w (hb.mono e) (z w)) (fun b c2 e2 w2 h2 => ?_)
    refine HP.bind (evalRow_hp (t := t + 1) 1 w2 ((hc.mono e).mono e2) (z w2)) (fun cc c3 e3 w3 h3 => ?_)
    refine HP.bind (HP.mul w3 ((h1.mono e2).mono e3) (h2.mono e3)) (fun ab c4 e4 w4 h4 => ?_)
    refine HP.bind (HP.enforceEq w4 h4 ((h3.mono e4).cast ?_)) (fun _ c5 e5 w5 _ => ?_)
    · rw [hv]; push_cast; ring
    · exact mulCheck_hp hv k (t + 1) w5 (((((ha.mono e).mono e2).mono e3).mono e4).mono e5)
        (((((hb.mono e).mono e2).mono e3).mono e4).mono e5) (((((hc.mono e).mono e2).mono e3).mono e4).mono e5)

/-- The integer coefficients of the product. -/
def mulN (an bn : List Nat) : List Nat := mulOuterN bn 0 an (List.replicate (an.length + bn.length - 1) 0)

theorem leValue_mulN (t : Nat) (an bn : List Nat) : leValue t (mulN an bn) = leValue t an * leValue t bn := by
  unfold mulN
  rw [leValue_mulOuterN t bn an 0 _ (by simp; omega), leValue_replicate_zero]; simp

theorem length_mulN (an bn : List Nat) : (mulN an bn).length = an.length + bn.length - 1 := by
  unfold mulN; rw [length_mulOuterN]; simp

theorem mulN_le {an bn : List Nat} {M N : Nat} (ha : ∀ a ∈ an, a ≤ M) (hb : ∀ b ∈ bn, b ≤ N) :
    ∀ x ∈ mulN an bn, x ≤ min an.length bn.length * (M * N) :=
  mem_le_of_getD (mulOuterN_entry_le ha hb (by omega))

theorem polyMul_hp (wf : Wf cs) {as bs : List (Row (ZMod p))} {an bn : List Nat} (ha : HasN cs as an) (hb : HasN cs bs bn)
    (hne : an.length + bn.length ≠ 0) : HP cs (polyMul as bs) (fun o c => HasN c o (mulN an bn)) := by
  unfold polyMul
  rw [ha.length, hb.length, if_neg hne]
  refine HP.bind (mulOuter_hp 0 wf ha hb (HasN.replicate wf _)) (fun pr c e w hpr => ?_)
  have := mulCheck_hp (p := p) (leValue_mulN · an bn) (an.length + bn.length - 1) 0 w (ha.mono e) (hb.mono e) hpr
  rw [Nat.cast_zero] at this
  refine HP.bind this (fun _ c2 e2 w2 _ => HP.pure w2 (hpr.mono e2))

theorem polyAdd_has {c : CS (ZMod p)} (wf : Wf c) {as bs : List (Row (ZMod p))} {an bn : List Nat} (ha : HasN c as an)
    (hb : HasN c bs bn) : HasN c (polyAdd as bs) (polyAddN an bn) := by
  unfold polyAdd polyAddN
  rw [ha.length, hb.length]
  unfold HasN
  rw [List.forall₂_map_left_iff, List.forall₂_map_right_iff, List.forall₂_same]
  intro i _
  have step : ∀ {s : Row (ZMod p)} {v : Nat} {l : List (Row (ZMod p))} {ln : List Nat}, Has c s (v : ZMod p) → HasN c l ln →
      Has c (addAt s l i) ((v + ln.getD i 0 : Nat) : ZMod p) := by
    intro s v l ln hs hl
    rw [addAt, List.getD_eq_getElem?_getD]
    rcases hl.getElem? i with ⟨r, n, h1, h2, h3⟩ | ⟨h1, h2⟩
    · rw [h1, h2]; exact (hs.add h3).cast (by push_cast; rfl)
    · rw [h1, h2]; simpa using hs
  have := step (step ((Has.const wf 0).cast (w := ((0 : Nat) : ZMod p)) (by simp)) ha) hb
  exact this.cast (by rw [zero_add])

/-! ## Regrouping and carries -/

theorem groupLoop_hp {g w : Nat} {block : Row (ZMod p)} : ∀ {ls : List (Row (ZMod p))} {ln : List Nat} (i : Nat)
    {shift : Row (ZMod p)} {s : Nat} {acc : List (Row (ZMod p))} {an : List Nat} {cs : CS (ZMod p)}, Wf cs →
    Has cs block ((2 ^ w : Nat) : ZMod p) → HasN cs ls ln → Has cs shift (s : ZMod p) → HasN cs acc an →
    HP cs (groupLoop g block i ls shift acc) (fun o c => HasN c o (groupN g (2 ^ w) i ln s an))
  | [], [], i, shift, s, acc, an, cs, wf, _, _, _, h => HP.pure wf h
  | l :: ls, n :: ln, i, shift, s, acc, an, cs, wf, hb, hl, hs, h => by
    cases hl with
    | cons h1 h2 =>
      unfold groupLoop groupN
      have hs' : Has cs (if i % g = 0 then Circ.const 1 else shift) (((if i % g = 0 then 1 else s : Nat)) : ZMod p) := by
        split_ifs
        · exact (Has.const wf 1).cast (by simp)
        · exact hs
      dsimp only
      refine HP.bind (HP.mul wf hs' h1) (fun m c e w1 hm => ?_)
      refine HP.bind (HP.mul w1 (hs'.mono e) (hb.mono e)) (fun s2 c2 e2 w2 hs2 => ?_)
      exact groupLoop_hp (i + 1) w2 ((hb.mono e).mono e2) ((HasN.mono h2 e).mono e2)
        (hs2.cast (by push_cast; rfl)) (((h.mono e).mono e2).modify ((hm.mono e2).cast (by push_cast; rfl)) _)

/-- The factor `group_limbs` multiplies the word bound by. -/
def groupFactor (g w : Nat) : Nat := ∑ t ∈ Finset.range g, (2 ^ w) ^ t

theorem groupFactor_eq (g w : Nat) : ((List.range g).map (fun i => (2 : Int) ^ (i * w))).sum = ((groupFactor g w : Nat) : Int) := by
  induction g with
  | zero => rfl
  | succ g ih =>
    rw [List.range_succ, List.map_append, List.sum_append, ih, groupFactor, groupFactor, Finset.sum_range_succ]
    push_cast
    rw [← pow_mul, mul_comm w g]
    simp

theorem bnGroup_hp (wf : Wf cs) {a : BigNat (ZMod p)} {ns : List Nat} {w M g : Nat} (h : IsBN cs a ns w M) (hg : 0 < g)
    (hne : ns ≠ []) : HP cs (bnGroup a g)
      (fun o c => IsBN c o (groupAll g (2 ^ w) ns) (w * g) (groupFactor g w * M)) := by
  unfold bnGroup
  have hl := h.has.length
  have hne' : a.limbs ≠ [] := by
    intro h0; rw [h0] at hl; exact hne (List.length_eq_zero_iff.mp hl.symm)
  rw [if_neg (by simp [hne']; omega)]
  dsimp only
  refine HP.bind (HP.wit wf _) (fun b c e w1 hb => ?_)
  refine HP.bind (groupLoop_hp (w := w) 0 w1 (hb.cast (by rw [h.width]; push_cast; rfl)) (h.has.mono e)
    ((Has.const w1 1).cast (w := ((1 : Nat) : ZMod p)) (by simp)) (HasN.replicate w1 _)) (fun o c2 e2 w2 ho => HP.pure w2 ?_)
  rw [hl] at ho
  refine ⟨ho, by rw [h.width], ?_, ?_, h.minBits, ?_⟩
  · dsimp only
    rw [h.width, h.max, groupFactor_eq]; push_cast; rfl
  · exact mem_le_of_getD (groupAll_entry_le hg h.le)
  · rw [length_groupAll]; dsimp only; rw [hl]

theorem tdiv_cast {a b c d : Nat} (h : d ≤ a + b + c) (w : Nat) :
    Int.tdiv ((a : Int) + b + c - d) (2 ^ w) = (((a + b + c - d) / 2 ^ w : Nat) : Int) := by
  have : ((a : Int) + b + c - d) = ((a + b + c - d : Nat) : Int) := by omega
  rw [this, Int.tdiv_eq_ediv_of_nonneg (by positivity)]
  push_cast; rfl

theorem carry_step {β a b c e M : Nat} {va vb : Nat} (hb : b ≤ M) (hβ : 0 < β)
    (hv : a + β * va + c = b + β * vb + e) :
    c + a + M = b + β * ((a + c + M - b) / β) + (e + M) % β ∧ va + (a + c + M - b) / β = vb + (e + M) / β := by
  obtain ⟨X, hX⟩ : ∃ X, X = a + c + M - b := ⟨_, rfl⟩
  rw [← hX]
  have hX' : X + b = a + c + M := by omega
  have h1 := Nat.div_add_mod X β
  have h2 := Nat.div_add_mod (e + M) β
  have hm : X + β * va = e + M + β * vb := by omega
  have h3 : X % β = (e + M) % β := by
    have := congrArg (· % β) hm
    simpa [Nat.add_mul_mod_self_left] using this
  have h4 : β * (va + X / β) = β * (vb + (e + M) / β) := by
    rw [mul_add, mul_add]; omega
  exact ⟨by omega, Nat.eq_of_mul_eq_mul_left hβ h4⟩

theorem carryLoop_hp {nb : Nat} (B : BitParams p nb) {w M cb : Nat} (hw0 : 0 < w) (hw : w ≤ 256) (hM : M < p)
    (hcb0 : 0 < cb) (hcb : 2 ^ cb ≤ p) (hfit : 2 * M + 2 ^ cb ≤ 2 ^ w * 2 ^ cb) :
    ∀ (pairs : List (Row (ZMod p) × Row (ZMod p))) (ns : List (Nat × Nat)) {carry : Row (ZMod p)} {c e : Nat}
      {cs : CS (ZMod p)}, Wf cs →
    List.Forall₂ (fun r (n : Nat × Nat) => Has cs r.1 (n.1 : ZMod p) ∧ Has cs r.2 (n.2 : ZMod p)) pairs ns →
    (∀ n ∈ ns, n.1 ≤ M ∧ n.2 ≤ M) → Has cs carry (c : ZMod p) → c < 2 ^ cb → e ≤ M →
    leValue (2 ^ w) (ns.map Prod.fst) + c = leValue (2 ^ w) (ns.map Prod.snd) + e →
    HP cs (carryLoop nb w (M : Int) cb pairs carry (e : Int)) (fun _ _ => True)
  | [], [], carry, c, e, cs, wf, _, _, _, _, _, _ => HP.pure wf trivial
  | (a, b) :: rest, (an, bn) :: ns, carry, c, e, cs, wf, h, hle, hc, hcl, hel, hv => by
    cases h with
    | cons h1 h2 =>
      have hle1 := hle (an, bn) (by simp)
      have hM511 : M < 2 ^ 510 := lt_of_lt_of_le hM (B.lt256.trans (Nat.pow_le_pow_right (by norm_num) (by norm_num)))
      have h512 : 2 ^ 510 + 2 ^ 510 ≤ 2 ^ 511 := by norm_num
      have hβ : 0 < 2 ^ w := by positivity
      have h1β : 1 < 2 ^ w := Nat.one_lt_two_pow (by omega)
      simp only [List.map_cons, leValue] at hv
      obtain ⟨s1, s2⟩ := carry_step (β := 2 ^ w) hle1.2 hβ hv
      have hcl' : (an + c + M - bn) / 2 ^ w < 2 ^ cb := by
        rw [Nat.div_lt_iff_lt_mul hβ]
        rw [mul_comm]; omega
      have hel' : (e + M) / 2 ^ w ≤ M := by
        have : (e + M) / 2 ^ w ≤ (e + M) / 2 := Nat.div_le_div_left (by omega) (by norm_num)
        omega
      have hcv : ((c : ZMod p)).val = c := val_cast_lt (lt_of_lt_of_le hcl hcb)
      unfold carryLoop
      refine HP.bind (HP.value wf h1.1) (fun va c1 e1 w1 hva => ?_)
      refine HP.bind (HP.value w1 (hc.mono e1)) (fun vc c2 e2 w2 hvc => ?_)
      refine HP.bind (HP.value w2 ((h1.2.mono e1).mono e2)) (fun vb c3 e3 w3 hvb => ?_)
      have e13 : Extends cs c3 := (e1.trans e2).trans e3
      refine HP.bind (HP.lift' (a := (((an + c + M - bn) / 2 ^ w : Nat) : ZMod p)) w3 ?_) (fun cv c4 e4 w4 hcv' => ?_)
      · rw [hva, hvc, hvb]
        unfold fToNat
        rw [hcv, val_cast_lt (lt_of_le_of_lt hle1.1 hM), val_cast_lt (lt_of_le_of_lt hle1.2 hM), tdiv_cast (by omega)]
        refine natToF_nat (lt_of_lt_of_le hcl' ?_)
        exact Nat.pow_le_pow_right (by norm_num) ((pow_le_of_lt hcb B.lt256).trans (by norm_num))
      subst hcv'
      refine HP.bind (HP.wit w4 _) (fun cr c5 e5 w5 hcr => ?_)
      dsimp only
      refine HP.bind (HP.lift' (a := ((2 ^ w : Nat) : ZMod p)) w5 ?_) (fun bv c6 e6 w6 hbv => ?_)
      · have := natToF_nat (p := p) (n := 2 ^ w) (Nat.pow_lt_pow_right (by norm_num) (by omega))
        push_cast at this ⊢
        exact this
      subst hbv
      refine HP.bind (HP.wit w6 _) (fun base c7 e7 w7 hbase => ?_)
      refine HP.bind (HP.mul w7 hbase ((hcr.mono e6).mono e7)) (fun tg c8 e8 w8 htg => ?_)
      refine HP.bind (HP.lift' (a := (((e + M) % 2 ^ w : Nat) : ZMod p)) w8 ?_) (fun ev c9 e9 w9 hev => ?_)
      · have h3 : Int.tmod ((e : Int) + M) (2 ^ w) = (((e + M) % 2 ^ w : Nat) : Int) := by
          rw [Int.tmod_eq_emod_of_nonneg (by positivity)]; push_cast; rfl
        rw [h3]
        refine natToF_nat (lt_of_le_of_lt (Nat.mod_le _ _) (by omega))
      subst hev
      refine HP.bind (HP.wit w9 _) (fun ac c10 e10 w10 hac => ?_)
      refine HP.bind (HP.lift' (a := (M : ZMod p)) w10 (natToF_nat (by omega))) (fun mv c11 e11 w11 hmv => ?_)
      subst hmv
      refine HP.bind (HP.wit w11 _) (fun mw c12 e12 w12 hmw => ?_)
      have E8 : Extends cs c8 := ((((e13.trans e4).trans e5).trans e6).trans e7).trans e8
      have E8' : Extends c8 c12 := ((e9.trans e10).trans e11).trans e12
      have E : Extends cs c12 := E8.trans E8'
      refine HP.bind (HP.enforceEqConstant w12 (((((((hc.mono E).add (h1.1.mono E)).sub (h1.2.mono E)).add hmw).sub
        (htg.mono E8')).sub (hac.mono (e11.trans e12))).cast ?_)) (fun _ c13 e13' w13 _ => ?_)
      · have := congrArg (fun n : Nat => (n : ZMod p)) s1
        push_cast at this ⊢
        linear_combination this
      have hcr' : Has c13 cr (((an + c + M - bn) / 2 ^ w : Nat) : ZMod p) :=
        hcr.mono ((((e6.trans e7).trans e8).trans E8').trans e13')
      have htd : Int.tdiv ((e : Int) + M) (2 ^ w) = (((e + M) / 2 ^ w : Nat) : Int) := by
        rw [Int.tdiv_eq_ediv_of_nonneg (by positivity)]; push_cast; rfl
      rw [htd]
      have E13 : Extends cs c13 := E.trans e13'
      have next : ∀ c14, Extends c13 c14 → Wf c14 →
          HP c14 (carryLoop nb w (M : Int) cb rest cr (((e + M) / 2 ^ w : Nat) : Int)) (fun _ _ => True) :=
        fun c14 e14 w14 => carryLoop_hp B hw0 hw hM hcb0 hcb hfit rest ns w14
          (List.Forall₂.imp (fun _ _ h => ⟨(h.1.mono E13).mono e14, (h.2.mono E13).mono e14⟩) h2)
          (fun n hn => hle n (by simp [hn])) (hcr'.mono e14) hcl' hel' s2
      cases rest with
      | cons r rest' =>
        dsimp only
        refine HP.bind (toBits_nat B w13 hcr' (lt_of_lt_of_le hcl' hcb)) (fun o c14 e14 w14 ⟨ds, k1, k2, k3, k4⟩ => ?_)
        refine HP.bind (HP.rangeCheckBits w14 k1 k2 B.lt256 hcb0 hcb (k3 ▸ pow_le_of_lt hcb B.lt256)
          (by rw [k4]; exact hcl')) (fun _ c15 e15 w15 _ => next c15 (e14.trans e15) w15)
      | nil =>
        cases h2
        dsimp only
        simp only [List.map_nil, leValue, zero_add] at s2
        refine HP.bind (HP.lift' (a := (((e + M) / 2 ^ w : Nat) : ZMod p)) w13 (natToF_nat (by omega)))
          (fun xv c14 e14 w14 hxv => ?_)
        subst hxv
        refine HP.bind (HP.wit w14 _) (fun x c15 e15 w15 hx => ?_)
        refine HP.bind (HP.enforceEqConstant w15 (((((hcr'.mono e14).mono e15).sub hx).cast ?_)))
          (fun _ c16 e16 w16 _ => next c16 ((e14.trans e15).trans e16) w16)
        rw [s2, sub_self]

theorem zeroLoop_hp : ∀ {rs : List (Row (ZMod p))} {ns : List Nat} {cs : CS (ZMod p)}, Wf cs → HasN cs rs ns →
    (∀ n ∈ ns, n = 0) → HP cs (zeroLoop rs) (fun _ _ => True)
  | [], [], cs, wf, _, _ => HP.pure wf trivial
  | r :: rs, n :: ns, cs, wf, h, hz => by
    cases h with
    | cons h1 h2 =>
      unfold zeroLoop
      refine HP.bind (HP.enforceEqConstant wf (h1.cast (by rw [hz n (by simp)]; simp))) (fun _ c e w _ => ?_)
      exact zeroLoop_hp w (HasN.mono h2 e) (fun n hn => hz n (by simp [hn]))

theorem drop_zero {l : List Nat} {n : Nat} (h : ∀ j, n ≤ j → l.getD j 0 = 0) : ∀ x ∈ l.drop n, x = 0 := by
  intro x hx
  obtain ⟨i, hi, rfl⟩ := List.getElem_of_mem hx
  rw [List.getElem_drop]
  have := h (n + i) (by omega)
  rwa [List.getD_eq_getElem _ _ (by simp at hi; omega)] at this

theorem zip_forall₂ {c : CS (ZMod p)} : ∀ {ra rb : List (Row (ZMod p))} {an bn : List Nat}, HasN c ra an → HasN c rb bn →
    List.Forall₂ (fun r (n : Nat × Nat) => Has c r.1 (n.1 : ZMod p) ∧ Has c r.2 (n.2 : ZMod p)) (ra.zip rb) (an.zip bn)
  | [], _, [], _, _, _ => by simp
  | _ :: _, [], _ :: _, [], _, _ => by simp
  | a :: ra, b :: rb, x :: an, y :: bn, h1, h2 => by
    cases h1 with
    | cons h1 h1' =>
      cases h2 with
      | cons h2 h2' => exact List.Forall₂.cons ⟨h1, h2⟩ (zip_forall₂ h1' h2')

theorem map_fst_zip' : ∀ (a b : List Nat), (a.zip b).map Prod.fst = a.take (min a.length b.length)
  | [], _ => by simp
  | _ :: _, [] => by simp
  | a :: as, b :: bs => by simp [map_fst_zip' as bs, Nat.succ_min_succ]
theorem map_snd_zip' : ∀ (a b : List Nat), (a.zip b).map Prod.snd = b.take (min a.length b.length)
  | [], _ => by simp
  | _ :: _, [] => by simp
  | a :: as, b :: bs => by simp [map_snd_zip' as bs, Nat.succ_min_succ]

theorem bnEqualCarried_hp {nb : Nat} (B : BitParams p nb) (wf : Wf cs) {a b : BigNat (ZMod p)} {an bn : List Nat}
    {w Ma Mb : Nat} (ha : IsBN cs a an w Ma) (hb : IsBN cs b bn w Mb) (hw0 : 0 < w) (hw : w ≤ 256) (hM : max Ma Mb < p)
    {cb : Nat} (hcbe : fp.bits ((max Ma Mb : Nat) : Int) w = cb)
    (hcb0 : 0 < cb) (hcb : 2 ^ cb ≤ p) (hfit : 2 * max Ma Mb + 2 ^ cb ≤ 2 ^ w * 2 ^ cb)
    (heq : leValue (2 ^ w) an = leValue (2 ^ w) bn) (hlt : leValue (2 ^ w) an < (2 ^ w) ^ (min an.length bn.length)) :
    HP cs (bnEqualCarried fp nb a b) (fun _ _ => True) := by
  have hβ : 0 < 2 ^ w := by positivity
  have za : ∀ j, min an.length bn.length ≤ j → an.getD j 0 = 0 := fun j hj => getD_zero_of_lt hβ hlt hj
  have zb : ∀ j, min an.length bn.length ≤ j → bn.getD j 0 = 0 := fun j hj => getD_zero_of_lt hβ (heq ▸ hlt) hj
  unfold bnEqualCarried
  rw [if_pos (by rw [ha.width, hb.width])]
  dsimp only
  have hmax : max a.maxWord b.maxWord = ((max Ma Mb : Nat) : Int) := by rw [ha.max, hb.max]; push_cast; rfl
  rw [hmax, ha.width, ha.has.length, hb.has.length, hcbe]
  have hz := carryLoop_hp (p := p) B hw0 hw hM hcb0 hcb hfit (a.limbs.zip b.limbs) (an.zip bn) (carry := Circ.const 0)
    (c := 0) (e := 0) wf (zip_forall₂ ha.has hb.has) ?_ ((Has.const wf 0).cast (by simp)) (by positivity) (by omega) ?_
  · rw [Nat.cast_zero] at hz
    refine HP.bind hz (fun _ c1 e1 w1 _ => ?_)
    refine HP.bind (zeroLoop_hp w1 ((ha.has.drop _).mono e1) (drop_zero za)) (fun _ c2 e2 w2 _ => ?_)
    exact zeroLoop_hp w2 (((hb.has.drop _).mono e1).mono e2) (drop_zero zb)
  · intro n hn
    obtain ⟨n1, n2⟩ := n
    have := List.of_mem_zip hn
    exact ⟨(ha.le _ this.1).trans (le_max_left _ _), (hb.le _ this.2).trans (le_max_right _ _)⟩
  · rw [map_fst_zip', map_snd_zip', leValue_take_of_zero (n := min an.length bn.length) za,
      leValue_take_of_zero (n := min an.length bn.length) zb, heq]

theorem bnEqualRegroup_hp {nb : Nat} (B : BitParams p nb) (wf : Wf cs) {a b : BigNat (ZMod p)} {an bn : List Nat}
    {w Ma Mb : Nat} (ha : IsBN cs a an w Ma) (hb : IsBN cs b bn w Mb) (hw0 : 0 < w) (ha0 : an ≠ []) (hb0 : bn ≠ [])
    {cb g : Nat} (hcbe : fp.bits ((max Ma Mb : Nat) : Int) w = cb) (hcb1 : cb ≤ nb - 1) (hnb : 1 ≤ nb)
    (hge : (nb - 1 - cb) / w = g) (hg : 0 < g) (hwg : w * g ≤ 256)
    {M' cb' : Nat} (hM' : groupFactor g w * max Ma Mb = M') (hMp : M' < p)
    (hcbe' : fp.bits (M' : Int) (w * g) = cb')
    (hcb0 : 0 < cb') (hcb : 2 ^ cb' ≤ p) (hfit : 2 * M' + 2 ^ cb' ≤ 2 ^ (w * g) * 2 ^ cb')
    (heq : leValue (2 ^ w) an = leValue (2 ^ w) bn)
    (hlt : leValue (2 ^ w) an < (2 ^ (w * g)) ^ (min ((an.length - 1) / g + 1) ((bn.length - 1) / g + 1))) :
    HP cs (bnEqualRegroup fp nb a b) (fun _ _ => True) := by
  have hmax : max a.maxWord b.maxWord = ((max Ma Mb : Nat) : Int) := by rw [ha.max, hb.max]; push_cast; rfl
  unfold bnEqualRegroup
  dsimp only
  rw [hmax, ha.width, hb.width, hcbe, if_pos ⟨rfl, hnb, hcb1, by omega⟩, hge]
  refine HP.bind (bnGroup_hp wf ha hg ha0) (fun a' c1 e1 w1 ha' => ?_)
  refine HP.bind (bnGroup_hp w1 (hb.mono e1) hg hb0) (fun b' c2 e2 w2 hb' => ?_)
  have hm : max (groupFactor g w * Ma) (groupFactor g w * Mb) = M' := by rw [← hM', Nat.mul_max_mul_left]
  refine bnEqualCarried_hp B w2 (ha'.mono e2) hb' (Nat.mul_pos hw0 hg) hwg (by rw [hm]; exact hMp)
    (cb := cb') (by rw [hm]; exact hcbe') hcb0 hcb (by rw [hm]; exact hfit) ?_ ?_
  · rw [pow_mul, leValue_groupAll hg, leValue_groupAll hg, heq]
  · rw [length_groupAll, length_groupAll]
    rw [show leValue (2 ^ (w * g)) (groupAll g (2 ^ w) an) = leValue (2 ^ w) an by rw [pow_mul, leValue_groupAll hg]]
    exact hlt

/-! ## The 4-limb instances -/

/-- `2^64 - 1`. -/
abbrev wordMax : Nat := 2 ^ 64 - 1

theorem clog_eq {n k : Nat} (h1 : 2 ^ k < n) (h2 : n ≤ 2 ^ (k + 1)) : Nat.clog 2 n = k + 1 :=
  le_antisymm (Nat.clog_le_of_le_pow h2) ((Nat.lt_clog_iff_pow_lt (by norm_num)).mpr h1)

theorem size_eq {n k : Nat} (h1 : 2 ^ k ≤ n) (h2 : n < 2 ^ (k + 1)) : Nat.size n = k + 1 :=
  le_antisymm (Nat.size_le.mpr h2) (Nat.lt_size.mpr h1)

theorem bnBits_of {c : CS (ZMod p)} {a : BigNat (ZMod p)} {ns : List Nat} {w M : Nat} (h : IsBN c a ns w M) :
    bnBits a = 192 + Nat.size M := by
  unfold bnBits
  rw [h.max]
  rfl

theorem BitParams.big (B : BitParams p 254) {n : Nat} (h : n ≤ 2 ^ 253) : n < p := lt_of_le_of_lt h B.lo

/-- `enforce_equal_when_carried_regroup` on the polynomials of `mult_mod` and `red_mod`. -/
theorem equal64_hp (B : BitParams p 254) (wf : Wf cs) {a b : BigNat (ZMod p)} {an bn : List Nat} {Ma : Nat}
    (ha : IsBN cs a an 64 Ma) (hb : IsBN cs b bn 64 (4 * wordMax * wordMax + wordMax)) (ha0 : an ≠ []) (hb0 : bn ≠ [])
    (hMa : Ma ≤ 4 * wordMax * wordMax + wordMax) (heq : leValue (2 ^ 64) an = leValue (2 ^ 64) bn)
    (hlt : leValue (2 ^ 64) an < (2 ^ 128) ^ (min ((an.length - 1) / 2 + 1) ((bn.length - 1) / 2 + 1))) :
    HP cs (bnEqualRegroup fp 254 a b) (fun _ _ => True) := by
  have hmax : max Ma (4 * wordMax * wordMax + wordMax) = 4 * wordMax * wordMax + wordMax := max_eq_right hMa
  have hgf : groupFactor 2 64 = 1 + 2 ^ 64 := by simp [groupFactor, Finset.sum_range_succ]
  refine bnEqualRegroup_hp B wf ha hb (by norm_num) ha0 hb0 (cb := 67) (g := 2) ?_ (by norm_num) (by norm_num)
    (by norm_num) (by norm_num) (by norm_num) (M' := (1 + 2 ^ 64) * (4 * wordMax * wordMax + wordMax)) (cb' := 67) ?_ ?_ ?_
    (by norm_num) ?_ ?_ heq hlt
  · rw [hmax]
    rw [fp.eq (k := 130) (by norm_num) (by norm_num) (by norm_num) (by norm_num)]
  · rw [hmax, hgf]
  · exact B.big (by norm_num)
  · rw [fp.eq (k := 194) (by norm_num) (by norm_num) (by norm_num) (by norm_num)]
  · exact (B.big (by norm_num)).le
  · norm_num

theorem wordMax_lt (B : BitParams p 254) : wordMax < p := B.big (by norm_num)

theorem word_le (B : BitParams p 254) : 2 ^ 64 ≤ p := (B.big (by norm_num)).le

theorem hasN_len {c : CS (ZMod p)} {a : BigNat (ZMod p)} {ns : List Nat} {w M : Nat} (h : IsBN c a ns w M) :
    a.limbs.length = ns.length := h.has.length

theorem leValue64_lt {ns : List Nat} (h : ∀ n ∈ ns, n ≤ wordMax) (hl : ns.length = 4) : leValue (2 ^ 64) ns < 2 ^ 256 := by
  have := leValue_lt (B := 2 ^ 64) (l := ns) (fun x hx => lt_of_le_of_lt (h x hx) (by norm_num))
  rwa [hl, ← pow_mul] at this

theorem tdiv_nat (a b : Nat) : Int.tdiv (a : Int) b = ((a / b : Nat) : Int) := by
  rw [Int.tdiv_eq_ediv_of_nonneg (by positivity)]; push_cast; rfl

theorem tmod_nat (a b : Nat) : Int.tmod (a : Int) b = ((a % b : Nat) : Int) := by
  rw [Int.tmod_eq_emod_of_nonneg (by positivity)]; push_cast; rfl

theorem length_limbsOf (w k n : Nat) : (limbsOf w k n).length = k := by simp [limbsOf]

theorem bnMultMod_hp (B : BitParams p 254) (wf : Wf cs) {a b m : BigNat (ZMod p)} {an bn mn : List Nat}
    (ha : IsBN cs a an 64 wordMax) (hb : IsBN cs b bn 64 wordMax) (hm : IsBN cs m mn 64 wordMax)
    (la : an.length = 4) (lb : bn.length = 4) (lm : mn.length = 4) (hm0 : leValue (2 ^ 64) mn ≠ 0) :
    HP cs (bnMultMod fp 254 a b m) (fun o c => IsBN c o
      (limbsOf 64 4 (leValue (2 ^ 64) an * leValue (2 ^ 64) bn % leValue (2 ^ 64) mn)) 64 wordMax) := by
  have hA := leValue64_lt ha.le la
  have hB := leValue64_lt hb.le lb
  have hMm := leValue64_lt hm.le lm
  generalize eA : leValue (2 ^ 64) an = A at *
  generalize eB : leValue (2 ^ 64) bn = Bv at *
  generalize eM : leValue (2 ^ 64) mn = Mv at *
  have hAB : A * Bv < 2 ^ 512 := by
    calc A * Bv < 2 ^ 256 * 2 ^ 256 := Nat.mul_lt_mul'' hA hB
      _ = 2 ^ 512 := by norm_num
  have hql : (bnBits a + bnBits b - m.minBits - 1) / 64 + 1 = 8 := by
    rw [bnBits_of ha, bnBits_of hb, hm.minBits, size_eq (k := 63) (by norm_num) (by norm_num)]
  unfold bnMultMod
  rw [if_pos ⟨by rw [ha.width, hb.width], by rw [ha.width]; norm_num⟩]
  dsimp only
  rw [ha.width, hql]
  refine HP.bind (bnValue_hp wf ha (wordMax_lt B)) (fun va c1 e1 w1 hva => ?_)
  refine HP.bind (bnValue_hp w1 (hb.mono e1) (wordMax_lt B)) (fun vb c2 e2 w2 hvb => ?_)
  refine HP.bind (bnValue_hp w2 ((hm.mono e1).mono e2) (wordMax_lt B)) (fun vm c3 e3 w3 hvm => ?_)
  rw [eA] at hva; rw [eB] at hvb; rw [eM] at hvm
  subst hva hvb hvm
  refine HP.bind (HP.lift' (a := ()) w3 (by rw [if_neg (by exact_mod_cast hm0)])) (fun _ c4 e4 w4 _ => ?_)
  rw [show (A : Int) * Bv = ((A * Bv : Nat) : Int) by push_cast; rfl, tdiv_nat, tmod_nat]
  refine HP.bind (bnWitness_hp w4 (by norm_num) (lt_of_le_of_lt (Nat.div_le_self _ _) (by simpa using hAB)))
    (fun q c5 e5 w5 hq => ?_)
  refine HP.bind (bnWellFormed_hp B w5 hq (by norm_num) (word_le B) (by norm_num)) (fun _ c6 e6 w6 _ => ?_)
  rw [hasN_len hm, lm]
  refine HP.bind (bnWitness_hp w6 (by norm_num) (lt_trans (Nat.mod_lt _ (Nat.pos_of_ne_zero hm0)) (by simpa using hMm)))
    (fun r c7 e7 w7 hr => ?_)
  refine HP.bind (bnWellFormed_hp B w7 hr (by norm_num) (word_le B) (by norm_num)) (fun _ c8 e8 w8 _ => ?_)
  have E8 : Extends cs c8 := ((((((e1.trans e2).trans e3).trans e4).trans e5).trans e6).trans e7).trans e8
  refine HP.bind (polyMul_hp w8 (ha.has.mono E8) (hb.has.mono E8) (by omega)) (fun left c9 e9 w9 hl => ?_)
  have E9 := E8.trans e9
  have Eq9 : Extends c5 c9 := ((e6.trans e7).trans e8).trans e9
  refine HP.bind (polyMul_hp w9 (hq.has.mono Eq9) (hm.has.mono E9) (by rw [lm]; omega)) (fun rp c10 e10 w10 hrp => ?_)
  have Er10 : Extends c7 c10 := (e8.trans e9).trans e10
  have hright := polyAdd_has w10 hrp (hr.has.mono Er10)
  have hmr : rightMaxWord q m r = ((4 * wordMax * wordMax + wordMax : Nat) : Int) := by
    unfold rightMaxWord
    rw [hasN_len hq, hasN_len hm, length_limbsOf, lm, hq.max, hm.max, hr.max]
    norm_num
  rw [hasN_len ha, hasN_len hb, la, lb, ha.max, hb.max, hmr]
  have lq : (mulN (limbsOf 64 8 (A * Bv / Mv)) mn).length = 11 := by rw [length_mulN, length_limbsOf, lm]
  have vq : leValue (2 ^ 64) (limbsOf 64 8 (A * Bv / Mv)) = A * Bv / Mv := by
    rw [limbsOf_value, Nat.mod_eq_of_lt (lt_of_le_of_lt (Nat.div_le_self _ _) (by simpa using hAB))]
  have vr : leValue (2 ^ 64) (limbsOf 64 4 (A * Bv % Mv)) = A * Bv % Mv := by
    rw [limbsOf_value, Nat.mod_eq_of_lt (lt_trans (Nat.mod_lt _ (Nat.pos_of_ne_zero hm0)) (by simpa using hMm))]
  refine HP.bind (equal64_hp B w10 (Ma := 4 * wordMax * wordMax) (an := mulN an bn)
    (bn := polyAddN (mulN (limbsOf 64 8 (A * Bv / Mv)) mn) (limbsOf 64 4 (A * Bv % Mv)))
    ⟨hl.mono e10, rfl, by norm_num [bnOfPoly], ?_, rfl, by exact hl.length⟩
    ⟨hright, rfl, rfl, ?_, rfl, by exact hright.length⟩ ?_ ?_ (by omega) ?_ ?_) (fun _ c11 e11 w11 _ => HP.pure w11 ?_)
  · intro x hx
    have := mulN_le ha.le hb.le x hx
    rw [la, lb] at this
    simpa [mul_assoc] using this
  · refine mem_le_of_getD fun j => ?_
    rw [getD_polyAddN]
    have h1 := getD_le_of_mem (mulN_le hq.le hm.le) j
    rw [length_limbsOf, lm] at h1
    have h2 := getD_le_of_mem hr.le j
    have h3 : min 8 4 * (wordMax * wordMax) = 4 * wordMax * wordMax := by norm_num
    exact Nat.add_le_add (h3 ▸ h1) h2
  · intro h
    have := congrArg List.length h
    rw [length_mulN, la, lb] at this
    simp at this
  · intro h
    have := congrArg List.length h
    rw [length_polyAddN, lq] at this
    simp at this
  · rw [leValue_mulN, leValue_polyAddN, leValue_mulN, eA, eB, eM, vq, vr, mul_comm _ Mv, Nat.div_add_mod]
  · rw [leValue_mulN, eA, eB, length_mulN, la, lb, length_polyAddN, lq, length_limbsOf]
    refine lt_of_lt_of_le hAB (le_of_eq ?_)
    norm_num
  · exact hr.mono (Er10.trans e11)

theorem size_cases {M : Nat} (h1 : wordMax ≤ M) (h2 : M ≤ 2 * wordMax) :
    (192 + Nat.size M - 1) / 64 + 1 = 4 ∨ (192 + Nat.size M - 1) / 64 + 1 = 5 := by
  rcases Nat.lt_or_ge M (2 ^ 64) with h | h
  · rw [size_eq (k := 63) (le_trans (by norm_num) h1) h]; left; rfl
  · rw [size_eq (k := 64) h (lt_of_le_of_lt h2 (by norm_num))]; right; rfl

theorem bnRedMod_hp (B : BitParams p 254) (wf : Wf cs) {a m : BigNat (ZMod p)} {an mn : List Nat} {Ma : Nat}
    (ha : IsBN cs a an 64 Ma) (hm : IsBN cs m mn 64 wordMax) (hMa : wordMax ≤ Ma) (hMa' : Ma ≤ 2 * wordMax)
    (la : an.length = 4) (lm : mn.length = 4) (hm0 : leValue (2 ^ 64) mn ≠ 0) (hfit : leValue (2 ^ 64) an < 2 ^ 256) :
    HP cs (bnRedMod fp 254 a m) (fun o c => IsBN c o
      (limbsOf 64 4 (leValue (2 ^ 64) an % leValue (2 ^ 64) mn)) 64 wordMax) := by
  have hMm := leValue64_lt hm.le lm
  generalize eA : leValue (2 ^ 64) an = A at *
  generalize eM : leValue (2 ^ 64) mn = Mv at *
  obtain ⟨ql, hql⟩ : ∃ ql, (bnBits a - m.minBits - 1) / 64 + 1 = ql := ⟨_, rfl⟩
  have hql45 : ql = 4 ∨ ql = 5 := by
    rw [← hql, bnBits_of ha, hm.minBits]
    exact size_cases hMa hMa'
  have hMp : Ma < p := B.big (hMa'.trans (by norm_num))
  unfold bnRedMod
  rw [if_pos ⟨by rw [ha.width, hm.width], by rw [ha.width]; norm_num⟩]
  dsimp only
  rw [ha.width, hql]
  refine HP.bind (bnValue_hp wf ha hMp) (fun va c1 e1 w1 hva => ?_)
  refine HP.bind (bnValue_hp w1 (hm.mono e1) (wordMax_lt B)) (fun vm c3 e3 w3 hvm => ?_)
  rw [eA] at hva; rw [eM] at hvm
  subst hva hvm
  refine HP.bind (HP.lift' (a := ()) w3 (by rw [if_neg (by exact_mod_cast hm0)])) (fun _ c4 e4 w4 _ => ?_)
  rw [tdiv_nat, tmod_nat]
  have hqfit : A / Mv < 2 ^ (ql * 64) := by
    refine lt_of_le_of_lt (Nat.div_le_self _ _) (lt_of_lt_of_le hfit (Nat.pow_le_pow_right (by norm_num) ?_))
    omega
  have hrfit : A % Mv < 2 ^ (4 * 64) := lt_trans (Nat.mod_lt _ (Nat.pos_of_ne_zero hm0)) (by simpa using hMm)
  refine HP.bind (bnWitness_hp w4 (by norm_num) hqfit) (fun q c5 e5 w5 hq => ?_)
  refine HP.bind (bnWellFormed_hp B w5 hq (by norm_num) (word_le B) (by norm_num)) (fun _ c6 e6 w6 _ => ?_)
  rw [hasN_len hm, lm]
  refine HP.bind (bnWitness_hp w6 (by norm_num) hrfit) (fun r c7 e7 w7 hr => ?_)
  refine HP.bind (bnWellFormed_hp B w7 hr (by norm_num) (word_le B) (by norm_num)) (fun _ c8 e8 w8 _ => ?_)
  have E8 : Extends cs c8 := (((((e1.trans e3).trans e4).trans e5).trans e6).trans e7).trans e8
  have Eq8 : Extends c5 c8 := (e6.trans e7).trans e8
  refine HP.bind (polyMul_hp w8 (hq.has.mono Eq8) (hm.has.mono E8) (by rw [lm]; omega)) (fun rp c10 e10 w10 hrp => ?_)
  have Er10 : Extends c7 c10 := e8.trans e10
  have hright := polyAdd_has w10 hrp (hr.has.mono Er10)
  have hmin : min ql 4 = 4 := by omega
  have hmr : rightMaxWord q m r = ((4 * wordMax * wordMax + wordMax : Nat) : Int) := by
    unfold rightMaxWord
    rw [hasN_len hq, hasN_len hm, length_limbsOf, lm, hq.max, hm.max, hr.max, hmin]
    norm_num
  rw [hmr]
  have lq : (mulN (limbsOf 64 ql (A / Mv)) mn).length = ql + 3 := by rw [length_mulN, length_limbsOf, lm]; omega
  have vq : leValue (2 ^ 64) (limbsOf 64 ql (A / Mv)) = A / Mv := by
    rw [limbsOf_value, Nat.mod_eq_of_lt hqfit]
  have vr : leValue (2 ^ 64) (limbsOf 64 4 (A % Mv)) = A % Mv := by
    rw [limbsOf_value, Nat.mod_eq_of_lt hrfit]
  refine HP.bind (equal64_hp B w10 (Ma := Ma) (an := an)
    (bn := polyAddN (mulN (limbsOf 64 ql (A / Mv)) mn) (limbsOf 64 4 (A % Mv)))
    (ha.mono (E8.trans e10))
    ⟨hright, rfl, rfl, ?_, rfl, by exact hright.length⟩ ?_ ?_ (hMa'.trans (by norm_num)) ?_ ?_) (fun _ c11 e11 w11 _ => HP.pure w11 ?_)
  · refine mem_le_of_getD fun j => ?_
    rw [getD_polyAddN]
    have h1 := getD_le_of_mem (mulN_le hq.le hm.le) j
    rw [length_limbsOf, lm, hmin, ← mul_assoc] at h1
    have h2 := getD_le_of_mem hr.le j
    exact Nat.add_le_add h1 h2
  · intro h; rw [h] at la; simp at la
  · intro h
    have := congrArg List.length h
    rw [length_polyAddN, lq] at this
    simp at this
  · rw [leValue_polyAddN, leValue_mulN, eA, eM, vq, vr, mul_comm _ Mv, Nat.div_add_mod]
  · rw [eA, la, length_polyAddN, lq, length_limbsOf]
    have : min ((4 - 1) / 2 + 1) ((max (ql + 3) 4 - 1) / 2 + 1) = 2 := by omega
    rw [this]
    exact lt_of_lt_of_le hfit (le_of_eq (by norm_num))
  · exact hr.mono (Er10.trans e11)

/-! ## Addition, selection, witnesses of field elements -/

theorem addLimb_has {c : CS (ZMod p)} {as bs : List (Row (ZMod p))} {an bn : List Nat} (ha : HasN c as an)
    (hb : HasN c bs bn) {i : Nat} (hi : i < max an.length bn.length) :
    ∃ r, addLimb as bs i = some r ∧ Has c r ((an.getD i 0 + bn.getD i 0 : Nat) : ZMod p) := by
  unfold addLimb
  rw [List.getD_eq_getElem?_getD, List.getD_eq_getElem?_getD]
  rcases ha.getElem? i with ⟨r, n, h1, h2, h3⟩ | ⟨h1, h2⟩ <;> rcases hb.getElem? i with ⟨r', n', h1', h2', h3'⟩ | ⟨h1', h2'⟩
  · exact ⟨Row.add r r', by rw [h1, h1'], (h3.add h3').cast (by rw [h2, h2']; push_cast; rfl)⟩
  · exact ⟨r, by rw [h1, h1'], h3.cast (by rw [h2, h2']; simp)⟩
  · exact ⟨r', by rw [h1, h1'], h3'.cast (by rw [h2, h2']; simp)⟩
  · rw [List.getElem?_eq_none_iff] at h2 h2'
    omega

theorem mapM_some {α β : Type} {f : α → Option β} {R : β → α → Prop} : ∀ (l : List α),
    (∀ a ∈ l, ∃ b, f a = some b ∧ R b a) → ∃ bs, l.mapM f = some bs ∧ List.Forall₂ R bs l
  | [], _ => ⟨[], rfl, List.Forall₂.nil⟩
  | a :: l, h => by
    obtain ⟨b, hb, hr⟩ := h a (by simp)
    obtain ⟨bs, hbs, hrs⟩ := mapM_some l (fun a ha => h a (by simp [ha]))
    exact ⟨b :: bs, by simp [hb, hbs], List.Forall₂.cons hr hrs⟩

theorem bnAdd_has {c : CS (ZMod p)} {a b : BigNat (ZMod p)} {an bn : List Nat} {w Ma Mb : Nat} (ha : IsBN c a an w Ma)
    (hb : IsBN c b bn w Mb) : ∃ o, bnAdd a b = some o ∧ IsBN c o (polyAddN an bn) w (Ma + Mb) := by
  obtain ⟨ls, h1, h2⟩ := mapM_some (f := addLimb a.limbs b.limbs)
    (R := fun r i => Has c r ((an.getD i 0 + bn.getD i 0 : Nat) : ZMod p)) (List.range (max an.length bn.length))
    (fun i hi => addLimb_has ha.has hb.has (List.mem_range.mp hi))
  unfold bnAdd
  rw [if_pos (by rw [ha.width, hb.width]), ha.count, hb.count]
  dsimp only
  rw [h1]
  refine ⟨_, rfl, ?_, ha.width, ?_, ?_, ?_, ?_⟩
  · unfold HasN polyAddN
    rw [List.forall₂_map_right_iff]
    exact h2
  · dsimp only; rw [ha.max, hb.max]; push_cast; rfl
  · refine mem_le_of_getD fun j => ?_
    rw [getD_polyAddN]
    exact Nat.add_le_add (getD_le_of_mem ha.le j) (getD_le_of_mem hb.le j)
  · dsimp only; rw [ha.minBits, hb.minBits]; rfl
  · rw [length_polyAddN]

theorem beValue_append2 (a b : List Nat) : beValue 2 (a ++ b) = beValue 2 a * 2 ^ b.length + beValue 2 b := by
  induction a with
  | nil => simp [beValue]
  | cons x a ih => rw [List.cons_append, beValue_cons, beValue_cons, ih, List.length_append, pow_add]; ring

theorem decomposeLoop_hp {nb : Nat} (B : BitParams p nb) {w : Nat} (hw0 : 0 < w) (hw : w ≤ 256) :
    ∀ {rs : List (Row (ZMod p))} {ns : List Nat} {cs : CS (ZMod p)}, Wf cs → HasN cs rs ns →
    (∀ n ∈ ns, n < 2 ^ w ∧ n < p) → HP cs (decomposeLoop nb w rs) (fun o c => ∃ ds, HasBits c o ds ∧
      ds.length = w * ns.length ∧ beValue 2 ds = beValue (2 ^ w) ns)
  | [], [], cs, wf, _, _ => HP.pure wf ⟨[], List.Forall₂.nil, rfl, rfl⟩
  | r :: rs, n :: ns, cs, wf, h, hl => by
    cases h with
    | cons h1 h2 =>
      unfold decomposeLoop
      have hn := hl n (by simp)
      refine HP.bind (HP.toBits wf h1 B.le B.lo B.hi hw0 hw) (fun o c e w1 ⟨ds, k1, k2, k3, k4, k5⟩ => ?_)
      refine HP.bind (decomposeLoop_hp B hw0 hw w1 (HasN.mono h2 e) (fun n hn => hl n (by simp [hn])))
        (fun o2 c2 e2 w2 ⟨ds2, q1, q2, q3⟩ => HP.pure w2 ⟨ds ++ ds2, ?_, ?_, ?_⟩)
      · exact List.rel_append (k1.mono e2) q1
      · rw [List.length_append, k4, q2, List.length_cons]; ring
      · rw [beValue_append2, q3, q2, k5, val_cast_lt hn.2, Nat.mod_eq_of_lt hn.1, beValue_cons, pow_mul]

theorem beValue_reverse' (b : Nat) (ds : List Nat) : beValue b ds.reverse = leValue b ds := by
  induction ds with
  | nil => rfl
  | cons d ds ih =>
    rw [List.reverse_cons, leValue, ← ih]
    unfold beValue
    rw [List.foldl_append]
    simp only [List.foldl_cons, List.foldl_nil]
    ring

theorem bnOfField_hp {nb : Nat} (B : BitParams p nb) (wf : Wf cs) {f : Row (ZMod p)} {v : ZMod p} (hf : Has cs f v)
    (h64 : 2 ^ 64 ≤ p) : HP cs (bnOfField nb f 64 4) (fun o c => IsBN c o (limbsOf 64 4 v.val) 64 wordMax) := by
  have hv : v.val < 2 ^ (4 * 64) := lt_of_lt_of_le v.val_lt B.lt256
  unfold bnOfField
  refine HP.bind (HP.value wf hf) (fun u c1 e1 w1 hu => ?_)
  subst hu
  unfold fToNat
  refine HP.bind (bnWitness_hp w1 (by norm_num) hv) (fun a c2 e2 w2 ha => ?_)
  unfold bnDecompose
  rw [ha.width]
  refine HP.bind (decomposeLoop_hp B (by norm_num) (by norm_num) w2 (ns := (limbsOf 64 4 u.val).reverse)
    (List.rel_reverse ha.has) ?_) (fun bv c3 e3 w3 ⟨ds, k1, k2, k3⟩ => ?_)
  · intro n hn
    have := limbsOf_lt n (List.mem_reverse.mp hn)
    exact ⟨this, lt_of_lt_of_le this h64⟩
  · refine HP.bind (HP.enforceEqBits w3 (((hf.mono e1).mono e2).mono e3) k1 ?_) (fun _ c4 e4 w4 _ => HP.pure w4 ?_)
    · rw [k3, beValue_reverse', limbsOf_value, Nat.mod_eq_of_lt hv, ZMod.natCast_zmod_val]
    · exact (ha.mono e3).mono e4

theorem selectLoop_hp {cond : Bin} {t : ZMod p} (ht : t = 0 ∨ t = 1) : ∀ {ra rb : List (Row (ZMod p))} {an bn : List Nat}
    {cs : CS (ZMod p)}, Wf cs → HasW cs cond t → HasN cs ra an → HasN cs rb bn → an.length = bn.length →
    HP cs (selectLoop cond (ra.zip rb)) (fun o c => HasN c o (if t = 1 then an else bn))
  | [], [], [], [], cs, wf, _, _, _, _ => HP.pure wf (by split_ifs <;> exact List.Forall₂.nil)
  | a :: ra, b :: rb, x :: an, y :: bn, cs, wf, hc, h1, h2, hl => by
    cases h1 with
    | cons h1 h1' =>
      cases h2 with
      | cons h2 h2' =>
        rw [List.zip_cons_cons]
        unfold selectLoop
        refine HP.bind (HP.conditionalSelect wf h1 h2 hc) (fun r c e w hr => ?_)
        refine HP.bind (selectLoop_hp ht w (hc.mono e) (HasN.mono h1' e) (HasN.mono h2' e) (by simpa using hl))
          (fun rs c2 e2 w2 hrs => HP.pure w2 ?_)
        rcases ht with rfl | rfl
        · rw [if_neg zero_ne_one] at hrs ⊢
          exact List.Forall₂.cons ((hr.mono e2).cast (by ring)) hrs
        · rw [if_pos rfl] at hrs ⊢
          exact List.Forall₂.cons ((hr.mono e2).cast (by ring)) hrs
  | [], _ :: _, [], _ :: _, _, _, _, _, _, hl => by simp at hl
  | _ :: _, [], _ :: _, [], _, _, _, _, _, hl => by simp at hl

theorem bnSelect_hp (wf : Wf cs) {a b : BigNat (ZMod p)} {an bn : List Nat} {w M : Nat} (ha : IsBN cs a an w M)
    (hb : IsBN cs b bn w M) (hl : an.length = bn.length) {cond : Bin} {t : ZMod p} (ht : t = 0 ∨ t = 1) (hc : HasW cs cond t) :
    HP cs (bnSelect a b cond) (fun o c => IsBN c o (if t = 1 then an else bn) w M) := by
  unfold bnSelect
  rw [if_pos (by rw [ha.has.length, hb.has.length, hl])]
  refine HP.bind (selectLoop_hp ht wf hc ha.has hb.has hl) (fun ls c e w1 h => HP.pure w1 ?_)
  refine ⟨h, ha.width, ha.max, ?_, ha.minBits, ?_⟩
  · split_ifs
    · exact ha.le
    · exact hb.le
  · dsimp only
    rw [ha.count]
    split_ifs <;> omega

end Nova

end Kogarashi
