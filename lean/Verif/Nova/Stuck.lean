import Verif.Nova.BigNatProof
import Verif.Props.R1cs

/-! # Runs whose own values fail

Programs that return but leave a system that the values they stored do not satisfy. -/

set_option exponentiation.threshold 1600

namespace Kogarashi.Nova

open Spec Circ

variable {F : Type} [Field F] [DecidableEq F] {α β : Type}

/-- The program returns. -/
def Returns (cs : CS F) (g : Circ F α) (P : α → CS F → Prop) : Prop := ∃ a c, g cs = some (a, c) ∧ P a c ∧ Extends cs c ∧ Wf c

/-- The program returns, and what it stored does not satisfy the system. -/
def Stuck (cs : CS F) (g : Circ F α) : Prop := ∃ a c, g cs = some (a, c) ∧ Extends cs c ∧ Wf c ∧ ¬ Satisfies (stored c) c

theorem Returns.of_wp {cs : CS F} {g : Circ F α} {P : α → CS F → Prop} {S : α → Assignment F → Prop} {H : Prop} (h : WP cs g P S H) :
    Returns cs g P := by
  obtain ⟨a, c, e, p, r⟩ := h
  exact ⟨a, c, e, p, r.ext, r.wf⟩

theorem Returns.bind {cs : CS F} {g : Circ F α} {k : α → Circ F β} {P : α → CS F → Prop} {Q : β → CS F → Prop} (h : Returns cs g P)
    (hk : ∀ a c, Extends cs c → Wf c → P a c → Returns c (k a) Q) : Returns cs (g >>= k) Q := by
  obtain ⟨a, c, e, p, x, w⟩ := h
  obtain ⟨b, c', e', q, x', w'⟩ := hk a c x w p
  exact ⟨b, c', by rw [Circ.bind_eq e]; exact e', q, x.trans x', w'⟩

theorem Returns.pure {cs : CS F} (wf : Wf cs) {a : α} {P : α → CS F → Prop} (h : P a cs) : Returns cs (Pure.pure a : Circ F α) P :=
  ⟨a, cs, rfl, h, Extends.refl cs, wf⟩

theorem Stuck.bind {cs : CS F} {g : Circ F α} {k : α → Circ F β} {P : α → CS F → Prop} (h : Returns cs g P)
    (hk : ∀ a c, Extends cs c → Wf c → P a c → Stuck c (k a)) : Stuck cs (g >>= k) := by
  obtain ⟨a, c, e, p, x, w⟩ := h
  obtain ⟨b, c', e', x', w', q⟩ := hk a c x w p
  exact ⟨b, c', by rw [Circ.bind_eq e]; exact e', x.trans x', w', q⟩

/-- Later constraints and values do not help. -/
theorem Stuck.then {cs : CS F} {g : Circ F α} {k : α → Circ F β} {P : α → CS F → Prop} {Q : β → CS F → Prop} (h : Returns cs g P)
    (hf : ∀ a c, P a c → ∀ c', Extends c c' → ¬ Satisfies (stored c') c')
    (hk : ∀ a c, Extends cs c → Wf c → P a c → Returns c (k a) Q) : Stuck cs (g >>= k) := by
  obtain ⟨a, c, e, p, x, w⟩ := h
  obtain ⟨b, c', e', q, x', w'⟩ := hk a c x w p
  exact ⟨b, c', by rw [Circ.bind_eq e]; exact e', x.trans x', w', hf a c p c' x'⟩

variable {p : Nat} [Fact p.Prime] {cs : CS (ZMod p)}

/-- A range check returns. -/
theorem rangeCheckBits_returns {cs : CS (ZMod p)} (hp : p ≤ 2 ^ 256) (wf : Wf cs) {bs : List Wire} (hb : ∀ b ∈ bs, Allocated cs b) {n : Nat}
    (hn : 0 < n) (hnp : 2 ^ n ≤ p) (hlen : n ≤ bs.length) : Returns cs (Circ.rangeCheckBits bs n) (fun _ c => ∀ c', Extends c c' →
      Satisfies (stored c') c' → ∃ v, v < 2 ^ n ∧ SpellBits (stored c') bs v) := by
  obtain ⟨c, e, im⟩ := Props.C33_range_check_bits_partial hp wf hb hn hnp hlen
  exact ⟨(), c, e, fun c' x hs => (im.sound _ ((satisfies_iff x _).mp hs).1).2, im.grows, im.wf⟩

/-- The loop of `enforce_equal_when_carried` returns whatever the limbs are, up to the bounds. -/
theorem carryLoop_returns {nb : Nat} (B : BitParams p nb) {w M cb : Nat} (hw0 : 0 < w) (hw : w ≤ 256) (hM : M < p)
    (hcb0 : 0 < cb) (hcb : 2 ^ cb ≤ p) :
    ∀ (pairs : List (Row (ZMod p) × Row (ZMod p))) (ns : List (Nat × Nat)) {carry : Row (ZMod p)} {e : Nat}
      {cs : CS (ZMod p)}, Wf cs →
    List.Forall₂ (fun r (n : Nat × Nat) => Has cs r.1 (n.1 : ZMod p) ∧ Has cs r.2 (n.2 : ZMod p)) pairs ns →
    (∀ n ∈ ns, n.1 ≤ M ∧ n.2 ≤ M) → RowOk cs carry → e ≤ M →
    Returns cs (carryLoop nb w (M : Int) cb pairs carry (e : Int)) (fun _ _ => True)
  | [], [], carry, e, cs, wf, _, _, _, _ => Returns.pure wf trivial
  | (a, b) :: rest, (an, bn) :: ns, carry, e, cs, wf, h, hle, hc, hel => by
    cases h with
    | cons h1 h2 =>
      have hle1 := hle (an, bn) (by simp)
      have hp256 := B.lt256
      have h256 : 2 ^ 256 + 2 ^ 256 + 2 ^ 256 ≤ 2 ^ 511 := by norm_num
      have h1β : 1 < 2 ^ w := Nat.one_lt_two_pow (by omega)
      have hel' : (e + M) / 2 ^ w ≤ M := by
        have : (e + M) / 2 ^ w ≤ (e + M) / 2 := Nat.div_le_div_left (by omega) (by norm_num)
        omega
      have hcv := ZMod.val_lt (rowVal (stored cs) carry)
      unfold carryLoop
      refine Returns.bind (Returns.of_wp (HP.value wf h1.1)) (fun va c1 e1 w1 hva => ?_)
      refine Returns.bind (Returns.of_wp (HP.value w1 (Has.mono ⟨hc, rfl⟩ e1))) (fun vc c2 e2 w2 hvc => ?_)
      refine Returns.bind (Returns.of_wp (HP.value w2 ((h1.2.mono e1).mono e2))) (fun vb c3 e3 w3 hvb => ?_)
      have e13 : Extends cs c3 := (e1.trans e2).trans e3
      refine Returns.bind (Returns.of_wp (HP.lift' (a := (((an + (rowVal (stored cs) carry).val + M - bn) / 2 ^ w : Nat) : ZMod p)) w3 ?_))
        (fun cv c4 e4 w4 _ => ?_)
      · rw [hva, hvc, hvb]
        unfold fToNat
        rw [val_cast_lt (lt_of_le_of_lt hle1.1 hM), val_cast_lt (lt_of_le_of_lt hle1.2 hM), tdiv_cast (by omega)]
        exact natToF_nat (lt_of_le_of_lt (Nat.div_le_self _ _) (by omega))
      refine Returns.bind (Returns.of_wp (WP.wit w4 _)) (fun cr c5 e5 w5 hcr => ?_)
      dsimp only
      refine Returns.bind (Returns.of_wp (HP.lift' (a := ((2 ^ w : Nat) : ZMod p)) w5 ?_)) (fun bv c6 e6 w6 _ => ?_)
      · have := natToF_nat (p := p) (n := 2 ^ w) (Nat.pow_lt_pow_right (by norm_num) (by omega))
        push_cast at this ⊢
        exact this
      refine Returns.bind (Returns.of_wp (WP.wit w6 _)) (fun base c7 e7 w7 hbase => ?_)
      refine Returns.bind (Returns.of_wp (WP.mul w7 hbase.1 ((hcr.1.mono e6).mono e7))) (fun tg c8 e8 w8 htg => ?_)
      refine Returns.bind (Returns.of_wp (HP.lift' (a := (((e + M) % 2 ^ w : Nat) : ZMod p)) w8 ?_)) (fun ev c9 e9 w9 _ => ?_)
      · have h3 : Int.tmod ((e : Int) + M) (2 ^ w) = (((e + M) % 2 ^ w : Nat) : Int) := by
          rw [Int.tmod_eq_emod_of_nonneg (by positivity)]; push_cast; rfl
        rw [h3]
        refine natToF_nat (lt_of_le_of_lt (Nat.mod_le _ _) (by omega))
      refine Returns.bind (Returns.of_wp (WP.wit w9 _)) (fun ac c10 e10 w10 hac => ?_)
      refine Returns.bind (Returns.of_wp (HP.lift' (a := (M : ZMod p)) w10 (natToF_nat (by omega)))) (fun mv c11 e11 w11 _ => ?_)
      refine Returns.bind (Returns.of_wp (WP.wit w11 _)) (fun mw c12 e12 w12 hmw => ?_)
      have E8 : Extends cs c8 := ((((e13.trans e4).trans e5).trans e6).trans e7).trans e8
      have E8' : Extends c8 c12 := ((e9.trans e10).trans e11).trans e12
      have E : Extends cs c12 := E8.trans E8'
      have hok : RowOk c12 (Row.sub (Row.sub (Row.add (Row.sub (Row.add carry a) b) mw) tg) ac) :=
        ((((((hc.mono E).add (h1.1.ok.mono E)).sub (h1.2.ok.mono E)).add hmw.1).sub (htg.mono E8')).sub (hac.1.mono (e11.trans e12)))
      obtain ⟨c13, r13, run13⟩ := Circ.enforceEqConstant_run w12 hok 0
      refine Returns.bind (P := fun _ c => Wf c) ⟨(), c13, r13, run13.wf, run13.ext, run13.wf⟩ (fun _ c13 e13' w13 _ => ?_)
      have hcr' : RowOk c13 cr := hcr.1.mono ((((e6.trans e7).trans e8).trans E8').trans e13')
      have htd : Int.tdiv ((e : Int) + M) (2 ^ w) = (((e + M) / 2 ^ w : Nat) : Int) := by
        rw [Int.tdiv_eq_ediv_of_nonneg (by positivity)]; push_cast; rfl
      rw [htd]
      have E13 : Extends cs c13 := E.trans e13'
      have next : ∀ c14, Extends c13 c14 → Wf c14 →
          Returns c14 (carryLoop nb w (M : Int) cb rest cr (((e + M) / 2 ^ w : Nat) : Int)) (fun _ _ => True) :=
        fun c14 e14 w14 => carryLoop_returns B hw0 hw hM hcb0 hcb rest ns w14
          (List.Forall₂.imp (fun _ _ h => ⟨(h.1.mono E13).mono e14, (h.2.mono E13).mono e14⟩) h2)
          (fun n hn => hle n (by simp [hn])) (hcr'.mono e14) hel'
      cases rest with
      | cons r rest' =>
        dsimp only
        refine Returns.bind (Returns.of_wp (HP.toBits w13 ⟨hcr', rfl⟩ B.le B.lo B.hi (by norm_num) le_rfl))
          (fun o c14 e14 w14 ⟨ds, k1, _, k3, _⟩ => ?_)
        refine Returns.bind (rangeCheckBits_returns B.lt256 w14 k1.alloc hcb0 hcb (k3 ▸ pow_le_of_lt hcb B.lt256))
          (fun _ c15 e15 w15 _ => next c15 (e14.trans e15) w15)
      | nil =>
        dsimp only
        refine Returns.bind (Returns.of_wp (HP.lift' (a := (((e + M) / 2 ^ w : Nat) : ZMod p)) w13 (natToF_nat (by omega))))
          (fun xv c14 e14 w14 _ => ?_)
        refine Returns.bind (Returns.of_wp (WP.wit w14 _)) (fun x c15 e15 w15 hx => ?_)
        obtain ⟨c16, r16, run16⟩ := Circ.enforceEqConstant_run w15 (((hcr'.mono e14).mono e15).sub hx.1) 0
        exact Returns.bind (P := fun _ c => Wf c) ⟨(), c16, r16, run16.wf, run16.ext, run16.wf⟩
          (fun _ c16 e16 w16 _ => next c16 ((e14.trans e15).trans e16) w16)

/-- A first carry of more than `carry_bits` bits: the honest run is not satisfied. -/
theorem carryLoop_stuck {nb : Nat} (B : BitParams p nb) {w M cb : Nat} (hw0 : 0 < w) (hw : w ≤ 256) (hM : M < p)
    (hcb0 : 0 < cb) (hcb : 2 ^ cb ≤ p) {a b : Row (ZMod p)} {an bn : Nat} {q : Row (ZMod p) × Row (ZMod p)}
    {rest : List (Row (ZMod p) × Row (ZMod p))} {ns : List (Nat × Nat)} {cs : CS (ZMod p)} (wf : Wf cs) (ha : Has cs a (an : ZMod p))
    (hb : Has cs b (bn : ZMod p)) (han : an ≤ M) (hbn : bn ≤ M)
    (h2 : List.Forall₂ (fun r (n : Nat × Nat) => Has cs r.1 (n.1 : ZMod p) ∧ Has cs r.2 (n.2 : ZMod p)) (q :: rest) ns)
    (hle : ∀ n ∈ ns, n.1 ≤ M ∧ n.2 ≤ M) (hlo : 2 ^ cb ≤ (an + M - bn) / 2 ^ w) (hhi : (an + M - bn) / 2 ^ w < p) :
    Stuck cs (carryLoop nb w (M : Int) cb ((a, b) :: q :: rest) (const 0) 0) := by
  have hp256 := B.lt256
  have h256 : 2 ^ 256 + 2 ^ 256 + 2 ^ 256 ≤ 2 ^ 511 := by norm_num
  have h1β : 1 < 2 ^ w := Nat.one_lt_two_pow (by omega)
  have hel' : (0 + M) / 2 ^ w ≤ M := (Nat.div_le_self _ _).trans (by omega)
  unfold carryLoop
  have hc : Has cs (const 0 : Row (ZMod p)) 0 := Has.const wf 0
  refine Stuck.bind (Returns.of_wp (HP.value wf ha)) (fun va c1 e1 w1 hva => ?_)
  refine Stuck.bind (Returns.of_wp (HP.value w1 (hc.mono e1))) (fun vc c2 e2 w2 hvc => ?_)
  refine Stuck.bind (Returns.of_wp (HP.value w2 ((hb.mono e1).mono e2))) (fun vb c3 e3 w3 hvb => ?_)
  have e13 : Extends cs c3 := (e1.trans e2).trans e3
  refine Stuck.bind (Returns.of_wp (HP.lift' (a := (((an + 0 + M - bn) / 2 ^ w : Nat) : ZMod p)) w3 ?_)) (fun cv c4 e4 w4 hcv => ?_)
  · rw [hva, hvc, hvb]
    unfold fToNat
    rw [val_cast_lt (lt_of_le_of_lt han hM), val_cast_lt (lt_of_le_of_lt hbn hM), ZMod.val_zero, tdiv_cast (by omega)]
    exact natToF_nat (lt_of_le_of_lt (Nat.div_le_self _ _) (by omega))
  subst hcv
  refine Stuck.bind (Returns.of_wp (HP.wit w4 _)) (fun cr c5 e5 w5 hcr => ?_)
  dsimp only
  refine Stuck.bind (Returns.of_wp (HP.lift' (a := ((2 ^ w : Nat) : ZMod p)) w5 ?_)) (fun bv c6 e6 w6 _ => ?_)
  · have := natToF_nat (p := p) (n := 2 ^ w) (Nat.pow_lt_pow_right (by norm_num) (by omega))
    push_cast at this ⊢
    exact this
  refine Stuck.bind (Returns.of_wp (WP.wit w6 _)) (fun base c7 e7 w7 hbase => ?_)
  refine Stuck.bind (Returns.of_wp (WP.mul w7 hbase.1 ((hcr.ok.mono e6).mono e7))) (fun tg c8 e8 w8 htg => ?_)
  refine Stuck.bind (Returns.of_wp (HP.lift' (a := (((0 + M) % 2 ^ w : Nat) : ZMod p)) w8 ?_)) (fun ev c9 e9 w9 _ => ?_)
  · have h3 : Int.tmod ((0 : Int) + M) (2 ^ w) = (((0 + M) % 2 ^ w : Nat) : Int) := by
      rw [Int.tmod_eq_emod_of_nonneg (by positivity)]; push_cast; rfl
    rw [h3]
    refine natToF_nat (lt_of_le_of_lt (Nat.mod_le _ _) (by omega))
  refine Stuck.bind (Returns.of_wp (WP.wit w9 _)) (fun ac c10 e10 w10 hac => ?_)
  refine Stuck.bind (Returns.of_wp (HP.lift' (a := (M : ZMod p)) w10 (natToF_nat (by omega)))) (fun mv c11 e11 w11 _ => ?_)
  refine Stuck.bind (Returns.of_wp (WP.wit w11 _)) (fun mw c12 e12 w12 hmw => ?_)
  have E8 : Extends cs c8 := ((((e13.trans e4).trans e5).trans e6).trans e7).trans e8
  have E8' : Extends c8 c12 := ((e9.trans e10).trans e11).trans e12
  have E : Extends cs c12 := E8.trans E8'
  have hok : RowOk c12 (Row.sub (Row.sub (Row.add (Row.sub (Row.add (const 0) a) b) mw) tg) ac) :=
    ((((((hc.ok.mono E).add (ha.ok.mono E)).sub (hb.ok.mono E)).add hmw.1).sub (htg.mono E8')).sub (hac.1.mono (e11.trans e12)))
  obtain ⟨c13, r13, run13⟩ := Circ.enforceEqConstant_run w12 hok 0
  refine Stuck.bind (P := fun _ c => Wf c) ⟨(), c13, r13, run13.wf, run13.ext, run13.wf⟩ (fun _ c13 e13' w13 _ => ?_)
  have hcr' : Has c13 cr (((an + 0 + M - bn) / 2 ^ w : Nat) : ZMod p) := hcr.mono ((((e6.trans e7).trans e8).trans E8').trans e13')
  have htd : Int.tdiv ((0 : Int) + M) (2 ^ w) = (((0 + M) / 2 ^ w : Nat) : Int) := by
    rw [Int.tdiv_eq_ediv_of_nonneg (by positivity)]; push_cast; rfl
  rw [htd]
  have E13 : Extends cs c13 := E.trans e13'
  refine Stuck.bind (Returns.of_wp (toBits_nat B w13 hcr' (by rw [Nat.add_zero]; exact hhi)))
    (fun o c14 e14 w14 ⟨ds, k1, k2, k3, k4⟩ => ?_)
  refine Stuck.then (P := fun _ c => Extends c14 c ∧ ∀ c', Extends c c' →
      Satisfies (stored c') c' → ∃ v, v < 2 ^ cb ∧ SpellBits (stored c') o v) (Q := fun _ _ => True) ?_ ?_ ?_
  · obtain ⟨u, c, h1, h3, h4, h5⟩ := rangeCheckBits_returns B.lt256 w14 k1.alloc hcb0 hcb (k3 ▸ pow_le_of_lt hcb B.lt256)
    exact ⟨u, c, h1, ⟨h4, h3⟩, h4, h5⟩
  · rintro _ c ⟨x, h⟩ c' x' hs
    obtain ⟨v, hv, es, d1, d2, d3⟩ := h c' x' hs
    have hb' : HasBits c' o ds := k1.mono (x.trans x')
    have e1 := hb'.map_eq
    have hds : es = ds := by
      rw [e1] at d2
      refine List.ext_getElem (by simpa using (congrArg List.length d2).symm) fun i h3 h4 => ?_
      have h5 := congrArg (fun l : List (ZMod p) => l[i]?) d2
      simp only [List.getElem?_map, List.getElem?_eq_getElem h4, List.getElem?_eq_getElem h3, Option.map_some, Option.some.injEq] at h5
      have b1 := d1 _ (List.getElem_mem h3)
      have b2 := k2 _ (List.getElem_mem h4)
      have hp2 := (Fact.out : p.Prime).two_le
      have h6 := congrArg ZMod.val h5
      rwa [val_cast_lt (by omega), val_cast_lt (by omega), eq_comm] at h6
    rw [hds, k4] at d3
    rw [Nat.add_zero] at d3
    omega
  · rintro _ c x w' _
    exact carryLoop_returns B hw0 hw hM hcb0 hcb (q :: rest) ns w'
      (List.Forall₂.imp (fun _ _ h => ⟨((h.1.mono E13).mono e14).mono x, ((h.2.mono E13).mono e14).mono x⟩) h2) hle
      ((hcr'.ok.mono e14).mono x) hel'

end Kogarashi.Nova
