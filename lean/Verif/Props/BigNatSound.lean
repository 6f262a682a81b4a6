import Verif.Spec.RowPoly
import Verif.Nova.Cheat
import Verif.Nova.MulSound
import Verif.Props.BigNat
import Verif.Props.R1cs

/-!
# Property C89: are the non-native (big integer) gadgets binding?

`C58` is about the honest prover.  Here `z` is any assignment satisfying the constraints.
-/

set_option exponentiation.threshold 1600

namespace Kogarashi.Props

open Kogarashi Spec Nova Curve Field

/-! ### What does bind -/

section

variable {F : Type} [_root_.Field F] [DecidableEq F]

/-- **C89, polynomial product.** Over every field and for limb vectors of any lengths (not both empty): whoever filled the
wires, the rows returned by the product of two limb vectors carry the coefficients of the product polynomial. -/
theorem C89_poly_mul {cs : CS F} (wf : Wf cs) {as bs : List (Row F)} (ha : ∀ r ∈ as, RowOk cs r) (hb : ∀ r ∈ bs, RowOk cs r)
    (h0 : as.length + bs.length ≠ 0) :
    ∃ o c, polyMul as bs cs = some (o, c) ∧ o.length = as.length + bs.length - 1 ∧
      ∀ z, Satisfies z c → rowPoly z o = rowPoly z as * rowPoly z bs := by
  obtain ⟨o, c, h, hp, r⟩ := polyMul_wp wf ha hb h0
  exact ⟨o, c, h, hp.2, fun z hz => (r.sound z hz.1 (fun k hk => hz.2 k (List.mem_of_mem_drop hk)))⟩

end

variable {p : Nat} [Fact p.Prime]

/-- **C89, selection.** Every satisfying assignment selects limb by limb with the value of the selector wire; when the
selector is a bit, that is one operand or the other. -/
theorem C89_select {cs : CS (ZMod p)} (wf : Wf cs) {a b : BigNat (ZMod p)} (hl : a.limbs.length = b.limbs.length)
    (ha : ∀ r ∈ a.limbs, RowOk cs r) (hb : ∀ r ∈ b.limbs, RowOk cs r) {s : Bin} (hs : Allocated cs s) :
    ∃ o c, bnSelect a b s cs = some (o, c) ∧ ∀ z, Satisfies z c →
      (z s = 1 → o.limbs.map (rowVal z) = a.limbs.map (rowVal z)) ∧
      (z s = 0 → o.limbs.map (rowVal z) = b.limbs.map (rowVal z)) := by
  obtain ⟨o, c, h, hp, r⟩ := selectLoop_wp (s := s) (a.limbs.zip b.limbs) wf
    (fun x hx => ⟨ha _ (List.of_mem_zip hx).1, hb _ (List.of_mem_zip hx).2⟩) hs
  have key : ∀ z, Satisfies z c → o.map (rowVal z) =
      (a.limbs.zip b.limbs).map (fun x => rowVal z x.1 * z s + rowVal z x.2 * (1 - z s)) :=
    fun z hz => r.sound z hz.1 (fun k hk => hz.2 k (List.mem_of_mem_drop hk))
  refine ⟨{ a with limbs := o }, c, ?_, fun z hz => ⟨fun h1 => ?_, fun h0 => ?_⟩⟩
  · unfold bnSelect
    rw [if_pos hl, Circ.bind_eq h]
    rfl
  · dsimp only
    rw [key z hz, h1]
    have : ((a.limbs.zip b.limbs).map (fun x => rowVal z x.1 * 1 + rowVal z x.2 * (1 - 1))) =
        ((a.limbs.zip b.limbs).map Prod.fst).map (rowVal z) := by
      rw [List.map_map]; exact List.map_congr_left fun x _ => by simp
    rw [this, List.map_fst_zip hl.le]
  · dsimp only
    rw [key z hz, h0]
    have : ((a.limbs.zip b.limbs).map (fun x => rowVal z x.1 * 0 + rowVal z x.2 * (1 - 0))) =
        ((a.limbs.zip b.limbs).map Prod.snd).map (rowVal z) := by
      rw [List.map_map]; exact List.map_congr_left fun x _ => by simp
    rw [this, List.map_snd_zip hl.ge]

/-! ### What does not -/

/-- The number the limbs of `a` spell under an assignment. -/
def numberOf (z : Assignment (ZMod p)) (a : BigNat (ZMod p)) : Nat :=
  leValue (2 ^ 64) (a.limbs.map (fun r => (rowVal z r).val))

theorem numberOf_of_isBN {c : CS (ZMod p)} {o : BigNat (ZMod p)} {R : Nat} (hp : 2 ^ 64 ≤ p) (hR : R < 2 ^ 256)
    (h : IsBN c o (limbsOf 64 4 R) 64 wordMax) : numberOf (stored c) o = R :=
  (encodes_of_isBN hp hR h).value

/-- **C89, modular multiplication, refuted.** In every 254-bit field, for all four-limb operands and every non-zero
modulus: whatever number `R` below `2^256` a prover picks, some assignment that agrees with the inputs satisfies all the
constraints of `mult_mod` and makes its output spell `R`. -/
theorem C89_mult_mod_refuted (fp : CarryBits) (hlo : 2 ^ 253 < p) (hhi : p ≤ 2 ^ 254) {cs : CS (ZMod p)} (wf : Wf cs)
    (hs : Satisfies (stored cs) cs) {a b m : BigNat (ZMod p)} {A B M : Nat} (ha : Encodes cs a A) (hb : Encodes cs b B)
    (hm : Encodes cs m M) (hM : M ≠ 0) {R : Nat} (hR : R < 2 ^ 256) :
    ∃ o c z, bnMultMod fp 254 a b m cs = some (o, c) ∧ Satisfies z c ∧ AgreeOn cs z (stored cs) ∧ numberOf z o = R := by
  have hB : BitParams p 254 := ⟨by norm_num, hlo, hhi⟩
  obtain ⟨o, c, z, c', h1, h2, h3, rfl, h5⟩ := cheat_run wf hs (cheatMultMod_shape _ 254 R a b m)
    (bnMultMod_hp hB wf ha.isBN hb.isBN hm.isBN (by simp [limbVals, ha.limbs]) (by simp [limbVals, hb.limbs])
      (by simp [limbVals, hm.limbs]) (by rw [hm.value]; exact hM))
    (cheatMultMod_hp hB wf ha.isBN hb.isBN hm.isBN (by simp [limbVals, ha.limbs]) (by simp [limbVals, hb.limbs])
      (by simp [limbVals, hm.limbs]) hR)
  exact ⟨o, c, _, h1, h2, h3, numberOf_of_isBN (word_le hB) hR h5⟩

/-- **C89, reduction, refuted.** The same for `red_mod`. -/
theorem C89_red_mod_refuted (fp : CarryBits) (hlo : 2 ^ 253 < p) (hhi : p ≤ 2 ^ 254) {cs : CS (ZMod p)} (wf : Wf cs)
    (hs : Satisfies (stored cs) cs) {a m : BigNat (ZMod p)} {A M : Nat} (ha : Encodes cs a A)
    (hm : Encodes cs m M) (hM : M ≠ 0) {R : Nat} (hR : R < 2 ^ 256) :
    ∃ o c z, bnRedMod fp 254 a m cs = some (o, c) ∧ Satisfies z c ∧ AgreeOn cs z (stored cs) ∧ numberOf z o = R := by
  have hB : BitParams p 254 := ⟨by norm_num, hlo, hhi⟩
  obtain ⟨o, c, z, c', h1, h2, h3, rfl, h5⟩ := cheat_run wf hs (cheatRedMod_shape _ 254 R a m)
    (bnRedMod_hp hB wf ha.isBN hm.isBN le_rfl (by omega)
      (by simp [limbVals, ha.limbs]) (by simp [limbVals, hm.limbs]) (by rw [hm.value]; exact hM) (by rw [ha.value]; exact ha.lt))
    (cheatRedMod_hp hB wf ha.isBN hm.isBN le_rfl (by omega)
      (by simp [limbVals, ha.limbs]) (by simp [limbVals, hm.limbs]) (by rw [ha.value]; exact ha.lt) hR)
  exact ⟨o, c, _, h1, h2, h3, numberOf_of_isBN (word_le hB) hR h5⟩

/-- **C89, range check, refuted.** In every field of at most 256 bits, for limb widths from one bit up to the size of the
field: every assignment of the wires that satisfied the system before `enforce_well_formed` extends to one that satisfies
it afterwards, however large the limbs are. -/
theorem C89_range_refuted {nb w : Nat} (hnb : nb ≤ 256) (hlo : 2 ^ (nb - 1) < p) (hhi : p ≤ 2 ^ nb) (hw : 0 < w)
    (hwp : 2 ^ w ≤ p) {cs : CS (ZMod p)} (wf : Wf cs) {a : BigNat (ZMod p)} (ha : ∀ r ∈ a.limbs, RowOk cs r)
    (haw : a.limbWidth = w) {z : Assignment (ZMod p)} (hz : Satisfies z cs) :
    ∃ c z', bnWellFormed nb a cs = some ((), c) ∧ Satisfies z' c ∧ AgreeOn cs z z' := by
  have hp : p ≤ 2 ^ 256 := hhi.trans (Nat.pow_le_pow_right (by norm_num) hnb)
  have hw256 : w ≤ 256 := by
    by_contra h
    have h1 : 2 ^ 256 < 2 ^ w := Nat.pow_lt_pow_right (by norm_num) (by omega)
    exact absurd (hwp.trans hp) (by omega)
  unfold bnWellFormed
  rw [haw]
  generalize a.limbs = rs at ha
  induction rs generalizing cs z with
  | nil => exact ⟨cs, z, rfl, hz, fun _ _ => rfl⟩
  | cons r rs ih =>
    obtain ⟨bits, c1, z1, e1, a1, s1, sp⟩ := Circ.toBits_free wf (ha r (by simp)) hnb hlo hhi (n := 256) (by norm_num) le_rfl
      (Nat.zero_le _) hz
    obtain ⟨_, _, bits', c1', -, -, -, e1', hl, hal, -, -, run⟩ :=
      Circ.toBits_run wf (ha r (by simp)) hnb hlo hhi (n := 256) (by norm_num) le_rfl
    obtain ⟨rfl, rfl⟩ : bits' = bits ∧ c1' = c1 := by rw [e1] at e1'; simpa using e1'.symm
    obtain ⟨c2, e2, im⟩ := C33_range_check_bits_partial hp run.wf hal hw hwp (by omega)
    obtain ⟨z2, a2, s2⟩ := im.complete z1 s1 ⟨0, by positivity, sp⟩
    have E := run.ext.trans im.grows
    obtain ⟨c3, z3, e3, s3, a3⟩ := ih im.wf s2 (fun r' hr => (ha r' (by simp [hr])).mono E)
    refine ⟨c3, z3, ?_, s3, fun w hw => ?_⟩
    · unfold wellFormedLoop
      rw [Circ.bind_eq e1, Circ.bind_eq e2]
      exact e3
    · rw [a1 w hw, a2 w (run.ext.alloc hw), a3 w (E.alloc hw)]

/-- Non-vacuity: over the scalar field of BN254, with the operands of `C58_nonvacuous`, the product `2^200 + 7` times
`2^255 + 3` modulo the base field prime can be made to read `42`. -/
example (fp : CarryBits) : ∃ (cs : CS FrV) (a b m o : BigNat FrV) (c : CS FrV) (z : Assignment FrV), bnMultMod fp 254 a b m cs = some (o, c) ∧
    Encodes cs a (2 ^ 200 + 7) ∧ Encodes cs b (2 ^ 255 + 3) ∧ Encodes cs m fqParams.m ∧
    Satisfies z c ∧ AgreeOn cs z (stored cs) ∧ numberOf z o = 42 ∧ (2 ^ 200 + 7) * (2 ^ 255 + 3) % fqParams.m ≠ 42 := by
  obtain ⟨cs, a, b, m, wf, hs, ha, hb, hm, h1, h2, h3⟩ := C58_nonvacuous
  obtain ⟨o, c, z, k1, k2, k3, k4⟩ := C89_mult_mod_refuted fp (by decide +kernel) (by decide +kernel) wf hs ha hb hm
    (by decide +kernel) (R := 42) (by norm_num)
  exact ⟨cs, a, b, m, o, c, z, k1, ha, hb, hm, k2, k3, k4, by decide +kernel⟩

/-- Non-vacuity of the positive parts: the initial system and constant rows meet their hypotheses. -/
example : Wf (CS.init : CS FrV) ∧ (∀ r ∈ [Circ.const (3 : FrV), Circ.const 5], RowOk (CS.init : CS FrV) r) ∧
    Allocated (CS.init : CS FrV) Wire.ONE :=
  ⟨⟨rfl, by simp [CS.init]⟩, fun r hr => by
    simp only [List.mem_cons, List.not_mem_nil, or_false] at hr
    rcases hr with rfl | rfl <;> exact Circ.const_ok ⟨rfl, by simp [CS.init]⟩ _, by simp [Allocated, Wire.ONE, CS.init]⟩

end Kogarashi.Props
