import Verif.Spec.BigNat
import Verif.Nova.CircuitProof
import Verif.Props.Folding
import Verif.Curve.Order

/-!
# Properties C56, C57 (addition), C58: in-circuit transcript and big integers
-/

set_option exponentiation.threshold 1600

namespace Kogarashi.Props

open Kogarashi Spec Nova Curve Field

variable {p : Nat} [Fact p.Prime]

/-! ### C56 -/

/-- **C56.** Run honestly on rows carrying `vs`, the in-circuit transcript returns (in any satisfied system, of any
field of at most 256 bits) the value the native transcript squeezes from `vs`, and the constraints it adds are
satisfied by what it stored.  The native code squeezes into the other field of the cycle: the integers agree whenever
`2^n` is at most that modulus.  `MiMC` constants, number of absorbed elements and output length are arbitrary. -/
theorem C56_transcript {q nb : Nat} [Fact q.Prime] (hnb : nb ≤ 256) (hlo : 2 ^ (nb - 1) < q) (hhi : q ≤ 2 ^ nb)
    (consts : List (ZMod q)) {cs : CS (ZMod q)} (wf : Wf cs) (hs : Satisfies (stored cs) cs)
    {state : List (Row (ZMod q))} (hr : ∀ r ∈ state, RowOk cs r) {n : Nat} (hn0 : 0 < n) (hn : n ≤ 256) :
    ∃ o c, squeezeCirc nb consts state n cs = some (o, c) ∧ Satisfies (stored c) c ∧
      rowVal (stored c) o = (squeeze consts (state.map (rowVal (stored cs))) n : ZMod q) ∧
      (2 ^ n ≤ p → 2 ^ n ≤ q → (rowVal (stored c) o).val =
        (squeeze consts (state.map (rowVal (stored cs))) n : ZMod p).val) := by
  have h : HasL cs state (state.map (rowVal (stored cs))) := by
    unfold HasL
    rw [List.forall₂_map_right_iff, List.forall₂_same]
    exact fun r hr' => ⟨hr r hr', rfl⟩
  obtain ⟨o, c, h1, h2, -, -, h4⟩ := HP.satisfied wf (squeezeCirc_hp ⟨hnb, hlo, hhi⟩ consts wf h hn0 hn)
  refine ⟨o, c, h1, h4 hs, by rw [h2.val, squeeze_eq consts _ hn], fun k1 k2 => ?_⟩
  have hm := Nat.mod_lt (sponge consts (state.map (rowVal (stored cs)))).val (pow_pos (by norm_num : 0 < 2) n)
  rw [h2.val, squeeze_eq consts _ hn, val_cast_lt (lt_of_lt_of_le hm k1), val_cast_lt (lt_of_lt_of_le hm k2)]

/-! ### C57 -/

theorem isBN_of_held {c : CS (ZMod p)} {a : BigNat (ZMod p)} {M : Nat} (h : Held c a) (hM : a.maxWord = (M : Int)) :
    IsBN c a (limbVals c a) a.limbWidth M := by
  refine ⟨?_, rfl, hM, ?_, h.minBits, by rw [h.count]; simp [limbVals]⟩
  · unfold HasN limbVals
    rw [List.forall₂_map_right_iff, List.forall₂_same]
    exact fun r hr => ⟨h.ok r hr, by rw [ZMod.natCast_zmod_val]⟩
  · intro n hn
    have := h.le n hn
    rw [hM] at this
    exact_mod_cast this

theorem vals_of_hasN {c : CS (ZMod p)} {M : Nat} (hM : M < p) : ∀ {rs : List (Row (ZMod p))} {ns : List Nat},
    HasN c rs ns → (∀ n ∈ ns, n ≤ M) → rs.map (fun r => (rowVal (stored c) r).val) = ns ∧ ∀ r ∈ rs, RowOk c r
  | [], [], _, _ => ⟨rfl, by simp⟩
  | r :: rs, n :: ns, h, hl => by
    cases h with
    | cons h1 h2 =>
      obtain ⟨k1, k2⟩ := vals_of_hasN hM h2 (fun n hn => hl n (by simp [hn]))
      refine ⟨by rw [List.map_cons, k1, h1.val, val_cast_lt (lt_of_le_of_lt (hl n (by simp)) hM)], ?_⟩
      intro r' hr'
      rcases List.mem_cons.mp hr' with rfl | hr'
      · exact h1.ok
      · exact k2 r' hr'

theorem limbVals_of_isBN {c : CS (ZMod p)} {a : BigNat (ZMod p)} {ns : List Nat} {w M : Nat} (h : IsBN c a ns w M)
    (hM : M < p) : limbVals c a = ns := (vals_of_hasN hM h.has h.le).1

theorem held_of_isBN {c : CS (ZMod p)} {a : BigNat (ZMod p)} {ns : List Nat} {w M : Nat} (h : IsBN c a ns w M)
    (hM : M < p) : Held c a := by
  refine ⟨(vals_of_hasN hM h.has h.le).2, ?_, h.minBits, by rw [h.count, h.has.length]⟩
  rw [limbVals_of_isBN h hM, h.max]
  intro n hn
  exact_mod_cast h.le n hn

/-- **C57, addition.** For any limb width and any limb counts, `add` of two big integers with room in the field
(`max_word`s adding up below the modulus) encodes the integer sum, and its own bookkeeping is right. -/
theorem C57_add {c : CS (ZMod p)} {a b : BigNat (ZMod p)} (ha : Held c a) (hb : Held c b) (hw : a.limbWidth = b.limbWidth)
    (ha0 : 0 ≤ a.maxWord) (hb0 : 0 ≤ b.maxWord) (hp : a.maxWord + b.maxWord < p) :
    ∃ o, bnAdd a b = some o ∧ Held c o ∧ o.limbWidth = a.limbWidth ∧
      leValue (2 ^ a.limbWidth) (limbVals c o) = leValue (2 ^ a.limbWidth) (limbVals c a) + leValue (2 ^ a.limbWidth) (limbVals c b) := by
  obtain ⟨Ma, hMa⟩ := Int.eq_ofNat_of_zero_le ha0
  obtain ⟨Mb, hMb⟩ := Int.eq_ofNat_of_zero_le hb0
  have hp' : Ma + Mb < p := by rw [hMa, hMb] at hp; exact_mod_cast hp
  obtain ⟨o, h1, h2⟩ := bnAdd_has (isBN_of_held ha hMa) (hw ▸ isBN_of_held hb hMb)
  exact ⟨o, h1, held_of_isBN h2 hp', h2.width, by rw [limbVals_of_isBN h2 hp', leValue_polyAddN]⟩

/-! ### C58 -/

theorem _root_.Kogarashi.Spec.Encodes.isBN {c : CS (ZMod p)} {a : BigNat (ZMod p)} {n : Nat} (h : Encodes c a n) :
    IsBN c a (limbVals c a) 64 wordMax := by
  have := isBN_of_held (M := wordMax) h.toHeld (by rw [h.max]; norm_num [wordMax])
  rwa [h.width] at this

theorem encodes_of_isBN {c : CS (ZMod p)} {a : BigNat (ZMod p)} {n : Nat} (hp : 2 ^ 64 ≤ p) (hn : n < 2 ^ 256)
    (h : IsBN c a (limbsOf 64 4 n) 64 wordMax) : Encodes c a n := by
  have hM : wordMax < p := lt_of_lt_of_le (by norm_num [wordMax]) hp
  refine ⟨held_of_isBN h hM, h.width, by rw [h.max]; norm_num [wordMax], by rw [h.has.length]; simp [limbsOf], ?_⟩
  rw [limbVals_of_isBN h hM, limbsOf_value, Nat.mod_eq_of_lt hn]

theorem _root_.Kogarashi.Spec.Encodes.lt {c : CS (ZMod p)} {a : BigNat (ZMod p)} {n : Nat} (h : Encodes c a n) : n < 2 ^ 256 := by
  have := leValue64_lt h.isBN.le (by simp [limbVals, h.limbs])
  rw [h.value] at this
  exact this

/-- **C58, multiplication.** In a 254-bit field, for all four-limb operands and every non-zero modulus, on
any machine. -/
theorem C58_mult_mod (fp : CarryBits) (hlo : 2 ^ 253 < p) (hhi : p ≤ 2 ^ 254) {cs : CS (ZMod p)} (wf : Wf cs)
    (hs : Satisfies (stored cs) cs) {a b m : BigNat (ZMod p)} {A B M : Nat} (ha : Encodes cs a A) (hb : Encodes cs b B)
    (hm : Encodes cs m M) (hM : M ≠ 0) :
    ∃ o c, bnMultMod fp 254 a b m cs = some (o, c) ∧ Satisfies (stored c) c ∧ Encodes c o (A * B % M) := by
  have hB : BitParams p 254 := ⟨by norm_num, hlo, hhi⟩
  obtain ⟨o, c, h1, h2, -, -, h4⟩ := HP.satisfied wf (bnMultMod_hp hB wf ha.isBN hb.isBN hm.isBN
    (by simp [limbVals, ha.limbs]) (by simp [limbVals, hb.limbs]) (by simp [limbVals, hm.limbs]) (by rw [hm.value]; exact hM))
  rw [ha.value, hb.value, hm.value] at h2
  exact ⟨o, c, h1, h4 hs, encodes_of_isBN (word_le hB) ((Nat.mod_lt _ (Nat.pos_of_ne_zero hM)).trans hm.lt) h2⟩

/-- **C58, reduction.** Of an encoded value, or of the sum of two encoded values when it fits in 256 bits (how the folding
circuit uses it). -/
theorem C58_red_mod (fp : CarryBits) (hlo : 2 ^ 253 < p) (hhi : p ≤ 2 ^ 254) {cs : CS (ZMod p)} (wf : Wf cs)
    (hs : Satisfies (stored cs) cs) {a b m : BigNat (ZMod p)} {A B M : Nat} (ha : Encodes cs a A) (hb : Encodes cs b B)
    (hm : Encodes cs m M) (hM : M ≠ 0) :
    (∃ o c, bnRedMod fp 254 a m cs = some (o, c) ∧ Satisfies (stored c) c ∧ Encodes c o (A % M)) ∧
    (A + B < 2 ^ 256 → ∃ s o c, bnAdd a b = some s ∧ bnRedMod fp 254 s m cs = some (o, c) ∧ Satisfies (stored c) c ∧
      Encodes c o ((A + B) % M)) := by
  have hB : BitParams p 254 := ⟨by norm_num, hlo, hhi⟩
  constructor
  · obtain ⟨o, c, h1, h2, -, -, h4⟩ := HP.satisfied wf (bnRedMod_hp hB wf ha.isBN hm.isBN le_rfl (by omega)
      (by simp [limbVals, ha.limbs]) (by simp [limbVals, hm.limbs]) (by rw [hm.value]; exact hM) (by rw [ha.value]; exact ha.lt))
    rw [ha.value, hm.value] at h2
    exact ⟨o, c, h1, h4 hs, encodes_of_isBN (word_le hB) ((Nat.mod_lt _ (Nat.pos_of_ne_zero hM)).trans hm.lt) h2⟩
  · intro hfit
    obtain ⟨s, hs1, hs2⟩ := bnAdd_has ha.isBN hb.isBN
    have hv : leValue (2 ^ 64) (polyAddN (limbVals cs a) (limbVals cs b)) = A + B := by
      rw [leValue_polyAddN, ha.value, hb.value]
    obtain ⟨o, c, h1, h2, -, -, h4⟩ := HP.satisfied wf (bnRedMod_hp hB wf hs2 hm.isBN (by omega) (by omega)
      (by rw [length_polyAddN]; simp [limbVals, ha.limbs, hb.limbs]) (by simp [limbVals, hm.limbs]) (by rw [hm.value]; exact hM)
      (by rw [hv]; exact hfit))
    rw [hv, hm.value] at h2
    exact ⟨s, o, c, hs1, h1, h4 hs, encodes_of_isBN (word_le hB) ((Nat.mod_lt _ (Nat.pos_of_ne_zero hM)).trans hm.lt) h2⟩

/-! ### The hypotheses can be met -/

/-- `A`, `B` and `M` witnessed in an empty system over `Fr`. -/
theorem C58_nonvacuous : ∃ (cs : CS FrV) (a b m : BigNat FrV), Wf cs ∧ Satisfies (stored cs) cs ∧
    Encodes cs a (2 ^ 200 + 7) ∧ Encodes cs b (2 ^ 255 + 3) ∧ Encodes cs m fqParams.m ∧ fqParams.m ≠ 0 ∧
    2 ^ 253 < frParams.m ∧ frParams.m ≤ 2 ^ 254 := by
  have hB : BitParams frParams.m 254 := ⟨by norm_num, by decide +kernel, by decide +kernel⟩
  have wf0 : Wf (CS.init : CS FrV) := ⟨rfl, by simp [CS.init]⟩
  obtain ⟨a, c1, -, h1, e1, w1, s1⟩ := HP.satisfied wf0 (bnWitness_hp wf0 (n := 2 ^ 200 + 7) (w := 64) (k := 4) (by norm_num) (by norm_num))
  obtain ⟨b, c2, -, h2, e2, w2, s2⟩ := HP.satisfied w1 (bnWitness_hp w1 (n := 2 ^ 255 + 3) (w := 64) (k := 4) (by norm_num) (by norm_num))
  obtain ⟨m, c3, -, h3, e3, w3, s3⟩ := HP.satisfied w2 (bnWitness_hp w2 (n := fqParams.m) (w := 64) (k := 4) (by norm_num) (by decide +kernel))
  exact ⟨c3, a, b, m, w3, s3 (s2 (s1 ⟨rfl, by simp [CS.init]⟩)), encodes_of_isBN (word_le hB) (by norm_num) ((h1.mono e2).mono e3),
    encodes_of_isBN (word_le hB) (by norm_num) (h2.mono e3), encodes_of_isBN (word_le hB) (by decide +kernel) h3,
    by decide +kernel, by decide +kernel, by decide +kernel⟩

/-- C57: the sum of the two encoded numbers above has room. -/
example : (2 ^ 64 - 1 : Int) + (2 ^ 64 - 1) < frParams.m := by decide +kernel

/-- C56: three absorbed rows in a 4-bit field, two rounds, three output bits: the native and the circuit value. -/
example : Wf demo ∧ Satisfies (stored demo) demo ∧ RowOk demo demoRow ∧ 2 ^ (4 - 1) < 13 ∧ 13 ≤ 2 ^ 4 ∧
    (squeezeCirc 4 [3, 5] [demoRow, demoRow, demoRow] 3 demo).map (fun o => rowVal (stored o.2) o.1) =
      some (squeeze [3, 5] [rowVal (stored demo) demoRow, rowVal (stored demo) demoRow, rowVal (stored demo) demoRow] 3) :=
  ⟨demo_wf, demo_sat, demo_row, by decide, by decide, by decide +kernel⟩

end Kogarashi.Props
