import Verif.Nova.Stuck
import Verif.Props.BigNat

/-!
# Property C100: the number of bits allowed for a carry, and the equality of big integers
-/

set_option exponentiation.threshold 1600

namespace Kogarashi.Props

open Kogarashi Spec Nova Curve Field

variable {p : Nat} [Fact p.Prime]

/-- `c` is the least number of bits with which twice `max_word` is at most `2^(w+c)`. -/
def Needed (maxWord w c : Nat) : Prop := 2 * maxWord ≤ 2 ^ (w + c) ∧ ∀ c' < c, 2 ^ (w + c') < 2 * maxWord

/-- **C100, bits.** On every machine with IEEE doubles, for every limb width up to 1024 and every `max_word` below `2^1023` whose double is
not within `1 + 2^-40` above a power of two, the computation through logarithms gives the integer needed. -/
theorem C100_bits_partial (fp : CarryBits) {m w k : Nat} (hw : w ≤ 2 ^ 10) (hk : k + 1 ≤ 2 ^ 10) (hwk : w ≤ k + 1)
    (h1 : 2 ^ k * (2 ^ 40 + 1) ≤ 2 * m * 2 ^ 40) (h2 : 2 * m ≤ 2 ^ (k + 1)) : Needed m w (fp.bits (m : Int) w) := by
  rw [fp.eq hw hk h1 h2]
  have h3 : 2 ^ k < 2 * m := by
    by_contra hc
    have := Nat.mul_le_mul_right (2 ^ 40) (Nat.le_of_not_lt hc)
    have h0 : 0 < 2 ^ k := by positivity
    have h4 : 2 ^ k * (2 ^ 40 + 1) = 2 ^ k * 2 ^ 40 + 2 ^ k := by ring
    omega
  refine ⟨by rwa [Nat.add_sub_cancel' hwk], fun c' hc => lt_of_le_of_lt (Nat.pow_le_pow_right (by norm_num) ?_) h3⟩
  omega

/-- **C100, bits, refuted in general.** On every machine, one more than a power of two (of 55 bits or more) gets one bit too few. -/
theorem C100_bits_refuted (fp : CarryBits) {j w : Nat} (hw : w ≤ j) (hj : 54 ≤ j) (hj2 : j + 1 ≤ 2 ^ 10) :
    ¬ Needed (2 ^ j + 1) w (fp.bits ((2 ^ j + 1 : Nat) : Int) w) := by
  obtain ⟨D, h⟩ := fp.f64
  rw [h, carryBitsF64_short D (by omega) hj hj2]
  rintro ⟨h1, -⟩
  rw [show w + (j + 1 - w) = j + 1 by omega, pow_succ] at h1
  omega

/-- **C100, equality accepts equal numbers.** Any field of at most 256 bits, any limb width, any limb counts, any limbs within
`max_word`: if the two integers are equal and fit the shorter limb list, `enforce_equal_when_carried` run honestly is satisfied, provided
`max_word` leaves room for one more carry below the power of two above it. -/
theorem C100_equal_partial (fp : CarryBits) {nb : Nat} (hnb : nb ≤ 256) (hlo : 2 ^ (nb - 1) < p) (hhi : p ≤ 2 ^ nb) {cs : CS (ZMod p)}
    (wf : Wf cs) (hs : Satisfies (stored cs) cs) {a b : BigNat (ZMod p)} (ha : Held cs a) (hb : Held cs b) {w M k : Nat}
    (hwa : a.limbWidth = w) (hwb : b.limbWidth = w) (hw0 : 0 < w) (hw : w ≤ k)
    (hMa : a.maxWord = (M : Int)) (hMb : b.maxWord = (M : Int)) (hM : M < p)
    (h1 : 2 ^ k * (2 ^ 40 + 1) ≤ 2 * M * 2 ^ 40) (h2 : 2 * M + 2 ^ (k + 1 - w) ≤ 2 ^ (k + 1)) (hcb : 2 ^ (k + 1 - w) ≤ p)
    (heq : leValue (2 ^ w) (limbVals cs a) = leValue (2 ^ w) (limbVals cs b))
    (hfit : leValue (2 ^ w) (limbVals cs a) < (2 ^ w) ^ min a.limbs.length b.limbs.length) :
    ∃ c, bnEqualCarried fp nb a b cs = some ((), c) ∧ Satisfies (stored c) c := by
  have hB : BitParams p nb := ⟨hnb, hlo, hhi⟩
  have ia := isBN_of_held ha hMa
  have ib := isBN_of_held hb hMb
  rw [hwa] at ia
  rw [hwb] at ib
  have hk : k ≤ 256 := by
    have h3 : 2 ^ k ≤ 2 * M := by
      by_contra hc
      have := Nat.mul_le_mul_right (2 ^ 40) (Nat.le_of_not_le hc)
      have h0 : 0 < 2 ^ k := by positivity
      have h4 : 2 ^ k * (2 ^ 40 + 1) = 2 ^ k * 2 ^ 40 + 2 ^ k := by ring
      omega
    have h4 : 2 ^ k < 2 ^ 257 := by
      have := hB.lt256
      have h5 : (2 : Nat) ^ 257 = 2 * 2 ^ 256 := by norm_num
      omega
    have := (Nat.pow_lt_pow_iff_right (by norm_num : 1 < 2)).mp h4
    omega
  have e := fp.eq (m := M) (w := w) (k := k) (by omega) (by omega) h1 ((Nat.le_add_right _ _).trans h2)
  obtain ⟨_, c, r, -, -, -, h⟩ := HP.satisfied wf (bnEqualCarried_hp (fp := fp) hB wf ia ib hw0 (by omega) (by rwa [max_self])
    (cb := k + 1 - w) (by rw [max_self]; exact e) (by omega) hcb
    (by rw [max_self, ← pow_add, show w + (k + 1 - w) = k + 1 by omega]; exact h2) heq
    (by simpa [limbVals] using hfit))
  exact ⟨c, r, h hs⟩

theorem Has.nat {cs : CS (ZMod p)} (wf : Wf cs) (n : Nat) : Has cs (Circ.const (n : ZMod p)) (n : ZMod p) := Has.const wf _

/-- **C100, equality, refuted in general.** For every machine, field of at most 256 bits, limb width `w` and system: with `max_word = 2^j`
there are two numbers within `max_word`, both equal to `2^j`, on which `enforce_equal_when_carried` run honestly produces values its own
constraints reject. -/
theorem C100_equal_refuted (fp : CarryBits) {nb : Nat} (hnb : nb ≤ 256) (hlo : 2 ^ (nb - 1) < p) (hhi : p ≤ 2 ^ nb) {cs : CS (ZMod p)}
    (wf : Wf cs) {w j : Nat} (hw0 : 0 < w) (hw : w ≤ j) (hj : j + 1 < nb) :
    ∃ a b : BigNat (ZMod p), Held cs a ∧ Held cs b ∧ a.limbWidth = w ∧ b.limbWidth = w ∧ a.maxWord = 2 ^ j ∧ b.maxWord = 2 ^ j ∧
      leValue (2 ^ w) (limbVals cs a) = 2 ^ j ∧ leValue (2 ^ w) (limbVals cs b) = 2 ^ j ∧
      ∃ c, bnEqualCarried fp nb a b cs = some ((), c) ∧ ¬ Satisfies (stored c) c := by
  have hB : BitParams p nb := ⟨hnb, hlo, hhi⟩
  have pw : ∀ i, i ≤ j + 1 → 2 ^ i < p := fun i hi => lt_of_le_of_lt (Nat.pow_le_pow_right (by norm_num) (by omega)) hlo
  have hjp := pw j (by omega)
  have hsplit : 2 ^ w * 2 ^ (j - w) = 2 ^ j := by rw [← pow_add]; congr 1; omega
  have hle : 2 ^ (j - w) ≤ 2 ^ j := Nat.pow_le_pow_right (by norm_num) (by omega)
  let a : BigNat (ZMod p) := ⟨[Circ.const ((2 ^ j : Nat) : ZMod p), Circ.const ((0 : Nat) : ZMod p)], 0, (2 ^ j : Nat), w, 2⟩
  let b : BigNat (ZMod p) := ⟨[Circ.const ((0 : Nat) : ZMod p), Circ.const ((2 ^ (j - w) : Nat) : ZMod p)], 0, (2 ^ j : Nat), w, 2⟩
  have ia : IsBN cs a [2 ^ j, 0] w (2 ^ j) := ⟨.cons (Has.nat wf _) (.cons (Has.nat wf _) .nil), rfl, rfl, by simp, rfl, rfl⟩
  have ib : IsBN cs b [0, 2 ^ (j - w)] w (2 ^ j) := ⟨.cons (Has.nat wf _) (.cons (Has.nat wf _) .nil), rfl, rfl, by simpa using hle, rfl, rfl⟩
  refine ⟨a, b, held_of_isBN ia hjp, held_of_isBN ib hjp, rfl, rfl, by rw [ia.max]; push_cast; rfl, by rw [ib.max]; push_cast; rfl,
    by rw [limbVals_of_isBN ia hjp]; simp [leValue], by rw [limbVals_of_isBN ib hjp]; simp [leValue, hsplit], ?_⟩
  have e := fp.eq (m := 2 ^ j) (w := w) (k := j) (by omega) (by omega)
    (by have : 0 < 2 ^ j := by positivity
        ring_nf; omega) (by rw [pow_succ]; omega)
  have hdiv : (2 ^ j + 2 ^ j - 0) / 2 ^ w = 2 ^ (j + 1 - w) := by
    rw [Nat.sub_zero, ← two_mul, ← pow_succ', Nat.pow_div (by omega) (by norm_num)]
  have st := carryLoop_stuck hB (w := w) (M := 2 ^ j) (cb := j + 1 - w) hw0 (by omega) hjp (by omega) (pw _ (by omega)).le wf
    (Has.nat wf (2 ^ j)) (Has.nat wf 0) le_rfl (by positivity) (q := (Circ.const ((0 : Nat) : ZMod p), Circ.const ((2 ^ (j - w) : Nat) : ZMod p)))
    (rest := []) (ns := [(0, 2 ^ (j - w))]) (.cons ⟨Has.nat wf _, Has.nat wf _⟩ .nil) (by simpa using hle) (by rw [hdiv])
    (by rw [hdiv]; exact pw _ (by omega))
  obtain ⟨u, c, r, -, -, hn⟩ := st
  refine ⟨c, ?_, hn⟩
  unfold bnEqualCarried
  rw [if_pos rfl]
  rw [show max a.maxWord b.maxWord = ((2 ^ j : Nat) : Int) from max_self _, show a.limbWidth = w from rfl, e]
  rw [Circ.bind_eq (show carryLoop nb w _ _ (a.limbs.zip b.limbs) _ _ cs = some (u, c) from r)]
  rfl

/-! ### The hypotheses can be met -/

/-- There are machines. -/
noncomputable def ieeeBits : CarryBits := ⟨carryBitsF64 ieee, ieee, rfl⟩

/-- The sizes of the library: products of four-limb numbers of 64 bits, and the result regrouped. -/
example : Needed (4 * (2 ^ 64 - 1) * (2 ^ 64 - 1) + (2 ^ 64 - 1)) 64 (ieeeBits.bits ((4 * (2 ^ 64 - 1) * (2 ^ 64 - 1) + (2 ^ 64 - 1) : Nat) : Int) 64) :=
  C100_bits_partial ieeeBits (k := 130) (by norm_num) (by norm_num) (by norm_num) (by norm_num) (by norm_num)

example : ieeeBits.bits ((2 ^ 64 + 1 : Nat) : Int) 64 = 1 ∧ ¬ Needed (2 ^ 64 + 1) 64 1 := by
  have h := carryBitsF64_short ieee (j := 64) (w := 64) (by norm_num) (by norm_num) (by norm_num)
  refine ⟨h, ?_⟩
  have := C100_bits_refuted ieeeBits (j := 64) (w := 64) le_rfl (by norm_num) (by norm_num)
  rwa [show ieeeBits.bits ((2 ^ 64 + 1 : Nat) : Int) 64 = 1 from h] at this

/-- `7 + 5·2^64` written with limbs `7, 5` and with limbs `7 + 2^64, 4`, `max_word = 2^65 - 3`. -/
theorem C100_equal_nonvacuous : ∃ (cs : CS FrV) (a b : BigNat FrV), Wf cs ∧ Satisfies (stored cs) cs ∧ Held cs a ∧ Held cs b ∧
    limbVals cs a = [7, 5] ∧ limbVals cs b = [7 + 2 ^ 64, 4] ∧
    ∃ c, bnEqualCarried ieeeBits 254 a b cs = some ((), c) ∧ Satisfies (stored c) c := by
  have wf : Wf (CS.init : CS FrV) := ⟨rfl, by simp [CS.init]⟩
  have hs : Satisfies (stored (CS.init : CS FrV)) CS.init := ⟨rfl, by simp [CS.init]⟩
  have hlo : 2 ^ 253 < frParams.m := by decide +kernel
  have hhi : frParams.m ≤ 2 ^ 254 := by decide +kernel
  have hM : 2 ^ 65 - 3 < frParams.m := lt_of_le_of_lt (by norm_num) hlo
  let a : BigNat FrV := ⟨[Circ.const ((7 : Nat) : FrV), Circ.const ((5 : Nat) : FrV)], 0, (2 ^ 65 - 3 : Nat), 64, 2⟩
  let b : BigNat FrV := ⟨[Circ.const ((7 + 2 ^ 64 : Nat) : FrV), Circ.const ((4 : Nat) : FrV)], 0, (2 ^ 65 - 3 : Nat), 64, 2⟩
  have ia : IsBN CS.init a [7, 5] 64 (2 ^ 65 - 3) := ⟨.cons (Has.nat wf _) (.cons (Has.nat wf _) .nil), rfl, rfl, by simp, rfl, rfl⟩
  have ib : IsBN CS.init b [7 + 2 ^ 64, 4] 64 (2 ^ 65 - 3) := ⟨.cons (Has.nat wf _) (.cons (Has.nat wf _) .nil), rfl, rfl, by simp, rfl, rfl⟩
  have va := limbVals_of_isBN ia hM
  have vb := limbVals_of_isBN ib hM
  refine ⟨CS.init, a, b, wf, hs, held_of_isBN ia hM, held_of_isBN ib hM, va, vb, ?_⟩
  refine C100_equal_partial ieeeBits (by norm_num) hlo hhi wf hs (held_of_isBN ia hM) (held_of_isBN ib hM) (w := 64) (M := 2 ^ 65 - 3)
    (k := 65) rfl rfl (by norm_num) (by norm_num) rfl rfl hM (by norm_num) (by norm_num) (lt_of_le_of_lt (by norm_num) hlo).le
    (by rw [va, vb]; norm_num [leValue]) (by rw [va]; show _ < (2 ^ 64) ^ 2; norm_num [leValue])

end Kogarashi.Props
