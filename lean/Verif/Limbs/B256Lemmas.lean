import Verif.Limbs.B256

/-!
# What the 256-bit limb operations compute

Carry-chain lemmas: each operation of `Verif.Limbs.B256` is described as an operation on the
integers denoted by the limb arrays.
-/

set_option exponentiation.threshold 1600

namespace Kogarashi.Limbs

theorem L4.Wf.val_lt {a : L4} (h : a.Wf) : a.val < 2^256 := by
  unfold L4.Wf at h; unfold L4.val; omega

theorem L4.val_inj {a b : L4} (ha : a.Wf) (hb : b.Wf) (h : a.val = b.val) : a = b := by
  cases a; cases b
  simp only [L4.Wf, L4.val] at *
  simp only [L4.mk.injEq]
  omega

theorem L8.Wf.val_lt {a : L8} (h : a.Wf) : a.val < 2^512 := by
  unfold L8.Wf at h; unfold L8.val; omega

namespace B256

theorem sub_spec {a b p : L4} (ha : a.Wf) (hb : b.Wf) (hp : p.Wf) :
    (sub a b p).Wf ∧
    (b.val ≤ a.val → (sub a b p).val + b.val = a.val) ∧
    (a.val < b.val → b.val ≤ a.val + p.val → (sub a b p).val + b.val = a.val + p.val) := by
  have hav := ha.val_lt; have hbv := hb.val_lt; have hpv := hp.val_lt
  obtain ⟨ha0, ha1, ha2, ha3⟩ := ha
  obtain ⟨hb0, hb1, hb2, hb3⟩ := hb
  obtain ⟨hp0, hp1, hp2, hp3⟩ := hp
  unfold sub
  extract_lets s_0 l0_0 brw_0 s_1 l1_0 brw_1 s_2 l2_0 brw_2 s_3 l3_0 brw_3 s_4 l0_1 c_0 s_5 l1_1 c_1 s_6 l2_1 c_2 l3_1
  obtain ⟨e0, z0⟩ : l0_0 + b.l0 = a.l0 + 2^64 * (brw_0 / 2^63) ∧ (brw_0 = 0 ∨ brw_0 = 2^64 - 1) :=
    sbb_step0 ha0 hb0
  obtain ⟨e1, z1⟩ : l1_0 + b.l1 + brw_0 / 2^63 = a.l1 + 2^64 * (brw_1 / 2^63) ∧
      (brw_1 = 0 ∨ brw_1 = 2^64 - 1) := sbb_step ha1 hb1 (borrow_bit z0)
  obtain ⟨e2, z2⟩ : l2_0 + b.l2 + brw_1 / 2^63 = a.l2 + 2^64 * (brw_2 / 2^63) ∧
      (brw_2 = 0 ∨ brw_2 = 2^64 - 1) := sbb_step ha2 hb2 (borrow_bit z1)
  obtain ⟨e3, z3⟩ : l3_0 + b.l3 + brw_2 / 2^63 = a.l3 + 2^64 * (brw_3 / 2^63) ∧
      (brw_3 = 0 ∨ brw_3 = 2^64 - 1) := sbb_step ha3 hb3 (borrow_bit z2)
  have t0 : l0_0 < 2^64 := lo_lt _
  have t1 : l1_0 < 2^64 := lo_lt _
  have t2 : l2_0 < 2^64 := lo_lt _
  have t3 : l3_0 < 2^64 := lo_lt _
  have hd : l0_0 + l1_0 * 2^64 + l2_0 * 2^128 + l3_0 * 2^192 + b.val =
      a.val + 2^256 * (brw_3 / 2^63) := by
    clear_value s_0 l0_0 brw_0 s_1 l1_0 brw_1 s_2 l2_0 brw_2 s_3 l3_0 brw_3 s_4 l0_1 c_0 s_5 l1_1 c_1 s_6 l2_1 c_2 l3_1
    unfold L4.val
    linear_combination e0 + 2^64 * e1 + 2^128 * e2 + 2^192 * e3
  have hdl : l0_0 + l1_0 * 2^64 + l2_0 * 2^128 + l3_0 * 2^192 < 2^256 := by
    clear * - t0 t1 t2 t3; omega
  have pm0 : p.l0 &&& brw_3 < 2^64 := lt_of_le_of_lt Nat.and_le_left hp0
  have pm1 : p.l1 &&& brw_3 < 2^64 := lt_of_le_of_lt Nat.and_le_left hp1
  have pm2 : p.l2 &&& brw_3 < 2^64 := lt_of_le_of_lt Nat.and_le_left hp2
  have pm3 : p.l3 &&& brw_3 < 2^64 := lt_of_le_of_lt Nat.and_le_left hp3
  have u0 : l0_1 < 2^64 := lo_lt _
  have v0 : c_0 < 2^64 := hi_lt _
  have f0 : l0_1 + 2^64 * c_0 = l0_0 + (p.l0 &&& brw_3) := split_add t0 pm0
  have u1 : l1_1 < 2^64 := lo_lt _
  have v1 : c_1 < 2^64 := hi_lt _
  have f1 : l1_1 + 2^64 * c_1 = l1_0 + (p.l1 &&& brw_3) + c_0 :=
    split_add_add t1 pm1 v0
  have u2 : l2_1 < 2^64 := lo_lt _
  have v2 : c_2 < 2^64 := hi_lt _
  have f2 : l2_1 + 2^64 * c_2 = l2_0 + (p.l2 &&& brw_3) + c_1 :=
    split_add_add t2 pm2 v1
  have u3 : l3_1 < 2^64 := wadd_lt _ _
  obtain ⟨ct, f3⟩ : ∃ ct, l3_1 + 2^64 * ct = l3_0 + (p.l3 &&& brw_3) + c_2 :=
    ⟨_, wadd3_split _ _ _⟩
  have hw : (L4.mk l0_1 l1_1 l2_1 l3_1).Wf := ⟨u0, u1, u2, u3⟩
  have hwv := hw.val_lt
  have hr : (L4.mk l0_1 l1_1 l2_1 l3_1).val + 2^256 * ct =
      l0_0 + l1_0 * 2^64 + l2_0 * 2^128 + l3_0 * 2^192 +
      ((p.l0 &&& brw_3) + (p.l1 &&& brw_3) * 2^64 + (p.l2 &&& brw_3) * 2^128 + (p.l3 &&& brw_3) * 2^192) := by
    clear_value s_0 l0_0 brw_0 s_1 l1_0 brw_1 s_2 l2_0 brw_2 s_3 l3_0 brw_3 s_4 l0_1 c_0 s_5 l1_1 c_1 s_6 l2_1 c_2 l3_1
    unfold L4.val
    linear_combination f0 + 2^64 * f1 + 2^128 * f2 + 2^192 * f3
  have hm : (brw_3 / 2^63 = 0 ∧
        (p.l0 &&& brw_3) + (p.l1 &&& brw_3) * 2^64 + (p.l2 &&& brw_3) * 2^128 + (p.l3 &&& brw_3) * 2^192 = 0) ∨
      (brw_3 / 2^63 = 1 ∧
        (p.l0 &&& brw_3) + (p.l1 &&& brw_3) * 2^64 + (p.l2 &&& brw_3) * 2^128 + (p.l3 &&& brw_3) * 2^192 = p.val) := by
    clear_value s_0 l0_0 brw_0 s_1 l1_0 brw_1 s_2 l2_0 brw_2 s_3 l3_0 brw_3 s_4 l0_1 c_0 s_5 l1_1 c_1 s_6 l2_1 c_2 l3_1
    rcases z3 with rfl | rfl
    · left; simp
    · right
      simp only [land_ones hp0, land_ones hp1, land_ones hp2, land_ones hp3]
      exact ⟨by norm_num, rfl⟩
  refine ⟨hw, ?_⟩
  clear_value s_0 l0_0 brw_0 s_1 l1_0 brw_1 s_2 l2_0 brw_2 s_3 l3_0 brw_3 s_4 l0_1 c_0 s_5 l1_1 c_1 s_6 l2_1 c_2 l3_1
  generalize (L4.mk l0_1 l1_1 l2_1 l3_1).val = r at *
  generalize l0_0 + l1_0 * 2^64 + l2_0 * 2^128 + l3_0 * 2^192 = d at *
  generalize (p.l0 &&& brw_3) + (p.l1 &&& brw_3) * 2^64 + (p.l2 &&& brw_3) * 2^128 + (p.l3 &&& brw_3) * 2^192 = pm at *
  clear * - hav hbv hpv hd hr hwv hdl hm
  omega

/-- `add` is the limb-wise sum followed by the code of `sub · p p`. -/
theorem add_spec {a b p : L4} (ha : a.Wf) (hb : b.Wf) (h : a.val + b.val < 2^256) :
    ∃ w : L4, w.Wf ∧ w.val = a.val + b.val ∧ add a b p = sub w p p := by
  obtain ⟨ha0, ha1, ha2, ha3⟩ := ha
  obtain ⟨hb0, hb1, hb2, hb3⟩ := hb
  unfold add
  extract_lets s_0 l0_0 c_0 s_1 l1_0 c_1 s_2 l2_0 c_2 l3_0
  have u0 : l0_0 < 2^64 := lo_lt _
  have q_c_0 : c_0 < 2^64 := hi_lt _
  have e0 : l0_0 + 2^64 * c_0 = a.l0 + b.l0 := split_add ha0 hb0
  have u1 : l1_0 < 2^64 := lo_lt _
  have q_c_1 : c_1 < 2^64 := hi_lt _
  have e1 : l1_0 + 2^64 * c_1 = a.l1 + b.l1 + c_0 := split_add_add ha1 hb1 q_c_0
  have u2 : l2_0 < 2^64 := lo_lt _
  have q_c_2 : c_2 < 2^64 := hi_lt _
  have e2 : l2_0 + 2^64 * c_2 = a.l2 + b.l2 + c_1 := split_add_add ha2 hb2 q_c_1
  obtain ⟨ct, e3⟩ : ∃ ct, l3_0 + 2^64 * ct = a.l3 + b.l3 + c_2 := ⟨_, wadd3_split _ _ _⟩
  have u3 : l3_0 < 2^64 := wadd_lt _ _
  refine ⟨⟨l0_0, l1_0, l2_0, l3_0⟩, ⟨u0, u1, u2, u3⟩, ?_, rfl⟩
  have hs : (L4.mk l0_0 l1_0 l2_0 l3_0).val + 2^256 * ct = a.val + b.val := by
    clear_value s_0 l0_0 c_0 s_1 l1_0 c_1 s_2 l2_0 c_2 l3_0
    unfold L4.val
    linear_combination e0 + 2^64 * e1 + 2^128 * e2 + 2^192 * e3
  clear * - h hs
  omega

/-- `double` is the shifted integer followed by the code of `sub · p p`. -/
theorem double_spec {a p : L4} (ha : a.Wf) (h : 2 * a.val < 2^256) :
    ∃ w : L4, w.Wf ∧ w.val = 2 * a.val ∧ double a p = sub w p p := by
  obtain ⟨ha0, ha1, ha2, ha3⟩ := ha
  refine ⟨⟨shl1 a.l0, shl1 a.l1 ||| a.l0 / 2^63, shl1 a.l2 ||| a.l1 / 2^63, shl1 a.l3 ||| a.l2 / 2^63⟩,
    ⟨shl1_lt _, shl1_or_lt ha0, shl1_or_lt ha1, shl1_or_lt ha2⟩, ?_, rfl⟩
  simp only [L4.val, shl1_or ha0, shl1_or ha1, shl1_or ha2] at h ⊢
  have e0 := shl1_spec a.l0
  have e1 := shl1_spec a.l1
  have e2 := shl1_spec a.l2
  have e3 := shl1_spec a.l3
  have t : shl1 a.l0 + (shl1 a.l1 + a.l0 / 2^63) * 2^64 + (shl1 a.l2 + a.l1 / 2^63) * 2^128 + (shl1 a.l3 + a.l2 / 2^63) * 2^192 + 2^256 * (a.l3 / 2^63) =
      2 * (a.l0 + a.l1 * 2^64 + a.l2 * 2^128 + a.l3 * 2^192) := by
    linear_combination e0 + 2^64 * e1 + 2^128 * e2 + 2^192 * e3
  clear * - t h
  generalize a.l3 / 2^63 = k at *
  omega

theorem or_eq_zero_iff {a : L4} : (a.l0 ||| a.l1 ||| a.l2 ||| a.l3) = 0 ↔ a.val = 0 := by
  simp only [Nat.or_eq_zero_iff, L4.val]; omega

theorem neg_spec {a p : L4} (ha : a.Wf) (hp : p.Wf) (h : a.val < p.val) :
    (neg a p).Wf ∧ (a.val = 0 → (neg a p).val = 0) ∧
    (a.val ≠ 0 → (neg a p).val + a.val = p.val) := by
  unfold neg
  split
  · rename_i hz
    have hz := or_eq_zero_iff.1 hz
    exact ⟨ha, fun _ => hz, fun h0 => absurd hz h0⟩
  rename_i hz
  have hz : a.val ≠ 0 := fun e => hz (or_eq_zero_iff.2 e)
  have hav := ha.val_lt; have hpv := hp.val_lt
  obtain ⟨ha0, ha1, ha2, ha3⟩ := ha
  obtain ⟨hp0, hp1, hp2, hp3⟩ := hp
  extract_lets s_0 l0_0 b_0 s_1 l1_0 b_1 s_2 l2_0 b_2 l3_0
  obtain ⟨e0, z0⟩ : l0_0 + a.l0 = p.l0 + 2^64 * (b_0 / 2^63) ∧ (b_0 = 0 ∨ b_0 = 2^64 - 1) :=
    sbb_step0 hp0 ha0
  obtain ⟨e1, z1⟩ : l1_0 + a.l1 + b_0 / 2^63 = p.l1 + 2^64 * (b_1 / 2^63) ∧
      (b_1 = 0 ∨ b_1 = 2^64 - 1) := sbb_step hp1 ha1 (borrow_bit z0)
  obtain ⟨e2, z2⟩ : l2_0 + a.l2 + b_1 / 2^63 = p.l2 + 2^64 * (b_2 / 2^63) ∧
      (b_2 = 0 ∨ b_2 = 2^64 - 1) := sbb_step hp2 ha2 (borrow_bit z1)
  obtain ⟨kk, e3⟩ : ∃ kk, l3_0 + a.l3 + b_2 / 2^63 = p.l3 + 2^64 * kk :=
    wsub3_split hp3 ha3 (borrow_bit z2)
  have u0 : l0_0 < 2^64 := lo_lt _
  have u1 : l1_0 < 2^64 := lo_lt _
  have u2 : l2_0 < 2^64 := lo_lt _
  have u3 : l3_0 < 2^64 := wsub_lt _ _
  have hs : (L4.mk l0_0 l1_0 l2_0 l3_0).val + a.val = p.val + 2^256 * kk := by
    clear_value s_0 l0_0 b_0 s_1 l1_0 b_1 s_2 l2_0 b_2 l3_0
    unfold L4.val
    linear_combination e0 + 2^64 * e1 + 2^128 * e2 + 2^192 * e3
  have hw : (L4.mk l0_0 l1_0 l2_0 l3_0).Wf := ⟨u0, u1, u2, u3⟩
  have hwv := hw.val_lt
  refine ⟨hw, fun h0 => absurd h0 hz, fun _ => ?_⟩
  clear_value s_0 l0_0 b_0 s_1 l1_0 b_1 s_2 l2_0 b_2 l3_0
  generalize (L4.mk l0_0 l1_0 l2_0 l3_0).val = r at *
  clear * - hs hwv h hav hpv
  omega

/-- Montgomery reduction: an input below `p * 2^256` is turned into a word vector `w < 2p` with
`w * 2^256 = input + m * p`, followed by the code of `sub · p p`. -/
theorem mont_spec {a : L8} {p : L4} {inv : Nat} (ha : a.Wf) (hp : p.Wf)
    (hinv : (p.l0 * inv + 1) % 2^64 = 0) (hpb : 2 * p.val ≤ 2^256)
    (h : a.val < p.val * 2^256) :
    ∃ w : L4, ∃ m : Nat, w.Wf ∧ w.val * 2^256 = a.val + m * p.val ∧ w.val < 2 * p.val ∧
      mont a p inv = sub w p p := by
  obtain ⟨ha0, ha1, ha2, ha3, ha4, ha5, ha6, ha7⟩ := ha
  obtain ⟨hp0, hp1, hp2, hp3⟩ := hp
  unfold mont
  extract_lets rhs_0 s_0 d_0 s_1 l1_0 d_1 s_2 l2_0 d_2 s_3 l3_0 d_3 s_4 l4_0 e_0 rhs_1 s_5 d_4 s_6 l2_1 d_5 s_7 l3_1 d_6 s_8 l4_1 d_7 s_9 l5_0 e_1 rhs_2 s_10 d_8 s_11 l3_2 d_9 s_12 l4_2 d_10 s_13 l5_1 d_11 s_14 l6_0 e_2 rhs_3 s_15 d_12 s_16 l4_3 d_13 s_17 l5_2 d_14 s_18 l6_1 d_15 l7_0
  have q_rhs_0 : rhs_0 < 2^64 := wmul_lt _ _
  have q_d_0 : d_0 < 2^64 := hi_lt _
  have E_s_0 : 2^64 * d_0 = rhs_0 * p.l0 + a.l0 := mont_low ha0 hp0 hinv
  have q_l1_0 : l1_0 < 2^64 := lo_lt _
  have q_d_1 : d_1 < 2^64 := hi_lt _
  have E_s_1 : l1_0 + 2^64 * d_1 = a.l1 + rhs_0 * p.l1 + d_0 := split_add_mul_add ha1 q_rhs_0 hp1 q_d_0
  have q_l2_0 : l2_0 < 2^64 := lo_lt _
  have q_d_2 : d_2 < 2^64 := hi_lt _
  have E_s_2 : l2_0 + 2^64 * d_2 = a.l2 + rhs_0 * p.l2 + d_1 := split_add_mul_add ha2 q_rhs_0 hp2 q_d_1
  have q_l3_0 : l3_0 < 2^64 := lo_lt _
  have q_d_3 : d_3 < 2^64 := hi_lt _
  have E_s_3 : l3_0 + 2^64 * d_3 = a.l3 + rhs_0 * p.l3 + d_2 := split_add_mul_add ha3 q_rhs_0 hp3 q_d_2
  have q_l4_0 : l4_0 < 2^64 := lo_lt _
  have q_e_0 : e_0 < 2^64 := hi_lt _
  have E_s_4 : l4_0 + 2^64 * e_0 = a.l4 + d_3 := split_add ha4 q_d_3
  have q_rhs_1 : rhs_1 < 2^64 := wmul_lt _ _
  have q_d_4 : d_4 < 2^64 := hi_lt _
  have E_s_5 : 2^64 * d_4 = rhs_1 * p.l0 + l1_0 := mont_low q_l1_0 hp0 hinv
  have q_l2_1 : l2_1 < 2^64 := lo_lt _
  have q_d_5 : d_5 < 2^64 := hi_lt _
  have E_s_6 : l2_1 + 2^64 * d_5 = l2_0 + rhs_1 * p.l1 + d_4 := split_add_mul_add q_l2_0 q_rhs_1 hp1 q_d_4
  have q_l3_1 : l3_1 < 2^64 := lo_lt _
  have q_d_6 : d_6 < 2^64 := hi_lt _
  have E_s_7 : l3_1 + 2^64 * d_6 = l3_0 + rhs_1 * p.l2 + d_5 := split_add_mul_add q_l3_0 q_rhs_1 hp2 q_d_5
  have q_l4_1 : l4_1 < 2^64 := lo_lt _
  have q_d_7 : d_7 < 2^64 := hi_lt _
  have E_s_8 : l4_1 + 2^64 * d_7 = l4_0 + rhs_1 * p.l3 + d_6 := split_add_mul_add q_l4_0 q_rhs_1 hp3 q_d_6
  have q_l5_0 : l5_0 < 2^64 := lo_lt _
  have q_e_1 : e_1 < 2^64 := hi_lt _
  have E_s_9 : l5_0 + 2^64 * e_1 = a.l5 + e_0 + d_7 := split_add_add ha5 q_e_0 q_d_7
  have q_rhs_2 : rhs_2 < 2^64 := wmul_lt _ _
  have q_d_8 : d_8 < 2^64 := hi_lt _
  have E_s_10 : 2^64 * d_8 = rhs_2 * p.l0 + l2_1 := mont_low q_l2_1 hp0 hinv
  have q_l3_2 : l3_2 < 2^64 := lo_lt _
  have q_d_9 : d_9 < 2^64 := hi_lt _
  have E_s_11 : l3_2 + 2^64 * d_9 = l3_1 + rhs_2 * p.l1 + d_8 := split_add_mul_add q_l3_1 q_rhs_2 hp1 q_d_8
  have q_l4_2 : l4_2 < 2^64 := lo_lt _
  have q_d_10 : d_10 < 2^64 := hi_lt _
  have E_s_12 : l4_2 + 2^64 * d_10 = l4_1 + rhs_2 * p.l2 + d_9 := split_add_mul_add q_l4_1 q_rhs_2 hp2 q_d_9
  have q_l5_1 : l5_1 < 2^64 := lo_lt _
  have q_d_11 : d_11 < 2^64 := hi_lt _
  have E_s_13 : l5_1 + 2^64 * d_11 = l5_0 + rhs_2 * p.l3 + d_10 := split_add_mul_add q_l5_0 q_rhs_2 hp3 q_d_10
  have q_l6_0 : l6_0 < 2^64 := lo_lt _
  have q_e_2 : e_2 < 2^64 := hi_lt _
  have E_s_14 : l6_0 + 2^64 * e_2 = a.l6 + e_1 + d_11 := split_add_add ha6 q_e_1 q_d_11
  have q_rhs_3 : rhs_3 < 2^64 := wmul_lt _ _
  have q_d_12 : d_12 < 2^64 := hi_lt _
  have E_s_15 : 2^64 * d_12 = rhs_3 * p.l0 + l3_2 := mont_low q_l3_2 hp0 hinv
  have q_l4_3 : l4_3 < 2^64 := lo_lt _
  have q_d_13 : d_13 < 2^64 := hi_lt _
  have E_s_16 : l4_3 + 2^64 * d_13 = l4_2 + rhs_3 * p.l1 + d_12 := split_add_mul_add q_l4_2 q_rhs_3 hp1 q_d_12
  have q_l5_2 : l5_2 < 2^64 := lo_lt _
  have q_d_14 : d_14 < 2^64 := hi_lt _
  have E_s_17 : l5_2 + 2^64 * d_14 = l5_1 + rhs_3 * p.l2 + d_13 := split_add_mul_add q_l5_1 q_rhs_3 hp2 q_d_13
  have q_l6_1 : l6_1 < 2^64 := lo_lt _
  have q_d_15 : d_15 < 2^64 := hi_lt _
  have E_s_18 : l6_1 + 2^64 * d_15 = l6_0 + rhs_3 * p.l3 + d_14 := split_add_mul_add q_l6_0 q_rhs_3 hp3 q_d_14
  obtain ⟨ct, E_top⟩ : ∃ ct, l7_0 + 2^64 * ct = a.l7 + e_2 + d_15 := ⟨_, wadd3_split _ _ _⟩
  have q_l7_0 : l7_0 < 2^64 := wadd_lt _ _
  have hm : rhs_0 + rhs_1 * 2^64 + rhs_2 * 2^128 + rhs_3 * 2^192 < 2^256 := by
    clear_value rhs_0 s_0 d_0 s_1 l1_0 d_1 s_2 l2_0 d_2 s_3 l3_0 d_3 s_4 l4_0 e_0 rhs_1 s_5 d_4 s_6 l2_1 d_5 s_7 l3_1 d_6 s_8 l4_1 d_7 s_9 l5_0 e_1 rhs_2 s_10 d_8 s_11 l3_2 d_9 s_12 l4_2 d_10 s_13 l5_1 d_11 s_14 l6_0 e_2 rhs_3 s_15 d_12 s_16 l4_3 d_13 s_17 l5_2 d_14 s_18 l6_1 d_15 l7_0
    clear * - q_rhs_0 q_rhs_1 q_rhs_2 q_rhs_3; omega
  have hw : (L4.mk l4_3 l5_2 l6_1 l7_0).Wf := ⟨q_l4_3, q_l5_2, q_l6_1, q_l7_0⟩
  have hs : ((L4.mk l4_3 l5_2 l6_1 l7_0).val + 2^256 * ct) * 2^256 =
      a.val + (rhs_0 + rhs_1 * 2^64 + rhs_2 * 2^128 + rhs_3 * 2^192) * p.val := by
    clear_value rhs_0 s_0 d_0 s_1 l1_0 d_1 s_2 l2_0 d_2 s_3 l3_0 d_3 s_4 l4_0 e_0 rhs_1 s_5 d_4 s_6 l2_1 d_5 s_7 l3_1 d_6 s_8 l4_1 d_7 s_9 l5_0 e_1 rhs_2 s_10 d_8 s_11 l3_2 d_9 s_12 l4_2 d_10 s_13 l5_1 d_11 s_14 l6_0 e_2 rhs_3 s_15 d_12 s_16 l4_3 d_13 s_17 l5_2 d_14 s_18 l6_1 d_15 l7_0
    unfold L4.val L8.val
    linear_combination 2^0 * E_s_0 + 2^64 * E_s_1 + 2^128 * E_s_2 + 2^192 * E_s_3 + 2^256 * E_s_4 + 2^64 * E_s_5 + 2^128 * E_s_6 + 2^192 * E_s_7 + 2^256 * E_s_8 + 2^320 * E_s_9 + 2^128 * E_s_10 + 2^192 * E_s_11 + 2^256 * E_s_12 + 2^320 * E_s_13 + 2^384 * E_s_14 + 2^192 * E_s_15 + 2^256 * E_s_16 + 2^320 * E_s_17 + 2^384 * E_s_18 + 2^448 * E_top
  have hpp : 0 < p.val := by
    rcases Nat.eq_zero_or_pos p.val with h0 | h0
    · rw [h0] at h; omega
    · exact h0
  have hmp : (rhs_0 + rhs_1 * 2^64 + rhs_2 * 2^128 + rhs_3 * 2^192) * p.val < 2^256 * p.val := Nat.mul_lt_mul_of_pos_right hm hpp
  have hlt : (L4.mk l4_3 l5_2 l6_1 l7_0).val + 2^256 * ct < 2 * p.val := by
    clear_value rhs_0 s_0 d_0 s_1 l1_0 d_1 s_2 l2_0 d_2 s_3 l3_0 d_3 s_4 l4_0 e_0 rhs_1 s_5 d_4 s_6 l2_1 d_5 s_7 l3_1 d_6 s_8 l4_1 d_7 s_9 l5_0 e_1 rhs_2 s_10 d_8 s_11 l3_2 d_9 s_12 l4_2 d_10 s_13 l5_1 d_11 s_14 l6_0 e_2 rhs_3 s_15 d_12 s_16 l4_3 d_13 s_17 l5_2 d_14 s_18 l6_1 d_15 l7_0
    generalize (L4.mk l4_3 l5_2 l6_1 l7_0).val = r at *
    generalize (rhs_0 + rhs_1 * 2^64 + rhs_2 * 2^128 + rhs_3 * 2^192) * p.val = mp at *
    clear * - hs hmp h; omega
  have hct : ct = 0 := by
    clear_value rhs_0 s_0 d_0 s_1 l1_0 d_1 s_2 l2_0 d_2 s_3 l3_0 d_3 s_4 l4_0 e_0 rhs_1 s_5 d_4 s_6 l2_1 d_5 s_7 l3_1 d_6 s_8 l4_1 d_7 s_9 l5_0 e_1 rhs_2 s_10 d_8 s_11 l3_2 d_9 s_12 l4_2 d_10 s_13 l5_1 d_11 s_14 l6_0 e_2 rhs_3 s_15 d_12 s_16 l4_3 d_13 s_17 l5_2 d_14 s_18 l6_1 d_15 l7_0
    generalize (L4.mk l4_3 l5_2 l6_1 l7_0).val = r at *
    clear * - hlt hpb; omega
  rw [hct, Nat.mul_zero, Nat.add_zero] at hs hlt
  exact ⟨⟨l4_3, l5_2, l6_1, l7_0⟩, rhs_0 + rhs_1 * 2^64 + rhs_2 * 2^128 + rhs_3 * 2^192, hw, hs, hlt, rfl⟩

theorem mul_wide {a b : L4} (p : L4) (inv : Nat) (ha : a.Wf) (hb : b.Wf) :
    ∃ w : L8, w.Wf ∧ w.val = a.val * b.val ∧ mul a b p inv = mont w p inv := by
  obtain ⟨ha0, ha1, ha2, ha3⟩ := ha
  obtain ⟨hb0, hb1, hb2, hb3⟩ := hb
  unfold mul
  extract_lets s_0 l0_0 c_0 s_1 l1_0 c_1 s_2 l2_0 c_2 s_3 l3_0 l4_0 s_4 l1_1 c_3 s_5 l2_1 c_4 s_6 l3_1 c_5 s_7 l4_1 l5_0 s_8 l2_2 c_6 s_9 l3_2 c_7 s_10 l4_2 c_8 s_11 l5_1 l6_0 s_12 l3_3 c_9 s_13 l4_3 c_10 s_14 l5_2 c_11 s_15 l6_1 l7_0
  have q_l0_0 : l0_0 < 2^64 := lo_lt _
  have q_c_0 : c_0 < 2^64 := hi_lt _
  have E_s_0 : l0_0 + 2^64 * c_0 = a.l0 * b.l0 := split_mul ha0 hb0
  have q_l1_0 : l1_0 < 2^64 := lo_lt _
  have q_c_1 : c_1 < 2^64 := hi_lt _
  have E_s_1 : l1_0 + 2^64 * c_1 = a.l0 * b.l1 + c_0 := split_mul_add ha0 hb1 q_c_0
  have q_l2_0 : l2_0 < 2^64 := lo_lt _
  have q_c_2 : c_2 < 2^64 := hi_lt _
  have E_s_2 : l2_0 + 2^64 * c_2 = a.l0 * b.l2 + c_1 := split_mul_add ha0 hb2 q_c_1
  have q_l3_0 : l3_0 < 2^64 := lo_lt _
  have q_l4_0 : l4_0 < 2^64 := hi_lt _
  have E_s_3 : l3_0 + 2^64 * l4_0 = a.l0 * b.l3 + c_2 := split_mul_add ha0 hb3 q_c_2
  have q_l1_1 : l1_1 < 2^64 := lo_lt _
  have q_c_3 : c_3 < 2^64 := hi_lt _
  have E_s_4 : l1_1 + 2^64 * c_3 = a.l1 * b.l0 + l1_0 := split_mul_add ha1 hb0 q_l1_0
  have q_l2_1 : l2_1 < 2^64 := lo_lt _
  have q_c_4 : c_4 < 2^64 := hi_lt _
  have E_s_5 : l2_1 + 2^64 * c_4 = l2_0 + a.l1 * b.l1 + c_3 := split_add_mul_add q_l2_0 ha1 hb1 q_c_3
  have q_l3_1 : l3_1 < 2^64 := lo_lt _
  have q_c_5 : c_5 < 2^64 := hi_lt _
  have E_s_6 : l3_1 + 2^64 * c_5 = l3_0 + a.l1 * b.l2 + c_4 := split_add_mul_add q_l3_0 ha1 hb2 q_c_4
  have q_l4_1 : l4_1 < 2^64 := lo_lt _
  have q_l5_0 : l5_0 < 2^64 := hi_lt _
  have E_s_7 : l4_1 + 2^64 * l5_0 = l4_0 + a.l1 * b.l3 + c_5 := split_add_mul_add q_l4_0 ha1 hb3 q_c_5
  have q_l2_2 : l2_2 < 2^64 := lo_lt _
  have q_c_6 : c_6 < 2^64 := hi_lt _
  have E_s_8 : l2_2 + 2^64 * c_6 = a.l2 * b.l0 + l2_1 := split_mul_add ha2 hb0 q_l2_1
  have q_l3_2 : l3_2 < 2^64 := lo_lt _
  have q_c_7 : c_7 < 2^64 := hi_lt _
  have E_s_9 : l3_2 + 2^64 * c_7 = l3_1 + a.l2 * b.l1 + c_6 := split_add_mul_add q_l3_1 ha2 hb1 q_c_6
  have q_l4_2 : l4_2 < 2^64 := lo_lt _
  have q_c_8 : c_8 < 2^64 := hi_lt _
  have E_s_10 : l4_2 + 2^64 * c_8 = l4_1 + a.l2 * b.l2 + c_7 := split_add_mul_add q_l4_1 ha2 hb2 q_c_7
  have q_l5_1 : l5_1 < 2^64 := lo_lt _
  have q_l6_0 : l6_0 < 2^64 := hi_lt _
  have E_s_11 : l5_1 + 2^64 * l6_0 = l5_0 + a.l2 * b.l3 + c_8 := split_add_mul_add q_l5_0 ha2 hb3 q_c_8
  have q_l3_3 : l3_3 < 2^64 := lo_lt _
  have q_c_9 : c_9 < 2^64 := hi_lt _
  have E_s_12 : l3_3 + 2^64 * c_9 = a.l3 * b.l0 + l3_2 := split_mul_add ha3 hb0 q_l3_2
  have q_l4_3 : l4_3 < 2^64 := lo_lt _
  have q_c_10 : c_10 < 2^64 := hi_lt _
  have E_s_13 : l4_3 + 2^64 * c_10 = l4_2 + a.l3 * b.l1 + c_9 := split_add_mul_add q_l4_2 ha3 hb1 q_c_9
  have q_l5_2 : l5_2 < 2^64 := lo_lt _
  have q_c_11 : c_11 < 2^64 := hi_lt _
  have E_s_14 : l5_2 + 2^64 * c_11 = l5_1 + a.l3 * b.l2 + c_10 := split_add_mul_add q_l5_1 ha3 hb2 q_c_10
  have q_l6_1 : l6_1 < 2^64 := lo_lt _
  have q_l7_0 : l7_0 < 2^64 := hi_lt _
  have E_s_15 : l6_1 + 2^64 * l7_0 = l6_0 + a.l3 * b.l3 + c_11 := split_add_mul_add q_l6_0 ha3 hb3 q_c_11
  refine ⟨⟨l0_0, l1_1, l2_2, l3_3, l4_3, l5_2, l6_1, l7_0⟩, ⟨q_l0_0, q_l1_1, q_l2_2, q_l3_3, q_l4_3, q_l5_2, q_l6_1, q_l7_0⟩, ?_, rfl⟩
  clear_value s_0 l0_0 c_0 s_1 l1_0 c_1 s_2 l2_0 c_2 s_3 l3_0 l4_0 s_4 l1_1 c_3 s_5 l2_1 c_4 s_6 l3_1 c_5 s_7 l4_1 l5_0 s_8 l2_2 c_6 s_9 l3_2 c_7 s_10 l4_2 c_8 s_11 l5_1 l6_0 s_12 l3_3 c_9 s_13 l4_3 c_10 s_14 l5_2 c_11 s_15 l6_1 l7_0
  unfold L4.val L8.val
  linear_combination 2^0 * E_s_0 + 2^64 * E_s_1 + 2^128 * E_s_2 + 2^192 * E_s_3 + 2^64 * E_s_4 + 2^128 * E_s_5 + 2^192 * E_s_6 + 2^256 * E_s_7 + 2^128 * E_s_8 + 2^192 * E_s_9 + 2^256 * E_s_10 + 2^320 * E_s_11 + 2^192 * E_s_12 + 2^256 * E_s_13 + 2^320 * E_s_14 + 2^384 * E_s_15

/-- `square` builds a double-width integer that is `a^2` minus the carries it drops, then calls `mont`. -/
theorem square_wide {a : L4} (p : L4) (inv : Nat) (ha : a.Wf) :
    ∃ w : L8, ∃ k5 : Nat, w.Wf ∧ w.val + (2^385 * k5) = a.val * a.val ∧
      square a p inv = mont w p inv ∧
      (a.l0 * a.l1 * 2^64 + a.l0 * a.l2 * 2^128 + (a.l0 * a.l3 + a.l1 * a.l2) * 2^192 +
          a.l1 * a.l3 * 2^256 + a.l2 * a.l3 * 2^320) / 2^384 =
        (a.l0 * a.l1 * 2^64 + a.l0 * a.l2 * 2^128 + a.l0 * a.l3 * 2^192 +
          a.l1 * a.l3 * 2^256 + a.l2 * a.l3 * 2^320) / 2^384 + k5 := by
  have hav := ha.val_lt
  obtain ⟨ha0, ha1, ha2, ha3⟩ := ha
  unfold square
  extract_lets s_0 l1_0 c_0 s_1 l2_0 c_1 s_2 l3_0 c_2 s_3 l4_0 c_3 s_4 l5_0 l6_0 s_5 l3_1 c_4 s_6 l4_1 c_5 l5_1 l7_0 l6_1 l5_2 l4_2 l3_2 l2_1 l1_1 s_7 l0_0 c_6 s_8 l1_2 c_7 s_9 l2_2 c_8 s_10 l3_3 c_9 s_11 l4_3 c_10 s_12 l5_3 c_11 s_13 l6_2 c_12 l7_1
  have q_l1_0 : l1_0 < 2^64 := lo_lt _
  have q_c_0 : c_0 < 2^64 := hi_lt _
  have E_s_0 : l1_0 + 2^64 * c_0 = a.l1 * a.l0 := split_mul ha1 ha0
  have q_l2_0 : l2_0 < 2^64 := lo_lt _
  have q_c_1 : c_1 < 2^64 := hi_lt _
  have E_s_1 : l2_0 + 2^64 * c_1 = a.l2 * a.l0 + c_0 := split_mul_add ha2 ha0 q_c_0
  have q_l3_0 : l3_0 < 2^64 := lo_lt _
  have q_c_2 : c_2 < 2^64 := hi_lt _
  have E_s_2 : l3_0 + 2^64 * c_2 = a.l3 * a.l0 + c_1 := split_mul_add ha3 ha0 q_c_1
  have q_l4_0 : l4_0 < 2^64 := lo_lt _
  have q_c_3 : c_3 < 2^64 := hi_lt _
  have E_s_3 : l4_0 + 2^64 * c_3 = a.l1 * a.l3 + c_2 := split_mul_add ha1 ha3 q_c_2
  have q_l5_0 : l5_0 < 2^64 := lo_lt _
  have q_l6_0 : l6_0 < 2^64 := hi_lt _
  have E_s_4 : l5_0 + 2^64 * l6_0 = a.l2 * a.l3 + c_3 := split_mul_add ha2 ha3 q_c_3
  have q_l3_1 : l3_1 < 2^64 := lo_lt _
  have q_c_4 : c_4 < 2^64 := hi_lt _
  have E_s_5 : l3_1 + 2^64 * c_4 = a.l1 * a.l2 + l3_0 := split_mul_add ha1 ha2 q_l3_0
  have q_l4_1 : l4_1 < 2^64 := lo_lt _
  have q_c_5 : c_5 < 2^64 := hi_lt _
  have E_s_6 : l4_1 + 2^64 * c_5 = l4_0 + c_4 := split_add q_l4_0 q_c_4
  obtain ⟨k5, hk5, E_l5_1⟩ : ∃ k, k = (l5_0 + c_5) / 2^64 ∧ l5_1 + 2^64 * k = l5_0 + c_5 := ⟨_, rfl, wadd_split _ _⟩
  have q_l5_1 : l5_1 < 2^64 := wadd_lt _ _
  have q_l7_0 : l7_0 < 2^64 := lt_of_le_of_lt (Nat.div_le_self _ _) q_l6_0
  have E_l7_0 : l7_0 = l6_0 / 2^63 := rfl
  have q_l6_1 : l6_1 < 2^64 := shl1_or_lt q_l5_1
  have E_l6_1 : l6_1 + 2^64 * (l6_0 / 2^63) = 2 * l6_0 + l5_1 / 2^63 := by
    have h1 : l6_1 = shl1 l6_0 + l5_1 / 2^63 := shl1_or q_l5_1
    have h2 := shl1_spec l6_0
    rw [h1]; linear_combination h2
  have q_l5_2 : l5_2 < 2^64 := shl1_or_lt q_l4_1
  have E_l5_2 : l5_2 + 2^64 * (l5_1 / 2^63) = 2 * l5_1 + l4_1 / 2^63 := by
    have h1 : l5_2 = shl1 l5_1 + l4_1 / 2^63 := shl1_or q_l4_1
    have h2 := shl1_spec l5_1
    rw [h1]; linear_combination h2
  have q_l4_2 : l4_2 < 2^64 := shl1_or_lt q_l3_1
  have E_l4_2 : l4_2 + 2^64 * (l4_1 / 2^63) = 2 * l4_1 + l3_1 / 2^63 := by
    have h1 : l4_2 = shl1 l4_1 + l3_1 / 2^63 := shl1_or q_l3_1
    have h2 := shl1_spec l4_1
    rw [h1]; linear_combination h2
  have q_l3_2 : l3_2 < 2^64 := shl1_or_lt q_l2_0
  have E_l3_2 : l3_2 + 2^64 * (l3_1 / 2^63) = 2 * l3_1 + l2_0 / 2^63 := by
    have h1 : l3_2 = shl1 l3_1 + l2_0 / 2^63 := shl1_or q_l2_0
    have h2 := shl1_spec l3_1
    rw [h1]; linear_combination h2
  have q_l2_1 : l2_1 < 2^64 := shl1_or_lt q_l1_0
  have E_l2_1 : l2_1 + 2^64 * (l2_0 / 2^63) = 2 * l2_0 + l1_0 / 2^63 := by
    have h1 : l2_1 = shl1 l2_0 + l1_0 / 2^63 := shl1_or q_l1_0
    have h2 := shl1_spec l2_0
    rw [h1]; linear_combination h2
  have q_l1_1 : l1_1 < 2^64 := shl1_lt _
  have E_l1_1 : l1_1 + 2^64 * (l1_0 / 2^63) = 2 * l1_0 := shl1_spec _
  have q_l0_0 : l0_0 < 2^64 := lo_lt _
  have q_c_6 : c_6 < 2^64 := hi_lt _
  have E_s_7 : l0_0 + 2^64 * c_6 = a.l0 * a.l0 := split_mul ha0 ha0
  have q_l1_2 : l1_2 < 2^64 := lo_lt _
  have q_c_7 : c_7 < 2^64 := hi_lt _
  have E_s_8 : l1_2 + 2^64 * c_7 = l1_1 + c_6 := split_add q_l1_1 q_c_6
  have q_l2_2 : l2_2 < 2^64 := lo_lt _
  have q_c_8 : c_8 < 2^64 := hi_lt _
  have E_s_9 : l2_2 + 2^64 * c_8 = l2_1 + a.l1 * a.l1 + c_7 := split_add_mul_add q_l2_1 ha1 ha1 q_c_7
  have q_l3_3 : l3_3 < 2^64 := lo_lt _
  have q_c_9 : c_9 < 2^64 := hi_lt _
  have E_s_10 : l3_3 + 2^64 * c_9 = l3_2 + c_8 := split_add q_l3_2 q_c_8
  have q_l4_3 : l4_3 < 2^64 := lo_lt _
  have q_c_10 : c_10 < 2^64 := hi_lt _
  have E_s_11 : l4_3 + 2^64 * c_10 = l4_2 + a.l2 * a.l2 + c_9 := split_add_mul_add q_l4_2 ha2 ha2 q_c_9
  have q_l5_3 : l5_3 < 2^64 := lo_lt _
  have q_c_11 : c_11 < 2^64 := hi_lt _
  have E_s_12 : l5_3 + 2^64 * c_11 = l5_2 + c_10 := split_add q_l5_2 q_c_10
  have q_l6_2 : l6_2 < 2^64 := lo_lt _
  have q_c_12 : c_12 < 2^64 := hi_lt _
  have E_s_13 : l6_2 + 2^64 * c_12 = l6_1 + a.l3 * a.l3 + c_11 := split_add_mul_add q_l6_1 ha3 ha3 q_c_11
  obtain ⟨ct, E_l7_1⟩ : ∃ ct, l7_1 + 2^64 * ct = l7_0 + c_12 := ⟨_, wadd_split _ _⟩
  have q_l7_1 : l7_1 < 2^64 := wadd_lt _ _
  have hw : (L8.mk l0_0 l1_2 l2_2 l3_3 l4_3 l5_3 l6_2 l7_1).Wf := ⟨q_l0_0, q_l1_2, q_l2_2, q_l3_3, q_l4_3, q_l5_3, q_l6_2, q_l7_1⟩
  have hs : (L8.mk l0_0 l1_2 l2_2 l3_3 l4_3 l5_3 l6_2 l7_1).val + 2^512 * ct + (2^385 * k5) = a.val * a.val := by
    clear_value s_0 l1_0 c_0 s_1 l2_0 c_1 s_2 l3_0 c_2 s_3 l4_0 c_3 s_4 l5_0 l6_0 s_5 l3_1 c_4 s_6 l4_1 c_5 l5_1 l7_0 l6_1 l5_2 l4_2 l3_2 l2_1 l1_1 s_7 l0_0 c_6 s_8 l1_2 c_7 s_9 l2_2 c_8 s_10 l3_3 c_9 s_11 l4_3 c_10 s_12 l5_3 c_11 s_13 l6_2 c_12 l7_1
    unfold L4.val L8.val
    linear_combination 2 * 2^64 * E_s_0 + 2 * 2^128 * E_s_1 + 2 * 2^192 * E_s_2 + 2 * 2^256 * E_s_3 + 2 * 2^320 * E_s_4 + 2 * 2^192 * E_s_5 + 2 * 2^256 * E_s_6 + 2 * 2^320 * E_l5_1 + 1 * 2^448 * E_l7_0 + 1 * 2^384 * E_l6_1 + 1 * 2^320 * E_l5_2 + 1 * 2^256 * E_l4_2 + 1 * 2^192 * E_l3_2 + 1 * 2^128 * E_l2_1 + 1 * 2^64 * E_l1_1 + 1 * 2^0 * E_s_7 + 1 * 2^64 * E_s_8 + 1 * 2^128 * E_s_9 + 1 * 2^192 * E_s_10 + 1 * 2^256 * E_s_11 + 1 * 2^320 * E_s_12 + 1 * 2^384 * E_s_13 + 1 * 2^448 * E_l7_1
  have hct : ct = 0 := by
    have h2 : a.val * a.val < 2^256 * 2^256 := Nat.mul_lt_mul'' hav hav
    clear_value s_0 l1_0 c_0 s_1 l2_0 c_1 s_2 l3_0 c_2 s_3 l4_0 c_3 s_4 l5_0 l6_0 s_5 l3_1 c_4 s_6 l4_1 c_5 l5_1 l7_0 l6_1 l5_2 l4_2 l3_2 l2_1 l1_1 s_7 l0_0 c_6 s_8 l1_2 c_7 s_9 l2_2 c_8 s_10 l3_3 c_9 s_11 l4_3 c_10 s_12 l5_3 c_11 s_13 l6_2 c_12 l7_1
    generalize (L8.mk l0_0 l1_2 l2_2 l3_3 l4_3 l5_3 l6_2 l7_1).val = r at *
    generalize a.val * a.val = aa at *
    clear * - hs h2; omega
  rw [hct, Nat.mul_zero, Nat.add_zero] at hs
  refine ⟨⟨l0_0, l1_2, l2_2, l3_3, l4_3, l5_3, l6_2, l7_1⟩, k5, hw, hs, rfl, ?_⟩
  clear_value s_0 l1_0 c_0 s_1 l2_0 c_1 s_2 l3_0 c_2 s_3 l4_0 c_3 s_4 l5_0 l6_0 s_5 l3_1 c_4 s_6 l4_1 c_5 l5_1 l7_0 l6_1 l5_2 l4_2 l3_2 l2_1 l1_1 s_7 l0_0 c_6 s_8 l1_2 c_7 s_9 l2_2 c_8 s_10 l3_3 c_9 s_11 l4_3 c_10 s_12 l5_3 c_11 s_13 l6_2 c_12 l7_1
  have h1 : l1_0 * 2^64 + l2_0 * 2^128 + l3_0 * 2^192 + l4_0 * 2^256 + l5_0 * 2^320 + 2^384 * l6_0 =
      a.l0 * a.l1 * 2^64 + a.l0 * a.l2 * 2^128 + a.l0 * a.l3 * 2^192 +
          a.l1 * a.l3 * 2^256 + a.l2 * a.l3 * 2^320 := by
    linear_combination 2^64 * E_s_0 + 2^128 * E_s_1 + 2^192 * E_s_2 + 2^256 * E_s_3 + 2^320 * E_s_4
  have h2 : l1_0 * 2^64 + l2_0 * 2^128 + l3_1 * 2^192 + l4_1 * 2^256 + l5_1 * 2^320 + 2^384 * (l6_0 + k5) =
      a.l0 * a.l1 * 2^64 + a.l0 * a.l2 * 2^128 + (a.l0 * a.l3 + a.l1 * a.l2) * 2^192 +
          a.l1 * a.l3 * 2^256 + a.l2 * a.l3 * 2^320 := by
    linear_combination h1 + 2^192 * E_s_5 + 2^256 * E_s_6 + 2^320 * E_l5_1
  rw [← h1, ← h2]
  clear * - q_l1_0 q_l2_0 q_l3_0 q_l4_0 q_l5_0 q_l3_1 q_l4_1 q_l5_1
  omega

end B256
end Kogarashi.Limbs
