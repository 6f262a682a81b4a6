import Verif.Limbs.B384

/-!
# What the 384-bit limb operations compute

Carry-chain lemmas: each operation of `Verif.Limbs.B384` is described as an operation on the
integers denoted by the limb arrays.
-/

set_option exponentiation.threshold 1600

namespace Kogarashi.Limbs

theorem L6.Wf.val_lt {a : L6} (h : a.Wf) : a.val < 2^384 := by
  unfold L6.Wf at h; unfold L6.val; omega

theorem L6.val_inj {a b : L6} (ha : a.Wf) (hb : b.Wf) (h : a.val = b.val) : a = b := by
  cases a; cases b
  simp only [L6.Wf, L6.val] at *
  simp only [L6.mk.injEq]
  omega

theorem L12.val_inj {a b : L12} (ha : a.Wf) (hb : b.Wf) (h : a.val = b.val) : a = b := by
  cases a; cases b
  simp only [L12.Wf, L12.val, L12.mk.injEq] at *
  omega

theorem L12.Wf.val_lt {a : L12} (h : a.Wf) : a.val < 2^768 := by
  unfold L12.Wf at h; unfold L12.val; omega

namespace B384

theorem sub_spec {a b p : L6} (ha : a.Wf) (hb : b.Wf) (hp : p.Wf) :
    (sub a b p).Wf ∧
    (b.val ≤ a.val → (sub a b p).val + b.val = a.val) ∧
    (a.val < b.val → b.val ≤ a.val + p.val → (sub a b p).val + b.val = a.val + p.val) := by
  have hav := ha.val_lt; have hbv := hb.val_lt; have hpv := hp.val_lt
  obtain ⟨ha0, ha1, ha2, ha3, ha4, ha5⟩ := ha
  obtain ⟨hb0, hb1, hb2, hb3, hb4, hb5⟩ := hb
  obtain ⟨hp0, hp1, hp2, hp3, hp4, hp5⟩ := hp
  unfold sub
  extract_lets s_0 l0_0 brw_0 s_1 l1_0 brw_1 s_2 l2_0 brw_2 s_3 l3_0 brw_3 s_4 l4_0 brw_4 s_5 l5_0 brw_5 s_6 l0_1 c_0 s_7 l1_1 c_1 s_8 l2_1 c_2 s_9 l3_1 c_3 s_10 l4_1 c_4 l5_1
  obtain ⟨e0, z0⟩ : l0_0 + b.l0 = a.l0 + 2^64 * (brw_0 / 2^63) ∧ (brw_0 = 0 ∨ brw_0 = 2^64 - 1) :=
    sbb_step0 ha0 hb0
  obtain ⟨e1, z1⟩ : l1_0 + b.l1 + brw_0 / 2^63 = a.l1 + 2^64 * (brw_1 / 2^63) ∧
      (brw_1 = 0 ∨ brw_1 = 2^64 - 1) := sbb_step ha1 hb1 (borrow_bit z0)
  obtain ⟨e2, z2⟩ : l2_0 + b.l2 + brw_1 / 2^63 = a.l2 + 2^64 * (brw_2 / 2^63) ∧
      (brw_2 = 0 ∨ brw_2 = 2^64 - 1) := sbb_step ha2 hb2 (borrow_bit z1)
  obtain ⟨e3, z3⟩ : l3_0 + b.l3 + brw_2 / 2^63 = a.l3 + 2^64 * (brw_3 / 2^63) ∧
      (brw_3 = 0 ∨ brw_3 = 2^64 - 1) := sbb_step ha3 hb3 (borrow_bit z2)
  obtain ⟨e4, z4⟩ : l4_0 + b.l4 + brw_3 / 2^63 = a.l4 + 2^64 * (brw_4 / 2^63) ∧
      (brw_4 = 0 ∨ brw_4 = 2^64 - 1) := sbb_step ha4 hb4 (borrow_bit z3)
  obtain ⟨e5, z5⟩ : l5_0 + b.l5 + brw_4 / 2^63 = a.l5 + 2^64 * (brw_5 / 2^63) ∧
      (brw_5 = 0 ∨ brw_5 = 2^64 - 1) := sbb_step ha5 hb5 (borrow_bit z4)
  have t0 : l0_0 < 2^64 := lo_lt _
  have t1 : l1_0 < 2^64 := lo_lt _
  have t2 : l2_0 < 2^64 := lo_lt _
  have t3 : l3_0 < 2^64 := lo_lt _
  have t4 : l4_0 < 2^64 := lo_lt _
  have t5 : l5_0 < 2^64 := lo_lt _
  have hd : l0_0 + l1_0 * 2^64 + l2_0 * 2^128 + l3_0 * 2^192 + l4_0 * 2^256 + l5_0 * 2^320 + b.val =
      a.val + 2^384 * (brw_5 / 2^63) := by
    clear_value s_0 l0_0 brw_0 s_1 l1_0 brw_1 s_2 l2_0 brw_2 s_3 l3_0 brw_3 s_4 l4_0 brw_4 s_5 l5_0 brw_5 s_6 l0_1 c_0 s_7 l1_1 c_1 s_8 l2_1 c_2 s_9 l3_1 c_3 s_10 l4_1 c_4 l5_1
    unfold L6.val
    linear_combination e0 + 2^64 * e1 + 2^128 * e2 + 2^192 * e3 + 2^256 * e4 + 2^320 * e5
  have hdl : l0_0 + l1_0 * 2^64 + l2_0 * 2^128 + l3_0 * 2^192 + l4_0 * 2^256 + l5_0 * 2^320 < 2^384 := by
    clear * - t0 t1 t2 t3 t4 t5; omega
  have pm0 : p.l0 &&& brw_5 < 2^64 := lt_of_le_of_lt Nat.and_le_left hp0
  have pm1 : p.l1 &&& brw_5 < 2^64 := lt_of_le_of_lt Nat.and_le_left hp1
  have pm2 : p.l2 &&& brw_5 < 2^64 := lt_of_le_of_lt Nat.and_le_left hp2
  have pm3 : p.l3 &&& brw_5 < 2^64 := lt_of_le_of_lt Nat.and_le_left hp3
  have pm4 : p.l4 &&& brw_5 < 2^64 := lt_of_le_of_lt Nat.and_le_left hp4
  have pm5 : p.l5 &&& brw_5 < 2^64 := lt_of_le_of_lt Nat.and_le_left hp5
  have u0 : l0_1 < 2^64 := lo_lt _
  have v0 : c_0 < 2^64 := hi_lt _
  have f0 : l0_1 + 2^64 * c_0 = l0_0 + (p.l0 &&& brw_5) := split_add t0 pm0
  have u1 : l1_1 < 2^64 := lo_lt _
  have v1 : c_1 < 2^64 := hi_lt _
  have f1 : l1_1 + 2^64 * c_1 = l1_0 + (p.l1 &&& brw_5) + c_0 :=
    split_add_add t1 pm1 v0
  have u2 : l2_1 < 2^64 := lo_lt _
  have v2 : c_2 < 2^64 := hi_lt _
  have f2 : l2_1 + 2^64 * c_2 = l2_0 + (p.l2 &&& brw_5) + c_1 :=
    split_add_add t2 pm2 v1
  have u3 : l3_1 < 2^64 := lo_lt _
  have v3 : c_3 < 2^64 := hi_lt _
  have f3 : l3_1 + 2^64 * c_3 = l3_0 + (p.l3 &&& brw_5) + c_2 :=
    split_add_add t3 pm3 v2
  have u4 : l4_1 < 2^64 := lo_lt _
  have v4 : c_4 < 2^64 := hi_lt _
  have f4 : l4_1 + 2^64 * c_4 = l4_0 + (p.l4 &&& brw_5) + c_3 :=
    split_add_add t4 pm4 v3
  have u5 : l5_1 < 2^64 := wadd_lt _ _
  obtain ⟨ct, f5⟩ : ∃ ct, l5_1 + 2^64 * ct = l5_0 + (p.l5 &&& brw_5) + c_4 :=
    ⟨_, wadd3_split _ _ _⟩
  have hw : (L6.mk l0_1 l1_1 l2_1 l3_1 l4_1 l5_1).Wf := ⟨u0, u1, u2, u3, u4, u5⟩
  have hwv := hw.val_lt
  have hr : (L6.mk l0_1 l1_1 l2_1 l3_1 l4_1 l5_1).val + 2^384 * ct =
      l0_0 + l1_0 * 2^64 + l2_0 * 2^128 + l3_0 * 2^192 + l4_0 * 2^256 + l5_0 * 2^320 +
      ((p.l0 &&& brw_5) + (p.l1 &&& brw_5) * 2^64 + (p.l2 &&& brw_5) * 2^128 + (p.l3 &&& brw_5) * 2^192 + (p.l4 &&& brw_5) * 2^256 + (p.l5 &&& brw_5) * 2^320) := by
    clear_value s_0 l0_0 brw_0 s_1 l1_0 brw_1 s_2 l2_0 brw_2 s_3 l3_0 brw_3 s_4 l4_0 brw_4 s_5 l5_0 brw_5 s_6 l0_1 c_0 s_7 l1_1 c_1 s_8 l2_1 c_2 s_9 l3_1 c_3 s_10 l4_1 c_4 l5_1
    unfold L6.val
    linear_combination f0 + 2^64 * f1 + 2^128 * f2 + 2^192 * f3 + 2^256 * f4 + 2^320 * f5
  have hm : (brw_5 / 2^63 = 0 ∧
        (p.l0 &&& brw_5) + (p.l1 &&& brw_5) * 2^64 + (p.l2 &&& brw_5) * 2^128 + (p.l3 &&& brw_5) * 2^192 + (p.l4 &&& brw_5) * 2^256 + (p.l5 &&& brw_5) * 2^320 = 0) ∨
      (brw_5 / 2^63 = 1 ∧
        (p.l0 &&& brw_5) + (p.l1 &&& brw_5) * 2^64 + (p.l2 &&& brw_5) * 2^128 + (p.l3 &&& brw_5) * 2^192 + (p.l4 &&& brw_5) * 2^256 + (p.l5 &&& brw_5) * 2^320 = p.val) := by
    clear_value s_0 l0_0 brw_0 s_1 l1_0 brw_1 s_2 l2_0 brw_2 s_3 l3_0 brw_3 s_4 l4_0 brw_4 s_5 l5_0 brw_5 s_6 l0_1 c_0 s_7 l1_1 c_1 s_8 l2_1 c_2 s_9 l3_1 c_3 s_10 l4_1 c_4 l5_1
    rcases z5 with rfl | rfl
    · left; simp
    · right
      simp only [land_ones hp0, land_ones hp1, land_ones hp2, land_ones hp3, land_ones hp4, land_ones hp5]
      exact ⟨by norm_num, rfl⟩
  refine ⟨hw, ?_⟩
  clear_value s_0 l0_0 brw_0 s_1 l1_0 brw_1 s_2 l2_0 brw_2 s_3 l3_0 brw_3 s_4 l4_0 brw_4 s_5 l5_0 brw_5 s_6 l0_1 c_0 s_7 l1_1 c_1 s_8 l2_1 c_2 s_9 l3_1 c_3 s_10 l4_1 c_4 l5_1
  generalize (L6.mk l0_1 l1_1 l2_1 l3_1 l4_1 l5_1).val = r at *
  generalize l0_0 + l1_0 * 2^64 + l2_0 * 2^128 + l3_0 * 2^192 + l4_0 * 2^256 + l5_0 * 2^320 = d at *
  generalize (p.l0 &&& brw_5) + (p.l1 &&& brw_5) * 2^64 + (p.l2 &&& brw_5) * 2^128 + (p.l3 &&& brw_5) * 2^192 + (p.l4 &&& brw_5) * 2^256 + (p.l5 &&& brw_5) * 2^320 = pm at *
  clear * - hav hbv hpv hd hr hwv hdl hm
  omega

/-- `add` is the limb-wise sum followed by the code of `sub · p p`. -/
theorem add_spec {a b p : L6} (ha : a.Wf) (hb : b.Wf) (h : a.val + b.val < 2^384) :
    ∃ w : L6, w.Wf ∧ w.val = a.val + b.val ∧ add a b p = sub w p p := by
  obtain ⟨ha0, ha1, ha2, ha3, ha4, ha5⟩ := ha
  obtain ⟨hb0, hb1, hb2, hb3, hb4, hb5⟩ := hb
  unfold add
  extract_lets s_0 l0_0 c_0 s_1 l1_0 c_1 s_2 l2_0 c_2 s_3 l3_0 c_3 s_4 l4_0 c_4 l5_0
  have u0 : l0_0 < 2^64 := lo_lt _
  have q_c_0 : c_0 < 2^64 := hi_lt _
  have e0 : l0_0 + 2^64 * c_0 = a.l0 + b.l0 := split_add ha0 hb0
  have u1 : l1_0 < 2^64 := lo_lt _
  have q_c_1 : c_1 < 2^64 := hi_lt _
  have e1 : l1_0 + 2^64 * c_1 = a.l1 + b.l1 + c_0 := split_add_add ha1 hb1 q_c_0
  have u2 : l2_0 < 2^64 := lo_lt _
  have q_c_2 : c_2 < 2^64 := hi_lt _
  have e2 : l2_0 + 2^64 * c_2 = a.l2 + b.l2 + c_1 := split_add_add ha2 hb2 q_c_1
  have u3 : l3_0 < 2^64 := lo_lt _
  have q_c_3 : c_3 < 2^64 := hi_lt _
  have e3 : l3_0 + 2^64 * c_3 = a.l3 + b.l3 + c_2 := split_add_add ha3 hb3 q_c_2
  have u4 : l4_0 < 2^64 := lo_lt _
  have q_c_4 : c_4 < 2^64 := hi_lt _
  have e4 : l4_0 + 2^64 * c_4 = a.l4 + b.l4 + c_3 := split_add_add ha4 hb4 q_c_3
  obtain ⟨ct, e5⟩ : ∃ ct, l5_0 + 2^64 * ct = a.l5 + b.l5 + c_4 := ⟨_, wadd3_split _ _ _⟩
  have u5 : l5_0 < 2^64 := wadd_lt _ _
  refine ⟨⟨l0_0, l1_0, l2_0, l3_0, l4_0, l5_0⟩, ⟨u0, u1, u2, u3, u4, u5⟩, ?_, rfl⟩
  have hs : (L6.mk l0_0 l1_0 l2_0 l3_0 l4_0 l5_0).val + 2^384 * ct = a.val + b.val := by
    clear_value s_0 l0_0 c_0 s_1 l1_0 c_1 s_2 l2_0 c_2 s_3 l3_0 c_3 s_4 l4_0 c_4 l5_0
    unfold L6.val
    linear_combination e0 + 2^64 * e1 + 2^128 * e2 + 2^192 * e3 + 2^256 * e4 + 2^320 * e5
  clear * - h hs
  omega

/-- `double` is the shifted integer followed by the code of `sub · p p`. -/
theorem double_spec {a p : L6} (ha : a.Wf) (h : 2 * a.val < 2^384) :
    ∃ w : L6, w.Wf ∧ w.val = 2 * a.val ∧ double a p = sub w p p := by
  obtain ⟨ha0, ha1, ha2, ha3, ha4, ha5⟩ := ha
  refine ⟨⟨shl1 a.l0, shl1 a.l1 ||| a.l0 / 2^63, shl1 a.l2 ||| a.l1 / 2^63, shl1 a.l3 ||| a.l2 / 2^63, shl1 a.l4 ||| a.l3 / 2^63, shl1 a.l5 ||| a.l4 / 2^63⟩,
    ⟨shl1_lt _, shl1_or_lt ha0, shl1_or_lt ha1, shl1_or_lt ha2, shl1_or_lt ha3, shl1_or_lt ha4⟩, ?_, rfl⟩
  simp only [L6.val, shl1_or ha0, shl1_or ha1, shl1_or ha2, shl1_or ha3, shl1_or ha4] at h ⊢
  have e0 := shl1_spec a.l0
  have e1 := shl1_spec a.l1
  have e2 := shl1_spec a.l2
  have e3 := shl1_spec a.l3
  have e4 := shl1_spec a.l4
  have e5 := shl1_spec a.l5
  have t : shl1 a.l0 + (shl1 a.l1 + a.l0 / 2^63) * 2^64 + (shl1 a.l2 + a.l1 / 2^63) * 2^128 + (shl1 a.l3 + a.l2 / 2^63) * 2^192 + (shl1 a.l4 + a.l3 / 2^63) * 2^256 + (shl1 a.l5 + a.l4 / 2^63) * 2^320 + 2^384 * (a.l5 / 2^63) =
      2 * (a.l0 + a.l1 * 2^64 + a.l2 * 2^128 + a.l3 * 2^192 + a.l4 * 2^256 + a.l5 * 2^320) := by
    linear_combination e0 + 2^64 * e1 + 2^128 * e2 + 2^192 * e3 + 2^256 * e4 + 2^320 * e5
  clear * - t h
  generalize a.l5 / 2^63 = k at *
  omega

theorem or_eq_zero_iff {a : L6} : (a.l0 ||| a.l1 ||| a.l2 ||| a.l3 ||| a.l4 ||| a.l5) = 0 ↔ a.val = 0 := by
  simp only [Nat.or_eq_zero_iff, L6.val]; omega

theorem neg_spec {a p : L6} (ha : a.Wf) (hp : p.Wf) (h : a.val < p.val) :
    (neg a p).Wf ∧ (a.val = 0 → (neg a p).val = 0) ∧
    (a.val ≠ 0 → (neg a p).val + a.val = p.val) := by
  unfold neg
  split
  · rename_i hz
    have hz := or_eq_zero_iff.1 hz
    exact ⟨ha, fun _ => hz, fun h0 => absurd hz h0⟩
  rename_i hz
  have hz : a.val ≠ 0 := fun e => hz (or_eq_zero_iff.2 e)
  have hav := ha.val_lt; have hpv := hp.val_lt
  obtain ⟨ha0, ha1, ha2, ha3, ha4, ha5⟩ := ha
  obtain ⟨hp0, hp1, hp2, hp3, hp4, hp5⟩ := hp
  extract_lets s_0 l0_0 b_0 s_1 l1_0 b_1 s_2 l2_0 b_2 s_3 l3_0 b_3 s_4 l4_0 b_4 l5_0
  obtain ⟨e0, z0⟩ : l0_0 + a.l0 = p.l0 + 2^64 * (b_0 / 2^63) ∧ (b_0 = 0 ∨ b_0 = 2^64 - 1) :=
    sbb_step0 hp0 ha0
  obtain ⟨e1, z1⟩ : l1_0 + a.l1 + b_0 / 2^63 = p.l1 + 2^64 * (b_1 / 2^63) ∧
      (b_1 = 0 ∨ b_1 = 2^64 - 1) := sbb_step hp1 ha1 (borrow_bit z0)
  obtain ⟨e2, z2⟩ : l2_0 + a.l2 + b_1 / 2^63 = p.l2 + 2^64 * (b_2 / 2^63) ∧
      (b_2 = 0 ∨ b_2 = 2^64 - 1) := sbb_step hp2 ha2 (borrow_bit z1)
  obtain ⟨e3, z3⟩ : l3_0 + a.l3 + b_2 / 2^63 = p.l3 + 2^64 * (b_3 / 2^63) ∧
      (b_3 = 0 ∨ b_3 = 2^64 - 1) := sbb_step hp3 ha3 (borrow_bit z2)
  obtain ⟨e4, z4⟩ : l4_0 + a.l4 + b_3 / 2^63 = p.l4 + 2^64 * (b_4 / 2^63) ∧
      (b_4 = 0 ∨ b_4 = 2^64 - 1) := sbb_step hp4 ha4 (borrow_bit z3)
  obtain ⟨kk, e5⟩ : ∃ kk, l5_0 + a.l5 + b_4 / 2^63 = p.l5 + 2^64 * kk :=
    wsub3_split hp5 ha5 (borrow_bit z4)
  have u0 : l0_0 < 2^64 := lo_lt _
  have u1 : l1_0 < 2^64 := lo_lt _
  have u2 : l2_0 < 2^64 := lo_lt _
  have u3 : l3_0 < 2^64 := lo_lt _
  have u4 : l4_0 < 2^64 := lo_lt _
  have u5 : l5_0 < 2^64 := wsub_lt _ _
  have hs : (L6.mk l0_0 l1_0 l2_0 l3_0 l4_0 l5_0).val + a.val = p.val + 2^384 * kk := by
    clear_value s_0 l0_0 b_0 s_1 l1_0 b_1 s_2 l2_0 b_2 s_3 l3_0 b_3 s_4 l4_0 b_4 l5_0
    unfold L6.val
    linear_combination e0 + 2^64 * e1 + 2^128 * e2 + 2^192 * e3 + 2^256 * e4 + 2^320 * e5
  have hw : (L6.mk l0_0 l1_0 l2_0 l3_0 l4_0 l5_0).Wf := ⟨u0, u1, u2, u3, u4, u5⟩
  have hwv := hw.val_lt
  refine ⟨hw, fun h0 => absurd h0 hz, fun _ => ?_⟩
  clear_value s_0 l0_0 b_0 s_1 l1_0 b_1 s_2 l2_0 b_2 s_3 l3_0 b_3 s_4 l4_0 b_4 l5_0
  generalize (L6.mk l0_0 l1_0 l2_0 l3_0 l4_0 l5_0).val = r at *
  clear * - hs hwv h hav hpv
  omega

set_option maxHeartbeats 1000000 in
/-- Montgomery reduction: an input below `p * 2^384` is turned into a word vector `w < 2p` with
`w * 2^384 = input + m * p`, followed by the code of `sub · p p`. -/
theorem mont_spec {a : L12} {p : L6} {inv : Nat} (ha : a.Wf) (hp : p.Wf)
    (hinv : (p.l0 * inv + 1) % 2^64 = 0) (hpb : 2 * p.val ≤ 2^384)
    (h : a.val < p.val * 2^384) :
    ∃ w : L6, ∃ m : Nat, w.Wf ∧ w.val * 2^384 = a.val + m * p.val ∧ w.val < 2 * p.val ∧
      mont a p inv = sub w p p := by
  obtain ⟨ha0, ha1, ha2, ha3, ha4, ha5, ha6, ha7, ha8, ha9, ha10, ha11⟩ := ha
  obtain ⟨hp0, hp1, hp2, hp3, hp4, hp5⟩ := hp
  unfold mont
  extract_lets rhs_0 s_0 d_0 s_1 l1_0 d_1 s_2 l2_0 d_2 s_3 l3_0 d_3 s_4 l4_0 d_4 s_5 l5_0 d_5 s_6 l6_0 e_0 rhs_1 s_7 d_6 s_8 l2_1 d_7 s_9 l3_1 d_8 s_10 l4_1 d_9 s_11 l5_1 d_10 s_12 l6_1 d_11 s_13 l7_0 e_1 rhs_2 s_14 d_12 s_15 l3_2 d_13 s_16 l4_2 d_14 s_17 l5_2 d_15 s_18 l6_2 d_16 s_19 l7_1 d_17 s_20 l8_0 e_2 rhs_3 s_21 d_18 s_22 l4_3 d_19 s_23 l5_3 d_20 s_24 l6_3 d_21 s_25 l7_2 d_22 s_26 l8_1 d_23 s_27 l9_0 e_3 rhs_4 s_28 d_24 s_29 l5_4 d_25 s_30 l6_4 d_26 s_31 l7_3 d_27 s_32 l8_2 d_28 s_33 l9_1 d_29 s_34 l10_0 e_4 rhs_5 s_35 d_30 s_36 l6_5 d_31 s_37 l7_4 d_32 s_38 l8_3 d_33 s_39 l9_2 d_34 s_40 l10_1 d_35 l11_0
  have q_rhs_0 : rhs_0 < 2^64 := wmul_lt _ _
  have q_d_0 : d_0 < 2^64 := hi_lt _
  have E_s_0 : 2^64 * d_0 = rhs_0 * p.l0 + a.l0 := mont_low ha0 hp0 hinv
  have q_l1_0 : l1_0 < 2^64 := lo_lt _
  have q_d_1 : d_1 < 2^64 := hi_lt _
  have E_s_1 : l1_0 + 2^64 * d_1 = a.l1 + rhs_0 * p.l1 + d_0 := split_add_mul_add ha1 q_rhs_0 hp1 q_d_0
  have q_l2_0 : l2_0 < 2^64 := lo_lt _
  have q_d_2 : d_2 < 2^64 := hi_lt _
  have E_s_2 : l2_0 + 2^64 * d_2 = a.l2 + rhs_0 * p.l2 + d_1 := split_add_mul_add ha2 q_rhs_0 hp2 q_d_1
  have q_l3_0 : l3_0 < 2^64 := lo_lt _
  have q_d_3 : d_3 < 2^64 := hi_lt _
  have E_s_3 : l3_0 + 2^64 * d_3 = a.l3 + rhs_0 * p.l3 + d_2 := split_add_mul_add ha3 q_rhs_0 hp3 q_d_2
  have q_l4_0 : l4_0 < 2^64 := lo_lt _
  have q_d_4 : d_4 < 2^64 := hi_lt _
  have E_s_4 : l4_0 + 2^64 * d_4 = a.l4 + rhs_0 * p.l4 + d_3 := split_add_mul_add ha4 q_rhs_0 hp4 q_d_3
  have q_l5_0 : l5_0 < 2^64 := lo_lt _
  have q_d_5 : d_5 < 2^64 := hi_lt _
  have E_s_5 : l5_0 + 2^64 * d_5 = a.l5 + rhs_0 * p.l5 + d_4 := split_add_mul_add ha5 q_rhs_0 hp5 q_d_4
  have q_l6_0 : l6_0 < 2^64 := lo_lt _
  have q_e_0 : e_0 < 2^64 := hi_lt _
  have E_s_6 : l6_0 + 2^64 * e_0 = a.l6 + d_5 := split_add ha6 q_d_5
  have q_rhs_1 : rhs_1 < 2^64 := wmul_lt _ _
  have q_d_6 : d_6 < 2^64 := hi_lt _
  have E_s_7 : 2^64 * d_6 = rhs_1 * p.l0 + l1_0 := mont_low q_l1_0 hp0 hinv
  have q_l2_1 : l2_1 < 2^64 := lo_lt _
  have q_d_7 : d_7 < 2^64 := hi_lt _
  have E_s_8 : l2_1 + 2^64 * d_7 = l2_0 + rhs_1 * p.l1 + d_6 := split_add_mul_add q_l2_0 q_rhs_1 hp1 q_d_6
  have q_l3_1 : l3_1 < 2^64 := lo_lt _
  have q_d_8 : d_8 < 2^64 := hi_lt _
  have E_s_9 : l3_1 + 2^64 * d_8 = l3_0 + rhs_1 * p.l2 + d_7 := split_add_mul_add q_l3_0 q_rhs_1 hp2 q_d_7
  have q_l4_1 : l4_1 < 2^64 := lo_lt _
  have q_d_9 : d_9 < 2^64 := hi_lt _
  have E_s_10 : l4_1 + 2^64 * d_9 = l4_0 + rhs_1 * p.l3 + d_8 := split_add_mul_add q_l4_0 q_rhs_1 hp3 q_d_8
  have q_l5_1 : l5_1 < 2^64 := lo_lt _
  have q_d_10 : d_10 < 2^64 := hi_lt _
  have E_s_11 : l5_1 + 2^64 * d_10 = l5_0 + rhs_1 * p.l4 + d_9 := split_add_mul_add q_l5_0 q_rhs_1 hp4 q_d_9
  have q_l6_1 : l6_1 < 2^64 := lo_lt _
  have q_d_11 : d_11 < 2^64 := hi_lt _
  have E_s_12 : l6_1 + 2^64 * d_11 = l6_0 + rhs_1 * p.l5 + d_10 := split_add_mul_add q_l6_0 q_rhs_1 hp5 q_d_10
  have q_l7_0 : l7_0 < 2^64 := lo_lt _
  have q_e_1 : e_1 < 2^64 := hi_lt _
  have E_s_13 : l7_0 + 2^64 * e_1 = a.l7 + e_0 + d_11 := split_add_add ha7 q_e_0 q_d_11
  have q_rhs_2 : rhs_2 < 2^64 := wmul_lt _ _
  have q_d_12 : d_12 < 2^64 := hi_lt _
  have E_s_14 : 2^64 * d_12 = rhs_2 * p.l0 + l2_1 := mont_low q_l2_1 hp0 hinv
  have q_l3_2 : l3_2 < 2^64 := lo_lt _
  have q_d_13 : d_13 < 2^64 := hi_lt _
  have E_s_15 : l3_2 + 2^64 * d_13 = l3_1 + rhs_2 * p.l1 + d_12 := split_add_mul_add q_l3_1 q_rhs_2 hp1 q_d_12
  have q_l4_2 : l4_2 < 2^64 := lo_lt _
  have q_d_14 : d_14 < 2^64 := hi_lt _
  have E_s_16 : l4_2 + 2^64 * d_14 = l4_1 + rhs_2 * p.l2 + d_13 := split_add_mul_add q_l4_1 q_rhs_2 hp2 q_d_13
  have q_l5_2 : l5_2 < 2^64 := lo_lt _
  have q_d_15 : d_15 < 2^64 := hi_lt _
  have E_s_17 : l5_2 + 2^64 * d_15 = l5_1 + rhs_2 * p.l3 + d_14 := split_add_mul_add q_l5_1 q_rhs_2 hp3 q_d_14
  have q_l6_2 : l6_2 < 2^64 := lo_lt _
  have q_d_16 : d_16 < 2^64 := hi_lt _
  have E_s_18 : l6_2 + 2^64 * d_16 = l6_1 + rhs_2 * p.l4 + d_15 := split_add_mul_add q_l6_1 q_rhs_2 hp4 q_d_15
  have q_l7_1 : l7_1 < 2^64 := lo_lt _
  have q_d_17 : d_17 < 2^64 := hi_lt _
  have E_s_19 : l7_1 + 2^64 * d_17 = l7_0 + rhs_2 * p.l5 + d_16 := split_add_mul_add q_l7_0 q_rhs_2 hp5 q_d_16
  have q_l8_0 : l8_0 < 2^64 := lo_lt _
  have q_e_2 : e_2 < 2^64 := hi_lt _
  have E_s_20 : l8_0 + 2^64 * e_2 = a.l8 + e_1 + d_17 := split_add_add ha8 q_e_1 q_d_17
  have q_rhs_3 : rhs_3 < 2^64 := wmul_lt _ _
  have q_d_18 : d_18 < 2^64 := hi_lt _
  have E_s_21 : 2^64 * d_18 = rhs_3 * p.l0 + l3_2 := mont_low q_l3_2 hp0 hinv
  have q_l4_3 : l4_3 < 2^64 := lo_lt _
  have q_d_19 : d_19 < 2^64 := hi_lt _
  have E_s_22 : l4_3 + 2^64 * d_19 = l4_2 + rhs_3 * p.l1 + d_18 := split_add_mul_add q_l4_2 q_rhs_3 hp1 q_d_18
  have q_l5_3 : l5_3 < 2^64 := lo_lt _
  have q_d_20 : d_20 < 2^64 := hi_lt _
  have E_s_23 : l5_3 + 2^64 * d_20 = l5_2 + rhs_3 * p.l2 + d_19 := split_add_mul_add q_l5_2 q_rhs_3 hp2 q_d_19
  have q_l6_3 : l6_3 < 2^64 := lo_lt _
  have q_d_21 : d_21 < 2^64 := hi_lt _
  have E_s_24 : l6_3 + 2^64 * d_21 = l6_2 + rhs_3 * p.l3 + d_20 := split_add_mul_add q_l6_2 q_rhs_3 hp3 q_d_20
  have q_l7_2 : l7_2 < 2^64 := lo_lt _
  have q_d_22 : d_22 < 2^64 := hi_lt _
  have E_s_25 : l7_2 + 2^64 * d_22 = l7_1 + rhs_3 * p.l4 + d_21 := split_add_mul_add q_l7_1 q_rhs_3 hp4 q_d_21
  have q_l8_1 : l8_1 < 2^64 := lo_lt _
  have q_d_23 : d_23 < 2^64 := hi_lt _
  have E_s_26 : l8_1 + 2^64 * d_23 = l8_0 + rhs_3 * p.l5 + d_22 := split_add_mul_add q_l8_0 q_rhs_3 hp5 q_d_22
  have q_l9_0 : l9_0 < 2^64 := lo_lt _
  have q_e_3 : e_3 < 2^64 := hi_lt _
  have E_s_27 : l9_0 + 2^64 * e_3 = a.l9 + e_2 + d_23 := split_add_add ha9 q_e_2 q_d_23
  have q_rhs_4 : rhs_4 < 2^64 := wmul_lt _ _
  have q_d_24 : d_24 < 2^64 := hi_lt _
  have E_s_28 : 2^64 * d_24 = rhs_4 * p.l0 + l4_3 := mont_low q_l4_3 hp0 hinv
  have q_l5_4 : l5_4 < 2^64 := lo_lt _
  have q_d_25 : d_25 < 2^64 := hi_lt _
  have E_s_29 : l5_4 + 2^64 * d_25 = l5_3 + rhs_4 * p.l1 + d_24 := split_add_mul_add q_l5_3 q_rhs_4 hp1 q_d_24
  have q_l6_4 : l6_4 < 2^64 := lo_lt _
  have q_d_26 : d_26 < 2^64 := hi_lt _
  have E_s_30 : l6_4 + 2^64 * d_26 = l6_3 + rhs_4 * p.l2 + d_25 := split_add_mul_add q_l6_3 q_rhs_4 hp2 q_d_25
  have q_l7_3 : l7_3 < 2^64 := lo_lt _
  have q_d_27 : d_27 < 2^64 := hi_lt _
  have E_s_31 : l7_3 + 2^64 * d_27 = l7_2 + rhs_4 * p.l3 + d_26 := split_add_mul_add q_l7_2 q_rhs_4 hp3 q_d_26
  have q_l8_2 : l8_2 < 2^64 := lo_lt _
  have q_d_28 : d_28 < 2^64 := hi_lt _
  have E_s_32 : l8_2 + 2^64 * d_28 = l8_1 + rhs_4 * p.l4 + d_27 := split_add_mul_add q_l8_1 q_rhs_4 hp4 q_d_27
  have q_l9_1 : l9_1 < 2^64 := lo_lt _
  have q_d_29 : d_29 < 2^64 := hi_lt _
  have E_s_33 : l9_1 + 2^64 * d_29 = l9_0 + rhs_4 * p.l5 + d_28 := split_add_mul_add q_l9_0 q_rhs_4 hp5 q_d_28
  have q_l10_0 : l10_0 < 2^64 := lo_lt _
  have q_e_4 : e_4 < 2^64 := hi_lt _
  have E_s_34 : l10_0 + 2^64 * e_4 = a.l10 + e_3 + d_29 := split_add_add ha10 q_e_3 q_d_29
  have q_rhs_5 : rhs_5 < 2^64 := wmul_lt _ _
  have q_d_30 : d_30 < 2^64 := hi_lt _
  have E_s_35 : 2^64 * d_30 = rhs_5 * p.l0 + l5_4 := mont_low q_l5_4 hp0 hinv
  have q_l6_5 : l6_5 < 2^64 := lo_lt _
  have q_d_31 : d_31 < 2^64 := hi_lt _
  have E_s_36 : l6_5 + 2^64 * d_31 = l6_4 + rhs_5 * p.l1 + d_30 := split_add_mul_add q_l6_4 q_rhs_5 hp1 q_d_30
  have q_l7_4 : l7_4 < 2^64 := lo_lt _
  have q_d_32 : d_32 < 2^64 := hi_lt _
  have E_s_37 : l7_4 + 2^64 * d_32 = l7_3 + rhs_5 * p.l2 + d_31 := split_add_mul_add q_l7_3 q_rhs_5 hp2 q_d_31
  have q_l8_3 : l8_3 < 2^64 := lo_lt _
  have q_d_33 : d_33 < 2^64 := hi_lt _
  have E_s_38 : l8_3 + 2^64 * d_33 = l8_2 + rhs_5 * p.l3 + d_32 := split_add_mul_add q_l8_2 q_rhs_5 hp3 q_d_32
  have q_l9_2 : l9_2 < 2^64 := lo_lt _
  have q_d_34 : d_34 < 2^64 := hi_lt _
  have E_s_39 : l9_2 + 2^64 * d_34 = l9_1 + rhs_5 * p.l4 + d_33 := split_add_mul_add q_l9_1 q_rhs_5 hp4 q_d_33
  have q_l10_1 : l10_1 < 2^64 := lo_lt _
  have q_d_35 : d_35 < 2^64 := hi_lt _
  have E_s_40 : l10_1 + 2^64 * d_35 = l10_0 + rhs_5 * p.l5 + d_34 := split_add_mul_add q_l10_0 q_rhs_5 hp5 q_d_34
  obtain ⟨ct, E_top⟩ : ∃ ct, l11_0 + 2^64 * ct = a.l11 + e_4 + d_35 := ⟨_, wadd3_split _ _ _⟩
  have q_l11_0 : l11_0 < 2^64 := wadd_lt _ _
  have hm : rhs_0 + rhs_1 * 2^64 + rhs_2 * 2^128 + rhs_3 * 2^192 + rhs_4 * 2^256 + rhs_5 * 2^320 < 2^384 := by
    clear_value rhs_0 s_0 d_0 s_1 l1_0 d_1 s_2 l2_0 d_2 s_3 l3_0 d_3 s_4 l4_0 d_4 s_5 l5_0 d_5 s_6 l6_0 e_0 rhs_1 s_7 d_6 s_8 l2_1 d_7 s_9 l3_1 d_8 s_10 l4_1 d_9 s_11 l5_1 d_10 s_12 l6_1 d_11 s_13 l7_0 e_1 rhs_2 s_14 d_12 s_15 l3_2 d_13 s_16 l4_2 d_14 s_17 l5_2 d_15 s_18 l6_2 d_16 s_19 l7_1 d_17 s_20 l8_0 e_2 rhs_3 s_21 d_18 s_22 l4_3 d_19 s_23 l5_3 d_20 s_24 l6_3 d_21 s_25 l7_2 d_22 s_26 l8_1 d_23 s_27 l9_0 e_3 rhs_4 s_28 d_24 s_29 l5_4 d_25 s_30 l6_4 d_26 s_31 l7_3 d_27 s_32 l8_2 d_28 s_33 l9_1 d_29 s_34 l10_0 e_4 rhs_5 s_35 d_30 s_36 l6_5 d_31 s_37 l7_4 d_32 s_38 l8_3 d_33 s_39 l9_2 d_34 s_40 l10_1 d_35 l11_0
    clear * - q_rhs_0 q_rhs_1 q_rhs_2 q_rhs_3 q_rhs_4 q_rhs_5; omega
  have hw : (L6.mk l6_5 l7_4 l8_3 l9_2 l10_1 l11_0).Wf := ⟨q_l6_5, q_l7_4, q_l8_3, q_l9_2, q_l10_1, q_l11_0⟩
  have hs : ((L6.mk l6_5 l7_4 l8_3 l9_2 l10_1 l11_0).val + 2^384 * ct) * 2^384 =
      a.val + (rhs_0 + rhs_1 * 2^64 + rhs_2 * 2^128 + rhs_3 * 2^192 + rhs_4 * 2^256 + rhs_5 * 2^320) * p.val := by
    clear_value rhs_0 s_0 d_0 s_1 l1_0 d_1 s_2 l2_0 d_2 s_3 l3_0 d_3 s_4 l4_0 d_4 s_5 l5_0 d_5 s_6 l6_0 e_0 rhs_1 s_7 d_6 s_8 l2_1 d_7 s_9 l3_1 d_8 s_10 l4_1 d_9 s_11 l5_1 d_10 s_12 l6_1 d_11 s_13 l7_0 e_1 rhs_2 s_14 d_12 s_15 l3_2 d_13 s_16 l4_2 d_14 s_17 l5_2 d_15 s_18 l6_2 d_16 s_19 l7_1 d_17 s_20 l8_0 e_2 rhs_3 s_21 d_18 s_22 l4_3 d_19 s_23 l5_3 d_20 s_24 l6_3 d_21 s_25 l7_2 d_22 s_26 l8_1 d_23 s_27 l9_0 e_3 rhs_4 s_28 d_24 s_29 l5_4 d_25 s_30 l6_4 d_26 s_31 l7_3 d_27 s_32 l8_2 d_28 s_33 l9_1 d_29 s_34 l10_0 e_4 rhs_5 s_35 d_30 s_36 l6_5 d_31 s_37 l7_4 d_32 s_38 l8_3 d_33 s_39 l9_2 d_34 s_40 l10_1 d_35 l11_0
    unfold L6.val L12.val
    linear_combination 2^0 * E_s_0 + 2^64 * E_s_1 + 2^128 * E_s_2 + 2^192 * E_s_3 + 2^256 * E_s_4 + 2^320 * E_s_5 + 2^384 * E_s_6 + 2^64 * E_s_7 + 2^128 * E_s_8 + 2^192 * E_s_9 + 2^256 * E_s_10 + 2^320 * E_s_11 + 2^384 * E_s_12 + 2^448 * E_s_13 + 2^128 * E_s_14 + 2^192 * E_s_15 + 2^256 * E_s_16 + 2^320 * E_s_17 + 2^384 * E_s_18 + 2^448 * E_s_19 + 2^512 * E_s_20 + 2^192 * E_s_21 + 2^256 * E_s_22 + 2^320 * E_s_23 + 2^384 * E_s_24 + 2^448 * E_s_25 + 2^512 * E_s_26 + 2^576 * E_s_27 + 2^256 * E_s_28 + 2^320 * E_s_29 + 2^384 * E_s_30 + 2^448 * E_s_31 + 2^512 * E_s_32 + 2^576 * E_s_33 + 2^640 * E_s_34 + 2^320 * E_s_35 + 2^384 * E_s_36 + 2^448 * E_s_37 + 2^512 * E_s_38 + 2^576 * E_s_39 + 2^640 * E_s_40 + 2^704 * E_top
  have hpp : 0 < p.val := by
    rcases Nat.eq_zero_or_pos p.val with h0 | h0
    · rw [h0] at h; omega
    · exact h0
  have hmp : (rhs_0 + rhs_1 * 2^64 + rhs_2 * 2^128 + rhs_3 * 2^192 + rhs_4 * 2^256 + rhs_5 * 2^320) * p.val < 2^384 * p.val := Nat.mul_lt_mul_of_pos_right hm hpp
  have hlt : (L6.mk l6_5 l7_4 l8_3 l9_2 l10_1 l11_0).val + 2^384 * ct < 2 * p.val := by
    clear_value rhs_0 s_0 d_0 s_1 l1_0 d_1 s_2 l2_0 d_2 s_3 l3_0 d_3 s_4 l4_0 d_4 s_5 l5_0 d_5 s_6 l6_0 e_0 rhs_1 s_7 d_6 s_8 l2_1 d_7 s_9 l3_1 d_8 s_10 l4_1 d_9 s_11 l5_1 d_10 s_12 l6_1 d_11 s_13 l7_0 e_1 rhs_2 s_14 d_12 s_15 l3_2 d_13 s_16 l4_2 d_14 s_17 l5_2 d_15 s_18 l6_2 d_16 s_19 l7_1 d_17 s_20 l8_0 e_2 rhs_3 s_21 d_18 s_22 l4_3 d_19 s_23 l5_3 d_20 s_24 l6_3 d_21 s_25 l7_2 d_22 s_26 l8_1 d_23 s_27 l9_0 e_3 rhs_4 s_28 d_24 s_29 l5_4 d_25 s_30 l6_4 d_26 s_31 l7_3 d_27 s_32 l8_2 d_28 s_33 l9_1 d_29 s_34 l10_0 e_4 rhs_5 s_35 d_30 s_36 l6_5 d_31 s_37 l7_4 d_32 s_38 l8_3 d_33 s_39 l9_2 d_34 s_40 l10_1 d_35 l11_0
    generalize (L6.mk l6_5 l7_4 l8_3 l9_2 l10_1 l11_0).val = r at *
    generalize (rhs_0 + rhs_1 * 2^64 + rhs_2 * 2^128 + rhs_3 * 2^192 + rhs_4 * 2^256 + rhs_5 * 2^320) * p.val = mp at *
    clear * - hs hmp h; omega
  have hct : ct = 0 := by
    clear_value rhs_0 s_0 d_0 s_1 l1_0 d_1 s_2 l2_0 d_2 s_3 l3_0 d_3 s_4 l4_0 d_4 s_5 l5_0 d_5 s_6 l6_0 e_0 rhs_1 s_7 d_6 s_8 l2_1 d_7 s_9 l3_1 d_8 s_10 l4_1 d_9 s_11 l5_1 d_10 s_12 l6_1 d_11 s_13 l7_0 e_1 rhs_2 s_14 d_12 s_15 l3_2 d_13 s_16 l4_2 d_14 s_17 l5_2 d_15 s_18 l6_2 d_16 s_19 l7_1 d_17 s_20 l8_0 e_2 rhs_3 s_21 d_18 s_22 l4_3 d_19 s_23 l5_3 d_20 s_24 l6_3 d_21 s_25 l7_2 d_22 s_26 l8_1 d_23 s_27 l9_0 e_3 rhs_4 s_28 d_24 s_29 l5_4 d_25 s_30 l6_4 d_26 s_31 l7_3 d_27 s_32 l8_2 d_28 s_33 l9_1 d_29 s_34 l10_0 e_4 rhs_5 s_35 d_30 s_36 l6_5 d_31 s_37 l7_4 d_32 s_38 l8_3 d_33 s_39 l9_2 d_34 s_40 l10_1 d_35 l11_0
    generalize (L6.mk l6_5 l7_4 l8_3 l9_2 l10_1 l11_0).val = r at *
    clear * - hlt hpb; omega
  rw [hct, Nat.mul_zero, Nat.add_zero] at hs hlt
  exact ⟨⟨l6_5, l7_4, l8_3, l9_2, l10_1, l11_0⟩, rhs_0 + rhs_1 * 2^64 + rhs_2 * 2^128 + rhs_3 * 2^192 + rhs_4 * 2^256 + rhs_5 * 2^320, hw, hs, hlt, rfl⟩

theorem mul_wide {a b : L6} (p : L6) (inv : Nat) (ha : a.Wf) (hb : b.Wf) :
    ∃ w : L12, w.Wf ∧ w.val = a.val * b.val ∧ mul a b p inv = mont w p inv := by
  obtain ⟨ha0, ha1, ha2, ha3, ha4, ha5⟩ := ha
  obtain ⟨hb0, hb1, hb2, hb3, hb4, hb5⟩ := hb
  unfold mul
  extract_lets s_0 l0_0 c_0 s_1 l1_0 c_1 s_2 l2_0 c_2 s_3 l3_0 c_3 s_4 l4_0 c_4 s_5 l5_0 l6_0 s_6 l1_1 c_5 s_7 l2_1 c_6 s_8 l3_1 c_7 s_9 l4_1 c_8 s_10 l5_1 c_9 s_11 l6_1 l7_0 s_12 l2_2 c_10 s_13 l3_2 c_11 s_14 l4_2 c_12 s_15 l5_2 c_13 s_16 l6_2 c_14 s_17 l7_1 l8_0 s_18 l3_3 c_15 s_19 l4_3 c_16 s_20 l5_3 c_17 s_21 l6_3 c_18 s_22 l7_2 c_19 s_23 l8_1 l9_0 s_24 l4_4 c_20 s_25 l5_4 c_21 s_26 l6_4 c_22 s_27 l7_3 c_23 s_28 l8_2 c_24 s_29 l9_1 l10_0 s_30 l5_5 c_25 s_31 l6_5 c_26 s_32 l7_4 c_27 s_33 l8_3 c_28 s_34 l9_2 c_29 s_35 l10_1 l11_0
  have q_l0_0 : l0_0 < 2^64 := lo_lt _
  have q_c_0 : c_0 < 2^64 := hi_lt _
  have E_s_0 : l0_0 + 2^64 * c_0 = a.l0 * b.l0 := split_mul ha0 hb0
  have q_l1_0 : l1_0 < 2^64 := lo_lt _
  have q_c_1 : c_1 < 2^64 := hi_lt _
  have E_s_1 : l1_0 + 2^64 * c_1 = a.l0 * b.l1 + c_0 := split_mul_add ha0 hb1 q_c_0
  have q_l2_0 : l2_0 < 2^64 := lo_lt _
  have q_c_2 : c_2 < 2^64 := hi_lt _
  have E_s_2 : l2_0 + 2^64 * c_2 = a.l0 * b.l2 + c_1 := split_mul_add ha0 hb2 q_c_1
  have q_l3_0 : l3_0 < 2^64 := lo_lt _
  have q_c_3 : c_3 < 2^64 := hi_lt _
  have E_s_3 : l3_0 + 2^64 * c_3 = a.l0 * b.l3 + c_2 := split_mul_add ha0 hb3 q_c_2
  have q_l4_0 : l4_0 < 2^64 := lo_lt _
  have q_c_4 : c_4 < 2^64 := hi_lt _
  have E_s_4 : l4_0 + 2^64 * c_4 = a.l0 * b.l4 + c_3 := split_mul_add ha0 hb4 q_c_3
  have q_l5_0 : l5_0 < 2^64 := lo_lt _
  have q_l6_0 : l6_0 < 2^64 := hi_lt _
  have E_s_5 : l5_0 + 2^64 * l6_0 = a.l0 * b.l5 + c_4 := split_mul_add ha0 hb5 q_c_4
  have q_l1_1 : l1_1 < 2^64 := lo_lt _
  have q_c_5 : c_5 < 2^64 := hi_lt _
  have E_s_6 : l1_1 + 2^64 * c_5 = a.l1 * b.l0 + l1_0 := split_mul_add ha1 hb0 q_l1_0
  have q_l2_1 : l2_1 < 2^64 := lo_lt _
  have q_c_6 : c_6 < 2^64 := hi_lt _
  have E_s_7 : l2_1 + 2^64 * c_6 = l2_0 + a.l1 * b.l1 + c_5 := split_add_mul_add q_l2_0 ha1 hb1 q_c_5
  have q_l3_1 : l3_1 < 2^64 := lo_lt _
  have q_c_7 : c_7 < 2^64 := hi_lt _
  have E_s_8 : l3_1 + 2^64 * c_7 = l3_0 + a.l1 * b.l2 + c_6 := split_add_mul_add q_l3_0 ha1 hb2 q_c_6
  have q_l4_1 : l4_1 < 2^64 := lo_lt _
  have q_c_8 : c_8 < 2^64 := hi_lt _
  have E_s_9 : l4_1 + 2^64 * c_8 = l4_0 + a.l1 * b.l3 + c_7 := split_add_mul_add q_l4_0 ha1 hb3 q_c_7
  have q_l5_1 : l5_1 < 2^64 := lo_lt _
  have q_c_9 : c_9 < 2^64 := hi_lt _
  have E_s_10 : l5_1 + 2^64 * c_9 = l5_0 + a.l1 * b.l4 + c_8 := split_add_mul_add q_l5_0 ha1 hb4 q_c_8
  have q_l6_1 : l6_1 < 2^64 := lo_lt _
  have q_l7_0 : l7_0 < 2^64 := hi_lt _
  have E_s_11 : l6_1 + 2^64 * l7_0 = l6_0 + a.l1 * b.l5 + c_9 := split_add_mul_add q_l6_0 ha1 hb5 q_c_9
  have q_l2_2 : l2_2 < 2^64 := lo_lt _
  have q_c_10 : c_10 < 2^64 := hi_lt _
  have E_s_12 : l2_2 + 2^64 * c_10 = a.l2 * b.l0 + l2_1 := split_mul_add ha2 hb0 q_l2_1
  have q_l3_2 : l3_2 < 2^64 := lo_lt _
  have q_c_11 : c_11 < 2^64 := hi_lt _
  have E_s_13 : l3_2 + 2^64 * c_11 = l3_1 + a.l2 * b.l1 + c_10 := split_add_mul_add q_l3_1 ha2 hb1 q_c_10
  have q_l4_2 : l4_2 < 2^64 := lo_lt _
  have q_c_12 : c_12 < 2^64 := hi_lt _
  have E_s_14 : l4_2 + 2^64 * c_12 = l4_1 + a.l2 * b.l2 + c_11 := split_add_mul_add q_l4_1 ha2 hb2 q_c_11
  have q_l5_2 : l5_2 < 2^64 := lo_lt _
  have q_c_13 : c_13 < 2^64 := hi_lt _
  have E_s_15 : l5_2 + 2^64 * c_13 = l5_1 + a.l2 * b.l3 + c_12 := split_add_mul_add q_l5_1 ha2 hb3 q_c_12
  have q_l6_2 : l6_2 < 2^64 := lo_lt _
  have q_c_14 : c_14 < 2^64 := hi_lt _
  have E_s_16 : l6_2 + 2^64 * c_14 = l6_1 + a.l2 * b.l4 + c_13 := split_add_mul_add q_l6_1 ha2 hb4 q_c_13
  have q_l7_1 : l7_1 < 2^64 := lo_lt _
  have q_l8_0 : l8_0 < 2^64 := hi_lt _
  have E_s_17 : l7_1 + 2^64 * l8_0 = l7_0 + a.l2 * b.l5 + c_14 := split_add_mul_add q_l7_0 ha2 hb5 q_c_14
  have q_l3_3 : l3_3 < 2^64 := lo_lt _
  have q_c_15 : c_15 < 2^64 := hi_lt _
  have E_s_18 : l3_3 + 2^64 * c_15 = a.l3 * b.l0 + l3_2 := split_mul_add ha3 hb0 q_l3_2
  have q_l4_3 : l4_3 < 2^64 := lo_lt _
  have q_c_16 : c_16 < 2^64 := hi_lt _
  have E_s_19 : l4_3 + 2^64 * c_16 = l4_2 + a.l3 * b.l1 + c_15 := split_add_mul_add q_l4_2 ha3 hb1 q_c_15
  have q_l5_3 : l5_3 < 2^64 := lo_lt _
  have q_c_17 : c_17 < 2^64 := hi_lt _
  have E_s_20 : l5_3 + 2^64 * c_17 = l5_2 + a.l3 * b.l2 + c_16 := split_add_mul_add q_l5_2 ha3 hb2 q_c_16
  have q_l6_3 : l6_3 < 2^64 := lo_lt _
  have q_c_18 : c_18 < 2^64 := hi_lt _
  have E_s_21 : l6_3 + 2^64 * c_18 = l6_2 + a.l3 * b.l3 + c_17 := split_add_mul_add q_l6_2 ha3 hb3 q_c_17
  have q_l7_2 : l7_2 < 2^64 := lo_lt _
  have q_c_19 : c_19 < 2^64 := hi_lt _
  have E_s_22 : l7_2 + 2^64 * c_19 = l7_1 + a.l3 * b.l4 + c_18 := split_add_mul_add q_l7_1 ha3 hb4 q_c_18
  have q_l8_1 : l8_1 < 2^64 := lo_lt _
  have q_l9_0 : l9_0 < 2^64 := hi_lt _
  have E_s_23 : l8_1 + 2^64 * l9_0 = l8_0 + a.l3 * b.l5 + c_19 := split_add_mul_add q_l8_0 ha3 hb5 q_c_19
  have q_l4_4 : l4_4 < 2^64 := lo_lt _
  have q_c_20 : c_20 < 2^64 := hi_lt _
  have E_s_24 : l4_4 + 2^64 * c_20 = a.l4 * b.l0 + l4_3 := split_mul_add ha4 hb0 q_l4_3
  have q_l5_4 : l5_4 < 2^64 := lo_lt _
  have q_c_21 : c_21 < 2^64 := hi_lt _
  have E_s_25 : l5_4 + 2^64 * c_21 = l5_3 + a.l4 * b.l1 + c_20 := split_add_mul_add q_l5_3 ha4 hb1 q_c_20
  have q_l6_4 : l6_4 < 2^64 := lo_lt _
  have q_c_22 : c_22 < 2^64 := hi_lt _
  have E_s_26 : l6_4 + 2^64 * c_22 = l6_3 + a.l4 * b.l2 + c_21 := split_add_mul_add q_l6_3 ha4 hb2 q_c_21
  have q_l7_3 : l7_3 < 2^64 := lo_lt _
  have q_c_23 : c_23 < 2^64 := hi_lt _
  have E_s_27 : l7_3 + 2^64 * c_23 = l7_2 + a.l4 * b.l3 + c_22 := split_add_mul_add q_l7_2 ha4 hb3 q_c_22
  have q_l8_2 : l8_2 < 2^64 := lo_lt _
  have q_c_24 : c_24 < 2^64 := hi_lt _
  have E_s_28 : l8_2 + 2^64 * c_24 = l8_1 + a.l4 * b.l4 + c_23 := split_add_mul_add q_l8_1 ha4 hb4 q_c_23
  have q_l9_1 : l9_1 < 2^64 := lo_lt _
  have q_l10_0 : l10_0 < 2^64 := hi_lt _
  have E_s_29 : l9_1 + 2^64 * l10_0 = l9_0 + a.l4 * b.l5 + c_24 := split_add_mul_add q_l9_0 ha4 hb5 q_c_24
  have q_l5_5 : l5_5 < 2^64 := lo_lt _
  have q_c_25 : c_25 < 2^64 := hi_lt _
  have E_s_30 : l5_5 + 2^64 * c_25 = a.l5 * b.l0 + l5_4 := split_mul_add ha5 hb0 q_l5_4
  have q_l6_5 : l6_5 < 2^64 := lo_lt _
  have q_c_26 : c_26 < 2^64 := hi_lt _
  have E_s_31 : l6_5 + 2^64 * c_26 = l6_4 + a.l5 * b.l1 + c_25 := split_add_mul_add q_l6_4 ha5 hb1 q_c_25
  have q_l7_4 : l7_4 < 2^64 := lo_lt _
  have q_c_27 : c_27 < 2^64 := hi_lt _
  have E_s_32 : l7_4 + 2^64 * c_27 = l7_3 + a.l5 * b.l2 + c_26 := split_add_mul_add q_l7_3 ha5 hb2 q_c_26
  have q_l8_3 : l8_3 < 2^64 := lo_lt _
  have q_c_28 : c_28 < 2^64 := hi_lt _
  have E_s_33 : l8_3 + 2^64 * c_28 = l8_2 + a.l5 * b.l3 + c_27 := split_add_mul_add q_l8_2 ha5 hb3 q_c_27
  have q_l9_2 : l9_2 < 2^64 := lo_lt _
  have q_c_29 : c_29 < 2^64 := hi_lt _
  have E_s_34 : l9_2 + 2^64 * c_29 = l9_1 + a.l5 * b.l4 + c_28 := split_add_mul_add q_l9_1 ha5 hb4 q_c_28
  have q_l10_1 : l10_1 < 2^64 := lo_lt _
  have q_l11_0 : l11_0 < 2^64 := hi_lt _
  have E_s_35 : l10_1 + 2^64 * l11_0 = l10_0 + a.l5 * b.l5 + c_29 := split_add_mul_add q_l10_0 ha5 hb5 q_c_29
  refine ⟨⟨l0_0, l1_1, l2_2, l3_3, l4_4, l5_5, l6_5, l7_4, l8_3, l9_2, l10_1, l11_0⟩, ⟨q_l0_0, q_l1_1, q_l2_2, q_l3_3, q_l4_4, q_l5_5, q_l6_5, q_l7_4, q_l8_3, q_l9_2, q_l10_1, q_l11_0⟩, ?_, rfl⟩
  clear_value s_0 l0_0 c_0 s_1 l1_0 c_1 s_2 l2_0 c_2 s_3 l3_0 c_3 s_4 l4_0 c_4 s_5 l5_0 l6_0 s_6 l1_1 c_5 s_7 l2_1 c_6 s_8 l3_1 c_7 s_9 l4_1 c_8 s_10 l5_1 c_9 s_11 l6_1 l7_0 s_12 l2_2 c_10 s_13 l3_2 c_11 s_14 l4_2 c_12 s_15 l5_2 c_13 s_16 l6_2 c_14 s_17 l7_1 l8_0 s_18 l3_3 c_15 s_19 l4_3 c_16 s_20 l5_3 c_17 s_21 l6_3 c_18 s_22 l7_2 c_19 s_23 l8_1 l9_0 s_24 l4_4 c_20 s_25 l5_4 c_21 s_26 l6_4 c_22 s_27 l7_3 c_23 s_28 l8_2 c_24 s_29 l9_1 l10_0 s_30 l5_5 c_25 s_31 l6_5 c_26 s_32 l7_4 c_27 s_33 l8_3 c_28 s_34 l9_2 c_29 s_35 l10_1 l11_0
  unfold L6.val L12.val
  linear_combination 2^0 * E_s_0 + 2^64 * E_s_1 + 2^128 * E_s_2 + 2^192 * E_s_3 + 2^256 * E_s_4 + 2^320 * E_s_5 + 2^64 * E_s_6 + 2^128 * E_s_7 + 2^192 * E_s_8 + 2^256 * E_s_9 + 2^320 * E_s_10 + 2^384 * E_s_11 + 2^128 * E_s_12 + 2^192 * E_s_13 + 2^256 * E_s_14 + 2^320 * E_s_15 + 2^384 * E_s_16 + 2^448 * E_s_17 + 2^192 * E_s_18 + 2^256 * E_s_19 + 2^320 * E_s_20 + 2^384 * E_s_21 + 2^448 * E_s_22 + 2^512 * E_s_23 + 2^256 * E_s_24 + 2^320 * E_s_25 + 2^384 * E_s_26 + 2^448 * E_s_27 + 2^512 * E_s_28 + 2^576 * E_s_29 + 2^320 * E_s_30 + 2^384 * E_s_31 + 2^448 * E_s_32 + 2^512 * E_s_33 + 2^576 * E_s_34 + 2^640 * E_s_35

/-- The off-diagonal products of the first pass of the 384-bit `square`, with their weights. -/
def offFirst (a : L6) : Nat :=
  a.l1 * a.l0 * 2^64 + a.l2 * a.l0 * 2^128 + a.l3 * a.l0 * 2^192 + a.l4 * a.l0 * 2^256 + a.l5 * a.l0 * 2^320 +
    a.l1 * a.l5 * 2^384 + a.l2 * a.l5 * 2^448 + a.l3 * a.l5 * 2^512 + a.l4 * a.l5 * 2^576

/-- Those of the second pass. -/
def offSecond (a : L6) : Nat :=
  a.l1 * a.l2 * 2^192 + a.l1 * a.l3 * 2^256 + a.l1 * a.l4 * 2^320 + a.l2 * a.l4 * 2^384 + a.l3 * a.l4 * 2^448

/-- The product added last. -/
def offThird (a : L6) : Nat := a.l2 * a.l3 * 2^320

theorem div_of_split {x lo hi : Nat} (n : Nat) (h : lo < 2^n) (e : x = lo + 2^n * hi) : x / 2^n = hi := by
  rw [e, Nat.add_mul_div_left _ _ (by positivity), Nat.div_eq_of_lt h, Nat.zero_add]

set_option maxHeartbeats 2000000 in
/-- `square` builds a double-width integer that is `a^2` minus the carries it drops, then calls `mont`. -/
theorem square_wide {a : L6} (p : L6) (inv : Nat) (ha : a.Wf) :
    ∃ w : L12, ∃ k9 k7 : Nat, w.Wf ∧ w.val + (2^641 * k9 + 2^513 * k7) = a.val * a.val ∧
      square a p inv = mont w p inv ∧ k9 ≤ 1 ∧ k7 ≤ 1 ∧
      (offFirst a + offSecond a) / 2^640 = offFirst a / 2^640 + k9 ∧
      (offFirst a + offSecond a + offThird a) / 2^512 = (offFirst a + offSecond a) / 2^512 + k7 := by
  have hav := ha.val_lt
  obtain ⟨ha0, ha1, ha2, ha3, ha4, ha5⟩ := ha
  unfold square
  extract_lets s_0 l1_0 c_0 s_1 l2_0 c_1 s_2 l3_0 c_2 s_3 l4_0 c_3 s_4 l5_0 c_4 s_5 l6_0 c_5 s_6 l7_0 c_6 s_7 l8_0 c_7 s_8 l9_0 l10_0 s_9 l3_1 c_8 s_10 l4_1 c_9 s_11 l5_1 c_10 s_12 l6_1 c_11 s_13 l7_1 c_12 s_14 l8_1 c_13 l9_1 s_15 l5_2 c_14 s_16 l6_2 c_15 l7_2 l11_0 l10_1 l9_2 l8_2 l7_3 l6_3 l5_3 l4_2 l3_2 l2_1 l1_1 s_17 l0_0 c_16 s_18 l1_2 c_17 s_19 l2_2 c_18 s_20 l3_3 c_19 s_21 l4_3 c_20 s_22 l5_4 c_21 s_23 l6_4 c_22 s_24 l7_4 c_23 s_25 l8_3 c_24 s_26 l9_3 c_25 s_27 l10_2 c_26 l11_1
  have q_l1_0 : l1_0 < 2^64 := lo_lt _
  have q_c_0 : c_0 < 2^64 := hi_lt _
  have E_s_0 : l1_0 + 2^64 * c_0 = a.l1 * a.l0 := split_mul ha1 ha0
  have q_l2_0 : l2_0 < 2^64 := lo_lt _
  have q_c_1 : c_1 < 2^64 := hi_lt _
  have E_s_1 : l2_0 + 2^64 * c_1 = a.l2 * a.l0 + c_0 := split_mul_add ha2 ha0 q_c_0
  have q_l3_0 : l3_0 < 2^64 := lo_lt _
  have q_c_2 : c_2 < 2^64 := hi_lt _
  have E_s_2 : l3_0 + 2^64 * c_2 = a.l3 * a.l0 + c_1 := split_mul_add ha3 ha0 q_c_1
  have q_l4_0 : l4_0 < 2^64 := lo_lt _
  have q_c_3 : c_3 < 2^64 := hi_lt _
  have E_s_3 : l4_0 + 2^64 * c_3 = a.l4 * a.l0 + c_2 := split_mul_add ha4 ha0 q_c_2
  have q_l5_0 : l5_0 < 2^64 := lo_lt _
  have q_c_4 : c_4 < 2^64 := hi_lt _
  have E_s_4 : l5_0 + 2^64 * c_4 = a.l5 * a.l0 + c_3 := split_mul_add ha5 ha0 q_c_3
  have q_l6_0 : l6_0 < 2^64 := lo_lt _
  have q_c_5 : c_5 < 2^64 := hi_lt _
  have E_s_5 : l6_0 + 2^64 * c_5 = a.l1 * a.l5 + c_4 := split_mul_add ha1 ha5 q_c_4
  have q_l7_0 : l7_0 < 2^64 := lo_lt _
  have q_c_6 : c_6 < 2^64 := hi_lt _
  have E_s_6 : l7_0 + 2^64 * c_6 = a.l2 * a.l5 + c_5 := split_mul_add ha2 ha5 q_c_5
  have q_l8_0 : l8_0 < 2^64 := lo_lt _
  have q_c_7 : c_7 < 2^64 := hi_lt _
  have E_s_7 : l8_0 + 2^64 * c_7 = a.l3 * a.l5 + c_6 := split_mul_add ha3 ha5 q_c_6
  have q_l9_0 : l9_0 < 2^64 := lo_lt _
  have q_l10_0 : l10_0 < 2^64 := hi_lt _
  have E_s_8 : l9_0 + 2^64 * l10_0 = a.l4 * a.l5 + c_7 := split_mul_add ha4 ha5 q_c_7
  have q_l3_1 : l3_1 < 2^64 := lo_lt _
  have q_c_8 : c_8 < 2^64 := hi_lt _
  have E_s_9 : l3_1 + 2^64 * c_8 = a.l1 * a.l2 + l3_0 := split_mul_add ha1 ha2 q_l3_0
  have q_l4_1 : l4_1 < 2^64 := lo_lt _
  have q_c_9 : c_9 < 2^64 := hi_lt _
  have E_s_10 : l4_1 + 2^64 * c_9 = l4_0 + a.l1 * a.l3 + c_8 := split_add_mul_add q_l4_0 ha1 ha3 q_c_8
  have q_l5_1 : l5_1 < 2^64 := lo_lt _
  have q_c_10 : c_10 < 2^64 := hi_lt _
  have E_s_11 : l5_1 + 2^64 * c_10 = l5_0 + a.l1 * a.l4 + c_9 := split_add_mul_add q_l5_0 ha1 ha4 q_c_9
  have q_l6_1 : l6_1 < 2^64 := lo_lt _
  have q_c_11 : c_11 < 2^64 := hi_lt _
  have E_s_12 : l6_1 + 2^64 * c_11 = l6_0 + a.l2 * a.l4 + c_10 := split_add_mul_add q_l6_0 ha2 ha4 q_c_10
  have q_l7_1 : l7_1 < 2^64 := lo_lt _
  have q_c_12 : c_12 < 2^64 := hi_lt _
  have E_s_13 : l7_1 + 2^64 * c_12 = l7_0 + a.l3 * a.l4 + c_11 := split_add_mul_add q_l7_0 ha3 ha4 q_c_11
  have q_l8_1 : l8_1 < 2^64 := lo_lt _
  have q_c_13 : c_13 < 2^64 := hi_lt _
  have E_s_14 : l8_1 + 2^64 * c_13 = l8_0 + c_12 := split_add q_l8_0 q_c_12
  obtain ⟨k9, hk9, E_l9_1⟩ : ∃ k, k = (l9_0 + c_13) / 2^64 ∧ l9_1 + 2^64 * k = l9_0 + c_13 := ⟨_, rfl, wadd_split _ _⟩
  have q_l9_1 : l9_1 < 2^64 := wadd_lt _ _
  have q_l5_2 : l5_2 < 2^64 := lo_lt _
  have q_c_14 : c_14 < 2^64 := hi_lt _
  have E_s_15 : l5_2 + 2^64 * c_14 = a.l2 * a.l3 + l5_1 := split_mul_add ha2 ha3 q_l5_1
  have q_l6_2 : l6_2 < 2^64 := lo_lt _
  have q_c_15 : c_15 < 2^64 := hi_lt _
  have E_s_16 : l6_2 + 2^64 * c_15 = l6_1 + c_14 := split_add q_l6_1 q_c_14
  obtain ⟨k7, hk7, E_l7_2⟩ : ∃ k, k = (l7_1 + c_15) / 2^64 ∧ l7_2 + 2^64 * k = l7_1 + c_15 := ⟨_, rfl, wadd_split _ _⟩
  have q_l7_2 : l7_2 < 2^64 := wadd_lt _ _
  have q_l11_0 : l11_0 < 2^64 := lt_of_le_of_lt (Nat.div_le_self _ _) q_l10_0
  have E_l11_0 : l11_0 = l10_0 / 2^63 := rfl
  have q_l10_1 : l10_1 < 2^64 := shl1_or_lt q_l9_1
  have E_l10_1 : l10_1 + 2^64 * (l10_0 / 2^63) = 2 * l10_0 + l9_1 / 2^63 := by
    have h1 : l10_1 = shl1 l10_0 + l9_1 / 2^63 := shl1_or q_l9_1
    have h2 := shl1_spec l10_0
    rw [h1]; linear_combination h2
  have q_l9_2 : l9_2 < 2^64 := shl1_or_lt q_l8_1
  have E_l9_2 : l9_2 + 2^64 * (l9_1 / 2^63) = 2 * l9_1 + l8_1 / 2^63 := by
    have h1 : l9_2 = shl1 l9_1 + l8_1 / 2^63 := shl1_or q_l8_1
    have h2 := shl1_spec l9_1
    rw [h1]; linear_combination h2
  have q_l8_2 : l8_2 < 2^64 := shl1_or_lt q_l7_2
  have E_l8_2 : l8_2 + 2^64 * (l8_1 / 2^63) = 2 * l8_1 + l7_2 / 2^63 := by
    have h1 : l8_2 = shl1 l8_1 + l7_2 / 2^63 := shl1_or q_l7_2
    have h2 := shl1_spec l8_1
    rw [h1]; linear_combination h2
  have q_l7_3 : l7_3 < 2^64 := shl1_or_lt q_l6_2
  have E_l7_3 : l7_3 + 2^64 * (l7_2 / 2^63) = 2 * l7_2 + l6_2 / 2^63 := by
    have h1 : l7_3 = shl1 l7_2 + l6_2 / 2^63 := shl1_or q_l6_2
    have h2 := shl1_spec l7_2
    rw [h1]; linear_combination h2
  have q_l6_3 : l6_3 < 2^64 := shl1_or_lt q_l5_2
  have E_l6_3 : l6_3 + 2^64 * (l6_2 / 2^63) = 2 * l6_2 + l5_2 / 2^63 := by
    have h1 : l6_3 = shl1 l6_2 + l5_2 / 2^63 := shl1_or q_l5_2
    have h2 := shl1_spec l6_2
    rw [h1]; linear_combination h2
  have q_l5_3 : l5_3 < 2^64 := shl1_or_lt q_l4_1
  have E_l5_3 : l5_3 + 2^64 * (l5_2 / 2^63) = 2 * l5_2 + l4_1 / 2^63 := by
    have h1 : l5_3 = shl1 l5_2 + l4_1 / 2^63 := shl1_or q_l4_1
    have h2 := shl1_spec l5_2
    rw [h1]; linear_combination h2
  have q_l4_2 : l4_2 < 2^64 := shl1_or_lt q_l3_1
  have E_l4_2 : l4_2 + 2^64 * (l4_1 / 2^63) = 2 * l4_1 + l3_1 / 2^63 := by
    have h1 : l4_2 = shl1 l4_1 + l3_1 / 2^63 := shl1_or q_l3_1
    have h2 := shl1_spec l4_1
    rw [h1]; linear_combination h2
  have q_l3_2 : l3_2 < 2^64 := shl1_or_lt q_l2_0
  have E_l3_2 : l3_2 + 2^64 * (l3_1 / 2^63) = 2 * l3_1 + l2_0 / 2^63 := by
    have h1 : l3_2 = shl1 l3_1 + l2_0 / 2^63 := shl1_or q_l2_0
    have h2 := shl1_spec l3_1
    rw [h1]; linear_combination h2
  have q_l2_1 : l2_1 < 2^64 := shl1_or_lt q_l1_0
  have E_l2_1 : l2_1 + 2^64 * (l2_0 / 2^63) = 2 * l2_0 + l1_0 / 2^63 := by
    have h1 : l2_1 = shl1 l2_0 + l1_0 / 2^63 := shl1_or q_l1_0
    have h2 := shl1_spec l2_0
    rw [h1]; linear_combination h2
  have q_l1_1 : l1_1 < 2^64 := shl1_lt _
  have E_l1_1 : l1_1 + 2^64 * (l1_0 / 2^63) = 2 * l1_0 := shl1_spec _
  have q_l0_0 : l0_0 < 2^64 := lo_lt _
  have q_c_16 : c_16 < 2^64 := hi_lt _
  have E_s_17 : l0_0 + 2^64 * c_16 = a.l0 * a.l0 := split_mul ha0 ha0
  have q_l1_2 : l1_2 < 2^64 := lo_lt _
  have q_c_17 : c_17 < 2^64 := hi_lt _
  have E_s_18 : l1_2 + 2^64 * c_17 = l1_1 + c_16 := split_add q_l1_1 q_c_16
  have q_l2_2 : l2_2 < 2^64 := lo_lt _
  have q_c_18 : c_18 < 2^64 := hi_lt _
  have E_s_19 : l2_2 + 2^64 * c_18 = l2_1 + a.l1 * a.l1 + c_17 := split_add_mul_add q_l2_1 ha1 ha1 q_c_17
  have q_l3_3 : l3_3 < 2^64 := lo_lt _
  have q_c_19 : c_19 < 2^64 := hi_lt _
  have E_s_20 : l3_3 + 2^64 * c_19 = l3_2 + c_18 := split_add q_l3_2 q_c_18
  have q_l4_3 : l4_3 < 2^64 := lo_lt _
  have q_c_20 : c_20 < 2^64 := hi_lt _
  have E_s_21 : l4_3 + 2^64 * c_20 = l4_2 + a.l2 * a.l2 + c_19 := split_add_mul_add q_l4_2 ha2 ha2 q_c_19
  have q_l5_4 : l5_4 < 2^64 := lo_lt _
  have q_c_21 : c_21 < 2^64 := hi_lt _
  have E_s_22 : l5_4 + 2^64 * c_21 = l5_3 + c_20 := split_add q_l5_3 q_c_20
  have q_l6_4 : l6_4 < 2^64 := lo_lt _
  have q_c_22 : c_22 < 2^64 := hi_lt _
  have E_s_23 : l6_4 + 2^64 * c_22 = l6_3 + a.l3 * a.l3 + c_21 := split_add_mul_add q_l6_3 ha3 ha3 q_c_21
  have q_l7_4 : l7_4 < 2^64 := lo_lt _
  have q_c_23 : c_23 < 2^64 := hi_lt _
  have E_s_24 : l7_4 + 2^64 * c_23 = l7_3 + c_22 := split_add q_l7_3 q_c_22
  have q_l8_3 : l8_3 < 2^64 := lo_lt _
  have q_c_24 : c_24 < 2^64 := hi_lt _
  have E_s_25 : l8_3 + 2^64 * c_24 = l8_2 + a.l4 * a.l4 + c_23 := split_add_mul_add q_l8_2 ha4 ha4 q_c_23
  have q_l9_3 : l9_3 < 2^64 := lo_lt _
  have q_c_25 : c_25 < 2^64 := hi_lt _
  have E_s_26 : l9_3 + 2^64 * c_25 = l9_2 + c_24 := split_add q_l9_2 q_c_24
  have q_l10_2 : l10_2 < 2^64 := lo_lt _
  have q_c_26 : c_26 < 2^64 := hi_lt _
  have E_s_27 : l10_2 + 2^64 * c_26 = l10_1 + a.l5 * a.l5 + c_25 := split_add_mul_add q_l10_1 ha5 ha5 q_c_25
  obtain ⟨ct, E_l11_1⟩ : ∃ ct, l11_1 + 2^64 * ct = l11_0 + c_26 := ⟨_, wadd_split _ _⟩
  have q_l11_1 : l11_1 < 2^64 := wadd_lt _ _
  have hw : (L12.mk l0_0 l1_2 l2_2 l3_3 l4_3 l5_4 l6_4 l7_4 l8_3 l9_3 l10_2 l11_1).Wf := ⟨q_l0_0, q_l1_2, q_l2_2, q_l3_3, q_l4_3, q_l5_4, q_l6_4, q_l7_4, q_l8_3, q_l9_3, q_l10_2, q_l11_1⟩
  have hs : (L12.mk l0_0 l1_2 l2_2 l3_3 l4_3 l5_4 l6_4 l7_4 l8_3 l9_3 l10_2 l11_1).val + 2^768 * ct + (2^641 * k9 + 2^513 * k7) = a.val * a.val := by
    clear_value s_0 l1_0 c_0 s_1 l2_0 c_1 s_2 l3_0 c_2 s_3 l4_0 c_3 s_4 l5_0 c_4 s_5 l6_0 c_5 s_6 l7_0 c_6 s_7 l8_0 c_7 s_8 l9_0 l10_0 s_9 l3_1 c_8 s_10 l4_1 c_9 s_11 l5_1 c_10 s_12 l6_1 c_11 s_13 l7_1 c_12 s_14 l8_1 c_13 l9_1 s_15 l5_2 c_14 s_16 l6_2 c_15 l7_2 l11_0 l10_1 l9_2 l8_2 l7_3 l6_3 l5_3 l4_2 l3_2 l2_1 l1_1 s_17 l0_0 c_16 s_18 l1_2 c_17 s_19 l2_2 c_18 s_20 l3_3 c_19 s_21 l4_3 c_20 s_22 l5_4 c_21 s_23 l6_4 c_22 s_24 l7_4 c_23 s_25 l8_3 c_24 s_26 l9_3 c_25 s_27 l10_2 c_26 l11_1
    unfold L6.val L12.val
    linear_combination 2 * 2^64 * E_s_0 + 2 * 2^128 * E_s_1 + 2 * 2^192 * E_s_2 + 2 * 2^256 * E_s_3 + 2 * 2^320 * E_s_4 + 2 * 2^384 * E_s_5 + 2 * 2^448 * E_s_6 + 2 * 2^512 * E_s_7 + 2 * 2^576 * E_s_8 + 2 * 2^192 * E_s_9 + 2 * 2^256 * E_s_10 + 2 * 2^320 * E_s_11 + 2 * 2^384 * E_s_12 + 2 * 2^448 * E_s_13 + 2 * 2^512 * E_s_14 + 2 * 2^576 * E_l9_1 + 2 * 2^320 * E_s_15 + 2 * 2^384 * E_s_16 + 2 * 2^448 * E_l7_2 + 1 * 2^704 * E_l11_0 + 1 * 2^640 * E_l10_1 + 1 * 2^576 * E_l9_2 + 1 * 2^512 * E_l8_2 + 1 * 2^448 * E_l7_3 + 1 * 2^384 * E_l6_3 + 1 * 2^320 * E_l5_3 + 1 * 2^256 * E_l4_2 + 1 * 2^192 * E_l3_2 + 1 * 2^128 * E_l2_1 + 1 * 2^64 * E_l1_1 + 1 * 2^0 * E_s_17 + 1 * 2^64 * E_s_18 + 1 * 2^128 * E_s_19 + 1 * 2^192 * E_s_20 + 1 * 2^256 * E_s_21 + 1 * 2^320 * E_s_22 + 1 * 2^384 * E_s_23 + 1 * 2^448 * E_s_24 + 1 * 2^512 * E_s_25 + 1 * 2^576 * E_s_26 + 1 * 2^640 * E_s_27 + 1 * 2^704 * E_l11_1
  have hct : ct = 0 := by
    have h2 : a.val * a.val < 2^384 * 2^384 := Nat.mul_lt_mul'' hav hav
    clear_value s_0 l1_0 c_0 s_1 l2_0 c_1 s_2 l3_0 c_2 s_3 l4_0 c_3 s_4 l5_0 c_4 s_5 l6_0 c_5 s_6 l7_0 c_6 s_7 l8_0 c_7 s_8 l9_0 l10_0 s_9 l3_1 c_8 s_10 l4_1 c_9 s_11 l5_1 c_10 s_12 l6_1 c_11 s_13 l7_1 c_12 s_14 l8_1 c_13 l9_1 s_15 l5_2 c_14 s_16 l6_2 c_15 l7_2 l11_0 l10_1 l9_2 l8_2 l7_3 l6_3 l5_3 l4_2 l3_2 l2_1 l1_1 s_17 l0_0 c_16 s_18 l1_2 c_17 s_19 l2_2 c_18 s_20 l3_3 c_19 s_21 l4_3 c_20 s_22 l5_4 c_21 s_23 l6_4 c_22 s_24 l7_4 c_23 s_25 l8_3 c_24 s_26 l9_3 c_25 s_27 l10_2 c_26 l11_1
    generalize (L12.mk l0_0 l1_2 l2_2 l3_3 l4_3 l5_4 l6_4 l7_4 l8_3 l9_3 l10_2 l11_1).val = r at *
    generalize a.val * a.val = aa at *
    clear * - hs h2; omega
  rw [hct, Nat.mul_zero, Nat.add_zero] at hs
  refine ⟨⟨l0_0, l1_2, l2_2, l3_3, l4_3, l5_4, l6_4, l7_4, l8_3, l9_3, l10_2, l11_1⟩, k9, k7, hw, hs, rfl, ?_, ?_, ?_, ?_⟩
  · clear_value s_0 l1_0 c_0 s_1 l2_0 c_1 s_2 l3_0 c_2 s_3 l4_0 c_3 s_4 l5_0 c_4 s_5 l6_0 c_5 s_6 l7_0 c_6 s_7 l8_0 c_7 s_8 l9_0 l10_0 s_9 l3_1 c_8 s_10 l4_1 c_9 s_11 l5_1 c_10 s_12 l6_1 c_11 s_13 l7_1 c_12 s_14 l8_1 c_13 l9_1 s_15 l5_2 c_14 s_16 l6_2 c_15 l7_2 l11_0 l10_1 l9_2 l8_2 l7_3 l6_3 l5_3 l4_2 l3_2 l2_1 l1_1 s_17 l0_0 c_16 s_18 l1_2 c_17 s_19 l2_2 c_18 s_20 l3_3 c_19 s_21 l4_3 c_20 s_22 l5_4 c_21 s_23 l6_4 c_22 s_24 l7_4 c_23 s_25 l8_3 c_24 s_26 l9_3 c_25 s_27 l10_2 c_26 l11_1
    clear * - E_l9_1 q_l9_0 q_c_13; omega
  · clear_value s_0 l1_0 c_0 s_1 l2_0 c_1 s_2 l3_0 c_2 s_3 l4_0 c_3 s_4 l5_0 c_4 s_5 l6_0 c_5 s_6 l7_0 c_6 s_7 l8_0 c_7 s_8 l9_0 l10_0 s_9 l3_1 c_8 s_10 l4_1 c_9 s_11 l5_1 c_10 s_12 l6_1 c_11 s_13 l7_1 c_12 s_14 l8_1 c_13 l9_1 s_15 l5_2 c_14 s_16 l6_2 c_15 l7_2 l11_0 l10_1 l9_2 l8_2 l7_3 l6_3 l5_3 l4_2 l3_2 l2_1 l1_1 s_17 l0_0 c_16 s_18 l1_2 c_17 s_19 l2_2 c_18 s_20 l3_3 c_19 s_21 l4_3 c_20 s_22 l5_4 c_21 s_23 l6_4 c_22 s_24 l7_4 c_23 s_25 l8_3 c_24 s_26 l9_3 c_25 s_27 l10_2 c_26 l11_1
    clear * - E_l7_2 q_l7_1 q_c_15; omega
  · clear_value s_0 l1_0 c_0 s_1 l2_0 c_1 s_2 l3_0 c_2 s_3 l4_0 c_3 s_4 l5_0 c_4 s_5 l6_0 c_5 s_6 l7_0 c_6 s_7 l8_0 c_7 s_8 l9_0 l10_0 s_9 l3_1 c_8 s_10 l4_1 c_9 s_11 l5_1 c_10 s_12 l6_1 c_11 s_13 l7_1 c_12 s_14 l8_1 c_13 l9_1 s_15 l5_2 c_14 s_16 l6_2 c_15 l7_2 l11_0 l10_1 l9_2 l8_2 l7_3 l6_3 l5_3 l4_2 l3_2 l2_1 l1_1 s_17 l0_0 c_16 s_18 l1_2 c_17 s_19 l2_2 c_18 s_20 l3_3 c_19 s_21 l4_3 c_20 s_22 l5_4 c_21 s_23 l6_4 c_22 s_24 l7_4 c_23 s_25 l8_3 c_24 s_26 l9_3 c_25 s_27 l10_2 c_26 l11_1
    rw [div_of_split (lo := l1_0 * 2^64 + l2_0 * 2^128 + l3_0 * 2^192 + l4_0 * 2^256 + l5_0 * 2^320 + l6_0 * 2^384 + l7_0 * 2^448 +
        l8_0 * 2^512 + l9_0 * 2^576) (hi := l10_0) 640 (x := offFirst a) (by clear * - q_l1_0 q_l2_0 q_l3_0 q_l4_0 q_l5_0 q_l6_0 q_l7_0 q_l8_0 q_l9_0; omega) (by
        unfold offFirst
        refine Eq.symm ?_
        linear_combination (2^64 * E_s_0 + 2^128 * E_s_1 + 2^192 * E_s_2 + 2^256 * E_s_3 + 2^320 * E_s_4 + 2^384 * E_s_5 + 2^448 * E_s_6 + 2^512 * E_s_7 + 2^576 * E_s_8)),
      div_of_split (lo := l1_0 * 2^64 + l2_0 * 2^128 + l3_1 * 2^192 + l4_1 * 2^256 + l5_1 * 2^320 + l6_1 * 2^384 + l7_1 * 2^448 +
        l8_1 * 2^512 + l9_1 * 2^576) (hi := l10_0 + k9) 640 (x := offFirst a + offSecond a) (by clear * - q_l1_0 q_l2_0 q_l3_1 q_l4_1 q_l5_1 q_l6_1 q_l7_1 q_l8_1 q_l9_1; omega) (by
        unfold offFirst offSecond
        refine Eq.symm ?_
        linear_combination (2^64 * E_s_0 + 2^128 * E_s_1 + 2^192 * E_s_2 + 2^256 * E_s_3 + 2^320 * E_s_4 + 2^384 * E_s_5 + 2^448 * E_s_6 + 2^512 * E_s_7 + 2^576 * E_s_8 +
          2^192 * E_s_9 + 2^256 * E_s_10 + 2^320 * E_s_11 + 2^384 * E_s_12 + 2^448 * E_s_13 + 2^512 * E_s_14 + 2^576 * E_l9_1))]
  · clear_value s_0 l1_0 c_0 s_1 l2_0 c_1 s_2 l3_0 c_2 s_3 l4_0 c_3 s_4 l5_0 c_4 s_5 l6_0 c_5 s_6 l7_0 c_6 s_7 l8_0 c_7 s_8 l9_0 l10_0 s_9 l3_1 c_8 s_10 l4_1 c_9 s_11 l5_1 c_10 s_12 l6_1 c_11 s_13 l7_1 c_12 s_14 l8_1 c_13 l9_1 s_15 l5_2 c_14 s_16 l6_2 c_15 l7_2 l11_0 l10_1 l9_2 l8_2 l7_3 l6_3 l5_3 l4_2 l3_2 l2_1 l1_1 s_17 l0_0 c_16 s_18 l1_2 c_17 s_19 l2_2 c_18 s_20 l3_3 c_19 s_21 l4_3 c_20 s_22 l5_4 c_21 s_23 l6_4 c_22 s_24 l7_4 c_23 s_25 l8_3 c_24 s_26 l9_3 c_25 s_27 l10_2 c_26 l11_1
    rw [div_of_split (lo := l1_0 * 2^64 + l2_0 * 2^128 + l3_1 * 2^192 + l4_1 * 2^256 + l5_1 * 2^320 + l6_1 * 2^384 + l7_1 * 2^448)
        (hi := l8_1 + 2^64 * l9_1 + 2^128 * (l10_0 + k9)) 512 (x := offFirst a + offSecond a)
        (by clear * - q_l1_0 q_l2_0 q_l3_1 q_l4_1 q_l5_1 q_l6_1 q_l7_1; omega) (by
        unfold offFirst offSecond
        refine Eq.symm ?_
        linear_combination (2^64 * E_s_0 + 2^128 * E_s_1 + 2^192 * E_s_2 + 2^256 * E_s_3 + 2^320 * E_s_4 + 2^384 * E_s_5 + 2^448 * E_s_6 + 2^512 * E_s_7 + 2^576 * E_s_8 +
          2^192 * E_s_9 + 2^256 * E_s_10 + 2^320 * E_s_11 + 2^384 * E_s_12 + 2^448 * E_s_13 + 2^512 * E_s_14 + 2^576 * E_l9_1)),
      div_of_split (lo := l1_0 * 2^64 + l2_0 * 2^128 + l3_1 * 2^192 + l4_1 * 2^256 + l5_2 * 2^320 + l6_2 * 2^384 + l7_2 * 2^448)
        (hi := l8_1 + 2^64 * l9_1 + 2^128 * (l10_0 + k9) + k7) 512 (x := offFirst a + offSecond a + offThird a)
        (by clear * - q_l1_0 q_l2_0 q_l3_1 q_l4_1 q_l5_2 q_l6_2 q_l7_2; omega) (by
        unfold offFirst offSecond offThird
        refine Eq.symm ?_
        linear_combination (2^64 * E_s_0 + 2^128 * E_s_1 + 2^192 * E_s_2 + 2^256 * E_s_3 + 2^320 * E_s_4 + 2^384 * E_s_5 + 2^448 * E_s_6 + 2^512 * E_s_7 + 2^576 * E_s_8 +
          2^192 * E_s_9 + 2^256 * E_s_10 + 2^320 * E_s_11 + 2^384 * E_s_12 + 2^448 * E_s_13 + 2^512 * E_s_14 + 2^576 * E_l9_1 +
          2^320 * E_s_15 + 2^384 * E_s_16 + 2^448 * E_l7_2))]

end B384
end Kogarashi.Limbs
