import Verif.Limbs.AsmProof

/-!
# Walk through the assembly block `mul`

Generated from the instruction list.
-/

namespace Kogarashi.Limbs.Asm

open Kogarashi.Spec.AsmCarry

set_option exponentiation.threshold 600
set_option maxHeartbeats 1000000

theorem mul_walk (st : St) {a0 a1 a2 a3 : Nat} {b0 b1 b2 b3 : Nat} {m0 m1 m2 m3 : Nat} (ha0 : a0 < 2^64) (ha1 : a1 < 2^64) (ha2 : a2 < 2^64) (ha3 : a3 < 2^64) (hb0 : b0 < 2^64) (hb1 : b1 < 2^64) (hb2 : b2 < 2^64) (hb3 : b3 < 2^64) (hm0 : m0 < 2^64) (hm1 : m1 < 2^64) (hm2 : m2 < 2^64) (hm3 : m3 < 2^64) {P : St → Prop}
    (hinv : (m0 * hardInv + 1) % 2^64 = 0)
    (hfin : ∀ x0 x1 x2 x3 x4 x5 x6 w0 w1 w2 w3 y0 y1, w0 < 2^64 → w1 < 2^64 → w2 < 2^64 → w3 < 2^64 →
      ∀ q, q < 2^256 → (L4.mk w0 w1 w2 w3).val * 2^256 = (L4.mk a0 a1 a2 a3).val * (L4.mk b0 b1 b2 b3).val + q * (L4.mk m0 m1 m2 m3).val →
      P (run ⟨⟨a0, a1, a2, a3⟩, ⟨b0, b1, b2, b3⟩, ⟨m0, m1, m2, m3⟩⟩ mulTail ⟨x0, x1, x2, x3, x4, x5, x6, w0, w1, w2, w3, y0, y1⟩)) :
    KP ⟨⟨a0, a1, a2, a3⟩, ⟨b0, b1, b2, b3⟩, ⟨m0, m1, m2, m3⟩⟩ P mulProg st := by
  unfold mulProg
  refine kmov ?_
  change KP _ _ _ ⟨st.rax, st.rcx, st.rdx, st.r8, st.r9, st.r10, st.r11, st.r12, b0, st.r14, st.r15, st.cf, st.zf⟩
  refine kmov ?_
  change KP _ _ _ ⟨st.rax, st.rcx, st.rdx, st.r8, st.r9, st.r10, st.r11, st.r12, b0, b1, st.r15, st.cf, st.zf⟩
  refine kmov ?_
  change KP _ _ _ ⟨st.rax, st.rcx, st.rdx, st.r8, st.r9, st.r10, st.r11, st.r12, b0, b1, b2, st.cf, st.zf⟩
  refine kmov ?_
  change KP _ _ _ ⟨st.rax, st.rcx, a0, st.r8, st.r9, st.r10, st.r11, st.r12, b0, b1, b2, st.cf, st.zf⟩
  refine kmulx fun u0 v0 (E0 : v0 + 2^64 * u0 = a0 * b0) (Q0 : v0 < 2^64) => ?_
  have W0 : u0 + 1 < 2^64 := hi_bound ha0 hb0 E0
  change KP _ _ _ ⟨st.rax, st.rcx, a0, v0, u0, st.r10, st.r11, st.r12, b0, b1, b2, st.cf, st.zf⟩
  refine kmulx fun u1 v1 (E1 : v1 + 2^64 * u1 = a0 * b1) (Q1 : v1 < 2^64) => ?_
  have W1 : u1 + 1 < 2^64 := hi_bound ha0 hb1 E1
  change KP _ _ _ ⟨v1, st.rcx, a0, v0, u0, u1, st.r11, st.r12, b0, b1, b2, st.cf, st.zf⟩
  refine kadd fun v2 c2 (E2 : v2 + 2^64 * c2 = u0 + v1) (Q2 : v2 < 2^64) z2 => ?_
  change KP _ _ _ ⟨v1, st.rcx, a0, v0, v2, u1, st.r11, st.r12, b0, b1, b2, c2, z2⟩
  refine kmulx fun u3 v3 (E3 : v3 + 2^64 * u3 = a0 * b2) (Q3 : v3 < 2^64) => ?_
  have W3 : u3 + 1 < 2^64 := hi_bound ha0 hb2 E3
  change KP _ _ _ ⟨v3, st.rcx, a0, v0, v2, u1, u3, st.r12, b0, b1, b2, c2, z2⟩
  refine kadcx fun v4 c4 (E4 : v4 + 2^64 * c4 = u1 + v3 + c2) (Q4 : v4 < 2^64) z4 => ?_
  change KP _ _ _ ⟨v3, st.rcx, a0, v0, v2, v4, u3, st.r12, b0, b1, b2, c4, z4⟩
  refine kmulx fun u5 v5 (E5 : v5 + 2^64 * u5 = a0 * b3) (Q5 : v5 < 2^64) => ?_
  have W5 : u5 + 1 < 2^64 := hi_bound ha0 hb3 E5
  change KP _ _ _ ⟨v5, st.rcx, a0, v0, v2, v4, u3, u5, b0, b1, b2, c4, z4⟩
  refine kadcx fun v6 c6 (E6 : v6 + 2^64 * c6 = u3 + v5 + c4) (Q6 : v6 < 2^64) z6 => ?_
  change KP _ _ _ ⟨v5, st.rcx, a0, v0, v2, v4, v6, u5, b0, b1, b2, c6, z6⟩
  refine kadc_drop rfl fun v7 (E7 : v7 = u5 + 0 + c6) (Q7 : v7 < 2^64) z7 => ?_
  change KP _ _ _ ⟨v5, st.rcx, a0, v0, v2, v4, v6, v7, b0, b1, b2, 0, z7⟩
  have K0 : v0 * 2^0 + v2 * 2^64 + v4 * 2^128 + v6 * 2^192 + v7 * 2^256 = 0 + a0 * 2^0 * (L4.mk b0 b1 b2 b3).val := by
    unfold L4.val
    linear_combination 2^0 * E0 + 2^64 * E1 + 2^64 * E2 + 2^128 * E3 + 2^128 * E4 + 2^192 * E5 + 2^192 * E6 + 2^256 * E7
  clear E0 E1 E2 E3 E4 E5 E6 E7 W0 W1 W3 W5
  refine kmov ?_
  change KP _ _ _ ⟨v5, st.rcx, a1, v0, v2, v4, v6, v7, b0, b1, b2, 0, z7⟩
  refine kmulx fun u8 v8 (E8 : v8 + 2^64 * u8 = a1 * b0) (Q8 : v8 < 2^64) => ?_
  have W8 : u8 + 1 < 2^64 := hi_bound ha1 hb0 E8
  change KP _ _ _ ⟨v8, u8, a1, v0, v2, v4, v6, v7, b0, b1, b2, 0, z7⟩
  refine kadd fun v9 c9 (E9 : v9 + 2^64 * c9 = v2 + v8) (Q9 : v9 < 2^64) z9 => ?_
  change KP _ _ _ ⟨v8, u8, a1, v0, v9, v4, v6, v7, b0, b1, b2, c9, z9⟩
  refine kadcx fun v10 c10 (E10 : v10 + 2^64 * c10 = v4 + u8 + c9) (Q10 : v10 < 2^64) z10 => ?_
  change KP _ _ _ ⟨v8, u8, a1, v0, v9, v10, v6, v7, b0, b1, b2, c10, z10⟩
  refine kadc_drop rfl fun v11 (E11 : v11 = v6 + 0 + c10) (Q11 : v11 < 2^64) z11 => ?_
  change KP _ _ _ ⟨v8, u8, a1, v0, v9, v10, v11, v7, b0, b1, b2, 0, z11⟩
  refine kmulx fun u12 v12 (E12 : v12 + 2^64 * u12 = a1 * b1) (Q12 : v12 < 2^64) => ?_
  have W12 : u12 + 1 < 2^64 := hi_bound ha1 hb1 E12
  change KP _ _ _ ⟨v12, u12, a1, v0, v9, v10, v11, v7, b0, b1, b2, 0, z11⟩
  refine kadd fun v13 c13 (E13 : v13 + 2^64 * c13 = v10 + v12) (Q13 : v13 < 2^64) z13 => ?_
  change KP _ _ _ ⟨v12, u12, a1, v0, v9, v13, v11, v7, b0, b1, b2, c13, z13⟩
  refine kadcx fun v14 c14 (E14 : v14 + 2^64 * c14 = v11 + u12 + c13) (Q14 : v14 < 2^64) z14 => ?_
  change KP _ _ _ ⟨v12, u12, a1, v0, v9, v13, v14, v7, b0, b1, b2, c14, z14⟩
  refine kadc_drop rfl fun v15 (E15 : v15 = v7 + 0 + c14) (Q15 : v15 < 2^64) z15 => ?_
  change KP _ _ _ ⟨v12, u12, a1, v0, v9, v13, v14, v15, b0, b1, b2, 0, z15⟩
  refine kxor ?_
  change KP _ _ _ ⟨v12, u12, a1, v0, v9, v13, v14, v15, 0, b1, b2, 0, true⟩
  refine kmulx fun u16 v16 (E16 : v16 + 2^64 * u16 = a1 * b2) (Q16 : v16 < 2^64) => ?_
  have W16 : u16 + 1 < 2^64 := hi_bound ha1 hb2 E16
  change KP _ _ _ ⟨v16, u16, a1, v0, v9, v13, v14, v15, 0, b1, b2, 0, true⟩
  refine kadd fun v17 c17 (E17 : v17 + 2^64 * c17 = v14 + v16) (Q17 : v17 < 2^64) z17 => ?_
  change KP _ _ _ ⟨v16, u16, a1, v0, v9, v13, v17, v15, 0, b1, b2, c17, z17⟩
  refine kadcx fun v18 c18 (E18 : v18 + 2^64 * c18 = v15 + u16 + c17) (Q18 : v18 < 2^64) z18 => ?_
  change KP _ _ _ ⟨v16, u16, a1, v0, v9, v13, v17, v18, 0, b1, b2, c18, z18⟩
  refine kadc_drop rfl fun v19 (E19 : v19 = 0 + 0 + c18) (Q19 : v19 < 2^64) z19 => ?_
  change KP _ _ _ ⟨v16, u16, a1, v0, v9, v13, v17, v18, v19, b1, b2, 0, z19⟩
  refine kxor ?_
  change KP _ _ _ ⟨v16, u16, a1, v0, v9, v13, v17, v18, v19, 0, b2, 0, true⟩
  refine kmulx fun u20 v20 (E20 : v20 + 2^64 * u20 = a1 * b3) (Q20 : v20 < 2^64) => ?_
  have W20 : u20 + 1 < 2^64 := hi_bound ha1 hb3 E20
  change KP _ _ _ ⟨v20, u20, a1, v0, v9, v13, v17, v18, v19, 0, b2, 0, true⟩
  refine kadd fun v21 c21 (E21 : v21 + 2^64 * c21 = v18 + v20) (Q21 : v21 < 2^64) z21 => ?_
  change KP _ _ _ ⟨v20, u20, a1, v0, v9, v13, v17, v21, v19, 0, b2, c21, z21⟩
  refine kadcx fun v22 c22 (E22 : v22 + 2^64 * c22 = v19 + u20 + c21) (Q22 : v22 < 2^64) z22 => ?_
  change KP _ _ _ ⟨v20, u20, a1, v0, v9, v13, v17, v21, v22, 0, b2, c22, z22⟩
  refine kadc_drop rfl fun v23 (E23 : v23 = 0 + 0 + c22) (Q23 : v23 < 2^64) z23 => ?_
  change KP _ _ _ ⟨v20, u20, a1, v0, v9, v13, v17, v21, v22, v23, b2, 0, z23⟩
  have K1 : v0 * 2^0 + v9 * 2^64 + v13 * 2^128 + v17 * 2^192 + v21 * 2^256 + v22 * 2^320 + v23 * 2^384 = v0 * 2^0 + v2 * 2^64 + v4 * 2^128 + v6 * 2^192 + v7 * 2^256 + a1 * 2^64 * (L4.mk b0 b1 b2 b3).val := by
    unfold L4.val
    linear_combination 2^64 * E8 + 2^64 * E9 + 2^128 * E10 + 2^192 * E11 + 2^128 * E12 + 2^128 * E13 + 2^192 * E14 + 2^256 * E15 + 2^192 * E16 + 2^192 * E17 + 2^256 * E18 + 2^320 * E19 + 2^256 * E20 + 2^256 * E21 + 2^320 * E22 + 2^384 * E23
  clear E8 E9 E10 E11 E12 E13 E14 E15 E16 E17 E18 E19 E20 E21 E22 E23 W8 W12 W16 W20
  refine kmov ?_
  change KP _ _ _ ⟨v20, u20, a2, v0, v9, v13, v17, v21, v22, v23, b2, 0, z23⟩
  refine kmulx fun u24 v24 (E24 : v24 + 2^64 * u24 = a2 * b0) (Q24 : v24 < 2^64) => ?_
  have W24 : u24 + 1 < 2^64 := hi_bound ha2 hb0 E24
  change KP _ _ _ ⟨v24, u24, a2, v0, v9, v13, v17, v21, v22, v23, b2, 0, z23⟩
  refine kadd fun v25 c25 (E25 : v25 + 2^64 * c25 = v13 + v24) (Q25 : v25 < 2^64) z25 => ?_
  change KP _ _ _ ⟨v24, u24, a2, v0, v9, v25, v17, v21, v22, v23, b2, c25, z25⟩
  refine kadcx fun v26 c26 (E26 : v26 + 2^64 * c26 = v17 + u24 + c25) (Q26 : v26 < 2^64) z26 => ?_
  change KP _ _ _ ⟨v24, u24, a2, v0, v9, v25, v26, v21, v22, v23, b2, c26, z26⟩
  refine kadc_drop rfl fun v27 (E27 : v27 = v21 + 0 + c26) (Q27 : v27 < 2^64) z27 => ?_
  change KP _ _ _ ⟨v24, u24, a2, v0, v9, v25, v26, v27, v22, v23, b2, 0, z27⟩
  refine kmulx fun u28 v28 (E28 : v28 + 2^64 * u28 = a2 * b1) (Q28 : v28 < 2^64) => ?_
  have W28 : u28 + 1 < 2^64 := hi_bound ha2 hb1 E28
  change KP _ _ _ ⟨v28, u28, a2, v0, v9, v25, v26, v27, v22, v23, b2, 0, z27⟩
  refine kadd fun v29 c29 (E29 : v29 + 2^64 * c29 = v26 + v28) (Q29 : v29 < 2^64) z29 => ?_
  change KP _ _ _ ⟨v28, u28, a2, v0, v9, v25, v29, v27, v22, v23, b2, c29, z29⟩
  refine kadcx fun v30 c30 (E30 : v30 + 2^64 * c30 = v27 + u28 + c29) (Q30 : v30 < 2^64) z30 => ?_
  change KP _ _ _ ⟨v28, u28, a2, v0, v9, v25, v29, v30, v22, v23, b2, c30, z30⟩
  refine kadc_drop rfl fun v31 (E31 : v31 = v22 + 0 + c30) (Q31 : v31 < 2^64) z31 => ?_
  change KP _ _ _ ⟨v28, u28, a2, v0, v9, v25, v29, v30, v31, v23, b2, 0, z31⟩
  refine kmulx fun u32 v32 (E32 : v32 + 2^64 * u32 = a2 * b2) (Q32 : v32 < 2^64) => ?_
  have W32 : u32 + 1 < 2^64 := hi_bound ha2 hb2 E32
  change KP _ _ _ ⟨v32, u32, a2, v0, v9, v25, v29, v30, v31, v23, b2, 0, z31⟩
  refine kadd fun v33 c33 (E33 : v33 + 2^64 * c33 = v30 + v32) (Q33 : v33 < 2^64) z33 => ?_
  change KP _ _ _ ⟨v32, u32, a2, v0, v9, v25, v29, v33, v31, v23, b2, c33, z33⟩
  refine kadcx fun v34 c34 (E34 : v34 + 2^64 * c34 = v31 + u32 + c33) (Q34 : v34 < 2^64) z34 => ?_
  change KP _ _ _ ⟨v32, u32, a2, v0, v9, v25, v29, v33, v34, v23, b2, c34, z34⟩
  refine kadc_drop rfl fun v35 (E35 : v35 = v23 + 0 + c34) (Q35 : v35 < 2^64) z35 => ?_
  change KP _ _ _ ⟨v32, u32, a2, v0, v9, v25, v29, v33, v34, v35, b2, 0, z35⟩
  refine kxor ?_
  change KP _ _ _ ⟨v32, u32, a2, v0, v9, v25, v29, v33, v34, v35, 0, 0, true⟩
  refine kmulx fun u36 v36 (E36 : v36 + 2^64 * u36 = a2 * b3) (Q36 : v36 < 2^64) => ?_
  have W36 : u36 + 1 < 2^64 := hi_bound ha2 hb3 E36
  change KP _ _ _ ⟨v36, u36, a2, v0, v9, v25, v29, v33, v34, v35, 0, 0, true⟩
  refine kadd fun v37 c37 (E37 : v37 + 2^64 * c37 = v34 + v36) (Q37 : v37 < 2^64) z37 => ?_
  change KP _ _ _ ⟨v36, u36, a2, v0, v9, v25, v29, v33, v37, v35, 0, c37, z37⟩
  refine kadcx fun v38 c38 (E38 : v38 + 2^64 * c38 = v35 + u36 + c37) (Q38 : v38 < 2^64) z38 => ?_
  change KP _ _ _ ⟨v36, u36, a2, v0, v9, v25, v29, v33, v37, v38, 0, c38, z38⟩
  refine kadc_drop rfl fun v39 (E39 : v39 = 0 + 0 + c38) (Q39 : v39 < 2^64) z39 => ?_
  change KP _ _ _ ⟨v36, u36, a2, v0, v9, v25, v29, v33, v37, v38, v39, 0, z39⟩
  have K2 : v0 * 2^0 + v9 * 2^64 + v25 * 2^128 + v29 * 2^192 + v33 * 2^256 + v37 * 2^320 + v38 * 2^384 + v39 * 2^448 = v0 * 2^0 + v9 * 2^64 + v13 * 2^128 + v17 * 2^192 + v21 * 2^256 + v22 * 2^320 + v23 * 2^384 + a2 * 2^128 * (L4.mk b0 b1 b2 b3).val := by
    unfold L4.val
    linear_combination 2^128 * E24 + 2^128 * E25 + 2^192 * E26 + 2^256 * E27 + 2^192 * E28 + 2^192 * E29 + 2^256 * E30 + 2^320 * E31 + 2^256 * E32 + 2^256 * E33 + 2^320 * E34 + 2^384 * E35 + 2^320 * E36 + 2^320 * E37 + 2^384 * E38 + 2^448 * E39
  clear E24 E25 E26 E27 E28 E29 E30 E31 E32 E33 E34 E35 E36 E37 E38 E39 W24 W28 W32 W36
  refine kmov ?_
  change KP _ _ _ ⟨v36, u36, a3, v0, v9, v25, v29, v33, v37, v38, v39, 0, z39⟩
  refine kmulx fun u40 v40 (E40 : v40 + 2^64 * u40 = a3 * b0) (Q40 : v40 < 2^64) => ?_
  have W40 : u40 + 1 < 2^64 := hi_bound ha3 hb0 E40
  change KP _ _ _ ⟨v40, u40, a3, v0, v9, v25, v29, v33, v37, v38, v39, 0, z39⟩
  refine kadd fun v41 c41 (E41 : v41 + 2^64 * c41 = v29 + v40) (Q41 : v41 < 2^64) z41 => ?_
  change KP _ _ _ ⟨v40, u40, a3, v0, v9, v25, v41, v33, v37, v38, v39, c41, z41⟩
  refine kadcx fun v42 c42 (E42 : v42 + 2^64 * c42 = v33 + u40 + c41) (Q42 : v42 < 2^64) z42 => ?_
  change KP _ _ _ ⟨v40, u40, a3, v0, v9, v25, v41, v42, v37, v38, v39, c42, z42⟩
  refine kadc_drop rfl fun v43 (E43 : v43 = v37 + 0 + c42) (Q43 : v43 < 2^64) z43 => ?_
  change KP _ _ _ ⟨v40, u40, a3, v0, v9, v25, v41, v42, v43, v38, v39, 0, z43⟩
  refine kmulx fun u44 v44 (E44 : v44 + 2^64 * u44 = a3 * b1) (Q44 : v44 < 2^64) => ?_
  have W44 : u44 + 1 < 2^64 := hi_bound ha3 hb1 E44
  change KP _ _ _ ⟨v44, u44, a3, v0, v9, v25, v41, v42, v43, v38, v39, 0, z43⟩
  refine kadd fun v45 c45 (E45 : v45 + 2^64 * c45 = v42 + v44) (Q45 : v45 < 2^64) z45 => ?_
  change KP _ _ _ ⟨v44, u44, a3, v0, v9, v25, v41, v45, v43, v38, v39, c45, z45⟩
  refine kadcx fun v46 c46 (E46 : v46 + 2^64 * c46 = v43 + u44 + c45) (Q46 : v46 < 2^64) z46 => ?_
  change KP _ _ _ ⟨v44, u44, a3, v0, v9, v25, v41, v45, v46, v38, v39, c46, z46⟩
  refine kadc_drop rfl fun v47 (E47 : v47 = v38 + 0 + c46) (Q47 : v47 < 2^64) z47 => ?_
  change KP _ _ _ ⟨v44, u44, a3, v0, v9, v25, v41, v45, v46, v47, v39, 0, z47⟩
  refine kmulx fun u48 v48 (E48 : v48 + 2^64 * u48 = a3 * b2) (Q48 : v48 < 2^64) => ?_
  have W48 : u48 + 1 < 2^64 := hi_bound ha3 hb2 E48
  change KP _ _ _ ⟨v48, u48, a3, v0, v9, v25, v41, v45, v46, v47, v39, 0, z47⟩
  refine kadd fun v49 c49 (E49 : v49 + 2^64 * c49 = v46 + v48) (Q49 : v49 < 2^64) z49 => ?_
  change KP _ _ _ ⟨v48, u48, a3, v0, v9, v25, v41, v45, v49, v47, v39, c49, z49⟩
  refine kadcx fun v50 c50 (E50 : v50 + 2^64 * c50 = v47 + u48 + c49) (Q50 : v50 < 2^64) z50 => ?_
  change KP _ _ _ ⟨v48, u48, a3, v0, v9, v25, v41, v45, v49, v50, v39, c50, z50⟩
  refine kadc_drop rfl fun v51 (E51 : v51 = v39 + 0 + c50) (Q51 : v51 < 2^64) z51 => ?_
  change KP _ _ _ ⟨v48, u48, a3, v0, v9, v25, v41, v45, v49, v50, v51, 0, z51⟩
  refine kmulx fun u52 v52 (E52 : v52 + 2^64 * u52 = a3 * b3) (Q52 : v52 < 2^64) => ?_
  have W52 : u52 + 1 < 2^64 := hi_bound ha3 hb3 E52
  change KP _ _ _ ⟨v52, u52, a3, v0, v9, v25, v41, v45, v49, v50, v51, 0, z51⟩
  refine kadd fun v53 c53 (E53 : v53 + 2^64 * c53 = v50 + v52) (Q53 : v53 < 2^64) z53 => ?_
  change KP _ _ _ ⟨v52, u52, a3, v0, v9, v25, v41, v45, v49, v53, v51, c53, z53⟩
  refine kadc_drop rfl fun v54 (E54 : v54 = v51 + u52 + c53) (Q54 : v54 < 2^64) z54 => ?_
  change KP _ _ _ ⟨v52, u52, a3, v0, v9, v25, v41, v45, v49, v53, v54, 0, z54⟩
  have K3 : v0 * 2^0 + v9 * 2^64 + v25 * 2^128 + v41 * 2^192 + v45 * 2^256 + v49 * 2^320 + v53 * 2^384 + v54 * 2^448 = v0 * 2^0 + v9 * 2^64 + v25 * 2^128 + v29 * 2^192 + v33 * 2^256 + v37 * 2^320 + v38 * 2^384 + v39 * 2^448 + a3 * 2^192 * (L4.mk b0 b1 b2 b3).val := by
    unfold L4.val
    linear_combination 2^192 * E40 + 2^192 * E41 + 2^256 * E42 + 2^320 * E43 + 2^256 * E44 + 2^256 * E45 + 2^320 * E46 + 2^384 * E47 + 2^320 * E48 + 2^320 * E49 + 2^384 * E50 + 2^448 * E51 + 2^384 * E52 + 2^384 * E53 + 2^448 * E54
  clear E40 E41 E42 E43 E44 E45 E46 E47 E48 E49 E50 E51 E52 E53 E54 W40 W44 W48 W52
  refine kmov ?_
  change KP _ _ _ ⟨v52, u52, hardInv, v0, v9, v25, v41, v45, v49, v53, v54, 0, z54⟩
  refine kmulx fun u55 v55 (E55 : v55 + 2^64 * u55 = hardInv * v0) (Q55 : v55 < 2^64) => ?_
  have W55 : u55 + 1 < 2^64 := hi_bound (by decide) Q0 E55
  change KP _ _ _ ⟨u55, u52, v55, v0, v9, v25, v41, v45, v49, v53, v54, 0, z54⟩
  refine kmulx fun u56 v56 (E56 : v56 + 2^64 * u56 = v55 * m0) (Q56 : v56 < 2^64) => ?_
  have W56 : u56 + 1 < 2^64 := hi_bound Q55 hm0 E56
  change KP _ _ _ ⟨v56, u56, v55, v0, v9, v25, v41, v45, v49, v53, v54, 0, z54⟩
  refine kadd fun v57 c57 (E57 : v57 + 2^64 * c57 = v0 + v56) (Q57 : v57 < 2^64) z57 => ?_
  change KP _ _ _ ⟨v56, u56, v55, v57, v9, v25, v41, v45, v49, v53, v54, c57, z57⟩
  refine kadcx fun v58 c58 (E58 : v58 + 2^64 * c58 = v9 + u56 + c57) (Q58 : v58 < 2^64) z58 => ?_
  change KP _ _ _ ⟨v56, u56, v55, v57, v58, v25, v41, v45, v49, v53, v54, c58, z58⟩
  refine kadc_drop rfl fun v59 (E59 : v59 = v25 + 0 + c58) (Q59 : v59 < 2^64) z59 => ?_
  change KP _ _ _ ⟨v56, u56, v55, v57, v58, v59, v41, v45, v49, v53, v54, 0, z59⟩
  refine kmulx fun u60 v60 (E60 : v60 + 2^64 * u60 = v55 * m1) (Q60 : v60 < 2^64) => ?_
  have W60 : u60 + 1 < 2^64 := hi_bound Q55 hm1 E60
  change KP _ _ _ ⟨v60, u60, v55, v57, v58, v59, v41, v45, v49, v53, v54, 0, z59⟩
  refine kadd fun v61 c61 (E61 : v61 + 2^64 * c61 = v58 + v60) (Q61 : v61 < 2^64) z61 => ?_
  change KP _ _ _ ⟨v60, u60, v55, v57, v61, v59, v41, v45, v49, v53, v54, c61, z61⟩
  refine kadcx fun v62 c62 (E62 : v62 + 2^64 * c62 = v59 + u60 + c61) (Q62 : v62 < 2^64) z62 => ?_
  change KP _ _ _ ⟨v60, u60, v55, v57, v61, v62, v41, v45, v49, v53, v54, c62, z62⟩
  refine kadc_drop rfl fun v63 (E63 : v63 = v41 + 0 + c62) (Q63 : v63 < 2^64) z63 => ?_
  change KP _ _ _ ⟨v60, u60, v55, v57, v61, v62, v63, v45, v49, v53, v54, 0, z63⟩
  refine kmulx fun u64 v64 (E64 : v64 + 2^64 * u64 = v55 * m2) (Q64 : v64 < 2^64) => ?_
  have W64 : u64 + 1 < 2^64 := hi_bound Q55 hm2 E64
  change KP _ _ _ ⟨v64, u64, v55, v57, v61, v62, v63, v45, v49, v53, v54, 0, z63⟩
  refine kadd fun v65 c65 (E65 : v65 + 2^64 * c65 = v62 + v64) (Q65 : v65 < 2^64) z65 => ?_
  change KP _ _ _ ⟨v64, u64, v55, v57, v61, v65, v63, v45, v49, v53, v54, c65, z65⟩
  refine kadcx fun v66 c66 (E66 : v66 + 2^64 * c66 = v63 + u64 + c65) (Q66 : v66 < 2^64) z66 => ?_
  change KP _ _ _ ⟨v64, u64, v55, v57, v61, v65, v66, v45, v49, v53, v54, c66, z66⟩
  refine kadc_drop rfl fun v67 (E67 : v67 = v45 + 0 + c66) (Q67 : v67 < 2^64) z67 => ?_
  change KP _ _ _ ⟨v64, u64, v55, v57, v61, v65, v66, v67, v49, v53, v54, 0, z67⟩
  refine kmulx fun u68 v68 (E68 : v68 + 2^64 * u68 = v55 * m3) (Q68 : v68 < 2^64) => ?_
  have W68 : u68 + 1 < 2^64 := hi_bound Q55 hm3 E68
  change KP _ _ _ ⟨v68, u68, v55, v57, v61, v65, v66, v67, v49, v53, v54, 0, z67⟩
  refine kadd fun v69 c69 (E69 : v69 + 2^64 * c69 = v66 + v68) (Q69 : v69 < 2^64) z69 => ?_
  change KP _ _ _ ⟨v68, u68, v55, v57, v61, v65, v69, v67, v49, v53, v54, c69, z69⟩
  refine kadcx fun v70 c70 (E70 : v70 + 2^64 * c70 = v67 + u68 + c69) (Q70 : v70 < 2^64) z70 => ?_
  change KP _ _ _ ⟨v68, u68, v55, v57, v61, v65, v69, v70, v49, v53, v54, c70, z70⟩
  refine kadc_drop rfl fun v71 (E71 : v71 = v49 + 0 + c70) (Q71 : v71 < 2^64) z71 => ?_
  change KP _ _ _ ⟨v68, u68, v55, v57, v61, v65, v69, v70, v71, v53, v54, 0, z71⟩
  have Z0 : v57 = 0 := low_zero hinv E55 E56 E57 Q57
  have K4 : v57 * 2^0 + v61 * 2^64 + v65 * 2^128 + v69 * 2^192 + v70 * 2^256 + v71 * 2^320 + v53 * 2^384 + v54 * 2^448 = v0 * 2^0 + v9 * 2^64 + v25 * 2^128 + v41 * 2^192 + v45 * 2^256 + v49 * 2^320 + v53 * 2^384 + v54 * 2^448 + v55 * 2^0 * (L4.mk m0 m1 m2 m3).val := by
    unfold L4.val
    linear_combination 2^0 * E56 + 2^0 * E57 + 2^64 * E58 + 2^128 * E59 + 2^64 * E60 + 2^64 * E61 + 2^128 * E62 + 2^192 * E63 + 2^128 * E64 + 2^128 * E65 + 2^192 * E66 + 2^256 * E67 + 2^192 * E68 + 2^192 * E69 + 2^256 * E70 + 2^320 * E71
  clear E55 E56 E57 E58 E59 E60 E61 E62 E63 E64 E65 E66 E67 E68 E69 E70 E71 W55 W56 W60 W64 W68
  refine kmov ?_
  change KP _ _ _ ⟨v68, u68, hardInv, v57, v61, v65, v69, v70, v71, v53, v54, 0, z71⟩
  refine kmulx fun u72 v72 (E72 : v72 + 2^64 * u72 = hardInv * v61) (Q72 : v72 < 2^64) => ?_
  have W72 : u72 + 1 < 2^64 := hi_bound (by decide) Q61 E72
  change KP _ _ _ ⟨u72, u68, v72, v57, v61, v65, v69, v70, v71, v53, v54, 0, z71⟩
  refine kmulx fun u73 v73 (E73 : v73 + 2^64 * u73 = v72 * m0) (Q73 : v73 < 2^64) => ?_
  have W73 : u73 + 1 < 2^64 := hi_bound Q72 hm0 E73
  change KP _ _ _ ⟨u73, v73, v72, v57, v61, v65, v69, v70, v71, v53, v54, 0, z71⟩
  refine kadd fun v74 c74 (E74 : v74 + 2^64 * c74 = v61 + v73) (Q74 : v74 < 2^64) z74 => ?_
  change KP _ _ _ ⟨u73, v73, v72, v57, v74, v65, v69, v70, v71, v53, v54, c74, z74⟩
  refine kadcx fun v75 c75 (E75 : v75 + 2^64 * c75 = v65 + u73 + c74) (Q75 : v75 < 2^64) z75 => ?_
  change KP _ _ _ ⟨u73, v73, v72, v57, v74, v75, v69, v70, v71, v53, v54, c75, z75⟩
  refine kadc_drop rfl fun v76 (E76 : v76 = v69 + 0 + c75) (Q76 : v76 < 2^64) z76 => ?_
  change KP _ _ _ ⟨u73, v73, v72, v57, v74, v75, v76, v70, v71, v53, v54, 0, z76⟩
  refine kmulx fun u77 v77 (E77 : v77 + 2^64 * u77 = v72 * m1) (Q77 : v77 < 2^64) => ?_
  have W77 : u77 + 1 < 2^64 := hi_bound Q72 hm1 E77
  change KP _ _ _ ⟨u77, v77, v72, v57, v74, v75, v76, v70, v71, v53, v54, 0, z76⟩
  refine kadd fun v78 c78 (E78 : v78 + 2^64 * c78 = v75 + v77) (Q78 : v78 < 2^64) z78 => ?_
  change KP _ _ _ ⟨u77, v77, v72, v57, v74, v78, v76, v70, v71, v53, v54, c78, z78⟩
  refine kadcx fun v79 c79 (E79 : v79 + 2^64 * c79 = v76 + u77 + c78) (Q79 : v79 < 2^64) z79 => ?_
  change KP _ _ _ ⟨u77, v77, v72, v57, v74, v78, v79, v70, v71, v53, v54, c79, z79⟩
  refine kadc_drop rfl fun v80 (E80 : v80 = v70 + 0 + c79) (Q80 : v80 < 2^64) z80 => ?_
  change KP _ _ _ ⟨u77, v77, v72, v57, v74, v78, v79, v80, v71, v53, v54, 0, z80⟩
  refine kmulx fun u81 v81 (E81 : v81 + 2^64 * u81 = v72 * m2) (Q81 : v81 < 2^64) => ?_
  have W81 : u81 + 1 < 2^64 := hi_bound Q72 hm2 E81
  change KP _ _ _ ⟨u81, v81, v72, v57, v74, v78, v79, v80, v71, v53, v54, 0, z80⟩
  refine kadd fun v82 c82 (E82 : v82 + 2^64 * c82 = v79 + v81) (Q82 : v82 < 2^64) z82 => ?_
  change KP _ _ _ ⟨u81, v81, v72, v57, v74, v78, v82, v80, v71, v53, v54, c82, z82⟩
  refine kadcx fun v83 c83 (E83 : v83 + 2^64 * c83 = v80 + u81 + c82) (Q83 : v83 < 2^64) z83 => ?_
  change KP _ _ _ ⟨u81, v81, v72, v57, v74, v78, v82, v83, v71, v53, v54, c83, z83⟩
  refine kadc_drop rfl fun v84 (E84 : v84 = v71 + 0 + c83) (Q84 : v84 < 2^64) z84 => ?_
  change KP _ _ _ ⟨u81, v81, v72, v57, v74, v78, v82, v83, v84, v53, v54, 0, z84⟩
  refine kmulx fun u85 v85 (E85 : v85 + 2^64 * u85 = v72 * m3) (Q85 : v85 < 2^64) => ?_
  have W85 : u85 + 1 < 2^64 := hi_bound Q72 hm3 E85
  change KP _ _ _ ⟨u85, v85, v72, v57, v74, v78, v82, v83, v84, v53, v54, 0, z84⟩
  refine kadd fun v86 c86 (E86 : v86 + 2^64 * c86 = v83 + v85) (Q86 : v86 < 2^64) z86 => ?_
  change KP _ _ _ ⟨u85, v85, v72, v57, v74, v78, v82, v86, v84, v53, v54, c86, z86⟩
  refine kadcx fun v87 c87 (E87 : v87 + 2^64 * c87 = v84 + u85 + c86) (Q87 : v87 < 2^64) z87 => ?_
  change KP _ _ _ ⟨u85, v85, v72, v57, v74, v78, v82, v86, v87, v53, v54, c87, z87⟩
  refine kadc_drop rfl fun v88 (E88 : v88 = v53 + 0 + c87) (Q88 : v88 < 2^64) z88 => ?_
  change KP _ _ _ ⟨u85, v85, v72, v57, v74, v78, v82, v86, v87, v88, v54, 0, z88⟩
  have Z1 : v74 = 0 := low_zero hinv E72 E73 E74 Q74
  have K5 : v57 * 2^0 + v74 * 2^64 + v78 * 2^128 + v82 * 2^192 + v86 * 2^256 + v87 * 2^320 + v88 * 2^384 + v54 * 2^448 = v57 * 2^0 + v61 * 2^64 + v65 * 2^128 + v69 * 2^192 + v70 * 2^256 + v71 * 2^320 + v53 * 2^384 + v54 * 2^448 + v72 * 2^64 * (L4.mk m0 m1 m2 m3).val := by
    unfold L4.val
    linear_combination 2^64 * E73 + 2^64 * E74 + 2^128 * E75 + 2^192 * E76 + 2^128 * E77 + 2^128 * E78 + 2^192 * E79 + 2^256 * E80 + 2^192 * E81 + 2^192 * E82 + 2^256 * E83 + 2^320 * E84 + 2^256 * E85 + 2^256 * E86 + 2^320 * E87 + 2^384 * E88
  clear E72 E73 E74 E75 E76 E77 E78 E79 E80 E81 E82 E83 E84 E85 E86 E87 E88 W72 W73 W77 W81 W85
  refine kmov ?_
  change KP _ _ _ ⟨u85, v85, hardInv, v57, v74, v78, v82, v86, v87, v88, v54, 0, z88⟩
  refine kmulx fun u89 v89 (E89 : v89 + 2^64 * u89 = hardInv * v78) (Q89 : v89 < 2^64) => ?_
  have W89 : u89 + 1 < 2^64 := hi_bound (by decide) Q78 E89
  change KP _ _ _ ⟨u89, v85, v89, v57, v74, v78, v82, v86, v87, v88, v54, 0, z88⟩
  refine kmulx fun u90 v90 (E90 : v90 + 2^64 * u90 = v89 * m0) (Q90 : v90 < 2^64) => ?_
  have W90 : u90 + 1 < 2^64 := hi_bound Q89 hm0 E90
  change KP _ _ _ ⟨u90, v90, v89, v57, v74, v78, v82, v86, v87, v88, v54, 0, z88⟩
  refine kadd fun v91 c91 (E91 : v91 + 2^64 * c91 = v78 + v90) (Q91 : v91 < 2^64) z91 => ?_
  change KP _ _ _ ⟨u90, v90, v89, v57, v74, v91, v82, v86, v87, v88, v54, c91, z91⟩
  refine kadcx fun v92 c92 (E92 : v92 + 2^64 * c92 = v82 + u90 + c91) (Q92 : v92 < 2^64) z92 => ?_
  change KP _ _ _ ⟨u90, v90, v89, v57, v74, v91, v92, v86, v87, v88, v54, c92, z92⟩
  refine kadc_drop rfl fun v93 (E93 : v93 = v86 + 0 + c92) (Q93 : v93 < 2^64) z93 => ?_
  change KP _ _ _ ⟨u90, v90, v89, v57, v74, v91, v92, v93, v87, v88, v54, 0, z93⟩
  refine kmulx fun u94 v94 (E94 : v94 + 2^64 * u94 = v89 * m1) (Q94 : v94 < 2^64) => ?_
  have W94 : u94 + 1 < 2^64 := hi_bound Q89 hm1 E94
  change KP _ _ _ ⟨u94, v94, v89, v57, v74, v91, v92, v93, v87, v88, v54, 0, z93⟩
  refine kadd fun v95 c95 (E95 : v95 + 2^64 * c95 = v92 + v94) (Q95 : v95 < 2^64) z95 => ?_
  change KP _ _ _ ⟨u94, v94, v89, v57, v74, v91, v95, v93, v87, v88, v54, c95, z95⟩
  refine kadcx fun v96 c96 (E96 : v96 + 2^64 * c96 = v93 + u94 + c95) (Q96 : v96 < 2^64) z96 => ?_
  change KP _ _ _ ⟨u94, v94, v89, v57, v74, v91, v95, v96, v87, v88, v54, c96, z96⟩
  refine kadc_drop rfl fun v97 (E97 : v97 = v87 + 0 + c96) (Q97 : v97 < 2^64) z97 => ?_
  change KP _ _ _ ⟨u94, v94, v89, v57, v74, v91, v95, v96, v97, v88, v54, 0, z97⟩
  refine kmulx fun u98 v98 (E98 : v98 + 2^64 * u98 = v89 * m2) (Q98 : v98 < 2^64) => ?_
  have W98 : u98 + 1 < 2^64 := hi_bound Q89 hm2 E98
  change KP _ _ _ ⟨u98, v98, v89, v57, v74, v91, v95, v96, v97, v88, v54, 0, z97⟩
  refine kadd fun v99 c99 (E99 : v99 + 2^64 * c99 = v96 + v98) (Q99 : v99 < 2^64) z99 => ?_
  change KP _ _ _ ⟨u98, v98, v89, v57, v74, v91, v95, v99, v97, v88, v54, c99, z99⟩
  refine kadcx fun v100 c100 (E100 : v100 + 2^64 * c100 = v97 + u98 + c99) (Q100 : v100 < 2^64) z100 => ?_
  change KP _ _ _ ⟨u98, v98, v89, v57, v74, v91, v95, v99, v100, v88, v54, c100, z100⟩
  refine kadc_drop rfl fun v101 (E101 : v101 = v88 + 0 + c100) (Q101 : v101 < 2^64) z101 => ?_
  change KP _ _ _ ⟨u98, v98, v89, v57, v74, v91, v95, v99, v100, v101, v54, 0, z101⟩
  refine kmulx fun u102 v102 (E102 : v102 + 2^64 * u102 = v89 * m3) (Q102 : v102 < 2^64) => ?_
  have W102 : u102 + 1 < 2^64 := hi_bound Q89 hm3 E102
  change KP _ _ _ ⟨u102, v102, v89, v57, v74, v91, v95, v99, v100, v101, v54, 0, z101⟩
  refine kadd fun v103 c103 (E103 : v103 + 2^64 * c103 = v100 + v102) (Q103 : v103 < 2^64) z103 => ?_
  change KP _ _ _ ⟨u102, v102, v89, v57, v74, v91, v95, v99, v103, v101, v54, c103, z103⟩
  refine kadcx fun v104 c104 (E104 : v104 + 2^64 * c104 = v101 + u102 + c103) (Q104 : v104 < 2^64) z104 => ?_
  change KP _ _ _ ⟨u102, v102, v89, v57, v74, v91, v95, v99, v103, v104, v54, c104, z104⟩
  refine kadc_drop rfl fun v105 (E105 : v105 = v54 + 0 + c104) (Q105 : v105 < 2^64) z105 => ?_
  change KP _ _ _ ⟨u102, v102, v89, v57, v74, v91, v95, v99, v103, v104, v105, 0, z105⟩
  have Z2 : v91 = 0 := low_zero hinv E89 E90 E91 Q91
  have K6 : v57 * 2^0 + v74 * 2^64 + v91 * 2^128 + v95 * 2^192 + v99 * 2^256 + v103 * 2^320 + v104 * 2^384 + v105 * 2^448 = v57 * 2^0 + v74 * 2^64 + v78 * 2^128 + v82 * 2^192 + v86 * 2^256 + v87 * 2^320 + v88 * 2^384 + v54 * 2^448 + v89 * 2^128 * (L4.mk m0 m1 m2 m3).val := by
    unfold L4.val
    linear_combination 2^128 * E90 + 2^128 * E91 + 2^192 * E92 + 2^256 * E93 + 2^192 * E94 + 2^192 * E95 + 2^256 * E96 + 2^320 * E97 + 2^256 * E98 + 2^256 * E99 + 2^320 * E100 + 2^384 * E101 + 2^320 * E102 + 2^320 * E103 + 2^384 * E104 + 2^448 * E105
  clear E89 E90 E91 E92 E93 E94 E95 E96 E97 E98 E99 E100 E101 E102 E103 E104 E105 W89 W90 W94 W98 W102
  refine kmov ?_
  change KP _ _ _ ⟨u102, v102, hardInv, v57, v74, v91, v95, v99, v103, v104, v105, 0, z105⟩
  refine kmulx fun u106 v106 (E106 : v106 + 2^64 * u106 = hardInv * v95) (Q106 : v106 < 2^64) => ?_
  have W106 : u106 + 1 < 2^64 := hi_bound (by decide) Q95 E106
  change KP _ _ _ ⟨u106, v102, v106, v57, v74, v91, v95, v99, v103, v104, v105, 0, z105⟩
  refine kmulx fun u107 v107 (E107 : v107 + 2^64 * u107 = v106 * m0) (Q107 : v107 < 2^64) => ?_
  have W107 : u107 + 1 < 2^64 := hi_bound Q106 hm0 E107
  change KP _ _ _ ⟨u107, v107, v106, v57, v74, v91, v95, v99, v103, v104, v105, 0, z105⟩
  refine kadd fun v108 c108 (E108 : v108 + 2^64 * c108 = v95 + v107) (Q108 : v108 < 2^64) z108 => ?_
  change KP _ _ _ ⟨u107, v107, v106, v57, v74, v91, v108, v99, v103, v104, v105, c108, z108⟩
  refine kadcx fun v109 c109 (E109 : v109 + 2^64 * c109 = v99 + u107 + c108) (Q109 : v109 < 2^64) z109 => ?_
  change KP _ _ _ ⟨u107, v107, v106, v57, v74, v91, v108, v109, v103, v104, v105, c109, z109⟩
  refine kadc_drop rfl fun v110 (E110 : v110 = v103 + 0 + c109) (Q110 : v110 < 2^64) z110 => ?_
  change KP _ _ _ ⟨u107, v107, v106, v57, v74, v91, v108, v109, v110, v104, v105, 0, z110⟩
  refine kmulx fun u111 v111 (E111 : v111 + 2^64 * u111 = v106 * m1) (Q111 : v111 < 2^64) => ?_
  have W111 : u111 + 1 < 2^64 := hi_bound Q106 hm1 E111
  change KP _ _ _ ⟨u111, v111, v106, v57, v74, v91, v108, v109, v110, v104, v105, 0, z110⟩
  refine kadd fun v112 c112 (E112 : v112 + 2^64 * c112 = v109 + v111) (Q112 : v112 < 2^64) z112 => ?_
  change KP _ _ _ ⟨u111, v111, v106, v57, v74, v91, v108, v112, v110, v104, v105, c112, z112⟩
  refine kadcx fun v113 c113 (E113 : v113 + 2^64 * c113 = v110 + u111 + c112) (Q113 : v113 < 2^64) z113 => ?_
  change KP _ _ _ ⟨u111, v111, v106, v57, v74, v91, v108, v112, v113, v104, v105, c113, z113⟩
  refine kadc_drop rfl fun v114 (E114 : v114 = v104 + 0 + c113) (Q114 : v114 < 2^64) z114 => ?_
  change KP _ _ _ ⟨u111, v111, v106, v57, v74, v91, v108, v112, v113, v114, v105, 0, z114⟩
  refine kmulx fun u115 v115 (E115 : v115 + 2^64 * u115 = v106 * m2) (Q115 : v115 < 2^64) => ?_
  have W115 : u115 + 1 < 2^64 := hi_bound Q106 hm2 E115
  change KP _ _ _ ⟨u115, v115, v106, v57, v74, v91, v108, v112, v113, v114, v105, 0, z114⟩
  refine kadd fun v116 c116 (E116 : v116 + 2^64 * c116 = v113 + v115) (Q116 : v116 < 2^64) z116 => ?_
  change KP _ _ _ ⟨u115, v115, v106, v57, v74, v91, v108, v112, v116, v114, v105, c116, z116⟩
  refine kadcx fun v117 c117 (E117 : v117 + 2^64 * c117 = v114 + u115 + c116) (Q117 : v117 < 2^64) z117 => ?_
  change KP _ _ _ ⟨u115, v115, v106, v57, v74, v91, v108, v112, v116, v117, v105, c117, z117⟩
  refine kadc_drop rfl fun v118 (E118 : v118 = v105 + 0 + c117) (Q118 : v118 < 2^64) z118 => ?_
  change KP _ _ _ ⟨u115, v115, v106, v57, v74, v91, v108, v112, v116, v117, v118, 0, z118⟩
  refine kmulx fun u119 v119 (E119 : v119 + 2^64 * u119 = v106 * m3) (Q119 : v119 < 2^64) => ?_
  have W119 : u119 + 1 < 2^64 := hi_bound Q106 hm3 E119
  change KP _ _ _ ⟨u119, v119, v106, v57, v74, v91, v108, v112, v116, v117, v118, 0, z118⟩
  refine kadd fun v120 c120 (E120 : v120 + 2^64 * c120 = v117 + v119) (Q120 : v120 < 2^64) z120 => ?_
  change KP _ _ _ ⟨u119, v119, v106, v57, v74, v91, v108, v112, v116, v120, v118, c120, z120⟩
  refine kadcx_drop rfl fun v121 (E121 : v121 = v118 + u119 + c120) (Q121 : v121 < 2^64) z121 => ?_
  change KP _ _ _ ⟨u119, v119, v106, v57, v74, v91, v108, v112, v116, v120, v121, 0, z121⟩
  have Z3 : v108 = 0 := low_zero hinv E106 E107 E108 Q108
  have K7 : v57 * 2^0 + v74 * 2^64 + v91 * 2^128 + v108 * 2^192 + v112 * 2^256 + v116 * 2^320 + v120 * 2^384 + v121 * 2^448 = v57 * 2^0 + v74 * 2^64 + v91 * 2^128 + v95 * 2^192 + v99 * 2^256 + v103 * 2^320 + v104 * 2^384 + v105 * 2^448 + v106 * 2^192 * (L4.mk m0 m1 m2 m3).val := by
    unfold L4.val
    linear_combination 2^192 * E107 + 2^192 * E108 + 2^256 * E109 + 2^320 * E110 + 2^256 * E111 + 2^256 * E112 + 2^320 * E113 + 2^384 * E114 + 2^320 * E115 + 2^320 * E116 + 2^384 * E117 + 2^448 * E118 + 2^384 * E119 + 2^384 * E120 + 2^448 * E121
  clear E106 E107 E108 E109 E110 E111 E112 E113 E114 E115 E116 E117 E118 E119 E120 E121 W106 W107 W111 W115 W119
  have key : (L4.mk v112 v116 v120 v121).val * 2^256 = (L4.mk a0 a1 a2 a3).val * (L4.mk b0 b1 b2 b3).val + (v55 + v72 * 2^64 + v89 * 2^128 + v106 * 2^192) * (L4.mk m0 m1 m2 m3).val := by
    have Ka : (L4.mk a0 a1 a2 a3).val = a0 + a1 * 2^64 + a2 * 2^128 + a3 * 2^192 := rfl
    have Kr : (L4.mk v112 v116 v120 v121).val = v112 + v116 * 2^64 + v120 * 2^128 + v121 * 2^192 := rfl
    rw [Kr]
    generalize (L4.mk m0 m1 m2 m3).val = X at *
    generalize (L4.mk b0 b1 b2 b3).val = Y at *
    rw [Ka]
    linear_combination K0 + K1 + K2 + K3 + K4 + K5 + K6 + K7 - 2^0 * Z0 - 2^64 * Z1 - 2^128 * Z2 - 2^192 * Z3
  refine KP_run ?_
  exact hfin _ _ _ _ _ _ _ _ _ _ _ _ _ Q112 Q116 Q120 Q121 _ (by clear * - Q55 Q72 Q89 Q106; omega) key

end Kogarashi.Limbs.Asm
