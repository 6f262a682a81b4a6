import Verif.Limbs.AsmProof

/-!
# Walk through the assembly block `square`

Generated from the instruction list.
-/

namespace Kogarashi.Limbs.Asm

open Kogarashi.Spec.AsmCarry

set_option exponentiation.threshold 600
set_option maxHeartbeats 1000000

theorem square_walk (st : St) {a0 a1 a2 a3 : Nat} {m0 m1 m2 m3 : Nat} (ha0 : a0 < 2^64) (ha1 : a1 < 2^64) (ha2 : a2 < 2^64) (ha3 : a3 < 2^64) (hm0 : m0 < 2^64) (hm1 : m1 < 2^64) (hm2 : m2 < 2^64) (hm3 : m3 < 2^64) {P : St → Prop}
    (hinv : (m0 * hardInv + 1) % 2^64 = 0)
    (hfin : ∀ x0 x1 x2 x3 x4 x5 x6 w0 w1 w2 w3 y0 y1, w0 < 2^64 → w1 < 2^64 → w2 < 2^64 → w3 < 2^64 →
      ∀ q, q < 2^256 → (L4.mk w0 w1 w2 w3).val * 2^256 = (L4.mk a0 a1 a2 a3).val * (L4.mk a0 a1 a2 a3).val + q * (L4.mk m0 m1 m2 m3).val →
      P (run ⟨⟨a0, a1, a2, a3⟩, ⟨a0, a1, a2, a3⟩, ⟨m0, m1, m2, m3⟩⟩ squareTail ⟨x0, x1, x2, x3, x4, x5, x6, w0, w1, w2, w3, y0, y1⟩)) :
    KP ⟨⟨a0, a1, a2, a3⟩, ⟨a0, a1, a2, a3⟩, ⟨m0, m1, m2, m3⟩⟩ P squareProg st := by
  unfold squareProg
  refine kmov ?_
  change KP _ _ _ ⟨st.rax, st.rcx, st.rdx, st.r8, st.r9, st.r10, st.r11, a0, st.r13, st.r14, st.r15, st.cf, st.zf⟩
  refine kmov ?_
  change KP _ _ _ ⟨st.rax, st.rcx, st.rdx, st.r8, st.r9, st.r10, st.r11, a0, a1, st.r14, st.r15, st.cf, st.zf⟩
  refine kmov ?_
  change KP _ _ _ ⟨st.rax, st.rcx, st.rdx, st.r8, st.r9, st.r10, st.r11, a0, a1, a2, st.r15, st.cf, st.zf⟩
  refine kmov ?_
  change KP _ _ _ ⟨st.rax, st.rcx, st.rdx, st.r8, st.r9, st.r10, st.r11, a0, a1, a2, a3, st.cf, st.zf⟩
  refine kmov ?_
  change KP _ _ _ ⟨st.rax, st.rcx, a0, st.r8, st.r9, st.r10, st.r11, a0, a1, a2, a3, st.cf, st.zf⟩
  refine kmulx fun u0 v0 (E0 : v0 + 2^64 * u0 = a0 * a0) (Q0 : v0 < 2^64) => ?_
  have W0 : u0 + 1 < 2^64 := hi_bound ha0 ha0 E0
  change KP _ _ _ ⟨st.rax, st.rcx, a0, v0, u0, st.r10, st.r11, a0, a1, a2, a3, st.cf, st.zf⟩
  refine kmulx fun u1 v1 (E1 : v1 + 2^64 * u1 = a0 * a1) (Q1 : v1 < 2^64) => ?_
  have W1 : u1 + 1 < 2^64 := hi_bound ha0 ha1 E1
  change KP _ _ _ ⟨v1, st.rcx, a0, v0, u0, u1, st.r11, a0, a1, a2, a3, st.cf, st.zf⟩
  refine kadd fun v2 c2 (E2 : v2 + 2^64 * c2 = u0 + v1) (Q2 : v2 < 2^64) z2 => ?_
  change KP _ _ _ ⟨v1, st.rcx, a0, v0, v2, u1, st.r11, a0, a1, a2, a3, c2, z2⟩
  refine kadc_drop rfl fun v3 (E3 : v3 = u1 + 0 + c2) (Q3 : v3 < 2^64) z3 => ?_
  change KP _ _ _ ⟨v1, st.rcx, a0, v0, v2, v3, st.r11, a0, a1, a2, a3, 0, z3⟩
  refine kmulx fun u4 v4 (E4 : v4 + 2^64 * u4 = a0 * a2) (Q4 : v4 < 2^64) => ?_
  have W4 : u4 + 1 < 2^64 := hi_bound ha0 ha2 E4
  change KP _ _ _ ⟨v4, st.rcx, a0, v0, v2, v3, u4, a0, a1, a2, a3, 0, z3⟩
  refine kadd fun v5 c5 (E5 : v5 + 2^64 * c5 = v3 + v4) (Q5 : v5 < 2^64) z5 => ?_
  change KP _ _ _ ⟨v4, st.rcx, a0, v0, v2, v5, u4, a0, a1, a2, a3, c5, z5⟩
  refine kadc fun v6 c6 (E6 : v6 + 2^64 * c6 = u4 + 0 + c5) (Q6 : v6 < 2^64) z6 => ?_
  change KP _ _ _ ⟨v4, st.rcx, a0, v0, v2, v5, v6, a0, a1, a2, a3, c6, z6⟩
  refine kmulx fun u7 v7 (E7 : v7 + 2^64 * u7 = a0 * a3) (Q7 : v7 < 2^64) => ?_
  have W7 : u7 + 1 < 2^64 := hi_bound ha0 ha3 E7
  change KP _ _ _ ⟨v7, st.rcx, a0, v0, v2, v5, v6, u7, a1, a2, a3, c6, z6⟩
  obtain rfl : c6 = 0 := by
    clear * - E3 E5 E6 Q0 Q1 Q2 Q3 Q4 Q5 Q6 Q7 W0 W1 W4 W7 
    omega
  refine kadcx fun v8 c8 (E8 : v8 + 2^64 * c8 = v6 + v7 + 0) (Q8 : v8 < 2^64) z8 => ?_
  change KP _ _ _ ⟨v7, st.rcx, a0, v0, v2, v5, v8, u7, a1, a2, a3, c8, z8⟩
  refine kadc_drop rfl fun v9 (E9 : v9 = u7 + 0 + c8) (Q9 : v9 < 2^64) z9 => ?_
  change KP _ _ _ ⟨v7, st.rcx, a0, v0, v2, v5, v8, v9, a1, a2, a3, 0, z9⟩
  have K0 : v0 * 2^0 + v2 * 2^64 + v5 * 2^128 + v8 * 2^192 + v9 * 2^256 = 0 + a0 * 2^0 * (L4.mk a0 a1 a2 a3).val := by
    unfold L4.val
    linear_combination 2^0 * E0 + 2^64 * E1 + 2^64 * E2 + 2^128 * E3 + 2^128 * E4 + 2^128 * E5 + 2^192 * E6 + 2^192 * E7 + 2^192 * E8 + 2^256 * E9
  clear E0 E1 E2 E3 E4 E5 E6 E7 E8 E9 W0 W1 W4 W7
  refine kmov ?_
  change KP _ _ _ ⟨v7, st.rcx, a1, v0, v2, v5, v8, v9, a1, a2, a3, 0, z9⟩
  refine kmulx fun u10 v10 (E10 : v10 + 2^64 * u10 = a1 * a0) (Q10 : v10 < 2^64) => ?_
  have W10 : u10 + 1 < 2^64 := hi_bound ha1 ha0 E10
  change KP _ _ _ ⟨v10, u10, a1, v0, v2, v5, v8, v9, a1, a2, a3, 0, z9⟩
  refine kadd fun v11 c11 (E11 : v11 + 2^64 * c11 = v2 + v10) (Q11 : v11 < 2^64) z11 => ?_
  change KP _ _ _ ⟨v10, u10, a1, v0, v11, v5, v8, v9, a1, a2, a3, c11, z11⟩
  refine kadcx fun v12 c12 (E12 : v12 + 2^64 * c12 = v5 + u10 + c11) (Q12 : v12 < 2^64) z12 => ?_
  change KP _ _ _ ⟨v10, u10, a1, v0, v11, v12, v8, v9, a1, a2, a3, c12, z12⟩
  refine kadc_drop rfl fun v13 (E13 : v13 = v8 + 0 + c12) (Q13 : v13 < 2^64) z13 => ?_
  change KP _ _ _ ⟨v10, u10, a1, v0, v11, v12, v13, v9, a1, a2, a3, 0, z13⟩
  refine kmulx fun u14 v14 (E14 : v14 + 2^64 * u14 = a1 * a1) (Q14 : v14 < 2^64) => ?_
  have W14 : u14 + 1 < 2^64 := hi_bound ha1 ha1 E14
  change KP _ _ _ ⟨v14, u14, a1, v0, v11, v12, v13, v9, a1, a2, a3, 0, z13⟩
  refine kadd fun v15 c15 (E15 : v15 + 2^64 * c15 = v12 + v14) (Q15 : v15 < 2^64) z15 => ?_
  change KP _ _ _ ⟨v14, u14, a1, v0, v11, v15, v13, v9, a1, a2, a3, c15, z15⟩
  refine kadcx fun v16 c16 (E16 : v16 + 2^64 * c16 = v13 + u14 + c15) (Q16 : v16 < 2^64) z16 => ?_
  change KP _ _ _ ⟨v14, u14, a1, v0, v11, v15, v16, v9, a1, a2, a3, c16, z16⟩
  refine kadc_drop rfl fun v17 (E17 : v17 = v9 + 0 + c16) (Q17 : v17 < 2^64) z17 => ?_
  change KP _ _ _ ⟨v14, u14, a1, v0, v11, v15, v16, v17, a1, a2, a3, 0, z17⟩
  refine kxor ?_
  change KP _ _ _ ⟨v14, u14, a1, v0, v11, v15, v16, v17, 0, a2, a3, 0, true⟩
  refine kmulx fun u18 v18 (E18 : v18 + 2^64 * u18 = a1 * a2) (Q18 : v18 < 2^64) => ?_
  have W18 : u18 + 1 < 2^64 := hi_bound ha1 ha2 E18
  change KP _ _ _ ⟨v18, u18, a1, v0, v11, v15, v16, v17, 0, a2, a3, 0, true⟩
  refine kadd fun v19 c19 (E19 : v19 + 2^64 * c19 = v16 + v18) (Q19 : v19 < 2^64) z19 => ?_
  change KP _ _ _ ⟨v18, u18, a1, v0, v11, v15, v19, v17, 0, a2, a3, c19, z19⟩
  refine kadcx fun v20 c20 (E20 : v20 + 2^64 * c20 = v17 + u18 + c19) (Q20 : v20 < 2^64) z20 => ?_
  change KP _ _ _ ⟨v18, u18, a1, v0, v11, v15, v19, v20, 0, a2, a3, c20, z20⟩
  refine kadc_drop rfl fun v21 (E21 : v21 = 0 + 0 + c20) (Q21 : v21 < 2^64) z21 => ?_
  change KP _ _ _ ⟨v18, u18, a1, v0, v11, v15, v19, v20, v21, a2, a3, 0, z21⟩
  refine kxor ?_
  change KP _ _ _ ⟨v18, u18, a1, v0, v11, v15, v19, v20, v21, 0, a3, 0, true⟩
  refine kmulx fun u22 v22 (E22 : v22 + 2^64 * u22 = a1 * a3) (Q22 : v22 < 2^64) => ?_
  have W22 : u22 + 1 < 2^64 := hi_bound ha1 ha3 E22
  change KP _ _ _ ⟨v22, u22, a1, v0, v11, v15, v19, v20, v21, 0, a3, 0, true⟩
  refine kadd fun v23 c23 (E23 : v23 + 2^64 * c23 = v20 + v22) (Q23 : v23 < 2^64) z23 => ?_
  change KP _ _ _ ⟨v22, u22, a1, v0, v11, v15, v19, v23, v21, 0, a3, c23, z23⟩
  refine kadcx fun v24 c24 (E24 : v24 + 2^64 * c24 = v21 + u22 + c23) (Q24 : v24 < 2^64) z24 => ?_
  change KP _ _ _ ⟨v22, u22, a1, v0, v11, v15, v19, v23, v24, 0, a3, c24, z24⟩
  refine kadc_drop rfl fun v25 (E25 : v25 = 0 + 0 + c24) (Q25 : v25 < 2^64) z25 => ?_
  change KP _ _ _ ⟨v22, u22, a1, v0, v11, v15, v19, v23, v24, v25, a3, 0, z25⟩
  refine kxor ?_
  change KP _ _ _ ⟨v22, u22, a1, v0, v11, v15, v19, v23, v24, v25, 0, 0, true⟩
  have K1 : v0 * 2^0 + v11 * 2^64 + v15 * 2^128 + v19 * 2^192 + v23 * 2^256 + v24 * 2^320 + v25 * 2^384 = v0 * 2^0 + v2 * 2^64 + v5 * 2^128 + v8 * 2^192 + v9 * 2^256 + a1 * 2^64 * (L4.mk a0 a1 a2 a3).val := by
    unfold L4.val
    linear_combination 2^64 * E10 + 2^64 * E11 + 2^128 * E12 + 2^192 * E13 + 2^128 * E14 + 2^128 * E15 + 2^192 * E16 + 2^256 * E17 + 2^192 * E18 + 2^192 * E19 + 2^256 * E20 + 2^320 * E21 + 2^256 * E22 + 2^256 * E23 + 2^320 * E24 + 2^384 * E25
  have T14 : v25 ≤ 2 := by
    clear * - E11 Q11 E12 Q12 E13 Q13 E15 Q15 E16 Q16 E17 Q17 E19 Q19 E20 Q20 E21 Q21 E23 Q23 E24 Q24 E25 Q25 Q10 Q14 Q18 Q22 W10 W14 W18 W22
    omega
  clear E10 E11 E12 E13 E14 E15 E16 E17 E18 E19 E20 E21 E22 E23 E24 E25 W10 W14 W18 W22
  refine kmov ?_
  change KP _ _ _ ⟨v22, u22, a2, v0, v11, v15, v19, v23, v24, v25, 0, 0, true⟩
  refine kmulx fun u26 v26 (E26 : v26 + 2^64 * u26 = a2 * a0) (Q26 : v26 < 2^64) => ?_
  have W26 : u26 + 1 < 2^64 := hi_bound ha2 ha0 E26
  change KP _ _ _ ⟨v26, u26, a2, v0, v11, v15, v19, v23, v24, v25, 0, 0, true⟩
  refine kadd fun v27 c27 (E27 : v27 + 2^64 * c27 = v15 + v26) (Q27 : v27 < 2^64) z27 => ?_
  change KP _ _ _ ⟨v26, u26, a2, v0, v11, v27, v19, v23, v24, v25, 0, c27, z27⟩
  refine kadcx fun v28 c28 (E28 : v28 + 2^64 * c28 = v19 + u26 + c27) (Q28 : v28 < 2^64) z28 => ?_
  change KP _ _ _ ⟨v26, u26, a2, v0, v11, v27, v28, v23, v24, v25, 0, c28, z28⟩
  refine kadc_drop rfl fun v29 (E29 : v29 = v23 + 0 + c28) (Q29 : v29 < 2^64) z29 => ?_
  change KP _ _ _ ⟨v26, u26, a2, v0, v11, v27, v28, v29, v24, v25, 0, 0, z29⟩
  refine kmulx fun u30 v30 (E30 : v30 + 2^64 * u30 = a2 * a1) (Q30 : v30 < 2^64) => ?_
  have W30 : u30 + 1 < 2^64 := hi_bound ha2 ha1 E30
  change KP _ _ _ ⟨v30, u30, a2, v0, v11, v27, v28, v29, v24, v25, 0, 0, z29⟩
  refine kadd fun v31 c31 (E31 : v31 + 2^64 * c31 = v28 + v30) (Q31 : v31 < 2^64) z31 => ?_
  change KP _ _ _ ⟨v30, u30, a2, v0, v11, v27, v31, v29, v24, v25, 0, c31, z31⟩
  refine kadcx fun v32 c32 (E32 : v32 + 2^64 * c32 = v29 + u30 + c31) (Q32 : v32 < 2^64) z32 => ?_
  change KP _ _ _ ⟨v30, u30, a2, v0, v11, v27, v31, v32, v24, v25, 0, c32, z32⟩
  refine kadc_drop rfl fun v33 (E33 : v33 = v24 + 0 + c32) (Q33 : v33 < 2^64) z33 => ?_
  change KP _ _ _ ⟨v30, u30, a2, v0, v11, v27, v31, v32, v33, v25, 0, 0, z33⟩
  refine kmulx fun u34 v34 (E34 : v34 + 2^64 * u34 = a2 * a2) (Q34 : v34 < 2^64) => ?_
  have W34 : u34 + 1 < 2^64 := hi_bound ha2 ha2 E34
  change KP _ _ _ ⟨v34, u34, a2, v0, v11, v27, v31, v32, v33, v25, 0, 0, z33⟩
  refine kadd fun v35 c35 (E35 : v35 + 2^64 * c35 = v32 + v34) (Q35 : v35 < 2^64) z35 => ?_
  change KP _ _ _ ⟨v34, u34, a2, v0, v11, v27, v31, v35, v33, v25, 0, c35, z35⟩
  refine kadcx fun v36 c36 (E36 : v36 + 2^64 * c36 = v33 + u34 + c35) (Q36 : v36 < 2^64) z36 => ?_
  change KP _ _ _ ⟨v34, u34, a2, v0, v11, v27, v31, v35, v36, v25, 0, c36, z36⟩
  refine kadc fun v37 c37 (E37 : v37 + 2^64 * c37 = v25 + 0 + c36) (Q37 : v37 < 2^64) z37 => ?_
  change KP _ _ _ ⟨v34, u34, a2, v0, v11, v27, v31, v35, v36, v37, 0, c37, z37⟩
  refine kmulx fun u38 v38 (E38 : v38 + 2^64 * u38 = a2 * a3) (Q38 : v38 < 2^64) => ?_
  have W38 : u38 + 1 < 2^64 := hi_bound ha2 ha3 E38
  change KP _ _ _ ⟨v38, u38, a2, v0, v11, v27, v31, v35, v36, v37, 0, c37, z37⟩
  obtain rfl : c37 = 0 := by
    clear * - E35 E36 E37 Q26 Q27 Q28 Q29 Q30 Q31 Q32 Q33 Q34 Q35 Q36 Q37 Q38 W26 W30 W34 W38 T14
    omega
  refine kadcx fun v39 c39 (E39 : v39 + 2^64 * c39 = v36 + v38 + 0) (Q39 : v39 < 2^64) z39 => ?_
  change KP _ _ _ ⟨v38, u38, a2, v0, v11, v27, v31, v35, v39, v37, 0, c39, z39⟩
  refine kadcx fun v40 c40 (E40 : v40 + 2^64 * c40 = v37 + u38 + c39) (Q40 : v40 < 2^64) z40 => ?_
  change KP _ _ _ ⟨v38, u38, a2, v0, v11, v27, v31, v35, v39, v40, 0, c40, z40⟩
  refine kadc_drop rfl fun v41 (E41 : v41 = 0 + 0 + c40) (Q41 : v41 < 2^64) z41 => ?_
  change KP _ _ _ ⟨v38, u38, a2, v0, v11, v27, v31, v35, v39, v40, v41, 0, z41⟩
  have K2 : v0 * 2^0 + v11 * 2^64 + v27 * 2^128 + v31 * 2^192 + v35 * 2^256 + v39 * 2^320 + v40 * 2^384 + v41 * 2^448 = v0 * 2^0 + v11 * 2^64 + v15 * 2^128 + v19 * 2^192 + v23 * 2^256 + v24 * 2^320 + v25 * 2^384 + a2 * 2^128 * (L4.mk a0 a1 a2 a3).val := by
    unfold L4.val
    linear_combination 2^128 * E26 + 2^128 * E27 + 2^192 * E28 + 2^256 * E29 + 2^192 * E30 + 2^192 * E31 + 2^256 * E32 + 2^320 * E33 + 2^256 * E34 + 2^256 * E35 + 2^320 * E36 + 2^384 * E37 + 2^320 * E38 + 2^320 * E39 + 2^384 * E40 + 2^448 * E41
  clear E26 E27 E28 E29 E30 E31 E32 E33 E34 E35 E36 E37 E38 E39 E40 E41 W26 W30 W34 W38
  refine kmov ?_
  change KP _ _ _ ⟨v38, u38, a3, v0, v11, v27, v31, v35, v39, v40, v41, 0, z41⟩
  refine kmulx fun u42 v42 (E42 : v42 + 2^64 * u42 = a3 * a0) (Q42 : v42 < 2^64) => ?_
  have W42 : u42 + 1 < 2^64 := hi_bound ha3 ha0 E42
  change KP _ _ _ ⟨v42, u42, a3, v0, v11, v27, v31, v35, v39, v40, v41, 0, z41⟩
  refine kadd fun v43 c43 (E43 : v43 + 2^64 * c43 = v31 + v42) (Q43 : v43 < 2^64) z43 => ?_
  change KP _ _ _ ⟨v42, u42, a3, v0, v11, v27, v43, v35, v39, v40, v41, c43, z43⟩
  refine kadcx fun v44 c44 (E44 : v44 + 2^64 * c44 = v35 + u42 + c43) (Q44 : v44 < 2^64) z44 => ?_
  change KP _ _ _ ⟨v42, u42, a3, v0, v11, v27, v43, v44, v39, v40, v41, c44, z44⟩
  refine kadc_drop rfl fun v45 (E45 : v45 = v39 + 0 + c44) (Q45 : v45 < 2^64) z45 => ?_
  change KP _ _ _ ⟨v42, u42, a3, v0, v11, v27, v43, v44, v45, v40, v41, 0, z45⟩
  refine kmulx fun u46 v46 (E46 : v46 + 2^64 * u46 = a3 * a1) (Q46 : v46 < 2^64) => ?_
  have W46 : u46 + 1 < 2^64 := hi_bound ha3 ha1 E46
  change KP _ _ _ ⟨v46, u46, a3, v0, v11, v27, v43, v44, v45, v40, v41, 0, z45⟩
  refine kadd fun v47 c47 (E47 : v47 + 2^64 * c47 = v44 + v46) (Q47 : v47 < 2^64) z47 => ?_
  change KP _ _ _ ⟨v46, u46, a3, v0, v11, v27, v43, v47, v45, v40, v41, c47, z47⟩
  refine kadcx fun v48 c48 (E48 : v48 + 2^64 * c48 = v45 + u46 + c47) (Q48 : v48 < 2^64) z48 => ?_
  change KP _ _ _ ⟨v46, u46, a3, v0, v11, v27, v43, v47, v48, v40, v41, c48, z48⟩
  refine kadc_drop rfl fun v49 (E49 : v49 = v40 + 0 + c48) (Q49 : v49 < 2^64) z49 => ?_
  change KP _ _ _ ⟨v46, u46, a3, v0, v11, v27, v43, v47, v48, v49, v41, 0, z49⟩
  refine kmulx fun u50 v50 (E50 : v50 + 2^64 * u50 = a3 * a2) (Q50 : v50 < 2^64) => ?_
  have W50 : u50 + 1 < 2^64 := hi_bound ha3 ha2 E50
  change KP _ _ _ ⟨v50, u50, a3, v0, v11, v27, v43, v47, v48, v49, v41, 0, z49⟩
  refine kadd fun v51 c51 (E51 : v51 + 2^64 * c51 = v48 + v50) (Q51 : v51 < 2^64) z51 => ?_
  change KP _ _ _ ⟨v50, u50, a3, v0, v11, v27, v43, v47, v51, v49, v41, c51, z51⟩
  refine kadcx fun v52 c52 (E52 : v52 + 2^64 * c52 = v49 + u50 + c51) (Q52 : v52 < 2^64) z52 => ?_
  change KP _ _ _ ⟨v50, u50, a3, v0, v11, v27, v43, v47, v51, v52, v41, c52, z52⟩
  refine kadc_drop rfl fun v53 (E53 : v53 = v41 + 0 + c52) (Q53 : v53 < 2^64) z53 => ?_
  change KP _ _ _ ⟨v50, u50, a3, v0, v11, v27, v43, v47, v51, v52, v53, 0, z53⟩
  refine kmulx fun u54 v54 (E54 : v54 + 2^64 * u54 = a3 * a3) (Q54 : v54 < 2^64) => ?_
  have W54 : u54 + 1 < 2^64 := hi_bound ha3 ha3 E54
  change KP _ _ _ ⟨v54, u54, a3, v0, v11, v27, v43, v47, v51, v52, v53, 0, z53⟩
  refine kadd fun v55 c55 (E55 : v55 + 2^64 * c55 = v52 + v54) (Q55 : v55 < 2^64) z55 => ?_
  change KP _ _ _ ⟨v54, u54, a3, v0, v11, v27, v43, v47, v51, v55, v53, c55, z55⟩
  refine kadc_drop rfl fun v56 (E56 : v56 = v53 + u54 + c55) (Q56 : v56 < 2^64) z56 => ?_
  change KP _ _ _ ⟨v54, u54, a3, v0, v11, v27, v43, v47, v51, v55, v56, 0, z56⟩
  have K3 : v0 * 2^0 + v11 * 2^64 + v27 * 2^128 + v43 * 2^192 + v47 * 2^256 + v51 * 2^320 + v55 * 2^384 + v56 * 2^448 = v0 * 2^0 + v11 * 2^64 + v27 * 2^128 + v31 * 2^192 + v35 * 2^256 + v39 * 2^320 + v40 * 2^384 + v41 * 2^448 + a3 * 2^192 * (L4.mk a0 a1 a2 a3).val := by
    unfold L4.val
    linear_combination 2^192 * E42 + 2^192 * E43 + 2^256 * E44 + 2^320 * E45 + 2^256 * E46 + 2^256 * E47 + 2^320 * E48 + 2^384 * E49 + 2^320 * E50 + 2^320 * E51 + 2^384 * E52 + 2^448 * E53 + 2^384 * E54 + 2^384 * E55 + 2^448 * E56
  clear E42 E43 E44 E45 E46 E47 E48 E49 E50 E51 E52 E53 E54 E55 E56 W42 W46 W50 W54
  refine kmov ?_
  change KP _ _ _ ⟨v54, u54, hardInv, v0, v11, v27, v43, v47, v51, v55, v56, 0, z56⟩
  refine kmulx fun u57 v57 (E57 : v57 + 2^64 * u57 = hardInv * v0) (Q57 : v57 < 2^64) => ?_
  have W57 : u57 + 1 < 2^64 := hi_bound (by decide) Q0 E57
  change KP _ _ _ ⟨u57, u54, v57, v0, v11, v27, v43, v47, v51, v55, v56, 0, z56⟩
  refine kmulx fun u58 v58 (E58 : v58 + 2^64 * u58 = v57 * m0) (Q58 : v58 < 2^64) => ?_
  have W58 : u58 + 1 < 2^64 := hi_bound Q57 hm0 E58
  change KP _ _ _ ⟨v58, u58, v57, v0, v11, v27, v43, v47, v51, v55, v56, 0, z56⟩
  refine kadd fun v59 c59 (E59 : v59 + 2^64 * c59 = v0 + v58) (Q59 : v59 < 2^64) z59 => ?_
  change KP _ _ _ ⟨v58, u58, v57, v59, v11, v27, v43, v47, v51, v55, v56, c59, z59⟩
  refine kadcx fun v60 c60 (E60 : v60 + 2^64 * c60 = v11 + u58 + c59) (Q60 : v60 < 2^64) z60 => ?_
  change KP _ _ _ ⟨v58, u58, v57, v59, v60, v27, v43, v47, v51, v55, v56, c60, z60⟩
  refine kadc_drop rfl fun v61 (E61 : v61 = v27 + 0 + c60) (Q61 : v61 < 2^64) z61 => ?_
  change KP _ _ _ ⟨v58, u58, v57, v59, v60, v61, v43, v47, v51, v55, v56, 0, z61⟩
  refine kmulx fun u62 v62 (E62 : v62 + 2^64 * u62 = v57 * m1) (Q62 : v62 < 2^64) => ?_
  have W62 : u62 + 1 < 2^64 := hi_bound Q57 hm1 E62
  change KP _ _ _ ⟨v62, u62, v57, v59, v60, v61, v43, v47, v51, v55, v56, 0, z61⟩
  refine kadd fun v63 c63 (E63 : v63 + 2^64 * c63 = v60 + v62) (Q63 : v63 < 2^64) z63 => ?_
  change KP _ _ _ ⟨v62, u62, v57, v59, v63, v61, v43, v47, v51, v55, v56, c63, z63⟩
  refine kadcx fun v64 c64 (E64 : v64 + 2^64 * c64 = v61 + u62 + c63) (Q64 : v64 < 2^64) z64 => ?_
  change KP _ _ _ ⟨v62, u62, v57, v59, v63, v64, v43, v47, v51, v55, v56, c64, z64⟩
  refine kadc_drop rfl fun v65 (E65 : v65 = v43 + 0 + c64) (Q65 : v65 < 2^64) z65 => ?_
  change KP _ _ _ ⟨v62, u62, v57, v59, v63, v64, v65, v47, v51, v55, v56, 0, z65⟩
  refine kmulx fun u66 v66 (E66 : v66 + 2^64 * u66 = v57 * m2) (Q66 : v66 < 2^64) => ?_
  have W66 : u66 + 1 < 2^64 := hi_bound Q57 hm2 E66
  change KP _ _ _ ⟨v66, u66, v57, v59, v63, v64, v65, v47, v51, v55, v56, 0, z65⟩
  refine kadd fun v67 c67 (E67 : v67 + 2^64 * c67 = v64 + v66) (Q67 : v67 < 2^64) z67 => ?_
  change KP _ _ _ ⟨v66, u66, v57, v59, v63, v67, v65, v47, v51, v55, v56, c67, z67⟩
  refine kadcx fun v68 c68 (E68 : v68 + 2^64 * c68 = v65 + u66 + c67) (Q68 : v68 < 2^64) z68 => ?_
  change KP _ _ _ ⟨v66, u66, v57, v59, v63, v67, v68, v47, v51, v55, v56, c68, z68⟩
  refine kadc_drop rfl fun v69 (E69 : v69 = v47 + 0 + c68) (Q69 : v69 < 2^64) z69 => ?_
  change KP _ _ _ ⟨v66, u66, v57, v59, v63, v67, v68, v69, v51, v55, v56, 0, z69⟩
  refine kmulx fun u70 v70 (E70 : v70 + 2^64 * u70 = v57 * m3) (Q70 : v70 < 2^64) => ?_
  have W70 : u70 + 1 < 2^64 := hi_bound Q57 hm3 E70
  change KP _ _ _ ⟨v70, u70, v57, v59, v63, v67, v68, v69, v51, v55, v56, 0, z69⟩
  refine kadd fun v71 c71 (E71 : v71 + 2^64 * c71 = v68 + v70) (Q71 : v71 < 2^64) z71 => ?_
  change KP _ _ _ ⟨v70, u70, v57, v59, v63, v67, v71, v69, v51, v55, v56, c71, z71⟩
  refine kadcx fun v72 c72 (E72 : v72 + 2^64 * c72 = v69 + u70 + c71) (Q72 : v72 < 2^64) z72 => ?_
  change KP _ _ _ ⟨v70, u70, v57, v59, v63, v67, v71, v72, v51, v55, v56, c72, z72⟩
  refine kadc_drop rfl fun v73 (E73 : v73 = v51 + 0 + c72) (Q73 : v73 < 2^64) z73 => ?_
  change KP _ _ _ ⟨v70, u70, v57, v59, v63, v67, v71, v72, v73, v55, v56, 0, z73⟩
  have Z0 : v59 = 0 := low_zero hinv E57 E58 E59 Q59
  have K4 : v59 * 2^0 + v63 * 2^64 + v67 * 2^128 + v71 * 2^192 + v72 * 2^256 + v73 * 2^320 + v55 * 2^384 + v56 * 2^448 = v0 * 2^0 + v11 * 2^64 + v27 * 2^128 + v43 * 2^192 + v47 * 2^256 + v51 * 2^320 + v55 * 2^384 + v56 * 2^448 + v57 * 2^0 * (L4.mk m0 m1 m2 m3).val := by
    unfold L4.val
    linear_combination 2^0 * E58 + 2^0 * E59 + 2^64 * E60 + 2^128 * E61 + 2^64 * E62 + 2^64 * E63 + 2^128 * E64 + 2^192 * E65 + 2^128 * E66 + 2^128 * E67 + 2^192 * E68 + 2^256 * E69 + 2^192 * E70 + 2^192 * E71 + 2^256 * E72 + 2^320 * E73
  clear E57 E58 E59 E60 E61 E62 E63 E64 E65 E66 E67 E68 E69 E70 E71 E72 E73 W57 W58 W62 W66 W70
  refine kmov ?_
  change KP _ _ _ ⟨v70, u70, hardInv, v59, v63, v67, v71, v72, v73, v55, v56, 0, z73⟩
  refine kmulx fun u74 v74 (E74 : v74 + 2^64 * u74 = hardInv * v63) (Q74 : v74 < 2^64) => ?_
  have W74 : u74 + 1 < 2^64 := hi_bound (by decide) Q63 E74
  change KP _ _ _ ⟨u74, u70, v74, v59, v63, v67, v71, v72, v73, v55, v56, 0, z73⟩
  refine kmulx fun u75 v75 (E75 : v75 + 2^64 * u75 = v74 * m0) (Q75 : v75 < 2^64) => ?_
  have W75 : u75 + 1 < 2^64 := hi_bound Q74 hm0 E75
  change KP _ _ _ ⟨u75, v75, v74, v59, v63, v67, v71, v72, v73, v55, v56, 0, z73⟩
  refine kadd fun v76 c76 (E76 : v76 + 2^64 * c76 = v63 + v75) (Q76 : v76 < 2^64) z76 => ?_
  change KP _ _ _ ⟨u75, v75, v74, v59, v76, v67, v71, v72, v73, v55, v56, c76, z76⟩
  refine kadcx fun v77 c77 (E77 : v77 + 2^64 * c77 = v67 + u75 + c76) (Q77 : v77 < 2^64) z77 => ?_
  change KP _ _ _ ⟨u75, v75, v74, v59, v76, v77, v71, v72, v73, v55, v56, c77, z77⟩
  refine kadc_drop rfl fun v78 (E78 : v78 = v71 + 0 + c77) (Q78 : v78 < 2^64) z78 => ?_
  change KP _ _ _ ⟨u75, v75, v74, v59, v76, v77, v78, v72, v73, v55, v56, 0, z78⟩
  refine kmulx fun u79 v79 (E79 : v79 + 2^64 * u79 = v74 * m1) (Q79 : v79 < 2^64) => ?_
  have W79 : u79 + 1 < 2^64 := hi_bound Q74 hm1 E79
  change KP _ _ _ ⟨u79, v79, v74, v59, v76, v77, v78, v72, v73, v55, v56, 0, z78⟩
  refine kadd fun v80 c80 (E80 : v80 + 2^64 * c80 = v77 + v79) (Q80 : v80 < 2^64) z80 => ?_
  change KP _ _ _ ⟨u79, v79, v74, v59, v76, v80, v78, v72, v73, v55, v56, c80, z80⟩
  refine kadcx fun v81 c81 (E81 : v81 + 2^64 * c81 = v78 + u79 + c80) (Q81 : v81 < 2^64) z81 => ?_
  change KP _ _ _ ⟨u79, v79, v74, v59, v76, v80, v81, v72, v73, v55, v56, c81, z81⟩
  refine kadc_drop rfl fun v82 (E82 : v82 = v72 + 0 + c81) (Q82 : v82 < 2^64) z82 => ?_
  change KP _ _ _ ⟨u79, v79, v74, v59, v76, v80, v81, v82, v73, v55, v56, 0, z82⟩
  refine kmulx fun u83 v83 (E83 : v83 + 2^64 * u83 = v74 * m2) (Q83 : v83 < 2^64) => ?_
  have W83 : u83 + 1 < 2^64 := hi_bound Q74 hm2 E83
  change KP _ _ _ ⟨u83, v83, v74, v59, v76, v80, v81, v82, v73, v55, v56, 0, z82⟩
  refine kadd fun v84 c84 (E84 : v84 + 2^64 * c84 = v81 + v83) (Q84 : v84 < 2^64) z84 => ?_
  change KP _ _ _ ⟨u83, v83, v74, v59, v76, v80, v84, v82, v73, v55, v56, c84, z84⟩
  refine kadcx fun v85 c85 (E85 : v85 + 2^64 * c85 = v82 + u83 + c84) (Q85 : v85 < 2^64) z85 => ?_
  change KP _ _ _ ⟨u83, v83, v74, v59, v76, v80, v84, v85, v73, v55, v56, c85, z85⟩
  refine kadc_drop rfl fun v86 (E86 : v86 = v73 + 0 + c85) (Q86 : v86 < 2^64) z86 => ?_
  change KP _ _ _ ⟨u83, v83, v74, v59, v76, v80, v84, v85, v86, v55, v56, 0, z86⟩
  refine kmulx fun u87 v87 (E87 : v87 + 2^64 * u87 = v74 * m3) (Q87 : v87 < 2^64) => ?_
  have W87 : u87 + 1 < 2^64 := hi_bound Q74 hm3 E87
  change KP _ _ _ ⟨u87, v87, v74, v59, v76, v80, v84, v85, v86, v55, v56, 0, z86⟩
  refine kadd fun v88 c88 (E88 : v88 + 2^64 * c88 = v85 + v87) (Q88 : v88 < 2^64) z88 => ?_
  change KP _ _ _ ⟨u87, v87, v74, v59, v76, v80, v84, v88, v86, v55, v56, c88, z88⟩
  refine kadcx fun v89 c89 (E89 : v89 + 2^64 * c89 = v86 + u87 + c88) (Q89 : v89 < 2^64) z89 => ?_
  change KP _ _ _ ⟨u87, v87, v74, v59, v76, v80, v84, v88, v89, v55, v56, c89, z89⟩
  refine kadc_drop rfl fun v90 (E90 : v90 = v55 + 0 + c89) (Q90 : v90 < 2^64) z90 => ?_
  change KP _ _ _ ⟨u87, v87, v74, v59, v76, v80, v84, v88, v89, v90, v56, 0, z90⟩
  have Z1 : v76 = 0 := low_zero hinv E74 E75 E76 Q76
  have K5 : v59 * 2^0 + v76 * 2^64 + v80 * 2^128 + v84 * 2^192 + v88 * 2^256 + v89 * 2^320 + v90 * 2^384 + v56 * 2^448 = v59 * 2^0 + v63 * 2^64 + v67 * 2^128 + v71 * 2^192 + v72 * 2^256 + v73 * 2^320 + v55 * 2^384 + v56 * 2^448 + v74 * 2^64 * (L4.mk m0 m1 m2 m3).val := by
    unfold L4.val
    linear_combination 2^64 * E75 + 2^64 * E76 + 2^128 * E77 + 2^192 * E78 + 2^128 * E79 + 2^128 * E80 + 2^192 * E81 + 2^256 * E82 + 2^192 * E83 + 2^192 * E84 + 2^256 * E85 + 2^320 * E86 + 2^256 * E87 + 2^256 * E88 + 2^320 * E89 + 2^384 * E90
  clear E74 E75 E76 E77 E78 E79 E80 E81 E82 E83 E84 E85 E86 E87 E88 E89 E90 W74 W75 W79 W83 W87
  refine kmov ?_
  change KP _ _ _ ⟨u87, v87, hardInv, v59, v76, v80, v84, v88, v89, v90, v56, 0, z90⟩
  refine kmulx fun u91 v91 (E91 : v91 + 2^64 * u91 = hardInv * v80) (Q91 : v91 < 2^64) => ?_
  have W91 : u91 + 1 < 2^64 := hi_bound (by decide) Q80 E91
  change KP _ _ _ ⟨u91, v87, v91, v59, v76, v80, v84, v88, v89, v90, v56, 0, z90⟩
  refine kmulx fun u92 v92 (E92 : v92 + 2^64 * u92 = v91 * m0) (Q92 : v92 < 2^64) => ?_
  have W92 : u92 + 1 < 2^64 := hi_bound Q91 hm0 E92
  change KP _ _ _ ⟨u92, v92, v91, v59, v76, v80, v84, v88, v89, v90, v56, 0, z90⟩
  refine kadd fun v93 c93 (E93 : v93 + 2^64 * c93 = v80 + v92) (Q93 : v93 < 2^64) z93 => ?_
  change KP _ _ _ ⟨u92, v92, v91, v59, v76, v93, v84, v88, v89, v90, v56, c93, z93⟩
  refine kadcx fun v94 c94 (E94 : v94 + 2^64 * c94 = v84 + u92 + c93) (Q94 : v94 < 2^64) z94 => ?_
  change KP _ _ _ ⟨u92, v92, v91, v59, v76, v93, v94, v88, v89, v90, v56, c94, z94⟩
  refine kadc_drop rfl fun v95 (E95 : v95 = v88 + 0 + c94) (Q95 : v95 < 2^64) z95 => ?_
  change KP _ _ _ ⟨u92, v92, v91, v59, v76, v93, v94, v95, v89, v90, v56, 0, z95⟩
  refine kmulx fun u96 v96 (E96 : v96 + 2^64 * u96 = v91 * m1) (Q96 : v96 < 2^64) => ?_
  have W96 : u96 + 1 < 2^64 := hi_bound Q91 hm1 E96
  change KP _ _ _ ⟨u96, v96, v91, v59, v76, v93, v94, v95, v89, v90, v56, 0, z95⟩
  refine kadd fun v97 c97 (E97 : v97 + 2^64 * c97 = v94 + v96) (Q97 : v97 < 2^64) z97 => ?_
  change KP _ _ _ ⟨u96, v96, v91, v59, v76, v93, v97, v95, v89, v90, v56, c97, z97⟩
  refine kadcx fun v98 c98 (E98 : v98 + 2^64 * c98 = v95 + u96 + c97) (Q98 : v98 < 2^64) z98 => ?_
  change KP _ _ _ ⟨u96, v96, v91, v59, v76, v93, v97, v98, v89, v90, v56, c98, z98⟩
  refine kadc_drop rfl fun v99 (E99 : v99 = v89 + 0 + c98) (Q99 : v99 < 2^64) z99 => ?_
  change KP _ _ _ ⟨u96, v96, v91, v59, v76, v93, v97, v98, v99, v90, v56, 0, z99⟩
  refine kmulx fun u100 v100 (E100 : v100 + 2^64 * u100 = v91 * m2) (Q100 : v100 < 2^64) => ?_
  have W100 : u100 + 1 < 2^64 := hi_bound Q91 hm2 E100
  change KP _ _ _ ⟨u100, v100, v91, v59, v76, v93, v97, v98, v99, v90, v56, 0, z99⟩
  refine kadd fun v101 c101 (E101 : v101 + 2^64 * c101 = v98 + v100) (Q101 : v101 < 2^64) z101 => ?_
  change KP _ _ _ ⟨u100, v100, v91, v59, v76, v93, v97, v101, v99, v90, v56, c101, z101⟩
  refine kadcx fun v102 c102 (E102 : v102 + 2^64 * c102 = v99 + u100 + c101) (Q102 : v102 < 2^64) z102 => ?_
  change KP _ _ _ ⟨u100, v100, v91, v59, v76, v93, v97, v101, v102, v90, v56, c102, z102⟩
  refine kadc_drop rfl fun v103 (E103 : v103 = v90 + 0 + c102) (Q103 : v103 < 2^64) z103 => ?_
  change KP _ _ _ ⟨u100, v100, v91, v59, v76, v93, v97, v101, v102, v103, v56, 0, z103⟩
  refine kmulx fun u104 v104 (E104 : v104 + 2^64 * u104 = v91 * m3) (Q104 : v104 < 2^64) => ?_
  have W104 : u104 + 1 < 2^64 := hi_bound Q91 hm3 E104
  change KP _ _ _ ⟨u104, v104, v91, v59, v76, v93, v97, v101, v102, v103, v56, 0, z103⟩
  refine kadd fun v105 c105 (E105 : v105 + 2^64 * c105 = v102 + v104) (Q105 : v105 < 2^64) z105 => ?_
  change KP _ _ _ ⟨u104, v104, v91, v59, v76, v93, v97, v101, v105, v103, v56, c105, z105⟩
  refine kadcx fun v106 c106 (E106 : v106 + 2^64 * c106 = v103 + u104 + c105) (Q106 : v106 < 2^64) z106 => ?_
  change KP _ _ _ ⟨u104, v104, v91, v59, v76, v93, v97, v101, v105, v106, v56, c106, z106⟩
  refine kadc_drop rfl fun v107 (E107 : v107 = v56 + 0 + c106) (Q107 : v107 < 2^64) z107 => ?_
  change KP _ _ _ ⟨u104, v104, v91, v59, v76, v93, v97, v101, v105, v106, v107, 0, z107⟩
  have Z2 : v93 = 0 := low_zero hinv E91 E92 E93 Q93
  have K6 : v59 * 2^0 + v76 * 2^64 + v93 * 2^128 + v97 * 2^192 + v101 * 2^256 + v105 * 2^320 + v106 * 2^384 + v107 * 2^448 = v59 * 2^0 + v76 * 2^64 + v80 * 2^128 + v84 * 2^192 + v88 * 2^256 + v89 * 2^320 + v90 * 2^384 + v56 * 2^448 + v91 * 2^128 * (L4.mk m0 m1 m2 m3).val := by
    unfold L4.val
    linear_combination 2^128 * E92 + 2^128 * E93 + 2^192 * E94 + 2^256 * E95 + 2^192 * E96 + 2^192 * E97 + 2^256 * E98 + 2^320 * E99 + 2^256 * E100 + 2^256 * E101 + 2^320 * E102 + 2^384 * E103 + 2^320 * E104 + 2^320 * E105 + 2^384 * E106 + 2^448 * E107
  clear E91 E92 E93 E94 E95 E96 E97 E98 E99 E100 E101 E102 E103 E104 E105 E106 E107 W91 W92 W96 W100 W104
  refine kmov ?_
  change KP _ _ _ ⟨u104, v104, hardInv, v59, v76, v93, v97, v101, v105, v106, v107, 0, z107⟩
  refine kmulx fun u108 v108 (E108 : v108 + 2^64 * u108 = hardInv * v97) (Q108 : v108 < 2^64) => ?_
  have W108 : u108 + 1 < 2^64 := hi_bound (by decide) Q97 E108
  change KP _ _ _ ⟨u108, v104, v108, v59, v76, v93, v97, v101, v105, v106, v107, 0, z107⟩
  refine kmulx fun u109 v109 (E109 : v109 + 2^64 * u109 = v108 * m0) (Q109 : v109 < 2^64) => ?_
  have W109 : u109 + 1 < 2^64 := hi_bound Q108 hm0 E109
  change KP _ _ _ ⟨u109, v109, v108, v59, v76, v93, v97, v101, v105, v106, v107, 0, z107⟩
  refine kadd fun v110 c110 (E110 : v110 + 2^64 * c110 = v97 + v109) (Q110 : v110 < 2^64) z110 => ?_
  change KP _ _ _ ⟨u109, v109, v108, v59, v76, v93, v110, v101, v105, v106, v107, c110, z110⟩
  refine kadcx fun v111 c111 (E111 : v111 + 2^64 * c111 = v101 + u109 + c110) (Q111 : v111 < 2^64) z111 => ?_
  change KP _ _ _ ⟨u109, v109, v108, v59, v76, v93, v110, v111, v105, v106, v107, c111, z111⟩
  refine kadc_drop rfl fun v112 (E112 : v112 = v105 + 0 + c111) (Q112 : v112 < 2^64) z112 => ?_
  change KP _ _ _ ⟨u109, v109, v108, v59, v76, v93, v110, v111, v112, v106, v107, 0, z112⟩
  refine kmulx fun u113 v113 (E113 : v113 + 2^64 * u113 = v108 * m1) (Q113 : v113 < 2^64) => ?_
  have W113 : u113 + 1 < 2^64 := hi_bound Q108 hm1 E113
  change KP _ _ _ ⟨u113, v113, v108, v59, v76, v93, v110, v111, v112, v106, v107, 0, z112⟩
  refine kadd fun v114 c114 (E114 : v114 + 2^64 * c114 = v111 + v113) (Q114 : v114 < 2^64) z114 => ?_
  change KP _ _ _ ⟨u113, v113, v108, v59, v76, v93, v110, v114, v112, v106, v107, c114, z114⟩
  refine kadcx fun v115 c115 (E115 : v115 + 2^64 * c115 = v112 + u113 + c114) (Q115 : v115 < 2^64) z115 => ?_
  change KP _ _ _ ⟨u113, v113, v108, v59, v76, v93, v110, v114, v115, v106, v107, c115, z115⟩
  refine kadc_drop rfl fun v116 (E116 : v116 = v106 + 0 + c115) (Q116 : v116 < 2^64) z116 => ?_
  change KP _ _ _ ⟨u113, v113, v108, v59, v76, v93, v110, v114, v115, v116, v107, 0, z116⟩
  refine kmulx fun u117 v117 (E117 : v117 + 2^64 * u117 = v108 * m2) (Q117 : v117 < 2^64) => ?_
  have W117 : u117 + 1 < 2^64 := hi_bound Q108 hm2 E117
  change KP _ _ _ ⟨u117, v117, v108, v59, v76, v93, v110, v114, v115, v116, v107, 0, z116⟩
  refine kadd fun v118 c118 (E118 : v118 + 2^64 * c118 = v115 + v117) (Q118 : v118 < 2^64) z118 => ?_
  change KP _ _ _ ⟨u117, v117, v108, v59, v76, v93, v110, v114, v118, v116, v107, c118, z118⟩
  refine kadcx fun v119 c119 (E119 : v119 + 2^64 * c119 = v116 + u117 + c118) (Q119 : v119 < 2^64) z119 => ?_
  change KP _ _ _ ⟨u117, v117, v108, v59, v76, v93, v110, v114, v118, v119, v107, c119, z119⟩
  refine kadc_drop rfl fun v120 (E120 : v120 = v107 + 0 + c119) (Q120 : v120 < 2^64) z120 => ?_
  change KP _ _ _ ⟨u117, v117, v108, v59, v76, v93, v110, v114, v118, v119, v120, 0, z120⟩
  refine kmulx fun u121 v121 (E121 : v121 + 2^64 * u121 = v108 * m3) (Q121 : v121 < 2^64) => ?_
  have W121 : u121 + 1 < 2^64 := hi_bound Q108 hm3 E121
  change KP _ _ _ ⟨u121, v121, v108, v59, v76, v93, v110, v114, v118, v119, v120, 0, z120⟩
  refine kadd fun v122 c122 (E122 : v122 + 2^64 * c122 = v119 + v121) (Q122 : v122 < 2^64) z122 => ?_
  change KP _ _ _ ⟨u121, v121, v108, v59, v76, v93, v110, v114, v118, v122, v120, c122, z122⟩
  refine kadcx_drop rfl fun v123 (E123 : v123 = v120 + u121 + c122) (Q123 : v123 < 2^64) z123 => ?_
  change KP _ _ _ ⟨u121, v121, v108, v59, v76, v93, v110, v114, v118, v122, v123, 0, z123⟩
  have Z3 : v110 = 0 := low_zero hinv E108 E109 E110 Q110
  have K7 : v59 * 2^0 + v76 * 2^64 + v93 * 2^128 + v110 * 2^192 + v114 * 2^256 + v118 * 2^320 + v122 * 2^384 + v123 * 2^448 = v59 * 2^0 + v76 * 2^64 + v93 * 2^128 + v97 * 2^192 + v101 * 2^256 + v105 * 2^320 + v106 * 2^384 + v107 * 2^448 + v108 * 2^192 * (L4.mk m0 m1 m2 m3).val := by
    unfold L4.val
    linear_combination 2^192 * E109 + 2^192 * E110 + 2^256 * E111 + 2^320 * E112 + 2^256 * E113 + 2^256 * E114 + 2^320 * E115 + 2^384 * E116 + 2^320 * E117 + 2^320 * E118 + 2^384 * E119 + 2^448 * E120 + 2^384 * E121 + 2^384 * E122 + 2^448 * E123
  clear E108 E109 E110 E111 E112 E113 E114 E115 E116 E117 E118 E119 E120 E121 E122 E123 W108 W109 W113 W117 W121
  have key : (L4.mk v114 v118 v122 v123).val * 2^256 = (L4.mk a0 a1 a2 a3).val * (L4.mk a0 a1 a2 a3).val + (v57 + v74 * 2^64 + v91 * 2^128 + v108 * 2^192) * (L4.mk m0 m1 m2 m3).val := by
    have Ka : (L4.mk a0 a1 a2 a3).val = a0 + a1 * 2^64 + a2 * 2^128 + a3 * 2^192 := rfl
    have Kr : (L4.mk v114 v118 v122 v123).val = v114 + v118 * 2^64 + v122 * 2^128 + v123 * 2^192 := rfl
    rw [Kr]
    generalize (L4.mk m0 m1 m2 m3).val = X at *
    generalize hY : (L4.mk a0 a1 a2 a3).val = Y at *
    linear_combination K0 + K1 + K2 + K3 + K4 + K5 + K6 + K7 - 2^0 * Z0 - 2^64 * Z1 - 2^128 * Z2 - 2^192 * Z3 - Y * Ka
  refine KP_run ?_
  exact hfin _ _ _ _ _ _ _ _ _ _ _ _ _ Q114 Q118 Q122 Q123 _ (by clear * - Q57 Q74 Q91 Q108; omega) key

end Kogarashi.Limbs.Asm
