{
 "claims": [
  {
   "property": "C01",
   "status": "proved",
   "theorems": [
    "Kogarashi.Props.C01_additive_ops"
   ],
   "note": "for every modulus of at most 255 bits with valid Montgomery constants; Fr and Fq are instances"
  },
  {
   "property": "C02",
   "status": "proved",
   "theorems": [
    "Kogarashi.Props.C02_mul",
    "Kogarashi.Props.C02_roundtrip"
   ],
   "note": "as C01; includes the conversion round trip"
  },
  {
   "property": "C03",
   "status": "partial",
   "theorems": [
    "Kogarashi.Props.C03_square_refuted",
    "Kogarashi.Props.C03_square_partial",
    "Kogarashi.Props.C03_square384_partial",
    "Kogarashi.Props.C03_square384_exact_partial"
   ],
   "note": "False of the code: square drops a carry; refuted by a concrete canonical element. The exact set of inputs on which square equals mul is characterised for the 256-bit back end (C03_square_partial) and the 384-bit one (C03_square384_exact_partial)."
  },
  {
   "property": "C04",
   "status": "partial",
   "theorems": [
    "Kogarashi.Props.C04_invert_refuted",
    "Kogarashi.Props.C04_invert_none",
    "Kogarashi.Props.C04_pow_partial",
    "Kogarashi.Props.C04_invert_partial",
    "Kogarashi.Props.C04_div_panic",
    "Kogarashi.Props.C04_div_partial",
    "Kogarashi.Props.C04_limb_one"
   ],
   "note": "false of the code because of C03; refuted by a witness; holds whenever no intermediate squaring loses a carry. C04_limb_one: the limb module's one is the field's."
  },
  {
   "property": "C05",
   "status": "proved",
   "theorems": [
    "Kogarashi.Props.C05_to_bytes",
    "Kogarashi.Props.C05_from_bytes",
    "Kogarashi.Props.C05_bytes_roundtrip"
   ],
   "note": ""
  },
  {
   "property": "C06",
   "status": "proved",
   "theorems": [
    "Kogarashi.Props.C06_from_bytes_wide",
    "Kogarashi.Props.C06_random",
    "Kogarashi.Props.C06_from_u64"
   ],
   "note": ""
  },
  {
   "property": "C07",
   "status": "partial",
   "theorems": [
    "Kogarashi.Props.C07_eq",
    "Kogarashi.Props.C07_order_partial",
    "Kogarashi.Props.C07_value_order_refuted"
   ],
   "note": "equality and total order proved; the order compares Montgomery limbs, so value order is refuted"
  },
  {
   "property": "C08",
   "status": "proved",
   "theorems": [
    "Kogarashi.Props.C08_to_bits"
   ],
   "note": ""
  },
  {
   "property": "C09",
   "status": "partial",
   "theorems": [
    "Kogarashi.Props.C09_naf384_exact",
    "Kogarashi.Props.C09_naf_partial",
    "Kogarashi.Props.C09_naf384_refuted",
    "Kogarashi.Props.C09_naf384_partial"
   ],
   "note": "proved for the 256-bit back end; 384-bit digits come out reversed (refuted). C09_naf384_exact: the 384-bit digits read as the scalar exactly when they are the same from both ends."
  },
  {
   "property": "C10",
   "status": "partial",
   "theorems": [
    "Kogarashi.Props.C10_sqrt_refuted",
    "Kogarashi.Props.C10_fr_sqrt_exact_squaring",
    "Kogarashi.Props.C10_fq_sqrt_exact_squaring",
    "Kogarashi.Props.C10_sqrt_partial",
    "Kogarashi.Props.C10_pow_vartime_partial",
    "Kogarashi.Props.C10_pow_vartime_refuted"
   ],
   "note": "Tonelli-Shanks and p=3 mod 4 algorithms proved correct given exact squaring; the code's sqrt is refuted on squares whose run loses a carry. C10_pow_vartime_partial: pow_vartime is the power when no squaring loses a carry; refuted otherwise by C10_pow_vartime_refuted."
  },
  {
   "property": "C11",
   "status": "partial",
   "theorems": [
    "Kogarashi.Props.C11_ff_views",
    "Kogarashi.Props.C11_ff_sqrt_refuted",
    "Kogarashi.Props.C11_ff_refuted",
    "Kogarashi.Props.C11_ff_partial"
   ],
   "note": "invert(0) and from_repr of non-canonical input refuted (C11_ff_refuted); sqrt and sqrt_ratio never return (C11_ff_sqrt_refuted, on the published text of ff 0.13.0). The other views of the layer are proved (C11_ff_views)."
  },
  {
   "property": "C12",
   "status": "partial",
   "theorems": [
    "Kogarashi.Props.C12_conversions",
    "Kogarashi.Props.C12_roundtrip_partial",
    "Kogarashi.Props.C12_fr_roundtrip",
    "Kogarashi.Props.C12_roundtrip_refuted"
   ],
   "note": "Fr to Fq exact; Fq to Fr to Fq is the identity exactly below the order of Fr (round trip refuted)"
  },
  {
   "property": "C13",
   "status": "partial",
   "theorems": [
    "Kogarashi.Props.C13_constants_partial",
    "Kogarashi.Props.C13_additive_identity_refuted"
   ],
   "note": "primality, Montgomery constants and order of the root of unity proved; ADDITIVE_IDENTITY refuted"
  },
  {
   "property": "C14",
   "status": "proved",
   "theorems": [
    "Kogarashi.Props.C14_representation",
    "Kogarashi.Props.C14_fq2",
    "Kogarashi.Props.C14_fq6",
    "Kogarashi.Props.C14_fq12"
   ],
   "note": "Coefficient vectors over any commutative ring; bijection with the quotient rings R[u]/(u^2+1), R[u][v]/(v^3-(9+u)), R[u][v][w]/(w^2-v) and every by-value operation is the ring operation there."
  },
  {
   "property": "C15",
   "status": "partial",
   "theorems": [
    "Kogarashi.Props.C15_fq2_refuted",
    "Kogarashi.Props.C15_fq6_refuted",
    "Kogarashi.Props.C15_fq12_refuted",
    "Kogarashi.Props.C15_actual_partial"
   ],
   "note": "False of the code: by-reference subtraction multiplies, by-reference multiplication adds, by-reference addition recurses forever. Witnesses at all three levels; C15_actual_partial states what they compute."
  },
  {
   "property": "C16",
   "status": "proved",
   "theorems": [
    "Kogarashi.Props.C16_fq2",
    "Kogarashi.Props.C16_fq6",
    "Kogarashi.Props.C16_fq12"
   ],
   "note": "Fq2, Fq6, Fq12 over the field of residues modulo q: no panic, None exactly on zero, otherwise an inverse. Irreducibility (82 neither square nor cube mod q) is proved."
  },
  {
   "property": "C17",
   "status": "proved",
   "theorems": [
    "Kogarashi.Props.C17_sparse"
   ],
   "note": "Over any commutative ring."
  },
  {
   "property": "C18",
   "status": "proved",
   "theorems": [
    "Kogarashi.Props.C18_frobenius_map",
    "Kogarashi.Props.C18_frobenius_maps",
    "Kogarashi.Props.C18_conjugate"
   ],
   "note": "All Frobenius coefficient tables checked in the kernel; powers q^k for every k."
  },
  {
   "property": "C19",
   "status": "proved",
   "theorems": [
    "Kogarashi.Props.C19_cyclotomic_square",
    "Kogarashi.Props.C19_final_exp",
    "Kogarashi.Props.C19_torsion"
   ],
   "note": "Cyclotomic squaring on the whole cyclotomic subgroup; final_exp panics exactly on zero and otherwise is the power (q^12-1)/r, an r-th root of unity."
  },
  {
   "property": "C20",
   "status": "proved",
   "theorems": [
    "Kogarashi.Props.C20_add_affine",
    "Kogarashi.Props.C20_add_mixed",
    "Kogarashi.Props.C20_add_projective",
    "Kogarashi.Props.C20_sum"
   ],
   "note": "Refined to Mathlib's group of points of y^2=x^3+b over any field of characteristic other than two; covers the three addition routines and Sum."
  },
  {
   "property": "C21",
   "status": "partial",
   "theorems": [
    "Kogarashi.Props.C21_double_projective",
    "Kogarashi.Props.C21_double_affine_partial",
    "Kogarashi.Props.C21_double_affine_identity_refuted"
   ],
   "note": "Proved for every projective representative and for affine points other than the identity; refuted for the affine identity, whose double is not the identity."
  },
  {
   "property": "C22",
   "status": "partial",
   "theorems": [
    "Kogarashi.Props.C22_scalar_mul",
    "Kogarashi.Props.C22_scalar_mul_affine",
    "Kogarashi.Props.C22_scalar_mul384_refuted",
    "Kogarashi.Props.C22_scalar_mul384_exact"
   ],
   "note": "Proved for the 256-bit back end, all points and canonical scalars; refuted for the 384-bit back end, whose recoding comes in the opposite order. C22_scalar_mul384_exact: what the 384-bit back end computes and exactly when that is right."
  },
  {
   "property": "C23",
   "status": "partial",
   "theorems": [
    "Kogarashi.Props.C23_neg",
    "Kogarashi.Props.C23_sub_partial",
    "Kogarashi.Props.C23_mixed_refuted",
    "Kogarashi.Props.C23_mixed_exact"
   ],
   "note": "Proved for negation and all operator variants except the three by-reference affine - projective operators, which add and are refuted. C23_mixed_exact: right exactly for subtrahends killed by two."
  },
  {
   "property": "C24",
   "status": "proved",
   "theorems": [
    "Kogarashi.Props.C24_eq",
    "Kogarashi.Props.C24_conversions",
    "Kogarashi.Props.C24_normal_form",
    "Kogarashi.Props.C24_batch_normalize"
   ],
   "note": ""
  },
  {
   "property": "C25",
   "status": "partial",
   "theorems": [
    "Kogarashi.Props.C25_weierstrass",
    "Kogarashi.Props.C25_edwards_partial",
    "Kogarashi.Props.C25_edwards_refuted",
    "Kogarashi.Props.C25_edwards_exact_partial"
   ],
   "note": "Weierstrass: exact characterisation. Edwards: refuted (every (0,y) and every z=0 is accepted); what remains true is proved. C25_edwards_exact_partial says exactly what is accepted."
  },
  {
   "property": "C26",
   "status": "proved",
   "theorems": [
    "Kogarashi.Props.C26_closed",
    "Kogarashi.Props.C26_add_extended",
    "Kogarashi.Props.C26_add_mixed",
    "Kogarashi.Props.C26_add_affine",
    "Kogarashi.Props.C26_double_affine",
    "Kogarashi.Props.C26_double_extended",
    "Kogarashi.Props.C26_structure",
    "Kogarashi.Props.C26_affine",
    "Kogarashi.Props.C26_from_x_and_y"
   ],
   "note": "All five routines, constructors, closure and non-vanishing denominators. Only the test curve of zkstd instantiates an Edwards curve; associativity is C101."
  },
  {
   "property": "C27",
   "status": "proved",
   "theorems": [
    "Kogarashi.Props.C27_round_trip",
    "Kogarashi.Props.C27_truncated"
   ],
   "note": "to_raw_bytes exists for Grumpkin only; from_slice_unchecked for Grumpkin and G1 is the same function."
  },
  {
   "property": "C28",
   "status": "proved",
   "theorems": [
    "Kogarashi.Props.C28_miller_loop",
    "Kogarashi.Props.C28_exact"
   ],
   "note": "Multi Miller loop with prepared coefficients is the product over pairs, identity pairs contribute 1, never panics; consumes the coefficient list exactly."
  },
  {
   "property": "C29",
   "status": "partial",
   "theorems": [
    "Kogarashi.Props.C29_g1_refuted",
    "Kogarashi.Props.C29_mul_by_x_partial",
    "Kogarashi.Props.C29_g2_refuted",
    "Kogarashi.Props.C29_g1_exact",
    "Kogarashi.Props.C29_g2_exact"
   ],
   "note": "Refuted for the generators of G1 and of G2 (both have order r, both are rejected); the partial theorem gives the multiple mul_by_x really computes. Exact, for every point of both curves: true of the identity and false of every other point (C29_g1_exact for every BETA, C29_g2_exact)."
  },
  {
   "property": "C30",
   "status": "proved",
   "theorems": [
    "Kogarashi.Props.C30_distinct",
    "Kogarashi.Props.C30_linear",
    "Kogarashi.Props.C30_constant",
    "Kogarashi.Props.C30_new_repeated_wire_not_additive"
   ],
   "note": "for every row built with the API; SparseRow::new with a repeated wire is shown not to be additive"
  },
  {
   "property": "C31",
   "status": "proved",
   "theorems": [
    "Kogarashi.Props.C31_is_sat",
    "Kogarashi.Props.C31_prod",
    "Kogarashi.Props.C31_gates"
   ],
   "note": "for every system and every instance/witness of the right length"
  },
  {
   "property": "C32",
   "status": "proved",
   "theorems": [
    "Kogarashi.Props.C32_mul",
    "Kogarashi.Props.C32_square",
    "Kogarashi.Props.C32_add",
    "Kogarashi.Props.C32_enforce_eq",
    "Kogarashi.Props.C32_enforce_eq_constant",
    "Kogarashi.Props.C32_enforce_eq_bits",
    "Kogarashi.Props.C32_conditional_enforce_equal",
    "Kogarashi.Props.C32_conditional_select",
    "Kogarashi.Props.C32_binary_conditional_enforce_equal"
   ],
   "note": "soundness over every assignment, completeness, honest run; also for flags (C32_binary_conditional_enforce_equal)"
  },
  {
   "property": "C33",
   "status": "partial",
   "theorems": [
    "Kogarashi.Props.C33_range_check_partial",
    "Kogarashi.Props.C33_range_check_bits_partial",
    "Kogarashi.Props.C33_short_vector_refuted",
    "Kogarashi.Props.C33_zero_bound_refuted",
    "Kogarashi.Props.C33_short",
    "Kogarashi.Props.C33_zero",
    "Kogarashi.Props.C33_bits_zero"
   ],
   "note": "exact for vectors at least as long as the bound; short vectors enforce nothing and the zero bound panics (both refuted). The remaining cases for every circuit: a bound that does not fit the vector adds no constraint (C33_short); the zero bound and zero bits panic (C33_zero, C33_bits_zero)."
  },
  {
   "property": "C34",
   "status": "partial",
   "theorems": [
    "Kogarashi.Props.C34_to_bits_refuted",
    "Kogarashi.Props.C34_to_bits_partial",
    "Kogarashi.Props.C34_panics"
   ],
   "note": "false of the code: bits are not linked to the value, refuted for every circuit; bounds and honest run proved. C34_panics: it panics exactly for zero or more than 256 bits."
  },
  {
   "property": "C35",
   "status": "partial",
   "theorems": [
    "Kogarashi.Props.C35_exact",
    "Kogarashi.Props.C35_groth16_refuted",
    "Kogarashi.Props.C35_is_eq_refuted",
    "Kogarashi.Props.C35_boolean_refuted",
    "Kogarashi.Props.C35_is_neq_refuted",
    "Kogarashi.Props.C35_honest_partial"
   ],
   "note": "false of the code: refuted for every circuit; honest values and one direction of is_neq proved. C35_exact: which values the flags can be given. C35_groth16_refuted: the accepted Groth16 proofs that follow."
  },
  {
   "property": "C36",
   "status": "partial",
   "theorems": [
    "Kogarashi.Props.C36_groth16_refuted",
    "Kogarashi.Props.C36_bn254_refuted",
    "Kogarashi.Props.C36_inputize_refuted",
    "Kogarashi.Props.C36_inputize_partial"
   ],
   "note": "false of the code: the public wire is free, refuted for every circuit; honest value proved. C36_groth16_refuted, C36_bn254_refuted: every circuit that ends with inputize has accepted Groth16 proofs with every other published value."
  },
  {
   "property": "C37",
   "status": "partial",
   "theorems": [
    "Kogarashi.Props.C37_add",
    "Kogarashi.Props.C37_double",
    "Kogarashi.Props.C37_select",
    "Kogarashi.Props.C37_select_identity",
    "Kogarashi.Props.C37_assert_equal_public",
    "Kogarashi.Props.C37_allocate",
    "Kogarashi.Props.C37_descale_partial",
    "Kogarashi.Props.C37_descale_refuted"
   ],
   "note": "add, double, select, select_identity, assert_equal_public_point and allocation are proved sound and complete (curves without points of order two; both curves of the code shown to be such). descale: honest correctness proved, soundness refuted with a witness family."
  },
  {
   "property": "C38",
   "status": "partial",
   "theorems": [
    "Kogarashi.Props.C38_scalar_exact",
    "Kogarashi.Props.C38_any_point",
    "Kogarashi.Props.C38_scalar_partial",
    "Kogarashi.Props.C38_scalar_refuted"
   ],
   "note": "Honest value and 'some multiple below the field order' proved; soundness refuted because to_bits is not linked to the scalar. C38_scalar_exact: the outputs over all satisfying assignments are exactly the multiples below the field order; on G1 every point (C38_any_point)."
  },
  {
   "property": "C39",
   "status": "proved",
   "theorems": [
    "Kogarashi.Props.C39_point_gadgets",
    "Kogarashi.Props.C39_scalar_point",
    "Kogarashi.Props.C39_field_gadgets",
    "Kogarashi.Props.C39_bit_gadgets",
    "Kogarashi.Props.C39_sequence"
   ],
   "note": ""
  },
  {
   "property": "C40",
   "status": "partial",
   "theorems": [
    "Kogarashi.Props.C40_dft_exact",
    "Kogarashi.Props.C40_dft_right",
    "Kogarashi.Props.C40_dft_one_more",
    "Kogarashi.Props.C40_product_exact",
    "Kogarashi.Props.C40_no_panic",
    "Kogarashi.Props.C40_new",
    "Kogarashi.Props.C40_domain",
    "Kogarashi.Props.C40_dft_partial",
    "Kogarashi.Props.C40_idft_dft_partial",
    "Kogarashi.Props.C40_dft_idft",
    "Kogarashi.Props.C40_idft_interpolates",
    "Kogarashi.Props.C40_coset_dft_partial",
    "Kogarashi.Props.C40_coset_idft",
    "Kogarashi.Props.C40_product",
    "Kogarashi.Props.C40_divide_by_z",
    "Kogarashi.Props.C40_truncates_refuted",
    "Kogarashi.Props.C40_bn254"
   ],
   "note": "Proved for every k and every vector that fits the domain, over any field with the root-of-unity data C12 establishes for BN254. Vectors longer than 2^k are silently truncated (C40_truncates_refuted). C40_no_panic: in the model in which every index access may panic, no transform panics and the results are those of the model without panics. C40_dft_exact, C40_product_exact: vectors and products of every length (cut after 2^k entries, products modulo X^(2^k)-1); C40_dft_right: exactly when the values are those of the whole polynomial."
  },
  {
   "property": "C41",
   "status": "partial",
   "theorems": [
    "Kogarashi.Props.C41_sub_exact",
    "Kogarashi.Props.C41_add",
    "Kogarashi.Props.C41_scale",
    "Kogarashi.Props.C41_sum",
    "Kogarashi.Props.C41_evaluate",
    "Kogarashi.Props.C41_divide",
    "Kogarashi.Props.C41_divide_root",
    "Kogarashi.Props.C41_degree",
    "Kogarashi.Props.C41_sub_partial",
    "Kogarashi.Props.C41_sub_refuted",
    "Kogarashi.Props.C41_equality",
    "Kogarashi.Props.C41_equality_refuted",
    "Kogarashi.Props.C41_vanishing"
   ],
   "note": "Coefficient subtraction returns the negated difference unless the left operand is strictly longer (C41_sub_refuted); all other operations proved in full. C41_vanishing: t(2^k, tau) is the product over the domain. C41_sub_exact: subtraction is right exactly when the left operand is strictly longer or the polynomials are equal. C41_equality: == and degree on every value built with the operations; C41_equality_refuted: the exception, blinding with the scalar zero."
  },
  {
   "property": "C42",
   "status": "proved",
   "theorems": [
    "Kogarashi.Props.C42_msm",
    "Kogarashi.Props.C42_digit"
   ],
   "note": "msm_curve_addition over every slice pair computes the sum of scalar multiples, for any group-law implementation meeting MsmLaws; C42_digit covers the window digit extraction."
  },
  {
   "property": "C43",
   "status": "partial",
   "theorems": [
    "Kogarashi.Props.C43_completeness_all_refuted",
    "Kogarashi.Props.C43_assignment",
    "Kogarashi.Props.C43_env_bn254",
    "Kogarashi.Props.C43_completeness_partial",
    "Kogarashi.Props.C43_completeness_refuted",
    "Kogarashi.C43_padded",
    "Kogarashi.Props.C43_verdict",
    "Kogarashi.Props.C43_all_or_few",
    "Kogarashi.Props.C43_same_verdict",
    "Kogarashi.Props.C43_low_degree_partial",
    "Kogarashi.Props.C43_low_degree_pow"
   ],
   "note": "False of the code: proved complete when the number of constraints is a power of two >= 2 (whatever trapdoor and coins). For every other number of constraints a satisfied circuit of that size is exhibited whose honest proof is rejected for all but 2^ceil(log2 m) + m values of tau (C43_completeness_all_refuted); for three constraints, 1*1 = 1 three times is rejected for all but five (C43_completeness_refuted). For every number of constraints: the verdict on an honest proof is the vanishing at tau of a polynomial fixed by circuit and assignment (C43_verdict), so it does not depend on coins and other secrets (C43_same_verdict) and is positive always or for at most n+m-2 values of tau (C43_all_or_few); columns of low degree are accepted always (C43_low_degree_partial). C43_padded: completeness, rejection and setup for every circuit whose author adds trivial equations up to a power of two. C43_assignment: every satisfying assignment, not only the one synthesize computes, gives an accepted proof."
  },
  {
   "property": "C44",
   "status": "partial",
   "theorems": [
    "Kogarashi.Props.C44_small_refuted",
    "Kogarashi.Props.C44_runs_partial",
    "Kogarashi.Props.C44_tau_refuted",
    "Kogarashi.Props.C44_outcome",
    "Kogarashi.Props.C44_outcome_pow",
    "Kogarashi.Props.C44_panics_count"
   ],
   "note": "False of the code: setup panics for every circuit with at most one constraint, and for tau = 1. Proved: for 2..2^S constraints setup and create_proof return for all but at most m-1 values of tau and all non-zero gamma, delta; the exact outcome of setup for every size and all secrets; and that the bound m-1 is reached by every circuit of 2^k constraints whose last constraint mentions a wire."
  },
  {
   "property": "C45",
   "status": "proved",
   "theorems": [
    "Kogarashi.Props.C45_verify"
   ],
   "note": "All keys, proofs and input vectors; bilinear map is a parameter."
  },
  {
   "property": "C46",
   "status": "partial",
   "theorems": [
    "Kogarashi.Props.C46_witness_indistinguishable_partial",
    "Kogarashi.Props.C46_witness_indistinguishable_refuted",
    "Kogarashi.Props.C46_witness_all_refuted",
    "Kogarashi.Props.C46_same_or_disjoint",
    "Kogarashi.Props.C46_accepted"
   ],
   "note": "False of the code for every number of constraints that is not a power of two: acceptance of the proof reveals the witness (C46_witness_all_refuted; C46_witness_indistinguishable_refuted for three). Proved for a power of two constraints: a bijection of the coins maps proofs for one witness to proofs for the other. For every number of constraints and any two assignments with the same public inputs: their proofs are equally distributed or never coincide (C46_same_or_disjoint); equally distributed whenever both are accepted (C46_accepted). C104_padded: for every circuit, padded."
  },
  {
   "property": "C47",
   "status": "partial",
   "theorems": [
    "Kogarashi.Props.C47_unsat_all_refuted",
    "Kogarashi.Props.C47_unsat_partial",
    "Kogarashi.Props.C47_unsat_refuted",
    "Kogarashi.Props.C47_cut_partial"
   ],
   "note": "False of the code: an unsatisfiable three-constraint circuit is accepted for every trapdoor (C47_unsat_refuted), and for every k from 2 to S there is a circuit of 2^k-1 constraints, all of them violated by every assignment, whose proofs are accepted (C47_unsat_all_refuted). Proved with bound 2n-2 when the number of constraints is a power of two. C47_cut_partial: for every number of constraints, what acceptance does check, namely that the column polynomials cut after m terms multiply on the domain. C43_padded: rejection for every circuit, padded."
  },
  {
   "property": "C48",
   "status": "partial",
   "theorems": [
    "Kogarashi.Props.C48_unused_input_refuted",
    "Kogarashi.Props.C48_binding_partial",
    "Kogarashi.Props.C48_undistinguished",
    "Kogarashi.Props.C48_exact"
   ],
   "note": "False of the code: an input no constraint mentions is not bound. Proved: inputs some constraint tells apart are bound except for at most m-1 tau and a linear relation on alpha, beta. C48_undistinguished and. C48_exact: vectors no constraint tells apart get the same verdict from every proof, so every pair of vectors is decided."
  },
  {
   "property": "C49",
   "status": "proved",
   "theorems": [
    "Kogarashi.Props.C49_sum",
    "Kogarashi.Props.C49_linear",
    "Kogarashi.Props.C49_prefix",
    "Kogarashi.Props.C49_beyond_key"
   ],
   "note": "Commitment over an abstract module: sum of the products, linear, extra entries beyond the key ignored (C49_beyond_key: so commitments are not binding past the key length)."
  },
  {
   "property": "C50",
   "status": "proved",
   "theorems": [
    "Kogarashi.Props.C50_is_sat_relaxed",
    "Kogarashi.Props.C50_is_sat",
    "Kogarashi.Props.C50_fold",
    "Kogarashi.Props.C50_prove",
    "Kogarashi.Props.C50_history"
   ],
   "note": "All shapes, pairs, challenges and histories of folds."
  },
  {
   "property": "C51",
   "status": "proved",
   "theorems": [
    "Kogarashi.Props.C51_agree",
    "Kogarashi.Props.C51_openings"
   ],
   "note": "All inputs for which the prover returns."
  },
  {
   "property": "C52",
   "status": "proved",
   "theorems": [
    "Kogarashi.Props.C52_special_soundness",
    "Kogarashi.Props.C52_extraction"
   ],
   "note": "Special soundness for three challenges, plus extraction from freely chosen openings up to a non-trivial relation between key elements (discrete-log break)."
  },
  {
   "property": "C53",
   "status": "partial",
   "theorems": [
    "Kogarashi.Props.C53_challenge_refuted",
    "Kogarashi.Props.C53_forgery_refuted",
    "Kogarashi.Props.C53_running_instance_partial"
   ],
   "note": "False of the code: the new instance is not absorbed, and a cheating prover can exploit it (C53_forgery_refuted). The running instance and cross-term commitment are bound (partial)."
  },
  {
   "property": "C54",
   "status": "proved",
   "theorems": [
    "Kogarashi.Props.C54_no_wrap"
   ],
   "note": "Histories of fewer than 2^125 folds."
  },
  {
   "property": "C55",
   "status": "proved",
   "theorems": [
    "Kogarashi.Props.C55_value",
    "Kogarashi.Props.C55_round_trip",
    "Kogarashi.Props.C55_round_trip_only",
    "Kogarashi.Props.C55_squeeze"
   ],
   "note": "All elements and squeeze lengths up to 256 bits."
  },
  {
   "property": "C56",
   "status": "proved",
   "theorems": [
    "Kogarashi.Props.C56_transcript"
   ],
   "note": "All states, constants, numbers of absorbed rows and output lengths 1..256; fields of at most 256 bits."
  },
  {
   "property": "C57",
   "status": "proved",
   "theorems": [
    "Kogarashi.Props.C57_add",
    "Kogarashi.Props.C57_nat_to_f",
    "Kogarashi.Props.C57_f_to_nat",
    "Kogarashi.Props.C57_negative",
    "Kogarashi.Props.C57_minus_one",
    "Kogarashi.Props.C57_encode",
    "Kogarashi.Props.C57_panics",
    "Kogarashi.Props.C57_decode"
   ],
   "note": "Native conversions and the limb-wise addition gadget, for every limb width and count with room in the field. C57_nat_to_f and C57_f_to_nat give nat_to_f exactly on the natural numbers; a negative BigInt is not refused (C57_negative, C57_minus_one)."
  },
  {
   "property": "C58",
   "status": "proved",
   "theorems": [
    "Kogarashi.Props.C58_mult_mod",
    "Kogarashi.Props.C58_red_mod",
    "Kogarashi.Props.C58_nonvacuous"
   ],
   "note": "Completeness for four-limb operands in a 254-bit field (the sizes the library uses) and every non-zero modulus."
  },
  {
   "property": "C59",
   "status": "proved",
   "theorems": [
    "Kogarashi.Props.C59_outputs",
    "Kogarashi.Props.C59_native"
   ],
   "note": "All step functions with honest one-element circuits, below 2^64 steps (the counter is a u64; what happens at the end of its range is C115_overflow). C59_native: the native functions (invoke) have no influence on setup, proofs or outputs; only the circuits count."
  },
  {
   "property": "C60",
   "status": "proved",
   "theorems": [
    "Kogarashi.Props.C60_complete"
   ],
   "note": "All step functions with honest one-element circuits, below 2^64 steps; instantiated for BN254/Grumpkin with the test function. MiMC constants and commitment keys are arbitrary. Different parameters per call: C115. C119_ivc shows that the hypotheses on step functions are met by every arithmetic expression."
  },
  {
   "property": "C61",
   "status": "partial",
   "theorems": [
    "Kogarashi.Props.C61_refuted",
    "Kogarashi.Props.C61_any_commitments",
    "Kogarashi.Props.C61_shift_refuted"
   ],
   "note": "False of the code: running commitments are never checked (C61_refuted). What acceptance means is C62_meaning_partial. C61_any_commitments: every accepted proof stays accepted with its four running commitments replaced by arbitrary points once two public inputs are recomputed (C61_shift_refuted: off by any point, same claim and witnesses)."
  },
  {
   "property": "C62",
   "status": "partial",
   "theorems": [
    "Kogarashi.Props.C62_refuted",
    "Kogarashi.Props.C62_meaning_partial",
    "Kogarashi.Props.C62_accepts_exact",
    "Kogarashi.Props.C62_retarget"
   ],
   "note": "False of the code: for any claimed step count, inputs and outputs an accepted proof exists (C62_refuted). C62_meaning_partial characterises acceptance. C62_accepts_exact characterises the accepted proofs with no assumption on the lengths of their vectors. C62_retarget: every accepted proof becomes an accepted proof of every other claim, with the same witnesses."
  },
  {
   "property": "C63",
   "status": "partial",
   "theorems": [
    "Kogarashi.Props.C63_refuted",
    "Kogarashi.Props.C63_sized_partial",
    "Kogarashi.Props.C63_exact",
    "Kogarashi.Props.C63_longer"
   ],
   "note": "False of the code: a proof with an over-long error vector makes verify panic (C63_refuted). Proved for proofs whose vectors have the prescribed lengths. C63_exact says on exactly which proofs verify panics, whatever the lengths of their vectors; values of the running witnesses past the wires are ignored (C63_longer)."
  },
  {
   "property": "C64",
   "status": "proved",
   "theorems": [
    "Kogarashi.Props.C64_verify"
   ],
   "note": "The chain runtime (ensure_signed, storage, events) is modelled by its documentation; the proof check is a parameter, possibly panicking."
  },
  {
   "property": "C65",
   "status": "partial",
   "theorems": [
    "Kogarashi.Props.C65_history",
    "Kogarashi.Props.C65_failing",
    "Kogarashi.Props.C65_sum_refuted",
    "Kogarashi.Props.C65_sum_partial"
   ],
   "note": "Over all call histories: items hold the latest effective write, events are exactly the effective writes, failing calls change nothing. The sum query is refuted when the u32 sum overflows (C65_sum_refuted) and proved otherwise (C65_sum_partial)."
  },
  {
   "property": "C66",
   "status": "proved",
   "theorems": [
    "Kogarashi.Props.C66_modulus_minus_one",
    "Kogarashi.Props.C66_pow_of_2_no_loss",
    "Kogarashi.Props.C66_pow_of_2_width"
   ],
   "note": "the general pow_of_2 theorem carries the no-lost-carry hypothesis; it is discharged for every width the circuits use"
  },
  {
   "property": "C67",
   "status": "partial",
   "theorems": [
    "Kogarashi.Props.C67_is_even_exact",
    "Kogarashi.Props.C67_is_odd",
    "Kogarashi.Props.C67_lexicographically_largest",
    "Kogarashi.Props.C67_fq2_lexicographically_largest",
    "Kogarashi.Props.C67_is_even_refuted"
   ],
   "note": "is_odd and lexicographically_largest exact (Fq and Fq2); is_even refuted C67_is_even_exact says what is_even returns on every element."
  },
  {
   "property": "C68",
   "status": "partial",
   "theorems": [
    "Kogarashi.Props.C68_blind_nonempty",
    "Kogarashi.Props.C68_blind_panics",
    "Kogarashi.Props.C68_blind_partial",
    "Kogarashi.Props.C68_blind_zero_refuted"
   ],
   "note": "Blinding proved for vectors at least as long as the number of scalars; on the zero polynomial (stored as the empty vector) it panics (C68_blind_zero_refuted). C68_blind_nonempty drops the bound on the number of scalars; C68_blind_panics says exactly when blind panics."
  },
  {
   "property": "C69",
   "status": "partial",
   "theorems": [
    "Kogarashi.Props.C69_commit_exact",
    "Kogarashi.Props.C69_commit_partial",
    "Kogarashi.Props.C69_commit_refuted"
   ],
   "note": "Holds exactly when the vector is as long as the domain; shorter ones give r^(diff)*f(r) (C69_commit_refuted). C69_commit_exact: when it panics and exactly when the result is the evaluation."
  },
  {
   "property": "C70",
   "status": "partial",
   "theorems": [
    "Kogarashi.Props.C70_gate_refuted",
    "Kogarashi.Props.C70_gate_partial",
    "Kogarashi.Props.C70_honest"
   ],
   "note": "False of the code: any signed account can write any value with a forged proof (from C62_refuted), under any setup. C70_gate_partial: a change of the item needs a signed call with a proof the verifier accepts. C70_honest: every proof of an honest run of any expression step functions opens the gate for any account and value."
  },
  {
   "property": "C71",
   "status": "proved",
   "theorems": [
    "Kogarashi.Props.C71_pairing",
    "Kogarashi.Props.C71_identity"
   ],
   "note": "pairing = Miller's algorithm over Mathlib's group law on the untwisted curve, for all of G1 and all of the r-torsion of the twist; no exceptional case of the projective line formulas is ever met."
  },
  {
   "property": "C72",
   "status": "proved",
   "theorems": [
    "Kogarashi.Props.C72_sqrt",
    "Kogarashi.Props.C72_pow"
   ],
   "note": "Sound and complete square root, via the order of the multiplicative group."
  },
  {
   "property": "C73",
   "status": "partial",
   "theorems": [
    "Kogarashi.Props.C73_group_partial",
    "Kogarashi.Props.C73_zero_refuted",
    "Kogarashi.Props.C73_generator"
   ],
   "note": "Group laws on the r-th roots of unity, generator = pairing of generators (kernel evaluation); zero() is the field zero, refuted as identity."
  },
  {
   "property": "C74",
   "status": "proved",
   "theorems": [
    "Kogarashi.Props.C74_add_left",
    "Kogarashi.Props.C74_add_right",
    "Kogarashi.Props.C74_scalar",
    "Kogarashi.Props.C74_nondegenerate"
   ],
   "note": "Proved outright, not assumed: reciprocity of line values on the curve over Fq12, a cocycle extension carrying the Miller loop, cyclicity of the r-torsion of the twist and Frobenius acting on it as [q]."
  },
  {
   "property": "C75",
   "status": "partial",
   "theorems": [
    "Kogarashi.Props.C75_pairing",
    "Kogarashi.Props.C75_refines",
    "Kogarashi.Props.C75_accepts",
    "Kogarashi.Props.C75_completeness_partial",
    "Kogarashi.Props.C75_unsat_partial"
   ],
   "note": "Struct-level verifier = abstract verifier of C43-C48 instantiated with the real pairing; acceptance equation in Fq12; completeness and rejection of unsatisfying runs for a power of two constraints (other sizes refuted in C43, C47)."
  },
  {
   "property": "C76",
   "status": "proved",
   "theorems": [
    "Kogarashi.Props.C76_cycle",
    "Kogarashi.Props.C76_g1_no_torsion",
    "Kogarashi.Props.C76_grumpkin_no_torsion",
    "Kogarashi.Props.C76_generators"
   ],
   "note": "Full: via the group-order theorems proved from Mathlib's curve group (Hasse-free counting argument) and primality certificates."
  },
  {
   "property": "C77",
   "status": "partial",
   "theorems": [
    "Kogarashi.Props.C77_double_partial",
    "Kogarashi.Props.C77_add_partial",
    "Kogarashi.Props.C77_add_affine_partial",
    "Kogarashi.Props.C77_scalar_partial",
    "Kogarashi.Props.C77_to_affine_partial",
    "Kogarashi.Props.C77_on_curve_affine_partial",
    "Kogarashi.Props.C77_on_curve_projective_partial",
    "Kogarashi.Props.C77_double_refuted",
    "Kogarashi.Props.C77_grumpkin_refuted"
   ],
   "note": "False of the code: a valid point of G1 is rejected by is_on_curve and double, + and * 2 give structs that hold no curve point (C77_double_refuted), because of the carry lost in square (C03). Proved whenever no squaring of the run loses a carry. C77_grumpkin_refuted gives the same for Grumpkin."
  },
  {
   "property": "C78",
   "status": "partial",
   "theorems": [
    "Kogarashi.Props.C78_base",
    "Kogarashi.Props.C78_fq12",
    "Kogarashi.Props.C78_fq2_mul",
    "Kogarashi.Props.C78_fq2_square_partial",
    "Kogarashi.Props.C78_fq2_square_refuted",
    "Kogarashi.Props.C78_g2_on_curve_refuted",
    "Kogarashi.Props.C78_fq2_square_exact"
   ],
   "note": "False of the code for squaring: Fq2::square inherits the lost carry (C78_fq2_square_refuted), and a valid point of the twist is rejected by is_on_curve (C78_g2_on_curve_refuted). Everything that does not square in the base field is exact on limbs for all inputs (C78_fq12). C78_fq2_square_exact: Fq2 squaring on limbs is right exactly when both coefficients lose a carry or neither does."
  },
  {
   "property": "C79",
   "status": "partial",
   "theorems": [
    "Kogarashi.Props.C79_pairing_partial",
    "Kogarashi.Props.C79_bilinear_partial"
   ],
   "note": "Proved on limbs for the code with square replaced by the product (C03 shows that the code's square drops a carry on some inputs). Runs of the code's own square are C91."
  },
  {
   "property": "C80",
   "status": "partial",
   "theorems": [
    "Kogarashi.Props.C80_setup_refines",
    "Kogarashi.Props.C80_prove_refines",
    "Kogarashi.Props.C80_completeness_partial",
    "Kogarashi.Props.C80_runs_partial",
    "Kogarashi.Props.C80_small_refuted",
    "Kogarashi.Props.C80_unsat_partial",
    "Kogarashi.Props.C80_completeness_refuted",
    "Kogarashi.Props.C80_unsat_refuted",
    "Kogarashi.Props.C80_witness_partial",
    "Kogarashi.Props.C80_witness_all_refuted",
    "Kogarashi.Props.C80_simulation_all_refuted",
    "Kogarashi.Props.C80_forgery_all_refuted",
    "Kogarashi.Props.C80_completeness_all_refuted",
    "Kogarashi.Props.C80_setup_panics",
    "Kogarashi.Props.C80_unsat_all_refuted",
    "Kogarashi.Props.C80_binding_partial",
    "Kogarashi.Props.C80_simulation_partial",
    "Kogarashi.Props.C80_simulated_accepted",
    "Kogarashi.Props.C80_undistinguished",
    "Kogarashi.C80_padded",
    "Kogarashi.Props.C80_verdict",
    "Kogarashi.Props.C80_all_or_few",
    "Kogarashi.Props.C80_low_degree_partial",
    "Kogarashi.Props.C80_simulation_exact",
    "Kogarashi.Props.C80_same_or_disjoint"
   ],
   "note": "Setup, prover and verifier on structs with limb scalars (square taken as the product), refined to C43-C48 and the pairing of C74. Completeness, rejection, zero knowledge and simulation for a power of two constraints, exact panics of the setup, binding of inputs some constraint tells apart; refuted for every number of constraints that is not a power of two (completeness, secrecy of the witness, and a proof struct accepted for a false statement), and setup panics with at most one. C80_verdict, C80_all_or_few, C80_low_degree_partial: every number of constraints, as in C43. C80_simulation_exact and. C80_same_or_disjoint: simulation and secrecy on structs for every number of constraints. C80_undistinguished: the other half of input binding. C80_padded: setup, completeness and rejection on structs for every circuit, padded."
  },
  {
   "property": "C81",
   "status": "proved",
   "theorems": [
    "Kogarashi.Props.C81_proof_layout",
    "Kogarashi.Props.C81_params_layout",
    "Kogarashi.Props.C81_proof_roundtrip",
    "Kogarashi.Props.C81_params_roundtrip",
    "Kogarashi.Props.C81_proof_unique",
    "Kogarashi.Props.C81_params_unique",
    "Kogarashi.Props.C81_groups",
    "Kogarashi.Props.C81_prepared",
    "Kogarashi.Props.C81_sizes"
   ],
   "note": "Derived SCALE codec of all structs a chain or a verifier receives, against an independent byte layout; the crate's primitives are modelled from its documentation."
  },
  {
   "property": "C82",
   "status": "partial",
   "theorems": [
    "Kogarashi.Props.C82_valid_refuted",
    "Kogarashi.Props.C82_twin_refuted",
    "Kogarashi.Props.C82_typed_partial"
   ],
   "note": "False of the code: decoding checks neither the modulus nor the curve equation (C82_valid_refuted), and every proof has a second encoding of the same residues (C82_twin_refuted). Proved: words and lengths are in range and the size is bounded by the bytes read."
  },
  {
   "property": "C83",
   "status": "partial",
   "theorems": [
    "Kogarashi.Props.C83_windows_partial",
    "Kogarashi.Props.C83_montgomery_refuted",
    "Kogarashi.Props.C83_wide_windows_refuted"
   ],
   "note": "Proved after reduce() and for windows of at most six bits. Without reduce() the functions read Montgomery limbs (C83_montgomery_refuted); windows of eight or more bits always panic and seven-bit windows panic on half of the scalars (C83_wide_windows_refuted)."
  },
  {
   "property": "C84",
   "status": "partial",
   "theorems": [
    "Kogarashi.Props.C84_bitwise",
    "Kogarashi.Props.C84_xor_cancel_refuted",
    "Kogarashi.Props.C84_xor_cancel_partial",
    "Kogarashi.Props.C84_base4_digits",
    "Kogarashi.Props.C84_sum_product"
   ],
   "note": "Proved, except that ^ reduces modulo the modulus and so does not cancel (C84_xor_cancel_refuted, C84_xor_cancel_partial)."
  },
  {
   "property": "C85",
   "status": "partial",
   "theorems": [
    "Kogarashi.Props.C85_fr_constants",
    "Kogarashi.Props.C85_fq_constants_partial",
    "Kogarashi.Props.C85_fq_constants_refuted"
   ],
   "note": "Proved for Fr. For Fq the contract fails: S is 0, the root of unity is not a 2^S-th root and DELTA is not the stated power of the generator; TWO_ADACITY is 32 instead of 28 (C85_fq_constants_refuted)."
  },
  {
   "property": "C86",
   "status": "partial",
   "theorems": [
    "Kogarashi.Props.C86_extension_order",
    "Kogarashi.Props.C86_wire_order_partial",
    "Kogarashi.Props.C86_wire_order_refuted"
   ],
   "note": "Proved for the extension fields. Wires with equal index and different kind compare as equal (C86_wire_order_refuted)."
  },
  {
   "property": "C87",
   "status": "partial",
   "theorems": [
    "Kogarashi.Props.C87_normal_unique",
    "Kogarashi.Props.C87_normal_eq",
    "Kogarashi.Props.C87_commit",
    "Kogarashi.Props.C87_verifier",
    "Kogarashi.Props.C87_prover",
    "Kogarashi.Props.C87_history",
    "Kogarashi.Props.C87_openings",
    "Kogarashi.Props.C87_is_sat",
    "Kogarashi.Props.C87_instance",
    "Kogarashi.Props.C87_challenge_refuted",
    "Kogarashi.Props.C87_absorb_refuted",
    "Kogarashi.Props.C87_absorb_partial",
    "Kogarashi.Props.C87_forgery_refuted"
   ],
   "note": "Proved for structs the code computes, by refinement to C50-C53 (square taken as the product, C03). Refuted for identities in other coordinates: equal instances are absorbed differently (C87_absorb_refuted); the challenge ignores the new instance (C87_challenge_refuted), so an unsatisfied running pair can be folded into a satisfied one (C87_forgery_refuted)."
  },
  {
   "property": "C88",
   "status": "partial",
   "theorems": [
    "Kogarashi.Props.C88_verify",
    "Kogarashi.Props.C88_complete",
    "Kogarashi.Props.C88_forged_refuted",
    "Kogarashi.Props.C88_meaning_partial",
    "Kogarashi.Props.C88_accepts_exact",
    "Kogarashi.Props.C88_panics_exact",
    "Kogarashi.Props.C88_code_forged_refuted"
   ],
   "note": "Verification refined to C60-C62; the prover's proofs, written as limbs, are accepted for every number of steps. Soundness is false as for C61/C62 (C88_forged_refuted); C88_meaning_partial says what acceptance does mean. C88_accepts_exact and C88_panics_exact drop the assumption on the lengths; C88_code_forged_refuted forges any claim against the verifier with its own squaring and inversion."
  },
  {
   "property": "C89",
   "status": "partial",
   "theorems": [
    "Kogarashi.Props.C89_poly_mul",
    "Kogarashi.Props.C89_select",
    "Kogarashi.Props.C89_mult_mod_refuted",
    "Kogarashi.Props.C89_red_mod_refuted",
    "Kogarashi.Props.C89_range_refuted"
   ],
   "note": "Proved for the polynomial product (any lengths, any field) and selection. Refuted for the rest: mult_mod and red_mod accept every result below 2^256 because carries, accumulated, max_word and target_base are free witnesses; enforce_well_formed accepts limbs of any size because to_bits is not tied to its input."
  },
  {
   "property": "C90",
   "status": "partial",
   "theorems": [
    "Kogarashi.Props.C90_add",
    "Kogarashi.Props.C90_double",
    "Kogarashi.Props.C90_sub",
    "Kogarashi.Props.C90_neg",
    "Kogarashi.Props.C90_mul_partial",
    "Kogarashi.Props.C90_square_partial",
    "Kogarashi.Props.C90_mul_refuted",
    "Kogarashi.Props.C90_mul_carry_refuted"
   ],
   "note": "Proved for add, sub, double, neg. Refuted for mul and square: the Montgomery constant is hard-coded and belongs to the JubJub group order, so both are wrong for the BN254 fields; and they drop carries even for that modulus. Partial: they are right when the modulus has that constant and no addition of the run drops its carry."
  },
  {
   "property": "C91",
   "status": "partial",
   "theorems": [
    "Kogarashi.Props.C91_pairing_partial",
    "Kogarashi.Props.C91_bilinear_partial",
    "Kogarashi.Props.C91_pairing_refuted"
   ],
   "note": "Partial: right whenever no squaring of the run loses a carry, shown to hold for the generators by evaluating the whole run. Refuted in general: at a point of the twist whose coordinate loses a carry when squared the code returns an element that is not the pairing."
  },
  {
   "property": "C92",
   "status": "partial",
   "theorems": [
    "Kogarashi.Props.C92_refines_partial",
    "Kogarashi.Props.C92_accepts_partial",
    "Kogarashi.Props.C92_length",
    "Kogarashi.Props.C92_verify_refuted"
   ],
   "note": "Partial because the full statement is false of the code: C92_verify_refuted gives a key and a proof of canonical limbs holding points of the groups for which the equation holds and the code answers ProofVerificationError. C92_refines_partial and C92_accepts_partial cover every run that loses no carry (VerifyRight); C92_length holds for all limbs."
  },
  {
   "property": "C93",
   "status": "partial",
   "theorems": [
    "Kogarashi.Props.C93_transcript_partial",
    "Kogarashi.Props.C93_transcript_refuted",
    "Kogarashi.Props.C93_constants",
    "Kogarashi.Props.C93_constant_value"
   ],
   "note": "False of the code: in both fields there is an element on which native and in-circuit challenge differ (C93_transcript_refuted, with the constants Mimc::default derives). They agree on every run that loses no carry. BLAKE2b is an external crate and modelled from RFC 7693."
  },
  {
   "property": "C94",
   "status": "partial",
   "theorems": [
    "Kogarashi.Props.C94_prover",
    "Kogarashi.Props.C94_commit_partial",
    "Kogarashi.Props.C94_commit_refuted",
    "Kogarashi.Props.C94_recursive_partial",
    "Kogarashi.Props.C94_first_step_refuted"
   ],
   "note": "Folding holds with the code's arithmetic, carry losses included (C94_prover). Commitments and the recursive verifier are right on runs that lose no carry; C94_commit_refuted gives a generator whose commitment is no curve point, C94_first_step_refuted an input whose first proof, made with exact arithmetic, the code's verifier rejects."
  },
  {
   "property": "C95",
   "status": "partial",
   "theorems": [
    "Kogarashi.Props.C95_ring",
    "Kogarashi.Props.C95_unique",
    "Kogarashi.Props.C95_convert",
    "Kogarashi.Props.C95_bits",
    "Kogarashi.Props.C95_invert_none",
    "Kogarashi.Props.C95_pow_partial",
    "Kogarashi.Props.C95_invert_partial",
    "Kogarashi.Props.C95_invert_refuted"
   ],
   "note": "pow and invert are false of the code because square loses carries (C95_invert_refuted, BLS12-381); everything else is proved in full, and pow and invert for runs that lose no carry."
  },
  {
   "property": "C96",
   "status": "proved",
   "theorems": [
    "Kogarashi.Props.C96_scalar",
    "Kogarashi.Props.C96_from_x_and_y",
    "Kogarashi.Props.C96_member",
    "Kogarashi.Props.C96_uniform"
   ],
   "note": "The scalar is drawn on limbs with the code's own reduction; the multiplication of the generator is the point arithmetic of C20-C22 on residues, with squaring as the product (its failures on limbs are C77)."
  },
  {
   "property": "C97",
   "status": "partial",
   "theorems": [
    "Kogarashi.C97_covers_witness_refuted",
    "Kogarashi.Props.C97_key_partial",
    "Kogarashi.Props.C97_key_refuted",
    "Kogarashi.Props.C97_commit_refuted",
    "Kogarashi.Props.C97_covers_error"
   ],
   "note": "The range 0..=1<<n is of i32: new(31) returns an empty key and larger arguments panic or wrap (C97_key_refuted); the first part is proved for n <= 30, coverage of error vectors and cross terms in full (C97_covers_error). Coverage of the witness is false: setup sizes the key by constraints, and a step function allocating enough wires gets a key shorter than its witness, whose last entries no commitment depends on (C97_covers_witness_refuted)."
  },
  {
   "property": "C98",
   "status": "partial",
   "theorems": [
    "Kogarashi.Props.C98_canonical",
    "Kogarashi.Props.C98_honest_partial",
    "Kogarashi.Props.C98_honest_refuted",
    "Kogarashi.Props.C98_twin_refuted",
    "Kogarashi.Props.C98_gate_refuted"
   ],
   "note": "Proved on raw words with the code's own arithmetic: the bytes of canonical proofs behave as the verifier says (C98_canonical), and those of honest proofs store the value when no squaring of the verifier's run loses a carry (C98_honest_partial). The unconditional statement is false of the code (C98_honest_refuted); the parameters are an argument of the call, so the gate can be opened for any claim (C98_gate_refuted); a witness word may be replaced by itself plus the modulus (C98_twin_refuted)."
  },
  {
   "property": "C99",
   "status": "partial",
   "theorems": [
    "Kogarashi.Props.C99_field_partial",
    "Kogarashi.Props.C99_field_refuted",
    "Kogarashi.Props.C99_ext_partial",
    "Kogarashi.Props.C99_ext_refuted",
    "Kogarashi.Props.C99_gt",
    "Kogarashi.Props.C99_rows",
    "Kogarashi.Props.C99_points_partial",
    "Kogarashi.Props.C99_points_refuted",
    "Kogarashi.Props.C99_present"
   ],
   "note": "Operator bodies are syntax, run with the trait implementation the operand types select and a bounded stack. Holds of the target group and of rows (C99_gt, C99_rows) and of the variants named in C99_field_partial, C99_ext_partial and C99_points_partial. False of the code for the others: -&a in a prime field never returns (C99_field_refuted); in extension fields - with a reference multiplies, * with a reference adds and + of a value and a reference never returns (C99_ext_refuted); an affine minus a projective point with a reference adds, and += on a reference to a point never returns (C99_points_refuted). C99_present lists the variants that exist."
  },
  {
   "property": "C100",
   "status": "partial",
   "theorems": [
    "Kogarashi.Props.C100_bits_partial",
    "Kogarashi.Props.C100_bits_refuted",
    "Kogarashi.Props.C100_equal_partial",
    "Kogarashi.Props.C100_equal_refuted",
    "Kogarashi.Props.C100_equal_nonvacuous"
   ],
   "note": "Doubles are modelled with unbounded exponents, any tie-breaking and any faithfully rounded log2. C100_bits_partial: exact unless max_word is just above a power of two; C100_bits_refuted: one bit short at 2^j+1, j at least 54. C100_equal_partial: equal numbers are accepted when max_word leaves room for a carry below the next power of two, as the library's own sizes do; C100_equal_refuted: with max_word = 2^j two equal numbers are rejected, because the largest carry needs one more bit even when the logarithm is exact."
  },
  {
   "property": "C101",
   "status": "partial",
   "theorems": [
    "Kogarashi.Props.C101_group",
    "Kogarashi.Props.C101_scalar",
    "Kogarashi.Props.C101_random",
    "Kogarashi.Props.C101_ops_partial",
    "Kogarashi.Props.C101_ops_refuted",
    "Kogarashi.Props.C101_jubjub"
   ],
   "note": "C101_group, C101_scalar, C101_random and the constants of the test curve (C101_jubjub) are proved in full. C101_ops_refuted: the by-reference variants of affine minus extended add instead of subtracting; C101_ops_partial covers every other variant. The scalar type of the test curve is its base field, whose modulus is not the order of the generator; nothing here says that multiplication is a homomorphism from that scalar field."
  },
  {
   "property": "C102",
   "status": "partial",
   "theorems": [
    "Kogarashi.Props.C102_knowledge_partial",
    "Kogarashi.Props.C102_honest",
    "Kogarashi.Props.C102_many",
    "Kogarashi.Props.C102_knowledge_refuted",
    "Kogarashi.Props.C102_bn254_partial",
    "Kogarashi.Props.C102_bn254_many",
    "Kogarashi.Props.C102_cut",
    "Kogarashi.Props.C102_cut_accepted",
    "Kogarashi.Props.C102_cut_pow",
    "Kogarashi.Props.C102_exact",
    "Kogarashi.Props.C102_bn254_exact",
    "Kogarashi.Props.C102_forgery_all_refuted",
    "Kogarashi.Props.C102_knowledge_all_refuted",
    "Kogarashi.C102_padded"
   ],
   "note": "Statistical: the coefficients do not depend on the parameters (no hardness assumption is modelled). C102_knowledge_partial for a power of two constraints; C102_knowledge_refuted: with three constraints the code's own prover is accepted for a circuit nobody can satisfy, and C102_knowledge_all_refuted: the same with 2^k-1 constraints, all of them false. C102_forgery_all_refuted: for every number of constraints that is not a power of two, a false statement and a prover who only adds published elements. C102_honest: create_proof is such a prover; C102_many: it is accepted for nearly all setup randomness. C102_bn254_partial: the same for the verifier on BN254 structs. For every number of constraints, exactly (C102_cut, C102_cut_accepted, C102_exact, C102_bn254_exact): what accepted provers know is a witness for which the column polynomials, cut after m terms, multiply on the domain; with a power of two constraints that is a witness of the circuit (C102_cut_pow). C102_padded: for every circuit, padded."
  },
  {
   "property": "C103",
   "status": "partial",
   "theorems": [
    "Kogarashi.Props.C103_unique_refuted",
    "Kogarashi.Props.C103_unique_partial",
    "Kogarashi.Props.C103_bn254_refuted"
   ],
   "note": "False: C103_unique_refuted gives two families of accepted proofs made from one, C103_bn254_refuted on the structs of the code. What holds (C103_unique_partial): two elements of an accepted proof determine the third."
  },
  {
   "property": "C104",
   "status": "partial",
   "theorems": [
    "Kogarashi.Props.C104_simulation_all_refuted",
    "Kogarashi.C104_padded",
    "Kogarashi.Props.C104_exact",
    "Kogarashi.Props.C104_simulation_partial",
    "Kogarashi.Props.C104_simulated_accepted",
    "Kogarashi.Props.C104_simulation_refuted"
   ],
   "note": "Equality of distributions is a bijection between the coins of prover and simulator with equal proofs. C104_simulation_partial for a power of two constraints; C104_simulation_refuted: a satisfiable circuit with three constraints for which, for all but five values of tau, no simulator exists; C104_simulation_all_refuted: the same for every number of constraints that is not a power of two. C104_simulated_accepted: simulated proofs are accepted, also for inputs without a witness. C104_exact: for every number of constraints and every assignment, honest proofs are simulated exactly when they are accepted. C104_padded: for every circuit, padded."
  },
  {
   "property": "C105",
   "status": "partial",
   "theorems": [
    "Kogarashi.Props.C105_widths_exact",
    "Kogarashi.Props.C105_limbs",
    "Kogarashi.Props.C105_numbers_partial",
    "Kogarashi.Props.C105_numbers_refuted"
   ],
   "note": "C105_limbs: the constraints hold exactly when the limbs agree one by one. C105_numbers_partial: for equal limb widths this is equality of the integers. C105_numbers_refuted: limb widths are not compared, so 1 + 2^64 (64-bit limbs) and 1 + 2^32 (32-bit limbs), both allocated by the library, pass. C105_widths_exact: with different widths an accepted assignment gives equal integers exactly when all limbs but the lowest are zero."
  },
  {
   "property": "C106",
   "status": "proved",
   "theorems": [
    "Kogarashi.Props.C106_iter",
    "Kogarashi.Props.C106_ops",
    "Kogarashi.Props.C106_laws",
    "Kogarashi.Props.C106_access",
    "Kogarashi.Props.C106_used"
   ],
   "note": "C106_iter, C106_ops, C106_laws, C106_access; C106_used identifies the operators with those used in the models of is_sat and of folding."
  },
  {
   "property": "C107",
   "status": "partial",
   "theorems": [
    "Kogarashi.Props.C107_invert_partial",
    "Kogarashi.Props.C107_invert_edwards",
    "Kogarashi.Props.C107_invert_refuted",
    "Kogarashi.Props.C107_generators_partial",
    "Kogarashi.Props.C107_generator_value",
    "Kogarashi.Props.C107_generators_refuted",
    "Kogarashi.Props.C107_random",
    "Kogarashi.Props.C107_gt_refuted"
   ],
   "note": "Holds of: generators of Fr and Fq (C107_generators_partial, C107_generator_value; of the curves, C76), invert on all points but the identity (C107_invert_partial) and on Edwards points in extended coordinates (C107_invert_edwards), random of the extension fields (C107_random; of scalars and points, C96). False of: invert at the identity, and at the point of order two in affine Edwards coordinates (C107_invert_refuted); the generator constants of the extension fields, which are zero, and the defaults, which are one (C107_generators_refuted); Gt::invert, which is unimplemented, and Gt::random, which is outside the target group but for one in 2^2700 draws (C107_gt_refuted)."
  },
  {
   "property": "C108",
   "status": "proved",
   "theorems": [
    "Kogarashi.Props.C108_grumpkin_points",
    "Kogarashi.Props.C108_grumpkin_add",
    "Kogarashi.Props.C108_square",
    "Kogarashi.Props.C108_square_many",
    "Kogarashi.Props.C108_invert",
    "Kogarashi.Props.C108_points",
    "Kogarashi.Props.C108_add",
    "Kogarashi.Props.C108_random"
   ],
   "note": "About the code's own square, with its lost carry (C03). The bounds are upper bounds on the number of exceptions; C108_square_many is a lower bound. C108_grumpkin_points and C108_grumpkin_add count the same on Grumpkin."
  },
  {
   "property": "C109",
   "status": "proved",
   "theorems": [
    "Kogarashi.Props.C109_fft",
    "Kogarashi.Props.C109_dft",
    "Kogarashi.Props.C109_msm"
   ],
   "note": "Every read and write of a shared vector is a step of its own; the schedules are all interleavings of these steps. rayon's own scheduler is represented by arbitrary interleaving and arbitrary splitting, which covers the build without std as well."
  },
  {
   "property": "C110",
   "status": "partial",
   "theorems": [
    "Kogarashi.Props.C110_lengths_partial",
    "Kogarashi.Props.C110_bytes_partial",
    "Kogarashi.Props.C110_accepted_refuted"
   ],
   "note": "Proved of the proofs the prover returns, in bytes of the encoding of C56. False of the proofs the verifier accepts: `verify` does not look at the length of the running witnesses, so that an accepted proof can be made as long as one likes (C110_accepted_refuted)."
  },
  {
   "property": "C111",
   "status": "partial",
   "theorems": [
    "Kogarashi.Props.C111_collision_partial",
    "Kogarashi.Props.C111_injective_partial",
    "Kogarashi.Props.C111_every_key_refuted",
    "Kogarashi.Props.C111_padding_refuted",
    "Kogarashi.Props.C111_count_partial",
    "Kogarashi.Props.C111_bn254_refuted"
   ],
   "note": "Exact for vectors of one length. The full statement is false: every key of two points on either curve has a collision, since the groups are cyclic (that one is hard to find is a computational assumption, outside the model), and zeros at the end of a vector are not committed to."
  },
  {
   "property": "C112",
   "status": "partial",
   "theorems": [
    "Kogarashi.Props.C112_permutation",
    "Kogarashi.Props.C112_balanced",
    "Kogarashi.Props.C112_one_way_refuted",
    "Kogarashi.Props.C112_chain",
    "Kogarashi.Props.C112_single",
    "Kogarashi.Props.C112_collision_refuted",
    "Kogarashi.Props.C112_challenge"
   ],
   "note": "The last sentence is false, the rest is proved: undoing the rounds computes preimages of the mixing function, and two transcripts of two elements with one hash exist for every list of constants (finding them is a computational question outside the model)."
  },
  {
   "property": "C113",
   "status": "proved",
   "theorems": [
    "Kogarashi.Props.C113_minimal",
    "Kogarashi.Props.C113_length",
    "Kogarashi.Props.C113_unique",
    "Kogarashi.Props.C113_injective",
    "Kogarashi.Props.C113_384"
   ],
   "note": "Minimal weight, exact length, density, uniqueness and injectivity; the order of the 384-bit digits is C09."
  },
  {
   "property": "C114",
   "status": "partial",
   "theorems": [
    "Kogarashi.Props.C114_lengths",
    "Kogarashi.Props.C114_entries",
    "Kogarashi.Props.C114_qap_partial",
    "Kogarashi.Props.C114_powers",
    "Kogarashi.Props.C114_fixed",
    "Kogarashi.Props.C114_infinity_partial",
    "Kogarashi.Props.C114_wire_partial",
    "Kogarashi.Props.C114_unused_refuted",
    "Kogarashi.Props.C114_zero_refuted",
    "Kogarashi.Props.C114_qap_refuted",
    "Kogarashi.Props.C114_wire_any",
    "Kogarashi.Props.C114_qap_exact"
   ],
   "note": "Full statement is false of the code. Proved for every m: lengths, h, fixed points, and the entries with the polynomials cut after m terms (C114_entries); the documented values for m a power of two (C114_qap_partial). Refuted: for every other m a circuit whose first entry of a is not the documented value (C114_qap_refuted); unused wires are kept and give points at infinity (C114_unused_refuted); zero alpha, beta, tau are accepted (C114_zero_refuted). Exact condition for infinity among fixed points and powers: C114_infinity_partial; bound for used wires: C114_wire_partial. For every number of constraints: C114_wire_any (a wire that occurs gives infinity for fewer than m values of tau) and C114_qap_exact (an entry is the polynomial's value under every key exactly when the degree is below the number of constraints, and otherwise for fewer than n values of tau)."
  },
  {
   "property": "C115",
   "status": "proved",
   "theorems": [
    "Kogarashi.Props.C115_changing",
    "Kogarashi.Props.C115_same",
    "Kogarashi.Props.C115_overflow"
   ],
   "note": "C115_changing: sequences of parameters. C115_same: agreement with the model that reads the keys from the call's parameters. C115_overflow: the end of the counter's range."
  },
  {
   "property": "C116",
   "status": "partial",
   "theorems": [
    "Kogarashi.Props.C116_operations_partial",
    "Kogarashi.Props.C116_replay_refuted",
    "Kogarashi.Props.C116_distinguish_refuted",
    "Kogarashi.Props.C116_invert_partial",
    "Kogarashi.Props.C116_pow_refuted"
   ],
   "note": "False of the code for scalars and exponents: the operations replay to the scalar (C116_replay_refuted, C116_distinguish_refuted) or exponent (C116_pow_refuted). Proved: the operations depend on nothing else, their number (C116_operations_partial), and inverting a non-zero element always executes the same operations (C116_invert_partial). Operations are calls of point and field functions; what the machine does inside one is not modelled."
  },
  {
   "property": "C117",
   "status": "partial",
   "theorems": [
    "Kogarashi.Props.C117_rejected_any",
    "Kogarashi.Props.C117_every_pair_refuted",
    "Kogarashi.Props.C117_error",
    "Kogarashi.Props.C117_run_partial",
    "Kogarashi.Props.C117_error_refuted",
    "Kogarashi.Props.C117_combination_partial",
    "Kogarashi.Props.C117_rejected_partial"
   ],
   "note": "False as stated: no error is reported (C117_error_refuted). C117_run_partial: exactly when create_proof panics, and that it otherwise returns a proof. C117_rejected_partial: for keys of circuits with a power of two constraints, proofs made with any other circuit are rejected for all but (2n+6)|F|^4 of the |F|^5 values of the toxic waste unless its witness satisfies the circuit of the key. C117_error: errors of synthesize. C117_rejected_any covers keys of circuits with any number of constraints; C117_every_pair_refuted: no error for any pair of circuits of suitable size."
  },
  {
   "property": "C118",
   "status": "proved",
   "theorems": [
    "Kogarashi.Props.C118_field",
    "Kogarashi.Props.C118_distinct",
    "Kogarashi.Props.C118_tower",
    "Kogarashi.Props.C118_modulus",
    "Kogarashi.Props.C118_wire"
   ],
   "note": "C118_field: the text read back as a hexadecimal numeral is the value. C118_distinct, C118_tower: injectivity. C118_wire: wires. C118_modulus: the constant MODULUS, which is not canonical, prints like zero."
  },
  {
   "property": "C119",
   "status": "partial",
   "theorems": [
    "Kogarashi.Props.C119_size",
    "Kogarashi.Props.C119_shape",
    "Kogarashi.Props.C119_program",
    "Kogarashi.Props.C119_statement",
    "Kogarashi.Props.C119_groth16_partial",
    "Kogarashi.C119_ivc",
    "Kogarashi.C119_bn254_partial",
    "Kogarashi.C119_padded",
    "Kogarashi.C119_groth16_padded",
    "Kogarashi.C119_bn254_padded",
    "Kogarashi.C119_all_or_few"
   ],
   "note": "C119_program (construction, is_sat, soundness and completeness), C119_shape, C119_statement: by induction on programs and expressions, no bound on size. C119_groth16_partial: completeness and knowledge soundness when the circuit has a power of two constraints; for other numbers both fail in the code (C43_completeness_all_refuted, C102_knowledge_refuted). C119_bn254_partial: the same with the code's own structs on BN254. C119_ivc: every expression as a step function of the incremental prover on the BN254 cycle, any number of steps. C119_padded, C119_groth16_padded and. C119_bn254_padded: for every program, equations 0 = 0 can be added so that setup, completeness, rejection, knowledge soundness and zero knowledge hold without a condition on the number of constraints. C119_all_or_few: what happens without padding. C119_size: public wires, and how many witnesses and constraints the circuit can have."
  },
  {
   "property": "C120",
   "status": "proved",
   "theorems": [
    "Kogarashi.Props.C120_circuit",
    "Kogarashi.Props.C120_example",
    "Kogarashi.Props.C120_knowledge"
   ],
   "note": "C120_circuit (all fields), C120_example (BN254 with the code's own structs), C120_knowledge (affine provers on BN254; that honest affine provers reach the threshold is C102_bn254_many)."
  },
  {
   "property": "C121",
   "status": "proved",
   "theorems": [
    "Kogarashi.Props.C121_prepared",
    "Kogarashi.Props.C121_identity",
    "Kogarashi.Props.C121_keys"
   ],
   "note": "C121_prepared, C121_identity, C121_keys: over the field elements of Fq; the first coefficients pushed, 4y, -6x^2 and 6x^3 - 4y^2, determine the point."
  },
  {
   "property": "C122",
   "status": "partial",
   "theorems": [
    "Kogarashi.Props.C122_same_partial",
    "Kogarashi.Props.C122_constant_partial",
    "Kogarashi.Props.C122_order_refuted",
    "Kogarashi.Props.C122_zero_refuted"
   ],
   "note": "False of the code: == compares the terms in order, so x + y == y + x fails (C122_order_refuted), and as_constant returns nothing for x - x (C122_zero_refuted). Proved: two combinations agree under all assignments exactly when they have the same non-zero terms (C122_same_partial); as_constant is exact except on the combination without terms (C122_constant_partial)."
  },
  {
   "property": "C123",
   "status": "partial",
   "theorems": [
    "Kogarashi.Props.C123_g1",
    "Kogarashi.Props.C123_grumpkin",
    "Kogarashi.Props.C123_g2_partial",
    "Kogarashi.Props.C123_g2_refuted"
   ],
   "note": "G1 and Grumpkin: proved. G2: false of the documentation, whose 3(u+1) is not the constant of the code; no point of the code's curve satisfies the documented equation (C123_g2_refuted). Proved: the code's curve is y^2 = x^3 + 3/(9+u) (C123_g2_partial)."
  },
  {
   "property": "C124",
   "status": "proved",
   "theorems": [
    "Kogarashi.Props.C124_field",
    "Kogarashi.Props.C124_bits",
    "Kogarashi.Props.C124_points",
    "Kogarashi.Props.C124_bignat",
    "Kogarashi.Props.C124_compose",
    "Kogarashi.Props.C124_sat"
   ],
   "note": "Proved for every gadget (C124_field, C124_bits, C124_points, C124_bignat), closed under sequencing, arithmetic programs and the recursive circuit (C124_compose). C124_sat: values, satisfying assignments and is_sat; constraints over allocated wires, as in C31."
  },
  {
   "property": "C125",
   "status": "proved",
   "theorems": [
    "Kogarashi.Props.C125_field",
    "Kogarashi.Props.C125_gadgets",
    "Kogarashi.Props.C125_publish",
    "Kogarashi.Props.C125_compose",
    "Kogarashi.Props.C125_step"
   ],
   "note": "C125_field, C125_gadgets: nothing published; C125_publish: what instance, inputize and public points publish; C125_compose: sequencing; C125_step: the recursive circuit. The public inputs of an arithmetic program are C119_size."
  },
  {
   "property": "C126",
   "status": "proved",
   "theorems": [
    "Kogarashi.Props.C126_bits",
    "Kogarashi.Props.C126_scalar",
    "Kogarashi.Props.C126_field",
    "Kogarashi.Props.C126_points",
    "Kogarashi.Props.C126_compose"
   ],
   "note": "C126_field, C126_points, C126_bits, C126_scalar: the bounds per call; C126_compose: sequencing. The examples show calls attaining the bounds of is_neq, point addition and doubling. Upper bounds only; that no needed constraint is missing is the soundness of the gadgets."
  }
 ]
}