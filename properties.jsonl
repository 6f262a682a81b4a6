{"id": "C01", "title": "Field addition, subtraction, negation and doubling are exact modular arithmetic", "statement": "For a 256-bit prime field whose modulus fits in 255 bits (Fr and Fq of BN254), a+b, a-b, -a and a.double() of canonical elements denote the sum, difference, opposite and double modulo the field modulus, and the limbs of the result are again canonical (smaller than the modulus).", "quantifier": "all pairs of canonical limb quadruples, every modulus below 2^255 (instantiated at Fr and Fq)", "why_tests_cant": "the carry/borrow chains only misbehave on particular limb patterns; random tests hit a vanishing fraction of 2^508 pairs", "anchors": ["zkstd/src/arithmetic/limbs/bits_256/normal.rs: add, sub, double, neg", "bn254/src/fr.rs: Fr", "bn254/src/fq.rs: Fq"]}
{"id": "C02", "title": "Field multiplication is exact modular multiplication", "statement": "For canonical a and b the product a*b computed in Montgomery form denotes the product of the denoted values modulo the field modulus and is canonical; converting a raw integer in and reading it back out is the identity modulo the modulus.", "quantifier": "all pairs of canonical limb quadruples; every odd modulus below 2^255 with a matching Montgomery constant (instantiated at Fr and Fq)", "why_tests_cant": "Montgomery reduction has carry chains whose rare overflow patterns random testing practically never reaches", "anchors": ["zkstd/src/arithmetic/limbs/bits_256/normal.rs: mul, mont", "zkstd/src/arithmetic/limbs/bits_256/represent.rs: to_mont_form", "bn254/src/fr.rs: Fr", "bn254/src/fq.rs: Fq"]}
{"id": "C03", "title": "Squaring agrees with multiplication", "statement": "a.square() equals a*a for every canonical field element, for the 256-bit and the 384-bit limb back ends.", "quantifier": "all canonical limb vectors", "why_tests_cant": "the suite compares square with mul on random elements; a lost carry shows only when one 64-bit limb of an intermediate is all ones", "anchors": ["zkstd/src/arithmetic/limbs/bits_256/normal.rs: square", "zkstd/src/arithmetic/limbs/bits_384/normal.rs: square"]}
{"id": "C04", "title": "Exponentiation and inversion", "statement": "x.pow(e) denotes x^e; x.invert() is None exactly for zero and otherwise returns the element whose product with x is one.", "quantifier": "all canonical elements, all exponents", "why_tests_cant": "one wrong squaring step among hundreds for rare inputs breaks the result; tests sample a few inputs", "anchors": ["zkstd/src/arithmetic/limbs/bits_256/normal.rs: pow, invert", "zkstd/src/macros/field.rs: field_operation"]}
{"id": "C05", "title": "Canonical byte encoding round-trips and rejects non-canonical input", "statement": "to_bytes is the 32-byte little-endian encoding of the value; from_bytes accepts exactly the 32-byte strings encoding an integer smaller than the modulus, returns the element of that value, and the two are mutually inverse.", "quantifier": "all field elements and all 2^256 byte strings, for Fr and Fq", "why_tests_cant": "acceptance has to be decided exactly at the modulus; tests only try encodings of random elements", "anchors": ["bn254/src/fr.rs: to_bytes, from_bytes", "bn254/src/fq.rs: to_bytes, from_bytes", "zkstd/src/arithmetic/limbs/bits_256/represent.rs"]}
{"id": "C06", "title": "Wide reduction: 512-bit inputs, random sampling and integers", "statement": "Building an element from 512 bits (from_bytes_wide, random) yields the canonical element congruent to that 512-bit integer modulo the modulus, and From<u64> yields the element with that value.", "quantifier": "all 64-byte strings, all RNG outputs and all u64 values", "why_tests_cant": "uniformity of sampling and hash-to-field rests on exact reduction for every 512-bit input", "anchors": ["zkstd/src/arithmetic/limbs/bits_256/represent.rs: from_u512, random_limbs, from_u64", "zkstd/src/macros/field.rs: from_bytes_wide, random"]}
{"id": "C07", "title": "Equality and ordering of field elements", "statement": "a == b iff they denote the same value; the comparison operators form a total order compatible with equality and compare field values.", "quantifier": "all pairs of canonical elements", "why_tests_cant": "tests only compare an element with itself", "anchors": ["zkstd/src/macros/field.rs: PartialOrd/Ord impl"]}
{"id": "C08", "title": "Bit decomposition of a field element", "statement": "to_bits returns 256 bits, most significant first, whose weighted sum is the canonical value of the element.", "quantifier": "all canonical elements", "why_tests_cant": "consumers (range checks, transcripts, scalar multiplication) need it for every value including 0 and modulus-1", "anchors": ["zkstd/src/arithmetic/limbs/bits_256/represent.rs: to_bits", "zkstd/src/macros/field.rs: to_bits"]}
{"id": "C09", "title": "Signed-digit (NAF) recoding of scalars", "statement": "to_nafs yields digits in {-1,0,1}, most significant first, with no two adjacent non-zero digits, whose weighted sum is the scalar's canonical value.", "quantifier": "all canonical scalars of the 256-bit back end and of the 384-bit back end", "why_tests_cant": "the recoding has carry propagation across the whole integer; tests use a few random scalars and no 384-bit scalar", "anchors": ["zkstd/src/arithmetic/limbs/bits_256/represent.rs: to_nafs", "zkstd/src/arithmetic/limbs/bits_384/represent.rs: to_nafs"]}
{"id": "C10", "title": "Square roots", "statement": "sqrt returns Some(r) with r*r equal to the element exactly when the element is a square in the field, and None otherwise.", "quantifier": "all elements of Fq and Fr", "why_tests_cant": "tests check squares of random elements only, never that non-squares are refused nor the exceptional elements", "anchors": ["bn254/src/fq.rs: sqrt", "bn254/src/fr.rs: sqrt"]}
{"id": "C11", "title": "The ff-trait compatibility layer meets the ff contract", "statement": "Through the ff traits, invert() of zero is none and of a non-zero element is its inverse; from_repr accepts exactly canonical encodings.", "quantifier": "all field elements and all 32-byte representations", "why_tests_cant": "the exceptional inputs (zero, non-canonical encodings) are single points never sampled", "anchors": ["bn254/src/ff_compat.rs"]}
{"id": "C12", "title": "Conversion between the two BN254 fields", "statement": "Converting Fr to Fq preserves the integer value for every element; converting Fq to Fr and back returns the original element.", "quantifier": "all elements of Fr and Fq", "why_tests_cant": "elements between the two moduli have density about 2^-127; random tests never produce one", "anchors": ["bn254/src/fq.rs: From<Fr>", "bn254/src/fr.rs: From<Fq>", "bn254/tests"]}
{"id": "C13", "title": "Published field constants are what they claim", "statement": "The moduli are prime; ONE/R, R2, R3 and INV are the Montgomery constants of the modulus; ROOT_OF_UNITY has multiplicative order exactly 2^S; the additive identity constant is the neutral element of addition.", "quantifier": "all elements (for the identity law), all exponents (for the order)", "why_tests_cant": "primality and exact order quantify over all divisors; tests never check them", "anchors": ["bn254/src/fr.rs", "bn254/src/fq.rs", "zkstd/src/macros/field/group.rs: ADDITIVE_IDENTITY"]}
{"id": "C14", "title": "Extension-field ring operations are those of the tower", "statement": "For Fq2 = Fq[u]/(u^2+1), Fq6 = Fq2[v]/(v^3-(9+u)) and Fq12 = Fq6[w]/(w^2-v): by-value +, -, *, negation, doubling, squaring and multiplication by the non-residue are the operations of these quotient rings.", "quantifier": "all pairs of elements, over every commutative base ring", "why_tests_cant": "Karatsuba-style formulas are easy to get wrong in a single cross term; sampling cannot establish a polynomial identity", "anchors": ["bn254/src/fqn.rs: Fq2, Fq6, Fq12", "zkstd/src/macros/extension_field.rs"]}
{"id": "C15", "title": "By-reference extension-field operators agree with by-value operators", "statement": "&a - &b, a - &b, &a - b, &a * &b, a * &b and the assigning variants compute the same result as a - b and a * b.", "quantifier": "all pairs of elements of Fq2, Fq6 and Fq12", "why_tests_cant": "tests exercise the by-reference operators only for compilation, never their values", "anchors": ["zkstd/src/macros/extension_field/ring.rs", "zkstd/src/macros/extension_field/group.rs", "zkstd/src/macros/extension_field/field.rs"]}
{"id": "C16", "title": "Extension-field inversion", "statement": "invert returns None exactly for zero; otherwise the result multiplied by the element is one (Fq2, Fq6, Fq12).", "quantifier": "all elements", "why_tests_cant": "non-vanishing of the norm for every non-zero element is an algebraic fact about non-residues", "anchors": ["bn254/src/fqn.rs: get_invert"]}
{"id": "C17", "title": "Sparse multiplications used by the Miller loop", "statement": "mul_by_1, mul_by_01 and mul_by_034 equal full multiplication by the correspondingly sparse element.", "quantifier": "all elements and all sparse operands", "why_tests_cant": "never tested directly; a wrong cross term silently changes every pairing", "anchors": ["bn254/src/fqn.rs: mul_by_1, mul_by_01, mul_by_034"]}
{"id": "C18", "title": "Frobenius maps are p-th power maps", "statement": "frobenius_map (and frobenius_maps(k)) raises an element to the p-th (p^k-th) power; conjugate is the p^6-power map of Fq12.", "quantifier": "all elements of Fq2, Fq6, Fq12", "why_tests_cant": "table constants are checked by tests only through whole pairings", "anchors": ["bn254/src/fqn.rs: frobenius_map, frobenius_maps, conjugate", "bn254/src/params.rs: FROBENIUS_COEFF*"]}
{"id": "C19", "title": "Cyclotomic squaring and the final exponentiation", "statement": "On elements of the cyclotomic subgroup cyclotomic_square is squaring; final_exp maps every non-zero element to an element whose r-th power is one.", "quantifier": "all elements of the cyclotomic subgroup; all non-zero elements of Fq12", "why_tests_cant": "an addition-chain error in the hard part maps outside the r-torsion only observable algebraically", "anchors": ["bn254/src/fqn.rs: cyclotomic_square", "bn254/src/gt.rs: final_exp", "bn254/src/pairing.rs"]}
{"id": "C20", "title": "Weierstrass point addition is the group law", "statement": "affine+affine, affine+projective and projective+projective additions return a representative of the elliptic-curve sum for all on-curve inputs, including equal points, opposite points and the identity.", "quantifier": "all pairs of points on y^2=x^3+b over any field of characteristic other than 2 and 3, in every projective representation", "why_tests_cant": "exceptional cases (equal, opposite, identity) form a negligible fraction of random inputs and projective scalings are unbounded", "anchors": ["zkstd/src/arithmetic/points/weierstrass.rs: add_affine_point, add_mixed_point, add_projective_point"]}
{"id": "C21", "title": "Weierstrass point doubling is the group law", "statement": "double of an affine or projective point represents P+P, including for the identity and points of order two.", "quantifier": "all on-curve points in every representation", "why_tests_cant": "as above", "anchors": ["zkstd/src/arithmetic/points/weierstrass.rs: double_affine_point, double_projective_point"]}
{"id": "C22", "title": "Scalar multiplication", "statement": "point * scalar represents the scalar's canonical value times the point in the curve group.", "quantifier": "all points and all scalars (256-bit back end, and 384-bit back end)", "why_tests_cant": "scalars and points are unbounded sets; NAF recoding errors depend on rare digit patterns", "anchors": ["zkstd/src/arithmetic/points/weierstrass.rs: scalar_point", "zkstd/src/arithmetic/limbs/bits_256/represent.rs: to_nafs", "zkstd/src/arithmetic/limbs/bits_384/represent.rs: to_nafs"]}
{"id": "C23", "title": "Point subtraction and negation in every operator variant", "statement": "Each of the by-value and by-reference variants of a - b (affine/affine, affine/projective, projective/affine, projective/projective) represents a + (-b).", "quantifier": "all pairs of points and all operator variants", "why_tests_cant": "the operator tests discard the results", "anchors": ["zkstd/src/macros/curve.rs: mixed_curve_operations", "bn254/src/g1.rs", "bn254/src/g2.rs", "grumpkin/src/curve.rs"]}
{"id": "C24", "title": "Projective equality, normalisation and conversions", "statement": "Projective equality holds iff both sides represent the same point; to_affine(to_extended(P)) = P; to_affine depends only on the represented point; batch_normalize normalises every entry.", "quantifier": "all representatives of all points, slices of every length", "why_tests_cant": "the batch test iterates (0..1) so never includes an identity; scalings are unbounded", "anchors": ["zkstd/src/macros/curve/weierstrass.rs", "zkstd/src/macros/curve/weierstrass/group.rs", "bn254/src/g1.rs: batch_normalize"]}
{"id": "C25", "title": "is_on_curve decides curve membership", "statement": "is_on_curve is true exactly for the points that satisfy the curve equation (or are the identity), for short Weierstrass and twisted Edwards points.", "quantifier": "all coordinate tuples", "why_tests_cant": "tests only ask it about valid points, so a too permissive check is invisible", "anchors": ["zkstd/src/macros/curve/weierstrass.rs: is_on_curve", "zkstd/src/macros/curve/edwards.rs: is_on_curve"]}
{"id": "C26", "title": "Twisted Edwards arithmetic follows the complete addition law", "statement": "Affine, mixed and extended additions and doublings of points on -x^2+y^2=1+d x^2 y^2 with non-square d (and -1 a square) represent the Edwards sum, never divide by zero, and stay on the curve with consistent auxiliary coordinate.", "quantifier": "all on-curve points in every representation", "why_tests_cant": "completeness is a statement about all pairs of points", "anchors": ["zkstd/src/arithmetic/points/edwards.rs"]}
{"id": "C27", "title": "Raw point serialisation round-trips", "statement": "from_slice_unchecked(to_raw_bytes(P)) = P for every affine point, and a longer slice is parsed from its prefix.", "quantifier": "all affine points of G1, G2 and Grumpkin", "why_tests_cant": "no test parses raw bytes", "anchors": ["bn254/src/g1.rs: to_raw_bytes, from_slice_unchecked", "grumpkin/src/curve.rs: to_raw_bytes, from_slice_unchecked", "bn254/src/g2.rs"]}
{"id": "C28", "title": "Miller-loop line coefficients are consumed exactly", "statement": "For any list of point pairs, multi_miller_loop consumes exactly the coefficients prepared for each G2 point (never runs out, none left over) and pairs with an identity point contribute the factor one.", "quantifier": "all finite lists of pairs, including identities", "why_tests_cant": "an off-by-one in the schedule panics only for particular list contents", "anchors": ["bn254/src/pairing.rs: multi_miller_loop", "bn254/src/g2.rs: G2PairingAffine::from"]}
{"id": "C29", "title": "Subgroup membership check", "statement": "is_torsion_free is true for every point of the prime-order subgroup.", "quantifier": "all points of the prime-order subgroup", "why_tests_cant": "no test calls it", "anchors": ["bn254/src/g1.rs: is_torsion_free, mul_by_x", "bn254/src/g2.rs: is_torsion_free, mul_by_x"]}
{"id": "C30", "title": "Linear combinations (sparse rows) are linear", "statement": "Adding, subtracting, negating and scaling rows evaluates to the sum, difference, negation and multiple of the evaluations on every assignment; a row reported as constant evaluates to that constant; rows never contain a wire twice.", "quantifier": "all rows reachable by the row operations, all assignments", "why_tests_cant": "row merging has overlap cases over arbitrarily long rows", "anchors": ["zkstd/src/matrix/row.rs"]}
{"id": "C31", "title": "is_sat decides constraint satisfaction", "statement": "R1cs::is_sat is true iff every constraint holds: the product of the evaluations of its first two rows equals the evaluation of the third; the matrix-vector product used by folding equals row-wise evaluation.", "quantifier": "all constraint systems built through the API, all assignments", "why_tests_cant": "systems and assignments are unbounded", "anchors": ["zkstd/src/r1cs.rs: is_sat, evaluate", "zkstd/src/matrix.rs: prod, evaluate_with_z, x_and_w"]}
{"id": "C32", "title": "Arithmetic gadgets are complete and sound", "statement": "After mul, add, square, enforce_eq, enforce_eq_constant, enforce_eq_bits, conditional_enforce_equal and conditional_select, an assignment satisfies the extended system iff it satisfies the old one and the output wires carry the stated function of the inputs; honest allocation satisfies it.", "quantifier": "all constraint systems, all inputs (constants or not), all assignments", "why_tests_cant": "soundness quantifies over all malicious assignments, which tests never enumerate", "anchors": ["zkstd/src/circuit/gadget/field.rs"]}
{"id": "C33", "title": "Range check", "statement": "range_check(bits, c) accepts exactly the bit vectors whose value is at most c: every satisfying assignment has boolean bits encoding an integer not exceeding c, and every such assignment can be completed.", "quantifier": "all bit-vector lengths, all bounds, all assignments", "why_tests_cant": "soundness against arbitrary non-boolean assignments", "anchors": ["zkstd/src/circuit/gadget/field.rs: range_check, range_check_bits"]}
{"id": "C34", "title": "Bit decomposition gadget binds bits to the element", "statement": "In every satisfying assignment the bits returned by to_bits(x, n) are the binary digits of the value of x.", "quantifier": "all satisfying assignments", "why_tests_cant": "tests only run the honest prover", "anchors": ["zkstd/src/circuit/gadget/field.rs: to_bits"]}
{"id": "C35", "title": "Equality tests and boolean gadgets are sound", "statement": "In every satisfying assignment is_eq/is_neq return 1/0 according to whether the two values are equal, not(b) is 1-b, and(a,b) is a*b, and binary witnesses are boolean.", "quantifier": "all satisfying assignments", "why_tests_cant": "tests only run the honest prover", "anchors": ["zkstd/src/circuit/gadget/field.rs: is_eq, is_neq", "zkstd/src/circuit/gadget/binary.rs"]}
{"id": "C36", "title": "Public inputs produced from internal values are bound to them", "statement": "In every satisfying assignment the public wire created by inputize(v) carries the value of v.", "quantifier": "all satisfying assignments", "why_tests_cant": "tests only run the honest prover", "anchors": ["zkstd/src/circuit/gadget/field.rs: inputize"]}
{"id": "C37", "title": "In-circuit point addition, doubling and selection", "statement": "In every satisfying assignment in which the operands carry curve points, PointAssignment add/double outputs represent the sum/double (complete formulas, all cases); honest allocation satisfies the constraints; conditional_select and select_identity select.", "quantifier": "all curve points, all satisfying assignments", "why_tests_cant": "exceptional point pairs and malicious assignments", "anchors": ["zkstd/src/circuit/gadget/curve.rs: add, double, conditional_select, select_identity"]}
{"id": "C38", "title": "In-circuit scalar multiplication", "statement": "In every satisfying assignment PointAssignment::scalar_point carries scalar times the point; for the honest prover it does and satisfies the constraints.", "quantifier": "all points, scalars and satisfying assignments", "why_tests_cant": "tests only run the honest prover", "anchors": ["zkstd/src/circuit/gadget/curve.rs: scalar_point"]}
{"id": "C39", "title": "Circuit shape does not depend on values", "statement": "Running the same gadget sequence on different values produces identical constraint matrices and wire counts, so keys and folding parameters made from one run are valid for all.", "quantifier": "all pairs of runs of every gadget", "why_tests_cant": "a value-dependent branch would only show for particular values", "anchors": ["zkstd/src/circuit/gadget/field.rs", "zkstd/src/circuit/gadget/curve.rs", "nova/src/relaxed_r1cs.rs: r1cs_instance_and_witness", "groth16/src/zksnark.rs: setup"]}
{"id": "C40", "title": "Discrete Fourier transform", "statement": "dft(f) lists the evaluations of f at the powers of the 2^k-th root of unity in order; idft is its inverse up to trailing zeros; the coset variants do the same on the shifted domain; evaluation-form products give polynomial products.", "quantifier": "all k from 1 to S, all coefficient vectors", "why_tests_cant": "sizes are unbounded; index permutation errors appear only at particular sizes", "anchors": ["groth16/src/fft.rs"]}
{"id": "C41", "title": "Polynomial operations", "statement": "Coefficient-form +, -, scalar *, evaluate and divide-by-(X-a) are the polynomial operations; degree is the degree.", "quantifier": "all coefficient vectors of all lengths and all points", "why_tests_cant": "length-dependent branches", "anchors": ["groth16/src/poly.rs"]}
{"id": "C42", "title": "Multi-scalar multiplication", "statement": "msm_curve_addition(bases, coeffs) equals the sum of coeff_i times base_i over the common prefix.", "quantifier": "all lengths, bases and scalars", "why_tests_cant": "window sizes depend on the length, digit extraction on the scalar bits", "anchors": ["groth16/src/msm.rs: msm_curve_addition, get_at"]}
{"id": "C43", "title": "Groth16 completeness", "statement": "For every circuit whose constraints are satisfied by the assignment, a proof created with keys from setup for that circuit verifies for the public inputs, whatever the setup and proof randomness.", "quantifier": "all circuits (any number of constraints), satisfying assignments, trapdoors outside the evaluation domain, prover randomness", "why_tests_cant": "only one circuit with exactly four constraints is tested", "anchors": ["groth16/src/zksnark.rs: setup", "groth16/src/prover.rs: create_proof", "groth16/src/proof.rs: verify"]}
{"id": "C44", "title": "Groth16 setup and proving succeed on small circuits", "statement": "setup and create_proof return a value (no panic) for every circuit, including those with zero or one constraint.", "quantifier": "all circuits", "why_tests_cant": "boundary circuits are not tested", "anchors": ["groth16/src/zksnark.rs: setup", "groth16/src/fft.rs: Fft::new"]}
{"id": "C45", "title": "Groth16 verifier decision", "statement": "verify returns an input-length error exactly when the number of public inputs differs from the key's, and otherwise accepts exactly when the pairing equation e(A,B)=e(alpha,beta)e(IC(x),gamma)e(C,delta) holds.", "quantifier": "all keys, proofs and public-input slices", "why_tests_cant": "decision logic over all inputs", "anchors": ["groth16/src/proof.rs: verify", "groth16/src/verifier.rs: prepare"]}
{"id": "C46", "title": "Groth16 proofs do not depend on which witness was used", "statement": "For two satisfying assignments with the same public inputs there is a bijection of the prover's random coins under which create_proof returns identical proofs (perfect witness indistinguishability).", "quantifier": "all circuits, all pairs of satisfying assignments, all trapdoors with non-zero delta", "why_tests_cant": "a distributional statement", "anchors": ["groth16/src/prover.rs: create_proof"]}
{"id": "C47", "title": "Groth16 rejects honestly-run proofs of false statements", "statement": "If the assignment violates a constraint, the proof produced by create_proof is rejected for all but at most 2n values of the setup secret tau (n the domain size).", "quantifier": "all circuits and all unsatisfying assignments", "why_tests_cant": "needs a polynomial-identity argument", "anchors": ["groth16/src/prover.rs: create_proof", "groth16/src/proof.rs: verify"]}
{"id": "C48", "title": "Groth16 binds every public input", "statement": "Two different public-input vectors are never both accepted with the same proof for a circuit in which every public input is declared.", "quantifier": "all circuits, proofs, input vectors", "why_tests_cant": "needs reasoning about unconstrained inputs", "anchors": ["groth16/src/verifier.rs: VerifyingKey::ic", "groth16/src/zksnark.rs: setup"]}
{"id": "C49", "title": "Pedersen vector commitment is linear", "statement": "commit(a + r b) = commit(a) + r commit(b) for vectors of equal length, and commit depends only on the prefix covered by the key.", "quantifier": "all vectors, scalars, commitment keys", "why_tests_cant": "algebraic law", "anchors": ["nova/src/pedersen.rs: commit"]}
{"id": "C50", "title": "Folding is complete", "statement": "If a relaxed instance-witness pair and a plain pair both satisfy the same shape, the folded pair returned by Prover::prove satisfies it, for every challenge value.", "quantifier": "all shapes, all satisfying pairs, all challenges, any number of successive folds", "why_tests_cant": "tests fold one example circuit", "anchors": ["nova/src/prover.rs: prove, compute_cross_term", "nova/src/relaxed_r1cs.rs: is_sat_relaxed", "nova/src/relaxed_r1cs/instance.rs: fold", "nova/src/relaxed_r1cs/witness.rs: fold"]}
{"id": "C51", "title": "Folding prover and verifier agree", "statement": "Verifier::verify on the prover's commitment recomputes exactly the prover's folded instance, and the folded commitments open to the folded witness and error vectors whenever the inputs' do.", "quantifier": "all inputs", "why_tests_cant": "equality for all transcripts", "anchors": ["nova/src/prover.rs: prove", "nova/src/verifier.rs: verify"]}
{"id": "C52", "title": "Folding is (specially) sound", "statement": "If the folded pair satisfies the shape for three different challenges with witnesses folded from fixed vectors, then both original pairs satisfy it.", "quantifier": "all shapes, pairs and triples of distinct challenges", "why_tests_cant": "extraction argument over all adversarial vectors", "anchors": ["nova/src/prover.rs", "nova/src/relaxed_r1cs.rs"]}
{"id": "C53", "title": "The folding challenge binds both folded instances", "statement": "The challenge derived by Prover::prove and Verifier::verify depends on the running instance, the new instance and the cross-term commitment.", "quantifier": "all pairs of new instances", "why_tests_cant": "honest tests never vary one instance with the other fixed", "anchors": ["nova/src/verifier.rs: verify", "nova/src/prover.rs: prove"]}
{"id": "C54", "title": "The relaxed scalar never wraps", "statement": "Starting from u in {0,1}, after any number of folds below 2^125 the accumulated scalar u, as an integer, stays below both field moduli, so its base-field and scalar-field images agree.", "quantifier": "all histories of fewer than 2^125 folds with 128-bit challenges", "why_tests_cant": "no test runs 2^125 steps", "anchors": ["nova/src/hash.rs: CHALLENGE_BITS", "nova/src/relaxed_r1cs/instance.rs: fold", "nova/src/circuit/nifs.rs"]}
{"id": "C55", "title": "Reading a scalar as a base element and back", "statement": "scalar_as_base and base_as_scalar map an element of integer value v to the element v mod the other modulus; values below both moduli round-trip; transcript outputs of at most 252 bits are the same integer in both fields.", "quantifier": "all elements, all squeeze lengths", "why_tests_cant": "values between the moduli have negligible density", "anchors": ["nova/src/driver.rs: scalar_as_base, base_as_scalar", "nova/src/hash.rs: squeeze"]}
{"id": "C56", "title": "Native and in-circuit transcript agree", "statement": "For the honest prover the in-circuit MiMC sponge satisfies its constraints and outputs the value the native sponge outputs on the same absorbed values, for every number of absorbed elements and every output length.", "quantifier": "all absorbed sequences, all output lengths up to 256, any number of rounds", "why_tests_cant": "one sequence length is tested", "anchors": ["nova/src/hash.rs", "nova/src/circuit/transcript.rs", "nova/src/gadget/mimc.rs"]}
{"id": "C57", "title": "Limb encoding of big integers", "statement": "nat_to_limbs / limbs_to_nat are mutually inverse on integers that fit; nat_to_limbs panics exactly on those that do not; add represents integer addition.", "quantifier": "all integers, limb widths and limb counts with limbs below the modulus", "why_tests_cant": "boundary integers", "anchors": ["nova/src/gadget/big_nat.rs: nat_to_limbs, limbs_to_nat, nat_to_f, f_to_nat, add"]}
{"id": "C58", "title": "Big-integer modular gadgets return the modular result", "statement": "For the honest prover mult_mod and red_mod return limbs encoding the product/value modulo the modulus and all emitted constraints are satisfied.", "quantifier": "all operands with limbs below 2^64 and all non-zero moduli", "why_tests_cant": "tests use three small numbers; carries between limb groups are not exercised", "anchors": ["nova/src/gadget/big_nat.rs: mult_mod, red_mod, enforce_equal_when_carried, group_limbs"]}
{"id": "C59", "title": "IVC reports the right step count and output", "statement": "The n-th proof returned by prove_step carries i = n and z_n = F^n(z_0) on both curves.", "quantifier": "all step functions, initial values and numbers of steps below 2^64, the range of the u64 counter", "why_tests_cant": "tests run three steps of one function", "anchors": ["nova/src/ivc.rs: init, prove_step"]}
{"id": "C60", "title": "IVC completeness", "statement": "Every proof returned by init followed by any number of prove_step calls is accepted by RecursiveProof::verify with the same public parameters.", "quantifier": "all step functions (with honest circuits), initial values and numbers of steps below 2^64, the range of the u64 counter", "why_tests_cant": "tests run three steps of one function", "anchors": ["nova/src/ivc.rs", "nova/src/proof.rs: verify"]}
{"id": "C61", "title": "IVC verification accepts only proofs whose committed data match", "statement": "A proof whose running witnesses or error vectors do not open the commitments in its running instances is rejected.", "quantifier": "all proofs", "why_tests_cant": "tests only verify honest proofs", "anchors": ["nova/src/proof.rs: verify", "nova/src/relaxed_r1cs.rs: is_sat_relaxed"]}
{"id": "C62", "title": "IVC soundness: the reported output is the function's output", "statement": "verify accepts a proof reporting (i, z_0, z_i) only if z_i = F^i(z_0).", "quantifier": "all (adversarial) proofs", "why_tests_cant": "tests only verify honest proofs", "anchors": ["nova/src/proof.rs: verify", "nova/src/circuit/augmented.rs: generate", "zkstd/src/circuit/gadget/field.rs: inputize"]}
{"id": "C63", "title": "Proof verification never panics", "statement": "verify returns true or false for every decodable proof.", "quantifier": "all proofs and public parameters", "why_tests_cant": "malformed lengths are never generated by tests", "anchors": ["nova/src/proof.rs: verify", "zkstd/src/matrix/vector.rs", "zkstd/src/matrix.rs: prod"]}
{"id": "C64", "title": "Verification pallet dispatch", "statement": "The verify extrinsic succeeds exactly for a signed origin with a proof that verifies, fails with 'invalid proof' for a signed origin otherwise, and never changes storage.", "quantifier": "all origins, proofs and parameters", "why_tests_cant": "decision logic over all inputs", "anchors": ["pallet/nova/src/lib.rs: verify"]}
{"id": "C65", "title": "Proof-gated storage", "statement": "In the sample pallet the first value changes only through a signed call carrying an accepted proof, the second only through a signed call; a failing call leaves storage and events unchanged; the sum query returns the sum of the latest values.", "quantifier": "all histories of calls by any origins", "why_tests_cant": "histories are unbounded", "anchors": ["sample/src/lib.rs: set_thing_1, set_thing_2, get_sum"]}
{"id": "C66", "title": "Bounds used by range checks are exact", "statement": "MODULUS - one is the largest field value p-1, and pow_of_2(n) is 2^n modulo p for every width n the circuits use.", "quantifier": "all widths n up to 256 (and all u64 exponents when no squaring loses a carry), both fields", "why_tests_cant": "the constants feed every range check; a wrong bound changes the language a circuit accepts for inputs no test tries", "anchors": ["zkstd/src/macros/field.rs: pow_of_2, MODULUS", "zkstd/src/circuit/gadget/field.rs: to_bits, range_check_bits"]}
{"id": "C67", "title": "Parity and sign predicates", "statement": "is_odd and is_even report the parity of the canonical integer; lexicographically_largest reports whether it exceeds that of the negation.", "quantifier": "all canonical elements", "why_tests_cant": "point decompression picks the root by these predicates; the set of inputs is the whole field", "anchors": ["bn254/src/fr.rs: is_odd", "bn254/src/fq.rs: lexicographically_largest", "zkstd/src/macros/field.rs: is_even"]}
{"id": "C68", "title": "Blinding keeps the values on the domain", "statement": "Blinding a polynomial with n coefficients changes none of its values at the n-th roots of unity, and never panics.", "quantifier": "all coefficient vectors, hiding degrees and blinding scalars", "why_tests_cant": "the scalars are random and the lengths depend on the witness", "anchors": ["groth16/src/poly.rs: blind"]}
{"id": "C69", "title": "Polynomial commitment is evaluation at the secret point", "statement": "Committing to a polynomial with the powers returned by setup is its value at the secret point, so equal polynomials have equal commitments.", "quantifier": "all polynomials no longer than the domain, all secret points", "why_tests_cant": "the secret point is random and the lengths vary", "anchors": ["groth16/src/poly.rs: setup, commit"]}
{"id": "C70", "title": "Proof-gated writes are backed by a computation", "statement": "In the sample pallet, a value of the proof-gated item written under honestly generated parameters was written with a proof whose claimed output really is the claimed number of steps applied to the claimed input.", "quantifier": "all accounts, values, step counts, claimed inputs and outputs, storage states and setups", "why_tests_cant": "soundness quantifies over all proofs an adversary can submit", "anchors": ["sample/src/lib.rs: set_thing_1", "pallet/nova/src/lib.rs: verify", "nova/src/proof.rs: verify"]}
{"id": "C71", "title": "pairing computes the optimal ate pairing", "statement": "For every point P of G1 and every point Q of the order-r subgroup of the twist, pairing(P,Q) does not panic and is the optimal ate pairing value: Miller's algorithm with the loop count 6x+2 and the two Frobenius correction lines, raised to the power (q^12-1)/r; it is 1 when either point is the identity, and every value it returns is an r-th root of unity.", "quantifier": "all points of G1, all points of G2", "why_tests_cant": "the groups have about 2^254 elements and the intermediate points of the loop must never hit an exceptional case of the line formulas", "anchors": ["bn254/src/pairing.rs: pairing, multi_miller_loop, miller_loop, final_exp", "bn254/src/g2.rs: double_eval, add_eval, From<G2Affine> for G2PairingAffine"]}
{"id": "C72", "title": "Square root in the quadratic extension", "statement": "Fq2::sqrt returns a square root of every element that has one and None exactly for the elements that have none; pow_vartime is exponentiation.", "quantifier": "all elements of Fq2, all 256-bit exponents", "why_tests_cant": "the field has about 2^508 elements and the algorithm has three branches", "anchors": ["bn254/src/fqn.rs: Fq2::sqrt, pow_vartime"]}
{"id": "C73", "title": "The target group", "statement": "On pairing values, + is an abelian group operation with identity Gt::ADDITIVE_IDENTITY and inverse -, double is a + a, zero is the identity, and the generator constant is the pairing of the two group generators and is not the identity.", "quantifier": "all r-th roots of unity in Fq12", "why_tests_cant": "group laws quantify over all elements", "anchors": ["bn254/src/gt.rs: Gt, Add, Sub, Neg, double, zero, ADDITIVE_GENERATOR"]}
{"id": "C74", "title": "The pairing is bilinear and non-degenerate", "statement": "pairing(P1+P2,Q) = pairing(P1,Q)·pairing(P2,Q), likewise in the second argument, pairing(kP,lQ) = pairing(P,Q)^(kl), and pairing(P,Q) = 1 only if P or Q is the identity.", "quantifier": "all points of G1, all points of G2 (the r-torsion of the twist), all scalars", "why_tests_cant": "bilinearity is a statement about all pairs of about 2^508 points; a test sees a few of them", "anchors": ["bn254/src/pairing.rs: AteParing::pairing, multi_miller_loop", "bn254/src/g2.rs: G2PairingAffine::from", "bn254/src/gt.rs: Gt"]}
{"id": "C75", "title": "The Groth16 verifier over BN254", "statement": "Proof::verify with a key prepared by VerifyingKey::prepare accepts exactly the proofs with e(A,B) = e(alpha,beta)·e(ic0 + sum x_i ic_i, gamma)·e(C,delta) over the pairing the code computes, never panics on a non-empty key, and accepts the honest proofs made under keys made by setup.", "quantifier": "all keys, proofs and input vectors whose points are in G1 and G2", "why_tests_cant": "it quantifies over all group elements, keys and inputs", "anchors": ["groth16/src/proof.rs: Proof::verify", "groth16/src/verifier.rs: VerifyingKey::prepare", "bn254/src/pairing.rs: multi_miller_loop"]}
{"id": "C76", "title": "The groups have prime order", "statement": "Every point of G1 and of Grumpkin is annihilated by the scalar field's modulus, no point of the curve other than the identity has smaller order, every point of G1 and of Grumpkin is a multiple of the generator, and the two curves form a cycle: the number of points of each is the modulus of the other's base field.", "quantifier": "all points of the curves", "why_tests_cant": "it ranges over all 2^254 points", "anchors": ["bn254/src/g1.rs: G1Affine", "bn254/src/g2.rs: G2Affine", "bn254/src/params.rs: G1_GENERATOR_X", "grumpkin/src/curve.rs: Affine", "grumpkin/src/params.rs: PARAM_B"]}
{"id": "C77", "title": "Point arithmetic on machine words", "statement": "Executed on the limbs with the code's own field operations, doubling, addition, scalar multiplication and conversion to affine of structs that hold points of the curve return structs that hold the double, the sum, the multiple and the same point; is_on_curve accepts every point of the curve.", "quantifier": "all structs with canonical coordinates that hold curve points, all canonical scalars", "why_tests_cant": "a dropped carry shows on a tiny fraction of the 2^254 coordinates", "anchors": ["zkstd/src/arithmetic/points/weierstrass.rs: add_projective_point, double_projective_point, scalar_point", "zkstd/src/arithmetic/limbs/bits_256/normal.rs: square", "zkstd/src/macros/curve/weierstrass/group.rs: is_on_curve", "bn254/src/params.rs: PARAM_B3"]}
{"id": "C78", "title": "Extension fields on machine words", "statement": "Executed on limbs, the operations of Fq2, Fq6 and Fq12 (sum, difference, negation, double, product, square, conjugate, sparse product, Frobenius maps) return the limbs of the field operation on the residues the coefficients stand for, and is_on_curve of G2 accepts every point of the twist.", "quantifier": "all elements with canonical coefficients, all Frobenius powers", "why_tests_cant": "a carry dropped in the base field shows on a tiny fraction of the inputs and only through squaring", "anchors": ["bn254/src/fqn.rs: mul_ext_field, square_ext_field", "zkstd/src/macros/extension_field.rs", "zkstd/src/arithmetic/limbs/bits_256/normal.rs: square"]}
{"id": "C79", "title": "The pairing on machine words", "statement": "Executed on limbs with the constants of params.rs as written, preparation, Miller loop and final exponentiation return the limbs of the pairing value, so the value computed is bilinear, is 1 only when one point is the identity, and no unwrap fails.", "quantifier": "all structs with canonical coordinates that hold a point of G1 and an r-torsion point of the twist, all multipliers", "why_tests_cant": "ranges over all pairs of points and all limb arrays", "anchors": ["bn254/src/pairing.rs: miller_loop, final_exp", "bn254/src/params.rs: FROBENIUS_COEFF constants", "bn254/src/gt.rs"]}
{"id": "C80", "title": "Groth16 on BN254 from end to end", "statement": "On the structs of the library (affine and projective points, scalars as limbs, windowed multi-scalar multiplication, prepared pairing coefficients): the setup returns keys, the prover with an assignment that satisfies the circuit returns a proof, the verifier accepts it; with an assignment that violates a constraint it answers proof verification error except for few toxic values; nothing panics; proofs for two witnesses of the same inputs are equally distributed.", "quantifier": "all circuits with a number of wires below 2^64, all assignments, all toxic waste, all prover coins", "why_tests_cant": "ranges over all circuits, witnesses and random values", "anchors": ["groth16/src/zksnark.rs: ZkSnark::setup, eval", "groth16/src/prover.rs: Prover::create_proof", "groth16/src/verifier.rs: Verifier::verify, VerifyingKey::prepare", "groth16/src/proof.rs: Proof::verify", "groth16/src/msm.rs: msm_curve_addition"]}
{"id": "C81", "title": "Wire format of proofs, parameters and points", "statement": "encode() of a proof, of public parameters, of a field element, extension field element or point writes exactly the bytes of the SCALE format; decode() of these bytes followed by anything returns the same value and leaves the rest; every byte string decode() accepts is the encoding of the value it returns (one encoding per value); encode() panics only when a vector has 2^32 elements or more.", "quantifier": "all values of the structs, all byte strings, all trailing bytes", "why_tests_cant": "ranges over all values and all (also hostile) byte strings", "anchors": ["nova/src/proof.rs: RecursiveProof", "nova/src/ivc.rs: PublicParams", "nova/src/relaxed_r1cs.rs: R1csShape", "nova/src/relaxed_r1cs/instance.rs", "nova/src/relaxed_r1cs/witness.rs", "nova/src/pedersen.rs: PedersenCommitment", "zkstd/src/matrix.rs", "zkstd/src/matrix/row.rs", "zkstd/src/matrix/vector.rs", "zkstd/src/r1cs/wire.rs", "bn254/src/g1.rs", "bn254/src/g2.rs", "bn254/src/fq.rs", "bn254/src/fr.rs", "grumpkin/src/curve.rs"]}
{"id": "C82", "title": "Decoding only yields valid values", "statement": "A proof obtained by decode() holds field elements below the modulus and commitments on the curve, so that two different byte strings never stand for the same proof.", "quantifier": "all byte strings", "why_tests_cant": "ranges over all (hostile) byte strings", "anchors": ["nova/src/proof.rs: RecursiveProof (derive Decode)", "bn254/src/g1.rs: G1Affine (derive Decode)", "bn254/src/fr.rs: Fr (derive Decode)"]}
{"id": "C83", "title": "Windowed readings of a scalar", "statement": "mod_2_pow_k, mods_2_pow_k and divn read the canonical value of a scalar: the low bits, the signed low window, and the quotient by a power of two, for every width their assertions admit.", "quantifier": "all field elements, all widths and shift amounts", "why_tests_cant": "ranges over all 254-bit scalars and all widths", "anchors": ["zkstd/src/macros/field.rs: reduce, divn, mod_2_pow_k, mods_2_pow_k"]}
{"id": "C84", "title": "Bitwise operators, base-4 digits, iterator sums and products", "statement": "& and ^ act on the bits of the canonical values (and ^ cancels), to_costomized_repr gives the base-4 digits of the value without leading zeros, and sum()/product() of an iterator are the sum and product of the values.", "quantifier": "all field elements and all finite iterators", "why_tests_cant": "ranges over all pairs of elements and all iterator lengths", "anchors": ["bn254/src/fr.rs: BitXor, BitAnd, to_costomized_repr, Product, Sum", "bn254/src/fq.rs: Product, Sum"]}
{"id": "C85", "title": "Constants of the ff::PrimeField implementations", "statement": "The constants published through ff::PrimeField (MODULUS, NUM_BITS, CAPACITY, TWO_INV, MULTIPLICATIVE_GENERATOR, S, ROOT_OF_UNITY, ROOT_OF_UNITY_INV, DELTA) satisfy the relations documented for them, in particular the generator has order p - 1.", "quantifier": "the two BN254 fields; the order of the generator quantifies over all exponents", "why_tests_cant": "that an element generates the whole group cannot be observed by running examples", "anchors": ["bn254/src/ff_compat.rs: constants of Fr and Fq", "bn254/src/fr.rs: TWO_ADACITY"]}
{"id": "C86", "title": "Ordering of extension-field elements and wires", "statement": "On Fq2, Fq6, Fq12 and on wires, <, <=, >, >=, cmp and == agree with one total order that identifies only equal elements; on the extension fields the highest coefficient is most significant.", "quantifier": "all pairs of elements", "why_tests_cant": "order axioms range over all pairs and triples of elements", "anchors": ["zkstd/src/macros/extension_field/ring.rs: PartialOrd, Ord", "zkstd/src/macros/extension_field/group.rs: PartialEq", "zkstd/src/r1cs/wire.rs: Ord"]}
{"id": "C87", "title": "Folding on limbs and structs", "statement": "Run on limb arrays and point structs, Nova's commitment, challenge, Prover::prove, Verifier::verify and is_sat compute the algebraic objects they name: commitments are the struct of the linear combination, the verifier returns (C1 + rC2, E1 + rT, u + r, x1 + r x2), the prover's output satisfies the relaxed relation and its structs are those the verifier recomputes, and instances that compare equal absorb the same transcript.", "quantifier": "all limb arrays, structs on the curve, keys, shapes, MiMC constants and histories of folds", "why_tests_cant": "field elements have 2^254 values and histories are unbounded", "anchors": ["nova/src/prover.rs: Prover::prove", "nova/src/verifier.rs: Verifier::verify", "nova/src/pedersen.rs: commit", "nova/src/relaxed_r1cs/instance.rs: fold, absorb_by_transcript", "nova/src/hash.rs: append_point, squeeze"]}
{"id": "C88", "title": "Recursive verification on limbs and structs", "statement": "RecursiveProof::verify on limb arrays and structs accepts every proof prove_step returns, for every number of steps, and rejects every proof whose claimed outputs are not the iterates of the step functions.", "quantifier": "all step counts below 2^64, initial values, keys, and all proofs as limbs and structs", "why_tests_cant": "the number of steps and the set of adversarial proofs are unbounded", "anchors": ["nova/src/proof.rs: RecursiveProof::verify", "nova/src/ivc.rs: Ivc::prove_step, PublicParams::setup", "nova/src/driver.rs: scalar_as_base"]}
{"id": "C89", "title": "The non-native arithmetic gadgets bind the prover", "statement": "Whoever fills the wires, an assignment satisfying the constraints of the in-circuit big integer operations makes their outputs right: the product of limb vectors has the coefficients of the product polynomial, a selection is one of its operands, limbs that passed enforce_well_formed are below 2^limb_width, and mult_mod and red_mod return the product and the value reduced modulo the modulus.", "quantifier": "all satisfying assignments (adversarial provers), all operands and moduli", "why_tests_cant": "tests only run the honest prover; soundness ranges over every assignment of the wires", "anchors": ["nova/src/gadget/big_nat.rs: mult_mod, red_mod, enforce_equal_when_carried, group_limbs, enforce_well_formed, conditional_select, Polynomial::mul"]}
{"id": "C90", "title": "The assembly back end computes what the portable one computes", "statement": "The 256-bit field operations have two interchangeable implementations, portable Rust and x86-64 assembly. For canonical operands, and whatever the registers hold when the block is entered, the assembly add, sub, double, neg, mul and square return the limbs of the canonical sum, difference, double, negation, product and square, which are the limbs the portable code returns.", "quantifier": "all valid moduli, all canonical operands, all initial register contents and flags", "why_tests_cant": "a dropped carry depends on a particular pattern of limbs that sampled operands need not reach, and no manifest declares the feature that selects the file, so no test runs it", "anchors": ["zkstd/src/arithmetic/limbs/bits_256/assembly.rs: add, sub, double, mul, square, neg", "zkstd/src/arithmetic/limbs/bits_256/normal.rs"]}
{"id": "C91", "title": "The pairing as written, with the code's own squaring and inversion", "statement": "Run on the limbs of a point of G1 and a point of the twist, with the squaring and inversion routines as they are, pairing returns the limbs of the optimal ate pairing of the two points whenever no squaring made on the way loses a carry; two such runs on multiples of the same points are bilinear, and the result is 1 exactly when one of the points is the identity. A run that contains a wrong squaring can return a wrong element without any sign of it.", "quantifier": "all pairs of points with canonical coordinates, including points of the twist outside the subgroup", "why_tests_cant": "a run makes thousands of squarings of values nobody chose, and the inputs for which one of them is wrong have to be constructed", "anchors": ["bn254/src/pairing.rs: pairing, multi_miller_loop", "bn254/src/fqn.rs: final_exp", "bn254/src/g2.rs: From<G2Affine> for G2PairingAffine", "zkstd/src/arithmetic/limbs/bits_256/normal.rs: square, invert"]}
{"id": "C92", "title": "Groth16 verification on raw limbs", "statement": "Verifying a proof with the arithmetic the library really uses (limb arrays, the dedicated squaring and the Fermat inversion, in the combination of the public inputs as well as in the pairing) does not panic and answers Ok exactly when e(A,B) = e(alpha,beta) e(ic0 + sum x_i ic_i, gamma) e(C,delta), ProofVerificationError when the equation fails, and the length error when the number of inputs does not fit the key.", "quantifier": "every verifying key, proof and list of public inputs, as limb arrays", "why_tests_cant": "a squaring loses a carry only for particular limb patterns reached in the middle of a run; a sample of keys and proofs does not meet them", "anchors": ["groth16/src/verifier.rs VerifyingKey::prepare", "groth16/src/proof.rs Proof::verify", "zkstd/src/arithmetic/limbs/bits_256/normal.rs: square", "bn254/src/pairing.rs: multi_miller_loop"]}
{"id": "C93", "title": "Native and in-circuit transcript agree with the field arithmetic as written", "statement": "With the squaring the library really performs on limbs and the round constants it derives from its hash, the native transcript and the transcript gadget squeeze the same challenge from the same absorbed elements.", "quantifier": "every satisfied constraint system, every list of absorbed elements, every number of bits, both fields", "why_tests_cant": "The native hash squares, the gadget multiplies; they differ only on elements whose squaring loses a carry, which random tests do not meet.", "anchors": ["nova/src/hash.rs: Mimc::default, Mimc::hash, MimcRO::squeeze", "nova/src/circuit/transcript.rs: MimcROCircuit::squeeze", "zkstd/src/arithmetic/limbs/bits_256/normal.rs: square"]}
{"id": "C94", "title": "Nova commitments, folding and recursive verification with the field arithmetic as written", "statement": "With the squaring and the inversion the library really performs on limbs: commit returns the sum of the scaled generators; folding two satisfying pairs does not panic, satisfies the relaxed relation and the verifier recomputes the prover's instance; the recursive verifier accepts the proof of every step.", "quantifier": "every key, vector, shape, instance, witness, challenge and starting point", "why_tests_cant": "The failures depend on rare limb patterns reached inside hashes and point arithmetic.", "anchors": ["nova/src/pedersen.rs: PedersenCommitment::commit", "nova/src/relaxed_r1cs/instance.rs: fold, hash", "nova/src/prover.rs: Prover::prove", "nova/src/verifier.rs: Verifier::verify", "nova/src/proof.rs: RecursiveProof::verify"]}
{"id": "C95", "title": "The 384-bit back end is arithmetic modulo the modulus", "statement": "For constants of an odd modulus that leaves one bit free, the public 384-bit functions add, sub, neg, double, mul, to_mont_form, from_u64, from_u512, one, random_limbs, to_bits, pow and invert keep canonical arrays canonical and compute the sum, difference, product, power, inverse, reduction and binary digits of the integers the arrays stand for.", "quantifier": "every modulus below 2^383, every pair of canonical arrays, every exponent, every stream of random words", "why_tests_cant": "the tests compare a few random arrays for one modulus; lost carries and conditional subtractions depend on rare limb patterns", "anchors": ["zkstd/src/arithmetic/limbs/bits_384/normal.rs: add, sub, neg, double, mul, square, mont, pow, invert", "zkstd/src/arithmetic/limbs/bits_384/represent.rs: one, from_u64, from_u512, to_mont_form, to_bits, random_limbs, little_fermat"]}
{"id": "C96", "title": "Random scalars and points are nearly uniform", "statement": "With a generator whose 64-bit words are uniform, random() of a field gives every value with the same probability up to one part in 2^512 and random() of G1, G2 and Grumpkin never panics, returns a point of the curve, for G2 of the prime-order subgroup, and gives every point of the group with the same probability up to one part in 2^512; from_x_and_y gives a point is_on_curve accepts exactly when the coordinates satisfy the equation.", "quantifier": "all streams of random words, all field values, all points of the three groups, all coordinate pairs", "why_tests_cant": "a distribution over 2^512 draws and 2^254 results cannot be sampled; a biased reduction or a generator of smaller order passes every test of a few samples", "anchors": ["zkstd/src/macros/curve/weierstrass/group.rs: random, from_x_and_y", "zkstd/src/macros/field/group.rs: random", "zkstd/src/arithmetic/limbs/bits_256/represent.rs: random_limbs", "bn254/src/g1.rs", "bn254/src/g2.rs", "grumpkin/src/curve.rs"]}
{"id": "C97", "title": "Generation of commitment keys", "statement": "PedersenCommitment::new(n) never panics and returns 2^n + 1 generators, the i-th being the group generator times the i-th random scalar; the key setup makes has more generators than the shape has constraints, so every entry of an error vector or cross term is committed to, and more than the witness of the augmented circuit has entries.", "quantifier": "all n, all streams of random words, all numbers of constraints, all step functions, with and without overflow checks", "why_tests_cant": "the tests use keys of a few thousand points; the failure is at sizes no test reaches and gives an empty key without an error", "anchors": ["nova/src/pedersen.rs: new", "nova/src/ivc.rs: setup"]}
{"id": "C98", "title": "Proofs sent to the pallet as bytes", "statement": "Calling set_thing_1 with the encoding of a value, a proof returned by prove_step and the parameters of setup stores the value and emits one event; a call whose proof is rejected changes nothing; the value is stored only if the claimed outputs are those of the claimed number of steps from the claimed inputs; a proof has one accepted encoding.", "quantifier": "all argument bytes, all proofs and parameters they decode to (canonical words or not), all numbers of steps, all signed callers, all prior states", "why_tests_cant": "the pallet tests pass structs, never bytes, and only honest proofs under honest parameters; the decoder accepts words above the modulus that no prover of the library makes", "anchors": ["sample/src/lib.rs: set_thing_1", "pallet/nova/src/lib.rs: verify", "nova/src/proof.rs: RecursiveProof::verify", "nova/src/hash.rs: MimcRO", "nova/src/relaxed_r1cs.rs: is_sat_relaxed, is_sat"]}
{"id": "C99", "title": "Every variant of an operator agrees", "statement": "Each variant of +, -, *, unary -, +=, -= and *= that the library implements, on values or references on either side, returns the mathematical result of the operation: in prime fields, extension fields, the target group, constraint rows, and between affine points, projective points and scalars.", "quantifier": "all operand values, all combinations of owned and borrowed operands, all operators and operand types with an implementation", "why_tests_cant": "each variant is a separate implementation chosen by the types of the operands; the tests use a few of them, and a variant that calls itself is only seen when it is run", "anchors": ["zkstd/src/macros/field/group.rs", "zkstd/src/macros/extension_field/group.rs", "zkstd/src/macros/curve/weierstrass/group.rs", "zkstd/src/macros/curve.rs", "bn254/src/g1.rs: operators", "bn254/src/g2.rs: operators", "bn254/src/gt.rs: operators", "grumpkin/src/curve.rs: operators", "zkstd/src/matrix/row.rs: operators"]}
{"id": "C100", "title": "Equality of big integers accepts equal numbers", "statement": "The number of bits allowed for a carry when two big integers are compared in the circuit is the least one sufficient for the declared maximum limb, and comparing two equal integers whose limbs respect that maximum leaves constraints that the honest prover's values satisfy.", "quantifier": "all machines with IEEE doubles, limb widths, limb counts, maximum limbs, limb values, fields of at most 256 bits", "why_tests_cant": "the bit count goes through a floating-point logarithm, and is wrong only at maximum limbs next to powers of two; the carry that overflows needs particular limbs", "anchors": ["nova/src/gadget/big_nat.rs: enforce_equal_when_carried, enforce_equal_when_carried_regroup"]}
{"id": "C101", "title": "Twisted Edwards points form a group and the operators compute in it", "statement": "On a complete twisted Edwards curve the points form an abelian group. Every operator variant (by value, by reference, assigning; affine, extended, scalar operands in either order) computes the group operation it is named after. Multiplication by a scalar is repeated addition of its canonical value, random points are multiples of the generator, and none of these panics.", "quantifier": "all fields where 2 is nonzero and -1 is a square, all non-square d, all points, all representatives, all canonical scalars, all operator variants", "why_tests_cant": "associativity is an identity between rational functions in all points; there are dozens of operator variants generated by macros and scalars have 2^255 values", "anchors": ["zkstd/src/arithmetic/points/edwards.rs: scalar_point", "zkstd/src/macros/curve/edwards/group.rs", "zkstd/src/macros/curve/edwards.rs", "zkstd/src/macros/curve.rs", "zkstd/tests/jubjub.rs"]}
{"id": "C102", "title": "Groth16 knowledge soundness against provers who combine the parameters", "statement": "A prover whose proof elements are fixed linear combinations of the published parameters, and whose proof Verifier::verify accepts for more than a (2n+6)/|F| fraction of the setup randomness (n constraints), has a satisfying witness in its coefficients: those of the third element on the witness part of the key.", "quantifier": "all circuits with a power of two constraints, all public inputs, all such provers, all setup randomness", "why_tests_cant": "it quantifies over every strategy of a dishonest prover and every choice of five secret field elements", "anchors": ["groth16/src/zksnark.rs: setup, eval", "groth16/src/proof.rs: verify", "groth16/src/params.rs: Parameters", "groth16/src/prover.rs: create_proof"]}
{"id": "C103", "title": "A Groth16 proof cannot be turned into another one", "statement": "From an accepted proof and the verifying key no different proof accepted for the same inputs can be computed, so that a proof can serve as an identifier.", "quantifier": "all keys, inputs and accepted proofs", "why_tests_cant": "a test sees only the proofs the prover makes, not the ones others derive from them", "anchors": ["groth16/src/proof.rs: verify", "groth16/src/verifier.rs: VerifyingKey"]}
{"id": "C104", "title": "Groth16 proofs are perfectly zero-knowledge", "statement": "A simulator that knows the setup randomness, the verifying key and the public inputs, but no witness, makes proofs with exactly the distribution of Prover::create_proof over its coins r and s, for every satisfying assignment; its proofs are accepted by Verifier::verify for every input vector of the right length.", "quantifier": "all circuits, satisfying assignments, setup randomness and coins", "why_tests_cant": "equality of two distributions over every secret input and every coin", "anchors": ["groth16/src/prover.rs: create_proof", "groth16/src/zksnark.rs: setup", "groth16/src/proof.rs: verify"]}
{"id": "C105", "title": "Limb-wise equality of big integers", "statement": "BigNatAssignment::enforce_eq accepts exactly the assignments under which the two big integers are equal, when their limbs are reduced; it panics exactly when the numbers of limbs differ.", "quantifier": "all big integers over any prime field, all limb widths and counts, all assignments", "why_tests_cant": "soundness ranges over every assignment a prover may choose", "anchors": ["nova/src/gadget/big_nat.rs: BigNatAssignment::enforce_eq, BigNatParams::new"]}
{"id": "C106", "title": "Dense vectors", "statement": "Iterating over a dense vector yields its entries in order, each once; the operators +, -, * panic exactly when the lengths differ and otherwise act entry by entry, so that vectors of one length form a commutative ring and a vector space; indexing panics exactly outside the vector and assignment through an index changes one entry.", "quantifier": "all vectors of any length over any field", "why_tests_cant": "unbounded lengths and all entries", "anchors": ["zkstd/src/matrix/vector.rs: DenseVectors, DenseVectorsIterator"]}
{"id": "C107", "title": "Implementations of the algebra traits meet the documented contract", "statement": "For every implementation of Group: the generator constant generates the group, invert returns the inverse of every element, random returns an element of the group, nearly uniformly; for every Ring, the default element generates the units (as the comments in algebra.rs say).", "quantifier": "all implementations (prime fields, extension fields, Weierstrass and Edwards points, target group), all elements, all streams of random words", "why_tests_cant": "all elements of the groups and all outputs of the random generator", "anchors": ["zkstd/src/traits/algebra.rs: Group, Ring", "zkstd/src/macros/field/group.rs", "zkstd/src/macros/extension_field/group.rs", "zkstd/src/macros/curve/weierstrass/group.rs: invert", "zkstd/src/macros/curve/edwards/group.rs: invert", "bn254/src/gt.rs"]}
{"id": "C108", "title": "Squaring, inversion and point arithmetic fail on few inputs only", "statement": "In both 254-bit fields, square equals multiplication by itself on all but a fraction 2^-54 of the elements, invert and / are right for all but a fraction 2^-40 of the divisors; is_on_curve and double are right on all but a fraction 2^-51 of the affine points of G1 and + on all but a fraction 2^-49 of the pairs of affine points; of the draws of random at most one in 2^53 gives an element squared wrongly and at most one in 2^39 one inverted wrongly.", "quantifier": "all elements of both fields, all points and pairs of points of G1, all 2^512 draws", "why_tests_cant": "the exceptions are too rare to be met by random tests and too many to be listed; a bound on their number is a statement about all 2^254 elements", "anchors": ["zkstd/src/arithmetic/limbs/bits_256/normal.rs: square, pow, invert", "zkstd/src/arithmetic/points/weierstrass.rs: add_affine_point, double_affine_point", "zkstd/src/macros/curve/weierstrass/group.rs: is_on_curve", "zkstd/src/macros/field/group.rs: random"]}
{"id": "C109", "title": "Parallel proving does not depend on the schedule", "statement": "The Fourier transforms and the multi-scalar multiplication of the Groth16 prover, which run on several threads, end under every interleaving of the threads and every division of the work, without panic, data race or deadlock, with the result of the sequential computation.", "quantifier": "all interleavings of all reads and writes, all divisions of the segments among threads, all domain sizes, polynomials, bases and scalars", "why_tests_cant": "a test sees one schedule of a few; a race between two butterflies or two rows of buckets shows only under particular interleavings", "anchors": ["groth16/src/fft.rs: classic_fft_arithmetic, butterfly_arithmetic, dft, idft", "groth16/src/msm.rs: msm_curve_addition"]}
{"id": "C110", "title": "The size of a recursive proof does not depend on the number of steps", "statement": "Every recursive proof, of any number of steps from any input, has vectors of the lengths fixed by the public parameters; the encodings of any two proofs made with the same parameters differ in size only by the width of the compact step counter. The same holds of every proof the verifier accepts.", "quantifier": "all curve cycles and step functions, all inputs, all numbers of steps up to the range of the counter, all proofs", "why_tests_cant": "a test runs a few steps; growth may start later, and a test cannot range over the proofs an adversary sends", "anchors": ["nova/src/ivc.rs: Ivc::prove_step", "nova/src/proof.rs: RecursiveProof::verify", "nova/src/relaxed_r1cs/witness.rs: RelaxedR1csWitness"]}
{"id": "C111", "title": "A Pedersen commitment binds to the vector", "statement": "Two different vectors have different commitments. For vectors of one length this is the linear independence of the key, and a fixed pair collides for one key in as many as there are scalars.", "quantifier": "all keys, all lengths, all pairs of vectors, all scalar fields and groups", "why_tests_cant": "a test compares a few vectors under a few keys; a collision is a relation between all points of the key", "anchors": ["nova/src/pedersen.rs: PedersenCommitment::commit, PedersenCommitment::new"]}
{"id": "C112", "title": "The hash of the transcript", "statement": "The mixing function is half of a permutation of pairs and every value is the hash of equally many pairs; a challenge depends on the absorbed elements through their hash only, is below 2^n for n bits, and every value below 2^n belongs to equally many hashes up to one. Neither the mixing function nor the hash of a transcript has a collision.", "quantifier": "all finite fields, all lists of round constants, all absorbed sequences, all challenge widths", "why_tests_cant": "bijectivity and counts of preimages range over the whole field, and a test sees a few hashes under one list of constants", "anchors": ["nova/src/hash.rs: Mimc::hash, MimcRO::squeeze, MimcRO::append"]}
{"id": "C113", "title": "The signed digits of a scalar are the cheapest", "statement": "The digits of to_nafs start with a non-zero digit, number floor(log2(3v)) for a non-zero scalar v, are at most every second one non-zero, are the only digits of v with no adjacent non-zero digits and no leading zero, and no other signed binary digits of v have fewer non-zero digits. The 384-bit digits have the same cost, read least significant first.", "quantifier": "all canonical scalars of the 256-bit back end, all 384-bit integers, all competing digit sequences of any length", "why_tests_cant": "minimality compares with every other digit sequence, of which there are infinitely many per scalar", "anchors": ["zkstd/src/arithmetic/limbs/bits_256/represent.rs: to_nafs", "zkstd/src/arithmetic/limbs/bits_384/represent.rs: to_nafs", "zkstd/src/arithmetic/utils.rs: Naf"]}
{"id": "C114", "title": "What the Groth16 keys contain", "statement": "The keys hold what the comments on Parameters and VerifyingKey say: h has tau^i*t(tau)/delta for i up to m-2, a and b the values at tau of the polynomials of the wires, l and ic the values of (beta*u+alpha*v+w)/delta or /gamma, one entry per wire, witness or input; and none of these points, nor alpha, beta, gamma or delta, is the point at infinity.", "quantifier": "all circuits, all secrets for which setup returns keys, all wires", "why_tests_cant": "the entries are claimed for every circuit size and every secret; a test sees one circuit and one random secret", "anchors": ["groth16/src/params.rs: Parameters", "groth16/src/verifier.rs: VerifyingKey", "groth16/src/zksnark.rs: ZkSnark::setup"]}
{"id": "C115", "title": "Public parameters may differ between the calls of a recursive prover", "statement": "init and each prove_step may be given different public parameters generated for the same step functions: no call panics, each proof has the right step count and outputs and is accepted under the parameters of its own call (the first under those of init), and under any other parameters exactly when their secondary key commits to the last witness identically. With one set of parameters the keys the prover stored at init make no difference. After 2^64-1 steps a further call panics with overflow checks, and without them returns the outputs of step 2^64 as those of step 0.", "quantifier": "all step functions with honest circuits, all sequences of parameters of any length below 2^64, both build profiles", "why_tests_cant": "tests use one set of parameters and three steps", "anchors": ["nova/src/ivc.rs: Ivc::init, Ivc::prove_step, PublicParams::setup", "nova/src/prover.rs: Prover", "nova/src/proof.rs: RecursiveProof::verify", "Cargo.toml: profile.release"]}
{"id": "C116", "title": "Secret scalars are hidden from an observer of the operations executed", "statement": "The sequence of point operations that multiplying a point by a scalar executes does not depend on the scalar, and the sequence of field operations that inverting or raising to a power executes does not depend on the element or on the exponent.", "quantifier": "all canonical scalars and elements, all u64 exponents, all points and curves", "why_tests_cant": "a test compares outputs, and two runs at a time", "anchors": ["zkstd/src/arithmetic/points/weierstrass.rs: scalar_point", "zkstd/src/arithmetic/limbs/bits_256/represent.rs: to_nafs", "zkstd/src/arithmetic/limbs/bits_256/normal.rs: pow, invert"]}
{"id": "C117", "title": "A Groth16 key used with another circuit", "statement": "create_proof called with a circuit whose constraint system is not the one the key was made for reports an error, and no proof it makes is accepted unless the circuit of the key is satisfied for the given public inputs. An error that a circuit's synthesize returns is returned unchanged by setup and create_proof.", "quantifier": "all pairs of circuits, coins, public inputs and all toxic waste but a bounded fraction", "why_tests_cant": "tests use one circuit type, whose shape does not depend on its values", "anchors": ["groth16/src/prover.rs: Prover::create_proof", "groth16/src/zksnark.rs: ZkSnark::setup", "groth16/src/circuit.rs: Circuit"]}
{"id": "C118", "title": "Printed field elements and wires", "statement": "Printing a field element with {:?} shows 0x and 64 lower-case hexadecimal digits whose value is the value of the element, so different elements print differently; the same holds coefficient by coefficient for elements of Fq2, Fq6 and Fq12. Printing a wire with {} shows its kind and its index in decimal, so different wires print differently.", "quantifier": "all canonical elements of every 256-bit prime field, all elements of the extension tower with canonical coefficients, all wires", "why_tests_cant": "A test compares the text of a few values; dropped leading zeros, a wrong limb order or a Montgomery form printed by mistake shows only for particular limb patterns.", "anchors": ["zkstd/src/macros/field.rs: Debug for $field", "bn254/src/fqn.rs: Debug for Fq2, Fq6, Fq12", "zkstd/src/r1cs/wire.rs: Display for Wire"]}
{"id": "C119", "title": "Circuits of arithmetic programs", "statement": "Take any list of equations between arithmetic expressions over public and private inputs and write its circuit with the gadgets: allocate the inputs, compute the expressions with constant, +, -, scalar multiplication, mul, square and add, and enforce every equation. Building the circuit never panics; its constraints do not depend on the inputs; is_sat answers whether the inputs solve the equations; and for any public inputs the circuit has a satisfying assignment exactly when the equations have a solution, the first private wires of every satisfying assignment being one. A Groth16 proof made from a solution is accepted, and whoever is accepted knows a solution. With an expression as step function, the incremental prover proves any number of steps and reports the iterated value.", "quantifier": "all programs of any size and nesting, all numbers of inputs, all input values, all assignments of the circuit (including those of a cheating prover), all fields, all keys", "why_tests_cant": "Tests build a handful of fixed circuits with honest values; that gadgets compose without admitting a wrong assignment concerns every program and every assignment.", "anchors": ["zkstd/src/circuit/gadget/field.rs: FieldAssignment::{instance, witness, constant, mul, square, add, enforce_eq}", "zkstd/src/matrix/row.rs: SparseRow operators", "zkstd/src/r1cs.rs: R1cs::is_sat", "groth16/src/zksnark.rs: ZkSnark::{setup}", "groth16/src/prover.rs: Prover::create_proof", "nova/src/function.rs: FunctionCircuit"]}
{"id": "C120", "title": "The published Groth16 example proves its comment", "statement": "The circuit of the example program (public x and o, comment x^3 + x + 5 = o) can be built for all inputs, and its constraints with public values x, o are satisfiable exactly when x^3 + x + 5 = o. With keys made by setup from the default circuit (0, 0), on BN254, setup and prover succeed except for at most three values of the secret tau; when the equation holds every proof verifies for [x, o]; when it does not, every proof the prover makes is rejected except for at most six values of tau; and a prover that linearly combines the keys and is accepted for more than a negligible share of the trapdoors has an x and o that satisfy the equation.", "quantifier": "all field elements x and o, all trapdoors, all proof randomness, all affine provers", "why_tests_cant": "The example and the unit test run one pair (3, 35) with random keys and never a wrong output; acceptance for all right pairs and rejection of all wrong ones is a statement about every pair, key and proof.", "anchors": ["groth16/examples/simple.rs: DummyCircuit, main", "groth16/src/lib.rs: arithmetic_test", "groth16/src/zksnark.rs: ZkSnark::setup", "groth16/src/prover.rs: Prover::create_proof", "groth16/src/verifier.rs: Verifier::verify"]}
{"id": "C121", "title": "Equality of prepared G2 points", "statement": "Comparing the prepared (pairing) form of two G2 points gives the same answer as comparing the points: preparation loses nothing and the identity, however written, prepares to the same value. Hence two prepared Groth16 verifying keys agree in gamma and delta exactly when the keys do.", "quantifier": "all pairs of affine G2 values, on the curve or not, and all pairs of verifying keys", "why_tests_cant": "No test compares prepared points; that no two different points have the same line coefficients concerns all pairs of points.", "anchors": ["bn254/src/g2.rs: G2PairingAffine, PairingCoeff, From<G2Affine>", "groth16/src/verifier.rs: VerifyingKey, PreparedVerifyingKey"]}
{"id": "C122", "title": "Equality and constancy of linear combinations", "statement": "For linear combinations built with the operations (wires, constants, +, -, negation, scalar multiplication): == holds exactly when they have the same value under every assignment, and as_constant returns c exactly when the value is c under every assignment that gives the constant wire the value one.", "quantifier": "all linear combinations built with any number of operations, all assignments, all fields", "why_tests_cant": "Whether a combination is constant, or two agree, is a statement about all assignments; tests compare a few combinations built in one order.", "anchors": ["zkstd/src/matrix/row.rs: SparseRow (PartialEq, as_constant, operators)"]}
{"id": "C123", "title": "The curves are those of the documentation", "statement": "A point other than the identity passes is_on_curve exactly when its coordinates satisfy the equation the README gives: y^2 = x^3 + 3 for G1, y^2 = x^3 + 3(u+1) for G2, y^2 = x^3 - 17 for Grumpkin.", "quantifier": "all pairs of coordinates", "why_tests_cant": "Tests check is_on_curve on generated points; which curve the stored constants define is a statement about all coordinates.", "anchors": ["bn254/README.md", "grumpkin/README.md", "bn254/src/params.rs: G1_PARAM_B, G2_PARAM_B", "grumpkin/src/params.rs: PARAM_B"]}
{"id": "C124", "title": "Circuit code only appends", "statement": "A call of a gadget, of the circuit of a program or of a recursive step, whatever its arguments and whatever the state of the constraint system, keeps all public inputs, witnesses and constraints that were there, in place, if it returns. So a wire keeps its value, an assignment that satisfies the new system satisfies the old one, and is_sat never turns from false to true.", "quantifier": "all gadgets, all arguments (also wires never allocated), all constraint systems, all sequences of calls", "why_tests_cant": "Tests run gadgets on one system and look at the final is_sat; that no call overwrites what an earlier call wrote is a statement about all systems and all compositions.", "anchors": ["zkstd/src/r1cs.rs: R1cs (mul_gate, add_gate, is_sat)", "zkstd/src/circuit/gadget/field.rs: FieldAssignment", "zkstd/src/circuit/gadget/binary.rs: BinaryAssignment", "zkstd/src/circuit/gadget/curve.rs: PointAssignment", "nova/src/gadget/big_nat.rs: BigNatAssignment", "nova/src/circuit/augmented.rs: AugmentedFCircuit::generate"]}
{"id": "C125", "title": "Only instance and inputize publish", "statement": "The public inputs of a circuit are exactly the values passed to instance and inputize: every other gadget, whatever its arguments and whatever the state of the constraint system, leaves the public inputs as they were. The circuit of a recursive step publishes exactly two elements if the step function publishes none.", "quantifier": "all gadgets, all arguments, all constraint systems, all sequences of calls, all step functions", "why_tests_cant": "Tests compare a proof's public inputs in a few circuits; that no gadget ever makes an internal value public is a statement about all calls and states.", "anchors": ["zkstd/src/circuit/gadget/field.rs: FieldAssignment (instance, inputize)", "zkstd/src/circuit/gadget/binary.rs: BinaryAssignment", "zkstd/src/circuit/gadget/curve.rs: PointAssignment", "nova/src/gadget/big_nat.rs: BigNatAssignment", "nova/src/circuit/augmented.rs: AugmentedFCircuit::generate"]}
{"id": "C126", "title": "What a gadget costs", "statement": "A call of a gadget adds at most a fixed number of witnesses and constraints, whatever its arguments and the state of the constraint system: a product at most one of each and nothing if a factor is constant, a selection two of each, an equality test six and four, a point addition twelve of each, a point doubling eight of each, an n-bit decomposition 256+2n witnesses and 3n constraints, a scalar multiplication 6656 of each. The costs of a sequence of calls add up.", "quantifier": "all arguments of the gadgets, all constraint systems, all bit lengths, all sequences of calls", "why_tests_cant": "The size of a circuit depends on which operands are constants and on the bits of the bound of a range check; tests build a few circuits and do not count.", "anchors": ["zkstd/src/circuit/gadget/field.rs: FieldAssignment (mul, add, is_neq, is_eq, to_bits, range_check)", "zkstd/src/circuit/gadget/binary.rs: BinaryAssignment", "zkstd/src/circuit/gadget/curve.rs: PointAssignment (add, double, scalar_point, descale)"]}
