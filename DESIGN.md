# Design

A Lean 4 model of KogarashiNetwork/Kogarashi (`/repo`, read as text, never built) and
machine-checked theorems about it. Property identifiers `C01 …` refer to `properties.jsonl`.

## Layering

The Rust code is layered by traits, and so is the model.

1. **Limb layer** (`Verif/Limbs*`). `[u64; 4]` / `[u64; 6]` arrays become structures of natural
   numbers; every `u64`/`u128` operation is written with its explicit reduction modulo `2^64`.
   The theorems of this layer say what the arithmetic denotes in `ℕ` modulo the field modulus.
2. **Field API** (`Verif/Field*`). Byte/bit/NAF encodings, constants, ff layer, conversions, on top of the limb layer.
3. **Generic algebra** (`Verif/Curve*`, `Verif/Tower*`, `Verif/R1cs*`, `Verif/Fft*`, …). The Rust code here is generic
   over the traits `PrimeField`/`FftField`/`CurveGroup`, using only `+ - * neg square invert zero one`.
   The model is generic over a Lean `Field`/`CommRing` and uses the corresponding exact operations.
   The step from layer 1 to layer 3 (limb operations are the field operations) is what C01, C02 prove;
   where it fails (`square`, C03) the failure is proved and recorded, and the generic layer is about the
   intended field operations.
4. **Protocols** (`Verif/Groth16*`, `Verif/Nova*`, `Verif/Pallet*`). Setup / prove / verify as pure functions;
   randomness is a universally quantified argument; the pairing and hash constants are parameters.

Panics are modelled as `none` (or `Except`) whenever a property is about them.

## Plan per property

| id | modelled | proof |
|----|----------|-------|
| C01 | `add/sub/double/neg` of bits_256 with wrapping limbs | carry-chain lemmas, case split on the final borrow; canonicity + congruence |
| C02 | `mul`, `mont` of bits_256 | Montgomery invariant row by row; bound `< 2p`, final subtraction |
| C03 | `square` of bits_256, bits_384 | false: concrete element where square ≠ mul; partial: equality iff no dropped carry |
| C04 | `pow`, `invert` | false for an element hitting C03; partial: correct whenever every squaring met is correct (and, on the generic layer, Fermat) |
| C05 | `to_bytes/from_bytes` | digit lemmas; exact acceptance condition |
| C06 | `from_u512`, `random`, `from_u64` | C02 lemmas |
| C07 | `Ord` impl on raw limbs | total order proved; "compares values" refuted by witness |
| C08 | `to_bits` | digit induction |
| C09 | `to_nafs` 256/384 | digits of 3x and x; 384 reversed order refuted |
| C10 | `Fq::sqrt`, `Fr::sqrt` | finite-field theory (Euler criterion); Tonelli–Shanks loop invariant |
| C11 | ff layer | refuted at zero / non-canonical bytes and for square roots (unbounded recursion); partial elsewhere, remaining views proved |
| C12 | `From` impls | value preservation; round trip refuted between the moduli |
| C13 | constants | Pratt certificates evaluated in the kernel; ADDITIVE_IDENTITY refuted |
| C14–C17 | Fq2/Fq6/Fq12 formulas | ring identities against independent quotient-ring multiplication; norms for inversion |
| C15 | reference operator impls | refuted |
| C18, C19 | Frobenius, cyclotomic square, final exponentiation | characteristic-p argument with kernel-checked constants; exponent arithmetic |
| C20–C22 | point formulas, `scalar_point` | refinement to Mathlib's `WeierstrassCurve.Affine.Point` group |
| C23 | operator variants | by-value proved, mixed by-reference variants refuted |
| C24, C25 | equality, conversions, is_on_curve | refinement; Edwards x=0 case refuted |
| C26 | Edwards formulas | completeness of the denominators, closure |
| C27 | raw bytes | digit lemmas |
| C28 | Miller-loop schedule | counting lemma over the shared NAF schedule |
| C29 | `mul_by_x`, `is_torsion_free` | refuted on the generator by kernel evaluation |
| C30–C39 | sparse rows, R1CS, gadgets | evaluation homomorphisms; `iff` for soundness+completeness; refutations for the under-constrained gadgets; simulation relation for C39 |
| C40, C41 | fft.rs, poly.rs | induction on k; `Polynomial.eval` as specification |
| C42 | msm.rs | digit expansion, bucket sums in an arbitrary additive group |
| C43–C48 | setup / create_proof / verify over abstract bilinear groups | QAP divisibility from C40; refutation for non-power-of-two sizes |
| C49–C53 | nova folding | vector algebra |
| C54, C55 | u bound, scalar_as_base | integer bounds |
| C56–C58 | transcript, MiMC, big-nat | circuit completeness lemmas |
| C59–C63 | IVC state machine and verify | induction on steps; forged proof construction |
| C64, C65, C70 | pallets | decision logic, invariant over call histories; C70 from the forgery of C62 |
| C66 | `pow_of_2`, widths used by the circuits | exact powers with kernel-checked constants |
| C67 | `is_odd`, `is_even`, `lexicographically_largest` | digit lemmas; `is_even` refuted |
| C68, C69 | `blind`, `commit` of poly.rs | polynomial evaluation; refuted on the zero polynomial and on short vectors |
| C71 | Miller loop, `G2PairingAffine::from` | projective line formulas related to Mathlib's group law, no exceptional case met |
| C72 | `Fq2::sqrt`, `pow_vartime` | order of the multiplicative group, three branches |
| C73 | `Gt` | r-th roots of unity; generator evaluated in the kernel |
| C74 | `AteParing::pairing` | cocycle extension, line reciprocity, cyclicity of the r-torsion, Frobenius as `[q]` |
| C75 | `VerifyingKey::prepare`, `Proof::verify` on structs | refinement to the abstract verifier, instantiated with the bilinear map of C74 |
| C76 | curve parameters, generators | group order from a generator of prime order and the curve equation; point counts |
| C77 | Weierstrass routines on `[u64; 4]` coordinates | refinement to the field-level routines, given exact squarings; refuted by a point of G1 whose `y²` loses a carry |
| C78 | the ring of canonical limb arrays under the code's own routines, and the tower over it | ring homomorphism to residues, mapped through every tower routine; squaring refuted by witnesses |
| C79 | preparation, Miller loop, final exponentiation over limb arrays, constants as raw limbs | the same homomorphism carries the whole run to the residue-level pairing (C74); `square` taken as the product |
| C80 | `ZkSnark::setup`, `Prover::create_proof`, `Proof::verify` on structs with limb scalars | run-by-run refinement (same panic, same error, related results) to the generic protocol over the groups of BN254 |
| C81 | derived `Encode`/`Decode` of `RecursiveProof`, `PublicParams`, shapes, instances, witnesses, keys, points, field and extension field elements | codec combinators with two laws (round trip, only encoding) closed under fields, structs and vectors; byte layout specified apart |
| C82 | the same `Decode` | refuted by a witness and, for every proof, by a twin; typing and size bound from C81 |
| C83 | `reduce`, `divn`, `mod_2_pow_k`, `mods_2_pow_k` | shift passes by induction over limbs; refuted on Montgomery limbs and for wide windows |
| C84 | `BitXor`, `BitAnd`, `to_costomized_repr`, `Sum`, `Product` | bit extensionality over limbs; digit strings; induction over the iterator |
| C85 | constants in `ff_compat.rs` | contract as a structure; order of the generator from the factorisation used for primality; refuted for Fq |
| C86 | `PartialOrd`/`Ord` of the tower and of `Wire` | comparison of integers whose digits are the coefficients, by induction over coefficient pairs; refuted for wires |
| C87 | `Nova/Struct.lean`: the folding scheme on `Words` and `Aff` | homomorphism lemmas for points, rows, transcript; refinement to `Nova/Folding.lean` |
| C88 | `RecursiveProof::verify` on `Words` and `Aff` | refinement to `Nova/Ivc.lean`; every proof over residues has a form in limbs |
| C89 | any satisfying assignment of the gadgets of `Nova/BigNat.lean` | weakest-precondition soundness for the product and the selection (`Nova/MulSound.lean`); for the refutations a program of the same shape with other witness values (`Nova/Cheat.lean`) |
| C90 | the instruction lists of `assembly.rs` and a semantics of the instructions used (`Limbs/Asm.lean`) | symbolic execution: one lemma per kind of instruction turns the run into limb equations, combined linearly row by row (`Limbs/AsmProof.lean`, `AsmMul.lean`, `AsmSquare.lean`, `AsmMain.lean`); refutations by kernel evaluation of two runs |
| C91 | tower, Miller loop and final exponentiation once more over an arbitrary implementation of the base field, instantiated with the raw limb routines (`Tower/Code.lean`) | a simulation lemma for any two implementations (`Tower/CodeSim.lean`); runs that stop at a wrong squaring (`Spec/ExactRun.lean`) are simulated by the code and by the field (`Tower/CodeRun.lean`); whole runs are evaluated by the kernel on numbers, themselves related by simulation (`Tower/Quick.lean`, `Tower/QuickRun.lean`) |
| C92 | `Groth16/CodeVerify`: prepare and verify on limb arrays with the code's square and invert | simulation of the watched run by the limb run and by the run on residues, then C75; two runs evaluated by the kernel on numbers (`Groth16/CodeVerifyRun`) |
| C93 | Nova/Blake.lean (BLAKE2b from the RFC, the constant loop of Mimc::default), Nova/Raw.lean (Mimc, sponge and squeeze over the code's square) | refinement to C56 and C87 under 'no squaring loses a carry'; kernel evaluation of two full 46-round hashes for the refutation |
| C94 | Nova/Raw.lean (commit, fold, is_sat, prove, verify, RecursiveProof::verify over the code's square and inversion) | generic proofs over an arbitrary squaring for folding; refinement to C87/C88 for exact runs; kernel evaluation for the refutations |
| C95 | Field/WideParams.lean (the rest of bits_384), Spec/Wide.lean (value of six limbs) | Montgomery reduction as in C01-C04, on six limbs; kernel evaluation for the refutation |
| C96 | Curve/Random.lean (random, from_x_and_y), Props/Random.lean | exact count of the 2^512 draws per residue (finFunctionFinEquiv, Nat.count_modEq_card), C22 and C76 |
| C97 | Nova/Pedersen.lean (new with i32 shifts) | induction over the range, C96; i32 arithmetic by cases |
| C98 | Nova/OnWire.lean (RecursiveProof::verify on raw words), Pallet/Bytes.lean (decoding of the call) | simulation of the raw verifier by the canonical one, codec laws, C88, C94; refutations by construction |
| C99 | Ops/Dispatch.lean (syntax of operator bodies, implementation tables, evaluator with stack frames), Ops/Systems.lean (the types) | case analysis on the tables over abstract functions, then C01, C22, C30; induction on the number of frames for the recursions |
| C100 | `carry_bits` as rounded real arithmetic (`Nova/Doubles.lean`) | error analysis of the logarithm; honest run of the carry loop; a run whose first carry is too long (`Nova/Stuck.lean`); refuted at powers of two |
| C101 | group law on pairs (`Curve/EdwardsGroup.lean`), `scalar_point`, random points, table of operator implementations (`Ops/Dispatch.lean`) | associativity by polynomial identities with explicit cofactors; induction on signed digits; case analysis of the table; constants of the test curve by Pratt certificate and Euler's criterion |
| C102 | provers as coefficient vectors over `Parameters` (`Spec/Affine.lean`); acceptance as a polynomial equation in the five secrets (`Groth16/Extract.lean`) | root counting variable by variable; comparison of nine coefficients; interpolation on the domain; refuted for other numbers of constraints |
| C103 | verifier of C45 and C75 | bilinearity; refuted, with the part that holds by non-degeneracy |
| C104 | simulator from the toxic waste (`simulate` in `Props/ZeroKnowledge.lean`) against the prover of C43 | affine bijection of the coins; the third element is determined by the verifier's equation (C43, C45); refuted for other numbers of constraints via C46 |
| C105 | the loop over limbs with its assertion (`Nova/LimbEq.lean`) | gadget composition; uniqueness of digits; refuted for different limb widths |
| C106 | the iterator with its position, collecting and zipping through it, operators with their assertions (`R1cs/Dense.lean`) | induction on the remaining entries; entry-wise algebra |
| C107 | the constants, random of the extension fields and of Gt (`Ops/GroupTrait.lean`), invert (`Curve/Weierstrass.lean`, `Curve/Edwards.lean`) | case analysis; counting draws coordinate by coordinate; at most r roots of unity |
| C108 | square, pow and invert on limbs (`Limbs/B256.lean`, `Limbs/Represent.lean`), affine points on limbs (`Curve/Limb.lean`), random (`Field/Params.lean`) | a lost carry needs a limb of all ones in a sum that grows linearly with the second limb, so few second limbs are bad for each choice of the others (harmonic sum over the top limb); square-and-multiply squares known powers, whose fibres are bounded by gcds with p-1; fibres of the coordinates of a curve |
| C109 | `classic_fft_arithmetic` and `msm_curve_addition` cell by cell (`Groth16/Parallel.lean`) under a small-step semantics of threads (`Spec/Schedule.lean`) | parts that run at the same time use disjoint cells; then steps of different threads commute, a step never changes the outcome, the programs are well founded and never stuck; the sequential run is computed by induction |
| C110 | `steps` and the encoding of proofs | the invariant of the prover's state fixes every length; the length of each encoding is computed |
| C111 | `commit` over any module | the difference of two vectors is a relation; the kernel of a nonzero functional has one vector in `|F|` |
| C112 | `mimc`, `sponge`, `squeeze` against a Feistel network written down separately (`Spec/Feistel.lean`) | the network has an inverse; counting residues; the pigeonhole principle |
| C113 | `toNafs` of both back ends | joint induction over two lists of digits, least significant first: the weight against a list of the same value and of a value one apart |
| C114 | `setup` (Groth16/Protocol.lean) | entries as the value of the evaluation matrix at a unit assignment, then interpolation on the domain; counting of roots for the points at infinity |
| C115 | `keyedInit`, `keyedStep`, `bump` (Nova/IvcKeys.lean) | the invariant of C60 indexed by the parameters of the last call; folding needs the relation only, not the commitment |
| C116 | `scalarPointLogged` (Curve/Logged.lean), `powLogged`, `invertLogged` (Limbs/PowLogged.lean) | the log is a function of the digits; replaying it is the value of the digits |
| C117 | `CircuitType.setup`, `CircuitType.createProof` (Groth16/Synth.lean) | every run of `create_proof` is an affine prover (C102), whatever the circuit; lengths from C114 |
| C118 | `debugField`, `debugFq2`, `debugFq6`, `debugFq12`, `displayWire` (Field/DebugText.lean) | reading the digits back, limb by limb; texts of fixed length |
| C119 | `Expr`, `Program.Holds` (Spec/Program.lean), `Circ.program` (R1cs/Program.lean) | induction on the expression and the list of equations with the gadget runs; shape by uniformity; Groth16 from C43 and C102 |
| C120 | `dummyCircuit`, `dummyType` (Groth16/Example.lean) | the circuit equals that of the program x·x·x + x + 5 = o, so C119, C80 and C102 apply; it has four constraints, a power of two |
| C121 | `G2Pairing.eq` (Tower/Prepared.lean), `prepare` (Tower/Pairing.lean) | the loop only appends, so the first coefficients survive; they determine x and y since 2 and 3 are invertible |
| C122 | `ApiRow` (Props/R1cs.lean), `Row` (R1cs/Row.lean) | coefficients are recovered from the values on unit assignments; wires are distinct by C30 |
| C123 | `Aff.isOnCurve` (Curve/Weierstrass.lean), `g2B` (Tower/AteProof.lean), raw constants of the parameters | decoding of the constants, then the equation by ring |
| C124 | `Circ` code of R1cs/Gadget.lean, R1cs/Point.lean, R1cs/Program.lean, Nova/BigNat.lean, Nova/Circuit.lean | induction over the loops, sequencing lemma; no hypothesis on arguments or state |
| C125 | `Circ` code as in C124 | induction over the loops, sequencing lemma |
| C126 | `Circ` code as in C124 | induction over the loops, sequencing lemma |

Nothing on the list is inexpressible in the model. Bilinearity of the pairing is a parameter of the generic Groth16
theorems (C43–C48) and is discharged for BN254 by C74 and C75.

## Trusted base

* **Lean's kernel** (4.33.0) and the definitions of Mathlib that the statements mention: `ZMod`, `Polynomial`,
  `WeierstrassCurve.Affine.Point` and its group law, `Module`, `LinearMap`, `rootsOfUnity`, `AdjoinRoot`, `Finset`.
* **Axioms.** Every theorem depends on a subset of `propext`, `Classical.choice`, `Quot.sound`, and on nothing else. There
  is no `axiom`, `sorry`, `admit`, `native_decide` or `bv_decide` in the project. Large constants (Pratt certificates,
  Frobenius tables, orders of generators, the pairing of the generators) are checked with `decide +kernel`, which runs
  inside the kernel.
* **The reading of Rust.** The model is a hand translation; each definition cites the file and lines it models.
  The following conventions carry the risk of the translation: `u64`/`u128` operations as naturals with explicit
  reduction, `&mut self` as a returned value, a panic as `none`, `Result` as `Except`, loops as folds or structural
  recursion, an iterator `zip` as truncation to the shorter list, `usize` as `Nat` (no list of 2^64 elements exists).

### What is modelled

| part of /repo | model |
|---|---|
| `zkstd/src/arithmetic/limbs/bits_256`, `bits_384` (portable code), `utils.rs` | `Limbs`, limb by limb |
| `zkstd/src/macros/field*`, `bn254/src/{fq,fr}.rs` | `Field` (constants, encodings, sqrt, ff layer) |
| `bn254/src/fqn.rs`, `zkstd/src/macros/extension_field` | `Tower/Fqn`, `Ring`, `Inverse`, `Frobenius`, `FinalExp` |
| `zkstd/src/arithmetic/points`, `macros/curve`, `bn254/src/{g1,g2}.rs`, `grumpkin` | `Curve`, `Tower/G2` |
| `bn254/src/{pairing,gt,params}.rs` | `Tower/Pairing`, `Ate*`, `Bilinear` |
| `zkstd/src/{matrix,r1cs,circuit}` | `R1cs` |
| `groth16/src` | `Groth16` (FFT, polynomials, MSM, protocol, struct-level setup, prover and verifier) |
| `nova/src` | `Nova` (folding, transcript, big-nat gadgets, IVC, verify) |
| `pallet/nova`, `sample` | `Pallet` |

### What is simplified, and how

* From `Curve` upwards field elements are elements of a Lean field, not limbs: C01, C02 are the bridge. The limb-level
  `square` differs from `mul` on some inputs (C03, refuted). Everything above the field layer uses the intended square, so the
  theorems there hold for runs in which no squaring loses a carry; C03 characterises exactly which inputs do.
  `Field/Canon.lean` makes the canonical limb arrays, under the code's own add, sub, neg and mul, a Lean field, so every generic
  theorem can be instantiated on limbs; C77–C79 do so for points, the tower and the pairing.
* The scalar multiplication `F • P` in Groth16 and Nova is the module action of the scalar field on the group; C22 relates
  it to `scalar_point`, and `g1_smul_order`, `grumpkin_smul_order` show the groups are such modules.
* `carry_bits` of the big-nat gadgets computes with `f64` logarithms. `Nova/Doubles.lean` models this: 53-bit significands, conversion and
  arithmetic rounded to nearest, a faithful `log2`. The circuits take the machine's function as a parameter `fp` and the theorems hold for
  every such machine. Simplified: unbounded exponents, positive `max_word`. C100 says for which sizes the result is the integer intended.
* MiMC constants, commitment keys, toxic waste, blinding factors and all other random values are universally quantified.
* In Groth16, C43–C48 are over abstract groups and a bilinear map; C75 replaces the verifier by the one on structs and the
  map by the pairing of BN254. C80 does the same for setup and prover, with scalars as limbs.
* The FRAME runtime of the pallets (`ensure_signed`, storage, events, transactional dispatch) is modelled after its documentation.
* Counters that are `u64` in the code are naturals with the explicit bound in the theorem (C54, C59, C60); the overflow of the step counter is modelled in C115.
* The raw limbs of the psi coefficients of G2 are not canonical; they are read as residues.

### What is not modelled

* `zkstd/src/arithmetic/limbs/bits_256/assembly.rs` (feature `asm`, which no Cargo.toml declares): the six blocks are modelled (C90) against a hand-written semantics of the 13 x86-64 instructions they use, which is trusted; the register allocation of the pointer operands, the `options(pure, readonly, nostack)` contract and the flags other than carry and zero are not modelled.
* The `ff` crate: `sqrt_ratio_generic` and the inherited `sqrt` are transcribed from its published 0.13.0 source, which is
  not in the repository (C11_ff_sqrt_refuted rests on that transcription).
* Derived `Debug`, `serde`, `rand` adaptors. (The hand-written `Debug` and `Display` are modelled, C118.) (Derived `Encode`/`Decode` are modelled, C81; the primitives of
  `parity-scale-codec`, which is not in the repository, are modelled from its documented format. Its allocation strategy is not.)
* Timing: constant-time selection is modelled by its value only. The calls that scalar multiplication, powers and inverses make are logged in C116; running time is not modelled.
* Tests, benches, the other examples (the circuit of `groth16/examples/simple.rs` is modelled, C120), `sample/client.rs`, build scripts.
* Concurrency: in the models of the prover `rayon` iterators and joins are pure functions; C109 justifies this for every interleaving of
  reads and writes of the shared vectors. The implementation of `rayon` itself (its thread pool, work stealing, panic propagation) is trusted
  to run each closure once and to wait for both sides of a join.

## Properties that are false of the code

For each the negation is proved with a witness (`…_refuted`) and what remains true is proved (`…_partial`).

* **C07** equality and total order proved; the order compares Montgomery limbs, so value order is refuted (C07_value_order_refuted)
* **C11** invert(0) and from_repr of non-canonical input refuted (C11_ff_refuted); sqrt and sqrt_ratio never return (C11_ff_sqrt_refuted, on the published text of ff 0.13.0). The other views of the layer are proved (C11_ff_views).
* **C12** Fr to Fq exact; Fq to Fr to Fq is the identity exactly below the order of Fr (round trip refuted) (C12_roundtrip_refuted)
* **C13** primality, Montgomery constants and order of the root of unity proved; ADDITIVE_IDENTITY refuted (C13_additive_identity_refuted)
* **C15** False of the code: by-reference subtraction multiplies, by-reference multiplication adds, by-reference addition recurses forever. Witnesses at all three levels; C15_actual_partial states what they compute. (C15_fq2_refuted, C15_fq6_refuted, C15_fq12_refuted)
* **C21** Proved for every projective representative and for affine points other than the identity; refuted for the affine identity, whose double is not the identity. (C21_double_affine_identity_refuted)
* **C37** add, double, select, select_identity, assert_equal_public_point and allocation are proved sound and complete (curves without points of order two; both curves of the code shown to be such). descale: honest correctness proved, soundness refuted with a witness family. (C37_descale_refuted)
* **C53** False of the code: the new instance is not absorbed, and a cheating prover can exploit it (C53_forgery_refuted). The running instance and cross-term commitment are bound (partial). (C53_challenge_refuted, C53_forgery_refuted)
* **C65** Over all call histories: items hold the latest effective write, events are exactly the effective writes, failing calls change nothing. The sum query is refuted when the u32 sum overflows (C65_sum_refuted) and proved otherwise (C65_sum_partial). (C65_sum_refuted)
* **C73** Group laws on the r-th roots of unity, generator = pairing of generators (kernel evaluation); zero() is the field zero, refuted as identity. (C73_zero_refuted)
* **C79** Proved on limbs for the code with square replaced by the product (C03 shows that the code's square drops a carry on some inputs). Runs of the code's own square are C91.
* **C82** False of the code: decoding checks neither the modulus nor the curve equation, and every proof has a second encoding of the same residues. Words, lengths and size are in range. (C82_valid_refuted, C82_twin_refuted)
* **C83** Proved after reduce() and for windows of at most six bits. Without reduce() the functions read Montgomery limbs (C83_montgomery_refuted); windows of eight or more bits always panic and seven-bit windows panic on half of the scalars (C83_wide_windows_refuted).
* **C84** Proved, except that ^ reduces modulo the modulus and so does not cancel (C84_xor_cancel_refuted, C84_xor_cancel_partial).
* **C85** Proved for Fr. For Fq the contract fails: S is 0, the root of unity is not a 2^S-th root and DELTA is not the stated power of the generator; TWO_ADACITY is 32 instead of 28 (C85_fq_constants_refuted).
* **C86** Proved for the extension fields. Wires with equal index and different kind compare as equal (C86_wire_order_refuted).
* **C89** Proved for the polynomial product (any lengths, any field) and selection. Refuted for the rest: mult_mod and red_mod accept every result below 2^256 because carries, accumulated, max_word and target_base are free witnesses; enforce_well_formed accepts limbs of any size because to_bits is not tied to its input.
* **C90** Proved for add, sub, double, neg. Refuted for mul and square: the Montgomery constant is hard-coded and belongs to the JubJub group order, so both are wrong for the BN254 fields; and they drop carries even for that modulus. Partial: they are right when the modulus has that constant and no addition of the run drops its carry.
* **C91** Partial: right whenever no squaring of the run loses a carry, shown to hold for the generators by evaluating the whole run. Refuted in general: at a point of the twist whose coordinate loses a carry when squared the code returns an element that is not the pairing.
* **C92** Partial because the full statement is false of the code: C92_verify_refuted gives a key and a proof of canonical limbs holding points of the groups for which the equation holds and the code answers ProofVerificationError. C92_refines_partial and C92_accepts_partial cover every run that loses no carry (VerifyRight); C92_length holds for all limbs.
* **C93** False of the code: in both fields there is an element on which native and in-circuit challenge differ (C93_transcript_refuted, with the constants Mimc::default derives). They agree on every run that loses no carry. BLAKE2b is an external crate and modelled from RFC 7693.
* **C94** Folding holds with the code's arithmetic, carry losses included (C94_prover). Commitments and the recursive verifier are right on runs that lose no carry; C94_commit_refuted gives a generator whose commitment is no curve point, C94_first_step_refuted an input whose first proof, made with exact arithmetic, the code's verifier rejects.
* **C95** pow and invert are false of the code because square loses carries (C95_invert_refuted, BLS12-381); everything else is proved in full, and pow and invert for runs that lose no carry.
* **C96** The scalar is drawn on limbs with the code's own reduction; the multiplication of the generator is the point arithmetic of C20-C22 on residues, with squaring as the product (its failures on limbs are C77).
* **C98** Proved on raw words with the code's own arithmetic: the bytes of canonical proofs behave as the verifier says (C98_canonical), and those of honest proofs store the value when no squaring of the verifier's run loses a carry (C98_honest_partial). The unconditional statement is false of the code (C98_honest_refuted); the parameters are an argument of the call, so the gate can be opened for any claim (C98_gate_refuted); a witness word may be replaced by itself plus the modulus (C98_twin_refuted).
* **C99** Operator bodies are syntax, run with the trait implementation the operand types select and a bounded stack. Holds of the target group and of rows (C99_gt, C99_rows) and of the variants named in C99_field_partial, C99_ext_partial and C99_points_partial. False of the code for the others: -&a in a prime field never returns (C99_field_refuted); in extension fields - with a reference multiplies, * with a reference adds and + of a value and a reference never returns (C99_ext_refuted); an affine minus a projective point with a reference adds, and += on a reference to a point never returns (C99_points_refuted). C99_present lists the variants that exist.
* **C100** Doubles are modelled with unbounded exponents, any tie-breaking and any faithfully rounded log2. C100_bits_partial: exact unless max_word is just above a power of two; C100_bits_refuted: one bit short at 2^j+1, j at least 54. C100_equal_partial: equal numbers are accepted when max_word leaves room for a carry below the next power of two, as the library's own sizes do; C100_equal_refuted: with max_word = 2^j two equal numbers are rejected, because the largest carry needs one more bit even when the logarithm is exact.
* **C101** C101_group, C101_scalar, C101_random and the constants of the test curve (C101_jubjub) are proved in full. C101_ops_refuted: the by-reference variants of affine minus extended add instead of subtracting; C101_ops_partial covers every other variant. The scalar type of the test curve is its base field, whose modulus is not the order of the generator; nothing here says that multiplication is a homomorphism from that scalar field.
* **C103** False: C103_unique_refuted gives two families of accepted proofs made from one, C103_bn254_refuted on the structs of the code. What holds (C103_unique_partial): two elements of an accepted proof determine the third.
* **C106** C106_iter, C106_ops, C106_laws, C106_access; C106_used identifies the operators with those used in the models of is_sat and of folding.
* **C97** The range 0..=1<<n is of i32: new(31) returns an empty key and larger arguments panic or wrap (C97_key_refuted); the first part is proved for n <= 30, coverage of error vectors and cross terms in full (C97_covers_error). Coverage of the witness is false: setup sizes the key by constraints, and a step function allocating enough wires gets a key shorter than its witness, whose last entries no commitment depends on (C97_covers_witness_refuted).
* **C03** False of the code: square drops a carry; refuted by a concrete canonical element. The exact set of inputs on which square equals mul is characterised for the 256-bit back end (C03_square_partial) and the 384-bit one (C03_square384_exact_partial).
* **C44** False of the code: setup panics for every circuit with at most one constraint, and for tau = 1. Proved: for 2..2^S constraints setup and create_proof return for all but at most m-1 values of tau and all non-zero gamma, delta; the exact outcome of setup for every size and all secrets; and that the bound m-1 is reached by every circuit of 2^k constraints whose last constraint mentions a wire.
* **C107** Holds of: generators of Fr and Fq (C107_generators_partial, C107_generator_value; of the curves, C76), invert on all points but the identity (C107_invert_partial) and on Edwards points in extended coordinates (C107_invert_edwards), random of the extension fields (C107_random; of scalars and points, C96). False of: invert at the identity, and at the point of order two in affine Edwards coordinates (C107_invert_refuted); the generator constants of the extension fields, which are zero, and the defaults, which are one (C107_generators_refuted); Gt::invert, which is unimplemented, and Gt::random, which is outside the target group but for one in 2^2700 draws (C107_gt_refuted).
* **C87** Proved for structs the code computes, by refinement to C50-C53 (square taken as the product, C03). Refuted for identities in other coordinates: equal instances are absorbed differently (C87_absorb_refuted); the challenge ignores the new instance (C87_challenge_refuted), so an unsatisfied running pair can be folded into a satisfied one (C87_forgery_refuted).
* **C77** False of the code: a valid point of G1 is rejected by is_on_curve and double, + and * 2 give structs that hold no curve point (C77_double_refuted), because of the carry lost in square (C03). Proved whenever no squaring of the run loses a carry. C77_grumpkin_refuted gives the same for Grumpkin.
* **C108** About the code's own square, with its lost carry (C03). The bounds are upper bounds on the number of exceptions; C108_square_many is a lower bound. C108_grumpkin_points and C108_grumpkin_add count the same on Grumpkin.
* **C57** Native conversions and the limb-wise addition gadget, for every limb width and count with room in the field. C57_nat_to_f and C57_f_to_nat give nat_to_f exactly on the natural numbers; a negative BigInt is not refused (C57_negative, C57_minus_one).
* **C109** Every read and write of a shared vector is a step of its own; the schedules are all interleavings of these steps. rayon's own scheduler is represented by arbitrary interleaving and arbitrary splitting, which covers the build without std as well.
* **C63** False of the code: a proof with an over-long error vector makes verify panic (C63_refuted). Proved for proofs whose vectors have the prescribed lengths. C63_exact says on exactly which proofs verify panics, whatever the lengths of their vectors; values of the running witnesses past the wires are ignored (C63_longer).
* **C67** is_odd and lexicographically_largest exact (Fq and Fq2); is_even refuted C67_is_even_exact says what is_even returns on every element.
* **C68** Blinding proved for vectors at least as long as the number of scalars; on the zero polynomial (stored as the empty vector) it panics (C68_blind_zero_refuted). C68_blind_nonempty drops the bound on the number of scalars; C68_blind_panics says exactly when blind panics.
* **C88** Verification refined to C60-C62; the prover's proofs, written as limbs, are accepted for every number of steps. Soundness is false as for C61/C62 (C88_forged_refuted); C88_meaning_partial says what acceptance does mean. C88_accepts_exact and C88_panics_exact drop the assumption on the lengths; C88_code_forged_refuted forges any claim against the verifier with its own squaring and inversion.
* **C04** false of the code because of C03; refuted by a witness; holds whenever no intermediate squaring loses a carry. C04_limb_one: the limb module's one is the field's.
* **C10** Tonelli-Shanks and p=3 mod 4 algorithms proved correct given exact squaring; the code's sqrt is refuted on squares whose run loses a carry. C10_pow_vartime_partial: pow_vartime is the power when no squaring loses a carry; refuted otherwise by C10_pow_vartime_refuted.
* **C25** Weierstrass: exact characterisation. Edwards: refuted (every (0,y) and every z=0 is accepted); what remains true is proved. C25_edwards_exact_partial says exactly what is accepted.
* **C26** All five routines, constructors, closure and non-vanishing denominators. Only the test curve of zkstd instantiates an Edwards curve; associativity is C101.
* **C32** soundness over every assignment, completeness, honest run; also for flags (C32_binary_conditional_enforce_equal)
* **C110** Proved of the proofs the prover returns, in bytes of the encoding of C81. False of the proofs the verifier accepts: `verify` does not look at the length of the running witnesses, so that an accepted proof can be made as long as one likes (C110_accepted_refuted).
* **C111** Exact for vectors of one length. The full statement is false: every key of two points on either curve has a collision, since the groups are cyclic (that one is hard to find is a computational assumption, outside the model), and zeros at the end of a vector are not committed to.
* **C112** The last sentence is false, the rest is proved: undoing the rounds computes preimages of the mixing function, and two transcripts of two elements with one hash exist for every list of constants (finding them is a computational question outside the model).
* **C113** Minimal weight, exact length, density, uniqueness and injectivity; the order of the 384-bit digits is C09.
* **C115** C115_changing: sequences of parameters. C115_same: agreement with the model that reads the keys from the call's parameters. C115_overflow: the end of the counter's range.
* **C116** False of the code for scalars and exponents: the operations replay to the scalar (C116_replay_refuted, C116_distinguish_refuted) or exponent (C116_pow_refuted). Proved: the operations depend on nothing else, their number (C116_operations_partial), and inverting a non-zero element always executes the same operations (C116_invert_partial). Operations are calls of point and field functions; what the machine does inside one is not modelled.
* **C118** C118_field: the text read back as a hexadecimal numeral is the value. C118_distinct, C118_tower: injectivity. C118_wire: wires. C118_modulus: the constant MODULUS, which is not canonical, prints like zero.
* **C59** All step functions with honest one-element circuits, below 2^64 steps (the counter is a u64; what happens at the end of its range is C115_overflow). C59_native: the native functions (invoke) have no influence on setup, proofs or outputs; only the circuits count.
* **C40** Proved for every k and every vector that fits the domain, over any field with the root-of-unity data C12 establishes for BN254. Vectors longer than 2^k are silently truncated (C40_truncates_refuted). C40_no_panic: in the model in which every index access may panic, no transform panics and the results are those of the model without panics. C40_dft_exact, C40_product_exact: vectors and products of every length (cut after 2^k entries, products modulo X^(2^k)-1); C40_dft_right: exactly when the values are those of the whole polynomial.
* **C61** False of the code: running commitments are never checked (C61_refuted). What acceptance means is C62_meaning_partial. C61_any_commitments: every accepted proof stays accepted with its four running commitments replaced by arbitrary points once two public inputs are recomputed (C61_shift_refuted: off by any point, same claim and witnesses).
* **C62** False of the code: for any claimed step count, inputs and outputs an accepted proof exists (C62_refuted). C62_meaning_partial characterises acceptance. C62_accepts_exact characterises the accepted proofs with no assumption on the lengths of their vectors. C62_retarget: every accepted proof becomes an accepted proof of every other claim, with the same witnesses.
* **C29** Refuted for the generators of G1 and of G2 (both have order r, both are rejected); the partial theorem gives the multiple mul_by_x really computes. Exact, for every point of both curves: true of the identity and false of every other point (C29_g1_exact for every BETA, C29_g2_exact).
* **C22** Proved for the 256-bit back end, all points and canonical scalars; refuted for the 384-bit back end, whose recoding comes in the opposite order. C22_scalar_mul384_exact: what the 384-bit back end computes and exactly when that is right.
* **C23** Proved for negation and all operator variants except the three by-reference affine - projective operators, which add and are refuted. C23_mixed_exact: right exactly for subtrahends killed by two.
* **C38** Honest value and 'some multiple below the field order' proved; soundness refuted because to_bits is not linked to the scalar. C38_scalar_exact: the outputs over all satisfying assignments are exactly the multiples below the field order; on G1 every point (C38_any_point).
* **C69** Holds exactly when the vector is as long as the domain; shorter ones give r^(diff)*f(r) (C69_commit_refuted). C69_commit_exact: when it panics and exactly when the result is the evaluation.
* **C105** C105_limbs: the constraints hold exactly when the limbs agree one by one. C105_numbers_partial: for equal limb widths this is equality of the integers. C105_numbers_refuted: limb widths are not compared, so 1 + 2^64 (64-bit limbs) and 1 + 2^32 (32-bit limbs), both allocated by the library, pass. C105_widths_exact: with different widths an accepted assignment gives equal integers exactly when all limbs but the lowest are zero.
* **C114** Full statement is false of the code. Proved for every m: lengths, h, fixed points, and the entries with the polynomials cut after m terms (C114_entries); the documented values for m a power of two (C114_qap_partial). Refuted: for every other m a circuit whose first entry of a is not the documented value (C114_qap_refuted); unused wires are kept and give points at infinity (C114_unused_refuted); zero alpha, beta, tau are accepted (C114_zero_refuted). Exact condition for infinity among fixed points and powers: C114_infinity_partial; bound for used wires: C114_wire_partial. For every number of constraints: C114_wire_any (a wire that occurs gives infinity for fewer than m values of tau) and C114_qap_exact (an entry is the polynomial's value under every key exactly when the degree is below the number of constraints, and otherwise for fewer than n values of tau).
* **C117** False as stated: no error is reported (C117_error_refuted). C117_run_partial: exactly when create_proof panics, and that it otherwise returns a proof. C117_rejected_partial: for keys of circuits with a power of two constraints, proofs made with any other circuit are rejected for all but (2n+6)|F|^4 of the |F|^5 values of the toxic waste unless its witness satisfies the circuit of the key. C117_error: errors of synthesize. C117_rejected_any covers keys of circuits with any number of constraints; C117_every_pair_refuted: no error for any pair of circuits of suitable size.
* **C78** False of the code for squaring: Fq2::square inherits the lost carry (C78_fq2_square_refuted), and a valid point of the twist is rejected by is_on_curve (C78_g2_on_curve_refuted). Everything that does not square in the base field is exact on limbs for all inputs (C78_fq12). C78_fq2_square_exact: Fq2 squaring on limbs is right exactly when both coefficients lose a carry or neither does.
* **C60** All step functions with honest one-element circuits, below 2^64 steps; instantiated for BN254/Grumpkin with the test function. MiMC constants and commitment keys are arbitrary. Different parameters per call: C115. C119_ivc shows that the hypotheses on step functions are met by every arithmetic expression.
* **C47** False of the code: an unsatisfiable three-constraint circuit is accepted for every trapdoor (C47_unsat_refuted), and for every k from 2 to S there is a circuit of 2^k-1 constraints, all of them violated by every assignment, whose proofs are accepted (C47_unsat_all_refuted). Proved with bound 2n-2 when the number of constraints is a power of two. C47_cut_partial: for every number of constraints, what acceptance does check, namely that the column polynomials cut after m terms multiply on the domain. C43_padded: rejection for every circuit, padded.
* **C46** False of the code for every number of constraints that is not a power of two: acceptance of the proof reveals the witness (C46_witness_all_refuted; C46_witness_indistinguishable_refuted for three). Proved for a power of two constraints: a bijection of the coins maps proofs for one witness to proofs for the other. For every number of constraints and any two assignments with the same public inputs: their proofs are equally distributed or never coincide (C46_same_or_disjoint); equally distributed whenever both are accepted (C46_accepted). C104_padded: for every circuit, padded.
* **C102** Statistical: the coefficients do not depend on the parameters (no hardness assumption is modelled). C102_knowledge_partial for a power of two constraints; C102_knowledge_refuted: with three constraints the code's own prover is accepted for a circuit nobody can satisfy, and C102_knowledge_all_refuted: the same with 2^k-1 constraints, all of them false. C102_forgery_all_refuted: for every number of constraints that is not a power of two, a false statement and a prover who only adds published elements. C102_honest: create_proof is such a prover; C102_many: it is accepted for nearly all setup randomness. C102_bn254_partial: the same for the verifier on BN254 structs. For every number of constraints, exactly (C102_cut, C102_cut_accepted, C102_exact, C102_bn254_exact): what accepted provers know is a witness for which the column polynomials, cut after m terms, multiply on the domain; with a power of two constraints that is a witness of the circuit (C102_cut_pow). C102_padded: for every circuit, padded.
* **C104** Equality of distributions is a bijection between the coins of prover and simulator with equal proofs. C104_simulation_partial for a power of two constraints; C104_simulation_refuted: a satisfiable circuit with three constraints for which, for all but five values of tau, no simulator exists; C104_simulation_all_refuted: the same for every number of constraints that is not a power of two. C104_simulated_accepted: simulated proofs are accepted, also for inputs without a witness. C104_exact: for every number of constraints and every assignment, honest proofs are simulated exactly when they are accepted. C104_padded: for every circuit, padded.
* **C43** False of the code: proved complete when the number of constraints is a power of two >= 2 (whatever trapdoor and coins). For every other number of constraints a satisfied circuit of that size is exhibited whose honest proof is rejected for all but 2^ceil(log2 m) + m values of tau (C43_completeness_all_refuted); for three constraints, 1*1 = 1 three times is rejected for all but five (C43_completeness_refuted). For every number of constraints: the verdict on an honest proof is the vanishing at tau of a polynomial fixed by circuit and assignment (C43_verdict), so it does not depend on coins and other secrets (C43_same_verdict) and is positive always or for at most n+m-2 values of tau (C43_all_or_few); columns of low degree are accepted always (C43_low_degree_partial). C43_padded: completeness, rejection and setup for every circuit whose author adds trivial equations up to a power of two. C43_assignment: every satisfying assignment, not only the one synthesize computes, gives an accepted proof.
* **C09** proved for the 256-bit back end; 384-bit digits come out reversed (refuted). C09_naf384_exact: the 384-bit digits read as the scalar exactly when they are the same from both ends.
* **C33** exact for vectors at least as long as the bound; short vectors enforce nothing and the zero bound panics (both refuted). The remaining cases for every circuit: a bound that does not fit the vector adds no constraint (C33_short); the zero bound and zero bits panic (C33_zero, C33_bits_zero).
* **C34** false of the code: bits are not linked to the value, refuted for every circuit; bounds and honest run proved. C34_panics: it panics exactly for zero or more than 256 bits.
* **C35** false of the code: refuted for every circuit; honest values and one direction of is_neq proved. C35_exact: which values the flags can be given. C35_groth16_refuted: the accepted Groth16 proofs that follow.
* **C36** false of the code: the public wire is free, refuted for every circuit; honest value proved. C36_groth16_refuted, C36_bn254_refuted: every circuit that ends with inputize has accepted Groth16 proofs with every other published value.
* **C48** False of the code: an input no constraint mentions is not bound. Proved: inputs some constraint tells apart are bound except for at most m-1 tau and a linear relation on alpha, beta. C48_undistinguished and. C48_exact: vectors no constraint tells apart get the same verdict from every proof, so every pair of vectors is decided.
* **C80** Setup, prover and verifier on structs with limb scalars (square taken as the product), refined to C43-C48 and the pairing of C74. Completeness, rejection, zero knowledge and simulation for a power of two constraints, exact panics of the setup, binding of inputs some constraint tells apart; refuted for every number of constraints that is not a power of two (completeness, secrecy of the witness, and a proof struct accepted for a false statement), and setup panics with at most one. C80_verdict, C80_all_or_few, C80_low_degree_partial: every number of constraints, as in C43. C80_simulation_exact and. C80_same_or_disjoint: simulation and secrecy on structs for every number of constraints. C80_undistinguished: the other half of input binding. C80_padded: setup, completeness and rejection on structs for every circuit, padded.
* **C120** C120_circuit (all fields), C120_example (BN254 with the code's own structs), C120_knowledge (affine provers on BN254; that honest affine provers reach the threshold is C102_bn254_many).
* **C70** False of the code: any signed account can write any value with a forged proof (from C62_refuted), under any setup. C70_gate_partial: a change of the item needs a signed call with a proof the verifier accepts. C70_honest: every proof of an honest run of any expression step functions opens the gate for any account and value.
* **C121** C121_prepared, C121_identity, C121_keys: over the field elements of Fq; the first coefficients pushed, 4y, -6x^2 and 6x^3 - 4y^2, determine the point.
* **C41** Coefficient subtraction returns the negated difference unless the left operand is strictly longer (C41_sub_refuted); all other operations proved in full. C41_vanishing: t(2^k, tau) is the product over the domain. C41_sub_exact: subtraction is right exactly when the left operand is strictly longer or the polynomials are equal. C41_equality: == and degree on every value built with the operations; C41_equality_refuted: the exception, blinding with the scalar zero.
* **C122** False of the code: == compares the terms in order, so x + y == y + x fails (C122_order_refuted), and as_constant returns nothing for x - x (C122_zero_refuted). Proved: two combinations agree under all assignments exactly when they have the same non-zero terms (C122_same_partial); as_constant is exact except on the combination without terms (C122_constant_partial).
* **C123** G1 and Grumpkin: proved. G2: false of the documentation, whose 3(u+1) is not the constant of the code; no point of the code's curve satisfies the documented equation (C123_g2_refuted). Proved: the code's curve is y^2 = x^3 + 3/(9+u) (C123_g2_partial).
* **C124** Proved for every gadget (C124_field, C124_bits, C124_points, C124_bignat), closed under sequencing, arithmetic programs and the recursive circuit (C124_compose). C124_sat: values, satisfying assignments and is_sat; constraints over allocated wires, as in C31.
* **C119** C119_program (construction, is_sat, soundness and completeness), C119_shape, C119_statement: by induction on programs and expressions, no bound on size. C119_groth16_partial: completeness and knowledge soundness when the circuit has a power of two constraints; for other numbers both fail in the code (C43_completeness_all_refuted, C102_knowledge_refuted). C119_bn254_partial: the same with the code's own structs on BN254. C119_ivc: every expression as a step function of the incremental prover on the BN254 cycle, any number of steps. C119_padded, C119_groth16_padded and. C119_bn254_padded: for every program, equations 0 = 0 can be added so that setup, completeness, rejection, knowledge soundness and zero knowledge hold without a condition on the number of constraints. C119_all_or_few: what happens without padding. C119_size: public wires, and how many witnesses and constraints the circuit can have.
* **C125** C125_field, C125_gadgets: nothing published; C125_publish: what instance, inputize and public points publish; C125_compose: sequencing; C125_step: the recursive circuit. The public inputs of an arithmetic program are C119_size.
* **C126** C126_field, C126_points, C126_bits, C126_scalar: the bounds per call; C126_compose: sequencing. The examples show calls attaining the bounds of is_neq, point addition and doubling. Upper bounds only; that no needed constraint is missing is the soundness of the gadgets.

Partial for another reason: C75 (power-of-two numbers of constraints only, since C43 fails for others), C44
(exceptional values of τ).

## Concrete cases

Each file of `Verif/Props` ends its groups of theorems with `example`s in which the hypotheses of the group hold together for a concrete case
(generators of the curves, elements of Fr and Fq, small satisfied circuits, the BN254 cycle). `Props/Cases.lean` applies the theorems on
fields, points, circuits and folding to such inputs directly.

## Wrong programs

`seeded/LOG.jsonl` records the edits tried on a scratch copy of the model: the definition, the edit, the claim it breaks,
the theorems that stopped proving, and the theorems that were tightened when an edit survived.
