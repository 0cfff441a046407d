{"id": "C01", "title": "Linear combinations are enforced", "statement": "For every list of assigned values with coefficients and an optional constant, in every advice assignment that satisfies the circuit, the cell returned by sum_with_constant (and so by add, sub, add_constant) holds constant + sum of coeff_i * value_i. The list may have any length >= 1.", "quantifier": "every list length, coefficients, prior context, and every satisfying advice assignment (malicious prover)", "why_tests_cant": "A unit test only exercises the honest witness the library itself computes; it never ranges over the other advice assignments a malicious prover may choose. The list length is unbounded and the gate is chained over several rows.", "anchors": ["src/circuit/base_chip.rs:sum_with_constant", "src/circuit/base_chip.rs:sum_with_constant_in_one_line", "src/circuit/base_chip.rs:add", "src/circuit/base_chip.rs:sub", "src/circuit/base_chip.rs:add_constant"]}
{"id": "C02", "title": "Products are enforced", "statement": "In every satisfying advice assignment, mul, mul_add_constant, mul_add, invert_unsafe and div_unsafe return cells holding a*b, a*b+k, a*b*k1+c*k2 (as specified by their arguments), the inverse of a, and b with b*denominator=numerator.", "quantifier": "all operands, all prior contexts, all satisfying advice assignments", "why_tests_cant": "A unit test only exercises the honest witness the library itself computes; it never ranges over the other advice assignments a malicious prover may choose.", "anchors": ["src/circuit/base_chip.rs:mul", "src/circuit/base_chip.rs:mul_add_constant", "src/circuit/base_chip.rs:mul_add", "src/circuit/base_chip.rs:invert_unsafe", "src/circuit/base_chip.rs:div_unsafe"]}
{"id": "C03", "title": "Zero test and inversion are enforced", "statement": "In every satisfying advice assignment, is_zero returns 1 exactly when the operand is 0 and 0 otherwise, and invert returns that flag together with the operand's inverse when the operand is non-zero.", "quantifier": "all field elements, all satisfying advice assignments", "why_tests_cant": "A unit test only exercises the honest witness the library itself computes; it never ranges over the other advice assignments a malicious prover may choose.", "anchors": ["src/circuit/base_chip.rs:invert", "src/circuit/base_chip.rs:is_zero"]}
{"id": "C04", "title": "Boolean gates follow their truth tables", "statement": "When the operands hold 0 or 1, in every satisfying advice assignment and, or, not, not_and, xor, xnor return a 0/1 cell equal to the corresponding Boolean function; bisec and bisec_cond return the first value when the condition is 1 and the second when it is 0.", "quantifier": "all 0/1 operands, all branches, all satisfying assignments", "why_tests_cant": "A unit test only exercises the honest witness the library itself computes; it never ranges over the other advice assignments a malicious prover may choose.", "anchors": ["src/circuit/base_chip.rs:and", "src/circuit/base_chip.rs:or", "src/circuit/base_chip.rs:not", "src/circuit/base_chip.rs:xor", "src/circuit/base_chip.rs:xnor", "src/circuit/base_chip.rs:not_and", "src/circuit/base_chip.rs:bisec", "src/circuit/base_chip.rs:bisec_cond"]}
{"id": "C05", "title": "Assertions are enforced", "statement": "In every satisfying advice assignment, after assert_equal the two cells are equal, after assert_constant the cell holds the constant, after assert_true / assert_false the condition is 1 / 0, and after assert_bit the cell holds 0 or 1; assign_constant returns a cell holding the constant.", "quantifier": "all operands, all satisfying assignments, all later extensions of the circuit", "why_tests_cant": "A unit test only exercises the honest witness the library itself computes; it never ranges over the other advice assignments a malicious prover may choose.", "anchors": ["src/circuit/base_chip.rs:assert_equal", "src/circuit/base_chip.rs:assert_constant", "src/circuit/base_chip.rs:assert_bit", "src/circuit/base_chip.rs:assert_true", "src/circuit/base_chip.rs:assert_false", "src/circuit/base_chip.rs:assign_constant"]}
{"id": "C06", "title": "A condition assigned with assign_bit is 0 or 1", "statement": "In every satisfying advice assignment, the cell returned by assign_bit holds 0 or 1.", "quantifier": "all contexts and all satisfying advice assignments", "why_tests_cant": "A unit test only exercises the honest witness the library itself computes; it never ranges over the other advice assignments a malicious prover may choose. The honest witness always stores the same value in both cells of the row, so no honest test can tell whether the two cells are tied.", "anchors": ["src/circuit/base_chip.rs:assign_bit"]}
{"id": "C07", "title": "Sums of products over consecutive rows are enforced", "statement": "For every list of product terms, in every satisfying assignment the value returned by mul_add_with_next_line is the sum of coefficient * a_i * b_i over the whole list, although the sum is chained through the next-row column.", "quantifier": "all list lengths, coefficients and satisfying assignments", "why_tests_cant": "A unit test only exercises the honest witness the library itself computes; it never ranges over the other advice assignments a malicious prover may choose. The chain length is unbounded.", "anchors": ["src/circuit/base_chip.rs:mul_add_with_next_line"]}
{"id": "C08", "title": "Range-checked values are below their bound", "statement": "For every supported bit width (0..18, 36..108), in every satisfying advice assignment the cell returned by a range assignment of that width, read as an integer, is below 2^width.", "quantifier": "all supported widths, contexts and satisfying assignments", "why_tests_cant": "A unit test only exercises the honest witness the library itself computes; it never ranges over the other advice assignments a malicious prover may choose. Tests use a few widths and honest decompositions.", "anchors": ["src/context.rs:assign_range_value", "src/circuit/range_chip.rs:configure", "src/circuit/range_chip.rs:init_table"]}
{"id": "C09", "title": "Range assignment accepts every in-range value", "statement": "For every limb kind and every integer below its bound, the range assignment terminates without panic and the recorded witness satisfies the range gates and lookups.", "quantifier": "all values below 2^width for every width used by the integer chip", "why_tests_cant": "There are 2^108 values per limb kind.", "anchors": ["src/circuit/range_chip.rs:assign_nonleading_limb", "src/circuit/range_chip.rs:assign_w_ceil_leading_limb", "src/circuit/range_chip.rs:assign_d_leading_limb", "src/circuit/range_chip.rs:decompose_bn", "src/context.rs:assign_range_value"]}
{"id": "C10", "title": "Parameter set-up succeeds for the supported fields", "statement": "Building the non-native arithmetic parameters for (bn256 Fq, bn256 Fr), (bls12-381 Fq, bn256 Fr) and (bls12-381 Fr, bn256 Fr) passes all internal checks, and the tabulated multiples of the modulus dominate every representable integer with the corresponding overflow counter, limb by limb.", "quantifier": "all three field pairs and all overflow counters 1..63", "why_tests_cant": "The tests check that construction does not panic on this machine, not that the table dominates every integer of that overflow class.", "anchors": ["src/range_info.rs:RangeInfo::new", "src/range_info.rs:pre_check", "src/range_info.rs:find_w_modulus_of_ceil_times"]}
{"id": "C11", "title": "Assigned integers are well formed", "statement": "In every satisfying advice assignment, an integer returned by assign_w has limbs in range, represents a natural number below 2^bits(w), and its native residue cell equals that number modulo the native field.", "quantifier": "all inputs and all satisfying assignments, all parameter sets accepted by set-up", "why_tests_cant": "A unit test only exercises the honest witness the library itself computes; it never ranges over the other advice assignments a malicious prover may choose.", "anchors": ["src/circuit/integer_chip.rs:assign_w"]}
{"id": "C12", "title": "Lazy additive operations are correct modulo w", "statement": "In every satisfying advice assignment, int_add, int_sub, int_neg and int_mul_small_constant (multiplier >= 1) on well-formed operands return a well-formed integer equal modulo w to the sum, difference, negation and multiple; in particular no limb wraps around the native field.", "quantifier": "all operands with overflow counters below the limit, all satisfying assignments", "why_tests_cant": "A unit test only exercises the honest witness the library itself computes; it never ranges over the other advice assignments a malicious prover may choose. Wrap-around happens only for limb patterns that random tests do not hit.", "anchors": ["src/circuit/integer_chip.rs:int_add", "src/circuit/integer_chip.rs:int_sub", "src/circuit/integer_chip.rs:int_neg", "src/circuit/integer_chip.rs:int_mul_small_constant"]}
{"id": "C13", "title": "Reduction preserves the residue", "statement": "In every satisfying advice assignment, reduce and conditionally_reduce on a well-formed integer return a well-formed integer with overflow counter 1 (respectively at most 16) equal to the input modulo w.", "quantifier": "all well-formed operands, all quotients and carries a prover may choose", "why_tests_cant": "A unit test only exercises the honest witness the library itself computes; it never ranges over the other advice assignments a malicious prover may choose.", "anchors": ["src/circuit/integer_chip.rs:reduce", "src/circuit/integer_chip.rs:conditionally_reduce"]}
{"id": "C14", "title": "Multiplication modulo w is enforced", "statement": "In every satisfying advice assignment, int_mul and int_square on well-formed operands return a well-formed integer with overflow counter 1 equal modulo w to the product.", "quantifier": "all well-formed operands, all quotients, remainders and carries a prover may choose", "why_tests_cant": "A unit test only exercises the honest witness the library itself computes; it never ranges over the other advice assignments a malicious prover may choose. The argument combines two moduli and bounds on every carry; random testing would need to find a collision modulo a 500-bit number.", "anchors": ["src/circuit/integer_chip.rs:int_mul", "src/circuit/integer_chip.rs:int_square", "src/circuit/integer_chip.rs:add_constraints_for_mul_equation_on_limbs", "src/circuit/integer_chip.rs:add_constraints_for_mul_equation_on_native"]}
{"id": "C15", "title": "Division modulo w is enforced", "statement": "In every satisfying advice assignment, int_div(a,b) returns the flag 1 exactly when b = 0 modulo w, and when the flag is 0 a well-formed c with c*b = a modulo w; int_unsafe_invert returns the inverse of a non-zero operand.", "quantifier": "all well-formed operands, all satisfying assignments", "why_tests_cant": "A unit test only exercises the honest witness the library itself computes; it never ranges over the other advice assignments a malicious prover may choose.", "anchors": ["src/circuit/integer_chip.rs:int_div", "src/circuit/integer_chip.rs:int_unsafe_invert"]}
{"id": "C16", "title": "Integer zero and equality tests are enforced", "statement": "In every satisfying advice assignment, is_int_zero returns 1 exactly when the well-formed operand is 0 modulo w, and after assert_int_equal the two operands are equal modulo w, even though integers are kept in a redundant non-canonical form.", "quantifier": "all well-formed operands including the non-canonical representatives w .. 2^bits(w)-1", "why_tests_cant": "A unit test only exercises the honest witness the library itself computes; it never ranges over the other advice assignments a malicious prover may choose. The non-canonical representative of 0 is never produced by the honest prover.", "anchors": ["src/circuit/integer_chip.rs:is_int_zero", "src/circuit/integer_chip.rs:is_pure_zero", "src/circuit/integer_chip.rs:is_pure_w_modulus", "src/circuit/integer_chip.rs:assert_int_equal"]}
{"id": "C17", "title": "Integer selection is enforced", "statement": "In every satisfying advice assignment, bisec_int with a 0/1 condition returns a well-formed integer equal to the first operand when the condition is 1 and the second otherwise; assign_int_constant and get_w give integers with the stated value.", "quantifier": "all operands, conditions and satisfying assignments", "why_tests_cant": "A unit test only exercises the honest witness the library itself computes; it never ranges over the other advice assignments a malicious prover may choose.", "anchors": ["src/circuit/integer_chip.rs:bisec_int", "src/circuit/integer_chip.rs:assign_int_constant", "src/circuit/integer_chip.rs:get_w"]}
{"id": "C18", "title": "Overflow counters never exceed the limit", "statement": "For every finite sequence of public integer operations (assign, constant, add, sub, neg, mul, square, small multiple with multiplier 1..15, div, select) starting from fresh integers, every produced overflow counter is between 1 and 16, so none of the run-time overflow assertions fires.", "quantifier": "all finite histories of API calls", "why_tests_cant": "A history is unbounded; tests run a handful of fixed sequences.", "anchors": ["src/circuit/integer_chip.rs:conditionally_reduce", "src/circuit/integer_chip.rs:int_add", "src/circuit/integer_chip.rs:int_sub", "src/circuit/integer_chip.rs:int_mul_small_constant", "src/circuit/integer_chip.rs:add_constraints_for_mul_equation_on_limbs"]}
{"id": "C19", "title": "Any honest integer program is accepted", "statement": "For every finite sequence of public integer operations on canonical inputs, the library neither panics nor underflows, the computed witness satisfies every gate, lookup and copy constraint it recorded, and the values it returns are the results of arithmetic modulo w.", "quantifier": "all finite histories, all canonical inputs", "why_tests_cant": "Unbounded histories and 2^254 inputs.", "anchors": ["src/circuit/integer_chip.rs:IntegerChipOps", "src/context.rs:Records"]}
{"id": "C20", "title": "Any integer program is sound", "statement": "For every finite sequence of public integer operations and every advice assignment satisfying the final circuit, the values of all produced integers equal the results of executing the same sequence in the field Z/w on the values of the assigned inputs.", "quantifier": "all finite histories, all satisfying advice assignments", "why_tests_cant": "A unit test only exercises the honest witness the library itself computes; it never ranges over the other advice assignments a malicious prover may choose. Histories are unbounded.", "anchors": ["src/circuit/integer_chip.rs:IntegerChipOps"]}
{"id": "C21", "title": "Complete point addition follows the group law", "statement": "In every satisfying advice assignment, if the operands represent curve points P and Q (identity flag or affine coordinates) then ecc_add returns a representation of P + Q, for all cases: distinct, equal, opposite, either one the identity.", "quantifier": "all pairs of curve points, all satisfying assignments", "why_tests_cant": "A unit test only exercises the honest witness the library itself computes; it never ranges over the other advice assignments a malicious prover may choose. Exceptional cases interact with unconstrained quotients for zero divisors.", "anchors": ["src/circuit/ecc_chip.rs:ecc_add", "src/circuit/ecc_chip.rs:lambda_to_point", "src/circuit/ecc_chip.rs:to_point_with_curvature"]}
{"id": "C22", "title": "Doubling, negation, selection, reduction and equality of points", "statement": "In every satisfying advice assignment ecc_double, ecc_neg, bisec_point and ecc_reduce return representations of 2P, -P, the selected point and P, and ecc_assert_equal forces both operands to represent the same point.", "quantifier": "all curve points, all satisfying assignments", "why_tests_cant": "A unit test only exercises the honest witness the library itself computes; it never ranges over the other advice assignments a malicious prover may choose.", "anchors": ["src/circuit/ecc_chip.rs:ecc_double", "src/circuit/ecc_chip.rs:ecc_neg", "src/circuit/ecc_chip.rs:bisec_point", "src/circuit/ecc_chip.rs:ecc_reduce", "src/circuit/ecc_chip.rs:ecc_assert_equal"]}
{"id": "C23", "title": "Assigned points are on the curve or the identity", "statement": "In every satisfying advice assignment, the point returned by assign_point either carries identity flag 1 or has affine coordinates satisfying the curve equation; assign_non_zero_point returns affine coordinates on the curve.", "quantifier": "all satisfying assignments", "why_tests_cant": "A unit test only exercises the honest witness the library itself computes; it never ranges over the other advice assignments a malicious prover may choose.", "anchors": ["src/circuit/ecc_chip.rs:assign_point", "src/circuit/ecc_chip.rs:assign_non_zero_point", "src/circuit/ecc_chip.rs:assign_constant_point", "src/circuit/ecc_chip.rs:assign_identity"]}
{"id": "C24", "title": "Incomplete addition and doubling are enforced", "statement": "In every satisfying advice assignment, ecc_add_unsafe on affine points returns their group sum and forces the x coordinates to differ; ecc_double_unsafe returns the double and forces y to be non-zero.", "quantifier": "all affine curve points, all satisfying assignments", "why_tests_cant": "A unit test only exercises the honest witness the library itself computes; it never ranges over the other advice assignments a malicious prover may choose.", "anchors": ["src/circuit/ecc_chip.rs:ecc_add_unsafe", "src/circuit/ecc_chip.rs:ecc_double_unsafe", "src/circuit/ecc_chip.rs:lambda_to_point_non_zero"]}
{"id": "C25", "title": "Degenerate incomplete additions are reported, not fatal", "statement": "ecc_add_unsafe and ecc_double_unsafe (hence msm_unsafe) return Err(UnsafeError) when the operands hit the degenerate case, so that a caller can retry with other random points.", "quantifier": "all operands that hit the degenerate case", "why_tests_cant": "Tests never reach the degenerate case because offsets are random.", "anchors": ["src/circuit/base_chip.rs:try_assert_false", "src/circuit/ecc_chip.rs:ecc_add_unsafe", "src/circuit/ecc_chip.rs:ecc_double_unsafe", "src/circuit/ecc_chip.rs:msm_unsafe"]}
{"id": "C26", "title": "Native scalars decompose into their bits", "statement": "In every satisfying advice assignment, the bits returned by decompose_scalar for a native scalar are 0/1 and their binary value is congruent to the scalar modulo the native modulus.", "quantifier": "all scalars, all satisfying assignments", "why_tests_cant": "A unit test only exercises the honest witness the library itself computes; it never ranges over the other advice assignments a malicious prover may choose.", "anchors": ["src/circuit/native_scalar_ecc_chip.rs:decompose_scalar"]}
{"id": "C27", "title": "Non-native scalars decompose into their bits", "statement": "In every satisfying advice assignment, the bits returned by decompose_scalar for a non-native scalar are 0/1 and their binary value is congruent to the scalar modulo the scalar field modulus.", "quantifier": "all well-formed scalars, all satisfying assignments", "why_tests_cant": "A unit test only exercises the honest witness the library itself computes; it never ranges over the other advice assignments a malicious prover may choose.", "anchors": ["src/circuit/general_scalar_ecc_chip.rs:decompose_scalar"]}
{"id": "C28", "title": "Multi-scalar multiplication without the select chip computes the sum of multiples", "statement": "For every non-empty list of points and scalars and whatever random offset points the prover assigns, in every satisfying advice assignment msm returns a point equal to the sum of scalar_i * P_i.", "quantifier": "all list lengths, points, scalars, offset points and satisfying assignments", "why_tests_cant": "A unit test only exercises the honest witness the library itself computes; it never ranges over the other advice assignments a malicious prover may choose. Lengths change the grouping and the parity-dependent cancellation of the offset points.", "anchors": ["src/circuit/ecc_chip.rs:msm_batch_on_group_non_zero_without_select_chip", "src/circuit/ecc_chip.rs:msm_unsafe"]}
{"id": "C29", "title": "Multi-scalar multiplication with the select chip computes the sum of multiples", "statement": "Same statement for the variant in which candidate points are fetched through the select-chip lookup.", "quantifier": "all list lengths, points, scalars, offset points and satisfying assignments", "why_tests_cant": "A unit test only exercises the honest witness the library itself computes; it never ranges over the other advice assignments a malicious prover may choose.", "anchors": ["src/circuit/ecc_chip.rs:msm_batch_on_group_non_zero_with_select_chip", "src/circuit/ecc_chip.rs:pick_candidate_non_zero"]}
{"id": "C30", "title": "A selected limb equals the cached limb", "statement": "In every satisfying advice assignment, a value fetched through the select chip for (group, selector, limb) equals the value cached under exactly that triple.", "quantifier": "all groups, selectors, limb indices, table contents and satisfying assignments", "why_tests_cant": "A unit test only exercises the honest witness the library itself computes; it never ranges over the other advice assignments a malicious prover may choose. Rows of the lookup table that the library never assigns are filled by the prover.", "anchors": ["src/circuit/select_chip.rs:configure", "src/circuit/select_chip.rs:encode_offset", "src/context.rs:assign_cache_value", "src/context.rs:assign_select_value"]}
{"id": "C31", "title": "Cache keys never collide", "statement": "encode_offset is injective on (group, selector, limb) in the ranges the library uses, also after reduction into the native field, and two multi-scalar multiplications of fewer than 2^20 groups made on one context never share a group number.", "quantifier": "all triples below the limits, all sequences of msm calls on a context", "why_tests_cant": "The key space has 2^64 groups.", "anchors": ["src/circuit/select_chip.rs:encode_offset", "src/circuit/native_scalar_ecc_chip.rs:get_and_increase_msm_prefix", "src/circuit/general_scalar_ecc_chip.rs:get_and_increase_msm_prefix", "src/circuit/ecc_chip.rs:MSM_PREFIX_OFFSET"]}
{"id": "C32", "title": "The circuit does not depend on the witness", "statement": "Running the same sequence of API calls on two different witnesses (when neither run panics) produces the same fixed columns, copy constraints, row offsets and cell positions, so a proving key generated with a dummy witness is valid for every witness.", "quantifier": "all pairs of witnesses and all API call sequences", "why_tests_cant": "A test fixes one witness; the claim relates all pairs of runs.", "anchors": ["src/context.rs:Records", "src/circuit/base_chip.rs:BaseChipOps", "src/circuit/integer_chip.rs:IntegerChipOps", "src/circuit/ecc_chip.rs:EccChipBaseOps"]}
{"id": "C33", "title": "Rows are written once", "statement": "Every API call writes fixed cells only in rows at or above the current offsets and never changes constraints recorded earlier; offsets and heights only grow and every recorded row lies below the height.", "quantifier": "all API calls and prior contexts", "why_tests_cant": "Needs an invariant over all reachable contexts.", "anchors": ["src/context.rs:one_line", "src/context.rs:one_line_with_last", "src/context.rs:assign_range_value", "src/context.rs:assign_cache_value", "src/context.rs:assign_select_value"]}
{"id": "C34", "title": "Parallel windows equal sequential execution", "statement": "Running independent computations on offset clones of a context (predicted offsets, shared records) and merging gives the same records as running them one after another, for every interleaving of their individual writes.", "quantifier": "all schedules, all numbers of clones", "why_tests_cant": "Schedules cannot be enumerated or controlled by a unit test.", "anchors": ["src/circuit/ecc_chip.rs:ParallelClone", "src/circuit/native_scalar_ecc_chip.rs:clone_with_offset", "src/circuit/native_scalar_ecc_chip.rs:merge", "src/circuit/general_scalar_ecc_chip.rs:merge", "src/context.rs:clone_without_permutation"]}
{"id": "C35", "title": "Merging never loses rows", "statement": "Merging a clone into its parent leaves every height at least as large as in both contexts, so synthesis covers every recorded row.", "quantifier": "all pairs of contexts", "why_tests_cant": "Tests merge only clones whose heights happen to be ordered.", "anchors": ["src/circuit/native_scalar_ecc_chip.rs:merge", "src/circuit/general_scalar_ecc_chip.rs:merge"]}
{"id": "C36", "title": "Synthesis assigns every recorded cell", "statement": "assign_all assigns every recorded advice and fixed cell and every copy constraint exactly as recorded, and never panics, for every context produced by the API.", "quantifier": "all contexts, in particular all base / range heights", "why_tests_cant": "The chunk arithmetic depends on heights; tests use a few large circuits.", "anchors": ["src/context.rs:_assign_to_base_chip", "src/context.rs:_assign_to_range_chip", "src/context.rs:_assign_to_select_chip", "src/context.rs:_assign_permutation", "src/context.rs:assign_all"]}
{"id": "C37", "title": "Point encoding is injective on limb representations and determined by the point", "statement": "ecc_encode maps different points to different triples of field elements, and the triple is determined by the point in every satisfying assignment.", "quantifier": "all points and satisfying assignments, each supported base field", "why_tests_cant": "A unit test only exercises the honest witness the library itself computes; it never ranges over the other advice assignments a malicious prover may choose.", "anchors": ["src/circuit/ecc_chip.rs:ecc_encode", "src/circuit/ecc_chip.rs:ecc_reduce"]}
{"id": "C38", "title": "Tower field arithmetic is correct", "statement": "In every satisfying advice assignment the Fq2, Fq6 and Fq12 operations (add, sub, neg, double, mul, square, conjugate, multiplication by the non-residue, inverse, sparse multiplications) return the result of the corresponding operation in the tower Fq[u]/(u^2+1), Fq2[v]/(v^3-xi), Fq6[w]/(w^2-v).", "quantifier": "all operands, all satisfying assignments", "why_tests_cant": "A unit test only exercises the honest witness the library itself computes; it never ranges over the other advice assignments a malicious prover may choose. Formulas are Karatsuba-style polynomial identities.", "anchors": ["src/circuit/fq12.rs:Fq2ChipOps", "src/circuit/fq12.rs:Fq6ChipOps", "src/circuit/fq12.rs:Fq12ChipOps"]}
{"id": "C39", "title": "Cyclotomic squaring equals squaring on the cyclotomic subgroup", "statement": "For every element of Fq12 in the cyclotomic subgroup, fq12_cyclotomic_square returns its square.", "quantifier": "all elements of the subgroup", "why_tests_cant": "The subgroup has about 2^1016 elements.", "anchors": ["src/circuit/fq12.rs:fq12_cyclotomic_square"]}
{"id": "C40", "title": "Frobenius constants and maps are correct", "statement": "The tabulated Frobenius coefficients equal the stated powers of the non-residue, and the chip's Frobenius maps compute x -> x^(q^k) on every element for every power they accept.", "quantifier": "all elements and all powers", "why_tests_cant": "Tests use the maps only inside a pairing with one or two powers.", "anchors": ["src/circuit/bn256_constants.rs:FROBENIUS_COEFF_FQ12_C1", "src/circuit/bn256_pairing_chip.rs:fq12_frobenius_map", "src/circuit/bls12_381_pairing_chip.rs:fq12_frobenius_map"]}
{"id": "C41", "title": "Line steps compute tangent and chord", "statement": "The doubling and addition steps of the Miller loop return the double / sum of the Jacobian points they are given and line coefficients proportional to the tangent / chord through them.", "quantifier": "all Jacobian points (outside the stated exceptional cases)", "why_tests_cant": "Infinite input space; a wrong factor can cancel in a product-of-pairings test.", "anchors": ["src/circuit/pairing_chip.rs:doubling_step", "src/circuit/pairing_chip.rs:addition_step"]}
{"id": "C42", "title": "The Miller loop consumes exactly the prepared coefficients", "statement": "prepare_g2 produces exactly as many line coefficients as the Miller loop consumes, so the loop never panics and leaves none unused; the signed-digit tables encode 6u+2 and the BLS parameter.", "quantifier": "all G2 points and numbers of pairs", "why_tests_cant": "The count depends on tables; a mismatch shows as a panic only if the path is exercised.", "anchors": ["src/circuit/bn256_pairing_chip.rs:prepare_g2", "src/circuit/bn256_pairing_chip.rs:multi_miller_loop", "src/circuit/bls12_381_pairing_chip.rs:prepare_g2", "src/circuit/bls12_381_pairing_chip.rs:multi_miller_loop", "src/circuit/bn256_constants.rs:SIX_U_PLUS_2_NAF"]}
{"id": "C43", "title": "Final exponentiation raises to a multiple of (q^12-1)/r coprime to r", "statement": "For every non-zero Fq12 element f, final_exponentiation returns f^e with e a fixed multiple of (q^12-1)/r that is not divisible by r * (q^12-1)/r.", "quantifier": "all non-zero elements of Fq12", "why_tests_cant": "Addition-chain errors are invisible when the result is compared with itself.", "anchors": ["src/circuit/bn256_pairing_chip.rs:final_exponentiation", "src/circuit/bls12_381_pairing_chip.rs:final_exponentiation", "src/circuit/bn256_pairing_chip.rs:exp_by_x"]}
{"id": "C44", "title": "Keccak permutation and padding follow the standard", "statement": "On 0/1 cells, in every satisfying advice assignment, the Keccak chip's permutation is Keccak-f[1600], and the digest of a list of 256-bit blocks is Keccak-256 of their big-endian concatenation.", "quantifier": "all states, all message lengths (multiples of 32 bytes)", "why_tests_cant": "State space 2^1600; tests compare one or two digests.", "anchors": ["src/circuit/keccak_chip.rs:keccak_f", "src/circuit/keccak_chip.rs:absorb", "src/circuit/keccak_chip.rs:hash", "src/circuit/keccak_chip.rs:RHO"]}
{"id": "C45", "title": "Keccak input words are determined by the field elements", "statement": "In every satisfying advice assignment, the digest returned by hash is a function of the field elements passed in.", "quantifier": "all inputs and satisfying assignments", "why_tests_cant": "A unit test only exercises the honest witness the library itself computes; it never ranges over the other advice assignments a malicious prover may choose.", "anchors": ["src/circuit/keccak_chip.rs:decompose_scalar_as_u256_be", "src/circuit/keccak_chip.rs:hash"]}
{"id": "C46", "title": "The empty multi-scalar multiplication is the identity", "statement": "msm on empty lists returns the identity.", "quantifier": "the empty input on every context", "why_tests_cant": "Not exercised by tests; behaviour depends on unsigned arithmetic on group counts.", "anchors": ["src/circuit/ecc_chip.rs:msm_unsafe", "src/circuit/ecc_chip.rs:msm_batch_on_group_non_zero_with_select_chip", "src/circuit/ecc_chip.rs:msm_batch_on_group_non_zero_without_select_chip"]}
{"id": "C47", "title": "Contexts cloned for prediction do not disturb the original", "statement": "Cloning a context gives an independent snapshot: writes through the clone are not visible in the original.", "quantifier": "all contexts and operations on the clone", "why_tests_cant": "Aliasing through the shared record is invisible when both copies write the same rows with the same data.", "anchors": ["src/context.rs:Context", "src/context.rs:Records", "src/context.rs:clone_without_permutation"]}
{"id": "C48", "title": "The pairing chip computes the optimal ate pairing", "statement": "For second arguments in the pairing group G2, in every satisfying advice assignment pairing returns the product of the optimal ate pairings of the given pairs (defined by Miller's algorithm with chords and tangents over Fq12 and the final exponent), and check_pairing can be satisfied exactly when no identity flag is set and that product is one.", "quantifier": "all lists of pairs, all satisfying assignments, both curves", "why_tests_cant": "The tests check one bilinearity relation on random honest points; a wrong line coefficient, digit or Frobenius constant that is consistent on both sides of the relation goes unnoticed, and no test ranges over dishonest assignments.", "anchors": ["src/circuit/pairing_chip.rs:pairing", "src/circuit/pairing_chip.rs:check_pairing", "src/circuit/bn256_pairing_chip.rs:multi_miller_loop", "src/circuit/bls12_381_pairing_chip.rs:multi_miller_loop"]}
{"id": "C49", "title": "An honest prover can prove every multi-scalar multiplication", "statement": "For honestly represented points (identity and repetitions included) and scalars in lists of the same nonzero length, when no incomplete addition is exceptional, msm does not panic, returns the honest representation of the sum of s_i * P_i, and the recorded witness satisfies all constraints, with and without the select chip. All but a number of random points that is linear in the length avoid the exceptions, whatever the inputs; so for bn256 a good choice always exists.", "quantifier": "all lists of points and scalars, all random points in general position, both scalar contexts, with and without select chip", "why_tests_cant": "A test runs a handful of lengths with random scalars and fresh randomness; lengths with an odd number of groups, all-zero scalars, repeated or opposite points and identities give different additions, and the probability of failure over the randomness cannot be sampled.", "anchors": ["src/circuit/ecc_chip.rs:msm", "src/circuit/ecc_chip.rs:msm_unsafe", "src/circuit/ecc_chip.rs:msm_batch_on_group_non_zero_with_select_chip", "src/circuit/ecc_chip.rs:msm_batch_on_group_non_zero_without_select_chip"]}
{"id": "C50", "title": "Set-up guarantees that honest multiplications are accepted", "statement": "Whenever RangeInfo::new accepts a modulus, int_mul of honestly represented integers is accepted: the product does not panic and the recorded witness satisfies all constraints.", "quantifier": "all moduli accepted by set-up, all honestly represented operands", "why_tests_cant": "Tests run with the moduli of two curves; whether the range check of the quotient is wide enough depends on the number of bits of the modulus.", "anchors": ["src/range_info.rs:RangeInfo::new", "src/circuit/range_chip.rs:assign_d_leading_limb", "src/circuit/integer_chip.rs:assign_d", "src/circuit/integer_chip.rs:int_mul"]}
{"id": "C51", "title": "Results of small-constant multiplication are usable operands", "statement": "The result of int_mul_small_constant by any accepted constant can be negated and subtracted without panic.", "quantifier": "all set-ups, all honest operands, all constants accepted by the run-time assertion, including 0", "why_tests_cant": "The constant 0 does not occur in the tests; the overflow counter becomes 0 and the table of multiples of the modulus has no entry for it.", "anchors": ["src/circuit/integer_chip.rs:int_mul_small_constant", "src/circuit/integer_chip.rs:int_neg", "src/circuit/integer_chip.rs:int_sub"]}
{"id": "C52", "title": "The quotient is determined by the operands", "statement": "In every satisfying assignment the residue of the quotient returned by int_div is determined by the residues of the operands.", "quantifier": "all satisfying assignments, all operands including a zero divisor", "why_tests_cant": "The honest prover always puts 0 for a quotient by zero; whether another value is accepted can only be seen on dishonest assignments.", "anchors": ["src/circuit/integer_chip.rs:int_div"]}
{"id": "C53", "title": "Handed-out values are the recorded values", "statement": "In every object a client holds, the value carried by each assigned cell is the value recorded in that cell; the recorded witness satisfies every copy constraint; recorded values never change.", "quantifier": "all sequences of API calls, all witnesses, all starting contexts; including operations on parallel clones and assertions that fail", "why_tests_cant": "A wrong carried value only shows when a later operation copies the cell; tests exercise some chains of operations on sampled values.", "anchors": ["src/assign.rs:AssignedValue", "src/context.rs:one_line", "src/context.rs:one_line_with_last", "src/context.rs:assign_range_value", "src/context.rs:assign_cache_value", "src/context.rs:assign_select_value", "src/circuit/ecc_chip.rs:msm_batch_on_group_non_zero_with_select_chip"]}
{"id": "C54", "title": "Any program of point operations is sound and accepted", "statement": "For every finite history of integer, condition and point calls (complete and incomplete additions and doublings, curvature, negation, reduction, selection, conversions between representations, coordinate and flag reads, assertions), every assignment satisfying the circuit makes each held object stand for the result of the same history in the field and in the curve's group, on points of the curve the prover chose; and every history whose honest run is defined is accepted with the honest results. Histories that use assign_point need the two cells of each assign_bit row to agree (C06); all others need nothing.", "quantifier": "all programs, all good curves y^2 = x^3 + b over accepted moduli, all satisfying assignments, all starting contexts", "why_tests_cant": "Tests fix a few short histories on sampled points; mismatched representations or overflow counters between operations show only in particular compositions, and adversarial witnesses are not tested at all.", "anchors": ["src/circuit/ecc_chip.rs:ecc_add", "src/circuit/ecc_chip.rs:ecc_double", "src/circuit/ecc_chip.rs:bisec_point_with_curvature", "src/circuit/ecc_chip.rs:ecc_add_unsafe", "src/circuit/ecc_chip.rs:ecc_assert_equal_non_zero", "src/circuit/ecc_chip.rs:ecc_bisec_to_non_zero_point", "src/circuit/integer_chip.rs"]}
{"id": "C55", "title": "Selecting from a group yields a point cached in that group", "statement": "In every satisfying assignment the point returned by assign_selected_point for group g stands for a point that was cached in group g, and the selector is its index.", "quantifier": "all circuits that cache any number of groups of any size and select, all satisfying assignments, all selector cells", "why_tests_cant": "An honest prover's selector is the index of a candidate; a selector outside the range only occurs in dishonest assignments.", "anchors": ["src/circuit/ecc_chip.rs:assign_cache_point", "src/circuit/ecc_chip.rs:assign_selected_point", "src/circuit/select_chip.rs:encode_offset", "src/circuit/select_chip.rs:configure"]}
{"id": "C56", "title": "Any program of tower and pairing operations is sound and accepted", "statement": "For every finite history of integer, condition, point, tower (Fq2, Fq6, Fq12) and pairing calls, every assignment satisfying the circuit makes each held object stand for the result of the same history in the field, the curve's group, the tower of fields and the pairing: no pairing input is the identity, a pairing is the product of the optimal ate pairings and a pairing check holds exactly if that product is one, whenever the second points lie in the second group; and every history whose honest run is defined is accepted with the honest results. Histories that use assign_point need the two cells of each assign_bit row to agree (C06); all others need nothing. The cyclotomic square is claimed inside the cyclotomic subgroup (C39), the Frobenius maps of bls12_381 for the first power (C40).", "quantifier": "all programs over both pairing curves, all satisfying assignments, all starting contexts, all accepted range parameters", "why_tests_cant": "Tests run a handful of fixed pairing circuits on honest witnesses; mismatches of representation or of overflow counters between chips show only in particular compositions, and dishonest witnesses are not tested at all.", "anchors": ["src/circuit/fq12.rs", "src/circuit/pairing_chip.rs:pairing", "src/circuit/pairing_chip.rs:check_pairing", "src/circuit/bn256_pairing_chip.rs:multi_miller_loop", "src/circuit/bls12_381_pairing_chip.rs:multi_miller_loop", "src/circuit/ecc_chip.rs", "src/circuit/integer_chip.rs"]}
{"id": "C57", "title": "Any program of native field operations is sound and accepted", "statement": "For every finite history of calls on native field cells and conditions (assignments, constants, sums, products, linear combinations and sums of products of any length, inverses and quotients, the zero test, boolean operations, selection, assertions and the in-circuit hash), every assignment satisfying the circuit makes each held cell carry the value the same history has in the field, with every assertion met (for histories that assign bits or hash, provided the bit rows are consistent, see C06); and every history whose honest run is defined is issued without a panic and accepted with the honest values.", "quantifier": "all programs, all satisfying assignments, all starting contexts, all prime native fields above 2^108 (soundness) and up to 2^256 (acceptance)", "why_tests_cant": "Tests issue a few fixed sequences with honest witnesses; nothing checks an arbitrary composition or a dishonest witness.", "anchors": ["src/assign.rs", "src/circuit/base_chip.rs", "src/circuit/keccak_chip.rs", "src/circuit/select_chip.rs"]}
{"id": "C58", "title": "Any program over all chips is sound and accepted (bn256)", "statement": "For bn256 over its scalar field and every finite history of calls of all chips mixed in any order (integers, conditions, points, tower, pairings, native values, hashes, point encodings and multi-scalar multiplications, with the select chip or without), every assignment satisfying the circuit makes each held object stand for the result of the same history in the fields, the curve's group, the tower and the pairing, a multi-scalar multiplication being the sum of the multiples; and every history whose honest run is defined is accepted with the honest results. On a new context nothing is assumed about the keys of cached points. Histories that record bits (assign_point, assign_bit, hashes, multi-scalar multiplications) need the two cells of each assign_bit row to agree (C06), and multi-scalar multiplications on the select chip with group number 0 need lookups to find cached values (C30).", "quantifier": "all programs, all satisfying assignments, all starting contexts, all first group numbers", "why_tests_cant": "Tests run a few fixed circuits, each on one kind of operation and with honest witnesses; the interplay of the chips on shared cells and rows, and dishonest witnesses, are not exercised.", "anchors": ["src/circuit/ecc_chip.rs:msm", "src/circuit/ecc_chip.rs:ecc_encode", "src/circuit/native_scalar_ecc_chip.rs", "src/circuit/select_chip.rs", "src/circuit/keccak_chip.rs", "src/circuit/pairing_chip.rs", "src/circuit/fq12.rs", "src/circuit/integer_chip.rs", "src/circuit/base_chip.rs", "src/context.rs"]}
{"id": "C59", "title": "Any program over all chips is sound and accepted (bls12_381, scalars in their own field)", "statement": "For bls12_381 over the scalar field of bn256 and every finite history of calls of all chips mixed in any order (integers of the base field, scalars as integers modulo the subgroup order, conditions shared between them, points, tower, pairings, native values, hashes, point encodings and multi-scalar multiplications with those scalars, with the select chip or without), every assignment satisfying the circuit makes each held object stand for the result of the same history in the fields, the curve's group, the tower and the pairing. A multi-scalar multiplication is the sum of k_i P_i for numbers k_i congruent to the scalars; for points of the subgroup this is the sum of the multiples, and nothing is assumed about the points. Every history whose honest run is defined is accepted with the honest results. On a new context nothing is assumed about the keys of cached points. Histories that record bits need the two cells of each assign_bit row to agree (C06), and multi-scalar multiplications on the select chip with group number 0 need lookups to find cached values (C30).", "quantifier": "all programs, all satisfying assignments, all starting contexts, all first group numbers, all points of the curve", "why_tests_cant": "Tests run a few fixed circuits with honest witnesses and points of the subgroup; points outside the subgroup, two integer chips on one set of cells, and dishonest witnesses are not exercised.", "anchors": ["src/circuit/ecc_chip.rs:msm", "src/circuit/ecc_chip.rs:ecc_encode", "src/circuit/general_scalar_ecc_chip.rs", "src/circuit/select_chip.rs", "src/circuit/keccak_chip.rs", "src/circuit/pairing_chip.rs", "src/circuit/fq12.rs", "src/circuit/integer_chip.rs", "src/circuit/base_chip.rs", "src/context.rs"]}
{"id": "C60", "title": "No row is left without its gate", "statement": "After any sequence of API calls on a new context, check_row_has_some passes: every row below the offset of its chip has a fixed value (and an advice value), so no claimed row lies outside every gate. From any context in which nothing at or above the offsets is written, the same holds for the rows added.", "quantifier": "all API histories, all witnesses, all chips and rows", "why_tests_cant": "The check is a debugging aid called on the circuits of some tests; a call that advances an offset without writing shows up only in the histories that use it.", "anchors": ["src/context.rs:check_row_has_some", "src/context.rs:one_line", "src/context.rs:assign_range_value", "src/circuit/base_chip.rs", "src/circuit/ecc_chip.rs:msm"]}
{"id": "C61", "title": "The sanity checks never fire", "statement": "With SANITY_CHECK switched on (no cell is overwritten by a different value; accumulation lines are 1, 2 or 3; tags are at most 18), every API history succeeds exactly when it does with it off, with the same results and records, including the clones used by parallel windows.", "quantifier": "all API histories, all witnesses, all native fields with more than 18 elements, all starting contexts in which nothing at or above the offsets is written", "why_tests_cant": "The constant is false in the source, so no test runs the assertions; even switched on they would only cover the executions tested.", "anchors": ["src/context.rs:SANITY_CHECK", "src/context.rs:assign_adv_cell_in_base_chip", "src/context.rs:assign_fix_cell_in_range_chip", "src/context.rs:assign_adv_cell_in_select_chip", "src/circuit/ecc_chip.rs:msm"]}
{"id": "C62", "title": "Running out of rows is never silent and never spurious", "statement": "With record arrays of k rows (HALO2ECC_S_MAX_ROWS), an API history on a new context succeeds exactly when it does with unlimited arrays and every chip uses at most k rows; the results and records are then the same, and otherwise it panics.", "quantifier": "all k, all API histories, all witnesses, SANITY_CHECK on or off", "why_tests_cant": "Tests run far below the default limit of 2^23 rows; what happens at the limit, in particular on clones of parallel windows, is not exercised.", "anchors": ["src/context.rs:Context::new", "src/context.rs:HALO2ECC_S_MAX_ROWS", "src/context.rs:enable_permute", "src/circuit/ecc_chip.rs:msm"]}
{"id": "C63", "title": "What is handed to the constraint system is what was recorded", "statement": "Whenever synthesis (with or without a select chip) goes through, the fixed cells and copy constraints that the constraint system receives are those recorded, so every assignment accepted for the synthesized circuit computes what the reference semantics of the program says; and for every program that the reference semantics can evaluate, synthesis goes through, hands over the recorded witness, and this satisfies the synthesized circuit.", "quantifier": "all API histories; all programs over all chips with their native scalars (bn256) or integer scalars (bls12_381), all inputs, all max_rows at least the rows used, all numbers of usable rows, all assignments of the advice columns", "why_tests_cant": "MockProver runs synthesis on a few programs; whether parallel assignment visits every row of every program, and whether no other assignment of the advice cells passes, is beyond any set of runs.", "anchors": ["src/context.rs:assign_all", "src/context.rs:assign_all_with_optional_select_chip", "src/context.rs:Records"]}
{"id": "C64", "title": "Circuits of some size are synthesized completely", "statement": "No public call except the bare assignment of one range checked value uses more than twelve rows of the range chip per row of the base chip it uses (integers of at most four limbs). Hence for every history with at least 208 rows of the base chip and at most a third as many bare assignments, synthesis does not panic and assigns exactly what is recorded; and every program over all chips whose reference run succeeds and that uses that many rows is accepted by the synthesized circuit.", "quantifier": "all API histories, all witnesses, all native fields; all programs for bn256 and bls12_381, all inputs, all max_rows at least the rows used", "why_tests_cant": "Synthesis distributes the rows of all chips over as many pieces as the base chip needs; whether some history has too many rows of the range chip is a statement about the row counts of all histories.", "anchors": ["src/context.rs:assign_all", "src/context.rs:_assign_to_range_chip", "src/circuit/integer_chip.rs:assign_w", "src/circuit/integer_chip.rs:reduce", "src/circuit/range_chip.rs:assign_common"]}
{"id": "C65", "title": "Heights are the numbers of rows used", "statement": "After every history the height of the base chip and of the select chip equal the numbers of rows that have been used in them, and the height of the range chip is at least the number of rows used and exceeds it by at most one, or is at most the number of rows of the select chip. Hence whether synthesis assigns what is recorded depends only on the numbers of rows used.", "quantifier": "all API histories including parallel windows of multi-scalar multiplications, all witnesses, all native fields, all max_rows at least the rows used", "why_tests_cant": "Heights are recomputed at every write and at every merge of clones in an order that depends on the scheduler; a height too small loses rows silently, and tests see only the histories they run.", "anchors": ["src/context.rs:one_line", "src/context.rs:ensure_range_record_size", "src/context.rs:assign_cache_value", "src/circuit/native_scalar_ecc_chip.rs:merge"]}
{"id": "C66", "title": "The configured constraint system is the circuit of the proofs", "statement": "The constraint system that the three configure functions build on top of any other one (columns, gate polynomials with their rotations, lookups into the range table filled by init_table and into the select columns) is satisfied by an assignment of all columns, on all rows of the domain including those that are not usable, if and only if the rest of the constraint system is satisfied and the advice cells satisfy the circuit in terms of which all other soundness and completeness theorems are stated. No two cells of the chips, the table and the other columns collide. Hence programs over all chips are sound for the constraint system halo2 gets.", "quantifier": "all constraint systems configured before, all synthesized layouts with and without select chip, all assignments of all columns, all numbers of rows with at least 2^19-1 usable ones", "why_tests_cant": "MockProver evaluates the polynomials on honest assignments; a missing root, a wrong shift, a wrong rotation or a row missing in the table shows only for assignments no honest prover produces.", "anchors": ["src/circuit/base_chip.rs:configure", "src/circuit/range_chip.rs:configure", "src/circuit/range_chip.rs:init_table", "src/circuit/select_chip.rs:configure", "src/context.rs:_assign_to_base_chip"]}
{"id": "C67", "title": "Copy constraints are only between columns for which equality is enabled", "statement": "Equality is enabled exactly for all advice columns of the base chip, the first of the range chip and both of the select chip, and every copy constraint that any history of calls records is between cells in these columns, so constrain_equal does not return an error in synthesis.", "quantifier": "all API histories including parallel windows, all witnesses, all native fields, all constraint systems configured before, with and without select chip", "why_tests_cant": "An operation that hands out a cell of another column is only noticed if a test passes that cell on to an operation that copies it.", "anchors": ["src/circuit/base_chip.rs:configure", "src/circuit/range_chip.rs:configure", "src/circuit/select_chip.rs:configure", "src/context.rs:_assign_permutation", "src/context.rs:assign_range_value"]}
{"id": "C68", "title": "Counters of integers stay small and never overflow", "statement": "With six overflow bits, whatever calls a client makes, no computation of a counter of an integer (times, a u64 that the chips add and multiply with the plain operators) leaves the range of u64, so builds with and without overflow checks record the same circuit; and every integer a client ever holds, alone or inside a point, a curvature, an element of the tower, a point of G2 or line coefficients, has a counter of at most 16. The bound is attained in every set-up.", "quantifier": "all moduli for which a range info exists, all API histories over all chips including parallel windows, all witnesses including dishonest ones, all initial states", "why_tests_cant": "Tests run short histories with honest witnesses in one build profile; a path on which a counter grows without being reduced shows only in long histories, and in release builds it would wrap silently.", "anchors": ["src/circuit/integer_chip.rs:int_add", "src/circuit/integer_chip.rs:int_sub", "src/circuit/integer_chip.rs:int_neg", "src/circuit/integer_chip.rs:int_mul_small_constant", "src/circuit/integer_chip.rs:conditionally_reduce", "src/assign.rs:AssignedInteger"]}
{"id": "C69", "title": "Conversions between fields and numbers", "statement": "field_to_bn returns the canonical representative and bn_to_field never panics and returns the residue class of any number, also of one that is not below the modulus, for every field that is written with as many bytes as its modulus needs; the two are inverse to each other. For a field that is written with more bytes every conversion panics. The constants of the pairing chip, given as bytes, become what the model uses.", "quantifier": "all moduli, all numbers of bytes, all field elements, all numbers", "why_tests_cant": "Tests convert a few random elements; numbers with leading zero bytes, zero, numbers above the modulus and other fields are not reached.", "anchors": ["src/utils.rs:field_to_bn", "src/utils.rs:bn_to_field"]}
{"id": "C70", "title": "Curve contexts that share a native context", "statement": "When two curve contexts, for one curve or for different ones, record into the same native context, no two values are cached under one key of the select chip, so a selection on one of them never returns what the other has cached.", "quantifier": "all pairs of curve parameters, all interleavings of all API calls on the two contexts, all witness values", "why_tests_cant": "The tests make one curve context per circuit; with two, the recorded witness satisfies the circuit, so a test that does use two passes as well: the fault is in what a dishonest prover may do instead.", "anchors": ["src/context.rs:GeneralScalarEccContext::new", "src/context.rs:NativeScalarEccContext::new_with_select_chip", "src/circuit/ecc_chip.rs:msm_batch_on_group_non_zero_with_select_chip"]}
{"id": "C71", "title": "Circuits without a select chip", "statement": "A history records rows of the select chip if and only if it contains a call that caches or selects a value or a point, or a multi-scalar multiplication on a context with a select chip. On a curve context made without a select chip the calls that need one panic, so only the select operations of the integer context itself can record such rows. Synthesis without a select chip goes through and assigns exactly what is recorded if and only if no such call was made (and the row counts are as in C65); in particular everything a curve context without a select chip does, multi-scalar multiplications included, can be synthesized without one.", "quantifier": "all API histories including parallel windows, with and without a select chip, all witnesses, all native fields, all max_rows at least the rows used", "why_tests_cant": "A select row that slips into a circuit configured without the select chip makes synthesis panic (or, without the assertion, would leave a value unconstrained); one test runs one multi-scalar multiplication without the chip, any other call or number of points is not exercised.", "anchors": ["src/context.rs:new_without_select_chip", "src/context.rs:assign_all_with_optional_select_chip", "src/circuit/native_scalar_ecc_chip.rs:select_chip", "src/circuit/ecc_chip.rs:msm_batch_on_group_non_zero_without_select_chip"]}
{"id": "C72", "title": "The points in a pairing check lie in the pairing groups", "statement": "If a pairing check is accepted, its first points, assigned with assign_point or assign_non_zero_point, are points of order r, and its second points are points of the twist that lie in the second pairing group.", "quantifier": "all lists of pairs of points, all satisfying assignments, both pairing curves", "why_tests_cant": "The tests only use multiples of the generators. That no point outside the groups is accepted is a statement about all points, and a point of small order, or a pair of coordinates off the twist, does not turn up among random ones.", "anchors": ["src/circuit/pairing_chip.rs:check_pairing", "src/circuit/pairing_chip.rs:g2affine_to_g2", "src/circuit/bn256_pairing_chip.rs:multi_miller_loop", "src/circuit/bls12_381_pairing_chip.rs:multi_miller_loop", "src/circuit/ecc_chip.rs:assign_non_zero_point"]}
{"id": "C73", "title": "Taking a context back", "statement": "After any history of makings, clones, moves, merges, conversions and drops, converting an integer context or a curve context to its Context goes through if no other live object refers to that Context, and panics otherwise. Merging two curve contexts panics exactly if they share their Context. No other operation on owners panics. A multi-scalar multiplication takes back all its clones, without a panic, and leaves no reference behind.", "quantifier": "all histories of operations on owners of contexts, any number of contexts and clones, both kinds of curve contexts, any number of windows", "why_tests_cant": "The tests use one context at a time and take it back at the end. Whether a clone outlives some history of calls, so that the conversion panics after all the work is done, depends on the history, and there are infinitely many.", "anchors": ["src/context.rs:IntegerContext", "src/context.rs:NativeScalarEccContext", "src/context.rs:GeneralScalarEccContext", "src/circuit/native_scalar_ecc_chip.rs:merge", "src/circuit/general_scalar_ecc_chip.rs:clone_with_offset", "src/circuit/ecc_chip.rs:msm_batch_on_group_non_zero_with_select_chip"]}
{"id": "C74", "title": "Windows in parallel do not race", "statement": "No location of the shared arrays (value of an advice cell, fixed cell, copy flag of an advice cell) is written by two of the windows that a multi-scalar multiplication runs in parallel threads without synchronization.", "quantifier": "all multi-scalar multiplications with or without a select chip, any points, scalars, number of windows and groups, any state of the context", "why_tests_cant": "The writes go through Arc::get_mut_unchecked, so neither the compiler nor the run-time library notices a race, and a race in which the threads write the same value leaves no trace in the result of a test. Which cells two windows write depends on the inputs and on the offsets.", "anchors": ["src/context.rs:enable_permute", "src/context.rs:assign_adv_cell_in_base_chip", "src/circuit/ecc_chip.rs:msm_batch_on_group_non_zero_without_select_chip", "src/circuit/ecc_chip.rs:msm_batch_on_group_non_zero_with_select_chip"]}
