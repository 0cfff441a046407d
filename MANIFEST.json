{
 "claims": [
  {
   "property": "C01",
   "status": "proved",
   "theorems": [
    "Verif.C01_sum_sound",
    "Verif.C01_sum_complete",
    "Verif.C01_add_sound",
    "Verif.C01_add_complete",
    "Verif.C01_sub_sound",
    "Verif.C01_sub_complete",
    "Verif.C01_add_constant_sound",
    "Verif.C01_add_constant_complete",
    "Verif.C01_sum_empty_panics"
   ],
   "note": ""
  },
  {
   "property": "C02",
   "status": "proved",
   "theorems": [
    "Verif.C02_mul_sound",
    "Verif.C02_mul_complete",
    "Verif.C02_mul_add_constant_sound",
    "Verif.C02_mul_add_constant_complete",
    "Verif.C02_mul_add_sound",
    "Verif.C02_mul_add_complete",
    "Verif.C02_invert_unsafe_sound",
    "Verif.C02_invert_unsafe_complete",
    "Verif.C02_div_unsafe_sound",
    "Verif.C02_div_unsafe_complete"
   ],
   "note": ""
  },
  {
   "property": "C03",
   "status": "proved",
   "theorems": [
    "Verif.C03_is_zero_sound",
    "Verif.C03_is_zero_complete",
    "Verif.C03_invert_sound",
    "Verif.C03_invert_complete"
   ],
   "note": ""
  },
  {
   "property": "C04",
   "status": "proved",
   "theorems": [
    "Verif.C04_and_sound",
    "Verif.C04_or_sound",
    "Verif.C04_not_sound",
    "Verif.C04_not_and_sound",
    "Verif.C04_xor_sound",
    "Verif.C04_xnor_sound",
    "Verif.C04_bisec_sound",
    "Verif.C04_complete"
   ],
   "note": ""
  },
  {
   "property": "C05",
   "status": "proved",
   "theorems": [
    "Verif.C05_assert_equal_sound",
    "Verif.C05_assert_constant_sound",
    "Verif.C05_assert_true_sound",
    "Verif.C05_assert_false_sound",
    "Verif.C05_assert_bit_sound",
    "Verif.C05_assign_constant_sound",
    "Verif.C05_assign_constant_complete",
    "Verif.C05_assert_equal_complete",
    "Verif.C05_assert_constant_complete",
    "Verif.C05_assert_bit_complete"
   ],
   "note": ""
  },
  {
   "property": "C06",
   "status": "partial",
   "theorems": [
    "Verif.C06_violated",
    "Verif.C06_partial",
    "Verif.C06_complete"
   ],
   "note": "The property is false of the code: C06_violated exhibits a satisfying advice assignment in which the returned cell is neither 0 nor 1 (assign_bit does not tie the two cells of its row). C06_partial proves the property for assignments in which the two cells of every bit row agree (the missing copy constraint)."
  },
  {
   "property": "C07",
   "status": "proved",
   "theorems": [
    "Verif.C07_sound",
    "Verif.C07_complete"
   ],
   "note": ""
  },
  {
   "property": "C08",
   "status": "proved",
   "theorems": [
    "Verif.C08_range_sound",
    "Verif.C08_supported",
    "Verif.C08_common_sound"
   ],
   "note": ""
  },
  {
   "property": "C09",
   "status": "proved",
   "theorems": [
    "Verif.C09_complete",
    "Verif.C09_range_complete"
   ],
   "note": ""
  },
  {
   "property": "C10",
   "status": "proved",
   "theorems": [
    "Verif.C10_setup",
    "Verif.C10_options",
    "Verif.C10_table"
   ],
   "note": ""
  },
  {
   "property": "C11",
   "status": "proved",
   "theorems": [
    "Verif.C11_assign_w_sound",
    "Verif.C11_assign_w_complete"
   ],
   "note": ""
  },
  {
   "property": "C12",
   "status": "proved",
   "theorems": [
    "Verif.C12_add_sound",
    "Verif.C12_add_complete",
    "Verif.C12_sub_sound",
    "Verif.C12_sub_complete",
    "Verif.C12_neg_sound",
    "Verif.C12_neg_complete",
    "Verif.C12_small_mul_sound",
    "Verif.C12_small_mul_complete"
   ],
   "note": "Multiplier at least 1, as stated; non-vacuity: demo_accepted, demo_sound."
  },
  {
   "property": "C13",
   "status": "proved",
   "theorems": [
    "Verif.C13_reduce_sound",
    "Verif.C13_reduce_complete",
    "Verif.C13_conditionally_reduce_sound"
   ],
   "note": ""
  },
  {
   "property": "C14",
   "status": "proved",
   "theorems": [
    "Verif.C14_mul_sound",
    "Verif.C14_mul_complete",
    "Verif.C14_square_sound",
    "Verif.C14_square_complete"
   ],
   "note": "Completeness needs d_bits % 108 != 0 (true for the three supported pairs, C10)."
  },
  {
   "property": "C15",
   "status": "proved",
   "theorems": [
    "Verif.C15_div_sound",
    "Verif.C15_div_complete",
    "Verif.C15_unsafe_invert_sound",
    "Verif.C15_unsafe_invert_complete"
   ],
   "note": ""
  },
  {
   "property": "C16",
   "status": "proved",
   "theorems": [
    "Verif.C16_is_int_zero_sound",
    "Verif.C16_is_int_zero_complete",
    "Verif.C16_is_int_equal_sound",
    "Verif.C16_is_int_equal_complete",
    "Verif.C16_assert_int_equal_sound",
    "Verif.C16_assert_int_equal_complete"
   ],
   "note": ""
  },
  {
   "property": "C17",
   "status": "proved",
   "theorems": [
    "Verif.C17_bisec_int_sound",
    "Verif.C17_bisec_int_complete",
    "Verif.C17_constant_sound",
    "Verif.C17_constant_complete",
    "Verif.C17_get_w"
   ],
   "note": ""
  },
  {
   "property": "C18",
   "status": "proved",
   "theorems": [
    "Verif.C18_counters"
   ],
   "note": ""
  },
  {
   "property": "C19",
   "status": "proved",
   "theorems": [
    "Verif.C19_program_complete"
   ],
   "note": "Stated for every pair of moduli accepted by set-up with d_bits % 108 != 0; the three supported pairs satisfy this."
  },
  {
   "property": "C20",
   "status": "proved",
   "theorems": [
    "Verif.C20_program_sound",
    "Verif.C20_end_to_end",
    "Verif.demo_sound"
   ],
   "note": ""
  },
  {
   "property": "C21",
   "status": "proved",
   "theorems": [
    "Verif.C21_add_sound",
    "Verif.C21_add_complete",
    "Verif.eccDemo_accepted"
   ],
   "note": ""
  },
  {
   "property": "C22",
   "status": "proved",
   "theorems": [
    "Verif.C22_double_sound",
    "Verif.C22_double_complete",
    "Verif.C22_neg_sound",
    "Verif.C22_neg_complete",
    "Verif.C22_bisec_sound",
    "Verif.C22_bisec_complete",
    "Verif.C22_reduce_sound",
    "Verif.C22_reduce_complete",
    "Verif.C22_assert_equal_sound",
    "Verif.C22_assert_equal_complete",
    "Verif.C22_curvature_sound",
    "Verif.C22_curvature_complete"
   ],
   "note": ""
  },
  {
   "property": "C23",
   "status": "proved",
   "theorems": [
    "Verif.C23_assign_point_sound",
    "Verif.C23_assign_point_of_bits",
    "Verif.C23_assign_non_zero_point_sound",
    "Verif.C23_assign_point_complete",
    "Verif.C23_assign_non_zero_point_complete",
    "Verif.C23_constant_sound",
    "Verif.C23_constant_complete",
    "Verif.C23_identity_sound"
   ],
   "note": "The stated disjunction holds unconditionally; that the identity flag is itself a bit needs the missing copy constraint of C06 (C23_assign_point_of_bits)."
  },
  {
   "property": "C24",
   "status": "proved",
   "theorems": [
    "Verif.C24_add_sound",
    "Verif.C24_add_complete",
    "Verif.C24_double_sound",
    "Verif.C24_double_complete"
   ],
   "note": ""
  },
  {
   "property": "C25",
   "status": "partial",
   "theorems": [
    "Verif.C25_violated_never_err",
    "Verif.C25_violated_double_never_err",
    "Verif.C25_violated",
    "Verif.C25_partial",
    "Verif.C25_violated_witness"
   ],
   "note": "The property is false of the code: the run-time assertion inside try_assert_false panics before an Err can be returned (C25_violated, C25_violated_never_err, concrete witness C25_violated_witness). C25_partial keeps what holds: degenerate operands cannot pass."
  },
  {
   "property": "C26",
   "status": "partial",
   "theorems": [
    "Verif.C26_partial",
    "Verif.C26_complete",
    "Verif.C26_violated"
   ],
   "note": "The digits are not tied to bits by the circuit (C06), so the property is false of the code as stated: C26_violated forges them for every scalar, bit length and window size. C26_partial proves the property for assignments in which the two cells of every bit row agree, C26_complete that the honest digits are accepted."
  },
  {
   "property": "C27",
   "status": "partial",
   "theorems": [
    "Verif.C27_partial",
    "Verif.C27_complete",
    "Verif.C27_violated"
   ],
   "note": "As C26, for scalars represented as limbs: C27_violated, C27_partial, C27_complete."
  },
  {
   "property": "C28",
   "status": "partial",
   "theorems": [
    "Verif.C28_native_partial",
    "Verif.C28_general_any_partial",
    "Verif.C28_general_partial",
    "Verif.C28_ecc_mul_partial",
    "Verif.C28_bn256_partial",
    "Verif.C28_calls_group_native_partial",
    "Verif.C28_calls_group_general_partial",
    "Verif.C28_violated"
   ],
   "note": "False of the code: C28_violated gives a point of bn256 such that for every odd scalar the circuit of ecc_mul accepts a wrong result (assign_bit misses a copy constraint, C06; the prover also chooses the random points). C28_native_partial and C28_general_partial prove it, for all inputs, for assignments in which the two cells of every bit row agree; C28_bn256_partial needs no hypothesis on the points because the order of the curve is proved (bn_order). C28_general_any_partial covers all points of any curve, whatever their order: the result is the sum of k_i P_i for naturals k_i congruent to the scalars modulo the scalar modulus. C28_calls_group_native_partial and C28_calls_group_general_partial prove it for direct calls of the operation on non-zero points, anywhere in a run."
  },
  {
   "property": "C29",
   "status": "partial",
   "theorems": [
    "Verif.C29_native_partial",
    "Verif.C29_general_any_partial",
    "Verif.C29_general_partial",
    "Verif.C29_bn256_partial",
    "Verif.C29_calls_native_partial",
    "Verif.C29_calls_general_partial",
    "Verif.C29_calls_group_native_partial",
    "Verif.C29_calls_group_general_partial",
    "Verif.C29_violated",
    "Verif.C29_case_group"
   ],
   "note": "False of the code: C29_violated, for all points P0, P1 of bn256 other than the identity with P1 not 2 P0 and scalars 2 and 0 modulo 4, every prefix. In addition the caches of the first call (key 0) can be bypassed (C30_violated), so under consistent bit rows C29 is proved for call numbers above 0, or when every selection is answered by a cache row. C29_calls_native_partial and C29_calls_general_partial prove it for whole runs: nothing about keys is assumed, the call only must not be the first multi-scalar multiplication of the run. C29_general_any_partial is the analogue of C28_general_any_partial. C29_calls_group_native_partial and C29_calls_group_general_partial are the same for direct calls of the operation on non-zero points; C29_case_group is a run that meets their hypotheses."
  },
  {
   "property": "C30",
   "status": "partial",
   "theorems": [
    "Verif.C30_violated",
    "Verif.C30_partial",
    "Verif.C30_cache_sound",
    "Verif.C30_point_with_curvature_partial",
    "Verif.C30_point_non_zero_partial",
    "Verif.C30_point_with_curvature_complete"
   ],
   "note": "False of the code: the select lookup accepts the all-zero pair (C30_violated). C30_partial proves it for keys other than 0, C30_cache_sound for the cache rows. C30_point_with_curvature_partial and C30_point_non_zero_partial lift it to points, C30_point_with_curvature_complete is the honest side."
  },
  {
   "property": "C31",
   "status": "proved",
   "theorems": [
    "Verif.C31_encode_injective",
    "Verif.C31_fields_large",
    "Verif.C31_bounds_needed",
    "Verif.C31_groups",
    "Verif.C31_prefix",
    "Verif.C31_keys_distinct",
    "Verif.C31_client_keys_collide"
   ],
   "note": "Injectivity with explicit bounds (and that they are needed), groups of a multi-scalar multiplication, advance of the prefix, and distinct keys for every sequence of API calls that does not choose keys itself. For two curve contexts on one native context see C70."
  },
  {
   "property": "C32",
   "status": "proved",
   "theorems": [
    "Verif.C32_circuit_independent_of_witness",
    "Verif.C32_one_circuit",
    "Verif.C32_same_proofs",
    "Verif.C32_sequencing"
   ],
   "note": "Sequences of calls of every modelled operation: gates, integers, curves, scalar and multi-scalar multiplication with and without the select chip, the tower, the pairing and Keccak (Spec/Api.lean, Spec/ApiTower.lean); Example.runs shows two runs with different witnesses."
  },
  {
   "property": "C33",
   "status": "proved",
   "theorems": [
    "Verif.C33_rows_written_once",
    "Verif.C33_rows_below_height",
    "Verif.C33_rows_below_height_new"
   ],
   "note": "For every sequence of API calls from a context without rows above the offsets (every context a client can get)."
  },
  {
   "property": "C34",
   "status": "partial",
   "theorems": [
    "Verif.C34_parallel_eq_sequential_partial",
    "Verif.C34_every_schedule",
    "Verif.C34_violated_range_height",
    "Verif.C34_msm_windows_partial"
   ],
   "note": "Results, arrays, copy constraints, offsets, base and select heights agree with sequential execution, under every interleaving of the writes. The range height can differ (C34_violated_range_height)."
  },
  {
   "property": "C35",
   "status": "partial",
   "theorems": [
    "Verif.C35_violated",
    "Verif.C35_merge_of_clone_partial",
    "Verif.C35_windows_partial"
   ],
   "note": "False for arbitrary contexts (C35_violated: merge compares with the wrong height). Proved for what the library merges: clones of the context."
  },
  {
   "property": "C36",
   "status": "partial",
   "theorems": [
    "Verif.C36_exact_partial",
    "Verif.C36_exact_guarded_partial",
    "Verif.C36_assign_all_partial",
    "Verif.C36_copies_ready",
    "Verif.C36_client_partial",
    "Verif.C36_without_select_partial",
    "Verif.C36_violated_empty",
    "Verif.C36_violated_rows_lost",
    "Verif.C36_violated_panic"
   ],
   "note": "False of the code: chunks of the range chip are computed from the base height (C36_violated_*). Proved under the condition that excludes this, for every sequence of API calls (C36_client_partial): copy constraints are between recorded cells (C36_copies_ready). Without a select chip (assign_all_with_optional_select_chip, src/context.rs:556-573) the same holds if and only if no select rows are recorded (C36_without_select_partial). The condition is necessary and sufficient for every sequence of API calls (C36_exact_partial), also with arrays of limited length (C36_exact_guarded_partial)."
  },
  {
   "property": "C37",
   "status": "partial",
   "theorems": [
    "Verif.C37_encode_sound_partial",
    "Verif.C37_encode_injective_partial",
    "Verif.C37_encode_complete",
    "Verif.C37_violated_not_canonical",
    "Verif.C37_violated_bn256",
    "Verif.C37_violated_collision"
   ],
   "note": "False of the code in both halves. C37_violated_not_canonical: reduced coordinates need not be canonical, so every point with a second representative below 2^w_ceil_bits has two accepted encodings (C37_violated_bn256: the generator of bn256). C37_violated_collision: two different points of BLS12-381 (4 limbs per coordinate, of which the encoding drops the top) with the same honest encoding. What holds: C37_encode_sound_partial (the triple is that of representatives of the coordinates), C37_encode_injective_partial (injective with 3 limbs, every satisfying assignment), C37_encode_complete (honest triple)."
  },
  {
   "property": "C38",
   "status": "proved",
   "theorems": [
    "Verif.C38_tower_is_field",
    "Verif.C38_fq2_add",
    "Verif.C38_fq2_sub",
    "Verif.C38_fq2_mul",
    "Verif.C38_fq2_neg",
    "Verif.C38_fq2_double",
    "Verif.C38_fq2_square",
    "Verif.C38_fq2_reduce",
    "Verif.C38_fq2_conjugate",
    "Verif.C38_fq2_mul_by_nonresidue",
    "Verif.C38_fq2_assign_zero",
    "Verif.C38_fq2_assign_one",
    "Verif.C38_fq2_assign_constant",
    "Verif.C38_fq2_unsafe_invert",
    "Verif.C38_fq2_assert_equal",
    "Verif.C38_fq6_add",
    "Verif.C38_fq6_sub",
    "Verif.C38_fq6_mul",
    "Verif.C38_fq6_neg",
    "Verif.C38_fq6_double",
    "Verif.C38_fq6_square",
    "Verif.C38_fq6_reduce",
    "Verif.C38_fq6_mul_by_nonresidue",
    "Verif.C38_fq6_assign_zero",
    "Verif.C38_fq6_assign_one",
    "Verif.C38_fq6_assign_constant",
    "Verif.C38_fq6_unsafe_invert",
    "Verif.C38_fq6_assert_equal",
    "Verif.C38_fq6_mul_by_1",
    "Verif.C38_fq6_mul_by_01",
    "Verif.C38_fq12_add",
    "Verif.C38_fq12_sub",
    "Verif.C38_fq12_mul",
    "Verif.C38_fq12_neg",
    "Verif.C38_fq12_double",
    "Verif.C38_fq12_square",
    "Verif.C38_fq12_reduce",
    "Verif.C38_fq12_conjugate",
    "Verif.C38_fq12_assign_zero",
    "Verif.C38_fq12_assign_one",
    "Verif.C38_fq12_assign_constant",
    "Verif.C38_fq12_unsafe_invert",
    "Verif.C38_fq12_assert_eq",
    "Verif.C38_fq12_assert_one",
    "Verif.C38_fq12_mul_by_014",
    "Verif.C38_fq12_mul_by_034"
   ],
   "note": "Each operation Computes/Realises the tower operation (Spec/Tower.lean): sound for every satisfying assignment and complete for the recorded witness. Completeness assumes operands with overflow counter at most 16, which every operation returns."
  },
  {
   "property": "C39",
   "status": "proved",
   "theorems": [
    "Verif.C39_cyclotomic_square_sound",
    "Verif.C39_cyclotomic_square_complete",
    "Verif.C39_cyclotomic_subgroup",
    "Verif.C39_restriction_needed"
   ],
   "note": "For both curves. C39_restriction_needed shows that the operation does not square outside the subgroup."
  },
  {
   "property": "C40",
   "status": "partial",
   "theorems": [
    "Verif.C40_bn256_tables",
    "Verif.C40_bn256_fq2_frobenius",
    "Verif.C40_bn256_fq6_frobenius",
    "Verif.C40_bn256_fq12_frobenius",
    "Verif.C40_bls12_381_constants",
    "Verif.C40_bls12_381_fq2_frobenius_partial",
    "Verif.C40_bls12_381_fq6_frobenius_partial",
    "Verif.C40_bls12_381_fq12_frobenius_partial",
    "Verif.C40_violated"
   ],
   "note": "Proved for bn256 and every power. False for bls12_381 as stated: the maps ignore the power argument (C40_violated); the theorems ending in _partial prove that they compute the q-power map whatever the power, which is right for power = 1, the only value the code uses."
  },
  {
   "property": "C41",
   "status": "proved",
   "theorems": [
    "Verif.C41_doubling_step",
    "Verif.C41_addition_step"
   ],
   "note": "Over Fq2 of both curves, sound for every satisfying assignment and complete for the recorded witness; exceptional cases (y = 0, equal abscissas) are the hypotheses of IsDouble / IsSum."
  },
  {
   "property": "C42",
   "status": "proved",
   "theorems": [
    "Verif.C42_prepare_g2_count",
    "Verif.C42_miller_loop_count",
    "Verif.C42_tables",
    "Verif.C48_pairing"
   ],
   "note": "Counts are proved for every run of the functions. That the loop does not panic on prepared coefficients is the completeness part of C48_pairing."
  },
  {
   "property": "C43",
   "status": "proved",
   "theorems": [
    "Verif.C43_bn256_final_exponentiation",
    "Verif.C43_bls12_381_final_exponentiation",
    "Verif.C43_exponent",
    "Verif.C43_roots_of_unity"
   ],
   "note": "bn256: exponent (q^12-1)/r; bls12_381: 3(q^12-1)/r. Soundness and completeness for all non-zero inputs; C43_roots_of_unity adds that the image consists of r-th roots of unity and is not trivial."
  },
  {
   "property": "C44",
   "status": "proved",
   "theorems": [
    "Verif.C44_permute_sound",
    "Verif.C44_permute_complete",
    "Verif.C44_blocks_sound",
    "Verif.C44_hash_sound",
    "Verif.C44_hash_complete",
    "Verif.C44_padding"
   ],
   "note": "Permutation against an independent FIPS-202 style specification (tables of the chip do not occur in it), padding/absorb/squeeze on blocks of 0/1 cells, whole hash sound (given 0/1 decomposition bits, see C06) and complete."
  },
  {
   "property": "C45",
   "status": "partial",
   "theorems": [
    "Verif.C45_partial",
    "Verif.C45_violated_representatives",
    "Verif.C45_violated"
   ],
   "note": "Violated: C45_violated (bn256 scalar field, input 0, two digests) and C45_violated_representatives (any representatives below 2^256 may be hashed). C45_partial: the digest is Keccak-256 of some representatives of the inputs, given 0/1 bits."
  },
  {
   "property": "C46",
   "status": "partial",
   "theorems": [
    "Verif.C46_violated",
    "Verif.C46_padded_partial"
   ],
   "note": "False of the code: msm on empty lists panics (C46_violated). C46_padded_partial: padded with terms whose point is the identity or whose scalar is 0, it returns the identity."
  },
  {
   "property": "C47",
   "status": "partial",
   "theorems": [
    "Verif.C47_violated",
    "Verif.C47_clone_partial"
   ],
   "note": "False of the code: clones share the record arrays (C47_violated). Proved: offsets, heights, copy constraints and rows below the offsets are unaffected."
  },
  {
   "property": "C48",
   "status": "proved",
   "theorems": [
    "Verif.C48_pairing",
    "Verif.C48_check_pairing",
    "Verif.C48_nonzero",
    "Verif.C48_pairing_on_curve",
    "Verif.C48_opposite_inputs",
    "Verif.C48_on_curve_case"
   ],
   "note": "Both curves, all lists. The spec (Spec/AtePairing.lean) is the optimal ate pairing over Fq12 with Mathlib group law; for bls12_381 its third power. Membership of the second points in G2 is a hypothesis: the circuit does not check it. C48_pairing_on_curve: for points of the curve the condition that the product is not zero holds by itself (C48_nonzero), so the circuit accepts all of them."
  },
  {
   "property": "C49",
   "status": "proved",
   "theorems": [
    "Verif.C49_native_complete",
    "Verif.C49_general_complete",
    "Verif.C49_random_points",
    "Verif.C49_bn256_random",
    "Verif.C49_bn256_accepted",
    "Verif.C49_group_bisec_complete",
    "Verif.C49_group_select_complete",
    "Verif.C49_group_bisec_general_complete",
    "Verif.C49_group_select_general_complete"
   ],
   "note": "Both scalar contexts, with and without the select chip. GeneralPosition (Spec/MsmPosition.lean) lists the exceptional additions without reference to the model. C49_random_points bounds the exceptions by counting; C49_bn256_random and C49_bn256_accepted apply it to whole circuits over bn256. The C49_group_* theorems are for direct calls of the operations on non-zero points."
  },
  {
   "property": "C50",
   "status": "partial",
   "theorems": [
    "Verif.C50_mul_operands",
    "Verif.C50_violated",
    "Verif.C50_partial",
    "Verif.C50_supported"
   ],
   "note": "Violated: for the 311-bit prime 1023*2^301+1 set-up succeeds with d_bits a multiple of 108, the leading limb of the quotient is then checked to be 0 bits wide, and the circuit of (-1)*(-1) has no satisfying assignment at all (C50_violated). C50_partial: all set-ups with d_bits % 108 /= 0; C50_supported: that includes the supported moduli."
  },
  {
   "property": "C51",
   "status": "partial",
   "theorems": [
    "Verif.C51_violated",
    "Verif.C51_partial"
   ],
   "note": "Violated for the constant 0: C51_violated (every set-up, every value, negation and subtraction). C51_partial: constants 1 to 15."
  },
  {
   "property": "C52",
   "status": "partial",
   "theorems": [
    "Verif.C52_violated",
    "Verif.C52_partial"
   ],
   "note": "Violated for a zero divisor: C52_violated (every set-up, dividend and wanted quotient). C52_partial: nonzero divisors, every satisfying assignment. Callers that use the flag (C15) are not affected; those that ignore it are."
  },
  {
   "property": "C53",
   "status": "proved",
   "theorems": [
    "Verif.C53_values_recorded",
    "Verif.C53_copies_satisfied",
    "Verif.C53_client"
   ],
   "note": "A Hoare-style logic (W in Proof/Cells) over every operation: values written are the values handed out, and copy constraints are recorded between cells with equal values; clones by the disjointness of their rows."
  },
  {
   "property": "C54",
   "status": "proved",
   "theorems": [
    "Verif.C54_program_sound",
    "Verif.C54_end_to_end",
    "Verif.C54_program_complete"
   ],
   "note": "Programs as data (Spec/EccProg); a reference semantics in the group of points; soundness and completeness by composing C12-C17 and C21-C24, every operation preserving the invariants the others need. Programs with assign_point carry the hypothesis of C06_partial."
  },
  {
   "property": "C55",
   "status": "partial",
   "theorems": [
    "Verif.C55_partial",
    "Verif.C55_single_group",
    "Verif.C55_violated"
   ],
   "note": "False of the code: the select chip does not bound the selector, and a selector outside the small numbers can stand for another group in the key (C55_violated). C55_partial: true for selectors below 2^125, which is what the multi-scalar multiplication passes when its digits are bits; C55_single_group: true for every selector if only one group is cached."
  },
  {
   "property": "C56",
   "status": "proved",
   "theorems": [
    "Verif.C56_program_sound",
    "Verif.C56_end_to_end",
    "Verif.C56_program_complete",
    "Verif.C56_case"
   ],
   "note": "Programs as data (Spec/TowerProg), over the points of C54, the tower and the pairing; the reference semantics speaks of the tower of fields and the optimal ate pairing only. Composition of C38-C44, C48 and C54. What the code computes outside of the cyclotomic subgroup (cyclotomic squaring), for powers other than 1 of the Frobenius map of bls12_381 (C40) and for second points outside of their group is left open by the reference semantics; programs with assign_point carry the hypothesis of C06_partial."
  },
  {
   "property": "C57",
   "status": "proved",
   "theorems": [
    "Verif.C57_program_sound",
    "Verif.C57_end_to_end",
    "Verif.C57_program_complete",
    "Verif.C57_case"
   ],
   "note": "Programs as data (Spec/NativeProg); the reference semantics speaks of the field and of the Keccak specification only. Composition of the theorems about the base chip, the boolean operations and the hash. invert/div by zero follow the code: the unsafe versions leave the result open when the divisor is zero. Programs with assign_bit or a hash carry the hypothesis of C06_partial."
  },
  {
   "property": "C58",
   "status": "proved",
   "theorems": [
    "Verif.C58_program_sound",
    "Verif.C58_end_to_end",
    "Verif.C58_program_complete",
    "Verif.C58_case"
   ],
   "note": "Programs as data (Spec/FullProg) over those of C56 and C57, with ecc_encode and msm (native scalars, 254 bits, generator (1,2)). Composition of C28, C29, C37, C49, C56 and C57; uniqueness of the keys is derived for the whole run (C58_end_to_end). The conditions in the statement are the constraints the code lacks (C06, C30)."
  },
  {
   "property": "C59",
   "status": "proved",
   "theorems": [
    "Verif.C59_program_sound",
    "Verif.C59_subgroup",
    "Verif.C59_end_to_end",
    "Verif.C59_program_complete",
    "Verif.C59_case"
   ],
   "note": "Programs as data (Spec/GeneralProg) over those of C56, C57 and C20 (for the scalar field), with ecc_encode and msm (scalars as integers of three limbs, all 324 bits processed). Composition of the same lemmas as C58, with the version of C28/C29 that needs no order of the points (C59_subgroup gives the usual sum in the subgroup). The conditions in the statement are the constraints the code lacks (C06, C30)."
  },
  {
   "property": "C60",
   "status": "proved",
   "theorems": [
    "Verif.C60_rows_filled",
    "Verif.C60_check_row_has_some",
    "Verif.C60_bare_line_fails"
   ],
   "note": "Model/Guarded has check_row_has_some; by induction over how operations are built from the primitive writers (Built2). The primitive one_line with no arguments would leave an empty row (C60_bare_line_fails); no operation calls it so."
  },
  {
   "property": "C61",
   "status": "proved",
   "theorems": [
    "Verif.C61_sanity_check_silent",
    "Verif.C61_sanity_check_catches"
   ],
   "note": "Model/Guarded has every writer with its assertions; Guarding relates an operation to the one whose writers check (it always exists). The assertions do catch overwriting in general (C61_sanity_check_catches)."
  },
  {
   "property": "C62",
   "status": "proved",
   "theorems": [
    "Verif.C62_max_rows",
    "Verif.C62_exact"
   ],
   "note": "Same model as C61, with indexing checked against the length of the arrays. The bound is exact (C62_exact)."
  },
  {
   "property": "C63",
   "status": "partial",
   "theorems": [
    "Verif.C63_violated_bn256",
    "Verif.C63_violated_bls12_381",
    "Verif.C63_violated_case",
    "Verif.C63_constraints_kept",
    "Verif.C63_sound_bn256",
    "Verif.C63_sound_bls12_381",
    "Verif.C63_complete_bn256_partial",
    "Verif.C63_complete_bls12_381_partial",
    "Verif.C63_accepted_bn256_partial",
    "Verif.C63_accepted_bls12_381_partial"
   ],
   "note": "Soundness at the level of the synthesized circuit is full. Completeness is false for small circuits: assigning 3 to 96 integers (bn256; 3 to 128 for bls12_381) makes synthesis panic (C63_violated_bn256, C63_violated_bls12_381). Proved when the range chip has at most 16*ceil(base/16)^2 rows (Balanced), which holds from 208 rows of the base chip on (C64)."
  },
  {
   "property": "C64",
   "status": "proved",
   "theorems": [
    "Verif.C64_rows",
    "Verif.C64_client",
    "Verif.C64_complete_bn256",
    "Verif.C64_complete_bls12_381",
    "Verif.C64_case"
   ],
   "note": "Bounds the extent of the findings of C36 and C63: they need fewer than 208 rows of the base chip, or mostly bare range assignments."
  },
  {
   "property": "C65",
   "status": "proved",
   "theorems": [
    "Verif.C65_heights",
    "Verif.C65_exact",
    "Verif.C65_case"
   ],
   "note": "The slack of the range height is that of ensure_range_record_size (one row too many) and of merge (select height instead of range height)."
  },
  {
   "property": "C66",
   "status": "proved",
   "theorems": [
    "Verif.C66_configure",
    "Verif.C66_table",
    "Verif.C66_columns",
    "Verif.C66_realised",
    "Verif.C66_sound_bn256",
    "Verif.C66_sound_bls12_381",
    "Verif.C66_case"
   ],
   "note": "halo2's reading of a constraint system is Spec/Plonk; gates are required on all rows, lookups on usable rows. Two rows that are not usable are needed (halo2 always has at least six). Completeness at this level is in C63_accepted_*."
  },
  {
   "property": "C67",
   "status": "proved",
   "theorems": [
    "Verif.C67_copyable",
    "Verif.C67_copies_accepted",
    "Verif.C67_proper"
   ],
   "note": "C67_copyable is an equivalence; the invariant on handed-out cells is that of C36 and C62."
  },
  {
   "property": "C68",
   "status": "proved",
   "theorems": [
    "Verif.C68_no_overflow",
    "Verif.C68_counters",
    "Verif.C68_attained",
    "Verif.C68_supported",
    "Verif.C68_check_fails"
   ],
   "note": "The model panics on overflow like a build with debug assertions; C68_check_fails shows that the check would fail for made-up counters. Shifts of window sizes and row offsets (usize) are not covered."
  },
  {
   "property": "C69",
   "status": "proved",
   "theorems": [
    "Verif.C69_field_to_bn",
    "Verif.C69_bn_to_field",
    "Verif.C69_inverse",
    "Verif.C69_bytes_needed",
    "Verif.C69_constants",
    "Verif.C69_supported"
   ],
   "note": "The interface of halo2 fields (BaseExt::read/write) is part of the model, see Model/Utils."
  },
  {
   "property": "C70",
   "status": "partial",
   "theorems": [
    "Verif.C70_violated",
    "Verif.C70_case",
    "Verif.C70_partial",
    "Verif.C70_ambiguous"
   ],
   "note": "The code violates it: new contexts all start at prefix 0. C70_violated: every run in which both contexts compute a multi-scalar multiplication has a collision; C70_case: such runs exist; C70_ambiguous: the circuit then accepts either value. C70_partial: with prefixes that start far enough apart all keys are distinct."
  },
  {
   "property": "C71",
   "status": "proved",
   "theorems": [
    "Verif.C71_select_rows",
    "Verif.C71_unavailable",
    "Verif.C71_exact",
    "Verif.C71_client",
    "Verif.C71_complete_bn256",
    "Verif.C71_case",
    "Verif.C71_case_cached"
   ],
   "note": "The row conditions are those of C36/C65 (findings on synthesis of small circuits)."
  },
  {
   "property": "C72",
   "status": "partial",
   "theorems": [
    "Verif.C72_violated",
    "Verif.C72_violated_second",
    "Verif.C72_nonzero_partial",
    "Verif.C72_bn256_partial"
   ],
   "note": "The code violates it. C72_violated: for bls12_381 a point of order 3 is accepted in a check with any single point of the second group. C72_violated_second: for both curves the pair (1, 1), which is not on the twist, is accepted as second point in the check of (P, g), (-P, g) for every P. C72_nonzero_partial: the first points are not the identity; C72_bn256_partial: for bn256 they have order r."
  },
  {
   "property": "C73",
   "status": "proved",
   "theorems": [
    "Verif.C73_take",
    "Verif.C73_merge",
    "Verif.C73_only",
    "Verif.C73_msm"
   ],
   "note": "Model of owners only: which operations the Rust types allow is part of the model (moves make the source unusable)."
  },
  {
   "property": "C74",
   "status": "partial",
   "theorems": [
    "Verif.C74_partial",
    "Verif.C74_violated",
    "Verif.C74_violated_bisec",
    "Verif.C74_violated_select",
    "Verif.C74_violated_bisec_general",
    "Verif.C74_violated_select_general",
    "Verif.C74_case",
    "Verif.C74_case_general"
   ],
   "note": "Violated: in every successful multiplication (native scalars of three bits or more, or scalars in another field), the parallel windows all set the copy flag of a cell of their common starting point, without synchronization (C74_violated and its variants). C74_partial: flags are the only locations written twice, always to true, and every interleaving of the writes gives the same arrays. The model takes single writes to be atomic."
  }
 ]
}