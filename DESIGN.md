# Design of the formal model of halo2ecc-s

## 1. What is being verified

halo2ecc-s records a PLONK-style circuit (fixed columns, copy constraints) together with the honest advice
values. The properties its users rely on are about **all** advice assignments that satisfy the recorded circuit
(soundness), about **all** honest inputs (completeness: no panic, and the recorded witness satisfies the circuit)
and about **all** histories of API calls. None of the three can be established by running the code.

`properties.jsonl` lists the properties, `MANIFEST.json` the theorems that establish them, `lean/` contains the
model, the specifications and the proofs, `seeded/LOG.jsonl` the mutation tests.

## 2. Trusted base

* The Lean 4.33.0 kernel and Mathlib. Axioms: at most `propext`, `Classical.choice`, `Quot.sound`; section 6 lists
  them per theorem. No axioms of our own, no `sorry`, no `native_decide`, no `bv_decide`.
* The reading of the Rust text into `Verif/Model/*.lean`. Every definition cites file and lines and says where it
  simplifies. Section 3 lists what is and what is not modelled.
* The meaning of a halo2 constraint system, `Verif/Spec/Plonk.lean`: polynomials of gates vanish on all rows, lookups hold
  on usable rows, unassigned fixed cells are 0, copy constraints identify cells, advice is chosen freely by the prover.
  The circuit that the proofs use, `Verif/Spec/Circuit.lean` (gates and lookups written out), is not trusted: C66 says that
  it is equivalent to the constraint system that the three `configure` functions build. halo2 itself (commitments, permutation and lookup arguments, blinding) is not
  modelled; a rotation out of the usable rows reads an arbitrary value.
* `BigUint` and `usize`/`u64` are `Nat` (an unsigned subtraction that would underflow is a panic; overflow of `u64` is a
  panic where counters of integers are computed, see C68, and not modelled for row offsets, sizes of windows and prefixes
  of window keys); field elements are `ZMod p`; constant curve points are pairs of coordinates.
* The specifications `Verif/Spec/*.lean`, which are meant to be read by the reviewer. They do not use proof
  machinery. Group law: Mathlib's `WeierstrassCurve.Affine.Point`.

## 3. Model

All operations are functions in `M n = StateT (Context n) (Except Panic)`; Rust panics (`assert!`, `unwrap`,
`unreachable!`, unsigned underflow, index out of bounds) are `Except.error`. A *circuit* is the fixed part of a context plus
a number of usable rows; `Circuit.Sat c w` says that the advice assignment `w` satisfies every gate, lookup and
copy constraint. A theorem about an operation has the shape: *for every circuit `c` that contains the constraints
the operation recorded (more may follow) and every `w` with `Sat c w`, the results read through `w` are related to
the operands read through `w`* (soundness), and *on honest operands the operation does not panic, returns
well-formed results, and the recorded witness satisfies the new constraints* (completeness).

| source | model | remarks |
|--------|-------|---------|
| `assign.rs` | `Model/Core`, `EccChip`, `Fq12`, `Pairing` | types and constructors |
| `utils.rs` | `Model/Utils` | elsewhere `bn_to_field`/`field_to_bn` are casts and canonical representatives, which is what C69 shows them to be |
| `range_info.rs` | `Model/RangeInfo` | complete, including every assertion of the set-up |
| `context.rs:136-307` | `Model/Core`, `Parallel` | contexts, clones; `Rc`/`RefCell`/`Arc`/`Mutex` are replaced by state |
| `context.rs:161-241`, `merge` and `clone_with_offset` of both curve chips | `Model/Ownership` | strong counts of `Rc`, conversions to `Context`, the mutable borrows of `merge`; contents left out |
| `context.rs:309-588` | `Model/Synthesis` | what is assigned to which cell and which copies; the region/layouter API is a record of assignments |
| `context.rs:81-125` | `Model/Guarded` | `check_row_has_some` |
| `context.rs:590-998` | `Model/Core`, `Model/Guarded` | `one_line`, `one_line_with_last`, the range and select row writers |
| `base_chip.rs` | `configure` in `Model/Configure`, ops in `Model/BaseChip` | complete |
| `range_chip.rs` | `configure`, `init_table` in `Model/Configure`, ops in `Model/RangeChip` | complete |
| `select_chip.rs` | `configure` in `Model/Configure`, ops in `Model/SelectChip` | complete |
| `integer_chip.rs` | `Model/IntegerChip` | complete |
| `ecc_chip.rs` | `Model/EccChip`, `Msm`, `Parallel` | complete; the random points of the MSM are arguments, i.e. quantified over |
| `native_scalar_ecc_chip.rs`, `general_scalar_ecc_chip.rs` | `Model/Scalar`, `Parallel`, `Msm` | complete |
| `fq12.rs`, `pairing_chip.rs`, `bn256_pairing_chip.rs`, `bls12_381_pairing_chip.rs` | `Model/Fq12`, `Pairing` | complete |
| `bn256_constants.rs` | `Model/Bn256Constants` | generated from the text by a script |
| `keccak_chip.rs` | `Model/Keccak` | complete; the round constants are transcribed |

Two things the operations of the model leave out are added back in `Model/Guarded`: the `SANITY_CHECK` assertions (off in
the source) and the length `MAX_ROWS` of the record arrays (rows are unbounded elsewhere, except in `Model/Synthesis`,
where it is a parameter). C61 and C62 say that leaving them out is harmless.

Not modelled: `Display`/`dump_*` (debug output), halo2's errors when a circuit does not fit, timing, the
random number generator, the memory model behind `Arc::get_mut_unchecked` (single writes are taken to be atomic; that
all interleavings of the writes give the same arrays is C34, which locations are written by two threads is C74), `src/tests`. `Model/Ownership` (C73) models only the
owners of contexts, not their contents; the rest of the model threads contexts through as state.

Runs of clients (`Spec/Api`, quantified over in the properties about whole runs) are lists of calls of the public methods,
among them the two operations on groups of points that `msm` is made of. Left out of the list, though modelled, are
`pick_candidate_non_zero`, whose choice of cells depends on the witness, so that C32 fails of it by design, and the raw row
writers `one_line`, `one_line_add` and `one_line_with_last`, with which a client records gates of their own.

Proof machinery (not part of any statement): `Proof/Logic` (judgements `S` and `C` for soundness and completeness),
`Proof/Calc` (one calculus for both, parametrised by a mode), `Proof/Rel*` (binary relational logic for C32),
`Proof/Log`, `Raised`, `Prog` (write logs for C33-C36, C47), `Proof/Cells*` (a logic for handed-out cells having the values carried by the handed-out objects: C36, C53), `Proof/Keys` (C31), `Proof/Forge` (construction of satisfying
advice that differs from the honest one, used for the violations).

## 4. Properties: model and proof route

"violated" means: the code as written does not have the property; the theorem `Cxx_violated*` proves the negation with a
concrete witness, and the theorems with suffix `_partial` prove what does hold. See section 5.

| id | modelled code | how it is proved |
|----|---------------|------------------|
| C01-C05, C07 | base chip rows | the gate equation of the written row; induction over the list of terms |
| C06 | `assign_bit` | **violated**; `_partial` under the missing copy constraint |
| C08, C09 | range rows, lookup table | gates and lookups bound the weighted sum; no wrap because `n > 2^108` |
| C10 | `RangeInfo::new` | kernel evaluation for the three supported pairs, used by every later instance |
| C11-C17 | integer chip | CRT argument from the checks of the set-up (`Proof/IntMul`: limbs modulo `2^t`, native modulo `n`) |
| C18-C20 | programs over the integer API | induction over programs (`Spec/IntProg`), no bound on length |
| C21-C24 | ECC chip | the integer theorems and Mathlib's group law |
| C25 | `try_assert_false`, `ecc_add_unsafe` | **violated**; `_partial` |
| C26, C27 | scalar decomposition | **violated** through C06; `_partial` under the missing copy |
| C28, C29 | MSM without/with select chip | windows algorithm verified in the group, group order of bn256 proved (`Proof/CurveOrder`); partial through C06 and C30; forged results in `Props/MsmForge`; also for the operations on groups of points called directly (`Props/MsmCalls`) |
| C30 | select chip | **violated** for key 0; `_partial` for all other keys |
| C31 | cache keys | injectivity of the encoding with its bounds; write-once of key rows over all API histories |
| C32 | whole API, with tower, pairing and Keccak | relational logic: two runs of a call sequence on any two witnesses record the same circuit |
| C33 | whole API | write logs |
| C34, C35, C47 | clones, windows, merge | write logs and all interleavings; three **violations** |
| C36 | synthesis | coverage arithmetic; **violated** when range and base heights differ; exact condition in `C36_exact_partial` |
| C37 | `ecc_encode` | **violated** twice; `_partial` |
| C38 | tower | ring identities in `Fq2`, `Fq6`, `Fq12` built as explicit quadratic/cubic extensions and proved to be fields |
| C39 | cyclotomic squaring | Granger-Scott identity on the subgroup; restriction shown necessary |
| C40 | Frobenius | `x^(q^k)` via Frobenius constants, kernel exponentiation; bls12_381 **violated** for powers other than 1 |
| C41, C42, C48 | line steps, Miller loops, pairing | the optimal ate pairing is specified with Mathlib's group law (`Spec/AtePairing`) |
| C43 | final exponentiation | exponent arithmetic in `Fq12`'s unit group |
| C44, C45 | Keccak chip | refinement to a bit-level FIPS 202 specification; C45 **violated** |
| C46 | empty MSM | **violated** (panic) |
| C49 | MSM, honest runs | completeness logic through tables, parallel windows and accumulator; exceptional additions listed in the spec and counted in the group |
| C50, C51, C52 | integer chip at its limits | bounds on satisfying assignments, honest runs, forged quotient; three **violations** |
| C53 | all operations, clones | logic of recorded values over every operation |
| C54 | all point operations but the scalar multiplications, with the integer chip | composition over programs as data |
| C55 | select chip, cached and selected points with curvature | **violated** with two groups; `_partial` for selectors below 2^125, unconditional for one group (`Props/Table`) |
| C56 | all integer, point, tower and pairing operations but the scalar multiplications | composition over programs as data; typed by the levels of the tower (`Spec/TowerProg`) |
| C57 | all operations on native cells and conditions, the hash included | composition over programs as data (`Spec/NativeProg`) |
| C58 | all chips together, for bn256 over its scalar field | composition over programs as data (`Spec/FullProg`); keys of cached points shown distinct for the whole run |
| C59 | all chips together, for bls12_381 over the scalar field of bn256, scalars as integers of a second modulus | as C58 (`Spec/GeneralProg`); no hypothesis on the order of points |
| C60 | `check_row_has_some` after any API history | induction over the construction of operations from primitive writers (`Proof/Guarded`), each of which writes a fixed cell of every row it claims |
| C61 | every writer with its `SANITY_CHECK` assertions (`Model/Guarded`) | `Guarding g m m'`: `m'` is `m` with guarded writers; each primitive performs a log of writes to fresh rows (as in C33), guarded writers accept such logs; windows by induction over the clones |
| C62 | every writer with array bounds (`Model/Guarded`) | same induction with the bound: a guarded run succeeds iff the run does and rows and copied cells fit; copied cells are written cells (C36), hence below the offsets (C33) |
| C63 | `Layout.circuit`, `Layout.witness` (what synthesis has assigned, unassigned cells 0) against `Context.circuit` and `Context.honest` (what has been recorded) | synthesis is compared cell by cell with the records (C36); fixed cells are all visited, so nothing that constrains is lost even when values of the witness are; composed with C58 and C59. Completeness partial: the code does not visit all rows of the range chip when there are few rows of the base chip; every program that only assigns between 3 and 96 integers fails (`C63_violated_bn256`), by exact row counts |
| C64 | row offsets of every modelled operation, including the offsets that parallel windows predict | a counting logic over all operations (`Proof/Balance`, `Proof/BalanceMsm`): rows of the range chip are paid for by rows of the base chip; with C36, C58, C59 and C63 |
| C65 | heights and offsets of every modelled operation and of clones | the upper bounds are an invariant of all primitive writers and of merging (`Proof/Low`), the lower bounds are those of C33 (`Proof/Raised`) |
| C66 | the `configure` functions with their loops over a model of halo2's `ConstraintSystem` and `Expression`, `init_table`, the mapping of recorded columns to configured ones | the configured system is computed for any system configured before; expressions are evaluated; on rows that are not usable the fixed columns are 0, which switches all gates off; the table is compared with the set of its rows; composed with C63 |
| C67 | `enable_equality`, `constrain_equal`, the cells that operations hand out | the cell logic of C36 with the set of copyable columns as part of the invariant; a copyable cell is shown to be exactly one for which `constrain_equal` goes through |
| C68 | `times` in `int_add`, `int_sub`, `int_neg`, `int_mul_small_constant`, `conditionally_reduce`, and all operations through which integers pass | a logic on programs whose judgement says that no run ends in an overflow panic and that all counters in the result are at most 16 (`Proof/Counter*`), carried through all chips, the work on clones included, up to histories of calls; `Spec/Counters` lists the integers of a client without reference to it |
| C69 | `utils.rs` on the level of bytes, with `BaseExt::read`/`write` of halo2 as interface | digits in base 256; shows that the casts used everywhere else in the model are what the code computes |
| C70 | two stores with one native context (`Spec/TwoCurves`), each call on one of them | negation: the first MSM of a context certainly caches a value under group `prefix`, selector 0, limb 0 (`Proof/Marks`), in a row that no later call overwrites; partial: keys used by one context are disjoint from the next MSM of the other |
| C71 | availability of the select chip in a curve context (`rassert σ.msm_prefix.isSome` in `runCall`), `assign_all_without_select` | no operation but the writers of the select chip moves its offset, also not in the windows (`Proof/NoSelect`, `NoSelectMsm`, `NoSelectApi`); the writers and an MSM with the chip certainly move it (`Marks`, `Adv`); with C65 the height is the offset |
| C72 | nothing new: programs of the tower interface (`Spec/TowerProg`) with `check_pairing` | at abscissa 0 all lines of bls12_381 lie in the field of `q^4` elements, which the final exponentiation maps to 1 (`Proof/Quartic`); lines at `P` and `-P` are conjugate up to sign, so their product lies in `Fq6`, and the lines of `(1, 1)` are proper by a kernel computation (`Proof/OffTwist`) |
| C73 | client programs on contexts, integer contexts and curve contexts: making, cloning, moving, merging, dropping, converting; strong counts as in `Rc` | invariant: the count of a context is the number of references of live objects to it, `Props/Ownership`; the specification mentions no counts |
| C74 | the writes of each window, as the logs of C34; the location of a write is an advice value, a fixed value or a copy flag | violated: each window sets the copy flag of the first limb of the accumulator they share, `Props/Race`; partial: nothing but flags is written by two windows, and the order does not matter. `C74_case` exhibits successful multiplications for bn256 |

Status and theorems per property (all names in namespace `Verif`):

| id | title | status | theorems | remarks |
|----|-------|--------|----------|---------|
| C01 | Linear combinations are enforced | proved | `C01_sum_sound`, `C01_sum_complete`, `C01_add_sound`, `C01_add_complete`, `C01_sub_sound`, `C01_sub_complete`, `C01_add_constant_sound`, `C01_add_constant_complete`, `C01_sum_empty_panics` |  |
| C02 | Products are enforced | proved | `C02_mul_sound`, `C02_mul_complete`, `C02_mul_add_constant_sound`, `C02_mul_add_constant_complete`, `C02_mul_add_sound`, `C02_mul_add_complete`, `C02_invert_unsafe_sound`, `C02_invert_unsafe_complete`, `C02_div_unsafe_sound`, `C02_div_unsafe_complete` |  |
| C03 | Zero test and inversion are enforced | proved | `C03_is_zero_sound`, `C03_is_zero_complete`, `C03_invert_sound`, `C03_invert_complete` |  |
| C04 | Boolean gates follow their truth tables | proved | `C04_and_sound`, `C04_or_sound`, `C04_not_sound`, `C04_not_and_sound`, `C04_xor_sound`, `C04_xnor_sound`, `C04_bisec_sound`, `C04_complete` |  |
| C05 | Assertions are enforced | proved | `C05_assert_equal_sound`, `C05_assert_constant_sound`, `C05_assert_true_sound`, `C05_assert_false_sound`, `C05_assert_bit_sound`, `C05_assign_constant_sound`, `C05_assign_constant_complete`, `C05_assert_equal_complete`, `C05_assert_constant_complete`, `C05_assert_bit_complete` |  |
| C06 | A condition assigned with assign_bit is 0 or 1 | partial | `C06_violated`, `C06_partial`, `C06_complete` | The property is false of the code: C06_violated exhibits a satisfying advice assignment in which the returned cell is neither 0 nor 1 (assign_bit does not tie the two cells of its row). C06_partial proves the property for assignments in which the two cells of every bit row agree (the missing copy constraint). |
| C07 | Sums of products over consecutive rows are enforced | proved | `C07_sound`, `C07_complete` |  |
| C08 | Range-checked values are below their bound | proved | `C08_range_sound`, `C08_supported`, `C08_common_sound` |  |
| C09 | Range assignment accepts every in-range value | proved | `C09_complete`, `C09_range_complete` |  |
| C10 | Parameter set-up succeeds for the supported fields | proved | `C10_setup`, `C10_options`, `C10_table` |  |
| C11 | Assigned integers are well formed | proved | `C11_assign_w_sound`, `C11_assign_w_complete` |  |
| C12 | Lazy additive operations are correct modulo w | proved | `C12_add_sound`, `C12_add_complete`, `C12_sub_sound`, `C12_sub_complete`, `C12_neg_sound`, `C12_neg_complete`, `C12_small_mul_sound`, `C12_small_mul_complete` | Multiplier at least 1, as stated; non-vacuity: demo_accepted, demo_sound. |
| C13 | Reduction preserves the residue | proved | `C13_reduce_sound`, `C13_reduce_complete`, `C13_conditionally_reduce_sound` |  |
| C14 | Multiplication modulo w is enforced | proved | `C14_mul_sound`, `C14_mul_complete`, `C14_square_sound`, `C14_square_complete` | Completeness needs d_bits % 108 != 0 (true for the three supported pairs, C10). |
| C15 | Division modulo w is enforced | proved | `C15_div_sound`, `C15_div_complete`, `C15_unsafe_invert_sound`, `C15_unsafe_invert_complete` |  |
| C16 | Integer zero and equality tests are enforced | proved | `C16_is_int_zero_sound`, `C16_is_int_zero_complete`, `C16_is_int_equal_sound`, `C16_is_int_equal_complete`, `C16_assert_int_equal_sound`, `C16_assert_int_equal_complete` |  |
| C17 | Integer selection is enforced | proved | `C17_bisec_int_sound`, `C17_bisec_int_complete`, `C17_constant_sound`, `C17_constant_complete`, `C17_get_w` |  |
| C18 | Overflow counters never exceed the limit | proved | `C18_counters` |  |
| C19 | Any honest integer program is accepted | proved | `C19_program_complete` | Stated for every pair of moduli accepted by set-up with d_bits % 108 != 0; the three supported pairs satisfy this. |
| C20 | Any integer program is sound | proved | `C20_program_sound`, `C20_end_to_end`, `demo_sound` |  |
| C21 | Complete point addition follows the group law | proved | `C21_add_sound`, `C21_add_complete`, `eccDemo_accepted` |  |
| C22 | Doubling, negation, selection, reduction and equality of points | proved | `C22_double_sound`, `C22_double_complete`, `C22_neg_sound`, `C22_neg_complete`, `C22_bisec_sound`, `C22_bisec_complete`, `C22_reduce_sound`, `C22_reduce_complete`, `C22_assert_equal_sound`, `C22_assert_equal_complete`, `C22_curvature_sound`, `C22_curvature_complete` |  |
| C23 | Assigned points are on the curve or the identity | proved | `C23_assign_point_sound`, `C23_assign_point_of_bits`, `C23_assign_non_zero_point_sound`, `C23_assign_point_complete`, `C23_assign_non_zero_point_complete`, `C23_constant_sound`, `C23_constant_complete`, `C23_identity_sound` | The stated disjunction holds unconditionally; that the identity flag is itself a bit needs the missing copy constraint of C06 (C23_assign_point_of_bits). |
| C24 | Incomplete addition and doubling are enforced | proved | `C24_add_sound`, `C24_add_complete`, `C24_double_sound`, `C24_double_complete` |  |
| C25 | Degenerate incomplete additions are reported, not fatal | partial | `C25_violated_never_err`, `C25_violated_double_never_err`, `C25_violated`, `C25_partial`, `C25_violated_witness` | The property is false of the code: the run-time assertion inside try_assert_false panics before an Err can be returned (C25_violated, C25_violated_never_err, concrete witness C25_violated_witness). C25_partial keeps what holds: degenerate operands cannot pass. |
| C26 | Native scalars decompose into their bits | partial | `C26_partial`, `C26_complete`, `C26_violated` | The digits are not tied to bits by the circuit (C06), so the property is false of the code as stated: C26_violated forges them for every scalar, bit length and window size. C26_partial proves the property for assignments in which the two cells of every bit row agree, C26_complete that the honest digits are accepted. |
| C27 | Non-native scalars decompose into their bits | partial | `C27_partial`, `C27_complete`, `C27_violated` | As C26, for scalars represented as limbs: C27_violated, C27_partial, C27_complete. |
| C28 | Multi-scalar multiplication without the select chip computes the sum of multiples | partial | `C28_native_partial`, `C28_general_any_partial`, `C28_general_partial`, `C28_ecc_mul_partial`, `C28_bn256_partial`, `C28_calls_group_native_partial`, `C28_calls_group_general_partial`, `C28_violated` | False of the code: C28_violated gives a point of bn256 such that for every odd scalar the circuit of ecc_mul accepts a wrong result (assign_bit misses a copy constraint, C06; the prover also chooses the random points). C28_native_partial and C28_general_partial prove it, for all inputs, for assignments in which the two cells of every bit row agree; C28_bn256_partial needs no hypothesis on the points because the order of the curve is proved (bn_order). C28_general_any_partial covers all points of any curve, whatever their order: the result is the sum of k_i P_i for naturals k_i congruent to the scalars modulo the scalar modulus. C28_calls_group_native_partial and C28_calls_group_general_partial prove it for direct calls of the operation on non-zero points, anywhere in a run. |
| C29 | Multi-scalar multiplication with the select chip computes the sum of multiples | partial | `C29_native_partial`, `C29_general_any_partial`, `C29_general_partial`, `C29_bn256_partial`, `C29_calls_native_partial`, `C29_calls_general_partial`, `C29_calls_group_native_partial`, `C29_calls_group_general_partial`, `C29_violated`, `C29_case_group` | False of the code: C29_violated, for all points P0, P1 of bn256 other than the identity with P1 not 2 P0 and scalars 2 and 0 modulo 4, every prefix. In addition the caches of the first call (key 0) can be bypassed (C30_violated), so under consistent bit rows C29 is proved for call numbers above 0, or when every selection is answered by a cache row. C29_calls_native_partial and C29_calls_general_partial prove it for whole runs: nothing about keys is assumed, the call only must not be the first multi-scalar multiplication of the run. C29_general_any_partial is the analogue of C28_general_any_partial. C29_calls_group_native_partial and C29_calls_group_general_partial are the same for direct calls of the operation on non-zero points; C29_case_group is a run that meets their hypotheses. |
| C30 | A selected limb equals the cached limb | partial | `C30_violated`, `C30_partial`, `C30_cache_sound`, `C30_point_with_curvature_partial`, `C30_point_non_zero_partial`, `C30_point_with_curvature_complete` | False of the code: the select lookup accepts the all-zero pair (C30_violated). C30_partial proves it for keys other than 0, C30_cache_sound for the cache rows. C30_point_with_curvature_partial and C30_point_non_zero_partial lift it to points, C30_point_with_curvature_complete is the honest side. |
| C31 | Cache keys never collide | proved | `C31_encode_injective`, `C31_fields_large`, `C31_bounds_needed`, `C31_groups`, `C31_prefix`, `C31_keys_distinct`, `C31_client_keys_collide` | Injectivity with explicit bounds (and that they are needed), groups of a multi-scalar multiplication, advance of the prefix, and distinct keys for every sequence of API calls that does not choose keys itself. For two curve contexts on one native context see C70. |
| C32 | The circuit does not depend on the witness | proved | `C32_circuit_independent_of_witness`, `C32_one_circuit`, `C32_same_proofs`, `C32_sequencing` | Sequences of calls of every modelled operation: gates, integers, curves, scalar and multi-scalar multiplication with and without the select chip, the tower, the pairing and Keccak (Spec/Api.lean, Spec/ApiTower.lean); Example.runs shows two runs with different witnesses. |
| C33 | Rows are written once | proved | `C33_rows_written_once`, `C33_rows_below_height`, `C33_rows_below_height_new` | For every sequence of API calls from a context without rows above the offsets (every context a client can get). |
| C34 | Parallel windows equal sequential execution | partial | `C34_parallel_eq_sequential_partial`, `C34_every_schedule`, `C34_violated_range_height`, `C34_msm_windows_partial` | Results, arrays, copy constraints, offsets, base and select heights agree with sequential execution, under every interleaving of the writes. The range height can differ (C34_violated_range_height). |
| C35 | Merging never loses rows | partial | `C35_violated`, `C35_merge_of_clone_partial`, `C35_windows_partial` | False for arbitrary contexts (C35_violated: merge compares with the wrong height). Proved for what the library merges: clones of the context. |
| C36 | Synthesis assigns every recorded cell | partial | `C36_exact_partial`, `C36_exact_guarded_partial`, `C36_assign_all_partial`, `C36_copies_ready`, `C36_client_partial`, `C36_without_select_partial`, `C36_violated_empty`, `C36_violated_rows_lost`, `C36_violated_panic` | False of the code: chunks of the range chip are computed from the base height (C36_violated_*). Proved under the condition that excludes this, for every sequence of API calls (C36_client_partial): copy constraints are between recorded cells (C36_copies_ready). Without a select chip (assign_all_with_optional_select_chip, src/context.rs:556-573) the same holds if and only if no select rows are recorded (C36_without_select_partial). The condition is necessary and sufficient for every sequence of API calls (C36_exact_partial), also with arrays of limited length (C36_exact_guarded_partial). |
| C37 | Point encoding is injective on limb representations and determined by the point | partial | `C37_encode_sound_partial`, `C37_encode_injective_partial`, `C37_encode_complete`, `C37_violated_not_canonical`, `C37_violated_bn256`, `C37_violated_collision` | False of the code in both halves. C37_violated_not_canonical: reduced coordinates need not be canonical, so every point with a second representative below 2^w_ceil_bits has two accepted encodings (C37_violated_bn256: the generator of bn256). C37_violated_collision: two different points of BLS12-381 (4 limbs per coordinate, of which the encoding drops the top) with the same honest encoding. What holds: C37_encode_sound_partial (the triple is that of representatives of the coordinates), C37_encode_injective_partial (injective with 3 limbs, every satisfying assignment), C37_encode_complete (honest triple). |
| C38 | Tower field arithmetic is correct | proved | `C38_tower_is_field`, `C38_fq2_add`, `C38_fq2_sub`, `C38_fq2_mul`, `C38_fq2_neg`, `C38_fq2_double`, `C38_fq2_square`, `C38_fq2_reduce`, `C38_fq2_conjugate`, `C38_fq2_mul_by_nonresidue`, `C38_fq2_assign_zero`, `C38_fq2_assign_one`, `C38_fq2_assign_constant`, `C38_fq2_unsafe_invert`, `C38_fq2_assert_equal`, `C38_fq6_add`, `C38_fq6_sub`, `C38_fq6_mul`, `C38_fq6_neg`, `C38_fq6_double`, `C38_fq6_square`, `C38_fq6_reduce`, `C38_fq6_mul_by_nonresidue`, `C38_fq6_assign_zero`, `C38_fq6_assign_one`, `C38_fq6_assign_constant`, `C38_fq6_unsafe_invert`, `C38_fq6_assert_equal`, `C38_fq6_mul_by_1`, `C38_fq6_mul_by_01`, `C38_fq12_add`, `C38_fq12_sub`, `C38_fq12_mul`, `C38_fq12_neg`, `C38_fq12_double`, `C38_fq12_square`, `C38_fq12_reduce`, `C38_fq12_conjugate`, `C38_fq12_assign_zero`, `C38_fq12_assign_one`, `C38_fq12_assign_constant`, `C38_fq12_unsafe_invert`, `C38_fq12_assert_eq`, `C38_fq12_assert_one`, `C38_fq12_mul_by_014`, `C38_fq12_mul_by_034` | Each operation Computes/Realises the tower operation (Spec/Tower.lean): sound for every satisfying assignment and complete for the recorded witness. Completeness assumes operands with overflow counter at most 16, which every operation returns. |
| C39 | Cyclotomic squaring equals squaring on the cyclotomic subgroup | proved | `C39_cyclotomic_square_sound`, `C39_cyclotomic_square_complete`, `C39_cyclotomic_subgroup`, `C39_restriction_needed` | For both curves. C39_restriction_needed shows that the operation does not square outside the subgroup. |
| C40 | Frobenius constants and maps are correct | partial | `C40_bn256_tables`, `C40_bn256_fq2_frobenius`, `C40_bn256_fq6_frobenius`, `C40_bn256_fq12_frobenius`, `C40_bls12_381_constants`, `C40_bls12_381_fq2_frobenius_partial`, `C40_bls12_381_fq6_frobenius_partial`, `C40_bls12_381_fq12_frobenius_partial`, `C40_violated` | Proved for bn256 and every power. False for bls12_381 as stated: the maps ignore the power argument (C40_violated); the theorems ending in _partial prove that they compute the q-power map whatever the power, which is right for power = 1, the only value the code uses. |
| C41 | Line steps compute tangent and chord | proved | `C41_doubling_step`, `C41_addition_step` | Over Fq2 of both curves, sound for every satisfying assignment and complete for the recorded witness; exceptional cases (y = 0, equal abscissas) are the hypotheses of IsDouble / IsSum. |
| C42 | The Miller loop consumes exactly the prepared coefficients | proved | `C42_prepare_g2_count`, `C42_miller_loop_count`, `C42_tables`, `C48_pairing` | Counts are proved for every run of the functions. That the loop does not panic on prepared coefficients is the completeness part of C48_pairing. |
| C43 | Final exponentiation raises to a multiple of (q^12-1)/r coprime to r | proved | `C43_bn256_final_exponentiation`, `C43_bls12_381_final_exponentiation`, `C43_exponent`, `C43_roots_of_unity` | bn256: exponent (q^12-1)/r; bls12_381: 3(q^12-1)/r. Soundness and completeness for all non-zero inputs; C43_roots_of_unity adds that the image consists of r-th roots of unity and is not trivial. |
| C44 | Keccak permutation and padding follow the standard | proved | `C44_permute_sound`, `C44_permute_complete`, `C44_blocks_sound`, `C44_hash_sound`, `C44_hash_complete`, `C44_padding` | Permutation against an independent FIPS-202 style specification (tables of the chip do not occur in it), padding/absorb/squeeze on blocks of 0/1 cells, whole hash sound (given 0/1 decomposition bits, see C06) and complete. |
| C45 | Keccak input words are determined by the field elements | partial | `C45_partial`, `C45_violated_representatives`, `C45_violated` | Violated: C45_violated (bn256 scalar field, input 0, two digests) and C45_violated_representatives (any representatives below 2^256 may be hashed). C45_partial: the digest is Keccak-256 of some representatives of the inputs, given 0/1 bits. |
| C46 | The empty multi-scalar multiplication is the identity | partial | `C46_violated`, `C46_padded_partial` | False of the code: msm on empty lists panics (C46_violated). C46_padded_partial: padded with terms whose point is the identity or whose scalar is 0, it returns the identity. |
| C47 | Contexts cloned for prediction do not disturb the original | partial | `C47_violated`, `C47_clone_partial` | False of the code: clones share the record arrays (C47_violated). Proved: offsets, heights, copy constraints and rows below the offsets are unaffected. |
| C48 | The pairing chip computes the optimal ate pairing | proved | `C48_pairing`, `C48_check_pairing`, `C48_nonzero`, `C48_pairing_on_curve`, `C48_opposite_inputs`, `C48_on_curve_case` | Both curves, all lists. The spec (Spec/AtePairing.lean) is the optimal ate pairing over Fq12 with Mathlib group law; for bls12_381 its third power. Membership of the second points in G2 is a hypothesis: the circuit does not check it. C48_pairing_on_curve: for points of the curve the condition that the product is not zero holds by itself (C48_nonzero), so the circuit accepts all of them. |
| C49 | An honest prover can prove every multi-scalar multiplication | proved | `C49_native_complete`, `C49_general_complete`, `C49_random_points`, `C49_bn256_random`, `C49_bn256_accepted`, `C49_group_bisec_complete`, `C49_group_select_complete`, `C49_group_bisec_general_complete`, `C49_group_select_general_complete` | Both scalar contexts, with and without the select chip. GeneralPosition (Spec/MsmPosition.lean) lists the exceptional additions without reference to the model. C49_random_points bounds the exceptions by counting; C49_bn256_random and C49_bn256_accepted apply it to whole circuits over bn256. The C49_group_* theorems are for direct calls of the operations on non-zero points. |
| C50 | Set-up guarantees that honest multiplications are accepted | partial | `C50_mul_operands`, `C50_violated`, `C50_partial`, `C50_supported` | Violated: for the 311-bit prime 1023*2^301+1 set-up succeeds with d_bits a multiple of 108, the leading limb of the quotient is then checked to be 0 bits wide, and the circuit of (-1)*(-1) has no satisfying assignment at all (C50_violated). C50_partial: all set-ups with d_bits % 108 /= 0; C50_supported: that includes the supported moduli. |
| C51 | Results of small-constant multiplication are usable operands | partial | `C51_violated`, `C51_partial` | Violated for the constant 0: C51_violated (every set-up, every value, negation and subtraction). C51_partial: constants 1 to 15. |
| C52 | The quotient is determined by the operands | partial | `C52_violated`, `C52_partial` | Violated for a zero divisor: C52_violated (every set-up, dividend and wanted quotient). C52_partial: nonzero divisors, every satisfying assignment. Callers that use the flag (C15) are not affected; those that ignore it are. |
| C53 | Handed-out values are the recorded values | proved | `C53_values_recorded`, `C53_copies_satisfied`, `C53_client` | A Hoare-style logic (W in Proof/Cells) over every operation: values written are the values handed out, and copy constraints are recorded between cells with equal values; clones by the disjointness of their rows. |
| C54 | Any program of point operations is sound and accepted | proved | `C54_program_sound`, `C54_end_to_end`, `C54_program_complete` | Programs as data (Spec/EccProg); a reference semantics in the group of points; soundness and completeness by composing C12-C17 and C21-C24, every operation preserving the invariants the others need. Programs with assign_point carry the hypothesis of C06_partial. |
| C55 | Selecting from a group yields a point cached in that group | partial | `C55_partial`, `C55_single_group`, `C55_violated` | False of the code: the select chip does not bound the selector, and a selector outside the small numbers can stand for another group in the key (C55_violated). C55_partial: true for selectors below 2^125, which is what the multi-scalar multiplication passes when its digits are bits; C55_single_group: true for every selector if only one group is cached. |
| C56 | Any program of tower and pairing operations is sound and accepted | proved | `C56_program_sound`, `C56_end_to_end`, `C56_program_complete`, `C56_case` | Programs as data (Spec/TowerProg), over the points of C54, the tower and the pairing; the reference semantics speaks of the tower of fields and the optimal ate pairing only. Composition of C38-C44, C48 and C54. What the code computes outside of the cyclotomic subgroup (cyclotomic squaring), for powers other than 1 of the Frobenius map of bls12_381 (C40) and for second points outside of their group is left open by the reference semantics; programs with assign_point carry the hypothesis of C06_partial. |
| C57 | Any program of native field operations is sound and accepted | proved | `C57_program_sound`, `C57_end_to_end`, `C57_program_complete`, `C57_case` | Programs as data (Spec/NativeProg); the reference semantics speaks of the field and of the Keccak specification only. Composition of the theorems about the base chip, the boolean operations and the hash. invert/div by zero follow the code: the unsafe versions leave the result open when the divisor is zero. Programs with assign_bit or a hash carry the hypothesis of C06_partial. |
| C58 | Any program over all chips is sound and accepted (bn256) | proved | `C58_program_sound`, `C58_end_to_end`, `C58_program_complete`, `C58_case` | Programs as data (Spec/FullProg) over those of C56 and C57, with ecc_encode and msm (native scalars, 254 bits, generator (1,2)). Composition of C28, C29, C37, C49, C56 and C57; uniqueness of the keys is derived for the whole run (C58_end_to_end). The conditions in the statement are the constraints the code lacks (C06, C30). |
| C59 | Any program over all chips is sound and accepted (bls12_381, scalars in their own field) | proved | `C59_program_sound`, `C59_subgroup`, `C59_end_to_end`, `C59_program_complete`, `C59_case` | Programs as data (Spec/GeneralProg) over those of C56, C57 and C20 (for the scalar field), with ecc_encode and msm (scalars as integers of three limbs, all 324 bits processed). Composition of the same lemmas as C58, with the version of C28/C29 that needs no order of the points (C59_subgroup gives the usual sum in the subgroup). The conditions in the statement are the constraints the code lacks (C06, C30). |
| C60 | No row is left without its gate | proved | `C60_rows_filled`, `C60_check_row_has_some`, `C60_bare_line_fails` | Model/Guarded has check_row_has_some; by induction over how operations are built from the primitive writers (Built2). The primitive one_line with no arguments would leave an empty row (C60_bare_line_fails); no operation calls it so. |
| C61 | The sanity checks never fire | proved | `C61_sanity_check_silent`, `C61_sanity_check_catches` | Model/Guarded has every writer with its assertions; Guarding relates an operation to the one whose writers check (it always exists). The assertions do catch overwriting in general (C61_sanity_check_catches). |
| C62 | Running out of rows is never silent and never spurious | proved | `C62_max_rows`, `C62_exact` | Same model as C61, with indexing checked against the length of the arrays. The bound is exact (C62_exact). |
| C63 | What is handed to the constraint system is what was recorded | partial | `C63_violated_bn256`, `C63_violated_bls12_381`, `C63_violated_case`, `C63_constraints_kept`, `C63_sound_bn256`, `C63_sound_bls12_381`, `C63_complete_bn256_partial`, `C63_complete_bls12_381_partial`, `C63_accepted_bn256_partial`, `C63_accepted_bls12_381_partial` | Soundness at the level of the synthesized circuit is full. Completeness is false for small circuits: assigning 3 to 96 integers (bn256; 3 to 128 for bls12_381) makes synthesis panic (C63_violated_bn256, C63_violated_bls12_381). Proved when the range chip has at most 16*ceil(base/16)^2 rows (Balanced), which holds from 208 rows of the base chip on (C64). |
| C64 | Circuits of some size are synthesized completely | proved | `C64_rows`, `C64_client`, `C64_complete_bn256`, `C64_complete_bls12_381`, `C64_case` | Bounds the extent of the findings of C36 and C63: they need fewer than 208 rows of the base chip, or mostly bare range assignments. |
| C65 | Heights are the numbers of rows used | proved | `C65_heights`, `C65_exact`, `C65_case` | The slack of the range height is that of ensure_range_record_size (one row too many) and of merge (select height instead of range height). |
| C66 | The configured constraint system is the circuit of the proofs | proved | `C66_configure`, `C66_table`, `C66_columns`, `C66_realised`, `C66_sound_bn256`, `C66_sound_bls12_381`, `C66_case` | halo2's reading of a constraint system is Spec/Plonk; gates are required on all rows, lookups on usable rows. Two rows that are not usable are needed (halo2 always has at least six). Completeness at this level is in C63_accepted_*. |
| C67 | Copy constraints are only between columns for which equality is enabled | proved | `C67_copyable`, `C67_copies_accepted`, `C67_proper` | C67_copyable is an equivalence; the invariant on handed-out cells is that of C36 and C62. |
| C68 | Counters of integers stay small and never overflow | proved | `C68_no_overflow`, `C68_counters`, `C68_attained`, `C68_supported`, `C68_check_fails` | The model panics on overflow like a build with debug assertions; C68_check_fails shows that the check would fail for made-up counters. Shifts of window sizes and row offsets (usize) are not covered. |
| C69 | Conversions between fields and numbers | proved | `C69_field_to_bn`, `C69_bn_to_field`, `C69_inverse`, `C69_bytes_needed`, `C69_constants`, `C69_supported` | The interface of halo2 fields (BaseExt::read/write) is part of the model, see Model/Utils. |
| C70 | Curve contexts that share a native context | partial | `C70_violated`, `C70_case`, `C70_partial`, `C70_ambiguous` | The code violates it: new contexts all start at prefix 0. C70_violated: every run in which both contexts compute a multi-scalar multiplication has a collision; C70_case: such runs exist; C70_ambiguous: the circuit then accepts either value. C70_partial: with prefixes that start far enough apart all keys are distinct. |
| C71 | Circuits without a select chip | proved | `C71_select_rows`, `C71_unavailable`, `C71_exact`, `C71_client`, `C71_complete_bn256`, `C71_case`, `C71_case_cached` | The row conditions are those of C36/C65 (findings on synthesis of small circuits). |
| C72 | The points in a pairing check lie in the pairing groups | partial | `C72_violated`, `C72_violated_second`, `C72_nonzero_partial`, `C72_bn256_partial` | The code violates it. C72_violated: for bls12_381 a point of order 3 is accepted in a check with any single point of the second group. C72_violated_second: for both curves the pair (1, 1), which is not on the twist, is accepted as second point in the check of (P, g), (-P, g) for every P. C72_nonzero_partial: the first points are not the identity; C72_bn256_partial: for bn256 they have order r. |
| C73 | Taking a context back | proved | `C73_take`, `C73_merge`, `C73_only`, `C73_msm` | Model of owners only: which operations the Rust types allow is part of the model (moves make the source unusable). |
| C74 | Windows in parallel do not race | partial | `C74_partial`, `C74_violated`, `C74_violated_bisec`, `C74_violated_select`, `C74_violated_bisec_general`, `C74_violated_select_general`, `C74_case`, `C74_case_general` | Violated: in every successful multiplication (native scalars of three bits or more, or scalars in another field), the parallel windows all set the copy flag of a cell of their common starting point, without synchronization (C74_violated and its variants). C74_partial: flags are the only locations written twice, always to true, and every interleaving of the writes gives the same arrays. The model takes single writes to be atomic. |


## 5. Findings

What the proofs showed about the code. Each finding is a theorem; "consequence" is what a user of the library has to
know.

1. **`assign_bit` does not enforce a bit** (`base_chip.rs:357-367`, C06). The row `a - a*a'` uses two cells that are not
   tied; a prover can return any value. `C06_violated`. Consequences proved: scalar digits can be forged (`C26_violated`,
   `C27_violated`) and with them the results of scalar multiplications: `C28_violated` (a point of bn256 and every odd
   scalar, no select chip), `C29_violated` (nearly all pairs of points, select chip). The MSM results are only what C28/C29 say under
   `BitRowsConsistent`; the identity flag of an assigned point
   can be any field element (C23 note); the Keccak input bits can be anything (C44 is stated for 0/1 bits).
2. **The select lookup accepts the all-zero pair** (`select_chip.rs:71-90`, C30). Unassigned rows contribute the triple
   `(anything, 0, 0)` to the table, so a selected value whose key is 0 is not tied to the cache. `C30_violated`. Only the first
   MSM of a context (prefix 0) uses key 0; C29 holds for later ones.
3. **Degenerate incomplete additions panic instead of being reported** (`base_chip.rs:497-501`, C25). `try_assert_false`
   runs `assert_false`, which contains a run-time assertion, before it can return an error; the retry loop of `msm` is dead
   code. `C25_violated`, `C25_violated_never_err`, `C25_violated_witness`.
4. **MSM of empty lists panics** (C46). `C46_violated`.
5. **Synthesis can drop or miss range rows** (`context.rs:385-453`, C36). Chunks of the range chip are computed from the
   base height. `C36_violated_empty`, `C36_violated_rows_lost`, `C36_violated_panic`. For example, synthesis panics for every
   program that assigns between 3 and 96 integers for bn256, or between 3 and 128 for bls12_381, and does nothing else:
   `C63_violated_bn256`, `C63_violated_bls12_381`. From 208 rows of the base chip on it cannot happen (C64).
6. **`merge` compares with the wrong height** (C35). Rows of a context that is not a clone can be lost: `C35_violated`.
   The library only merges clones, for which `C35_merge_of_clone_partial` proves that nothing is lost.
7. **The range height after parallel windows can differ from the sequential one** (C34), `C34_violated_range_height`. Everything else
   agrees.
8. **Clones share the record arrays** (C47): work on a clone is visible in the original. `C47_violated`.
9. **Point encoding** (C37): coordinates are reduced but not canonical, so one point has several accepted encodings
   (`C37_violated_not_canonical`, `C37_violated_bn256`); for bls12_381 the fourth limb of a coordinate is dropped, so different points
   have equal encodings (`C37_violated_collision`).
10. **bls12_381 Frobenius maps ignore `power`** (C40). `C40_violated`. The code calls them with `power = 1` only.
11. **Keccak input words are not determined by the field elements** (C45): the 256-bit decomposition of a field element is only
    constrained modulo the field, so one input has several accepted digests. `C45_violated`.
12. **Client-chosen cache keys collide with those of the MSM** (C31): `C31_client_keys_collide`. Two curve contexts on
    one native context both start at prefix 0 (`context.rs:196-205, 231-240`) and collide in the same way, as soon as each
    has computed an MSM (C70): `C70_violated`, with a run in `C70_case`; `C70_ambiguous` shows that the circuit then accepts
    either of the cached values, also for keys other than 0.
13. **Set-up accepts moduli for which nothing can be multiplied** (C50). When `d_bits` is a multiple of 108 the leading limb of
    the quotient is range checked to 0 bits; for the prime `1023 * 2^301 + 1` the circuit of `(-1) * (-1)` is unsatisfiable.
    `C50_violated`. The supported moduli are not of this kind (`C50_supported`).
14. **Negating or subtracting `a * 0` panics** (C51): `int_mul_small_constant` accepts 0, the overflow counter becomes 0 and the table
    of multiples has no entry for it. `C51_violated`.
15. **The quotient by zero is unconstrained** (C52): any residue is accepted next to the flag 1. `C52_violated`.
16. **The selector of the select chip is unbounded** (C55): in the key `selector * 2^128 + group * 2^64 + offset` the selector
    `2^-64` reads the next group. `C55_violated`. Harmless where the selector is a combination of bits.
17. **The pairing check does not check that its inputs are in the pairing groups** (C72). For bls12_381 the point `(0, 2)` has
    order 3 and its pairing with every point of the second group is 1, so `check_pairing` accepts it alone: `C72_violated`. For
    both curves second points are not even checked to be on the twist; `(1, 1)` is accepted next to any `P` and `-P`:
    `C72_violated_second`. Callers have to check membership themselves, for which the library has no function. For
    bn256 the first points are in the group because the curve has prime order (`C72_bn256_partial`).
18. **The windows of a multi-scalar multiplication race** (C74). `enable_permute` sets the copy flag of an operand through
    `Arc::get_mut_unchecked`, and the windows, which run in parallel threads, all use the negated blinding point as an operand.
    So several threads write the flag of one cell without synchronization: `C74_violated`, and for every successful
    multiplication `C74_violated_bisec`, `C74_violated_select` and their variants for scalars in another field. In Rust this is undefined behaviour. All
    such writes store `true`, and no other location is written twice (`C74_partial`), so the result is right as long as single
    writes are atomic.


## 6. Axioms per theorem

Printed with `#print axioms` from a build of the committed sources.

**no axioms** (1 theorems)

`C60_bare_line_fails`

**`propext`** (3 theorems)

`C31_fields_large`, `C43_exponent`, `C73_only`

**`Quot.sound`, `propext`** (24 theorems)

`C01_sum_empty_panics`, `C10_setup`, `C10_options`, `C25_violated_never_err`, `C25_violated_double_never_err`, `C31_bounds_needed`, `C31_prefix`, `C31_client_keys_collide`, `C32_sequencing`, `C34_violated_range_height`, `C35_violated`, `C36_violated_empty`, `C44_padding`, `C47_violated`, `C50_supported`, `C65_case`, `C66_configure`, `C66_table`, `C66_columns`, `C67_proper`, `C68_supported`, `C71_unavailable`, `C71_case_cached`, `C73_merge`

**`Classical.choice`, `Quot.sound`, `propext`** (364 theorems)

`C01_sum_sound`, `C01_sum_complete`, `C01_add_sound`, `C01_add_complete`, `C01_sub_sound`, `C01_sub_complete`, `C01_add_constant_sound`, `C01_add_constant_complete`, `C02_mul_sound`, `C02_mul_complete`, `C02_mul_add_constant_sound`, `C02_mul_add_constant_complete`, `C02_mul_add_sound`, `C02_mul_add_complete`, `C02_invert_unsafe_sound`, `C02_invert_unsafe_complete`, `C02_div_unsafe_sound`, `C02_div_unsafe_complete`, `C03_is_zero_sound`, `C03_is_zero_complete`, `C03_invert_sound`, `C03_invert_complete`, `C04_and_sound`, `C04_or_sound`, `C04_not_sound`, `C04_not_and_sound`, `C04_xor_sound`, `C04_xnor_sound`, `C04_bisec_sound`, `C04_complete`, `C05_assert_equal_sound`, `C05_assert_constant_sound`, `C05_assert_true_sound`, `C05_assert_false_sound`, `C05_assert_bit_sound`, `C05_assign_constant_sound`, `C05_assign_constant_complete`, `C05_assert_equal_complete`, `C05_assert_constant_complete`, `C05_assert_bit_complete`, `C06_violated`, `C06_partial`, `C06_complete`, `C07_sound`, `C07_complete`, `C08_range_sound`, `C08_supported`, `C08_common_sound`, `C09_complete`, `C09_range_complete`, `C10_table`, `C11_assign_w_sound`, `C11_assign_w_complete`, `C12_add_sound`, `C12_add_complete`, `C12_sub_sound`, `C12_sub_complete`, `C12_neg_sound`, `C12_neg_complete`, `C12_small_mul_sound`, `C12_small_mul_complete`, `C13_reduce_sound`, `C13_reduce_complete`, `C13_conditionally_reduce_sound`, `C14_mul_sound`, `C14_mul_complete`, `C14_square_sound`, `C14_square_complete`, `C15_div_sound`, `C15_div_complete`, `C15_unsafe_invert_sound`, `C15_unsafe_invert_complete`, `C16_is_int_zero_sound`, `C16_is_int_zero_complete`, `C16_is_int_equal_sound`, `C16_is_int_equal_complete`, `C16_assert_int_equal_sound`, `C16_assert_int_equal_complete`, `C17_bisec_int_sound`, `C17_bisec_int_complete`, `C17_constant_sound`, `C17_constant_complete`, `C17_get_w`, `C18_counters`, `C19_program_complete`, `C20_program_sound`, `C20_end_to_end`, `demo_sound`, `C21_add_sound`, `C21_add_complete`, `eccDemo_accepted`, `C22_double_sound`, `C22_double_complete`, `C22_neg_sound`, `C22_neg_complete`, `C22_bisec_sound`, `C22_bisec_complete`, `C22_reduce_sound`, `C22_reduce_complete`, `C22_assert_equal_sound`, `C22_assert_equal_complete`, `C22_curvature_sound`, `C22_curvature_complete`, `C23_assign_point_sound`, `C23_assign_point_of_bits`, `C23_assign_non_zero_point_sound`, `C23_assign_point_complete`, `C23_assign_non_zero_point_complete`, `C23_constant_sound`, `C23_constant_complete`, `C23_identity_sound`, `C24_add_sound`, `C24_add_complete`, `C24_double_sound`, `C24_double_complete`, `C25_violated`, `C25_partial`, `C25_violated_witness`, `C26_partial`, `C26_complete`, `C26_violated`, `C27_partial`, `C27_complete`, `C27_violated`, `C28_native_partial`, `C28_general_any_partial`, `C28_general_partial`, `C28_ecc_mul_partial`, `C28_bn256_partial`, `C28_calls_group_native_partial`, `C28_calls_group_general_partial`, `C28_violated`, `C29_native_partial`, `C29_general_any_partial`, `C29_general_partial`, `C29_bn256_partial`, `C29_calls_native_partial`, `C29_calls_general_partial`, `C29_calls_group_native_partial`, `C29_calls_group_general_partial`, `C29_violated`, `C29_case_group`, `C30_violated`, `C30_partial`, `C30_cache_sound`, `C30_point_with_curvature_partial`, `C30_point_non_zero_partial`, `C30_point_with_curvature_complete`, `C31_encode_injective`, `C31_groups`, `C31_keys_distinct`, `C32_circuit_independent_of_witness`, `C32_one_circuit`, `C32_same_proofs`, `C33_rows_written_once`, `C33_rows_below_height`, `C33_rows_below_height_new`, `C34_parallel_eq_sequential_partial`, `C34_every_schedule`, `C34_msm_windows_partial`, `C35_merge_of_clone_partial`, `C35_windows_partial`, `C36_exact_partial`, `C36_exact_guarded_partial`, `C36_assign_all_partial`, `C36_copies_ready`, `C36_client_partial`, `C36_without_select_partial`, `C36_violated_rows_lost`, `C36_violated_panic`, `C37_encode_sound_partial`, `C37_encode_injective_partial`, `C37_encode_complete`, `C37_violated_not_canonical`, `C37_violated_bn256`, `C37_violated_collision`, `C38_tower_is_field`, `C38_fq2_add`, `C38_fq2_sub`, `C38_fq2_mul`, `C38_fq2_neg`, `C38_fq2_double`, `C38_fq2_square`, `C38_fq2_reduce`, `C38_fq2_conjugate`, `C38_fq2_mul_by_nonresidue`, `C38_fq2_assign_zero`, `C38_fq2_assign_one`, `C38_fq2_assign_constant`, `C38_fq2_unsafe_invert`, `C38_fq2_assert_equal`, `C38_fq6_add`, `C38_fq6_sub`, `C38_fq6_mul`, `C38_fq6_neg`, `C38_fq6_double`, `C38_fq6_square`, `C38_fq6_reduce`, `C38_fq6_mul_by_nonresidue`, `C38_fq6_assign_zero`, `C38_fq6_assign_one`, `C38_fq6_assign_constant`, `C38_fq6_unsafe_invert`, `C38_fq6_assert_equal`, `C38_fq6_mul_by_1`, `C38_fq6_mul_by_01`, `C38_fq12_add`, `C38_fq12_sub`, `C38_fq12_mul`, `C38_fq12_neg`, `C38_fq12_double`, `C38_fq12_square`, `C38_fq12_reduce`, `C38_fq12_conjugate`, `C38_fq12_assign_zero`, `C38_fq12_assign_one`, `C38_fq12_assign_constant`, `C38_fq12_unsafe_invert`, `C38_fq12_assert_eq`, `C38_fq12_assert_one`, `C38_fq12_mul_by_014`, `C38_fq12_mul_by_034`, `C39_cyclotomic_square_sound`, `C39_cyclotomic_square_complete`, `C39_cyclotomic_subgroup`, `C39_restriction_needed`, `C40_bn256_tables`, `C40_bn256_fq2_frobenius`, `C40_bn256_fq6_frobenius`, `C40_bn256_fq12_frobenius`, `C40_bls12_381_constants`, `C40_bls12_381_fq2_frobenius_partial`, `C40_bls12_381_fq6_frobenius_partial`, `C40_bls12_381_fq12_frobenius_partial`, `C40_violated`, `C41_doubling_step`, `C41_addition_step`, `C42_prepare_g2_count`, `C42_miller_loop_count`, `C42_tables`, `C48_pairing`, `C43_bn256_final_exponentiation`, `C43_bls12_381_final_exponentiation`, `C43_roots_of_unity`, `C44_permute_sound`, `C44_permute_complete`, `C44_blocks_sound`, `C44_hash_sound`, `C44_hash_complete`, `C45_partial`, `C45_violated_representatives`, `C45_violated`, `C46_violated`, `C46_padded_partial`, `C47_clone_partial`, `C48_check_pairing`, `C48_nonzero`, `C48_pairing_on_curve`, `C48_opposite_inputs`, `C48_on_curve_case`, `C49_native_complete`, `C49_general_complete`, `C49_random_points`, `C49_bn256_random`, `C49_bn256_accepted`, `C49_group_bisec_complete`, `C49_group_select_complete`, `C49_group_bisec_general_complete`, `C49_group_select_general_complete`, `C50_mul_operands`, `C50_violated`, `C50_partial`, `C51_violated`, `C51_partial`, `C52_violated`, `C52_partial`, `C53_values_recorded`, `C53_copies_satisfied`, `C53_client`, `C54_program_sound`, `C54_end_to_end`, `C54_program_complete`, `C55_partial`, `C55_single_group`, `C55_violated`, `C56_program_sound`, `C56_end_to_end`, `C56_program_complete`, `C56_case`, `C57_program_sound`, `C57_end_to_end`, `C57_program_complete`, `C57_case`, `C58_program_sound`, `C58_end_to_end`, `C58_program_complete`, `C58_case`, `C59_program_sound`, `C59_subgroup`, `C59_end_to_end`, `C59_program_complete`, `C59_case`, `C60_rows_filled`, `C60_check_row_has_some`, `C61_sanity_check_silent`, `C61_sanity_check_catches`, `C62_max_rows`, `C62_exact`, `C63_violated_bn256`, `C63_violated_bls12_381`, `C63_violated_case`, `C63_constraints_kept`, `C63_sound_bn256`, `C63_sound_bls12_381`, `C63_complete_bn256_partial`, `C63_complete_bls12_381_partial`, `C63_accepted_bn256_partial`, `C63_accepted_bls12_381_partial`, `C64_rows`, `C64_client`, `C64_complete_bn256`, `C64_complete_bls12_381`, `C64_case`, `C65_heights`, `C65_exact`, `C66_realised`, `C66_sound_bn256`, `C66_sound_bls12_381`, `C66_case`, `C67_copyable`, `C67_copies_accepted`, `C68_no_overflow`, `C68_counters`, `C68_attained`, `C68_check_fails`, `C69_field_to_bn`, `C69_bn_to_field`, `C69_inverse`, `C69_bytes_needed`, `C69_constants`, `C69_supported`, `C70_violated`, `C70_case`, `C70_partial`, `C70_ambiguous`, `C71_select_rows`, `C71_exact`, `C71_client`, `C71_complete_bn256`, `C71_case`, `C72_violated`, `C72_violated_second`, `C72_nonzero_partial`, `C72_bn256_partial`, `C73_take`, `C73_msm`, `C74_partial`, `C74_violated`, `C74_violated_bisec`, `C74_violated_select`, `C74_violated_bisec_general`, `C74_violated_select_general`, `C74_case`, `C74_case_general`


## 7. Mutation tests

`seeded/LOG.jsonl` records edits of the model in the style of realistic bugs, the claim each one breaks and the theorems that
stopped proving. When a mutation survived, the theorem was tightened (`theorems_tightened`) or the entry explains why no
claim is broken.
