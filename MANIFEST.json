{"claims": [
 {"property": "C01", "status": "proved", "theorems": ["Props.C01_mul_array16", "Props.C01_mul_array", "Props.C01_scalar_mul_array"], "note": ""},
 {"property": "C02", "status": "proved", "theorems": ["Props.C02_rev_spec", "Props.C02_bitrev_shuffle", "Props.C02_involution"], "note": ""},
 {"property": "C03", "status": "proved", "theorems": ["Props.C03_table_shuffle", "Props.C03_rejects", "Props.C03_checked_in"], "note": ""},
 {"property": "C04", "status": "proved", "theorems": ["Props.C04_ntt_ct_rev2std", "Props.C04_ntt_ct_rev2std_v1"], "note": ""},
 {"property": "C05", "status": "proved", "theorems": ["Props.C05_ntt_ct_std2rev"], "note": ""},
 {"property": "C06", "status": "proved", "theorems": ["Props.C06_ntt_gs_rev2std"], "note": ""},
 {"property": "C07", "status": "proved", "theorems": ["Props.C07_ntt_gs_std2rev"], "note": ""},
 {"property": "C08", "status": "proved", "theorems": ["Props.C08_mulntt_ct_rev2std", "Props.C08_mulntt_ct_std2rev"], "note": ""},
 {"property": "C09", "status": "proved", "theorems": ["Props.C09_nttmul_gs_rev2std", "Props.C09_nttmul_gs_std2rev"], "note": ""},
 {"property": "C10", "status": "proved", "theorems": ["Props.C10_std2rev_rev2std", "Props.C10_rev2std_std2rev", "Props.C10_mulntt_inttmul"], "note": ""},
 {"property": "C11", "status": "proved", "theorems": ["Props.C11_negacyclic_spec", "Props.C11_products", "Props.C11_library", "Props.C11_operands"], "note": ""},
 {"property": "C12", "status": "proved", "theorems": ["Props.C12_ntt", "Props.C12_ntt_red", "Props.C12_naive", "Props.C12_elementwise", "Props.C12_ntt_products", "Props.C12_ntt_red_products", "Props.C12_naive_products"], "note": ""},
 {"property": "C13", "status": "proved", "theorems": ["Props.C13_reduce_array", "Props.C13_bounds_attained"], "note": ""},
 {"property": "C14", "status": "proved", "theorems": ["Props.C14_reduce_array_twice", "Props.C14_bounds_attained"], "note": ""},
 {"property": "C15", "status": "proved", "theorems": ["Props.C15_correct", "Props.C15_correct_after_reduce_twice"], "note": ""},
 {"property": "C16", "status": "proved", "theorems": ["Props.C16_normalize", "Props.C16_normalize_inv3"], "note": ""},
 {"property": "C17", "status": "proved", "theorems": ["Props.C17_shift_array"], "note": ""},
 {"property": "C18", "status": "proved", "theorems": ["Props.C18_mul_reduce_array16", "Props.C18_mul_reduce_array", "Props.C18_scalar_mul_reduce_array", "Props.C18_bounds_nonneg", "Props.C18_bounds_shifted", "Props.C18_bounds_attained", "Props.C18_reduce_then_multiply"], "note": ""},
 {"property": "C19", "status": "partial", "theorems": ["Props.C19_documented_range_false", "Props.C19_overflow_iff", "Props.C19_no_overflow_partial"], "note": "The claim as documented is false: C19_documented_range_false exhibits an overflow inside the documented range and C19_overflow_iff shows it happens exactly for products >= 2^43. C19_no_overflow_partial is the claim for products < 2^43."},
 {"property": "C20", "status": "proved", "theorems": ["Props.C20_ntt_red_ct_rev2std", "Props.C20_ntt_red_ct_std2rev", "Props.C20_ntt_red_gs_rev2std", "Props.C20_ntt_red_gs_std2rev", "Props.C20_mulntt_red_ct_rev2std", "Props.C20_mulntt_red_ct_std2rev", "Props.C20_nttmul_red_gs_rev2std", "Props.C20_nttmul_red_gs_std2rev"], "note": "For n = 2048 the Gentleman-Sande bounds use that the first entries of a table are roots of unity of small order divided by 3, hence smaller than 6144 whatever psi is (Proofs/Levels.lean)."},
 {"property": "C21", "status": "proved", "theorems": ["Props.C21_products", "Props.C21_library"], "note": ""},
 {"property": "C22", "status": "proved", "theorems": ["Props.C22_ntt_ct_rev2std_naive", "Props.C22_ntt_ct_std2rev_naive", "Props.C22_ntt_gs_rev2std_naive", "Props.C22_ntt_gs_std2rev_naive", "Props.C22_mulntt_ct_rev2std_naive", "Props.C22_mulntt_ct_std2rev_naive", "Props.C22_nttmul_gs_rev2std_naive", "Props.C22_nttmul_gs_std2rev_naive", "Props.C22_mul_array16_naive", "Props.C22_mul_array_naive", "Props.C22_scalar_mul_array_naive"], "note": ""},
 {"property": "C23", "status": "proved", "theorems": ["Props.C23_products", "Props.C23_documented_range_false", "Props.C23_operands"], "note": "The property states the range (-Q,Q), which is proved. The headers' stronger promise [0,Q-1] is false: C23_documented_range_false."},
 {"property": "C24", "status": "proved", "theorems": ["Props.C24_agree"], "note": ""},
 {"property": "C25", "status": "proved", "theorems": ["Props.C25_make_tables", "Props.C25_rejects"], "note": ""},
 {"property": "C26", "status": "proved", "theorems": ["Props.C26_make_red_tables", "Props.C26_rejects"], "note": ""},
 {"property": "C27", "status": "proved", "theorems": ["Props.C27_power", "Props.C27_inverse"], "note": ""},
 {"property": "C28", "status": "proved", "theorems": ["Props.C28_max_red", "Props.C28_min_red"], "note": ""},
 {"property": "C29", "status": "proved", "theorems": ["Props.C29_max_red_mul", "Props.C29_min_red_mul", "Props.C29_max_red_mul_any", "Props.C29_min_red_mul_any", "Props.C29_zero"], "note": ""},
 {"property": "C30", "status": "proved", "theorems": ["Props.C30_max_red_mul_interval", "Props.C30_min_red_mul_interval", "Props.C30_assertion", "Props.C30_unsound_asymmetric"], "note": ""},
 {"property": "C31", "status": "proved", "theorems": ["Props.C31_ct_bound", "Props.C31_gs_bound", "Props.C31_ct_bound_any", "Props.C31_gs_bound_any", "Props.C31_ct_bound_fixed", "Props.C31_gs_bound_fixed"], "note": ""},
 {"property": "C32", "status": "proved", "theorems": ["Props.C32_point", "Props.C32_interval", "Props.C32_neg", "Props.C32_add", "Props.C32_sub", "Props.C32_red", "Props.C32_red_twice", "Props.C32_red_scale", "Props.C32_red_scale_any", "Props.C32_red_scale_zero", "Props.C32_normal", "Props.C32_normal_inv3", "Props.C32_shift", "Props.C32_correct"], "note": ""},
 {"property": "C33", "status": "proved", "theorems": ["Props.C33_ntt_red_ct_rev2std", "Props.C33_mulntt_red_ct_rev2std", "Props.C33_ntt_red_ct_std2rev", "Props.C33_mulntt_red_ct_std2rev", "Props.C33_ntt_red_gs_rev2std", "Props.C33_nttmul_red_gs_rev2std", "Props.C33_ntt_red_gs_std2rev", "Props.C33_nttmul_red_gs_std2rev"], "note": "The statement first listed ended with 'so an overflow-free abstract run implies the concrete run does not overflow'; that part is false for the program's own warnings and is kept as C44."},
 {"property": "C34", "status": "proved", "theorems": ["Props.C34_sound", "Props.C34_optimal_interval", "Props.C34_optimal", "Props.C34_other_unchanged", "Props.C34_other_unsound"], "note": ""},
 {"property": "C35", "status": "proved", "theorems": ["Props.C35_reduce_array_asm", "Props.C35_reduce_array_asm2", "Props.C35_reduce_array_twice_asm", "Props.C35_reduce_array_twice_asm2", "Props.C35_shift_array_asm", "Props.C35_correct_asm", "Props.C35_correct_differs_outside", "Props.C35_mul_reduce_array16_asm", "Props.C35_mul_reduce_array16_asm2", "Props.C35_mul_reduce_array_asm", "Props.C35_scalar_mul_reduce_array_asm"], "note": "correct_asm is proved equal to correct on [-65536, 65535], which contains the documented range [-Q, 2Q-1]; C35_correct_differs_outside shows that they differ just outside. Also proves the unused variants reduce_array_asm2, reduce_array_twice_asm2 and mul_reduce_array16_asm2. C tables and arrays are separate from the destination (no aliasing)."},
 {"property": "C36", "status": "proved", "theorems": ["Props.C36_ntt_red_ct_rev2std_asm", "Props.C36_ntt_red_ct_std2rev_asm", "Props.C36_ntt_red_gs_rev2std_asm", "Props.C36_ntt_red_gs_std2rev_asm", "Props.C36_mulntt_red_ct_rev2std_asm", "Props.C36_mulntt_red_ct_std2rev_asm", "Props.C36_nttmul_red_gs_rev2std_asm", "Props.C36_nttmul_red_gs_std2rev_asm", "Props.C36_total", "Props.C36_unit_heads"], "note": "Each equality is conditional on the C function returning (C20, C46 give sufficient conditions). The four plain transforms need p[2^m] = -4096, which C36_unit_heads proves of the generated tables; an example shows that the functions differ otherwise. C36_total: the assembly functions return and stay in bounds for all contents."},
 {"property": "C37", "status": "proved", "theorems": ["Props.C37_products", "Props.C37_product1_1024", "Props.C37_library", "Props.C37_agree"], "note": "C37_products covers products 1-5 with the common structure for every n = 2^k, 16 <= n <= 2048 and every accepted psi; C37_product1_1024 covers the special product1_asm of size 1024 with the tables of the library (psi = 1014), with one bound per block of the forward transform computed from the table in the kernel."},
 {"property": "C38", "status": "proved", "theorems": ["Props.C38_reciprocals", "Props.C38_exact_range", "Props.C38_modq"], "note": ""},
 {"property": "C39", "status": "proved", "theorems": ["Props.C39_ntt", "Props.C39_ntt_red", "Props.C39_ntt_naive", "Props.C39_elementwise", "Props.C39_shuffle_with_table", "Props.C39_scalar_mul", "Props.C39_mul_array", "Props.C39_products", "Props.C39_products_red", "Props.C39_products_naive", "Props.C39_products_fixed", "Props.C39_products_red_fixed", "Props.C39_products_naive_fixed"], "note": ""},
 {"property": "C40", "status": "proved", "theorems": ["Props.C40_sort"], "note": ""},
 {"property": "C41", "status": "proved", "theorems": ["Props.C41_ntt_ct_bounds", "Props.C41_returns", "Props.C41_documented_size", "Props.C41_mulntt_red_ct_rev2std", "Props.C41_mulntt_red_ct_std2rev", "Props.C41_ntt_red_ct_rev2std", "Props.C41_ntt_red_ct_std2rev"], "note": ""},
 {"property": "C42", "status": "proved", "theorems": ["Props.C42_ntt_gs_bounds", "Props.C42_nttmul_red_gs_rev2std", "Props.C42_nttmul_red_gs_std2rev", "Props.C42_ntt_red_gs_rev2std", "Props.C42_ntt_red_gs_std2rev"], "note": ""},
 {"property": "C43", "status": "partial", "theorems": ["Props.C43_overflow_not_detected", "Props.C43_red_mul_partial", "Props.C43_red_mul_returns_partial", "Props.C43_red_mul_unsound"], "note": "False as stated. C43_overflow_not_detected: add and sub perform the overflowing signed addition (undefined behaviour) before their check and never reach the abort. C43_red_mul_unsound: red_mul([-8193,0],[3,4]) misses a value. C43_red_mul_partial is soundness when the larger interval satisfies -max <= min; C43_red_mul_returns_partial gives conditions for it to return."},
 {"property": "C44", "status": "partial", "theorems": ["Props.C44_ct_no_warning_overflow", "Props.C44_gs_no_warning_overflow", "Props.C44_warnings_exact", "Props.C44_warnings2_exact"], "note": "False as stated: C44_ct_no_warning_overflow and C44_gs_no_warning_overflow exhibit warning-free abstract runs whose concrete run overflows. The conditional form with smaller thresholds is in the C33 theorems."},
 {"property": "C45", "status": "partial", "theorems": ["Props.C45_ntt_red_ct_rev2std_partial", "Props.C45_mulntt_red_ct_rev2std_partial", "Props.C45_ntt_red_ct_std2rev_partial", "Props.C45_mulntt_red_ct_std2rev_partial", "Props.C45_ntt_red_gs_rev2std_partial", "Props.C45_nttmul_red_gs_rev2std_partial", "Props.C45_ntt_red_gs_std2rev_partial", "Props.C45_nttmul_red_gs_std2rev_partial", "Props.C45_ct_unsound", "Props.C45_gs_unsound", "Props.C45_paper_unsound"], "note": "False as stated: C45_ct_unsound and C45_gs_unsound. The _partial theorems need table intervals with -max <= min, and the same for the multiplied elements (CT) or a condition on the centers of the pairs (GS). These conditions often fail after the first round for symmetric inputs, so they do not cover the typical use. C45_paper_unsound is a witness with the inputs and twiddle factors of the programs test_ntt_red1024c.c and test_ntt_red1024d.c."},
 {"property": "C46", "status": "proved", "theorems": ["Props.C46_ct", "Props.C46_gs", "Props.C46_1024"], "note": ""},
 {"property": "C47", "status": "partial", "theorems": ["Props.C47_reduce_array", "Props.C47_reduce_array_twice", "Props.C47_normalize", "Props.C47_normalize_inv3", "Props.C47_shift_array", "Props.C47_correct", "Props.C47_correct_abort", "Props.C47_mul_reduce_array16", "Props.C47_scalar_mul_reduce_array", "Props.C47_mul_reduce_array_partial", "Props.C47_mul_reduce_array_unsound"], "note": "Proved except for the product of two interval arrays, which is unsound (C47_mul_reduce_array_unsound, same cause as C43_red_mul_unsound); C47_mul_reduce_array_partial is soundness for intervals with -max <= min. Multiplication by a constant assumes a constant other than 0 (C43: red_scale asserts it)."},
 {"property": "C48", "status": "proved", "theorems": ["Props.C48_argument", "Props.C48_make_tables", "Props.C48_make_red_tables", "Props.C48_make_bitrev_table", "Props.C48_rejects", "Props.C48_buffer"], "note": "The reader of the generated text (SpecCText.lean) is a small independent C reader; it is part of the statement."},
 {"property": "C49", "status": "proved", "theorems": ["Props.C49_ntt_transforms", "Props.C49_naive_transforms", "Props.C49_red_transforms", "Props.C49_asm_transforms", "Props.C49_red_roundtrip", "Props.C49_asm_roundtrip"], "note": ""},
 {"property": "C50", "status": "proved", "theorems": ["Props.C50_asm_transforms", "Props.C50_asm_elementwise", "Props.C50_asm_mul", "Props.C50_asm_products", "Props.C50_asm_products_fixed", "Props.C50_asm_product1_1024_fixed"], "note": "Events are loads, stores (array, byte offset, bytes) and conditional jumps; between jumps the code is straight line. Latencies of the vector instructions themselves are outside the model."},
 {"property": "C51", "status": "proved", "theorems": ["Props.C51_destination", "Props.C51_same_operand", "Props.C51_same_operand_red", "Props.C51_same_operand_naive", "Props.C51_same_operand_asm"], "note": "C51_destination is for c distinct or equal to an operand; C51_same_operand* are the witnesses that a = b is not allowed. Arrays either coincide or do not overlap: partial overlap is not modelled."},
 {"property": "C52", "status": "proved", "theorems": ["Props.C52_threads", "Props.C52_shared_operand"], "note": "A step is one access to one array element (sequential consistency; the threads of the theorem share no array that is written, so that there is no data race). C52_shared_operand shows why operands must not be shared."},
 {"property": "C53", "status": "proved", "theorems": ["Props.C53_alone", "Props.C53_threads"], "note": "C53_alone is also the statement that no function reads or writes anything but its arguments. The function on array values is the model used in the other claims. The two pointwise products c = a * b (three arrays) are covered inside the products of C51 and C52."},
 {"property": "C54", "status": "proved", "theorems": ["Props.C54_ct", "Props.C54_gs", "Props.C54_ct_intervals", "Props.C54_gs_intervals", "Props.C54_programs", "Props.C54_programs_intervals"], "note": "C54_ct and C54_gs hold in both build modes. C54_*_intervals and C54_programs_intervals are about builds with NDEBUG, as in src/Makefile, and say nothing about soundness (C45). The growth bounds ctB and gsB are those of C46."},
 {"property": "C55", "status": "proved", "theorems": ["Props.C55_test_ntt", "Props.C55_test_naive_ntt", "Props.C55_test_ntt_red", "Props.C55_test_ntt_red_asm"], "note": "Events of the environment (random numbers, clock, uninitialised arrays) are a World; exit(1) after a message is the error abort. The speed tests that follow the tests in main are C57."},
 {"property": "C56", "status": "proved", "theorems": ["Props.C56_check_ntt_simple", "Props.C56_check_ntt_ntt_simple", "Props.C56_equal_simple_poly", "Props.C56_equal_arrays", "Props.C56_transform_std2rev", "Props.C56_transform_rev2std", "Props.C56_product", "Props.C56_linear_transform", "Props.C56_bilinear_product", "Props.C56_round_trips", "Props.C56_program"], "note": "Linearity is stated by a matrix, bilinearity by three-index coefficients. Without linearity the tests say nothing about other inputs. C56_program is about a complete run of the tests; for the exact programs it assumes that the transforms return reduced arrays in the round trips."},
 {"property": "C57", "status": "partial", "theorems": ["Props.C57_test_ntt_red_stops", "Props.C57_test_ntt_partial", "Props.C57_test_naive_ntt_partial", "Props.C57_asm_any_input", "Props.C57_test_ntt_red_asm_partial", "Props.C57_test_ntt_red16_overflow"], "note": "Proved for the exact, naive and AVX2 programs of all four sizes. False of test_ntt_red16.c, test_ntt_red256.c, test_ntt_red512.c and test_ntt_red1024.c: C57_test_ntt_red_stops proves, for every world, that the tests succeed and that the first speed test stops with a signed overflow or a failed assertion (C57_test_ntt_red16_overflow: an overflow for n = 16)."},
 {"property": "C58", "status": "proved", "theorems": ["Props.C58_known_answers", "Props.C58_kat_mul1024", "Props.C58_kat_mul1024_red", "Props.C58_kat_mul1024_red_asm", "Props.C58_success_means", "Props.C58_zero_fails"], "note": "The entries of the C arrays were extracted from the text by tools/genkat.py; the correctness of the 100 products is checked by the kernel through one multiplication of large numbers each. C58_zero_fails shows that the test rejects a wrong function."},
 {"property": "C59", "status": "proved", "theorems": ["Props.C59_ntt_history", "Props.C59_naive_history", "Props.C59_red_products", "Props.C59_asm_products", "Props.C59_red_history", "Props.C59_asm_history", "Props.C59_speed_mul1024", "Props.C59_speed_mul1024_naive", "Props.C59_speed_mul1024_red", "Props.C59_speed_mul1024_red_asm"], "note": "Interval [-25000, 25000] with bounds computed by the kernel from the actual twiddle tables of the four sizes (tools/genwide.py writes the rows for Gentleman-Sande)."},
 {"property": "C60", "status": "proved", "theorems": ["Props.C60_parameters", "Props.C60_test_ntt_tables", "Props.C60_test_ntt_red_tables", "Props.C60_test_ntt_sred_tables", "Props.C60_test_bitrev_tables", "Props.C60_ntt32_tables"], "note": "The entries were extracted from the text of /repo by tools/gentesttables.py, as one number per table (base 2^16); the checks are evaluated by the kernel over whole tables and lifted to the Spec predicates by lemmas (Proofs/TestTables.lean). ntt32_tables.c equals the output of make_tables 32 563 apart from the missing inv_psi_powers_rev."},
 {"property": "C61", "status": "proved", "theorems": ["Props.C61_versions", "Props.C61_products", "Props.C61_agree", "Props.C61_main", "Props.C61_simple_polys_meaning", "Props.C61_cross_check_meaning", "Props.C61_identity_fails", "Props.C61_other_root_fails"], "note": "The functions for one size are modelled once over a record of tables; size16, ..., size1024 are the records. KeepsArrays in the converse says that the tested function keeps the size and the element type, as every C function does."},
 {"property": "C62", "status": "proved", "theorems": ["Props.C62_versions", "Props.C62_tests", "Props.C62_main_stops"], "note": "The functions for one size are modelled once over a record of tables. What success of test_simple_polys means is C61_simple_polys_meaning: the two programs have the same text for it."},
 {"property": "C63", "status": "proved", "theorems": ["Props.C63_exact_sums", "Props.C63_chain_stops"], "note": "The exact bound on the number of calls depends on the table and the array; 65 holds for all."},
 {"property": "C64", "status": "proved", "theorems": ["Props.C64_main", "Props.C64_largest_interval", "Props.C64_mul_red_assertion", "Props.C64_bound_functions", "Props.C64_lines", "Props.C64_reductions"], "note": "The final theorem on lines covers the four printed lists; the bounds are sound, not claimed to be the least ones. The program computes with 64 bits; mul_red truncates the quotient to 32 bits, hence the overflow for the last 4096 products."},
 {"property": "C65", "status": "proved", "theorems": ["Props.C65_works_iff", "Props.C65_fails_iff", "Props.C65_test_all_approx", "Props.C65_full_range", "Props.C65_signed_fails", "Props.C65_signed_overflow", "Props.C65_signed_never_works", "Props.C65_signed_exact", "Props.C65_signed_bound_iff", "Props.C65_signed_works_iff", "Props.C65_signed_bound_never_fails", "Props.C65_main_overflow"], "note": "C65_main_overflow: undefined behaviour before the tests; the other theorems are about the tests taken separately."},
 {"property": "C66", "status": "proved", "theorems": ["Props.C66_output", "Props.C66_ct_safe", "Props.C66_gs_safe", "Props.C66_plain_ct_safe"], "note": "For the library as built, with -DNDEBUG. The functions called under if (false) are not modelled. The numbers printed for products, rounds and tables are characterised, not evaluated, in Lean."},
 {"property": "C67", "status": "proved", "theorems": ["Props.C67_overflow", "Props.C67_generator_overflow", "Props.C67_no_avx", "Props.C67_reductions", "Props.C67_correction_shift", "Props.C67_products", "Props.C67_tests", "Props.C67_generators", "Props.C67_cross_check_meaning", "Props.C67_generator_forever", "Props.C67_reference_overflows", "Props.C67_scalar_assertion"], "note": "The speed tests of test_avx are in the model but no theorem is stated about them. Errors other than a reported difference are listed and each is shown to occur."},
 {"property": "C68", "status": "proved", "theorems": ["Props.C68_product", "Props.C68_threads", "Props.C68_in_place", "Props.C68_in_place_threads", "Props.C68_longer_table", "Props.C68_longer_plain", "Props.C68_longer_scalar", "Props.C68_longer_naive", "Props.C68_overlap"], "note": "Not addressed: alignment, and pointers to elements of a type other than the declared one. The single functions are those listed in Shared.InPlace."},
 {"property": "C69", "status": "proved", "theorems": ["Props.C69_no_avx", "Props.C69_sizes", "Props.C69_agree", "Props.C69_comparisons", "Props.C69_meaning", "Props.C69_stops", "Props.C69_speed_test_stops"], "note": "C69_comparisons and C69_agree: the comparisons; C69_meaning: what success shows; C69_stops, C69_speed_test_stops: the measurement. All 48 comparisons succeed because of the bounds of C72 for the actual tables. The printed text is not modelled."},
 {"property": "C70", "status": "proved", "theorems": ["Props.C70_tables", "Props.C70_any_table", "Props.C70_mul_red", "Props.C70_other_assertions"], "note": "Of the copy of ntt_red.c in verifier/vstte20-benchmarks the functions called by the eight programs are modelled (mul_red and four transforms). The Crab intrinsic is any function that computes red on the asserted range. What the analyser reports is not modelled (C34 treats its transfer function)."},
 {"property": "C71", "status": "proved", "theorems": ["Props.C71_files", "Props.C71_parameters"], "note": "The files are transcribed as lists of numbers."},
 {"property": "C72", "status": "proved", "theorems": ["Props.C72_range", "Props.C72_growth", "Props.C72_maximal", "Props.C72_exact"], "note": "C72_range and C72_growth: correctness and bounds; C72_maximal: the overflow beyond the range; C72_exact: both as an equivalence for the six transforms for which the range is maximal. For the two mulntt_red_ct transforms the range is not claimed to be maximal."},
 {"property": "C73", "status": "proved", "theorems": ["Props.C73_transforms_same", "Props.C73_arrays_same", "Props.C73_products_same", "Props.C73_products", "Props.C73_computes", "Props.C73_range", "Props.C73_transforms_memory", "Props.C73_products_memory", "Props.C73_maximal", "Props.C73_chain_stops", "Props.C73_mul_red", "Props.C73_mul_red_correct", "Props.C73_mul_red_wrong", "Props.C73_silent", "Props.C73_bitrev", "Props.C73_bitrev_any", "Props.C73_bitrev_zero"], "note": "C73_*_same: both builds agree; C73_products, C73_computes, C73_range: correctness as built; C73_*_memory: arbitrary contents; C73_maximal, C73_chain_stops: where it overflows; C73_mul_red*, C73_silent: the multiplication and a wrong result without error; C73_bitrev*: the shuffle."},
 {"property": "C74", "status": "proved", "theorems": ["Props.C74_commutative", "Props.C74_associative", "Props.C74_key_agreement", "Props.C74_distributive", "Props.C74_monomial", "Props.C74_one", "Props.C74_zero_divisors", "Props.C74_inverse_computed", "Props.C74_invertible_iff", "Props.C74_inverse_unique", "Props.C74_library"], "note": "The sum modulo Q and the inversion of the components are the caller's: the library has no function for them. The naive products are not included (their results are not canonical, C23)."},
 {"property": "C75", "status": "proved", "theorems": ["Props.C75_ntt", "Props.C75_ntt_red", "Props.C75_ntt_naive", "Props.C75_elementwise", "Props.C75_tests", "Props.C75_shuffle_with_table", "Props.C75_scalar_mul", "Props.C75_mul_array", "Props.C75_products", "Props.C75_products_red", "Props.C75_products_red_shift", "Props.C75_products_naive", "Props.C75_products_fixed", "Props.C75_products_red_fixed", "Props.C75_products_red_shift_fixed", "Props.C75_products_red_shift_differ"], "note": "Tests of the C source; the time of instructions and the translation by the compiler are not modelled. C75_*_shift*, C75_tests: what the events reveal, exactly."},
 {"property": "C76", "status": "proved", "theorems": ["Props.C76_elementwise", "Props.C76_correct", "Props.C76_mul_reduce_array16", "Props.C76_mul_reduce_array", "Props.C76_scalar_mul_reduce_array", "Props.C76_transforms", "Props.C76_transforms_return", "Props.C76_avx2_supported", "Props.C76_count_width"], "note": "The text of the functions is translated mechanically (tools/gencode.py). Lane arithmetic of the vector instructions as in Model/Avx.lean; flags other than CF and ZF, instruction encoding and the assembler are not modelled."},
 {"property": "C77", "status": "proved", "theorems": ["Props.C77_products", "Props.C77_product1_1024", "Props.C77_library", "Props.C77_calls_possible"], "note": "The body of each product is modelled as the list of its calls (Model/AsmCalls.lean); the instructions that the compiler emits for the body itself are covered by quantifying over all behaviours of the caller that put the arguments in their registers and leave arrays, tables and data section alone."},
 {"property": "C78", "status": "proved", "theorems": ["Props.C78_access", "Props.C78_changes", "Props.C78_depends", "Props.C78_trace_of_run", "Props.C78_trace", "Props.C78_avx2_supported", "Props.C78_products"], "note": "Instructions executed and addresses accessed; the time an instruction takes, caches and speculation are not modelled. Compared are executions on the same machine. C78_access, C78_changes and C78_depends say that the recorded access is the access of the instruction."},
 {"property": "C79", "status": "proved", "theorems": ["Props.C79_library", "Props.C79_prop1", "Props.C79_prop2", "Props.C79_prop3", "Props.C79_prop4", "Props.C79_safe", "Props.C79_safe_largest", "Props.C79_safe_numbers", "Props.C79_safe_factor", "Props.C79_safe_factor_largest", "Props.C79_ct", "Props.C79_gs", "Props.C79_update_bounds_false", "Props.C79_last_factor", "Props.C79_tight", "Props.C79_steps", "Props.C79_sequences", "Props.C79_sequences_reduced", "Props.C79_product_positive", "Props.C79_product_centred", "Props.C79_option1_ct", "Props.C79_option1_gs", "Props.C79_option2_ct", "Props.C79_option2_gs", "Props.C79_option1_product_ct", "Props.C79_option1_product_gs", "Props.C79_option2_product_ct", "Props.C79_option2_product_gs", "Props.C79_printed", "Props.C79_conclusion"], "note": "Integers without bounds; that the C functions compute red on the safe range is C19. The statements of src/notes.txt:70-71 and 146 are false (C79_update_bounds_false)."},
 {"property": "C80", "status": "proved", "theorems": ["Props.C80_shift", "Props.C80_mask", "Props.C80_mask_range", "Props.C80_sub_mod", "Props.C80_add_mod", "Props.C80_fourteen", "Props.C80_correct", "Props.C80_correct_range", "Props.C80_test_shift"], "note": "That a shift of a negative number is arithmetic is implementation-defined in C and part of the trusted reading (CSem.lean)."},
 {"property": "C81", "status": "proved", "theorems": ["Props.C81_no_crash", "Props.C81_product", "Props.C81_returns", "Props.C81_writes", "Props.C81_finish"], "note": "An instruction is executed as a whole and its effect is seen at once by all threads (sequential consistency). The hypotheses say that what a thread writes (arrays, stack) is not read by the calls of another."},
 {"property": "C82", "status": "proved", "theorems": ["Props.C82_ntt_red16", "Props.C82_ntt_red256", "Props.C82_ntt_red512", "Props.C82_ntt_red1024", "Props.C82_ntt16", "Props.C82_ntt256", "Props.C82_ntt512", "Props.C82_ntt1024", "Props.C82_naive_ntt16", "Props.C82_naive_ntt256", "Props.C82_naive_ntt512", "Props.C82_naive_ntt1024", "Props.C82_ntt_red_c", "Props.C82_ntt_c", "Props.C82_naive_ntt_c", "Props.C82_bitrev"], "note": "The text is quoted in Lean (Model/Src, written by tools/gensrc.py) and read by a lexer and a parser written in Lean (Model/CRead.lean); the kernel evaluates the reading. The meaning of the language is Model/CLang.lean. #include lines are not followed: the files of one program are read one after the other, and the tables are global constants with the contents of the generated files."},
 {"property": "C83", "status": "proved", "theorems": ["Props.C83_text", "Props.C83_elementwise", "Props.C83_multiply", "Props.C83_transforms", "Props.C83_avx2_supported", "Props.C83_products16", "Props.C83_products256", "Props.C83_products512", "Props.C83_products1024", "Props.C83_calls_possible"], "note": "The text is quoted in Lean (Model/Src/NttAsm.lean, Model/Src/NttRedAsm*.lean, written by tools/gensrc.py) and read by Model/AsmRead.lean and Model/CRead.lean; the kernel evaluates the reading. The instructions have the meaning of Model/X86.lean. The C of the products is calls only: Model/CCalls.lean lists them. __APPLE__ is not defined. The first product for 1024 is for the psi of the Makefile (as in C37)."},
 {"property": "C84", "status": "proved", "theorems": ["Props.C84_make_tables", "Props.C84_make_red_tables", "Props.C84_make_bitrev_table"], "note": "The text is quoted in Lean (Model/Src/Make*.lean, written by tools/gensrc.py). CLang.readSome reads the functions that are written in the language of Model/CLang.lean; main, the print functions and the functions with FILE are not among them (their output is modelled in Model/TableFiles.lean: C60-C62, C25, C26, C28)."},
 {"property": "C85", "status": "proved", "theorems": ["Props.C85_sort"], "note": "The text is quoted in Lean (Model/Src/Sort.lean, written by tools/gensrc.py); all four functions are read."},
 {"property": "C86", "status": "proved", "theorems": ["Props.C86_ntt", "Props.C86_ntt_red"], "note": "Joins C48 (the files can be read back), C25-C27 (the tables) and C82 (the text of the products). The meaning of the written files is that of SpecTableFiles.lean (readC) and SpecBuild.lean (Linked): each array and constant exists in the program under its name with its values."},
 {"property": "C87", "status": "proved", "theorems": ["Props.C87_max_red", "Props.C87_min_red", "Props.C87_max_red_mul", "Props.C87_min_red_mul"], "note": "The text is quoted in Lean (Model/Src/RedBounds.lean, written by tools/gensrc.py). The functions red, divd, remd, max_red, min_red, gcd4096, lmax, lmin, max_red_mul, min_red_mul; the other functions of the file are in C89."},
 {"property": "C88", "status": "proved", "theorems": ["Props.C88_calls", "Props.C88_returns", "Props.C88_returns_at", "Props.C88_multiplies", "Props.C88_changes", "Props.C88_computes", "Props.C88_decides", "Props.C88_finds", "Props.C88_fills", "Props.C88_maximizes", "Props.C88_minimizes", "Props.C88_ntt_red1024", "Props.C88_assertion"], "note": "`release P` (Model/CLang.lean) are the functions of P without their assert statements. One theorem for calls, one for results, and one for each of the notions in which C82, C84, C87 are stated; C88_ntt_red1024 as an instance; C88_assertion shows that the converse fails."},
 {"property": "C89", "status": "proved", "theorems": ["Props.C89_max_red_mul_interval", "Props.C89_min_red_mul_interval", "Props.C89_ct_bound", "Props.C89_gs_bound", "Props.C89_ct_bound_fixed", "Props.C89_gs_bound_fixed", "Props.C89_ntt_ct_bounds", "Props.C89_ntt_gs_bounds"], "note": "The rest of src/red_bounds.c. A call with addresses of variables is a statement x = g(args, &y, ...): while g runs, the variables are objects of their own at the positions from sp on (sp: the first object that is not in use), whose contents are copied back afterwards; a variable without value has whatever was there. `direct` makes calls of functions that themselves contain such calls statements. With assertions; C88 gives the same without. min_red_mul_interval, ct_bound and gs_bound with an end point 0 fail an assertion; what they do without assertions is C30, C31 (hand-written model)."},
 {"property": "C90", "status": "proved", "theorems": ["Props.C90_products", "Props.C90_product1_1024"], "note": "Joins C48 (the files written by make_red_tables can be read back) and C83 (the text of the AVX2 products and of ntt_asm.S). SpecAsmBuild.lean (AsmLinked): the memory holds each table of the files under the name that the products use; nothing is assumed about tables that the files do not define."},
 {"property": "C91", "status": "proved", "theorems": ["Props.C91_declarations", "Props.C91_table", "Props.C91_lines", "Props.C91_red_declarations", "Props.C91_red_table", "Props.C91_red_lines", "Props.C91_bitrev"], "note": "fprintf is a statement of Model/CLang.lean: the format is read from the text (Model/CRead.lean; literals, %u, %5u, %d, %5d, %s and the macros PRIu32, PRId32), each conversion checks the type of its argument. A file is an object that contains the characters written so far; failures of fprintf are not modelled. `p->x` is an element of the array that stands for the structure (all members are uint32_t). The result is stated by the reader of C files of C48 (SpecCText.lean). print_tables is in C92. Not here: open_file and main; C48 has them in the hand-written model."},
 {"property": "C92", "status": "proved", "theorems": ["Props.C92_tables", "Props.C92_red_tables", "Props.C92_files", "Props.C92_red_files", "Props.C92_products", "Props.C92_red_products"], "note": "malloc is a statement of Model/CLang.lean that gives the next free object, with contents that depend on what the object held before (any values, so the theorems hold for all contents); malloc is taken to succeed, so the branch for NULL is read but not executed. free empties the object. C92_files and C92_red_files join the text of the functions that print with the hand-written model of main (C48): the file of the model is the text written by the code, so C48, C86 and C90 hold for what the text writes. Not here: open_file, and main's reading of arguments. C92_products and C92_red_products join the files with the products (C86, C90)."},
 {"property": "C93", "status": "proved", "theorems": ["Props.C93_ntt_red16", "Props.C93_ntt_red256", "Props.C93_ntt_red512", "Props.C93_ntt_red1024", "Props.C93_ntt16", "Props.C93_ntt256", "Props.C93_ntt512", "Props.C93_ntt1024", "Props.C93_naive_ntt16", "Props.C93_naive_ntt256", "Props.C93_naive_ntt512", "Props.C93_naive_ntt1024", "Props.C93_ntt", "Props.C93_ntt_red", "Props.C93_naive_ntt", "Props.C93_shuffle_with_table", "Props.C93_tests", "Props.C93_release", "Props.C93_release_products", "Props.C93_release_transforms"], "note": "SpecSourceTrace.lean: the trace functions follow eval and exec of Model/CLang.lean and use their results, so the trace is that of the executed text. Addresses are pairs of object and position. Not in the trace: the time of an operation (for example division in src/naive_ntt.c), accesses to local variables, failed assertions (removed by -DNDEBUG). Proof: labels for variables (Proofs/CTraceCheck.lean), a check that every index, test and written pointer is public, evaluated by the kernel on the functions that were read, and one proof that accepted functions show the same (Proofs/CTrace.lean); C82 says that the calls return. OnlyTables: the program has no global arrays except the tables. The products of ntt_red16, ntt_red256 and ntt_red512 call shift_array and are not included (C93_tests, C75). C93_release, C93_release_products, C93_release_transforms: the same for the program without assertions."},
 {"property": "C94", "status": "proved", "theorems": ["Props.C94_ntt_red16", "Props.C94_ntt_red256", "Props.C94_ntt_red512", "Props.C94_ntt_red1024", "Props.C94_ntt16", "Props.C94_ntt256", "Props.C94_ntt512", "Props.C94_ntt1024", "Props.C94_naive_ntt16", "Props.C94_naive_ntt256", "Props.C94_naive_ntt512", "Props.C94_naive_ntt1024", "Props.C94_files_ntt", "Props.C94_files_naive_ntt", "Props.C94_files_ntt_red"], "note": "MultipliesInPlace (SpecSourceInPlace.lean) is Multiplies of C82 with the destination in one of the operands. Each theorem covers the program as read and the program without assertions. That the operands must be two arrays is shown in the model (C51). For the AVX2 products the text theorems (C83) already allow the destination to be an operand. C94_files_*: joined with the files written by the generators (C86), with the destination in any array; C94_files_naive_ntt also covers the naive libraries, which C86 does not."},
 {"property": "C95", "status": "proved", "theorems": ["Props.C95_equal_arrays", "Props.C95_transforms", "Props.C95_products"], "note": "SpecSourceChecks.lean. The functions are read from the text with readSome (Model/CRead.lean), which skips what is not in the language: the functions with function pointers, printf or inline assembly (test_simple_polys, test_simple_product, speed tests, main) are not included; for their loops see the models of the test programs (Model/TestPrograms.lean, Model/TestNtt.lean, Model/TestNttRed.lean). The kernel evaluates that the functions of the 18 files are the same terms (Model/Src/Test*.lean)."},
 {"property": "C96", "status": "proved", "theorems": ["Props.C96_max_abs_red", "Props.C96_remainders", "Props.C96_reductions"], "note": "SpecSourceMod.lean. The functions are read from the text with readSome (Model/CRead.lean), which skips the functions that print; for those see C64 and C65, which are about the models Model/TestRed.lean and Model/TestMod.lean. INT32_MAX and INT32_MIN are global variables with these values (Limits); the text does not assign them. C96_max_abs_red (Props/SourceAbs.lean) joins the texts of test_red_bounds.c and red_bounds.c; the functions of test_red_bounds.c that print are in the model only (C66)."},
 {"property": "C97", "status": "proved", "theorems": ["Props.C97_same_array", "Props.C97_roots", "Props.C97_compared", "Props.C97_arrays"], "note": "SpecSourceAvx.lean: the list of the 48 comparisons names the functions, the size, the table and its entries; the statement does not mention the models. cross_check, which draws the arrays and calls the functions through pointers, is not in the language and is in the model only (C69). That the source file is one file with #if 0 parts: readSome removes preprocessor lines; none of the functions used here is inside such a part. The transform each function computes is in the list meanings (SpecSourceAvx.lean); C97_roots shows that the numbers in roots are roots of unity of the right order. C97_compared: the list of the comparisons is what run_tests and tests16 to tests2048 say, taken from the tokens of the text."},
 {"property": "C98", "status": "proved", "theorems": ["Props.C98_one_array", "Props.C98_table", "Props.C98_arrays", "Props.C98_scalar"], "note": "SpecSourceBoth.lean; the statements do not mention the models. The arrays a and b of mul_reduce_array are apart from the result; for operands that are the result itself see C82 and C83."}
]}
