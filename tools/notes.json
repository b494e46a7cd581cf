{
 "C19": {
  "status": "partial",
  "note": "The claim as documented is false: C19_documented_range_false exhibits an overflow inside the documented range and C19_overflow_iff shows it happens exactly for products >= 2^43. C19_no_overflow_partial is the claim for products < 2^43."
 },
 "C20": {
  "note": "For n = 2048 the Gentleman-Sande bounds use that the first entries of a table are roots of unity of small order divided by 3, hence smaller than 6144 whatever psi is (Proofs/Levels.lean)."
 },
 "C23": {
  "note": "The property states the range (-Q,Q), which is proved. The headers' stronger promise [0,Q-1] is false: C23_documented_range_false."
 },
 "C43": {
  "status": "partial",
  "note": "False as stated. C43_overflow_not_detected: add and sub perform the overflowing signed addition (undefined behaviour) before their check and never reach the abort. C43_red_mul_unsound: red_mul([-8193,0],[3,4]) misses a value. C43_red_mul_partial is soundness when the larger interval satisfies -max <= min; C43_red_mul_returns_partial gives conditions for it to return."
 },
 "C33": {
  "note": "The statement first listed ended with 'so an overflow-free abstract run implies the concrete run does not overflow'; that part is false for the program's own warnings and is kept as C44."
 },
 "C44": {
  "status": "partial",
  "note": "False as stated: C44_ct_no_warning_overflow and C44_gs_no_warning_overflow exhibit warning-free abstract runs whose concrete run overflows. The conditional form with smaller thresholds is in the C33 theorems."
 },
 "C45": {
  "status": "partial",
  "note": "False as stated: C45_ct_unsound and C45_gs_unsound. The _partial theorems need table intervals with -max <= min, and the same for the multiplied elements (CT) or a condition on the centers of the pairs (GS). These conditions often fail after the first round for symmetric inputs, so they do not cover the typical use. C45_paper_unsound is a witness with the inputs and twiddle factors of the programs test_ntt_red1024c.c and test_ntt_red1024d.c."
 },
 "C35": {
  "note": "correct_asm is proved equal to correct on [-65536, 65535], which contains the documented range [-Q, 2Q-1]; C35_correct_differs_outside shows that they differ just outside. Also proves the unused variants reduce_array_asm2, reduce_array_twice_asm2 and mul_reduce_array16_asm2. C tables and arrays are separate from the destination (no aliasing)."
 },
 "C36": {
  "note": "Each equality is conditional on the C function returning (C20, C46 give sufficient conditions). The four plain transforms need p[2^m] = -4096, which C36_unit_heads proves of the generated tables; an example shows that the functions differ otherwise. C36_total: the assembly functions return and stay in bounds for all contents."
 },
 "C37": {
  "note": "C37_products covers products 1-5 with the common structure for every n = 2^k, 16 <= n <= 2048 and every accepted psi; C37_product1_1024 covers the special product1_asm of size 1024 with the tables of the library (psi = 1014), with one bound per block of the forward transform computed from the table in the kernel."
 },
 "C47": {
  "note": "Proved except for the product of two interval arrays, which is unsound (C47_mul_reduce_array_unsound, same cause as C43_red_mul_unsound); C47_mul_reduce_array_partial is soundness for intervals with -max <= min. Multiplication by a constant assumes a constant other than 0 (C43: red_scale asserts it)."
 },
 "C50": {
  "note": "Events are loads, stores (array, byte offset, bytes) and conditional jumps; between jumps the code is straight line. Latencies of the vector instructions themselves are outside the model."
 },
 "C48": {
  "note": "The reader of the generated text (SpecCText.lean) is a small independent C reader; it is part of the statement."
 },
 "C51": {
  "note": "C51_destination is for c distinct or equal to an operand; C51_same_operand* are the witnesses that a = b is not allowed. Arrays either coincide or do not overlap: partial overlap is not modelled."
 },
 "C52": {
  "note": "A step is one access to one array element (sequential consistency; the threads of the theorem share no array that is written, so that there is no data race). C52_shared_operand shows why operands must not be shared."
 },
 "C53": {
  "note": "C53_alone is also the statement that no function reads or writes anything but its arguments. The function on array values is the model used in the other claims. The two pointwise products c = a * b (three arrays) are covered inside the products of C51 and C52."
 },
 "C54": {
  "note": "C54_ct and C54_gs hold in both build modes. C54_*_intervals and C54_programs_intervals are about builds with NDEBUG, as in src/Makefile, and say nothing about soundness (C45). The growth bounds ctB and gsB are those of C46."
 },
 "C55": {
  "note": "Events of the environment (random numbers, clock, uninitialised arrays) are a World; exit(1) after a message is the error abort. The speed tests that follow the tests in main are C57."
 },
 "C56": {
  "note": "Linearity is stated by a matrix, bilinearity by three-index coefficients. Without linearity the tests say nothing about other inputs. C56_program is about a complete run of the tests; for the exact programs it assumes that the transforms return reduced arrays in the round trips."
 },
 "C57": {
  "status": "partial",
  "note": "Proved for the exact, naive and AVX2 programs of all four sizes. False of test_ntt_red16.c, test_ntt_red256.c, test_ntt_red512.c and test_ntt_red1024.c: C57_test_ntt_red_stops proves, for every world, that the tests succeed and that the first speed test stops with a signed overflow or a failed assertion (C57_test_ntt_red16_overflow: an overflow for n = 16)."
 },
 "C58": {
  "note": "The entries of the C arrays were extracted from the text by tools/genkat.py; the correctness of the 100 products is checked by the kernel through one multiplication of large numbers each. C58_zero_fails shows that the test rejects a wrong function."
 },
 "C59": {
  "note": "Interval [-25000, 25000] with bounds computed by the kernel from the actual twiddle tables of the four sizes (tools/genwide.py writes the rows for Gentleman-Sande)."
 },
 "C60": {
  "note": "The entries were extracted from the text of /repo by tools/gentesttables.py, as one number per table (base 2^16); the checks are evaluated by the kernel over whole tables and lifted to the Spec predicates by lemmas (Proofs/TestTables.lean). ntt32_tables.c equals the output of make_tables 32 563 apart from the missing inv_psi_powers_rev."
 },
 "C61": {
  "note": "The functions for one size are modelled once over a record of tables; size16, ..., size1024 are the records. KeepsArrays in the converse says that the tested function keeps the size and the element type, as every C function does."
 },
 "C62": {
  "note": "The functions for one size are modelled once over a record of tables. What success of test_simple_polys means is C61_simple_polys_meaning: the two programs have the same text for it."
 },
 "C63": {
  "note": "The exact bound on the number of calls depends on the table and the array; 65 holds for all."
 },
 "C64": {
  "note": "The final theorem on lines covers the four printed lists; the bounds are sound, not claimed to be the least ones. The program computes with 64 bits; mul_red truncates the quotient to 32 bits, hence the overflow for the last 4096 products."
 },
 "C65": {
  "note": "C65_main_overflow: undefined behaviour before the tests; the other theorems are about the tests taken separately."
 },
 "C66": {
  "note": "For the library as built, with -DNDEBUG. The functions called under if (false) are not modelled. The numbers printed for products, rounds and tables are characterised, not evaluated, in Lean."
 },
 "C67": {
  "note": "The speed tests of test_avx are in the model but no theorem is stated about them. Errors other than a reported difference are listed and each is shown to occur."
 },
 "C68": {
  "note": "Not addressed: alignment, and pointers to elements of a type other than the declared one. The single functions are those listed in Shared.InPlace."
 },
 "C69": {
  "note": "C69_comparisons and C69_agree: the comparisons; C69_meaning: what success shows; C69_stops, C69_speed_test_stops: the measurement. All 48 comparisons succeed because of the bounds of C72 for the actual tables. The printed text is not modelled."
 },
 "C70": {
  "note": "Of the copy of ntt_red.c in verifier/vstte20-benchmarks the functions called by the eight programs are modelled (mul_red and four transforms). The Crab intrinsic is any function that computes red on the asserted range. What the analyser reports is not modelled (C34 treats its transfer function)."
 },
 "C71": {
  "note": "The files are transcribed as lists of numbers."
 },
 "C72": {
  "note": "C72_range and C72_growth: correctness and bounds; C72_maximal: the overflow beyond the range; C72_exact: both as an equivalence for the six transforms for which the range is maximal. For the two mulntt_red_ct transforms the range is not claimed to be maximal."
 },
 "C73": {
  "note": "C73_*_same: both builds agree; C73_products, C73_computes, C73_range: correctness as built; C73_*_memory: arbitrary contents; C73_maximal, C73_chain_stops: where it overflows; C73_mul_red*, C73_silent: the multiplication and a wrong result without error; C73_bitrev*: the shuffle."
 },
 "C74": {
  "note": "The sum modulo Q and the inversion of the components are the caller's: the library has no function for them. The naive products are not included (their results are not canonical, C23)."
 },
 "C75": {
  "note": "Tests of the C source; the time of instructions and the translation by the compiler are not modelled. C75_*_shift*, C75_tests: what the events reveal, exactly."
 },
 "C76": {
  "note": "The text of the functions is translated mechanically (tools/gencode.py). Lane arithmetic of the vector instructions as in Model/Avx.lean; flags other than CF and ZF, instruction encoding and the assembler are not modelled."
 },
 "C77": {
  "note": "The body of each product is modelled as the list of its calls (Model/AsmCalls.lean); the instructions that the compiler emits for the body itself are covered by quantifying over all behaviours of the caller that put the arguments in their registers and leave arrays, tables and data section alone."
 },
 "C78": {
  "note": "Instructions executed and addresses accessed; the time an instruction takes, caches and speculation are not modelled. Compared are executions on the same machine. C78_access, C78_changes and C78_depends say that the recorded access is the access of the instruction."
 },
 "C79": {
  "note": "Integers without bounds; that the C functions compute red on the safe range is C19. The statements of src/notes.txt:70-71 and 146 are false (C79_update_bounds_false)."
 },
 "C80": {
  "note": "That a shift of a negative number is arithmetic is implementation-defined in C and part of the trusted reading (CSem.lean)."
 },
 "C81": {
  "note": "An instruction is executed as a whole and its effect is seen at once by all threads (sequential consistency). The hypotheses say that what a thread writes (arrays, stack) is not read by the calls of another."
 },
 "C82": {
  "note": "The text is quoted in Lean (Model/Src, written by tools/gensrc.py) and read by a lexer and a parser written in Lean (Model/CRead.lean); the kernel evaluates the reading. The meaning of the language is Model/CLang.lean. #include lines are not followed: the files of one program are read one after the other, and the tables are global constants with the contents of the generated files."
 },
 "C83": {
  "note": "The text is quoted in Lean (Model/Src/NttAsm.lean, Model/Src/NttRedAsm*.lean, written by tools/gensrc.py) and read by Model/AsmRead.lean and Model/CRead.lean; the kernel evaluates the reading. The instructions have the meaning of Model/X86.lean. The C of the products is calls only: Model/CCalls.lean lists them. __APPLE__ is not defined. The first product for 1024 is for the psi of the Makefile (as in C37)."
 },
 "C84": {
  "note": "The text is quoted in Lean (Model/Src/Make*.lean, written by tools/gensrc.py). CLang.readSome reads the functions that are written in the language of Model/CLang.lean; main, the print functions and the functions with FILE are not among them (their output is modelled in Model/TableFiles.lean: C60-C62, C25, C26, C28)."
 },
 "C85": {
  "note": "The text is quoted in Lean (Model/Src/Sort.lean, written by tools/gensrc.py); all four functions are read."
 },
 "C86": {
  "note": "Joins C48 (the files can be read back), C25-C27 (the tables) and C82 (the text of the products). The meaning of the written files is that of SpecTableFiles.lean (readC) and SpecBuild.lean (Linked): each array and constant exists in the program under its name with its values."
 },
 "C87": {
  "note": "The text is quoted in Lean (Model/Src/RedBounds.lean, written by tools/gensrc.py). The functions red, divd, remd, max_red, min_red, gcd4096, lmax, lmin, max_red_mul, min_red_mul; the other functions of the file are in C89."
 },
 "C88": {
  "note": "`release P` (Model/CLang.lean) are the functions of P without their assert statements. One theorem for calls, one for results, and one for each of the notions in which C82, C84, C87 are stated; C88_ntt_red1024 as an instance; C88_assertion shows that the converse fails."
 },
 "C89": {
  "note": "The rest of src/red_bounds.c. A call with addresses of variables is a statement x = g(args, &y, ...): while g runs, the variables are objects of their own at the positions from sp on (sp: the first object that is not in use), whose contents are copied back afterwards; a variable without value has whatever was there. `direct` makes calls of functions that themselves contain such calls statements. With assertions; C88 gives the same without. min_red_mul_interval, ct_bound and gs_bound with an end point 0 fail an assertion; what they do without assertions is C30, C31 (hand-written model)."
 },
 "C90": {
  "note": "Joins C48 (the files written by make_red_tables can be read back) and C83 (the text of the AVX2 products and of ntt_asm.S). SpecAsmBuild.lean (AsmLinked): the memory holds each table of the files under the name that the products use; nothing is assumed about tables that the files do not define."
 },
 "C91": {
  "note": "fprintf is a statement of Model/CLang.lean: the format is read from the text (Model/CRead.lean; literals, %u, %5u, %d, %5d, %s and the macros PRIu32, PRId32), each conversion checks the type of its argument. A file is an object that contains the characters written so far; failures of fprintf are not modelled. `p->x` is an element of the array that stands for the structure (all members are uint32_t). The result is stated by the reader of C files of C48 (SpecCText.lean). print_tables is in C92. Not here: open_file and main; C48 has them in the hand-written model."
 },
 "C92": {
  "note": "malloc is a statement of Model/CLang.lean that gives the next free object, with contents that depend on what the object held before (any values, so the theorems hold for all contents); malloc is taken to succeed, so the branch for NULL is read but not executed. free empties the object. C92_files and C92_red_files join the text of the functions that print with the hand-written model of main (C48): the file of the model is the text written by the code, so C48, C86 and C90 hold for what the text writes. Not here: open_file, and main's reading of arguments. C92_products and C92_red_products join the files with the products (C86, C90)."
 },
 "C93": {
  "note": "SpecSourceTrace.lean: the trace functions follow eval and exec of Model/CLang.lean and use their results, so the trace is that of the executed text. Addresses are pairs of object and position. Not in the trace: the time of an operation (for example division in src/naive_ntt.c), accesses to local variables, failed assertions (removed by -DNDEBUG). Proof: labels for variables (Proofs/CTraceCheck.lean), a check that every index, test and written pointer is public, evaluated by the kernel on the functions that were read, and one proof that accepted functions show the same (Proofs/CTrace.lean); C82 says that the calls return. OnlyTables: the program has no global arrays except the tables. The products of ntt_red16, ntt_red256 and ntt_red512 call shift_array and are not included (C93_tests, C75). C93_release, C93_release_products, C93_release_transforms: the same for the program without assertions."
 },
 "C94": {
  "note": "MultipliesInPlace (SpecSourceInPlace.lean) is Multiplies of C82 with the destination in one of the operands. Each theorem covers the program as read and the program without assertions. That the operands must be two arrays is shown in the model (C51). For the AVX2 products the text theorems (C83) already allow the destination to be an operand. C94_files_*: joined with the files written by the generators (C86), with the destination in any array; C94_files_naive_ntt also covers the naive libraries, which C86 does not."
 },
 "C95": {
  "note": "SpecSourceChecks.lean. The functions are read from the text with readSome (Model/CRead.lean), which skips what is not in the language: the functions with function pointers, printf or inline assembly (test_simple_polys, test_simple_product, speed tests, main) are not included; for their loops see the models of the test programs (Model/TestPrograms.lean, Model/TestNtt.lean, Model/TestNttRed.lean). The kernel evaluates that the functions of the 18 files are the same terms (Model/Src/Test*.lean)."
 },
 "C96": {
  "note": "SpecSourceMod.lean. The functions are read from the text with readSome (Model/CRead.lean), which skips the functions that print; for those see C64 and C65, which are about the models Model/TestRed.lean and Model/TestMod.lean. INT32_MAX and INT32_MIN are global variables with these values (Limits); the text does not assign them. C96_max_abs_red (Props/SourceAbs.lean) joins the texts of test_red_bounds.c and red_bounds.c; the functions of test_red_bounds.c that print are in the model only (C66)."
 },
 "C97": {
  "note": "SpecSourceAvx.lean: the list of the 48 comparisons names the functions, the size, the table and its entries; the statement does not mention the models. cross_check, which draws the arrays and calls the functions through pointers, is not in the language and is in the model only (C69). That the source file is one file with #if 0 parts: readSome removes preprocessor lines; none of the functions used here is inside such a part. The transform each function computes is in the list meanings (SpecSourceAvx.lean); C97_roots shows that the numbers in roots are roots of unity of the right order. C97_compared: the list of the comparisons is what run_tests and tests16 to tests2048 say, taken from the tokens of the text."
 },
 "C98": {
  "note": "SpecSourceBoth.lean; the statements do not mention the models. The arrays a and b of mul_reduce_array are apart from the result; for operands that are the result itself see C82 and C83."
 }
}