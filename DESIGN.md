# Formal model of SRI-CSL/NTT in Lean 4

## 1. Approach

The C code is modelled by executable Lean functions in an error monad `M := Except Err`.
Every operation that can be undefined behaviour (UB) in C is a checked operation:

* signed 32/64-bit overflow -> `Err.overflow`
* array access outside the array -> `Err.oob`
* failed `assert`, `abort()`/`exit` -> `Err.assertFail`, `Err.abort`
* division by zero -> `Err.divZero`
* a loop that exceeds its fuel -> `Err.nonterm`

Unsigned arithmetic wraps modulo 2^32 (loop counters included); conversions to `int32_t` wrap (gcc/clang
behaviour); `>>` on signed values is arithmetic; `%` truncates.  A theorem whose conclusion is
`f args = .ok r /\ ...` therefore states termination, memory safety, absence of UB and the
functional result at once.

Layers:

1. `Verif/CSem.lean`  machine semantics (monad, checked arithmetic, arrays, loops).
2. `Verif/Model/*.lean`  the code, function by function, with citations.
3. `Verif/Spec.lean`  independent specifications: NTT as a sum, negacyclic product, bit reversal,
   documented table formulas.
4. `Verif/Math/*.lean`  algebra: bit reversal, the four butterfly networks over a commutative ring,
   orthogonality, inversion, negacyclic convolution theorem.
5. `Verif/Proofs/*.lean`  loop rules and refinement lemmas from the model to the algebra.
6. `Verif/Props/*.lean`  the property theorems (names `Cnn_...`) with non-vacuity examples.

## 2. Per-property plan

| id | modelled | proof method |
|----|----------|--------------|
| C01 | `divq`, `modq`, `mul_array*`, `scalar_mul_array` | arithmetic (`omega`), loop invariant |
| C02 | `bitrev_shuffle` incl. the do-while | invariant: j = rev(i); bit-level lemma on reversed increment |
| C03 | `shuffle_with_table`, `make_bitrev_table` | fold over disjoint swaps; table entries by induction |
| C04-C07 | the NTTs of `ntt.c` | refinement of one round to a ring-level butterfly map (disjoint pairs), then induction over rounds with explicit sub-NTT invariant; std2rev by conjugation with bit reversal |
| C08-C09 | mulntt/nttmul | the same theorems with a general scale c (c=1 plain, c=psi mixed) |
| C10 | compositions | orthogonality of roots of unity |
| C11 | `product1..5` + table generator | convolution theorem |
| C12 | all NTT functions | loop rules with the trivial value predicate: result is never `oob`/`nonterm` |
| C13-C17 | elementwise functions of `ntt_red.c` | `omega` + map-loop lemma |
| C18-C19 | `mul_red` family | Int division lemmas; C19 is refuted by a witness and a restricted version proved |
| C20 | the NTTs of `ntt_red.c` | same refinement with per-round magnitude invariants; for Gentleman-Sande and n = 2048, smaller bounds on the first entries of a table, valid for every psi: they are roots of unity of order 2t or 4t divided by 3 (`Proofs/Levels.lean`, one pass over all residues in the kernel) |
| C21 | red products | C20 + C13..C18 + scaling constants |
| C22-C23 | `naive_ntt.c` and products | same refinement with range (-Q,Q); range claim refuted |
| C24 | all product models | corollary: all equal the spec |
| C25-C27 | `make_tables.c`, `make_red_tables.c` | loop invariants; extended Euclid invariant |
| C28-C31 | `red_bounds.c` | loop invariants; exactness by the congruence/run argument |
| C32-C33 | `intervals.c`, `ntt_red_interval.c` | concretisation relation; same disjoint-pairs lemma |
| C34 | `ntt_intervals.cpp` intrinsic `red` | concretisation of abstract states; bitwise lemmas for unbounded integers; C28 argument |
| C35-C37 | AVX2 instruction subset and the asm functions | lane-level lemmas, loops over 8-lane chunks |
| C38 | constants of `ntt.c` comment | `omega` |
| C39 | second version of the functions with recorded accesses (`Model/Traced.lean`, generated from the first) | erasure to the first version; relational: traces equal |
| C40 | `sort.c` | partition invariant |
| C41-C42 | `red_bounds.c` bound arrays and the transforms of `ntt_red.c` | chain of bounds as round invariant |
| C43 | `intervals.c` without side conditions | refuted by witnesses; conditional versions proved |
| C44 | warnings of `ntt_red_interval.c` | refuted by witnesses; C33 gives thresholds that suffice; which warnings are displayed |
| C45 | `abstract2_*` of `ntt_red_interval.c` | refuted by witnesses; conditional versions proved |
| C46 | `ntt_red.c` with arbitrary tables | magnitude invariant only |
| C47 | elementwise functions of `ntt_red_interval.c` | one lemma on loops over interval arrays, instantiated with the exactness results of C31–C33, C43; sound for two interval arrays only if the intervals reach at least as far above 0 as below (`C43_red_mul_unsound`) |
| C48 | the three generators from `argv` to the text of the files (`Model/TableFiles.lean`) | `SpecCText.lean` is a small C reader (comments, directives, constants, tables) independent of the model; lemmas on how the reader passes over each printed piece, an invariant for the loops that print 8 entries (4 pairs) per line |
| C49 | the inline transforms of src/ntt<n>.h, src/ntt_red<n>.h, src/ntt_red_asm<n>.h (12 each) with generated tables | `SpecTransforms.lean` states `Rev2Std`/`Std2Rev` by the formula; instances of C04-C09, C20, C36 with the table facts of C11-C14; round trips by orthogonality (`ntt_ntt`) |
| C50 | the AVX2 functions and products over abstract memory accesses, loops and branches (`Model/AsmPoly.lean`, `Model/AsmPolyProducts.lean`, generated from `Model/NttAsm.lean`, `Model/AsmProducts.lean`), with a plain and a recording instance (`TraceAsm.lean`) | the plain instance is the model of C35-C37 (`rfl`); a logical relation preserved by each function (`Proofs/AsmRel.lean`), used for erasure and for equality of the events |
| C51 | the C functions and products on references to arrays in a memory (`Shared.lean`, `Model/Shared.lean`, generated from `Model/Traced.lean`) | a simulation `Sim` of each function on arrays by the function on references, with its footprint; the pointwise product by an invariant on the half-written destination; then C11, C21, C23, C37.  The AVX2 functions are those of `Model/AsmPoly.lean` with the operations `Shared.shared` (`Model/SharedAsm.lean`), a vector access being one access per element.  `a = b` refuted by evaluation for n = 16 |
| C52 | threads with a schedule of single array accesses (`Shared.exec`) | a thread depends only on its footprint and changes only what it may write; induction on the schedule (`Proofs/Interleave.lean`) |
| C53 | the functions on references that update one array (`Shared.InPlace` in `SpecShared.lean` lists them) | the same simulations; a call alone is the function on array values; induction on the schedule as for C52 |
| C54 | `abstract_*` and `abstract2_*` of `ntt_red_interval.c`, the programs of `tests_in_paper` (`Model/PaperTests.lean`) | growth of the intervals by the recurrences of C46 through the loop rules; no warning from exactness of the warnings (C44); soundness from C33; termination of the transforms from C46 |
| C55 | the sixteen programs `test_naive_ntt<n>.c`, `test_ntt<n>.c`, `test_ntt_red<n>.c`, `test_ntt_red_asm<n>.c` (`Model/TestPrograms.lean`), with the environment as a parameter | each check is exact (C56); a library that satisfies `LibOK` (instances of C11, C21, C23, C37, C49) passes each test; loop rules |
| C56 | the checking functions of these programs | exactness by the loop rule for `scan`; the states of a loop that returns give one successful check per monomial; linear functions are determined by their values on monomials; the round trips by following the residues through `check_inverse`; a complete run by the states of `tests` |
| C57 | the speed tests of the same programs: `measure`, `speed_test`, `speed_test2`, `average_time`, `median_time`, `main` | an invariant of the arrays kept by each function (`Stable`: reduced, in [-(Q-1), Q-1], or any content for the AVX2 code); the clock readings are numbered, the sort is C40; negation for the four `test_ntt_red<n>.c` by C63 (for n = 16 also by evaluation of twelve calls, lifted to all worlds and buffers) |
| C58 | `data_poly1024.c` (as one number per array, `tools/genkat.py`), the three `kat_mul1024*.c` (`Model/Kat.lean`) | Kronecker substitution: the 100 products are 100 multiplications of numbers with digits in base 2^40, evaluated by the kernel and read back digit by digit modulo 12289 (`Kat.check_sound`); then C11, C21, C37 and the loop rules |
| C59 | the four `speed_mul1024*.c` (`Model/SpeedMul.lean`); a client with any number of arrays (`SpecHistory.lean`) | induction on the sequence of calls with an interval that the products keep: `[0,Q-1]` exact, `[-(Q-1),Q-1]` naive, `[-25000,25000]` lazy reduction. For the last, bounds for every block (Cooley-Tukey) or element (Gentleman-Sande) of every round, from the absolute values of the actual table entries, checked by the kernel (`Proofs/RedWide.lean`); one proof for the C and AVX2 products from a list of specifications of the elementwise functions (`Proofs/RedWideProducts.lean`) |
| C60 | the tables of `test_ntt_tables.c`, `test_ntt_red_tables.c`, `test_bitrev_tables.c`, `ntt32_tables.c`, as one number per table (`tools/gentesttables.py`, `Model/TestTables.lean`) | a linear check per table evaluated by the kernel (each entry is the previous one times the step, modulo Q; ranges; a walk through the pairs), lifted to `StdTable`, `RevTable`, `PowTable`, `PairTable` by induction (`Proofs/TestTables.lean`) |
| C61 | `test_ntt.c` (`Model/TestNtt.lean`) | the transforms of C04-C07 with the tables of C60, composed with shuffles and products by powers; loop rules for the tests; the speed tests as in C57 |
| C62 | `test_ntt_red.c` (`Model/TestNttRed.lean`) | the transforms of C20 with bounds from [-6144, 6144] and the tables of C60; loop rules for the tests; C63 for the speed tests |
| C63 | `ntt_red_ct_rev2std` with an arbitrary table | an invariant of the rounds: after round m the first element of each block of 2^m is the sum of the block of the input, and the sum of the first block is 2^m a[0]; then induction on the calls, two calls multiply a[0] by n (`Proofs/RedIterate.lean`) |
| C64 | `test_red.c` (`Model/TestRed.lean`) | the inner test as a condition on blocks of 4096 values; invariants of the binary searches and of the scans (10^9 steps, by the loop rule); the bounds by case distinction abs(w) = Q-1 or less; a checker of the printed lists with a soundness lemma |
| C65 | `test_mod.c` (`Model/TestMod.lean`) | q m = 2^n + e: the quotient is exact iff x e + (x mod q) 2^n < q 2^n; this holds below the first counterexample by two inequalities per n; the searches by induction |
| C66 | `test_red_bounds.c` (`Model/TestRedBounds.lean`) | invariant of the iterations over the exact bounds of C31; the extrema by C28, C30; the tables by C60 (entries nonzero, at most (Q-1)/2), C41, C42; bounds of chains: 2B' ≤ 5B + 24574 (CT), B' ≤ 3B + 12287 (GS) |
| C67 | `test_avx.c` (`Model/TestAvx.lean`, `SpecTestAvx.lean`) | C35 (assembler = C) on what the generators produce; loop rules; halving terminates by induction on the number of bits; witnesses for each other way to stop |
| C68 | objects, pointers into objects, runs and threads on them (`SpecLayout.lean`) for the programs on references of C51-C53 | one induction over programs: a run on parts of objects follows the run on separate arrays as long as that one makes no access outside an array (`Proofs/Layout.lean`); C51-C53 give that it does not |
| C69 | `test_ntt_avx.c` (`Model/TestNttAvx.lean`, `SpecTestNttAvx.lean`) | C36 (assembler = C) with the facts on the test tables (C60) and C12 for the errors of the C functions; the bounds of C72, computed for the tables of all six sizes, show that the C functions return; the measurement by the growth of first element and sum under repetition (C63), on a part of a larger array (C68) |
| C70 | the eight programs of `verifier/vstte20-benchmarks` with their copy of `ntt_red.c` (`Model/Harness.lean`); nondeterministic inputs are a function, an assumption that fails ends the run | refinement: the copy returns what the library returns, through the loops of the transforms (`Proofs/Harness.lean`); then C46 and C26 |
| C71 | the files of `data/` as lists (`Model/Roots.lean`) | repeated squaring decides "primitive n-th root" for one number; one pass over 0..12288 in the kernel compares with the list; C25, C26 for the generators |
| C72 | `ntt_red.c` with the tables of the library | a bound for each index and level, computed from the actual table entries and evaluated in the kernel (`Proofs/Tight.lean`, `TightData*.lean`), is an invariant of the loops; maximality: on constant arrays the elements at certain indices are 2^m X at level m |
| C73 | `ntt_red.c`, its products and `bitrev_shuffle` without assertions (`Model/Release.lean`) | "equal unless an assertion fails" is preserved by sequences and loops, so that C21 and C72 carry over; no step can raise an assertion failure; C12, C63 and maximality are proved for any multiplication that returns an `int32_t` |
| C74 | the fifteen products of the three libraries, `mulntt`, `inttmul` | an array of coefficients is determined by its values at the roots of X^n+1, and the value of a product is the product of the values (`Proofs/Algebra.lean`); C11, C21, C37, C49 |
| C75 | `ntt.c`, `ntt_red.c`, `naive_ntt.c` and the products, as built, with recorded accesses and tests (`Flow.lean`, `Model/Jumps.lean`, generated from `Model/Traced.lean`) | erasure to the functions as built; relational: events equal, or equal exactly if the tested property of the data agrees (`Proofs/FlowRules.lean`) |
| C76 | `ntt_asm.S` as a list of instructions (`Model/Code.lean`) on a processor with registers, flags and bytes in memory (`Model/X86.lean`) | simulation: each loop and function follows `Model/NttAsm.lean` (`Proofs/X86Sim.lean`, `Proofs/Mach*.lean`); then C35, C36 |
| C77 | bodies of the AVX2 products as lists of calls (`Model/AsmCalls.lean`), each call executed on the machine of C76 | invariant over the list: memory holds the arrays of `Model/AsmProducts.lean` (`Proofs/MachCalls.lean`); then C37 |
| C78 | execution of `Model/Code.lean` with a record of instructions and accesses (`Model/X86Trace.lean`) | relational: an analysis of the program gives for each label the registers that determine what follows; it is checked by evaluation and sound by induction over the steps (`Proofs/X86Trace.lean`) |
| C79 | `red` of src/notes.txt for `q = k*2^m + 1` (`SpecNotes.lean`; the notes are text, so there is no model besides the definition) | integer arithmetic from `2^m red(x) = -x + r q`; the first sequences by evaluation, the more precise ones from certificates checked by evaluation (`Proofs/NotesBounds.lean`: the greatest `red(w*y)` can only be near the ends of the intervals) and by uniqueness of the greatest element |
| C80 | `test_shift.c` (`Model/TestShift.lean`) | division with remainder by `2^k`; -1 is the mask of all ones; the loop by its rule, the output as a list of lines |
| C81 | threads that make the calls of C77 in one memory, instruction by instruction (`Model/X86Threads.lean`) | an instruction depends on and changes only bytes on which the machine has the rights; so each thread simulates its own run, alone, on a machine with only its rights (`Proofs/X86Threads.lean`); then C77 |
| C82 | the text of 27 C files, quoted (`Model/Src/`), a lexer and parser for the part of C they use (`Model/CRead.lean`) and its meaning (`Model/CLang.lean`) | the kernel evaluates the reading of each text; each function simulates the function of the model, loop by loop (`Proofs/CRun*.lean`), so the theorems about the model hold for the text |
| C83 | the text of `ntt_asm.S` and of `ntt_red_asm<n>.{h,c}`, quoted (`Model/Src/`), a reader for assembly (`Model/AsmRead.lean`), the calls made by the C functions (`Model/CCalls.lean`) | the kernel evaluates the reading: the result is `Model/Code.lean` up to names, and renaming labels preserves every run (`Proofs/AsmText.lean`); the calls are those of `Model/AsmCalls.lean`; then C76, C77 |
| C84 | the text of `make_tables.c`, `make_red_tables.c` and `make_bitrev_table.c`, quoted (`Model/Src/`); the functions in the language of `Model/CLang.lean` | each function, executed symbolically on exact states (`Proofs/CExact.lean`), simulates the function of `Model/Tables.lean` (`Proofs/CGen*.lean`); then the arithmetic of C25-C28 |
| C85 | the text of `sort.c`, quoted (`Model/Src/Sort.lean`) | induction on the recursion; each scan simulates the scan of the model (`Proofs/CSort.lean`); then C40 |
| C86 | nothing new: the generators' text output (C48), the tables (C25-C27) and the text of the products (C82); a program contains the constants that the two files define | read back the files (C48), find each constant of the library among their items, apply C82 |
| C87 | the text of `red_bounds.c`, quoted (`Model/Src/RedBounds.lean`); the functions without addresses of local variables | each function, executed symbolically, simulates the function of the hand-written model (`Proofs/CRedBounds.lean`); then C28, C29 |
| C88 | the same texts, with the statements `assert` removed (`release` in `Model/CLang.lean`) | induction on the steps of the execution (`Proofs/CRelease.lean`) |
| C89 | the rest of `red_bounds.c`: calls with addresses of local variables (`callAt` in `Model/CLang.lean`) | as C87 (`Proofs/CRedAddr.lean`); then C30, C31, C41, C42 |
| C90 | nothing new: the files written by `make_red_tables` (C48), and the text of the AVX2 products and of `ntt_asm.S` (C83) | read back the files (C48), find each table among their items, apply C83 |
| C91 | `fprintf` (`Fmt`, `Stmt.print` in `Model/CLang.lean`), string literals and members of structures in `Model/CRead.lean` | each function appends a text (`Proofs/CPrint*.lean`) equal to the one of the hand-written model; reading it back is C48 |
| C92 | `malloc` and `free` (`Stmt.alloc`, `Stmt.free` in `Model/CLang.lean`): new objects with any contents | `print_tables` writes the text of the hand-written model (`Proofs/CPrintTables.lean`, `Proofs/CPrintRedTables.lean`), whose tables are correct by C25 and C26; joined with `main` of C48 and with the products (C86, C90) |
| C93 | the accesses to arrays and the tests made by the executed text (`SpecSourceTrace.lean`), defined along `eval` and `exec` of `Model/CLang.lean` | a checker of labels (`Proofs/CTraceCheck.lean`), proved sound by induction on the steps for two runs (`Proofs/CTrace.lean`), evaluated by the kernel on the functions read from the text; that the calls return is C82; without assertions by C88 (`Proofs/CTraceRelease.lean`) |
| C94 | the text of the products as in C82, with the destination in one of the operands (`SpecSourceInPlace.lean`) | the loop that multiplies elements gives the same array when it writes over an operand (`forUp_shared` in `Proofs/CRunInPlace.lean`); before that call the destination is not used, after it the operands are not used |
| C95 | the text of 18 test programs, quoted (`Model/Src/Test*.lean`); the functions that judge results, read with `readSome` (`SpecSourceChecks.lean`) | a loop with `return false` runs to its end exactly if every index is good (`check_loop` in `Proofs/CTestChecks.lean`); the kernel evaluates that the functions are the same in the 18 files |
| C96 | the text of `test_mod.c` and `test_red.c`, quoted (`Model/Src/TestMod.lean`, `Model/Src/TestRed.lean`); the functions that compute, read with `readSome` (`SpecSourceMod.lean`) | symbolic execution shows that the text does what the models of C64 and C65 do (`Proofs/CTestMod.lean`, `Proofs/CTestRed.lean`); the results about the models give the numbers; `max_abs_red` of `test_red_bounds.c` with `red_bounds.c` (`Model/Src/TestRedBounds.lean`, `Proofs/CTestRedBounds.lean`) by C28 |
| C97 | the text of `test_ntt_avx.c` and `test_avx.c`, quoted (`Model/Src/TestNttAvx.lean`, `Model/Src/TestAvx.lean`), with `ntt_red.c` (C82) and `ntt_asm.S` (C83) (`SpecSourceAvx.lean`) | the kernel evaluates that each function is one call with the size and the table, and that the tokens of `run_tests` and `tests<n>` make these comparisons; the models return and give the transform by the bounds of `Proofs/Tight.lean` (as for C69); the text does what the models do by C82, C83 (`Proofs/CTestAvx.lean`) |
| C98 | the text of `ntt_asm.S` and `ntt_red.c`, quoted (C82, C83) (`SpecSourceBoth.lean`) | C82 and C83 say that both texts do what the models do; the models return and their elements are known (`run_reduce_array`, ... in `Proofs/NttRed.lean`) |

## 3. Trusted base

* Lean 4.33.0 kernel.  Axioms: at most `propext`, `Classical.choice`, `Quot.sound`.  No axiom is added
  by the project; `decide +kernel` evaluates in the kernel and adds none.
* The reading of the C code: the model is written by hand from the source text and was never compared
  with an execution of the C code (the sandbox does not build it).  For the functions of `ntt.c`, `ntt_red.c`, `naive_ntt.c` and
  the products in C for the sizes 16, 256, 512 and 1024 this is replaced by C82: there the trusted part is the meaning given to the
  language (`Model/CLang.lean`, `Model/CRead.lean`) and that the quoted texts are those of the files (`tools/gensrc.py` copies them).
  Likewise C84, C91 and C92 for the functions of the table generators that compute or print (not `main` and `open_file`), C85 for `sort.c`
  and C87, C89 for `red_bounds.c`, C95 for the checks of the test programs, C96 for the functions of `test_mod.c`, `test_red.c` and `test_red_bounds.c` that compute, C97 for the functions compared by `test_ntt_avx.c`.  C88: the same for programs compiled with -DNDEBUG.
  Likewise C83 for `ntt_asm.S` and the AVX2 products: trusted are the meaning of the instructions (`Model/X86.lean`, `Model/Avx.lean`), of
  the syntax (`Model/AsmRead.lean`) and the calling convention (`SpecAsm.lean`).
* C semantics as encoded in `Verif/CSem.lean`: LP64 gcc/clang on x86-64 (arithmetic shift of negative
  values, two's complement narrowing).
* Array arguments of one call are separate arrays (C51: the destination can be an operand; C68: separate parts of objects).
* C52, C53, C68: memory accesses of threads interleave (sequential consistency); C81: whole instructions of threads interleave.

## 4. What is modelled

Modelled: `ntt.c`, `ntt_red.c`, `naive_ntt.c`, the bit-reversal code, the products of the `ntt*`,
`ntt_red*` and naive libraries written in C, `make_tables.c`, `make_red_tables.c` and
`make_bitrev_table.c` (computation in `Model/Tables.lean`, command line and text in `Model/TableFiles.lean`;
`atol`, `%u`, `%d` and `%5` are modelled from the C standard), `red_bounds.c`, `intervals.c`, `ntt_red_interval.c` (printing is
modelled by the list of displayed arrays and warnings), the programs of `tests_in_paper`, `sort.c`.

For C82 the text itself is the model: `CLang.read` makes tokens, removes comments and preprocessor lines (`#include` and include guards
are skipped, `#define` of constants is applied), and reads functions into syntax trees; `CLang.call` executes them on a memory of typed
arrays with integer promotions, conversions, and an error for overflow, access outside an array, use of a variable without value,
division by zero and a failed assertion.  Not in that language: anything the 27 files, the functions of C84, `red_bounds.c`, `sort.c` and the functions of C95, C96 and C97 do not use (structures,
`goto`, addresses of variables other than as the last arguments in `x = g(..., &y, &z)`, calls that write memory inside an expression).  For C84,
C87, C95, C96 and C97 `CLang.readSome` skips functions that are not in the language. The comparisons of `run_tests` in C97 are taken from the tokens (`comparisonsOf`).  In a call with addresses of variables the variables are objects of the memory
while the function runs, at positions that nothing else uses.  For C91 and C92 `fprintf` appends to an object that stands for the file,
`p->x` is an element of the array that stands for the structure (all members have type `uint32_t`), `malloc` gives an unused object with any
contents (it is taken to succeed) and `free` empties it.

For C83 `AsmRead.readAsm` reads the text of `ntt_asm.S`: comments, `#if defined(__APPLE__)` (false), the macro `_G`, the data section with
its positions, the global labels, and every instruction with its operands; a line it does not know is an error.  The text is quoted in
parts, cut at ends of lines outside comments.  The encoding of the instructions and `.balign` in the code are not modelled.

For C39 the functions of `ntt.c`, `ntt_red.c`, `naive_ntt.c` and the products are repeated with recorded
array accesses; the theorems include that both versions compute the same.  Only array accesses are
recorded (not branches or timing).  For C75 they are repeated once more (`tools/genflow.py`), without assertions, with a record
of the accesses and of the outcome of each test of an `if`, a `?:` or a loop.  These are the tests of the source: a compiler may
translate a `?:` without a jump, or an expression without tests into one with a jump, and the time taken by an instruction such
as a division may depend on its operands.

Of the Crab analyser in `verifier/`, the transfer function for `red` (the only code that does not just
forward to Crab).  Crab itself is not part of the repository: intervals, environments and unbounded
integers are modelled from its documentation (bitwise operators of two's complement, `>>` rounds down).

`ntt_asm.S`: the AVX2 instructions it uses are modelled lane by lane in `Model/Avx.lean` (written from the
instruction reference), and its functions in `Model/NttAsm.lean`.  `tools/genasm.py` produces the latter
from `tools/ntt_asm.tmpl`, an annotated transcription of the assembly text; the output is committed and
is what the theorems are about.  Registers are local variables, memory is the arrays (an access outside
the array is an error), flags are only used by the jump that follows the comparison.  The upper half of
`rsi` is taken to be zero (the ABI does not promise it; gcc and clang zero it when they load a `uint32_t`).

All loads and stores on the arguments are `vmovdqu` or sign-extending loads; `vmovdqa` is used only on the constants of
the file itself, so that no alignment of the arguments is assumed.

The products of `ntt_red_asm*.c` are in `Model/AsmProducts.lean`.

For C50 `tools/genasmtrace.py` rewrites both models over abstract accesses, loops and branches; the theorems
include that the plain instance is the model itself and that the recording instance computes the same.

For C51, C52 and C53 `tools/genshared.py` rewrites the functions of `Model/Traced.lean` on references to arrays in a
memory; the AVX2 functions are those of C50 with the accesses of `Model/SharedAsm.lean`.  The proofs
(`Proofs/Shared.lean`, `Proofs/SharedAsm.lean`, the latter written by `tools/genasmshared.py`) relate each of them to
the function on arrays.
For C68 the same programs run on pointers into objects.

The text produced by the model for make_bitrev_table was compared with the checked-in files
`src/bitrev{16,256,512,1024}_table.{c,h}`: identical.  `src/ntt32_tables.{c,h}` come from an older version of
make_tables (they contain a bit-reversal table and lack `inv_psi_powers_rev`).

The sixteen test programs for one size are in `Model/TestPrograms.lean`: printing is dropped (except the pairs shown by the
speed tests), `random()`, `cpucycles()` and uninitialised arrays are arbitrary.

The known-answer programs `kat_mul1024*.c` and their data are in `Model/Kat.lean` and `Model/KatData.lean`.
The programs `speed_mul1024*.c` are in `Model/SpeedMul.lean`; `speed_mul1024_red_asm.c` does not call `avx2_supported`, so that
the model assumes a processor with AVX2.

The tables of the test programs are in `Model/TestTables.lean` (generated), `test_ntt.c` in `Model/TestNtt.lean`, `test_ntt_red.c`
in `Model/TestNttRed.lean`, `test_red.c` in `Model/TestRed.lean`, `test_mod.c` in `Model/TestMod.lean`,
`test_red_bounds.c` in `Model/TestRedBounds.lean` (without the functions called under `if (false)`),
(the output of the model of `test_red_bounds.c`, evaluated with Lean's interpreter, was compared with the recorded outputs
`src/ntt_red_bounds.txt` and `src/red-bounds.txt`: identical, except for "Option 3" and the input bound 30709, which are newer than
the recorded files),
`test_avx.c` in `Model/TestAvx.lean` (its speed tests are modelled, but nothing is proved about them), `test_ntt_avx.c` in
`Model/TestNttAvx.lean`, `test_shift.c` in `Model/TestShift.lean`.  `test_mul1024.c` is not built by the Makefile (its header
`ntts1024.h` does not exist); apart from the includes it is `kat_mul1024.c`.  `test_avx_support.c`
prints the result of `avx2_supported` (C76).

The eight programs of `verifier/vstte20-benchmarks` and the functions they call in the directory's copy of `ntt_red.c` are in
`Model/Harness.lean`, the files of `data/` in `Model/Roots.lean`.

`src/Makefile` compiles the library with `-DNDEBUG`, so that the assertions of `ntt.c`, `naive_ntt.c` and `ntt_red.c` are not
executed (the table generators are compiled with assertions).  The models contain the assertions.  `Model/Release.lean`
has the functions without them; C73 relates the two, and C75 is about these.  The models with recorded accesses, of shared
memory and of the test programs (C39, C50-C53, C57-C69) keep the assertions; `red_bounds.c` and `intervals.c` have a flag for both builds.

For C76 `ntt_asm.S` is modelled once more, now as the list of its instructions and labels: `tools/gencode.py` translates the text
of the file line by line into `Model/Code.lean`, and `Model/X86.lean` executes such a list on registers, flags and a memory of
bytes.  A load or store without the right, `vmovdqa` at an address that is not a multiple of 32 and `xgetbv` where it is not
defined are errors.  The proofs (`Proofs/X86Sim.lean`, and one lemma for each loop and function written by `tools/genmach.py`)
show that execution follows `Model/NttAsm.lean`, so that the annotations of `tools/ntt_asm.tmpl` need not be trusted.  Trusted
instead: the arithmetic of the instructions on one register (`Model/Avx.lean`), the translation of the text, and the assembler.  The flags other than
CF and ZF are left out (no instruction of the file reads them), the position in the program is the rest of the list, and addresses
of the array are in the lower half of the address space (user space).  For C77 the body of an AVX2 product is the list of its calls;
what the compiler makes of the body is not modelled, but the theorem holds for every caller that makes these calls in this order,
with the arguments in their registers and without changing arrays, tables and data section in between.  C78 is about the same
executions, with a record of each instruction and its access; the time of an instruction, caches and speculation are not modelled.

Not planned: the other test programs, memory allocation and file errors.

## 5. Where the code or its documentation disagrees with a listed or documented property

Each item has a theorem with a witness, unless marked (reading).

* `mul_red`: the documented upper limit 8796093026303 is too large; products >= 2^43 overflow (C19).
* naive products may be negative although the headers say [0, Q-1] (C23).
* `red_bounds`: division by zero for w = 0 (C29); `max_red_mul_interval` is wrong for intervals with
  low < -high (C30); an assertion of `min_red_mul_interval` fails when an end is 0 (C30); the bound
  array needs log2(n)+1 entries, the header says log2(n) (C41).
* `intervals`: `add` and `sub` test for overflow after performing it; `red_mul` is unsound for intervals
  with min < -max (C43); `red_scale` by 0 divides by zero (C32).
* `ntt_red_interval`: a run without warning does not exclude an overflow (C44); `abstract2_*` inherit
  the unsoundness of `red_mul` (C45).  This affects test_ntt_red1024c.c and test_ntt_red1024d.c of `tests_in_paper`: some of
  the intervals they show from the fourth line on are too small (`C45_paper_unsound`, and C54 for what they do show).
* `correct_asm` and `correct` differ outside [-65536, 65535], which is outside the documented range (C35).
  The plain `_asm` transforms multiply by p[1], p[2], p[4], ... where the C transforms do not; they differ
  for tables whose entries there are not -4096 (C36).
* The headers say that products modify a and b but not whether arguments may coincide: c = a and c = b are harmless,
  a = b gives a wrong result (C51), and so do two calls that share an operand (C52) and operands that overlap partly (C68).
* `test_ntt_red<n>.c`: the speed tests apply a transform with lazy reduction 102400 times to its own output; a
  signed integer overflows or an assertion fails within 65 calls, after all tests have succeeded (C57, C63; at the
  twelfth call for n = 16).  The same in `test_ntt_red.c` (C62).
* `test_ntt_avx.c`: its first measurement repeats `ntt_red_ct_rev2std` on the same array, which overflows or fails an assertion
  except for special random numbers (C69).
* `test_avx.c`: `random_coeff(0x40000000)` computes `2 * n` in an `int32_t`, which overflows before the first comparison; the
  generator for the scalar products checks `x * min` and `x * max` against the wrong bounds if the scalar `x` is negative; the
  generator of 16-bit factors need not stop; products of 2^43 and above are accepted although the C function overflows (C67).
* `test_mod.c`: signed overflow in the first loop of `main`, and in the signed tests for shifts from 44 (C65).
* `test_red.c` finds the bounds asserted by `mul_red`, but with 64-bit arithmetic (C64, see C19).
* Crab domain: an intrinsic other than `red` leaves the interval of its output unchanged (C34).
* `verifier/vstte20-benchmarks/ntt_red.c`: without `-DSAFE` the assertions of `mul_red` are too small for the transforms
  (C70; the Makefile always sets it).  (reading) A branch of its `correct` that is not compiled tests `x > Q` instead of
  `x >= Q`.
* As built (`-DNDEBUG`), a transform of `ntt_red.c` on input outside the range of C72 can return a wrong result without any
  overflow, because `mul_red` truncates the quotient to 32 bits; `bitrev_shuffle` with n = 0 or n = 3 does not terminate (C73).
* The functions of `ntt_asm.S` use all 64 bits of the register of the `uint32_t` argument n, whose upper half the ABI leaves
  undefined (C76; gcc and clang zero it when they load a `uint32_t`).  (reading) `avx2_supported` does not ask for the largest
  leaf of `cpuid` before leaf 7.
* The products of `ntt_red16.c`, `ntt_red256.c` and `ntt_red512.c` call `shift_array`, whose `?:` tests each coefficient of both
  operands; those of `ntt_red1024.c` have no test on the data, nor have those of `ntt<n>.c` (C75) and of the AVX2 library (C50).
* (reading) `ntt<n>_tables.c` defines `inv_psi_powers_rev` and `ntt_red<n>_tables.c` defines `psi_powers_rev`,
  which the generated headers do not declare (C48 states the contents as they are); `atol` makes the generators
  accept arguments such as `16abc`.
* (reading) `ntt_red.h` Version 5 omits a factor inverse(3) in its description of p; `ntt256.h`,
  `ntt512.h`, `ntt1024.h` declare a `product6` that is not defined; the last label printed by
  `abstract_ntt_red_gs_rev2std` uses t instead of d.

* `notes.txt:70-71` and `notes.txt:146` bound the results of an update by terms that are right for the factor q-1 only
  (`C79_update_bounds_false`); the bounds B' drawn from them are right.  (reading) The hexadecimal form of the upper safe bound in
  `notes.txt:26` has a digit too many.

C32, C33 and their companions C43-C45: the first versions of C32 and C33 each contained a clause that
turned out false.  The false clauses were moved to C43 and C44, which are reported as partial.

## 6. Seeded edits

`seeded/LOG.jsonl` has one line per edit of the model.  `theorems_failed` are the theorems whose proof
broke directly; this is often a helper lemma.  `not_rebuilt` are the property theorems downstream of
it, which Lean could not rebuild and which were therefore not tested individually.  A broken helper
proof shows that the edit is noticed, not by itself that the final statement is false of the edited
program.

The 36 lines for `Verif/Model/Code.lean` in which `codeAt_...` theorems failed are weak evidence, except line 516, where `flows_ann`
failed as well.  `Proofs/MachText.lean` is a copy of that text made by `tools/genmach.py`, and in those runs it was not made again, so
that they failed because the copy differs, whatever the edit was.  10 of these edits were tried again with the copy made from the
edited text ("again, with Proofs/Mach*.lean generated" in the log): then the theorem on the edited loop or function failed.  Two more
were tried without a result to count: with `.store (.at rax 32) 0` in `loop0` the build failed but no theorem was named, and with
`.jmp .loop6` in place of `.ret` the generator itself stopped.  The others were not tried again.
