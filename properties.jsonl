{"id": "C01", "title": "Elementwise modular products are exact", "statement": "mul_array16, mul_array and scalar_mul_array (ntt.h): when every input element (and the scalar) is in [0,Q-1], every output element is the product of the two inputs reduced modulo Q, in [0,Q-1]; no signed overflow, no out-of-bounds access; the array size is unchanged.", "quantifier": "all array sizes n, all array contents in [0,Q-1], all table contents in [0,Q-1]", "why_tests_cant": "The reduction divides by multiplying with a 41-bit reciprocal; it has to be right for each of the 151 million products, in every position of arrays of every size.", "anchors": ["src/ntt.c: divq, modq, mul_array16, mul_array, scalar_mul_array", "src/ntt.h"]}
{"id": "C02", "title": "bitrev_shuffle is the bit-reversal permutation", "statement": "For n a power of two, bitrev_shuffle(a,n) terminates, stays in bounds, and leaves in position i the element that was at the index obtained by reversing the log2(n) bits of i; applying it twice restores the array.", "quantifier": "all powers of two n up to 2^31, all array contents", "why_tests_cant": "The index is produced by an incremental reversed counter with an inner do-while; its correctness and termination are an invariant over all counter states.", "anchors": ["src/ntt.c: bitrev_shuffle", "src/naive_ntt.c: bitrev_shuffle"]}
{"id": "C03", "title": "Table-driven shuffle equals bitrev_shuffle", "statement": "shuffle_with_table(a, table, npairs), with the table and the pair count that make_bitrev_table prints for n, performs exactly the bit-reversal permutation of an array of n elements, hence the same as bitrev_shuffle(a,n); all table entries fit in 16 bits and are in range.", "quantifier": "all sizes n = 2^k accepted by make_bitrev_table (2 <= n < 65535), all array contents", "why_tests_cant": "Tests compare on the four checked-in table sizes; the generator accepts any power of two.", "anchors": ["src/ntt.c: shuffle_with_table", "src/make_bitrev_table.c: reverse, rev_table_npairs, print_bitrev_table", "src/bitrev16_table.c"]}
{"id": "C04", "title": "ntt_ct_rev2std computes the NTT", "statement": "ntt_ct_rev2std and ntt_ct_rev2std_v1: with input in bit-reverse order, elements in [0,Q-1], and the documented table of powers of omega (resp. psi), the output in position j is sum_i a[i]*omega^(i*j) mod Q in [0,Q-1], in standard order, without undefined behaviour.", "quantifier": "all n = 2^k, all psi with psi^n = -1 and omega = psi^2, all inputs in [0,Q-1]^n", "why_tests_cant": "Tests use monomials and random vectors at sizes 16..1024 and cannot cover Q^n inputs nor all sizes and roots.", "anchors": ["src/ntt.c: ntt_ct_rev2std, ntt_ct_rev2std_v1, sub_mod, add_mod, modq"]}
{"id": "C05", "title": "ntt_ct_std2rev computes the NTT in bit-reverse order", "statement": "ntt_ct_std2rev: input in standard order, table of bit-reversed powers of omega; the output at position i is NTT(a)[bitrev(i)], in [0,Q-1], without undefined behaviour.", "quantifier": "all n = 2^k, all valid omega, all inputs in [0,Q-1]^n", "why_tests_cant": "As C04: universally quantified over inputs, sizes and roots.", "anchors": ["src/ntt.c: ntt_ct_std2rev"]}
{"id": "C06", "title": "ntt_gs_rev2std computes the NTT", "statement": "ntt_gs_rev2std: input in bit-reverse order, table of bit-reversed powers of omega; the output at position j is NTT(a)[j], in [0,Q-1], without undefined behaviour.", "quantifier": "all n = 2^k, all valid omega, all inputs in [0,Q-1]^n", "why_tests_cant": "As C04.", "anchors": ["src/ntt.c: ntt_gs_rev2std"]}
{"id": "C07", "title": "ntt_gs_std2rev computes the NTT in bit-reverse order", "statement": "ntt_gs_std2rev: input in standard order, table of powers of omega; the output at position i is NTT(a)[bitrev(i)], in [0,Q-1], without undefined behaviour.", "quantifier": "all n = 2^k, all valid omega, all inputs in [0,Q-1]^n", "why_tests_cant": "As C04.", "anchors": ["src/ntt.c: ntt_gs_std2rev"]}
{"id": "C08", "title": "Combined psi-scaling and forward NTT (mulntt)", "statement": "mulntt_ct_rev2std and mulntt_ct_std2rev with the documented mixed tables produce NTT(a') for a'[i] = a[i]*psi^i, in the documented order and in [0,Q-1].", "quantifier": "all n = 2^k, all psi with psi^n = -1, all inputs in [0,Q-1]^n", "why_tests_cant": "The psi factors are spread over the twiddle factors of every round; the claim is an algebraic identity for all inputs.", "anchors": ["src/ntt.c: mulntt_ct_rev2std, mulntt_ct_std2rev"]}
{"id": "C09", "title": "Combined NTT and psi-scaling of the result (nttmul)", "statement": "nttmul_gs_rev2std and nttmul_gs_std2rev with the documented mixed tables produce NTT(a)[i]*psi^i in the documented order and in [0,Q-1].", "quantifier": "all n = 2^k, all psi with psi^n = -1, all inputs in [0,Q-1]^n", "why_tests_cant": "As C08.", "anchors": ["src/ntt.c: nttmul_gs_rev2std, nttmul_gs_std2rev"]}
{"id": "C10", "title": "Inverse transforms undo forward transforms", "statement": "Any forward std2rev NTT (CT or GS) followed by any inverse rev2std NTT (CT or GS, same function with the tables of omega^-1) and multiplication by n^-1 returns the original array, for ntt.c; the same holds through the rev2std-forward/std2rev-inverse pairing.", "quantifier": "all n = 2^k, all valid omega, all inputs in [0,Q-1]^n", "why_tests_cant": "test_forward_inverse samples 1000 random vectors per size.", "anchors": ["src/ntt.c", "src/ntt16.h, src/ntt256.h, src/ntt512.h, src/ntt1024.h: intt*"]}
{"id": "C11", "title": "Products 1-5 are multiplication in Z_Q[X]/(X^n+1)", "statement": "ntt{16,256,512,1024}_product1..5(c,a,b) with the tables generated by make_tables: for inputs in [0,Q-1], c receives the coefficients in [0,Q-1] and in standard order of the product of a and b modulo X^n+1, without undefined behaviour, whatever c held before.", "quantifier": "all a, b in [0,Q-1]^n, all previous contents of c, n = 16, 256, 512, 1024 with the Makefile's psi (proved for every n=2^k and psi accepted by make_tables)", "why_tests_cant": "Q^(2n) input pairs; tests use monomials and random polynomials.", "anchors": ["src/ntt16.c, src/ntt256.c, src/ntt512.c, src/ntt1024.c: product1..product5", "src/make_tables.c", "src/Makefile"]}
{"id": "C12", "title": "Memory safety and termination for arbitrary contents", "statement": "The NTT functions of ntt.c, ntt_red.c and naive_ntt.c access only a[0..n-1] and p[0..n-1] and their loops terminate, whatever 32-bit values the array holds (also out of the documented range): the loop and index structure does not depend on data.", "quantifier": "all n = 2^k <= 2^31, all array contents (including garbage), all table contents", "why_tests_cant": "Out-of-range contents and all sizes cannot be enumerated; a single stray index is a memory error.", "anchors": ["src/ntt.c", "src/ntt_red.c", "src/naive_ntt.c"]}
{"id": "C13", "title": "reduce_array: value and bounds", "statement": "For every int32 array, reduce_array stores in each position a value congruent to 3*a[i] modulo Q and between -524287 and 536573; the bounds are attained; no undefined behaviour.", "quantifier": "all n, all int32 contents", "why_tests_cant": "2^32 values per element, arrays of any size; the claimed bounds are extremal.", "anchors": ["src/ntt_red.c: red, reduce_array", "src/ntt_red.h"]}
{"id": "C14", "title": "reduce_array_twice: value and bounds", "statement": "For every int32 array, reduce_array_twice stores a value congruent to 9*a[i] modulo Q and between -130 and 12413; the bounds are attained; no undefined behaviour.", "quantifier": "all n, all int32 contents", "why_tests_cant": "As C13.", "anchors": ["src/ntt_red.c: reduce_array_twice"]}
{"id": "C15", "title": "correct returns the canonical residue", "statement": "correct maps every x in [-Q, 2Q-1] to x mod Q in [0,Q-1]; in particular reduce_array_twice followed by correct canonicalises 9*a[i] for every int32 array.", "quantifier": "all n, all contents in [-Q,2Q-1]; all int32 contents for the composition", "why_tests_cant": "Branch-free code using arithmetic shifts; must be right at every boundary.", "anchors": ["src/ntt_red.c: correct"]}
{"id": "C16", "title": "normalize and normalize_inv3 are canonical reductions", "statement": "normalize stores a[i] mod Q in [0,Q-1]; normalize_inv3 stores the unique r in [0,Q-1] with 3*r = a[i] mod Q; for every int32 input; the internal assertion never fails.", "quantifier": "all n, all int32 contents", "why_tests_cant": "C's truncated % and sign correction over all of int32.", "anchors": ["src/ntt_red.c: normalize, normalize_inv3"]}
{"id": "C17", "title": "shift_array changes representative", "statement": "shift_array maps x in [0,Q-1] to the congruent value in [-6144,6144], which is x or x-Q.", "quantifier": "all n, all contents in [0,Q-1]", "why_tests_cant": "Boundary at (Q-1)/2 for every element position.", "anchors": ["src/ntt_red.c: shift_array"]}
{"id": "C18", "title": "mul_reduce functions: value and documented bounds", "statement": "mul_reduce_array16, mul_reduce_array, scalar_mul_reduce_array store a value congruent to 3*a[i]*b[i] modulo Q; under (1) 0<=a,p<=12288 it is in [-36864,12285]; under (2) |a|,|p|<=6144 it is in [-9216,21499]; two reduce_array'd int32 arrays can be multiplied without overflow.", "quantifier": "all n, all int32 contents whose product is in the safe range", "why_tests_cant": "2^64 operand pairs; bounds are extremal claims.", "anchors": ["src/ntt_red.c: mul_red, mul_reduce_array16, mul_reduce_array, scalar_mul_reduce_array"]}
{"id": "C19", "title": "Documented no-overflow range of mul_reduce", "statement": "The header says that -8796042698752 <= a[i]*b[i] <= 8796093026303 is sufficient to avoid overflow. (Expected: false at the top: for products in [2^43, 2^43+4095] the quotient 2^31 does not fit the int32 variable it is stored in and the following subtraction overflows; true for products up to 2^43-1.)", "quantifier": "all int32 operand pairs with product in the documented range", "why_tests_cant": "The failing window has 4096 values out of 1.7e13.", "anchors": ["src/ntt_red.c: mul_red", "src/ntt_red.h:128", "src/test_red.c: find_upper_bound"]}
{"id": "C20", "title": "Longa-Naehrig NTTs compute the NTT without overflow", "statement": "The eight ntt_red functions: when |a[i]| <= 21499, |p[i]| <= 6144 and p is the documented table (with the inverse(3) factor), no 32-bit overflow or assertion failure occurs for n <= 2048 and the result is congruent modulo Q to the NTT (resp. mulntt, nttmul) in the documented order.", "quantifier": "all n = 2^k <= 2048 (the sizes of src/README.md), all valid psi, all inputs with |a[i]| <= 21499", "why_tests_cant": "Overflow freedom depends on worst-case growth over log n rounds, which random tests do not approach.", "anchors": ["src/ntt_red.c", "src/ntt_red.h"]}
{"id": "C21", "title": "Longa-Naehrig products are multiplication in Z_Q[X]/(X^n+1)", "statement": "ntt_red{16,256,512,1024}_product1..5(c,a,b), with the tables of make_red_tables: for inputs in [0,Q-1], c is the canonical product modulo X^n+1 in [0,Q-1], standard order, no undefined behaviour (n=1024 omits the shift of the inputs).", "quantifier": "all a, b in [0,Q-1]^n, all previous contents of c, all n = 2^k and psi that make_red_tables accepts (n <= 2048), in particular n = 16, 256, 512, 1024 with the Makefile's psi", "why_tests_cant": "As C11, plus absence of overflow of unreduced intermediate values.", "anchors": ["src/ntt_red16.c, src/ntt_red256.c, src/ntt_red512.c, src/ntt_red1024.c", "src/make_red_tables.c"]}
{"id": "C22", "title": "Naive NTTs compute the NTT up to sign of the representative", "statement": "The eight naive NTT functions with q=Q: for |a[i]| < Q the output is congruent to the NTT (mulntt, nttmul) modulo Q, in the documented order, with |a[i]| < Q, no undefined behaviour.", "quantifier": "all n = 2^k, all valid psi, all inputs with |a[i]| < Q", "why_tests_cant": "As C04.", "anchors": ["src/naive_ntt.c"]}
{"id": "C23", "title": "Naive products", "statement": "naive_ntt{16,256,512,1024}_product1..5: the result is congruent modulo Q to the product modulo X^n+1 and in (-Q,Q). The header promises [0,Q-1]. (Expected: the range claim is false, since C's % keeps the sign of the dividend.)", "quantifier": "all a, b in [0,Q-1]^n, n = 16, 256, 512, 1024", "why_tests_cant": "As C11.", "anchors": ["src/naive_ntt16.c, src/naive_ntt256.c, src/naive_ntt512.c, src/naive_ntt1024.c"]}
{"id": "C24", "title": "All multiplication routines agree", "statement": "For every a,b in [0,Q-1]^n, all five variants of ntt<n>_product and of ntt_red<n>_product return the same array, and the naive variants return it up to adding Q to negative entries.", "quantifier": "all a, b in [0,Q-1]^n, all n = 2^k and psi that the generators accept (n <= 2048)", "why_tests_cant": "Equality of fifteen programs on Q^(2n) inputs.", "anchors": ["src/ntt*.c", "src/ntt_red*.c", "src/naive_ntt*.c"]}
{"id": "C25", "title": "make_tables generates the documented tables", "statement": "For every n and psi accepted by make_tables' checks, it runs without assertion failure or overflow and the printed tables satisfy the formulas documented in ntt.h (psi_powers[i]=psi^i, scaled_inv_psi_powers[i]=n^-1 psi^-i, omega_powers[t+j]=omega^(n/2t)^j, bit-reversed and mixed variants), with entries in [0,Q-1] that fit uint16_t.", "quantifier": "all command-line values n, psi accepted by main", "why_tests_cant": "Tests check the generated tables for four (n,psi) pairs.", "anchors": ["src/make_tables.c: power, inverse, logtwo, reverse, build_power_table, build_table, build_rev_table, print_tables, main"]}
{"id": "C26", "title": "make_red_tables generates the documented tables", "statement": "For every accepted n and psi, the printed tables are the ones documented in ntt_red.h: the plain tables times inverse(3), shifted to [-6144,6144]; the scaled tables carry n^-1*3^-8 (3^-6 for _var); rescale8/rescale6 are the corresponding scalars.", "quantifier": "all command-line values n, psi accepted by main", "why_tests_cant": "As C25.", "anchors": ["src/make_red_tables.c"]}
{"id": "C27", "title": "Modular inverse and power of the table generators", "statement": "inverse(x,q) terminates without overflow, returns true exactly when gcd(x,q)=1 and then the inverse in [0,q-1]; power(x,k,q) = x^k mod q.", "quantifier": "all x, q with 0 < q < 2^15 (no overflow) and x below 2^15, all exponents k", "why_tests_cant": "Extended Euclid with int32 intermediates and assertions: an invariant over all steps.", "anchors": ["src/make_tables.c: power, inverse"]}
{"id": "C28", "title": "min_red and max_red are exact", "statement": "For a <= b, max_red(a,b) is attained by some x in [a,b] and is >= red(x) for all x in [a,b]; symmetrically min_red. (The witness stored in *x is in [a,b].)", "quantifier": "all int64 pairs a <= b", "why_tests_cant": "Extremum over intervals of unbounded length.", "anchors": ["src/red_bounds.c: red, max_red, min_red"]}
{"id": "C29", "title": "max_red_mul and min_red_mul are exact for w != 0", "statement": "For a <= b and w != 0, max_red_mul(a,b,w,&m) terminates and returns the maximum of red(w*x) over a <= x <= b, and min_red_mul the minimum; m is a point of [a,b] where it is attained. For w = 0 both calls fail for every interval: max_red_mul in gcd4096 (g is shifted forever), min_red_mul by division by zero.", "quantifier": "all w != 0, all a <= b (without 64-bit overflow)", "why_tests_cant": "The search skips most of the interval using a congruence argument.", "anchors": ["src/red_bounds.c: gcd4096, lmax, lmin, max_red_mul, min_red_mul"]}
{"id": "C30", "title": "Bounds for products of two intervals", "statement": "For -b <= a <= b, max_red_mul_interval(a,b,low,high) and min_red_mul_interval return a bound on red(w*x) for all low <= w <= high and a <= x <= b; the bound is attained at the stored x and w unless it is 0. The condition -b <= a is necessary: max_red_mul_interval(-8193,0,3,4) returns 12285 although red(3*(-6827)) = 12291.", "quantifier": "all intervals", "why_tests_cant": "Early exit of the search; soundness is universal over w and x.", "anchors": ["src/red_bounds.c: max_red_mul_interval, min_red_mul_interval"]}
{"id": "C31", "title": "ct_bound and gs_bound are sound", "statement": "For b >= 0, ct_bound(b,low,high) is the maximum of |x +- red(w*y)| over |x|,|y| <= b and low <= w <= high, and gs_bound(b,low,high) is the maximum of |x+y| and |red(w*(x-y))|; ct_bound_fixed and gs_bound_fixed are the same for one w != 0.", "quantifier": "all b >= 0, all w ranges, all x, y", "why_tests_cant": "Universal over operands.", "anchors": ["src/red_bounds.c: ct_bound, gs_bound, ct_bound_fixed, gs_bound_fixed"]}
{"id": "C32", "title": "Interval operations over-approximate the concrete ones", "statement": "Each operation of intervals.h (point, interval, neg, add, sub, red, red_twice, red_scale, normal, normal_inv3, shift, correct) returns an interval that contains the concrete result for all operands in the argument intervals, under the ranges its header gives (shift: [0,q-1], correct: [-q,2q-1]) and when no 64-bit computation overflows; red_scale requires a non-zero factor (with factor 0 it divides by zero).", "quantifier": "all well-formed intervals and all members", "why_tests_cant": "Soundness quantifies over all members of all intervals.", "anchors": ["src/intervals.c", "src/intervals.h"]}
{"id": "C33", "title": "Abstract NTT soundness", "statement": "If the concrete array is contained pointwise in the interval array and abstract_ntt_red_* (resp. mulntt, nttmul) returns, then whenever the matching ntt_red_* returns, its result is contained pointwise in the abstract result. If moreover all displayed intervals are within 2147471362 of 0 (Cooley-Tukey) or within 2^30-1 (Gentleman-Sande), the concrete transform does not overflow and returns.", "quantifier": "all n = 2^k, all tables, all interval arrays, all concrete arrays in them", "why_tests_cant": "Universal soundness of an abstract interpreter.", "anchors": ["src/ntt_red_interval.c", "src/ntt_red.c"]}
{"id": "C34", "title": "Abstract transfer function for red in the Crab domain", "statement": "The ntt_intervals domain's intrinsic 'red' maps [a,b] to an interval that contains red(x) for all x in [a,b] and it is the smallest such interval.", "quantifier": "all a <= b", "why_tests_cant": "Soundness and optimality quantify over all intervals.", "anchors": ["verifier/src/ntt_intervals.cpp: intrinsic"]}
{"id": "C35", "title": "AVX2 elementwise functions equal the C functions", "statement": "reduce_array_asm, reduce_array_twice_asm, correct_asm, shift_array_asm, mul_reduce_array16_asm, mul_reduce_array_asm, scalar_mul_reduce_array_asm leave the same array as the C functions on all inputs for which the C function is defined, for sizes that are positive multiples of 16.", "quantifier": "all n = 16m, all int32 contents", "why_tests_cant": "Lane shuffles and 64-bit logical shifts have to be right for all lane values.", "anchors": ["src/ntt_asm.S", "src/ntt_asm.h"]}
{"id": "C36", "title": "AVX2 NTTs equal the C NTTs", "statement": "Each of the eight *_asm NTT functions leaves the same array as its ntt_red.c counterpart whenever the latter does not overflow.", "quantifier": "all n = 2^k >= 16, all inputs for which the C function is defined, tables with p[1]=p[2]=inverse(3) where used", "why_tests_cant": "Register shuffles for the three small block sizes, all inputs.", "anchors": ["src/ntt_asm.S"]}
{"id": "C37", "title": "AVX2 products", "statement": "ntt_red{16,256,512,1024}_product1..5_asm compute the canonical product modulo X^n+1 in [0,Q-1]; the 1024-bit product1_asm, which skips the double reduction and uses the _var table, does not overflow either.", "quantifier": "all a, b in [0,Q-1]^n, all n = 2^k from 16 to 2048 and all psi that make_red_tables accepts; the product1_asm of size 1024 with the psi of the library", "why_tests_cant": "As C21; product1_asm of size 1024 has a different growth bound.", "anchors": ["src/ntt_red_asm16.c, src/ntt_red_asm256.c, src/ntt_red_asm512.c, src/ntt_red_asm1024.c"]}
{"id": "C38", "title": "Reciprocal constants for division by Q", "statement": "For each pair (k,K) in the table of ntt.c (k = 41..45), (x*K)>>k = x/Q for all 0 <= x <= (Q-1)^2, without exceeding 64 bits.", "quantifier": "all x in [0,(Q-1)^2]", "why_tests_cant": "test_mod.c enumerates; a proof covers the whole range at once.", "anchors": ["src/ntt.c:85-101", "src/test_mod.c"]}
{"id": "C39", "title": "Memory access pattern independent of secret data", "statement": "The sequence of array indices read and written by the NTT and product functions depends only on n (and the tables' indices), not on the coefficients.", "quantifier": "all pairs of inputs of the same size", "why_tests_cant": "A two-run (relational) property.", "anchors": ["src/ntt.c", "src/ntt_red.c", "src/ntt*.c"]}
{"id": "C40", "title": "sort sorts", "statement": "sort(a,n) terminates, stays in bounds, and leaves a sorted permutation of the input.", "quantifier": "all n, all uint64 contents", "why_tests_cant": "Sentinel-style scans in the partition rely on an invariant to stay in bounds.", "anchors": ["src/sort.c"]}
{"id": "C41", "title": "ntt_ct_bounds bounds the Cooley-Tukey transforms", "statement": "ntt_ct_bounds(b0,n,p,bound) stores in bound[m+1] the exact maximum of the results of round m for operands bounded by bound[m]. If it returns B <= INT32_MAX and the products B*|p[i]| stay in the range documented for mul_red, then for every array with |a[i]| <= b0 the functions mulntt_red_ct_* (and ntt_red_ct_*, when p[t] = -4096 for each power of two t) run without overflow and all results are bounded by B. The array bound needs log2(n)+1 elements, one more than documented.", "quantifier": "all n = 2^k <= 2^31, all int16 tables p, all b0 >= 0, all input arrays", "why_tests_cant": "Universal over tables and input arrays; the point of the function is to replace testing.", "anchors": ["src/red_bounds.c: ntt_ct_bounds", "src/red_bounds.h: ntt_ct_bounds", "src/ntt_red.c: ntt_red_ct_rev2std, ntt_red_ct_std2rev, mulntt_red_ct_rev2std, mulntt_red_ct_std2rev"]}
{"id": "C42", "title": "ntt_gs_bounds bounds the Gentleman-Sande transforms", "statement": "ntt_gs_bounds(b0,n,p,bound) stores in bound[m+1] the exact maximum of the results of round m for operands bounded by bound[m]. If it returns B <= INT32_MAX and the products B*|p[i]| stay in the range documented for mul_red, then for every array with |a[i]| <= b0 the functions ntt_red_gs_* and nttmul_red_gs_* run without overflow and all results are bounded by B.", "quantifier": "all n = 2^k <= 2^31, all int16 tables p, all b0 >= 0, all input arrays", "why_tests_cant": "Universal over tables and input arrays.", "anchors": ["src/red_bounds.c: ntt_gs_bounds", "src/ntt_red.c: ntt_red_gs_rev2std, ntt_red_gs_std2rev, nttmul_red_gs_rev2std, nttmul_red_gs_std2rev"]}
{"id": "C43", "title": "Interval operations need no side condition", "statement": "add and sub detect 64-bit overflow and abort, and red_mul(a, b) contains red(x*y) for all x in a and y in b, whatever the intervals.", "quantifier": "all well-formed intervals and all members", "why_tests_cant": "Soundness quantifies over all members of all intervals; the failing intervals are asymmetric or near the 64-bit limits.", "anchors": ["src/intervals.c", "src/intervals.h"]}
{"id": "C44", "title": "Abstract NTT without warnings excludes overflow", "statement": "If the abstract transform displays no warning (all displayed intervals fit in 32 bits), the concrete transform does not overflow on any array contained in the intervals.", "quantifier": "all n = 2^k, all tables, all interval arrays, all concrete arrays in them", "why_tests_cant": "Universal claim; the failing inputs are within 12 thousand of the 32-bit limit or need an undisplayed intermediate value.", "anchors": ["src/ntt_red_interval.c", "src/ntt_red.c"]}
{"id": "C45", "title": "Abstract NTT with interval tables is sound", "statement": "If the concrete array and the concrete table are contained pointwise in the interval array and interval table, the result of ntt_red_* is contained in the result of the matching abstract2_ntt_red_*.", "quantifier": "all n = 2^k, all interval tables and arrays, all concrete tables and arrays in them", "why_tests_cant": "Universal soundness of an abstract interpreter.", "anchors": ["src/ntt_red_interval.c", "src/ntt_red.c"]}
{"id": "C46", "title": "Transforms never fail, whatever the table", "statement": "Each of the eight transforms of ntt_red.c returns, without overflow, access out of bounds or failed assertion of mul_red, for every table of n entries in [-6144, 6144] (not only the generated ones) and every input array in [-21499, 21499]; this includes what the harnesses of the verifier check for n = 1024, with bounds on the results.", "quantifier": "all tables, all inputs, all n = 2^k (k <= 12 Cooley-Tukey, k <= 10 Gentleman-Sande)", "why_tests_cant": "All tables and all inputs; worst-case growth over ten rounds.", "anchors": ["src/ntt_red.c", "verifier/vstte20-benchmarks/harness_ntt_red1024c.c", "verifier/vstte20-benchmarks/harness_ntt_red1024d.c"]}
{"id": "C47", "title": "Elementwise abstract functions over-approximate the concrete ones", "statement": "abstract_reduce_array, abstract_reduce_array_twice, abstract_normalize, abstract_normalize_inv3, abstract_shift_array, abstract_correct and the three abstract multiply-and-reduce functions return interval arrays that contain the result of the matching function of ntt_red.c on every array contained in the input intervals; except for reduce_array_twice, normalize_inv3 and the product of two interval arrays, the intervals returned are the smallest ones. abstract_correct aborts exactly if some interval leaves [-Q, 2Q-1].", "quantifier": "all n < 2^32, all arrays of valid intervals, all concrete arrays in them, both build modes", "why_tests_cant": "Universal soundness and optimality over all intervals of 64-bit numbers.", "anchors": ["src/ntt_red_interval.c", "src/intervals.c", "src/ntt_red.c"]}
{"id": "C48", "title": "Generated C files contain exactly the computed tables", "statement": "make_tables, make_red_tables and make_bitrev_table, run with valid command-line arguments, write exactly two files with the documented names; read as C, the header declares the constants and tables and the source file defines each table with the correct element type, name, length and values (after conversion to the element type), in particular every entry once and in order. With any other arguments (wrong number, size not an accepted power of two, psi not a root) they fail before creating a file.", "quantifier": "all argument strings that atol accepts, all sizes 2..65536 (32768 for bit reversal) and all roots psi, all contents of the uninitialised table buffer", "why_tests_cant": "The text is laid out by counters (8 entries or 4 pairs per line) and padded numbers; a lost separator or a table in the wrong place depends on the size and the values.", "anchors": ["src/make_tables.c: main, print_tables, print_declarations, print_table, print_header, print_param_def", "src/make_red_tables.c: main, print_tables, print_declarations, print_table", "src/make_bitrev_table.c: main, print_bitrev_table, print_bitrev_declarations"]}
{"id": "C49", "title": "Per-size transforms compute the documented transform, and inverses undo them", "statement": "Each of the twelve functions ntt<n>_*, intt<n>_*, mulntt<n>_*, inttmul<n>_* of the three libraries (exact, Longa-Naehrig in C, AVX2) computes, with the tables that the generators print for n and psi, the transform with omega = psi^2 (or its inverse) in the order its name says, the mul variants scaling coefficient l by psi^l before or component i by psi^-i after the transform. In the Longa-Naehrig and AVX2 libraries a forward transform, reduce_array_twice and the matching inverse transform multiply every coefficient by 9*n modulo q, without overflow.", "quantifier": "all sizes n = 2^k accepted by the generators (n <= 2048; 16 <= n for AVX2), all valid psi, all arrays of reduced coefficients (exact) or of coefficients in [-21499, 21499]", "why_tests_cant": "the tests run the transforms on random arrays for four sizes; a wrong table or order can only be excluded for all inputs and all psi by proof, and overflow depends on extreme inputs", "anchors": ["src/ntt1024.h:ntt1024_ct_rev2std", "src/ntt1024.h:inttmul1024_gs_std2rev", "src/ntt_red1024.h:ntt_red1024_ct_rev2std", "src/ntt_red_asm1024.h:ntt_red1024_ct_rev2std_asm", "src/make_tables.c", "src/make_red_tables.c"]}
{"id": "C50", "title": "Memory accesses and jumps of the AVX2 code do not depend on the data", "statement": "For every function of the AVX2 library (elementwise functions, products by a table, by a scalar and of two arrays, the eight transforms, the five polynomial products and the special first product of size 1024) the sequence of memory accesses (array, byte offset, width, read or write) and of conditional jumps taken or not depends only on n: it is the same whatever the arrays, the tables and the scalar hold. For the products it is one fixed sequence for all pairs of reduced polynomials.", "quantifier": "all n, all contents of the arrays, tables and scalar argument (for any two runs that return); for the products all n = 2^k with 16 <= n <= 1024, all accepted psi, all reduced a and b, all contents of c", "why_tests_cant": "timing tests only sample secrets and machines; independence is a statement about all pairs of runs", "anchors": ["src/ntt_asm.S:ntt_red_ct_rev2std_asm", "src/ntt_asm.S:correct_asm", "src/ntt_asm.S:scalar_mul_reduce_array_asm", "src/ntt_red_asm1024.c:ntt_red1024_product1_asm", "src/ntt_red_asm16.c:ntt_red16_product5_asm"]}
{"id": "C51", "title": "The destination of a product may be one of its operands", "statement": "Calling a product function with destination c equal to the first or the second operand stores in c the product modulo X^n+1 of the initial contents of the operands, in the documented range, exactly as with a separate destination; no array but c, a and b (in particular no table) is changed. The two operands must be two different arrays: with the same array twice the call returns a wrong result.", "quantifier": "the products of the four families (exact, Longa-Naehrig, naive, AVX2, with the special first AVX2 product of size 1024), all sizes n = 2^k (Longa-Naehrig up to 1024, AVX2 from 16 to 1024) and psi accepted by the generators, all reduced operands, c any array of size n that is not a table, all contents of the rest of the memory; the negative part is a witness for n = 16", "why_tests_cant": "the tests never pass the same array twice, and the headers do not say whether it is allowed; whether overlap is harmless must be shown for all inputs", "anchors": ["src/ntt1024.c:ntt1024_product1", "src/ntt_red1024.c:ntt_red1024_product5", "src/naive_ntt1024.c:ntt1024_product1_naive", "src/ntt.c:mul_array", "src/ntt_red.c:mul_reduce_array", "src/ntt_asm.S:mul_reduce_array_asm", "src/ntt_red_asm1024.c:ntt_red1024_product1_asm"]}
{"id": "C52", "title": "Products can be called concurrently on separate arrays", "statement": "When several threads call product functions at the same time, each on arrays of its own, sharing only the tables, then under every interleaving of their array accesses no call fails, each call that has returned has stored the product of its own initial operands in its destination, each call returns after a number of its own steps that does not depend on the other threads, and nothing but the arguments of the calls changes. Products write their operands: two calls must not share one.", "quantifier": "any number of threads (also infinitely many), each with its own product function (exact, Longa-Naehrig, naive or AVX2), size, psi and arguments; all schedules (finite sequences of single array accesses by the threads); all initial memories with reduced operands; a vector access of the AVX2 code counts as one access per element", "why_tests_cant": "schedules cannot be enumerated by tests; the library has no thread tests", "anchors": ["src/ntt1024.c:ntt1024_product1", "src/ntt_red16.c:ntt_red16_product5", "src/naive_ntt16.c:ntt16_product1_naive", "src/ntt1024_tables.c", "src/ntt_red_asm1024.c:ntt_red1024_product1_asm"]}
{"id": "C53", "title": "In-place functions touch only their own arrays and can run concurrently", "statement": "Every function that updates one array in place (the transforms, products by a table or by a scalar, reductions, corrections, shifts, normalizations and bit-reversal permutations of the exact, Longa-Naehrig, naive and AVX2 code) has a result that depends only on the contents of its array, its table and its scalar arguments; it changes no other array; and when several threads call such functions at the same time, each on an array of its own, possibly with the same table, then under every interleaving each call leaves in its array exactly what it leaves when called alone, without failing, after a number of its own steps that does not depend on the other threads.", "quantifier": "all functions listed, all n, all contents of the memory, all scalars; any number of threads and all schedules (one element access at a time), for calls that succeed when called alone", "why_tests_cant": "schedules and memory contents cannot be enumerated; hidden static state or a stray write shows only in some histories", "anchors": ["src/ntt.c:ntt_ct_rev2std", "src/ntt_red.c:ntt_red_gs_std2rev", "src/naive_ntt.c:ntt_ct_std2rev_naive", "src/ntt_asm.S:ntt_red_ct_std2rev_asm", "src/ntt_red.c:normalize", "src/ntt.c:shuffle_with_table"]}
{"id": "C54", "title": "The interval analysis of the transforms returns without warnings and is conclusive", "statement": "For arrays of intervals within [-21499, 21499] (in particular [0, Q-1]) and tables of non-zero twiddle factors in [-6144, 6144], each abstract transform returns, shows one array per round and the result, shows no warning, and shows only intervals within the growth bounds; then the transform it analyses returns for every array in the initial intervals, with a result in the displayed result. In particular the six programs of tests_in_paper that use a generated table return without a warning and the last array they show contains the results of the transform for all inputs in [0, Q-1]. The variants with a table of intervals within [-6144, 6144], and the two programs that use them, also return without a warning.", "quantifier": "all sizes 2^k up to 4096 (Cooley-Tukey) or 1024 (Gentleman-Sande), all arrays of intervals and tables within these ranges, all arrays in the intervals; both build modes (tables of intervals: NDEBUG); the programs: all contents of their local arrays before initialisation", "why_tests_cant": "running one of the programs covers one table and one initial array; the conclusion about the transform is over all inputs in the intervals", "anchors": ["src/tests_in_paper/test_ntt_red1024.c:main", "src/tests_in_paper/test_ntt_red1024c.c:main", "src/ntt_red_interval.c:abstract_ntt_red_ct_std2rev", "src/ntt_red_interval.c:abstract2_ntt_red_ct_rev2std", "src/ntt_red_interval.c:show_intervals"]}
{"id": "C55", "title": "The test programs for each size report no failure", "statement": "The correctness tests run by the sixteen programs test_naive_ntt<n>, test_ntt<n>, test_ntt_red<n> and test_ntt_red_asm<n> (n = 16, 256, 512, 1024), which are transforms of all monomials applied twice, 1000 random round trips for each of six pairs of forward and inverse transforms, and all products of two monomials with five product functions, all succeed: whatever random() returns and whatever uninitialised local arrays contain, no test prints a failure and exits, and there is no overflow, failed assertion or access out of bounds.", "quantifier": "all sixteen programs with generated tables; all sequences of results of random(), all contents of uninitialised arrays; both build modes", "why_tests_cant": "a run of a test program uses one sequence of random numbers and one stack; that no seed makes it fail needs a proof", "anchors": ["src/test_naive_ntt16.c:main", "src/test_ntt16.c:main", "src/test_ntt_red256.c:check_inverse", "src/test_ntt_red_asm1024.c:main", "src/test_ntt_red1024.c:test_simple_polys"]}
{"id": "C56", "title": "Passing a test program means being right on all monomials", "statement": "check_ntt_simple, check_ntt_ntt_simple, equal_simple_poly and equal_arrays return true exactly when the array holds the transform of X^j, n at position -j mod n and 0 elsewhere, the product X^i X^j modulo X^n+1, or the same contents. A function that passes test_simple_polys has the coefficients of the transform on every monomial in the order tested, and if it is linear it is the transform on every input; a product function that passes test_simple_products is right on every pair of monomials, and if it is bilinear it is the product on every pair of inputs. A complete run of the tests that succeeds shows all of this for the eight transforms and five products at once, and that each of the six tested pairs of transforms inverts one another, up to the factor 1/n, on the 1000 polynomials drawn with random().", "quantifier": "all sizes 2^k up to 2^30, all arrays, all functions tested (not only those of the library), all roots in [0, Q-1], all worlds", "why_tests_cant": "what a test program establishes when it passes is a statement about all functions that could be tested", "anchors": ["src/test_ntt_red16.c:check_ntt_simple", "src/test_ntt_red16.c:check_ntt_ntt_simple", "src/test_ntt_red16.c:equal_simple_poly", "src/test_ntt_red16.c:test_simple_polys", "src/test_ntt_red16.c:test_simple_products", "src/test_ntt_red16.c:check_inverse", "src/test_ntt_red16.c:main"]}
{"id": "C57", "title": "The speed measurements of the test programs run to the end and show what they claim", "statement": "After its tests, each of the sixteen programs test_naive_ntt<n>, test_ntt<n>, test_ntt_red<n> and test_ntt_red_asm<n> calls eight transforms and five products 102400 times each, without undefined behaviour, and shows for each the median and the average of the 102400 times between successive readings of the cycle counter (modulo 2^64); 'BUG in sort' is never shown. An AVX2 program on a machine without AVX2 shows nothing. This is false of test_ntt_red16: it applies a transform with lazy reduction repeatedly to its own output, so that a signed integer overflows at the twelfth call.", "quantifier": "all programs (exact, naive, AVX2: n = 16, 256, 512, 1024) with generated tables; all readings of the cycle counter, all results of random(), all contents of uninitialised arrays; the AVX2 functions: all contents of the arrays", "why_tests_cant": "the times differ in every run and 102400 calls on growing values must stay defined; a run that silently overflows looks the same as one that does not", "anchors": ["src/test_ntt16.c:main", "src/test_naive_ntt16.c:main", "src/test_ntt_red16.c:speed_test", "src/test_ntt_red16.c:speed_test2", "src/test_ntt_red16.c:average_time", "src/test_ntt_red16.c:median_time", "src/test_ntt_red_asm16.c:main", "src/sort.c:sort"]}
{"id": "C58", "title": "The known-answer tests are right, pass, and mean what they say", "statement": "build_kat fills a, b, c with 100 triples of reduced polynomials such that c[r] is the product of a[r] and b[r] modulo X^1024 + 1 and 12289. The programs kat_mul1024, kat_mul1024_red and kat_mul1024_red_asm report success for all of their five product functions. Conversely, when such a program reports success for any functions, each of them returned the canonical product on each of the 100 pairs.", "quantifier": "all 100 vectors and 1024 coefficients of data_poly1024.c; all contents of uninitialised memory (local arrays, malloc, upper half of the scalar register); for the converse all functions that could be tested", "why_tests_cant": "running the test compares the code with the data, it does not say that the data are right, nor that a different content of uninitialised memory would not change the outcome", "anchors": ["src/data_poly1024.c:build_kat", "src/kat_mul1024.c:test_mul_from_KAT_values", "src/kat_mul1024.c:main", "src/kat_mul1024_red.c:main", "src/kat_mul1024_red_asm.c:main"]}
{"id": "C59", "title": "Product functions can be called again and again on the same arrays", "statement": "A client owns any number of arrays and calls product functions of one family on them, in any order and with the arrays in any role (a result may be an operand later, an operand that a call has overwritten may be an operand again). Every call returns without overflow or failed assertion and leaves in its destination the canonical product modulo X^n + 1 of what its operands contained just before. For the functions with lazy reduction (C and AVX2) the coefficients may be anything in [-25000, 25000], and a call replaces its operands by three times their transforms, in the same interval. The programs speed_mul1024, speed_mul1024_naive, speed_mul1024_red and speed_mul1024_red_asm, which call each product 102400 times on the arrays left by the previous call, run to the end and show the median and the average of the times.", "quantifier": "all finite sequences of calls on any number of arrays (three different arrays in a call), all contents in the interval; exact and naive families: all valid sizes and roots; lazy reduction: the four sizes of the library; the programs: all readings of the cycle counter and contents of uninitialised memory", "why_tests_cant": "the number of histories is unbounded; lazy reduction leaves values outside [0, Q-1] in the operands, and whether they can grow without bound from call to call is a question about all histories", "anchors": ["src/speed_mul1024_red.c:test_mul", "src/speed_mul1024.c:main", "src/speed_mul1024_naive.c:main", "src/speed_mul1024_red_asm.c:main", "src/ntt_red1024.c:ntt_red1024_product1", "src/ntt_red16.c:ntt_red16_product5", "src/ntt_red_asm1024.c:ntt_red1024_product1_asm", "src/ntt1024.c:ntt1024_product1", "src/naive_ntt1024.c:naive_ntt1024_product1"]}
{"id": "C60", "title": "The tables checked in for the test programs are right", "statement": "In test_ntt_tables.c, test_ntt_red_tables.c, test_bitrev_tables.c and ntt32_tables.c every table has the size and the entries its name and the headers announce: powers of psi, twiddle factors of each round (in standard or bit-reverse order, plain or multiplied by powers of psi), for lazy reduction divided by 3 and canonical or centred, and the pairs to exchange for a bit-reverse shuffle. The six values of psi are primitive 2n-th roots of unity modulo 12289.", "quantifier": "every entry of every table, sizes 16, 32, 128, 256, 512, 1024, 2048", "why_tests_cant": "a test run that uses the tables compares results with results; it does not say which entry is meant to be which power, and entries that a test does not reach are not checked", "anchors": ["src/test_ntt_tables.c:shoup_ntt16_12289", "src/test_ntt_red_tables.c:shoup_sred_ntt16_12289", "src/test_bitrev_tables.c:bitrev2048_pair", "src/ntt32_tables.c:ntt32_psi_powers"]}
{"id": "C61", "title": "test_ntt succeeds, and its functions agree on all inputs", "statement": "Each function that test_ntt.c passes to test_simple_polys computes the transform of every reduced array, each pair it passes to cross_check gives the same reduced result on every reduced array, and the program runs to the end and shows the median and the average of the times of its 54 measurements. Conversely a function that passes test_simple_polys gives the transform of every X^j, and n X^(-j mod n) when applied again; two functions that pass cross_check agree on every X^j and on their results.", "quantifier": "all reduced arrays, all contents of uninitialised memory and readings of the cycle counter; for the converse all functions that could be tested and all sizes below 2^31", "why_tests_cant": "the program tries n inputs per function out of 12289^n; that it cannot fail in any environment, and what a success means for an arbitrary function, are statements about all runs", "anchors": ["src/test_ntt.c:main", "src/test_ntt.c:test_simple_polys", "src/test_ntt.c:cross_check", "src/test_ntt.c:speed_test"]}
{"id": "C62", "title": "test_ntt_red: the tests succeed and mean correctness on all inputs, the speed tests stop", "statement": "Each of the 48 functions that test_ntt_red.c passes to test_simple_polys (n = 16 to 2048) computes the transform of every reduced array with the root given to the test, and the 48 tests succeed whatever uninitialised memory contains. The program does not then run to the end: its first speed test calls ntt_red_ct_rev2std 102400 times on its own result and stops with a signed overflow or a failed assertion.", "quantifier": "all reduced arrays; all contents of uninitialised memory and all readings of the cycle counter", "why_tests_cant": "the program tries n inputs per function out of 12289^n, and a compiled program hides the overflow, which is undefined behaviour, in wrapped values", "anchors": ["src/test_ntt_red.c:main", "src/test_ntt_red.c:test_simple_polys", "src/test_ntt_red.c:speed_test", "src/ntt_red.c:ntt_red_ct_rev2std"]}
{"id": "C63", "title": "Repeated calls of the plain lazy Cooley-Tukey transform must stop", "statement": "When ntt_red_ct_rev2std returns, a[0] is exactly the sum of the former elements and the sum of the elements is exactly n times the former a[0]. Hence a client that keeps applying it to its own result without reducing, with any table, gets a signed overflow or a failed assertion within 65 calls, unless a[0] and the sum of the elements are both 0.", "quantifier": "all n = 2^k with 0 < k <= 31, all tables of at least n entries, all arrays of int32_t, all histories of calls", "why_tests_cant": "it is a statement about every array, every table and every history of calls; an overflow is undefined behaviour and cannot be observed by a test", "anchors": ["src/ntt_red.c:ntt_red_ct_rev2std", "src/ntt_red.h", "src/test_ntt_red.c:speed_test"]}
{"id": "C64", "title": "test_red: the bounds for the reduction and for the rounds of lazy transforms are right", "statement": "test_red runs to the end and prints the bounds -8796042698752 and 8796093026303, and exactly three overflows around each. They delimit the largest interval around 0 on which the 64-bit reduction fits in int32_t, and are the bounds asserted by the modular product of the library, which nevertheless overflows for the last 4096 products. The magnitudes B0 = Q-1, B1, ... that it prints are upper bounds of the elements after each round of Cooley-Tukey or Gentleman-Sande butterflies with factors of magnitude at most Q-1, with a reduction where one is printed, and each fits in int32_t.", "quantifier": "all 64-bit arguments of the reduction; all magnitudes up to 10^18 and all elements and factors within them", "why_tests_cant": "the binary search of the program assumes monotonicity and scans 10^9 of 2^44 values; the bounds on rounds are about all triples (x, y, w)", "anchors": ["src/test_red.c:find_lower_bound", "src/test_red.c:find_upper_bound", "src/test_red.c:iter_bound_abs", "src/test_red.c:iter_bound_abs2", "src/test_red.c:main", "src/ntt_red.c:mul_red"]}
{"id": "C65", "title": "test_mod: which shifts give exact remainders, and what the program establishes", "statement": "'approx n works' is printed exactly if x - Q*((x*(2^n/Q+1)) >> n) is x mod Q for all x from 0 to (Q-1)^2, and 'approx n fails for x' exactly if x is the least counterexample; for n from 30 to 49 the tests print works for 41 to 45 and the listed counterexamples otherwise; n = 45 is exact on all 32-bit arguments. The signed test fails for the same arguments for n = 30 to 43 and has a signed overflow for 44 to 49, so it never prints works. The program as a whole has a signed overflow in its first loop.", "quantifier": "all shifts n and arguments x for the meaning of the tests; all x of the range for each n from 30 to 49", "why_tests_cant": "the program does test all values, but undefined behaviour comes first, and a run does not say that the search visits every value", "anchors": ["src/test_mod.c:test_approx", "src/test_mod.c:test_pmod_approx", "src/test_mod.c:approx_modq", "src/test_mod.c:approx_pmodq", "src/test_mod.c:main"]}
{"id": "C66", "title": "test_red_bounds: every bound printed is right, and what the bounds mean for the transforms", "statement": "test_red_bounds runs to the end. Each reduction line gives the least and the greatest reduction of the interval and arguments where they are attained; each product line the extrema over both intervals; each bound B(i+1) is the best possible one for a round on elements bounded by B(i), with a reduction exactly where it would not fit in int32_t. For each of the 24 tables and five input bounds the bound printed is the last of a chain of best bounds over the rounds. Consequently every Cooley-Tukey transform with one of these tables on inputs within the bound is free of undefined behaviour and stays within the bound printed, and no overflow is marked; the same for Gentleman-Sande wherever the bound printed is at most 1431647249, which is always so for n up to 512.", "quantifier": "all contents of the uninitialised array of bounds; all inputs within the bounds printed", "why_tests_cant": "the program samples nothing: its output is a claim about all arguments, operands and multipliers, and the transforms have too many inputs to try", "anchors": ["src/test_red_bounds.c:main", "src/test_red_bounds.c:ct_iteration", "src/test_red_bounds.c:gs_iteration", "src/test_red_bounds.c:max_abs_red", "src/test_red_bounds.c:show_ct_bounds", "src/red-bounds.txt", "src/red_bounds.c"]}
{"id": "C67", "title": "test_avx: the comparison of the assembler functions never reports a difference, and what can stop it", "statement": "Read as C, test_avx has a signed overflow before its first comparison, for every source of random numbers. With wrapping multiplication it never reports a difference, for any source of random numbers: the tests of the four reductions, the correction and the shift succeed, and the tests of the products either succeed or stop for another reason. Each such reason occurs: the generators accept products of at least 2^43 on which the C function overflows; the generator of 16-bit factors need not stop; a negative scalar is accepted although its products are outside the documented range, and the assertion of the C function fails. A successful cross check of any two functions means that they agree on 10000 arrays of consecutive random numbers.", "quantifier": "all sources of random numbers below 2^31, all contents of uninitialised arrays, all multiples of 16 below 2^32 as array sizes, all pairs of functions for the meaning of success", "why_tests_cant": "the program itself is a test with random inputs: whether it can fail for some sequence of random numbers cannot be seen from runs", "anchors": ["src/test_avx.c:main", "src/test_avx.c:cross_check", "src/test_avx.c:random_coeff", "src/test_avx.c:test_mul_reduce_array16", "src/test_avx.c:test_mul_reduce_array", "src/test_avx.c:test_scalar_mul_reduce_array", "src/ntt_asm.S"]}
{"id": "C68", "title": "Array arguments can be parts of larger arrays", "statement": "A product, a transform or an elementwise function that is given pointers into larger arrays, as in ntt1024_product1(buf, buf + 1024, buf + 2048), behaves as on separate arrays of n elements: the result is the same, and no element of any array outside the n elements of each argument is changed or influences the result. The destination of a product can be one of its operands. Several threads can work on different parts of the same array at the same time. A function on an array with more than n elements gives the result for the first n and leaves the others unchanged. Arguments that overlap partly are not allowed: the result can be wrong.", "quantifier": "all layouts of the arguments in arrays of any length, all contents of the other elements, all numbers of threads and all interleavings of their accesses, all inputs and sizes allowed by the properties of the functions", "why_tests_cant": "the tests call the functions on arrays of exactly n elements (or with unused elements whose contents are not checked); an access just outside the part given to the function would not be noticed", "anchors": ["src/ntt.c", "src/ntt_red.c", "src/naive_ntt.c", "src/ntt_asm.S", "src/ntt1024.c:ntt1024_product1", "src/ntt_red1024.c:ntt_red1024_product1", "src/ntt_red_asm1024.c:ntt_red1024_product1_asm"]}
{"id": "C69", "title": "test_ntt_avx: all comparisons of the assembler transforms succeed, and the program stops in its first measurement", "statement": "All 48 comparisons of the program test_ntt_avx (eight transforms, six sizes from 16 to 2048) succeed, for any source of random numbers: the assembler transform and the C function return the same array, without overflow or failed assertion, for every array with elements in [-200000, 199999]. A successful comparison of any two functions means that they return and agree on 100000 arrays of consecutive random numbers. The program as a whole stops with an overflow or a failed assertion in its first measurement, which applies the C transform 102400 times to the same array, unless the 16 numbers drawn for it have first element and sum 0.", "quantifier": "all sources of random numbers, all contents of uninitialised arrays, the six sizes and eight pairs of functions, all states of the random source at the start of a comparison or measurement", "why_tests_cant": "the program is itself a test with random inputs; whether it can fail or must overflow for some sequence of random numbers cannot be seen from runs, and the overflow is undefined behaviour that a run need not show", "anchors": ["src/test_ntt_avx.c:main", "src/test_ntt_avx.c:cross_check", "src/test_ntt_avx.c:speed_test2", "src/test_ntt_avx.c:random_array", "src/test_ntt_avx.c:tests16", "src/ntt_red.c:ntt_red_ct_rev2std", "src/ntt_asm.S"]}
{"id": "C70", "title": "The verification harnesses pass for all inputs", "statement": "Each of the eight programs in verifier/vstte20-benchmarks, built with -DSAFE, runs without a failed assertion, without an overflow and without an access outside an array, whatever values the nondeterministic inputs take, with and without the Crab intrinsic. If some input violates an assumption the program ends at that point; the remaining runs cover every array with elements in [0, Q-1] (and, for the two programs with a nondeterministic table, every table with entries in [-6144, 6143]), and the program then computes exactly what the transform of src/ntt_red.c computes, so that the verdict on the copy carries over to the library. The results are bounded by 283144017 (Cooley-Tukey) and 1632255839 (Gentleman-Sande).", "quantifier": "all values of the nondeterministic inputs, the two builds, all eight programs", "why_tests_cant": "the inputs range over Q^1024 arrays and 12288^1024 tables; the repository can only claim the result of an external abstract interpreter", "anchors": ["verifier/vstte20-benchmarks/ntt_red.c:mul_red", "verifier/vstte20-benchmarks/test_ntt_red1024.c", "verifier/vstte20-benchmarks/test_ntt_red1024c.c", "verifier/README.md"]}
{"id": "C71", "title": "The lists of primitive roots are complete, and are the parameters that the table generators accept", "statement": "Each of the files data/primitive-roots-{1024,2048,4096}.txt lists, in increasing order and without repetition, exactly the numbers below 12289 that are primitive n-th roots of unity modulo 12289. For n = 512, 1024 and 2048 the numbers in the file for 2n are exactly the parameters psi with which make_tables and make_red_tables write tables for n, and these tables are correct; with every other parameter they stop with an error message.", "quantifier": "all numbers below 12289; all integers psi; all contents of uninitialised memory", "why_tests_cant": "a check of the files by sampling does not show completeness; acceptance of a parameter has to be settled for all integers", "anchors": ["data/primitive-roots-1024.txt", "data/primitive-roots-2048.txt", "data/primitive-roots-4096.txt", "src/make_tables.c:main", "src/make_red_tables.c:main"]}
{"id": "C72", "title": "The largest input range of the transforms without reductions", "statement": "For n = 16, 256, 512 and 1024 and with the tables of the library, forward and inverse, the eight transforms of ntt_red.c return the transform without overflow or failed assertion for every array with elements up to 2^31/n - 1 in absolute value. For the four transforms without mul and the two nttmul transforms this range is the largest possible: on an array of equal elements X with nX >= 2^31 they overflow or an assertion fails, whatever the table. For elements in [-12288, 12288] the elements of the result are bounded by explicit numbers (for n = 1024 below 2^25), much smaller than the bounds that hold for all tables.", "quantifier": "all input arrays in the range, all four sizes, forward and inverse tables, all contents of uninitialised memory in the table generator; for the overflow all n = 2^k up to 2^31, all X and all tables", "why_tests_cant": "the elements grow differently at each index and the extreme inputs are not known; random inputs stay far from the bound", "anchors": ["src/ntt_red.c:ntt_red_ct_rev2std", "src/ntt_red.c:ntt_red_ct_std2rev", "src/ntt_red.c:ntt_red_gs_rev2std", "src/ntt_red.c:ntt_red_gs_std2rev", "src/ntt_red.c:mulntt_red_ct_rev2std", "src/ntt_red.c:mulntt_red_ct_std2rev", "src/ntt_red.c:nttmul_red_gs_rev2std", "src/ntt_red.c:nttmul_red_gs_std2rev", "src/ntt_red.c:mul_red", "src/make_red_tables.c:main"]}
{"id": "C73", "title": "The library as it is built, without assertions", "statement": "src/Makefile compiles the library with -DNDEBUG. Each function of ntt_red.c, each product of the ntt_red libraries and bitrev_shuffle then does the same as with assertions, except where an assertion would have failed. So the five products are correct for reduced input and the eight transforms for all elements up to 2^31/n - 1. For arbitrary contents of arrays and tables the only error that can occur is a signed overflow. On equal elements X with nX >= 2^31 six transforms do overflow, and repeated calls of ntt_red_ct_rev2std on the same array overflow within 65 calls. mul_red returns 3xy modulo 12289 when the assertion would hold; otherwise it can silently return a wrong residue, and so can a transform. bitrev_shuffle with any n > 0 permutes the array or does not terminate, without access out of bounds; with n = 0 it does not terminate.", "quantifier": "all arguments of all functions; all contents of arrays and tables; all n = 2^k up to 2^31; all n below 2^32 for bitrev_shuffle", "why_tests_cant": "the tests run the build without assertions and cannot see where one would have failed; agreement of the two builds has to hold for all arguments", "anchors": ["src/Makefile:CPPFLAGS", "src/ntt_red.c:mul_red", "src/ntt_red.c:normalize", "src/ntt_red.c:normalize_inv3", "src/ntt.c:bitrev_shuffle", "src/naive_ntt.c:bitrev_shuffle", "src/ntt_red1024.c:ntt_red1024_product1"]}
{"id": "C74", "title": "The products obey the laws of a commutative ring, and the transforms tell which arrays have an inverse", "statement": "With any of the product functions of the ntt, ntt_red and AVX2 libraries for the same size, on arrays of coefficients in [0,Q-1]: the product is commutative and associative, distributes over the elementwise sum modulo Q, and has the array 1,0,...,0 as neutral element; multiplication by X^m moves the coefficients up by m places and changes the sign of those that come around. Two parties that multiply a public array by their secret, exchange the results and multiply again get the same array, whatever functions each of them uses. An array has an inverse exactly when no component of its mulntt transform is zero modulo Q (in each of the three libraries); the inverse is unique, and is computed by inverting the components, inttmul and multiplication by n^-1. There are non-zero arrays whose product is zero.", "quantifier": "all n = 2^k up to 1024 and psi accepted by the generators; all arrays of n coefficients in [0,Q-1]; all choices of product functions; all previous contents of the results", "why_tests_cant": "the laws relate results on all pairs and triples of arrays; a test covers a few of them", "anchors": ["src/ntt1024.c:ntt1024_product1", "src/ntt_red1024.c:ntt_red1024_product1", "src/ntt_red_asm1024.c:ntt_red1024_product1_asm", "src/ntt1024.h:mulntt1024_ct_std2rev", "src/ntt1024.h:inttmul1024_gs_rev2std", "src/ntt.c:scalar_mul_array"]}
{"id": "C75", "title": "Control flow independent of the data, in the library as built", "statement": "In the library as it is built (with -DNDEBUG), the sequence of array accesses and of the outcomes of all tests (if, ?: and loop conditions of the source) of each transform, elementwise function and product of the ntt, ntt_red and naive_ntt libraries depends only on n (and, for shuffle_with_table, on the table of pairs): not on the coefficients, nor on the contents of the other tables, nor on the previous contents of the result. The exceptions are shift_array, normalize and normalize_inv3, and the five products of ntt_red16, ntt_red256 and ntt_red512, which call shift_array. For shift_array and these products the sequence is the same exactly if the same coefficients of the operands are greater than (Q-1)/2 = 6144, so that it does reveal something about the operands; for normalize and normalize_inv3 exactly if the same elements are negative and not multiples of Q.", "quantifier": "all pairs of runs that return, with arrays of any contents and sizes; all n below 2^32; for the products also: all pairs of reduced operands, with the tables of any accepted parameters", "why_tests_cant": "a property of all pairs of runs; a test compares a few traces", "anchors": ["src/ntt.c", "src/ntt_red.c:shift_array", "src/ntt_red.c:normalize", "src/ntt_red.c:normalize_inv3", "src/ntt_red16.c:ntt_red16_product1", "src/ntt_red1024.c:ntt_red1024_product1", "src/ntt1024.c:ntt1024_product1", "src/naive_ntt.c"]}
{"id": "C76", "title": "The machine code of the AVX2 functions", "statement": "The instructions of src/ntt_asm.S, executed one by one on a processor with 64-bit and 256-bit registers, flags and a memory of bytes with access rights: a call of any of the eighteen functions on arrays, according to the calling convention for x86-64, returns to its caller after finitely many steps without a fault; the array then holds what the C function of ntt_red.c computes, whenever that is defined; no other byte of memory, not the stack pointer and none of the registers that a function has to preserve are changed. The transforms also return, within the array, for contents for which the C function overflows. avx2_supported returns 1 exactly if processor and operating system support AVX2, executes xgetbv only where it is defined, and restores rbx. The functions rely on the upper half of the register of the uint32_t argument being zero, which the calling convention does not promise: otherwise they access memory behind the array.", "quantifier": "all contents of memory and registers; all addresses of array, table, operands, stack and data section without overlap of the array (in the lower half of the address space) with the others, except that the destination of the product of two arrays may be an operand; all access rights that allow the access to these; all n below 2^32 that are positive multiples of 16, resp. powers of two from 16; all answers of cpuid and xgetbv", "why_tests_cant": "a test runs a few calls; that nothing else is read or written, and that the registers of the caller survive, must hold for all addresses and contents", "anchors": ["src/ntt_asm.S:avx2_supported", "src/ntt_asm.S:reduce_array_asm", "src/ntt_asm.S:correct_asm", "src/ntt_asm.S:shift_array_asm", "src/ntt_asm.S:mul_reduce_array16_asm", "src/ntt_asm.S:mul_reduce_array_asm", "src/ntt_asm.S:scalar_mul_reduce_array_asm", "src/ntt_asm.S:ntt_red_ct_rev2std_asm", "src/ntt_asm.S:mulntt_red_ct_std2rev_asm", "src/ntt_asm.S:nttmul_red_gs_std2rev_asm", "src/ntt_asm.h", "src/ntt_red.c"]}
{"id": "C77", "title": "The AVX2 products down to the machine code", "statement": "Each AVX2 product function is a sequence of calls of functions of src/ntt_asm.S. When these calls are executed one after another, instruction by instruction, on a processor with registers, flags and a memory of bytes with access rights, every call returns to its caller without a fault, with the registers preserved that a function has to preserve and no byte of memory changed outside its destination array, and after the last call the array c holds the product modulo X^n+1 of the initial contents of a and b, in canonical form - whatever c held before, also if c is the array a or the array b, and whatever the caller does between the calls to the other registers, the flags and the rest of the memory.", "quantifier": "the five product functions, for the sizes and parameters of the library and for all sizes 2^k from 16 to 2048 with any psi accepted by the table generator, with and without shift; all reduced a and b; all addresses of the arrays, tables, data section and return addresses without overlap, except that c may be a or b; all access rights that allow the accesses; all behaviours of the caller between calls", "why_tests_cant": "the number of inputs, of addresses and of states of the processor between the calls is beyond enumeration", "anchors": ["src/ntt_red_asm16.c:ntt_red16_product1_asm", "src/ntt_red_asm256.c:ntt_red256_product3_asm", "src/ntt_red_asm512.c:ntt_red512_product4_asm", "src/ntt_red_asm1024.c:ntt_red1024_product1_asm", "src/ntt_red_asm1024.c:ntt_red1024_product5_asm", "src/ntt_red_asm1024.h", "src/ntt_asm.S"]}
{"id": "C78", "title": "Constant time of the AVX2 functions, down to the machine code", "statement": "What can be observed of a call of a function of src/ntt_asm.S - the sequence of instructions executed, hence the outcome of every jump and the number of steps, and the address and width of every access to memory - is determined by the addresses and the element count passed as arguments and by the stack pointer. The contents of the arrays, of the tables and of the rest of memory, the scalar multiplier, the vector registers, the flags and the other registers have no influence. So the observations of each call made by an AVX2 product are the same for all operands.", "quantifier": "all functions of src/ntt_asm.S; all pairs of states of the processor that agree on the argument registers that are addresses or counts and on the stack pointer; all machines (access rights, position of the data section), also where a call faults or does not return; all numbers of steps; all calls of the products", "why_tests_cant": "equality of observations is a relation between all pairs of executions; a test compares a few, and a wall-clock measurement sees noise", "anchors": ["src/ntt_asm.S", "src/ntt_asm.h", "src/ntt_red_asm16.c:ntt_red16_product1_asm", "src/ntt_red_asm1024.c:ntt_red1024_product5_asm"]}
{"id": "C79", "title": "The analysis of the reduction in src/notes.txt", "statement": "For a modulus q = k*2^m + 1 with k > 0, let red(x) = k*r - a where x = a*2^m + r, 0 <= r < 2^m. Then red(x) = kx modulo q; -x/2^m <= red(x) < -x/2^m + (q-k); |red(wx)| <= k|x| + (q-k) for 0 <= w < q, with the tighter bounds the notes derive; red(x) fits in 32 bits exactly in the documented range in the sense that it fits inside and fails next to both ends. From |x|,|y| <= B a Cooley-Tukey update gives at most (k+1)B + (q-k) and a Gentleman-Sande update at most 2kB + (q-k), and for q = 12289 the listed sequences of bounds, with and without reduction rounds, are those of these formulas. The minima and maxima listed for red(xy) are right. The sequences of more precise bounds, for factors in [0, 12288] and in [-6144, 6144], are the best possible ones from round to round, with a reduction exactly where 32 bits would not suffice, and are what test_red_bounds prints. (The bounds on x' and y' that the notes write down on the way to the update bounds are not: their negation is proved.)", "quantifier": "all k > 0 and m, all integers x, y, all factors w in [0, q-1], all bounds B; the listed sequences are closed terms", "why_tests_cant": "the claims are about all integers and all moduli of the form; the choice of reduction rounds in the library rests on them", "anchors": ["src/notes.txt", "src/ntt_red.c:red", "src/red_bounds.c:ct_bound", "src/red_bounds.c:gs_bound", "src/test_red_bounds.c:ct_iteration"]}
{"id": "C80", "title": "Shifts of negative numbers and sign masks", "statement": "A right shift of an int32_t by k rounds the quotient by 2^k down, also for negative numbers, and (x >> k) & q is q if x is negative and 0 otherwise whenever -2^k <= x < 2^k (for k = 31: for every int32_t). So sub_mod and add_mod of ntt.c equal the conditional expressions of their comments for all operands in [0, Q-1]; a shift by 14 is enough there, and no smaller shift is; and correct of ntt_red.c equals the alternative with tests in its source for all arrays of numbers in [-65536, 65535], and not beyond. src/test_shift.c terminates and prints, for i = 0, ..., 1002 in this order, eight lines on i and -i that all agree with this.", "quantifier": "all x, all shifts k, all q from 0 to INT32_MAX; all operands of sub_mod and add_mod; all arrays for correct; the one execution of the program", "why_tests_cant": "2^32 arguments for each shift and each q; the program prints what the compiler does for 2005 of them and checks nothing", "anchors": ["src/test_shift.c: print_shift, print_shift_and, main", "src/ntt.c: sub_mod, add_mod", "src/ntt_red.c: correct"]}
{"id": "C81", "title": "AVX2 products in several threads at the same time", "statement": "Any number of threads of a process each call an AVX2 product of the library (any of the five, any accepted size and table), with their own arrays and stack and with shared tables and constants. However their instructions are interleaved, and whatever the callers do between the calls and other code does elsewhere in memory: no instruction faults, each call returns to its caller with the preserved registers intact, an instruction of a thread changes only the arrays of that thread, each thread ends with its own product in its array c, a call returns after a bounded number of its own instructions however the others proceed, and a thread can always finish alone, wherever the others are stopped.", "quantifier": "all sets of threads, all interleavings of instructions, all places of the arrays, tables and stacks (that do not overlap where one of them is written), all contents of registers and other memory, all reduced operands, all accepted parameters", "why_tests_cant": "the number of interleavings of thousands of instructions is astronomical, and an operating system shows only a few of them", "anchors": ["src/ntt_asm.S", "src/ntt_red_asm16.c", "src/ntt_red_asm1024.c"]}
{"id": "C82", "title": "The text of the C files computes what is claimed", "statement": "The text of src/ntt.c, src/ntt_red.c, src/naive_ntt.c, and of the headers and product files for sizes 16, 256, 512 and 1024 of the three libraries, read and executed according to the C standard: each of the 60 products called on arrays in memory, with the tables printed by the generators for any acceptable parameters as global constants, terminates without undefined behaviour or failed assertion, stores the product of the two polynomials modulo X^n+1 in c, and changes nothing but the three arrays; each transform of the headers and each function of the three files changes only its array, and as the other properties say; bitrev_shuffle moves every element to the bit-reversed index.", "quantifier": "all contents of the arrays that meet the documented preconditions, all places of arrays and tables, all acceptable psi, and for the functions of ntt.c, ntt_red.c and naive_ntt.c all sizes, tables (and for naive_ntt.c all moduli)", "why_tests_cant": "the claim is about what the source text means, for every input and every table, and not about what one compiler made of it on the inputs tried", "anchors": ["src/ntt.c", "src/ntt_red.c", "src/naive_ntt.c", "src/ntt16.h", "src/ntt16.c", "src/ntt_red1024.h", "src/ntt_red1024.c", "src/naive_ntt512.c"]}
{"id": "C83", "title": "The text of the assembly file and of the AVX2 products computes what is claimed", "statement": "The text of src/ntt_asm.S, assembled and executed on an x86-64 processor with AVX2: each of its 18 functions on arrays, called according to the calling convention on an array whose size is a positive multiple of 16 (a power of two from 16 for the transforms), returns to its caller, preserves the registers the convention requires, changes nothing but the array, and leaves in it what the C function of src/ntt_red.c of the same name computes; avx2_supported returns 1 exactly when the documented test for AVX2 succeeds. Each of the 20 AVX2 products, as written in src/ntt_red_asm<n>.h and .c for n = 16, 256, 512, 1024, only calls global functions of that file, every call returns, and afterwards c holds the reduced coefficients of the product of the two polynomials modulo X^n+1; c may be the same array as a or b.", "quantifier": "all array contents, addresses, tables and states of the processor that meet the documented preconditions; whatever the caller does to registers, flags and other memory between the calls", "why_tests_cant": "the claim is about what the source text means for every input and every state of the machine", "anchors": ["src/ntt_asm.S", "src/ntt_asm.h", "src/ntt_red_asm16.h", "src/ntt_red_asm16.c", "src/ntt_red_asm1024.h", "src/ntt_red_asm1024.c"]}
{"id": "C84", "title": "The text of the table generators' functions computes what is claimed", "statement": "The text of src/make_tables.c, src/make_red_tables.c and src/make_bitrev_table.c, read and executed according to the C standard: power(x,k,q) is x^k mod q; inverse finds the inverse modulo q exactly if there is one; logtwo finds the logarithm exactly if n is a power of two; reverse reverses the low k bits; is_primitive_root decides whether n is the order of x modulo q; find_k is the odd k with q = k*2^m + 1; rescale_factor8 and rescale_factor6 are k^8*n and k^6*n modulo q; shift is the representative between -q/2 and q/2; build_power_table, build_table and build_rev_table fill all n elements of the array with the powers documented for them; rev_table_npairs counts the pairs of distinct bit-reversed indices below 2^k. Every call terminates without undefined behaviour or failed assertion and changes nothing but the result.", "quantifier": "all moduli up to 65536 and all bases below 65536 (inverse: x*q < 2^31; shift, find_k: wider), all exponents, all sizes up to 2^31, all contents of the array and of the rest of the memory", "why_tests_cant": "the claim is about what the source text means for every modulus, root, exponent and size; the generators are run for a handful of parameters", "anchors": ["src/make_tables.c", "src/make_red_tables.c", "src/make_bitrev_table.c"]}
{"id": "C85", "title": "The text of src/sort.c sorts", "statement": "The text of src/sort.c, read and executed according to the C standard: sort(a, n) on an array of at least n elements of type uint64_t terminates without access out of bounds or undefined behaviour; afterwards the first n elements are in increasing order and are a permutation of the first n elements before; the elements from n on, and all other objects, are unchanged.", "quantifier": "all arrays of uint64_t, of any size, all n up to the size and below 2^32", "why_tests_cant": "the pivot scans have no bounds checks: that they stop inside the array depends on the contents at every level of the recursion, for every array", "anchors": ["src/sort.c", "src/sort.h"]}
{"id": "C86", "title": "From the generator's command line to a correct product", "statement": "Run make_tables (make_red_tables) with the size of a library and an acceptable psi as arguments. It writes a header and a source file. Both are C text with the constants that the library declares. A program made of these two files and of the library's C files multiplies: each of the five products of that size, as written, called with three different arrays, terminates without undefined behaviour and stores the reduced product modulo X^n + 1 in the first array; apart from the three arrays nothing changes.", "quantifier": "all command lines that say one of the sizes 16, 256, 512, 1024 and an acceptable psi in any notation atol accepts, both generators, all five products, all reduced inputs, all other contents of the memory", "why_tests_cant": "the build fixes one psi per size and the tests run with the files that build made; that the text written for any other psi, once compiled, still defines the tables the C text needs is about every psi and every input", "anchors": ["src/make_tables.c", "src/make_red_tables.c", "src/Makefile", "src/ntt16.c", "src/ntt256.c", "src/ntt512.c", "src/ntt1024.c", "src/ntt_red16.c", "src/ntt_red256.c", "src/ntt_red512.c", "src/ntt_red1024.c"]}
{"id": "C87", "title": "The text of the extremum functions of red_bounds.c finds the extrema", "statement": "The text of src/red_bounds.c, read and executed according to the C standard: max_red(a,b,&m) and min_red(a,b,&m) return the maximum and minimum of red(x) over a <= x <= b and store a point of the interval where it is attained; max_red_mul(a,b,w,&m) and min_red_mul(a,b,w,&m) do so for red(w*x). The calls terminate without undefined behaviour or failed assertion and change nothing else.", "quantifier": "all a <= b of type int64_t for max_red and min_red; all a <= b and all w other than 0 for which the products at the ends of the interval fit in int64_t with a margin, for max_red_mul and min_red_mul", "why_tests_cant": "the intervals have up to 2^64 points and the functions look at a few of them; that no other point is better is a statement about all", "anchors": ["src/red_bounds.c", "src/red_bounds.h"]}
{"id": "C88", "title": "Compiling without assertions does not change what the functions do", "statement": "src/Makefile compiles with -DNDEBUG, so that assert does nothing. Every call of a function of the sources that terminates without undefined behaviour and without a failed assertion has exactly the same result and the same effect on memory in the program compiled without assertions. In particular the products are correct, the transforms, the table generators and the extremum functions do the same. The converse does not hold: min_red_mul_interval(-5000,5000,0,1,&m,&w) fails an assertion with assertions and returns -1 without.", "quantifier": "all programs in the subset of C that the sources use, all functions, arguments, constants and memory contents", "why_tests_cant": "a test runs one of the two builds; that they agree on all inputs is a statement about all executions of two programs", "anchors": ["src/Makefile", "src/ntt_red.c", "src/ntt.c", "src/red_bounds.c", "src/make_tables.c"]}
{"id": "C89", "title": "The text of the bound functions of red_bounds.c computes the best bounds", "statement": "The text of src/red_bounds.c, read and executed according to the C standard, including calls that take addresses of local variables: max_red_mul_interval and min_red_mul_interval return bounds of red(w*x) over intervals for x and w, zero or attained at the stored point; ct_bound, gs_bound, ct_bound_fixed and gs_bound_fixed return the largest absolute value of the results of a butterfly; ntt_ct_bounds and ntt_gs_bounds fill the array with the largest absolute values after each round and return the last one. The calls terminate without undefined behaviour or failed assertion and change nothing else.", "quantifier": "all intervals for which the products fit in int64_t (for x: -b <= a <= b; for w: end points other than 0 where the code asserts it), all bounds, all sizes 2^k with k <= 31, all tables with nonzero entries of at most 6144 in absolute value and 3^k (b0+6144) <= 2^40", "why_tests_cant": "the functions look at a few points of intervals with up to 2^64 points; that no other point gives a larger result is a statement about all of them", "anchors": ["src/red_bounds.c", "src/red_bounds.h"]}
{"id": "C90", "title": "From the command line of the generator to the AVX2 products", "statement": "For each size of the library (16, 256, 512, 1024) and any command-line arguments that say this size and an acceptable psi, make_red_tables writes the two files ntt_red<n>_tables.h and .c, and if memory holds the tables that these files define, each AVX2 product, as written in src/ntt_red_asm<n>.h, .c and src/ntt_asm.S, multiplies: every call that it makes of a function in assembly returns and afterwards c holds the reduced coefficients of the product of a and b modulo X^n+1 (ntt_red1024_product1_asm: for the psi of the Makefile).", "quantifier": "all arguments of the generator that it accepts for these sizes, all reduced a and b, any contents of c, any memory layout that the linker may choose, any behaviour of the caller between the calls that respects the calling convention", "why_tests_cant": "a test builds one set of tables and multiplies a few polynomials; the claim is about all psi and all polynomials, and that the names in the generated files are those the products use", "anchors": ["src/make_red_tables.c", "src/ntt_red_asm16.c", "src/ntt_red_asm256.c", "src/ntt_red_asm512.c", "src/ntt_red_asm1024.c", "src/ntt_asm.S"]}
{"id": "C91", "title": "The text of the printing functions of the table generators writes the tables", "statement": "The text of src/make_tables.c, src/make_red_tables.c and src/make_bitrev_table.c, read and executed according to the C standard, with fprintf appending to the file: print_declarations writes a header file that, read as C, consists of the include guard, the constants of the parameter structure and the declarations of the tables; print_table writes the definition of an array with the given name, size and elements (make_red_tables: elements made centred modulo q); print_bitrev_declarations and print_bitrev_table write the files of the table of pairs of bit-reversed indices; the smaller printing functions write one comment, one constant or one declaration. The calls terminate without undefined behaviour, write only at the end of the file and change nothing else.", "quantifier": "all parameter values that the generators accept, all names made of letters, digits and underscores, all tables with fewer than 2^32 elements, all sizes 2^k with k <= 15 for the bit-reversal table, all contents of the file before the call, all places of strings and arrays in memory", "why_tests_cant": "a test generates the tables for a few sizes and compiles them; that the printed text denotes the computed elements, for every table, is a statement about the text for all inputs", "anchors": ["src/make_tables.c: print_table, print_header, print_comment, print_param_def, print_table_decl, print_declarations", "src/make_red_tables.c: the same", "src/make_bitrev_table.c: print_bitrev_table, print_bitrev_declarations"]}
{"id": "C92", "title": "The text of the table generators writes the files with the correct tables", "statement": "The text of print_tables in src/make_tables.c and in src/make_red_tables.c, read and executed according to the C standard on the parameters of a size n = 2^k and an element psi modulo q (psi, psi^2, their inverses, the inverse of n, and for make_red_tables of k = 3), terminates without undefined behaviour for every content of the memory that malloc returns; what it writes at the end of the file, read as C, defines all the tables, with the documented powers of psi and omega in the documented order. It changes nothing else, and frees the array. For arguments accepted by the program, the two files of make_tables and make_red_tables are exactly what the text of print_declarations and of print_tables writes. With the files written for a library size and any psi with psi^n = -1, the text of the five products of src/ntt<n>.c, of src/ntt_red<n>.c and of the AVX2 products multiplies polynomials modulo X^n + 1.", "quantifier": "all sizes 2^k with k <= 16, all parameters psi, all initial contents of the file and of the allocated memory, all positions of the objects in memory; for the files also all command-line strings with accepted values", "why_tests_cant": "The tables depend on n and psi and on memory that is not initialised; tests compile a few generated files. A table computed with the wrong power, or printed under the name of another table, shows for some parameters only.", "anchors": ["src/make_tables.c: print_tables, build_power_table, build_table, build_rev_table, print_table, print_declarations", "src/make_red_tables.c: print_tables, build_power_table, build_table, build_rev_table, print_table, shift, rescale_factor8, rescale_factor6, print_declarations"]}
{"id": "C93", "title": "The text of the products shows the same accesses and tests for all operands", "statement": "Take the text of src/ntt.c, src/naive_ntt.c or src/ntt_red.c with the header and source for a size n, read and executed according to the C standard, and record every access to an element of an array (object, position, read or write) and the outcome of every test (if, loops, conditional expressions, && and ||). For each of the five products of src/ntt<n>.c and src/naive_ntt<n>.c (n = 16, 256, 512, 1024) and of src/ntt_red1024.c, and for each transform of the headers of all three libraries, this record is the same for all operands, once the addresses of the arrays and the tables are fixed. The functions of src/ntt.c, src/naive_ntt.c and src/ntt_red.c have this property for every size and table, also when the table or the constant changes, except normalize, normalize_inv3 and shift_array, whose record depends on the elements, and shuffle_with_table, whose record depends on the table of pairs only. The record is also the same when the files are compiled without assertions (-DNDEBUG).", "quantifier": "all operands (reduced arrays; for transforms all arrays on which the function has no undefined behaviour), all previous contents of the result and of the rest of the memory, all addresses, all tables printed by the generators; for the functions of the three files also all sizes and tables", "why_tests_cant": "A leak shows only for operands that take the other branch or access another element; timing tests see a few pairs of operands.", "anchors": ["src/ntt.c", "src/ntt_red.c", "src/naive_ntt.c", "src/ntt16.c, src/ntt256.c, src/ntt512.c, src/ntt1024.c: products and transforms", "src/naive_ntt16.c, src/naive_ntt256.c, src/naive_ntt512.c, src/naive_ntt1024.c", "src/ntt_red16.h, src/ntt_red256.h, src/ntt_red512.h, src/ntt_red1024.h, src/ntt_red1024.c"]}
{"id": "C94", "title": "The text of the products can write over an operand", "statement": "Take the text of src/ntt.c, src/naive_ntt.c or src/ntt_red.c with the header and source for a size n = 16, 256, 512 or 1024, read and executed according to the C standard. When the destination of one of the five products is the same array as its first or its second operand, the operands being two arrays, the call returns without undefined behaviour and the destination holds the product of the initial operands modulo X^n + 1, with coefficients in the range of the library. Nothing but the two arrays changes. This also holds when assertions are removed (-DNDEBUG). With the table files that make_tables or make_red_tables write for this size and any acceptable psi, the same holds for a call whose destination is a third array or one of the operands.", "quantifier": "all pairs of reduced operands, both choices of the operand that is overwritten, all addresses and contents of the rest of the memory, all tables printed by the generators for any acceptable psi", "why_tests_cant": "The tests always use a third array for the result. Overwriting is correct only if no element of the operand is read after the element of the result at its place is written, on every call along the product.", "anchors": ["src/ntt.c: mul_array", "src/naive_ntt.c: mul_array_naive", "src/ntt_red.c: mul_reduce_array", "src/ntt16.c, src/ntt256.c, src/ntt512.c, src/ntt1024.c: ntt<n>_product1..5", "src/naive_ntt16.c, src/naive_ntt256.c, src/naive_ntt512.c, src/naive_ntt1024.c: naive_ntt<n>_product1..5", "src/ntt_red16.c, src/ntt_red256.c, src/ntt_red512.c, src/ntt_red1024.c: ntt_red<n>_product1..5"]}
{"id": "C95", "title": "The text of the checks in the test programs accepts exactly the right results", "statement": "Take the text of a test program (src/test_ntt<n>.c, src/test_naive_ntt<n>.c, src/test_ntt_red<n>.c, src/test_ntt_red_asm<n>.c for n = 16, 256, 512, 1024, and src/test_ntt.c, src/test_ntt_red.c), read and executed according to the C standard. The functions with which it judges results return without undefined behaviour and without a failed assertion and change nothing: equal_arrays returns true exactly if the first n elements of the two arrays are equal; check_ntt_simple returns true exactly if element i is omega^(k*i) modulo 12289 for each i < n; check_ntt_ntt_simple returns true exactly if the array is n*X^j with j + k = 0 modulo n; equal_simple_poly returns true exactly if the array is X^m modulo X^n + 1 with coefficients in [0, 12288]. power(x, k) is x^k modulo 12289, and simple_poly stores X^k and nothing else. This also holds when assertions are removed (-DNDEBUG). (test_ntt.c and test_ntt_red.c have no functions for products; in test_ntt_red.c equal_arrays is disabled.)", "quantifier": "all arrays of int32_t at least as long as the given size, all sizes (below 2^32; 2^31 for check_ntt_ntt_simple and equal_simple_poly), all exponents in range, all bases up to 46340 (the largest whose square is an int32_t), all contents of the rest of the memory", "why_tests_cant": "A check that accepts too much passes on every correct program; only wrong results would show it, and nobody runs the tests on all wrong results.", "anchors": ["src/test_ntt16.c: equal_arrays, simple_poly, power, check_ntt_simple, check_ntt_ntt_simple, equal_simple_poly", "src/test_ntt256.c, src/test_ntt512.c, src/test_ntt1024.c", "src/test_naive_ntt16.c, src/test_naive_ntt256.c, src/test_naive_ntt512.c, src/test_naive_ntt1024.c", "src/test_ntt_red16.c, src/test_ntt_red256.c, src/test_ntt_red512.c, src/test_ntt_red1024.c", "src/test_ntt_red_asm16.c, src/test_ntt_red_asm256.c, src/test_ntt_red_asm512.c, src/test_ntt_red_asm1024.c", "src/test_ntt.c, src/test_ntt_red.c: power, check_ntt_simple, check_ntt_ntt_simple"]}
{"id": "C96", "title": "The text of the computing functions of test_mod.c, test_red.c and test_red_bounds.c", "statement": "Take the text of src/test_mod.c and of src/test_red.c, read and executed according to the C standard. The functions return without undefined behaviour and change nothing. In test_mod.c: smodq(x) is the remainder of the truncated division by 12289, umodq(x) the remainder of an unsigned number, pmodq(x) the remainder between 0 and 12288 of a signed number. approx_qinv(n) is 2^n/12289 rounded down, plus 1, for n < 46. approx_divq(x, 45) and approx_modq(x, 45) are the quotient and the remainder by 12289 of every x of type uint32_t. approx_modq(x, n) is the remainder for n from 41 to 45 and every x up to 12288^2; for n = 40 and n = 46 there is such an x for which it is not. approx_pmodq(x, n) is the remainder between 0 and 12288 for n from 41 to 45 and every x with |x| at most 12288^2. In test_red.c: red(x) is 3*(x mod 4096) - floor(x/4096) for every x of type int64_t; test_overflow(x) returns true exactly if that does not fit in int32_t; test_overflow2(x) returns true exactly if it does not fit for some number from 4096x to 4096x+4095; ct_bound(b) and gs_bound(b) are bounds for the magnitudes after a Cooley-Tukey and a Gentleman-Sande butterfly with reduction on values of magnitude at most b and a factor of magnitude at most 12288. In test_red_bounds.c, which calls the functions of src/red_bounds.c: max_abs_red(b) is the greatest magnitude of 3*(x mod 4096) - floor(x/4096) for |x| <= b, with and without assertions.", "quantifier": "all arguments of the parameter types in the given ranges (-2^51 <= x < 2^51 for test_overflow2, 0 <= b <= 10^18 for the bounds, 0 <= b < 2^63 for max_abs_red), all integer types of the arguments before conversion, all contents of the memory, all values of the other global variables", "why_tests_cant": "The programs are themselves tests: test_mod tries 12288^2 + 1 arguments for a shift and takes the results as proof, and does not try the whole range of uint32_t; the range of int64_t and the triples behind the bounds cannot be enumerated.", "anchors": ["src/test_mod.c: smodq, umodq, pmodq, approx_qinv, approx_divq, approx_modq, approx_pinv, approx_pdivq, approx_pmodq", "src/test_red.c: red, test_overflow, test_overflow2, ct_bound, gs_bound", "src/test_red_bounds.c: max_abs_red", "src/red_bounds.c: min_red, max_red"]}
{"id": "C97", "title": "The text of the functions that test_ntt_avx compares", "statement": "Take the text of src/test_ntt_avx.c and src/ntt_red.c, read and executed according to the C standard, and the text of src/ntt_asm.S, read and executed as machine instructions. For each of the 48 comparisons of test_ntt_avx (eight transforms, sizes 16, 128, 256, 512, 1024, 2048), with the tables of src/test_ntt_red_tables.c in memory: the function <name><n>_base(a) returns without undefined behaviour, with and without assertions; the function <name><n>_asm(a) makes exactly one call of a function in assembly, with the array, the size and the same table, and this call returns; both store the same array in a and change nothing else; this array is congruent modulo 12289 to the number-theoretic transform of a (of a[i]*psi^i for mulntt_ct_std2rev, times psi^i for nttmul, in the orders the names say; mulntt_ct_rev2std is tested with the table that is not scaled and gives the transform of a). copy_array(b, a, n) of test_ntt_avx.c and test_avx.c copies the array, equal_arrays(a, b, n) returns true exactly if the first n elements are equal.", "quantifier": "all 48 comparisons; all arrays of the size with elements from -200000 to 199999 (the range the program draws from); all contents of the rest of the memory, all addresses, stacks and registers of a proper call; for copy_array and equal_arrays all arrays of int32_t and all n below 2^32", "why_tests_cant": "The program itself is the test: it draws 100000 arrays for each comparison out of 400000^n, and its success says nothing about the other arrays; it cannot show that the two functions compared use the same table and size when they happen to agree, nor that memory outside the array is unchanged.", "anchors": ["src/test_ntt_avx.c: ntt_ct_rev2std16_asm, ntt_ct_rev2std16_base and the other 94 functions at lines 250-662, equal_arrays, copy_array", "src/test_avx.c: equal_arrays, copy_array", "src/ntt_red.c", "src/ntt_asm.S", "src/test_ntt_red_tables.c"]}
{"id": "C98", "title": "The text of the array functions in assembly and in C", "statement": "Take the text of src/ntt_asm.S, read and executed as machine instructions, and the text of src/ntt_red.c, read and executed according to the C standard. On the same arguments the following functions return, in C without undefined behaviour (with and without assertions), store the same array and change nothing else: reduce_array_asm, reduce_array_asm2 and reduce_array (element x becomes 3*(x mod 4096) - floor(x/4096)); reduce_array_twice_asm, reduce_array_twice_asm2 and reduce_array_twice (the same twice); shift_array_asm and shift_array (elements greater than 6144 are lowered by 12289); correct_asm, correct and normalize on elements from -12289 to 24577 (x mod 12289); mul_reduce_array16_asm, mul_reduce_array16_asm2 and mul_reduce_array16, mul_reduce_array_asm and mul_reduce_array, scalar_mul_reduce_array_asm and scalar_mul_reduce_array on factors whose products are from -8796042698752 to 2^43 - 1 (the reduction of the product).", "quantifier": "all arrays of int32_t numbers whose size is a positive multiple of 16 below 2^32, all tables of int16_t, all factors, all contents of the rest of the memory, all addresses, stacks and registers of a proper call", "why_tests_cant": "test_avx compares the functions on 10000 random arrays of 8 sizes; it cannot cover all contents, all sizes, memory outside the arrays and undefined behaviour, and its own generator overflows (C67).", "anchors": ["src/ntt_asm.S: reduce_array_asm, reduce_array_asm2, reduce_array_twice_asm, reduce_array_twice_asm2, shift_array_asm, correct_asm, mul_reduce_array16_asm, mul_reduce_array16_asm2, mul_reduce_array_asm, scalar_mul_reduce_array_asm", "src/ntt_red.c: reduce_array, reduce_array_twice, shift_array, correct, normalize, mul_reduce_array16, mul_reduce_array, scalar_mul_reduce_array", "src/test_avx.c"]}
