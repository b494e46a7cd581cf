import Verif.Model.CRead

/-
The text of src/naive_ntt16.h and src/naive_ntt16.c, and its functions as read by `CLang.read`.
Written by tools/gensrc.py.
-/

namespace CLang.Src

/-- src/naive_ntt16.h -/
def naive_ntt16_h_text : Nat := text! r#"/*
 * Naive NTT for Q=12289 and n=16
 */

#ifndef __NAIVE_NTT16_H
#define __NAIVE_NTT16_H

#include "ntt16_tables.h"
#include "naive_ntt.h"


/*
 * NTT VARIANTS
 *
 * - the input a is an array of n integers that must be between 0 and Q-1
 * - the result is stored in place
 * - the inverse transforms return a result scaled by n:
 *    we have intt(ntt(a)) = n * a
 */
// forward
static inline void naive_ntt16_ct_rev2std(int32_t *a) {
  ntt_ct_rev2std_naive(a, 16, ntt16_omega_powers, 12289);
}

static inline void naive_ntt16_gs_rev2std(int32_t *a) {
  ntt_gs_rev2std_naive(a, 16, ntt16_omega_powers_rev, 12289);
}

static inline void naive_ntt16_ct_std2rev(int32_t *a) {
  ntt_ct_std2rev_naive(a, 16, ntt16_omega_powers_rev, 12289);
}

static inline void naive_ntt16_gs_std2rev(int32_t *a) {
  ntt_gs_std2rev_naive(a, 16, ntt16_omega_powers, 12289);
}

// inverse
static inline void naive_intt16_ct_rev2std(int32_t *a) {
  ntt_ct_rev2std_naive(a, 16, ntt16_inv_omega_powers, 12289);
}

static inline void naive_intt16_gs_rev2std(int32_t *a) {
  ntt_gs_rev2std_naive(a, 16, ntt16_inv_omega_powers_rev, 12289);
}

static inline void naive_intt16_ct_std2rev(int32_t *a) {
  ntt_ct_std2rev_naive(a, 16, ntt16_inv_omega_powers_rev, 12289);
}

static inline void naive_intt16_gs_std2rev(int32_t *a) {
  ntt_gs_std2rev_naive(a, 16, ntt16_inv_omega_powers, 12289);
}

// multiplication by powers of psi then forward ntt
static inline void naive_mulntt16_ct_rev2std(int32_t *a) {
  mulntt_ct_rev2std_naive(a, 16, ntt16_mixed_powers, 12289);
}

static inline void naive_mulntt16_ct_std2rev(int32_t *a) {
  mulntt_ct_std2rev_naive(a, 16, ntt16_mixed_powers_rev, 12289);
}

// inverse ntt then multiplication by powers of psi^-1
static inline void naive_inttmul16_gs_rev2std(int32_t *a) {
  nttmul_gs_rev2std_naive(a, 16, ntt16_inv_mixed_powers_rev, 12289);
}

static inline void naive_inttmul16_gs_std2rev(int32_t *a) {
  nttmul_gs_std2rev_naive(a, 16, ntt16_inv_mixed_powers, 12289);
}


/*
 * PRODUCTS
 */

/*
 * Input: two arrays a and b in standard order
 *
 * Result: 
 * - the product is stored in array c, in standard order.
 * - arrays a and b are modified
 *
 * The input arrays must contain elements in the range [0 .. Q-1]
 * The result is also in that range.
 *
 * The first four variants have the following form:
 * - multiply a and b by powers of psi
 * - compute NNT(a) and NTT(b) using a std2rev variant
 * - c = elementwise product of NTT(a) and NTT(b)
 * - compute INTT(c) usign a rev2std variant
 * - multiply the result by n^(-1) * powers of psi^(-1)
 * There are two choices for the NTT and INTT functions:
 * - NTT:  either ntt_ct_std2rev or ntt_gs_std2rev
 * - INTT: either intt_ct_rev2std or intt_gs_reg2std
 *
 * Product5 uses the combined mul/ntt variants:
 * - compute MULNTT(a) and MULNTT(b) using mulntt_ct_std2rev
 * - c = elementwise product
 * - compute INTTMUL(c) using inttmul_gs_rev2std
 * - multiply the result by n^(-1)
 */
extern void naive_ntt16_product1(int32_t *c, int32_t *a, int32_t *b);
extern void naive_ntt16_product2(int32_t *c, int32_t *a, int32_t *b);
extern void naive_ntt16_product3(int32_t *c, int32_t *a, int32_t *b);
extern void naive_ntt16_product4(int32_t *c, int32_t *a, int32_t *b);

extern void naive_ntt16_product5(int32_t *c, int32_t *a, int32_t *b);

#endif /* __NAIVE_NTT16_H */
"#

/-- `naive_ntt16_ct_rev2std` -/
def naive_ntt16_h.naive_ntt16_ct_rev2std : Fun := ⟨none, [(n!"a", (.ptr 1))],
  (.seq (.expr (.call n!"ntt_ct_rev2std_naive" (.cons (.var n!"a") (.cons (.num 16) (.cons (.var n!"ntt16_omega_powers") (.cons (.num 12289) .nil))))))
  .skip)⟩

/-- `naive_ntt16_gs_rev2std` -/
def naive_ntt16_h.naive_ntt16_gs_rev2std : Fun := ⟨none, [(n!"a", (.ptr 1))],
  (.seq (.expr (.call n!"ntt_gs_rev2std_naive" (.cons (.var n!"a") (.cons (.num 16) (.cons (.var n!"ntt16_omega_powers_rev") (.cons (.num 12289) .nil))))))
  .skip)⟩

/-- `naive_ntt16_ct_std2rev` -/
def naive_ntt16_h.naive_ntt16_ct_std2rev : Fun := ⟨none, [(n!"a", (.ptr 1))],
  (.seq (.expr (.call n!"ntt_ct_std2rev_naive" (.cons (.var n!"a") (.cons (.num 16) (.cons (.var n!"ntt16_omega_powers_rev") (.cons (.num 12289) .nil))))))
  .skip)⟩

/-- `naive_ntt16_gs_std2rev` -/
def naive_ntt16_h.naive_ntt16_gs_std2rev : Fun := ⟨none, [(n!"a", (.ptr 1))],
  (.seq (.expr (.call n!"ntt_gs_std2rev_naive" (.cons (.var n!"a") (.cons (.num 16) (.cons (.var n!"ntt16_omega_powers") (.cons (.num 12289) .nil))))))
  .skip)⟩

/-- `naive_intt16_ct_rev2std` -/
def naive_ntt16_h.naive_intt16_ct_rev2std : Fun := ⟨none, [(n!"a", (.ptr 1))],
  (.seq (.expr (.call n!"ntt_ct_rev2std_naive" (.cons (.var n!"a") (.cons (.num 16) (.cons (.var n!"ntt16_inv_omega_powers") (.cons (.num 12289) .nil))))))
  .skip)⟩

/-- `naive_intt16_gs_rev2std` -/
def naive_ntt16_h.naive_intt16_gs_rev2std : Fun := ⟨none, [(n!"a", (.ptr 1))],
  (.seq (.expr (.call n!"ntt_gs_rev2std_naive" (.cons (.var n!"a") (.cons (.num 16) (.cons (.var n!"ntt16_inv_omega_powers_rev") (.cons (.num 12289) .nil))))))
  .skip)⟩

/-- `naive_intt16_ct_std2rev` -/
def naive_ntt16_h.naive_intt16_ct_std2rev : Fun := ⟨none, [(n!"a", (.ptr 1))],
  (.seq (.expr (.call n!"ntt_ct_std2rev_naive" (.cons (.var n!"a") (.cons (.num 16) (.cons (.var n!"ntt16_inv_omega_powers_rev") (.cons (.num 12289) .nil))))))
  .skip)⟩

/-- `naive_intt16_gs_std2rev` -/
def naive_ntt16_h.naive_intt16_gs_std2rev : Fun := ⟨none, [(n!"a", (.ptr 1))],
  (.seq (.expr (.call n!"ntt_gs_std2rev_naive" (.cons (.var n!"a") (.cons (.num 16) (.cons (.var n!"ntt16_inv_omega_powers") (.cons (.num 12289) .nil))))))
  .skip)⟩

/-- `naive_mulntt16_ct_rev2std` -/
def naive_ntt16_h.naive_mulntt16_ct_rev2std : Fun := ⟨none, [(n!"a", (.ptr 1))],
  (.seq (.expr (.call n!"mulntt_ct_rev2std_naive" (.cons (.var n!"a") (.cons (.num 16) (.cons (.var n!"ntt16_mixed_powers") (.cons (.num 12289) .nil))))))
  .skip)⟩

/-- `naive_mulntt16_ct_std2rev` -/
def naive_ntt16_h.naive_mulntt16_ct_std2rev : Fun := ⟨none, [(n!"a", (.ptr 1))],
  (.seq (.expr (.call n!"mulntt_ct_std2rev_naive" (.cons (.var n!"a") (.cons (.num 16) (.cons (.var n!"ntt16_mixed_powers_rev") (.cons (.num 12289) .nil))))))
  .skip)⟩

/-- `naive_inttmul16_gs_rev2std` -/
def naive_ntt16_h.naive_inttmul16_gs_rev2std : Fun := ⟨none, [(n!"a", (.ptr 1))],
  (.seq (.expr (.call n!"nttmul_gs_rev2std_naive" (.cons (.var n!"a") (.cons (.num 16) (.cons (.var n!"ntt16_inv_mixed_powers_rev") (.cons (.num 12289) .nil))))))
  .skip)⟩

/-- `naive_inttmul16_gs_std2rev` -/
def naive_ntt16_h.naive_inttmul16_gs_std2rev : Fun := ⟨none, [(n!"a", (.ptr 1))],
  (.seq (.expr (.call n!"nttmul_gs_std2rev_naive" (.cons (.var n!"a") (.cons (.num 16) (.cons (.var n!"ntt16_inv_mixed_powers") (.cons (.num 12289) .nil))))))
  .skip)⟩

/-- The functions of the file. -/
def naive_ntt16_h : Prog := [
  (n!"naive_ntt16_ct_rev2std", naive_ntt16_h.naive_ntt16_ct_rev2std),
  (n!"naive_ntt16_gs_rev2std", naive_ntt16_h.naive_ntt16_gs_rev2std),
  (n!"naive_ntt16_ct_std2rev", naive_ntt16_h.naive_ntt16_ct_std2rev),
  (n!"naive_ntt16_gs_std2rev", naive_ntt16_h.naive_ntt16_gs_std2rev),
  (n!"naive_intt16_ct_rev2std", naive_ntt16_h.naive_intt16_ct_rev2std),
  (n!"naive_intt16_gs_rev2std", naive_ntt16_h.naive_intt16_gs_rev2std),
  (n!"naive_intt16_ct_std2rev", naive_ntt16_h.naive_intt16_ct_std2rev),
  (n!"naive_intt16_gs_std2rev", naive_ntt16_h.naive_intt16_gs_std2rev),
  (n!"naive_mulntt16_ct_rev2std", naive_ntt16_h.naive_mulntt16_ct_rev2std),
  (n!"naive_mulntt16_ct_std2rev", naive_ntt16_h.naive_mulntt16_ct_std2rev),
  (n!"naive_inttmul16_gs_rev2std", naive_ntt16_h.naive_inttmul16_gs_rev2std),
  (n!"naive_inttmul16_gs_std2rev", naive_ntt16_h.naive_inttmul16_gs_std2rev)]

/-- What is read from the text. -/
theorem naive_ntt16_h_read : read naive_ntt16_h_text = some naive_ntt16_h := by decide +kernel

/-- src/naive_ntt16.c -/
def naive_ntt16_c_text : Nat := text! r#"/*
 * NTT for Q=12289 and n=16.
 */

#include "naive_ntt16.h"

/*
 * Product of two polynomials
 */
void naive_ntt16_product1(int32_t *c, int32_t *a, int32_t *b) {
  mul_array16_naive(a, 16, ntt16_psi_powers, 12289);
  naive_ntt16_ct_std2rev(a);
  mul_array16_naive(b, 16, ntt16_psi_powers, 12289);
  naive_ntt16_ct_std2rev(b);
  mul_array_naive(c, 16, a, b, 12289);
  naive_intt16_ct_rev2std(c);
  mul_array16_naive(c, 16, ntt16_scaled_inv_psi_powers, 12289);
}

void naive_ntt16_product2(int32_t *c, int32_t *a, int32_t *b) {
  mul_array16_naive(a, 16, ntt16_psi_powers, 12289);
  naive_ntt16_gs_std2rev(a);
  mul_array16_naive(b, 16, ntt16_psi_powers, 12289);
  naive_ntt16_gs_std2rev(b);
  mul_array_naive(c, 16, a, b, 12289);
  naive_intt16_ct_rev2std(c);
  mul_array16_naive(c, 16, ntt16_scaled_inv_psi_powers, 12289);
}

void naive_ntt16_product3(int32_t *c, int32_t *a, int32_t *b) {
  mul_array16_naive(a, 16, ntt16_psi_powers, 12289);
  naive_ntt16_ct_std2rev(a);
  mul_array16_naive(b, 16, ntt16_psi_powers, 12289);
  naive_ntt16_ct_std2rev(b);
  mul_array_naive(c, 16, a, b, 12289);
  naive_intt16_gs_rev2std(c);
  mul_array16_naive(c, 16, ntt16_scaled_inv_psi_powers, 12289);
}

void naive_ntt16_product4(int32_t *c, int32_t *a, int32_t *b) {
  mul_array16_naive(a, 16, ntt16_psi_powers, 12289);
  naive_ntt16_gs_std2rev(a);
  mul_array16_naive(b, 16, ntt16_psi_powers, 12289);
  naive_ntt16_gs_std2rev(b);
  mul_array_naive(c, 16, a, b, 12289);
  naive_intt16_gs_rev2std(c);
  mul_array16_naive(c, 16, ntt16_scaled_inv_psi_powers, 12289);
}


/*
 * Use combined mulntt then inttmul
 */
void naive_ntt16_product5(int32_t *c, int32_t *a, int32_t *b) {
  naive_mulntt16_ct_std2rev(a);
  naive_mulntt16_ct_std2rev(b);
  mul_array_naive(c, 16, a, b, 12289);
  naive_inttmul16_gs_rev2std(c);
  scalar_mul_array_naive(c, 16, ntt16_inv_n, 12289); // divide by n
}
"#

/-- `naive_ntt16_product1` -/
def naive_ntt16_c.naive_ntt16_product1 : Fun := ⟨none, [(n!"c", (.ptr 1)), (n!"a", (.ptr 1)), (n!"b", (.ptr 1))],
  (.seq (.expr (.call n!"mul_array16_naive" (.cons (.var n!"a") (.cons (.num 16) (.cons (.var n!"ntt16_psi_powers") (.cons (.num 12289) .nil))))))
  (.seq (.expr (.call n!"naive_ntt16_ct_std2rev" (.cons (.var n!"a") .nil)))
  (.seq (.expr (.call n!"mul_array16_naive" (.cons (.var n!"b") (.cons (.num 16) (.cons (.var n!"ntt16_psi_powers") (.cons (.num 12289) .nil))))))
  (.seq (.expr (.call n!"naive_ntt16_ct_std2rev" (.cons (.var n!"b") .nil)))
  (.seq (.expr (.call n!"mul_array_naive" (.cons (.var n!"c") (.cons (.num 16) (.cons (.var n!"a") (.cons (.var n!"b") (.cons (.num 12289) .nil)))))))
  (.seq (.expr (.call n!"naive_intt16_ct_rev2std" (.cons (.var n!"c") .nil)))
  (.seq (.expr (.call n!"mul_array16_naive" (.cons (.var n!"c") (.cons (.num 16) (.cons (.var n!"ntt16_scaled_inv_psi_powers") (.cons (.num 12289) .nil))))))
  .skip)))))))⟩

/-- `naive_ntt16_product2` -/
def naive_ntt16_c.naive_ntt16_product2 : Fun := ⟨none, [(n!"c", (.ptr 1)), (n!"a", (.ptr 1)), (n!"b", (.ptr 1))],
  (.seq (.expr (.call n!"mul_array16_naive" (.cons (.var n!"a") (.cons (.num 16) (.cons (.var n!"ntt16_psi_powers") (.cons (.num 12289) .nil))))))
  (.seq (.expr (.call n!"naive_ntt16_gs_std2rev" (.cons (.var n!"a") .nil)))
  (.seq (.expr (.call n!"mul_array16_naive" (.cons (.var n!"b") (.cons (.num 16) (.cons (.var n!"ntt16_psi_powers") (.cons (.num 12289) .nil))))))
  (.seq (.expr (.call n!"naive_ntt16_gs_std2rev" (.cons (.var n!"b") .nil)))
  (.seq (.expr (.call n!"mul_array_naive" (.cons (.var n!"c") (.cons (.num 16) (.cons (.var n!"a") (.cons (.var n!"b") (.cons (.num 12289) .nil)))))))
  (.seq (.expr (.call n!"naive_intt16_ct_rev2std" (.cons (.var n!"c") .nil)))
  (.seq (.expr (.call n!"mul_array16_naive" (.cons (.var n!"c") (.cons (.num 16) (.cons (.var n!"ntt16_scaled_inv_psi_powers") (.cons (.num 12289) .nil))))))
  .skip)))))))⟩

/-- `naive_ntt16_product3` -/
def naive_ntt16_c.naive_ntt16_product3 : Fun := ⟨none, [(n!"c", (.ptr 1)), (n!"a", (.ptr 1)), (n!"b", (.ptr 1))],
  (.seq (.expr (.call n!"mul_array16_naive" (.cons (.var n!"a") (.cons (.num 16) (.cons (.var n!"ntt16_psi_powers") (.cons (.num 12289) .nil))))))
  (.seq (.expr (.call n!"naive_ntt16_ct_std2rev" (.cons (.var n!"a") .nil)))
  (.seq (.expr (.call n!"mul_array16_naive" (.cons (.var n!"b") (.cons (.num 16) (.cons (.var n!"ntt16_psi_powers") (.cons (.num 12289) .nil))))))
  (.seq (.expr (.call n!"naive_ntt16_ct_std2rev" (.cons (.var n!"b") .nil)))
  (.seq (.expr (.call n!"mul_array_naive" (.cons (.var n!"c") (.cons (.num 16) (.cons (.var n!"a") (.cons (.var n!"b") (.cons (.num 12289) .nil)))))))
  (.seq (.expr (.call n!"naive_intt16_gs_rev2std" (.cons (.var n!"c") .nil)))
  (.seq (.expr (.call n!"mul_array16_naive" (.cons (.var n!"c") (.cons (.num 16) (.cons (.var n!"ntt16_scaled_inv_psi_powers") (.cons (.num 12289) .nil))))))
  .skip)))))))⟩

/-- `naive_ntt16_product4` -/
def naive_ntt16_c.naive_ntt16_product4 : Fun := ⟨none, [(n!"c", (.ptr 1)), (n!"a", (.ptr 1)), (n!"b", (.ptr 1))],
  (.seq (.expr (.call n!"mul_array16_naive" (.cons (.var n!"a") (.cons (.num 16) (.cons (.var n!"ntt16_psi_powers") (.cons (.num 12289) .nil))))))
  (.seq (.expr (.call n!"naive_ntt16_gs_std2rev" (.cons (.var n!"a") .nil)))
  (.seq (.expr (.call n!"mul_array16_naive" (.cons (.var n!"b") (.cons (.num 16) (.cons (.var n!"ntt16_psi_powers") (.cons (.num 12289) .nil))))))
  (.seq (.expr (.call n!"naive_ntt16_gs_std2rev" (.cons (.var n!"b") .nil)))
  (.seq (.expr (.call n!"mul_array_naive" (.cons (.var n!"c") (.cons (.num 16) (.cons (.var n!"a") (.cons (.var n!"b") (.cons (.num 12289) .nil)))))))
  (.seq (.expr (.call n!"naive_intt16_gs_rev2std" (.cons (.var n!"c") .nil)))
  (.seq (.expr (.call n!"mul_array16_naive" (.cons (.var n!"c") (.cons (.num 16) (.cons (.var n!"ntt16_scaled_inv_psi_powers") (.cons (.num 12289) .nil))))))
  .skip)))))))⟩

/-- `naive_ntt16_product5` -/
def naive_ntt16_c.naive_ntt16_product5 : Fun := ⟨none, [(n!"c", (.ptr 1)), (n!"a", (.ptr 1)), (n!"b", (.ptr 1))],
  (.seq (.expr (.call n!"naive_mulntt16_ct_std2rev" (.cons (.var n!"a") .nil)))
  (.seq (.expr (.call n!"naive_mulntt16_ct_std2rev" (.cons (.var n!"b") .nil)))
  (.seq (.expr (.call n!"mul_array_naive" (.cons (.var n!"c") (.cons (.num 16) (.cons (.var n!"a") (.cons (.var n!"b") (.cons (.num 12289) .nil)))))))
  (.seq (.expr (.call n!"naive_inttmul16_gs_rev2std" (.cons (.var n!"c") .nil)))
  (.seq (.expr (.call n!"scalar_mul_array_naive" (.cons (.var n!"c") (.cons (.num 16) (.cons (.var n!"ntt16_inv_n") (.cons (.num 12289) .nil))))))
  .skip)))))⟩

/-- The functions of the file. -/
def naive_ntt16_c : Prog := [
  (n!"naive_ntt16_product1", naive_ntt16_c.naive_ntt16_product1),
  (n!"naive_ntt16_product2", naive_ntt16_c.naive_ntt16_product2),
  (n!"naive_ntt16_product3", naive_ntt16_c.naive_ntt16_product3),
  (n!"naive_ntt16_product4", naive_ntt16_c.naive_ntt16_product4),
  (n!"naive_ntt16_product5", naive_ntt16_c.naive_ntt16_product5)]

/-- What is read from the text. -/
theorem naive_ntt16_c_read : read naive_ntt16_c_text = some naive_ntt16_c := by decide +kernel

end CLang.Src
