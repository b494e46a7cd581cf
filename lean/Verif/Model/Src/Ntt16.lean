import Verif.Model.CRead

/-
The text of src/ntt16.h and src/ntt16.c, and its functions as read by `CLang.read`.
Written by tools/gensrc.py.
-/

namespace CLang.Src

/-- src/ntt16.h -/
def ntt16_h_text : Nat := text! r#"/*
 * NTT for Q=12289 and n=16
 */

#ifndef __NTT16_H
#define __NTT16_H

#include "ntt16_tables.h"
#include "ntt.h"


/*
 * NTT VARIANTS
 *
 * - the input a is an array of n integers that must be between 0 and Q-1
 * - the result is stored in place
 * - the inverse transforms return a result scaled by n:
 *    we have intt(ntt(a)) = n * a
 */
// forward
static inline void ntt16_ct_rev2std(int32_t *a) {
  ntt_ct_rev2std(a, 16, ntt16_omega_powers);
}

static inline void ntt16_gs_rev2std(int32_t *a) {
  ntt_gs_rev2std(a, 16, ntt16_omega_powers_rev);
}

static inline void ntt16_ct_std2rev(int32_t *a) {
  ntt_ct_std2rev(a, 16, ntt16_omega_powers_rev);
}

static inline void ntt16_gs_std2rev(int32_t *a) {
  ntt_gs_std2rev(a, 16, ntt16_omega_powers);
}

// inverse
static inline void intt16_ct_rev2std(int32_t *a) {
  ntt_ct_rev2std(a, 16, ntt16_inv_omega_powers);
}

static inline void intt16_gs_rev2std(int32_t *a) {
  ntt_gs_rev2std(a, 16, ntt16_inv_omega_powers_rev);
}

static inline void intt16_ct_std2rev(int32_t *a) {
  ntt_ct_std2rev(a, 16, ntt16_inv_omega_powers_rev);
}

static inline void intt16_gs_std2rev(int32_t *a) {
  ntt_gs_std2rev(a, 16, ntt16_inv_omega_powers);
}

// multiplication by powers of psi then forward ntt
static inline void mulntt16_ct_rev2std(int32_t *a) {
  mulntt_ct_rev2std(a, 16, ntt16_mixed_powers);
}

static inline void mulntt16_ct_std2rev(int32_t *a) {
  mulntt_ct_std2rev(a, 16, ntt16_mixed_powers_rev);
}

// inverse ntt then multiplication by powers of psi^-1
static inline void inttmul16_gs_rev2std(int32_t *a) {
  nttmul_gs_rev2std(a, 16, ntt16_inv_mixed_powers_rev);
}

static inline void inttmul16_gs_std2rev(int32_t *a) {
  nttmul_gs_std2rev(a, 16, ntt16_inv_mixed_powers);
}


/*
 * PRODUCTS
 */

/*
 * Input: two arrays a and b in standard order
 *
 * Result: 
 * - the product is stored in array c, in standard order.
 * - arrays a and b are modified
 *
 * The input arrays must contain elements in the range [0 .. Q-1]
 * The result is also in that range.
 *
 * The first four variants have the following form:
 * - multiply a and b by powers of psi
 * - compute NNT(a) and NTT(b) using a std2rev variant
 * - c = elementwise product of NTT(a) and NTT(b)
 * - compute INTT(c) usign a rev2std variant
 * - multiply the result by n^(-1) * powers of psi^(-1)
 * There are two choices for the NTT and INTT functions:
 * - NTT:  either ntt_ct_std2rev or ntt_gs_std2rev
 * - INTT: either intt_ct_rev2std or intt_gs_reg2std
 *
 * Product5 uses the combined mul/ntt variants:
 * - compute MULNTT(a) and MULNTT(b) using mulntt_ct_std2rev
 * - c = elementwise product
 * - compute INTTMUL(c) using inttmul_gs_rev2std
 * - multiply the result by n^(-1)
 */
extern void ntt16_product1(int32_t *c, int32_t *a, int32_t *b);
extern void ntt16_product2(int32_t *c, int32_t *a, int32_t *b);
extern void ntt16_product3(int32_t *c, int32_t *a, int32_t *b);
extern void ntt16_product4(int32_t *c, int32_t *a, int32_t *b);

extern void ntt16_product5(int32_t *c, int32_t *a, int32_t *b);

#endif /* __NTT16_H */
"#

/-- `ntt16_ct_rev2std` -/
def ntt16_h.ntt16_ct_rev2std : Fun := ⟨none, [(n!"a", (.ptr 1))],
  (.seq (.expr (.call n!"ntt_ct_rev2std" (.cons (.var n!"a") (.cons (.num 16) (.cons (.var n!"ntt16_omega_powers") .nil)))))
  .skip)⟩

/-- `ntt16_gs_rev2std` -/
def ntt16_h.ntt16_gs_rev2std : Fun := ⟨none, [(n!"a", (.ptr 1))],
  (.seq (.expr (.call n!"ntt_gs_rev2std" (.cons (.var n!"a") (.cons (.num 16) (.cons (.var n!"ntt16_omega_powers_rev") .nil)))))
  .skip)⟩

/-- `ntt16_ct_std2rev` -/
def ntt16_h.ntt16_ct_std2rev : Fun := ⟨none, [(n!"a", (.ptr 1))],
  (.seq (.expr (.call n!"ntt_ct_std2rev" (.cons (.var n!"a") (.cons (.num 16) (.cons (.var n!"ntt16_omega_powers_rev") .nil)))))
  .skip)⟩

/-- `ntt16_gs_std2rev` -/
def ntt16_h.ntt16_gs_std2rev : Fun := ⟨none, [(n!"a", (.ptr 1))],
  (.seq (.expr (.call n!"ntt_gs_std2rev" (.cons (.var n!"a") (.cons (.num 16) (.cons (.var n!"ntt16_omega_powers") .nil)))))
  .skip)⟩

/-- `intt16_ct_rev2std` -/
def ntt16_h.intt16_ct_rev2std : Fun := ⟨none, [(n!"a", (.ptr 1))],
  (.seq (.expr (.call n!"ntt_ct_rev2std" (.cons (.var n!"a") (.cons (.num 16) (.cons (.var n!"ntt16_inv_omega_powers") .nil)))))
  .skip)⟩

/-- `intt16_gs_rev2std` -/
def ntt16_h.intt16_gs_rev2std : Fun := ⟨none, [(n!"a", (.ptr 1))],
  (.seq (.expr (.call n!"ntt_gs_rev2std" (.cons (.var n!"a") (.cons (.num 16) (.cons (.var n!"ntt16_inv_omega_powers_rev") .nil)))))
  .skip)⟩

/-- `intt16_ct_std2rev` -/
def ntt16_h.intt16_ct_std2rev : Fun := ⟨none, [(n!"a", (.ptr 1))],
  (.seq (.expr (.call n!"ntt_ct_std2rev" (.cons (.var n!"a") (.cons (.num 16) (.cons (.var n!"ntt16_inv_omega_powers_rev") .nil)))))
  .skip)⟩

/-- `intt16_gs_std2rev` -/
def ntt16_h.intt16_gs_std2rev : Fun := ⟨none, [(n!"a", (.ptr 1))],
  (.seq (.expr (.call n!"ntt_gs_std2rev" (.cons (.var n!"a") (.cons (.num 16) (.cons (.var n!"ntt16_inv_omega_powers") .nil)))))
  .skip)⟩

/-- `mulntt16_ct_rev2std` -/
def ntt16_h.mulntt16_ct_rev2std : Fun := ⟨none, [(n!"a", (.ptr 1))],
  (.seq (.expr (.call n!"mulntt_ct_rev2std" (.cons (.var n!"a") (.cons (.num 16) (.cons (.var n!"ntt16_mixed_powers") .nil)))))
  .skip)⟩

/-- `mulntt16_ct_std2rev` -/
def ntt16_h.mulntt16_ct_std2rev : Fun := ⟨none, [(n!"a", (.ptr 1))],
  (.seq (.expr (.call n!"mulntt_ct_std2rev" (.cons (.var n!"a") (.cons (.num 16) (.cons (.var n!"ntt16_mixed_powers_rev") .nil)))))
  .skip)⟩

/-- `inttmul16_gs_rev2std` -/
def ntt16_h.inttmul16_gs_rev2std : Fun := ⟨none, [(n!"a", (.ptr 1))],
  (.seq (.expr (.call n!"nttmul_gs_rev2std" (.cons (.var n!"a") (.cons (.num 16) (.cons (.var n!"ntt16_inv_mixed_powers_rev") .nil)))))
  .skip)⟩

/-- `inttmul16_gs_std2rev` -/
def ntt16_h.inttmul16_gs_std2rev : Fun := ⟨none, [(n!"a", (.ptr 1))],
  (.seq (.expr (.call n!"nttmul_gs_std2rev" (.cons (.var n!"a") (.cons (.num 16) (.cons (.var n!"ntt16_inv_mixed_powers") .nil)))))
  .skip)⟩

/-- The functions of the file. -/
def ntt16_h : Prog := [
  (n!"ntt16_ct_rev2std", ntt16_h.ntt16_ct_rev2std),
  (n!"ntt16_gs_rev2std", ntt16_h.ntt16_gs_rev2std),
  (n!"ntt16_ct_std2rev", ntt16_h.ntt16_ct_std2rev),
  (n!"ntt16_gs_std2rev", ntt16_h.ntt16_gs_std2rev),
  (n!"intt16_ct_rev2std", ntt16_h.intt16_ct_rev2std),
  (n!"intt16_gs_rev2std", ntt16_h.intt16_gs_rev2std),
  (n!"intt16_ct_std2rev", ntt16_h.intt16_ct_std2rev),
  (n!"intt16_gs_std2rev", ntt16_h.intt16_gs_std2rev),
  (n!"mulntt16_ct_rev2std", ntt16_h.mulntt16_ct_rev2std),
  (n!"mulntt16_ct_std2rev", ntt16_h.mulntt16_ct_std2rev),
  (n!"inttmul16_gs_rev2std", ntt16_h.inttmul16_gs_rev2std),
  (n!"inttmul16_gs_std2rev", ntt16_h.inttmul16_gs_std2rev)]

/-- What is read from the text. -/
theorem ntt16_h_read : read ntt16_h_text = some ntt16_h := by decide +kernel

/-- src/ntt16.c -/
def ntt16_c_text : Nat := text! r#"/*
 * NTT for Q=12289 and n=16.
 */

#include "ntt16.h"

/*
 * Product of two polynomials
 */
void ntt16_product1(int32_t *c, int32_t *a, int32_t *b) {
  mul_array16(a, 16, ntt16_psi_powers);
  ntt16_ct_std2rev(a);
  mul_array16(b, 16, ntt16_psi_powers);
  ntt16_ct_std2rev(b);
  mul_array(c, 16, a, b);
  intt16_ct_rev2std(c);
  mul_array16(c, 16, ntt16_scaled_inv_psi_powers);
}

void ntt16_product2(int32_t *c, int32_t *a, int32_t *b) {
  mul_array16(a, 16, ntt16_psi_powers);
  ntt16_gs_std2rev(a);
  mul_array16(b, 16, ntt16_psi_powers);
  ntt16_gs_std2rev(b);
  mul_array(c, 16, a, b);
  intt16_ct_rev2std(c);
  mul_array16(c, 16, ntt16_scaled_inv_psi_powers);
}

void ntt16_product3(int32_t *c, int32_t *a, int32_t *b) {
  mul_array16(a, 16, ntt16_psi_powers);
  ntt16_ct_std2rev(a);
  mul_array16(b, 16, ntt16_psi_powers);
  ntt16_ct_std2rev(b);
  mul_array(c, 16, a, b);
  intt16_gs_rev2std(c);
  mul_array16(c, 16, ntt16_scaled_inv_psi_powers);
}

void ntt16_product4(int32_t *c, int32_t *a, int32_t *b) {
  mul_array16(a, 16, ntt16_psi_powers);
  ntt16_gs_std2rev(a);
  mul_array16(b, 16, ntt16_psi_powers);
  ntt16_gs_std2rev(b);
  mul_array(c, 16, a, b);
  intt16_gs_rev2std(c);
  mul_array16(c, 16, ntt16_scaled_inv_psi_powers);
}


/*
 * Use combined mulntt then inttmul
 */
void ntt16_product5(int32_t *c, int32_t *a, int32_t *b) {
  mulntt16_ct_std2rev(a);
  mulntt16_ct_std2rev(b);
  mul_array(c, 16, a, b);
  inttmul16_gs_rev2std(c);
  scalar_mul_array(c, 16, ntt16_inv_n); // divide by n
}
"#

/-- `ntt16_product1` -/
def ntt16_c.ntt16_product1 : Fun := ⟨none, [(n!"c", (.ptr 1)), (n!"a", (.ptr 1)), (n!"b", (.ptr 1))],
  (.seq (.expr (.call n!"mul_array16" (.cons (.var n!"a") (.cons (.num 16) (.cons (.var n!"ntt16_psi_powers") .nil)))))
  (.seq (.expr (.call n!"ntt16_ct_std2rev" (.cons (.var n!"a") .nil)))
  (.seq (.expr (.call n!"mul_array16" (.cons (.var n!"b") (.cons (.num 16) (.cons (.var n!"ntt16_psi_powers") .nil)))))
  (.seq (.expr (.call n!"ntt16_ct_std2rev" (.cons (.var n!"b") .nil)))
  (.seq (.expr (.call n!"mul_array" (.cons (.var n!"c") (.cons (.num 16) (.cons (.var n!"a") (.cons (.var n!"b") .nil))))))
  (.seq (.expr (.call n!"intt16_ct_rev2std" (.cons (.var n!"c") .nil)))
  (.seq (.expr (.call n!"mul_array16" (.cons (.var n!"c") (.cons (.num 16) (.cons (.var n!"ntt16_scaled_inv_psi_powers") .nil)))))
  .skip)))))))⟩

/-- `ntt16_product2` -/
def ntt16_c.ntt16_product2 : Fun := ⟨none, [(n!"c", (.ptr 1)), (n!"a", (.ptr 1)), (n!"b", (.ptr 1))],
  (.seq (.expr (.call n!"mul_array16" (.cons (.var n!"a") (.cons (.num 16) (.cons (.var n!"ntt16_psi_powers") .nil)))))
  (.seq (.expr (.call n!"ntt16_gs_std2rev" (.cons (.var n!"a") .nil)))
  (.seq (.expr (.call n!"mul_array16" (.cons (.var n!"b") (.cons (.num 16) (.cons (.var n!"ntt16_psi_powers") .nil)))))
  (.seq (.expr (.call n!"ntt16_gs_std2rev" (.cons (.var n!"b") .nil)))
  (.seq (.expr (.call n!"mul_array" (.cons (.var n!"c") (.cons (.num 16) (.cons (.var n!"a") (.cons (.var n!"b") .nil))))))
  (.seq (.expr (.call n!"intt16_ct_rev2std" (.cons (.var n!"c") .nil)))
  (.seq (.expr (.call n!"mul_array16" (.cons (.var n!"c") (.cons (.num 16) (.cons (.var n!"ntt16_scaled_inv_psi_powers") .nil)))))
  .skip)))))))⟩

/-- `ntt16_product3` -/
def ntt16_c.ntt16_product3 : Fun := ⟨none, [(n!"c", (.ptr 1)), (n!"a", (.ptr 1)), (n!"b", (.ptr 1))],
  (.seq (.expr (.call n!"mul_array16" (.cons (.var n!"a") (.cons (.num 16) (.cons (.var n!"ntt16_psi_powers") .nil)))))
  (.seq (.expr (.call n!"ntt16_ct_std2rev" (.cons (.var n!"a") .nil)))
  (.seq (.expr (.call n!"mul_array16" (.cons (.var n!"b") (.cons (.num 16) (.cons (.var n!"ntt16_psi_powers") .nil)))))
  (.seq (.expr (.call n!"ntt16_ct_std2rev" (.cons (.var n!"b") .nil)))
  (.seq (.expr (.call n!"mul_array" (.cons (.var n!"c") (.cons (.num 16) (.cons (.var n!"a") (.cons (.var n!"b") .nil))))))
  (.seq (.expr (.call n!"intt16_gs_rev2std" (.cons (.var n!"c") .nil)))
  (.seq (.expr (.call n!"mul_array16" (.cons (.var n!"c") (.cons (.num 16) (.cons (.var n!"ntt16_scaled_inv_psi_powers") .nil)))))
  .skip)))))))⟩

/-- `ntt16_product4` -/
def ntt16_c.ntt16_product4 : Fun := ⟨none, [(n!"c", (.ptr 1)), (n!"a", (.ptr 1)), (n!"b", (.ptr 1))],
  (.seq (.expr (.call n!"mul_array16" (.cons (.var n!"a") (.cons (.num 16) (.cons (.var n!"ntt16_psi_powers") .nil)))))
  (.seq (.expr (.call n!"ntt16_gs_std2rev" (.cons (.var n!"a") .nil)))
  (.seq (.expr (.call n!"mul_array16" (.cons (.var n!"b") (.cons (.num 16) (.cons (.var n!"ntt16_psi_powers") .nil)))))
  (.seq (.expr (.call n!"ntt16_gs_std2rev" (.cons (.var n!"b") .nil)))
  (.seq (.expr (.call n!"mul_array" (.cons (.var n!"c") (.cons (.num 16) (.cons (.var n!"a") (.cons (.var n!"b") .nil))))))
  (.seq (.expr (.call n!"intt16_gs_rev2std" (.cons (.var n!"c") .nil)))
  (.seq (.expr (.call n!"mul_array16" (.cons (.var n!"c") (.cons (.num 16) (.cons (.var n!"ntt16_scaled_inv_psi_powers") .nil)))))
  .skip)))))))⟩

/-- `ntt16_product5` -/
def ntt16_c.ntt16_product5 : Fun := ⟨none, [(n!"c", (.ptr 1)), (n!"a", (.ptr 1)), (n!"b", (.ptr 1))],
  (.seq (.expr (.call n!"mulntt16_ct_std2rev" (.cons (.var n!"a") .nil)))
  (.seq (.expr (.call n!"mulntt16_ct_std2rev" (.cons (.var n!"b") .nil)))
  (.seq (.expr (.call n!"mul_array" (.cons (.var n!"c") (.cons (.num 16) (.cons (.var n!"a") (.cons (.var n!"b") .nil))))))
  (.seq (.expr (.call n!"inttmul16_gs_rev2std" (.cons (.var n!"c") .nil)))
  (.seq (.expr (.call n!"scalar_mul_array" (.cons (.var n!"c") (.cons (.num 16) (.cons (.var n!"ntt16_inv_n") .nil)))))
  .skip)))))⟩

/-- The functions of the file. -/
def ntt16_c : Prog := [
  (n!"ntt16_product1", ntt16_c.ntt16_product1),
  (n!"ntt16_product2", ntt16_c.ntt16_product2),
  (n!"ntt16_product3", ntt16_c.ntt16_product3),
  (n!"ntt16_product4", ntt16_c.ntt16_product4),
  (n!"ntt16_product5", ntt16_c.ntt16_product5)]

/-- What is read from the text. -/
theorem ntt16_c_read : read ntt16_c_text = some ntt16_c := by decide +kernel

end CLang.Src
