import Verif.Model.CRead

/-
The text of src/ntt256.h and src/ntt256.c, and its functions as read by `CLang.read`.
Written by tools/gensrc.py.
-/

namespace CLang.Src

/-- src/ntt256.h -/
def ntt256_h_text : Nat := text! r#"/*
 * NTT for Q=12289 and n=256
 */

#ifndef __NTT256_H
#define __NTT256_H

#include "ntt256_tables.h"
#include "ntt.h"

/*
 * NTT VARIANTS
 *
 * - the input a is an array of n integers that must be between 0 and Q-1
 * - the result is stored in place
 * - the inverse transforms return a result scaled by n:
 *    we have intt(ntt(a)) = n * a
 */
// forward
static inline void ntt256_ct_rev2std(int32_t *a) {
  ntt_ct_rev2std(a, 256, ntt256_omega_powers);
}

static inline void ntt256_gs_rev2std(int32_t *a) {
  ntt_gs_rev2std(a, 256, ntt256_omega_powers_rev);
}

static inline void ntt256_ct_std2rev(int32_t *a) {
  ntt_ct_std2rev(a, 256, ntt256_omega_powers_rev);
}

static inline void ntt256_gs_std2rev(int32_t *a) {
  ntt_gs_std2rev(a, 256, ntt256_omega_powers);
}

// inverse
static inline void intt256_ct_rev2std(int32_t *a) {
  ntt_ct_rev2std(a, 256, ntt256_inv_omega_powers);
}

static inline void intt256_gs_rev2std(int32_t *a) {
  ntt_gs_rev2std(a, 256, ntt256_inv_omega_powers_rev);
}

static inline void intt256_ct_std2rev(int32_t *a) {
  ntt_ct_std2rev(a, 256, ntt256_inv_omega_powers_rev);
}

static inline void intt256_gs_std2rev(int32_t *a) {
  ntt_gs_std2rev(a, 256, ntt256_inv_omega_powers);
}

// multiplication by powers of psi then forward ntt
static inline void mulntt256_ct_rev2std(int32_t *a) {
  mulntt_ct_rev2std(a, 256, ntt256_mixed_powers);
}

static inline void mulntt256_ct_std2rev(int32_t *a) {
  mulntt_ct_std2rev(a, 256, ntt256_mixed_powers_rev);
}

// inverse ntt then multiplication by powers of psi^-1
static inline void inttmul256_gs_rev2std(int32_t *a) {
  nttmul_gs_rev2std(a, 256, ntt256_inv_mixed_powers_rev);
}

static inline void inttmul256_gs_std2rev(int32_t *a) {
  nttmul_gs_std2rev(a, 256, ntt256_inv_mixed_powers);
}


/*
 * PRODUCTS
 */

/*
 * Input: two arrays a and b in standard order
 * Result: 
 * - the product is stored in array c, in standard order.
 * - arrays a and b are modified
 *
 * The input arrays must contain elements in the range [0 .. Q-1]
 * The result is also in that range.
 */
extern void ntt256_product1(int32_t *c, int32_t *a, int32_t *b);
extern void ntt256_product2(int32_t *c, int32_t *a, int32_t *b);
extern void ntt256_product3(int32_t *c, int32_t *a, int32_t *b);
extern void ntt256_product4(int32_t *c, int32_t *a, int32_t *b);
extern void ntt256_product5(int32_t *c, int32_t *a, int32_t *b);
extern void ntt256_product6(int32_t *c, int32_t *a, int32_t *b);

#endif /* __NTT256_H */
"#

/-- `ntt256_ct_rev2std` -/
def ntt256_h.ntt256_ct_rev2std : Fun := ⟨none, [(n!"a", (.ptr 1))],
  (.seq (.expr (.call n!"ntt_ct_rev2std" (.cons (.var n!"a") (.cons (.num 256) (.cons (.var n!"ntt256_omega_powers") .nil)))))
  .skip)⟩

/-- `ntt256_gs_rev2std` -/
def ntt256_h.ntt256_gs_rev2std : Fun := ⟨none, [(n!"a", (.ptr 1))],
  (.seq (.expr (.call n!"ntt_gs_rev2std" (.cons (.var n!"a") (.cons (.num 256) (.cons (.var n!"ntt256_omega_powers_rev") .nil)))))
  .skip)⟩

/-- `ntt256_ct_std2rev` -/
def ntt256_h.ntt256_ct_std2rev : Fun := ⟨none, [(n!"a", (.ptr 1))],
  (.seq (.expr (.call n!"ntt_ct_std2rev" (.cons (.var n!"a") (.cons (.num 256) (.cons (.var n!"ntt256_omega_powers_rev") .nil)))))
  .skip)⟩

/-- `ntt256_gs_std2rev` -/
def ntt256_h.ntt256_gs_std2rev : Fun := ⟨none, [(n!"a", (.ptr 1))],
  (.seq (.expr (.call n!"ntt_gs_std2rev" (.cons (.var n!"a") (.cons (.num 256) (.cons (.var n!"ntt256_omega_powers") .nil)))))
  .skip)⟩

/-- `intt256_ct_rev2std` -/
def ntt256_h.intt256_ct_rev2std : Fun := ⟨none, [(n!"a", (.ptr 1))],
  (.seq (.expr (.call n!"ntt_ct_rev2std" (.cons (.var n!"a") (.cons (.num 256) (.cons (.var n!"ntt256_inv_omega_powers") .nil)))))
  .skip)⟩

/-- `intt256_gs_rev2std` -/
def ntt256_h.intt256_gs_rev2std : Fun := ⟨none, [(n!"a", (.ptr 1))],
  (.seq (.expr (.call n!"ntt_gs_rev2std" (.cons (.var n!"a") (.cons (.num 256) (.cons (.var n!"ntt256_inv_omega_powers_rev") .nil)))))
  .skip)⟩

/-- `intt256_ct_std2rev` -/
def ntt256_h.intt256_ct_std2rev : Fun := ⟨none, [(n!"a", (.ptr 1))],
  (.seq (.expr (.call n!"ntt_ct_std2rev" (.cons (.var n!"a") (.cons (.num 256) (.cons (.var n!"ntt256_inv_omega_powers_rev") .nil)))))
  .skip)⟩

/-- `intt256_gs_std2rev` -/
def ntt256_h.intt256_gs_std2rev : Fun := ⟨none, [(n!"a", (.ptr 1))],
  (.seq (.expr (.call n!"ntt_gs_std2rev" (.cons (.var n!"a") (.cons (.num 256) (.cons (.var n!"ntt256_inv_omega_powers") .nil)))))
  .skip)⟩

/-- `mulntt256_ct_rev2std` -/
def ntt256_h.mulntt256_ct_rev2std : Fun := ⟨none, [(n!"a", (.ptr 1))],
  (.seq (.expr (.call n!"mulntt_ct_rev2std" (.cons (.var n!"a") (.cons (.num 256) (.cons (.var n!"ntt256_mixed_powers") .nil)))))
  .skip)⟩

/-- `mulntt256_ct_std2rev` -/
def ntt256_h.mulntt256_ct_std2rev : Fun := ⟨none, [(n!"a", (.ptr 1))],
  (.seq (.expr (.call n!"mulntt_ct_std2rev" (.cons (.var n!"a") (.cons (.num 256) (.cons (.var n!"ntt256_mixed_powers_rev") .nil)))))
  .skip)⟩

/-- `inttmul256_gs_rev2std` -/
def ntt256_h.inttmul256_gs_rev2std : Fun := ⟨none, [(n!"a", (.ptr 1))],
  (.seq (.expr (.call n!"nttmul_gs_rev2std" (.cons (.var n!"a") (.cons (.num 256) (.cons (.var n!"ntt256_inv_mixed_powers_rev") .nil)))))
  .skip)⟩

/-- `inttmul256_gs_std2rev` -/
def ntt256_h.inttmul256_gs_std2rev : Fun := ⟨none, [(n!"a", (.ptr 1))],
  (.seq (.expr (.call n!"nttmul_gs_std2rev" (.cons (.var n!"a") (.cons (.num 256) (.cons (.var n!"ntt256_inv_mixed_powers") .nil)))))
  .skip)⟩

/-- The functions of the file. -/
def ntt256_h : Prog := [
  (n!"ntt256_ct_rev2std", ntt256_h.ntt256_ct_rev2std),
  (n!"ntt256_gs_rev2std", ntt256_h.ntt256_gs_rev2std),
  (n!"ntt256_ct_std2rev", ntt256_h.ntt256_ct_std2rev),
  (n!"ntt256_gs_std2rev", ntt256_h.ntt256_gs_std2rev),
  (n!"intt256_ct_rev2std", ntt256_h.intt256_ct_rev2std),
  (n!"intt256_gs_rev2std", ntt256_h.intt256_gs_rev2std),
  (n!"intt256_ct_std2rev", ntt256_h.intt256_ct_std2rev),
  (n!"intt256_gs_std2rev", ntt256_h.intt256_gs_std2rev),
  (n!"mulntt256_ct_rev2std", ntt256_h.mulntt256_ct_rev2std),
  (n!"mulntt256_ct_std2rev", ntt256_h.mulntt256_ct_std2rev),
  (n!"inttmul256_gs_rev2std", ntt256_h.inttmul256_gs_rev2std),
  (n!"inttmul256_gs_std2rev", ntt256_h.inttmul256_gs_std2rev)]

/-- What is read from the text. -/
theorem ntt256_h_read : read ntt256_h_text = some ntt256_h := by decide +kernel

/-- src/ntt256.c -/
def ntt256_c_text : Nat := text! r#"/*
 * NTT for Q=12289 and n=256.
 */

#include "ntt256.h"

/*
 * Product of two polynomials
 */
void ntt256_product1(int32_t *c, int32_t *a, int32_t *b) {
  mul_array16(a, 256, ntt256_psi_powers);
  ntt256_ct_std2rev(a);
  mul_array16(b, 256, ntt256_psi_powers);
  ntt256_ct_std2rev(b);
  mul_array(c, 256, a, b);
  intt256_ct_rev2std(c);
  mul_array16(c, 256, ntt256_scaled_inv_psi_powers);
}

void ntt256_product2(int32_t *c, int32_t *a, int32_t *b) {
  mul_array16(a, 256, ntt256_psi_powers);
  ntt256_gs_std2rev(a);
  mul_array16(b, 256, ntt256_psi_powers);
  ntt256_gs_std2rev(b);
  mul_array(c, 256, a, b);
  intt256_ct_rev2std(c);
  mul_array16(c, 256, ntt256_scaled_inv_psi_powers);
}

void ntt256_product3(int32_t *c, int32_t *a, int32_t *b) {
  mul_array16(a, 256, ntt256_psi_powers);
  ntt256_ct_std2rev(a);
  mul_array16(b, 256, ntt256_psi_powers);
  ntt256_ct_std2rev(b);
  mul_array(c, 256, a, b);
  intt256_gs_rev2std(c);
  mul_array16(c, 256, ntt256_scaled_inv_psi_powers);
}

void ntt256_product4(int32_t *c, int32_t *a, int32_t *b) {
  mul_array16(a, 256, ntt256_psi_powers);
  ntt256_gs_std2rev(a);
  mul_array16(b, 256, ntt256_psi_powers);
  ntt256_gs_std2rev(b);
  mul_array(c, 256, a, b);
  intt256_gs_rev2std(c);
  mul_array16(c, 256, ntt256_scaled_inv_psi_powers);
}

/*
 * Use combined mulntt then inttmul
 */
void ntt256_product5(int32_t *c, int32_t *a, int32_t *b) {
  mulntt256_ct_std2rev(a);
  mulntt256_ct_std2rev(b);
  mul_array(c, 256, a, b);
  inttmul256_gs_rev2std(c);
  scalar_mul_array(c, 256, ntt256_inv_n); // divide by n
}
"#

/-- `ntt256_product1` -/
def ntt256_c.ntt256_product1 : Fun := ⟨none, [(n!"c", (.ptr 1)), (n!"a", (.ptr 1)), (n!"b", (.ptr 1))],
  (.seq (.expr (.call n!"mul_array16" (.cons (.var n!"a") (.cons (.num 256) (.cons (.var n!"ntt256_psi_powers") .nil)))))
  (.seq (.expr (.call n!"ntt256_ct_std2rev" (.cons (.var n!"a") .nil)))
  (.seq (.expr (.call n!"mul_array16" (.cons (.var n!"b") (.cons (.num 256) (.cons (.var n!"ntt256_psi_powers") .nil)))))
  (.seq (.expr (.call n!"ntt256_ct_std2rev" (.cons (.var n!"b") .nil)))
  (.seq (.expr (.call n!"mul_array" (.cons (.var n!"c") (.cons (.num 256) (.cons (.var n!"a") (.cons (.var n!"b") .nil))))))
  (.seq (.expr (.call n!"intt256_ct_rev2std" (.cons (.var n!"c") .nil)))
  (.seq (.expr (.call n!"mul_array16" (.cons (.var n!"c") (.cons (.num 256) (.cons (.var n!"ntt256_scaled_inv_psi_powers") .nil)))))
  .skip)))))))⟩

/-- `ntt256_product2` -/
def ntt256_c.ntt256_product2 : Fun := ⟨none, [(n!"c", (.ptr 1)), (n!"a", (.ptr 1)), (n!"b", (.ptr 1))],
  (.seq (.expr (.call n!"mul_array16" (.cons (.var n!"a") (.cons (.num 256) (.cons (.var n!"ntt256_psi_powers") .nil)))))
  (.seq (.expr (.call n!"ntt256_gs_std2rev" (.cons (.var n!"a") .nil)))
  (.seq (.expr (.call n!"mul_array16" (.cons (.var n!"b") (.cons (.num 256) (.cons (.var n!"ntt256_psi_powers") .nil)))))
  (.seq (.expr (.call n!"ntt256_gs_std2rev" (.cons (.var n!"b") .nil)))
  (.seq (.expr (.call n!"mul_array" (.cons (.var n!"c") (.cons (.num 256) (.cons (.var n!"a") (.cons (.var n!"b") .nil))))))
  (.seq (.expr (.call n!"intt256_ct_rev2std" (.cons (.var n!"c") .nil)))
  (.seq (.expr (.call n!"mul_array16" (.cons (.var n!"c") (.cons (.num 256) (.cons (.var n!"ntt256_scaled_inv_psi_powers") .nil)))))
  .skip)))))))⟩

/-- `ntt256_product3` -/
def ntt256_c.ntt256_product3 : Fun := ⟨none, [(n!"c", (.ptr 1)), (n!"a", (.ptr 1)), (n!"b", (.ptr 1))],
  (.seq (.expr (.call n!"mul_array16" (.cons (.var n!"a") (.cons (.num 256) (.cons (.var n!"ntt256_psi_powers") .nil)))))
  (.seq (.expr (.call n!"ntt256_ct_std2rev" (.cons (.var n!"a") .nil)))
  (.seq (.expr (.call n!"mul_array16" (.cons (.var n!"b") (.cons (.num 256) (.cons (.var n!"ntt256_psi_powers") .nil)))))
  (.seq (.expr (.call n!"ntt256_ct_std2rev" (.cons (.var n!"b") .nil)))
  (.seq (.expr (.call n!"mul_array" (.cons (.var n!"c") (.cons (.num 256) (.cons (.var n!"a") (.cons (.var n!"b") .nil))))))
  (.seq (.expr (.call n!"intt256_gs_rev2std" (.cons (.var n!"c") .nil)))
  (.seq (.expr (.call n!"mul_array16" (.cons (.var n!"c") (.cons (.num 256) (.cons (.var n!"ntt256_scaled_inv_psi_powers") .nil)))))
  .skip)))))))⟩

/-- `ntt256_product4` -/
def ntt256_c.ntt256_product4 : Fun := ⟨none, [(n!"c", (.ptr 1)), (n!"a", (.ptr 1)), (n!"b", (.ptr 1))],
  (.seq (.expr (.call n!"mul_array16" (.cons (.var n!"a") (.cons (.num 256) (.cons (.var n!"ntt256_psi_powers") .nil)))))
  (.seq (.expr (.call n!"ntt256_gs_std2rev" (.cons (.var n!"a") .nil)))
  (.seq (.expr (.call n!"mul_array16" (.cons (.var n!"b") (.cons (.num 256) (.cons (.var n!"ntt256_psi_powers") .nil)))))
  (.seq (.expr (.call n!"ntt256_gs_std2rev" (.cons (.var n!"b") .nil)))
  (.seq (.expr (.call n!"mul_array" (.cons (.var n!"c") (.cons (.num 256) (.cons (.var n!"a") (.cons (.var n!"b") .nil))))))
  (.seq (.expr (.call n!"intt256_gs_rev2std" (.cons (.var n!"c") .nil)))
  (.seq (.expr (.call n!"mul_array16" (.cons (.var n!"c") (.cons (.num 256) (.cons (.var n!"ntt256_scaled_inv_psi_powers") .nil)))))
  .skip)))))))⟩

/-- `ntt256_product5` -/
def ntt256_c.ntt256_product5 : Fun := ⟨none, [(n!"c", (.ptr 1)), (n!"a", (.ptr 1)), (n!"b", (.ptr 1))],
  (.seq (.expr (.call n!"mulntt256_ct_std2rev" (.cons (.var n!"a") .nil)))
  (.seq (.expr (.call n!"mulntt256_ct_std2rev" (.cons (.var n!"b") .nil)))
  (.seq (.expr (.call n!"mul_array" (.cons (.var n!"c") (.cons (.num 256) (.cons (.var n!"a") (.cons (.var n!"b") .nil))))))
  (.seq (.expr (.call n!"inttmul256_gs_rev2std" (.cons (.var n!"c") .nil)))
  (.seq (.expr (.call n!"scalar_mul_array" (.cons (.var n!"c") (.cons (.num 256) (.cons (.var n!"ntt256_inv_n") .nil)))))
  .skip)))))⟩

/-- The functions of the file. -/
def ntt256_c : Prog := [
  (n!"ntt256_product1", ntt256_c.ntt256_product1),
  (n!"ntt256_product2", ntt256_c.ntt256_product2),
  (n!"ntt256_product3", ntt256_c.ntt256_product3),
  (n!"ntt256_product4", ntt256_c.ntt256_product4),
  (n!"ntt256_product5", ntt256_c.ntt256_product5)]

/-- What is read from the text. -/
theorem ntt256_c_read : read ntt256_c_text = some ntt256_c := by decide +kernel

end CLang.Src
