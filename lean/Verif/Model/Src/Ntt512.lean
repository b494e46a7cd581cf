import Verif.Model.CRead

/-
The text of src/ntt512.h and src/ntt512.c, and its functions as read by `CLang.read`.
Written by tools/gensrc.py.
-/

namespace CLang.Src

/-- src/ntt512.h -/
def ntt512_h_text : Nat := text! r#"/*
 * NTT for Q=12289 and n=512
 */

#ifndef __NTT512_H
#define __NTT512_H

#include "ntt512_tables.h"
#include "ntt.h"

/*
 * NTT VARIANTS
 *
 * - the input a is an array of n integers that must be between 0 and Q-1
 * - the result is stored in place
 * - the inverse transforms return a result scaled by n:
 *    we have intt(ntt(a)) = n * a
 */
// forward
static inline void ntt512_ct_rev2std(int32_t *a) {
  ntt_ct_rev2std(a, 512, ntt512_omega_powers);
}

static inline void ntt512_gs_rev2std(int32_t *a) {
  ntt_gs_rev2std(a, 512, ntt512_omega_powers_rev);
}

static inline void ntt512_ct_std2rev(int32_t *a) {
  ntt_ct_std2rev(a, 512, ntt512_omega_powers_rev);
}

static inline void ntt512_gs_std2rev(int32_t *a) {
  ntt_gs_std2rev(a, 512, ntt512_omega_powers);
}

// inverse
static inline void intt512_ct_rev2std(int32_t *a) {
  ntt_ct_rev2std(a, 512, ntt512_inv_omega_powers);
}

static inline void intt512_gs_rev2std(int32_t *a) {
  ntt_gs_rev2std(a, 512, ntt512_inv_omega_powers_rev);
}

static inline void intt512_ct_std2rev(int32_t *a) {
  ntt_ct_std2rev(a, 512, ntt512_inv_omega_powers_rev);
}

static inline void intt512_gs_std2rev(int32_t *a) {
  ntt_gs_std2rev(a, 512, ntt512_inv_omega_powers);
}

// multiplication by powers of psi then forward ntt
static inline void mulntt512_ct_rev2std(int32_t *a) {
  mulntt_ct_rev2std(a, 512, ntt512_mixed_powers);
}

static inline void mulntt512_ct_std2rev(int32_t *a) {
  mulntt_ct_std2rev(a, 512, ntt512_mixed_powers_rev);
}

// inverse ntt then multiplication by powers of psi^-1
static inline void inttmul512_gs_rev2std(int32_t *a) {
  nttmul_gs_rev2std(a, 512, ntt512_inv_mixed_powers_rev);
}

static inline void inttmul512_gs_std2rev(int32_t *a) {
  nttmul_gs_std2rev(a, 512, ntt512_inv_mixed_powers);
}


/*
 * PRODUCTS
 */

/*
 * Input: two arrays a and b in standard order
 * Result: 
 * - the product is stored in array c, in standard order.
 * - arrays a and b are modified
 *
 * The input arrays must contain elements in the range [0 .. Q-1]
 * The result is also in that range.
 */
extern void ntt512_product1(int32_t *c, int32_t *a, int32_t *b);
extern void ntt512_product2(int32_t *c, int32_t *a, int32_t *b);
extern void ntt512_product3(int32_t *c, int32_t *a, int32_t *b);
extern void ntt512_product4(int32_t *c, int32_t *a, int32_t *b);
extern void ntt512_product5(int32_t *c, int32_t *a, int32_t *b);
extern void ntt512_product6(int32_t *c, int32_t *a, int32_t *b);

#endif /* __NTT512_H */
"#

/-- `ntt512_ct_rev2std` -/
def ntt512_h.ntt512_ct_rev2std : Fun := ⟨none, [(n!"a", (.ptr 1))],
  (.seq (.expr (.call n!"ntt_ct_rev2std" (.cons (.var n!"a") (.cons (.num 512) (.cons (.var n!"ntt512_omega_powers") .nil)))))
  .skip)⟩

/-- `ntt512_gs_rev2std` -/
def ntt512_h.ntt512_gs_rev2std : Fun := ⟨none, [(n!"a", (.ptr 1))],
  (.seq (.expr (.call n!"ntt_gs_rev2std" (.cons (.var n!"a") (.cons (.num 512) (.cons (.var n!"ntt512_omega_powers_rev") .nil)))))
  .skip)⟩

/-- `ntt512_ct_std2rev` -/
def ntt512_h.ntt512_ct_std2rev : Fun := ⟨none, [(n!"a", (.ptr 1))],
  (.seq (.expr (.call n!"ntt_ct_std2rev" (.cons (.var n!"a") (.cons (.num 512) (.cons (.var n!"ntt512_omega_powers_rev") .nil)))))
  .skip)⟩

/-- `ntt512_gs_std2rev` -/
def ntt512_h.ntt512_gs_std2rev : Fun := ⟨none, [(n!"a", (.ptr 1))],
  (.seq (.expr (.call n!"ntt_gs_std2rev" (.cons (.var n!"a") (.cons (.num 512) (.cons (.var n!"ntt512_omega_powers") .nil)))))
  .skip)⟩

/-- `intt512_ct_rev2std` -/
def ntt512_h.intt512_ct_rev2std : Fun := ⟨none, [(n!"a", (.ptr 1))],
  (.seq (.expr (.call n!"ntt_ct_rev2std" (.cons (.var n!"a") (.cons (.num 512) (.cons (.var n!"ntt512_inv_omega_powers") .nil)))))
  .skip)⟩

/-- `intt512_gs_rev2std` -/
def ntt512_h.intt512_gs_rev2std : Fun := ⟨none, [(n!"a", (.ptr 1))],
  (.seq (.expr (.call n!"ntt_gs_rev2std" (.cons (.var n!"a") (.cons (.num 512) (.cons (.var n!"ntt512_inv_omega_powers_rev") .nil)))))
  .skip)⟩

/-- `intt512_ct_std2rev` -/
def ntt512_h.intt512_ct_std2rev : Fun := ⟨none, [(n!"a", (.ptr 1))],
  (.seq (.expr (.call n!"ntt_ct_std2rev" (.cons (.var n!"a") (.cons (.num 512) (.cons (.var n!"ntt512_inv_omega_powers_rev") .nil)))))
  .skip)⟩

/-- `intt512_gs_std2rev` -/
def ntt512_h.intt512_gs_std2rev : Fun := ⟨none, [(n!"a", (.ptr 1))],
  (.seq (.expr (.call n!"ntt_gs_std2rev" (.cons (.var n!"a") (.cons (.num 512) (.cons (.var n!"ntt512_inv_omega_powers") .nil)))))
  .skip)⟩

/-- `mulntt512_ct_rev2std` -/
def ntt512_h.mulntt512_ct_rev2std : Fun := ⟨none, [(n!"a", (.ptr 1))],
  (.seq (.expr (.call n!"mulntt_ct_rev2std" (.cons (.var n!"a") (.cons (.num 512) (.cons (.var n!"ntt512_mixed_powers") .nil)))))
  .skip)⟩

/-- `mulntt512_ct_std2rev` -/
def ntt512_h.mulntt512_ct_std2rev : Fun := ⟨none, [(n!"a", (.ptr 1))],
  (.seq (.expr (.call n!"mulntt_ct_std2rev" (.cons (.var n!"a") (.cons (.num 512) (.cons (.var n!"ntt512_mixed_powers_rev") .nil)))))
  .skip)⟩

/-- `inttmul512_gs_rev2std` -/
def ntt512_h.inttmul512_gs_rev2std : Fun := ⟨none, [(n!"a", (.ptr 1))],
  (.seq (.expr (.call n!"nttmul_gs_rev2std" (.cons (.var n!"a") (.cons (.num 512) (.cons (.var n!"ntt512_inv_mixed_powers_rev") .nil)))))
  .skip)⟩

/-- `inttmul512_gs_std2rev` -/
def ntt512_h.inttmul512_gs_std2rev : Fun := ⟨none, [(n!"a", (.ptr 1))],
  (.seq (.expr (.call n!"nttmul_gs_std2rev" (.cons (.var n!"a") (.cons (.num 512) (.cons (.var n!"ntt512_inv_mixed_powers") .nil)))))
  .skip)⟩

/-- The functions of the file. -/
def ntt512_h : Prog := [
  (n!"ntt512_ct_rev2std", ntt512_h.ntt512_ct_rev2std),
  (n!"ntt512_gs_rev2std", ntt512_h.ntt512_gs_rev2std),
  (n!"ntt512_ct_std2rev", ntt512_h.ntt512_ct_std2rev),
  (n!"ntt512_gs_std2rev", ntt512_h.ntt512_gs_std2rev),
  (n!"intt512_ct_rev2std", ntt512_h.intt512_ct_rev2std),
  (n!"intt512_gs_rev2std", ntt512_h.intt512_gs_rev2std),
  (n!"intt512_ct_std2rev", ntt512_h.intt512_ct_std2rev),
  (n!"intt512_gs_std2rev", ntt512_h.intt512_gs_std2rev),
  (n!"mulntt512_ct_rev2std", ntt512_h.mulntt512_ct_rev2std),
  (n!"mulntt512_ct_std2rev", ntt512_h.mulntt512_ct_std2rev),
  (n!"inttmul512_gs_rev2std", ntt512_h.inttmul512_gs_rev2std),
  (n!"inttmul512_gs_std2rev", ntt512_h.inttmul512_gs_std2rev)]

/-- What is read from the text. -/
theorem ntt512_h_read : read ntt512_h_text = some ntt512_h := by decide +kernel

/-- src/ntt512.c -/
def ntt512_c_text : Nat := text! r#"/*
 * NTT for Q=12289 and n=512.
 */

#include "ntt512.h"

/*
 * Product of two polynomials
 */
void ntt512_product1(int32_t *c, int32_t *a, int32_t *b) {
  mul_array16(a, 512, ntt512_psi_powers);
  ntt512_ct_std2rev(a);
  mul_array16(b, 512, ntt512_psi_powers);
  ntt512_ct_std2rev(b);
  mul_array(c, 512, a, b);
  intt512_ct_rev2std(c);
  mul_array16(c, 512, ntt512_scaled_inv_psi_powers);
}

void ntt512_product2(int32_t *c, int32_t *a, int32_t *b) {
  mul_array16(a, 512, ntt512_psi_powers);
  ntt512_gs_std2rev(a);
  mul_array16(b, 512, ntt512_psi_powers);
  ntt512_gs_std2rev(b);
  mul_array(c, 512, a, b);
  intt512_ct_rev2std(c);
  mul_array16(c, 512, ntt512_scaled_inv_psi_powers);
}

void ntt512_product3(int32_t *c, int32_t *a, int32_t *b) {
  mul_array16(a, 512, ntt512_psi_powers);
  ntt512_ct_std2rev(a);
  mul_array16(b, 512, ntt512_psi_powers);
  ntt512_ct_std2rev(b);
  mul_array(c, 512, a, b);
  intt512_gs_rev2std(c);
  mul_array16(c, 512, ntt512_scaled_inv_psi_powers);
}

void ntt512_product4(int32_t *c, int32_t *a, int32_t *b) {
  mul_array16(a, 512, ntt512_psi_powers);
  ntt512_gs_std2rev(a);
  mul_array16(b, 512, ntt512_psi_powers);
  ntt512_gs_std2rev(b);
  mul_array(c, 512, a, b);
  intt512_gs_rev2std(c);
  mul_array16(c, 512, ntt512_scaled_inv_psi_powers);
}

/*
 * Use combined mulntt then inttmul
 */
void ntt512_product5(int32_t *c, int32_t *a, int32_t *b) {
  mulntt512_ct_std2rev(a);
  mulntt512_ct_std2rev(b);
  mul_array(c, 512, a, b);
  inttmul512_gs_rev2std(c);
  scalar_mul_array(c, 512, ntt512_inv_n); // divide by n
}
"#

/-- `ntt512_product1` -/
def ntt512_c.ntt512_product1 : Fun := ⟨none, [(n!"c", (.ptr 1)), (n!"a", (.ptr 1)), (n!"b", (.ptr 1))],
  (.seq (.expr (.call n!"mul_array16" (.cons (.var n!"a") (.cons (.num 512) (.cons (.var n!"ntt512_psi_powers") .nil)))))
  (.seq (.expr (.call n!"ntt512_ct_std2rev" (.cons (.var n!"a") .nil)))
  (.seq (.expr (.call n!"mul_array16" (.cons (.var n!"b") (.cons (.num 512) (.cons (.var n!"ntt512_psi_powers") .nil)))))
  (.seq (.expr (.call n!"ntt512_ct_std2rev" (.cons (.var n!"b") .nil)))
  (.seq (.expr (.call n!"mul_array" (.cons (.var n!"c") (.cons (.num 512) (.cons (.var n!"a") (.cons (.var n!"b") .nil))))))
  (.seq (.expr (.call n!"intt512_ct_rev2std" (.cons (.var n!"c") .nil)))
  (.seq (.expr (.call n!"mul_array16" (.cons (.var n!"c") (.cons (.num 512) (.cons (.var n!"ntt512_scaled_inv_psi_powers") .nil)))))
  .skip)))))))⟩

/-- `ntt512_product2` -/
def ntt512_c.ntt512_product2 : Fun := ⟨none, [(n!"c", (.ptr 1)), (n!"a", (.ptr 1)), (n!"b", (.ptr 1))],
  (.seq (.expr (.call n!"mul_array16" (.cons (.var n!"a") (.cons (.num 512) (.cons (.var n!"ntt512_psi_powers") .nil)))))
  (.seq (.expr (.call n!"ntt512_gs_std2rev" (.cons (.var n!"a") .nil)))
  (.seq (.expr (.call n!"mul_array16" (.cons (.var n!"b") (.cons (.num 512) (.cons (.var n!"ntt512_psi_powers") .nil)))))
  (.seq (.expr (.call n!"ntt512_gs_std2rev" (.cons (.var n!"b") .nil)))
  (.seq (.expr (.call n!"mul_array" (.cons (.var n!"c") (.cons (.num 512) (.cons (.var n!"a") (.cons (.var n!"b") .nil))))))
  (.seq (.expr (.call n!"intt512_ct_rev2std" (.cons (.var n!"c") .nil)))
  (.seq (.expr (.call n!"mul_array16" (.cons (.var n!"c") (.cons (.num 512) (.cons (.var n!"ntt512_scaled_inv_psi_powers") .nil)))))
  .skip)))))))⟩

/-- `ntt512_product3` -/
def ntt512_c.ntt512_product3 : Fun := ⟨none, [(n!"c", (.ptr 1)), (n!"a", (.ptr 1)), (n!"b", (.ptr 1))],
  (.seq (.expr (.call n!"mul_array16" (.cons (.var n!"a") (.cons (.num 512) (.cons (.var n!"ntt512_psi_powers") .nil)))))
  (.seq (.expr (.call n!"ntt512_ct_std2rev" (.cons (.var n!"a") .nil)))
  (.seq (.expr (.call n!"mul_array16" (.cons (.var n!"b") (.cons (.num 512) (.cons (.var n!"ntt512_psi_powers") .nil)))))
  (.seq (.expr (.call n!"ntt512_ct_std2rev" (.cons (.var n!"b") .nil)))
  (.seq (.expr (.call n!"mul_array" (.cons (.var n!"c") (.cons (.num 512) (.cons (.var n!"a") (.cons (.var n!"b") .nil))))))
  (.seq (.expr (.call n!"intt512_gs_rev2std" (.cons (.var n!"c") .nil)))
  (.seq (.expr (.call n!"mul_array16" (.cons (.var n!"c") (.cons (.num 512) (.cons (.var n!"ntt512_scaled_inv_psi_powers") .nil)))))
  .skip)))))))⟩

/-- `ntt512_product4` -/
def ntt512_c.ntt512_product4 : Fun := ⟨none, [(n!"c", (.ptr 1)), (n!"a", (.ptr 1)), (n!"b", (.ptr 1))],
  (.seq (.expr (.call n!"mul_array16" (.cons (.var n!"a") (.cons (.num 512) (.cons (.var n!"ntt512_psi_powers") .nil)))))
  (.seq (.expr (.call n!"ntt512_gs_std2rev" (.cons (.var n!"a") .nil)))
  (.seq (.expr (.call n!"mul_array16" (.cons (.var n!"b") (.cons (.num 512) (.cons (.var n!"ntt512_psi_powers") .nil)))))
  (.seq (.expr (.call n!"ntt512_gs_std2rev" (.cons (.var n!"b") .nil)))
  (.seq (.expr (.call n!"mul_array" (.cons (.var n!"c") (.cons (.num 512) (.cons (.var n!"a") (.cons (.var n!"b") .nil))))))
  (.seq (.expr (.call n!"intt512_gs_rev2std" (.cons (.var n!"c") .nil)))
  (.seq (.expr (.call n!"mul_array16" (.cons (.var n!"c") (.cons (.num 512) (.cons (.var n!"ntt512_scaled_inv_psi_powers") .nil)))))
  .skip)))))))⟩

/-- `ntt512_product5` -/
def ntt512_c.ntt512_product5 : Fun := ⟨none, [(n!"c", (.ptr 1)), (n!"a", (.ptr 1)), (n!"b", (.ptr 1))],
  (.seq (.expr (.call n!"mulntt512_ct_std2rev" (.cons (.var n!"a") .nil)))
  (.seq (.expr (.call n!"mulntt512_ct_std2rev" (.cons (.var n!"b") .nil)))
  (.seq (.expr (.call n!"mul_array" (.cons (.var n!"c") (.cons (.num 512) (.cons (.var n!"a") (.cons (.var n!"b") .nil))))))
  (.seq (.expr (.call n!"inttmul512_gs_rev2std" (.cons (.var n!"c") .nil)))
  (.seq (.expr (.call n!"scalar_mul_array" (.cons (.var n!"c") (.cons (.num 512) (.cons (.var n!"ntt512_inv_n") .nil)))))
  .skip)))))⟩

/-- The functions of the file. -/
def ntt512_c : Prog := [
  (n!"ntt512_product1", ntt512_c.ntt512_product1),
  (n!"ntt512_product2", ntt512_c.ntt512_product2),
  (n!"ntt512_product3", ntt512_c.ntt512_product3),
  (n!"ntt512_product4", ntt512_c.ntt512_product4),
  (n!"ntt512_product5", ntt512_c.ntt512_product5)]

/-- What is read from the text. -/
theorem ntt512_c_read : read ntt512_c_text = some ntt512_c := by decide +kernel

end CLang.Src
