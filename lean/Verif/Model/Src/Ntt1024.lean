import Verif.Model.CRead

/-
The text of src/ntt1024.h and src/ntt1024.c, and its functions as read by `CLang.read`.
Written by tools/gensrc.py.
-/

namespace CLang.Src

/-- src/ntt1024.h -/
def ntt1024_h_text : Nat := text! r#"/*
 * NTT for Q=12289 and n=1024
 */

#ifndef __NTT1024_H
#define __NTT1024_H

#include "ntt1024_tables.h"
#include "ntt.h"


/*
 * NTT VARIANTS
 *
 * - the input a is an array of n integers that must be between 0 and Q-1
 * - the result is stored in place
 * - the inverse transforms return a result scaled by n:
 *    we have intt(ntt(a)) = n * a
 */
// forward
static inline void ntt1024_ct_rev2std(int32_t *a) {
  ntt_ct_rev2std(a, 1024, ntt1024_omega_powers);
}

static inline void ntt1024_gs_rev2std(int32_t *a) {
  ntt_gs_rev2std(a, 1024, ntt1024_omega_powers_rev);
}

static inline void ntt1024_ct_std2rev(int32_t *a) {
  ntt_ct_std2rev(a, 1024, ntt1024_omega_powers_rev);
}

static inline void ntt1024_gs_std2rev(int32_t *a) {
  ntt_gs_std2rev(a, 1024, ntt1024_omega_powers);
}

// inverse
static inline void intt1024_ct_rev2std(int32_t *a) {
  ntt_ct_rev2std(a, 1024, ntt1024_inv_omega_powers);
}

static inline void intt1024_gs_rev2std(int32_t *a) {
  ntt_gs_rev2std(a, 1024, ntt1024_inv_omega_powers_rev);
}

static inline void intt1024_ct_std2rev(int32_t *a) {
  ntt_ct_std2rev(a, 1024, ntt1024_inv_omega_powers_rev);
}

static inline void intt1024_gs_std2rev(int32_t *a) {
  ntt_gs_std2rev(a, 1024, ntt1024_inv_omega_powers);
}

// multiplication by powers of psi then forward ntt
static inline void mulntt1024_ct_rev2std(int32_t *a) {
  mulntt_ct_rev2std(a, 1024, ntt1024_mixed_powers);
}

static inline void mulntt1024_ct_std2rev(int32_t *a) {
  mulntt_ct_std2rev(a, 1024, ntt1024_mixed_powers_rev);
}

// inverse ntt then multiplication by powers of psi^-1
static inline void inttmul1024_gs_rev2std(int32_t *a) {
  nttmul_gs_rev2std(a, 1024, ntt1024_inv_mixed_powers_rev);
}

static inline void inttmul1024_gs_std2rev(int32_t *a) {
  nttmul_gs_std2rev(a, 1024, ntt1024_inv_mixed_powers);
}


/*
 * PRODUCTS
 */

/*
 * Input: two arrays a and b in standard order
 * Result: 
 * - the product is stored in array c, in standard order.
 * - arrays a and b are modified
 *
 * The input arrays must contain elements in the range [0 .. Q-1]
 * The result is also in that range.
 */
extern void ntt1024_product1(int32_t *c, int32_t *a, int32_t *b);
extern void ntt1024_product2(int32_t *c, int32_t *a, int32_t *b);
extern void ntt1024_product3(int32_t *c, int32_t *a, int32_t *b);
extern void ntt1024_product4(int32_t *c, int32_t *a, int32_t *b);
extern void ntt1024_product5(int32_t *c, int32_t *a, int32_t *b);
extern void ntt1024_product6(int32_t *c, int32_t *a, int32_t *b);

#endif /* __NTT1024_H */
"#

/-- `ntt1024_ct_rev2std` -/
def ntt1024_h.ntt1024_ct_rev2std : Fun := ⟨none, [(n!"a", (.ptr 1))],
  (.seq (.expr (.call n!"ntt_ct_rev2std" (.cons (.var n!"a") (.cons (.num 1024) (.cons (.var n!"ntt1024_omega_powers") .nil)))))
  .skip)⟩

/-- `ntt1024_gs_rev2std` -/
def ntt1024_h.ntt1024_gs_rev2std : Fun := ⟨none, [(n!"a", (.ptr 1))],
  (.seq (.expr (.call n!"ntt_gs_rev2std" (.cons (.var n!"a") (.cons (.num 1024) (.cons (.var n!"ntt1024_omega_powers_rev") .nil)))))
  .skip)⟩

/-- `ntt1024_ct_std2rev` -/
def ntt1024_h.ntt1024_ct_std2rev : Fun := ⟨none, [(n!"a", (.ptr 1))],
  (.seq (.expr (.call n!"ntt_ct_std2rev" (.cons (.var n!"a") (.cons (.num 1024) (.cons (.var n!"ntt1024_omega_powers_rev") .nil)))))
  .skip)⟩

/-- `ntt1024_gs_std2rev` -/
def ntt1024_h.ntt1024_gs_std2rev : Fun := ⟨none, [(n!"a", (.ptr 1))],
  (.seq (.expr (.call n!"ntt_gs_std2rev" (.cons (.var n!"a") (.cons (.num 1024) (.cons (.var n!"ntt1024_omega_powers") .nil)))))
  .skip)⟩

/-- `intt1024_ct_rev2std` -/
def ntt1024_h.intt1024_ct_rev2std : Fun := ⟨none, [(n!"a", (.ptr 1))],
  (.seq (.expr (.call n!"ntt_ct_rev2std" (.cons (.var n!"a") (.cons (.num 1024) (.cons (.var n!"ntt1024_inv_omega_powers") .nil)))))
  .skip)⟩

/-- `intt1024_gs_rev2std` -/
def ntt1024_h.intt1024_gs_rev2std : Fun := ⟨none, [(n!"a", (.ptr 1))],
  (.seq (.expr (.call n!"ntt_gs_rev2std" (.cons (.var n!"a") (.cons (.num 1024) (.cons (.var n!"ntt1024_inv_omega_powers_rev") .nil)))))
  .skip)⟩

/-- `intt1024_ct_std2rev` -/
def ntt1024_h.intt1024_ct_std2rev : Fun := ⟨none, [(n!"a", (.ptr 1))],
  (.seq (.expr (.call n!"ntt_ct_std2rev" (.cons (.var n!"a") (.cons (.num 1024) (.cons (.var n!"ntt1024_inv_omega_powers_rev") .nil)))))
  .skip)⟩

/-- `intt1024_gs_std2rev` -/
def ntt1024_h.intt1024_gs_std2rev : Fun := ⟨none, [(n!"a", (.ptr 1))],
  (.seq (.expr (.call n!"ntt_gs_std2rev" (.cons (.var n!"a") (.cons (.num 1024) (.cons (.var n!"ntt1024_inv_omega_powers") .nil)))))
  .skip)⟩

/-- `mulntt1024_ct_rev2std` -/
def ntt1024_h.mulntt1024_ct_rev2std : Fun := ⟨none, [(n!"a", (.ptr 1))],
  (.seq (.expr (.call n!"mulntt_ct_rev2std" (.cons (.var n!"a") (.cons (.num 1024) (.cons (.var n!"ntt1024_mixed_powers") .nil)))))
  .skip)⟩

/-- `mulntt1024_ct_std2rev` -/
def ntt1024_h.mulntt1024_ct_std2rev : Fun := ⟨none, [(n!"a", (.ptr 1))],
  (.seq (.expr (.call n!"mulntt_ct_std2rev" (.cons (.var n!"a") (.cons (.num 1024) (.cons (.var n!"ntt1024_mixed_powers_rev") .nil)))))
  .skip)⟩

/-- `inttmul1024_gs_rev2std` -/
def ntt1024_h.inttmul1024_gs_rev2std : Fun := ⟨none, [(n!"a", (.ptr 1))],
  (.seq (.expr (.call n!"nttmul_gs_rev2std" (.cons (.var n!"a") (.cons (.num 1024) (.cons (.var n!"ntt1024_inv_mixed_powers_rev") .nil)))))
  .skip)⟩

/-- `inttmul1024_gs_std2rev` -/
def ntt1024_h.inttmul1024_gs_std2rev : Fun := ⟨none, [(n!"a", (.ptr 1))],
  (.seq (.expr (.call n!"nttmul_gs_std2rev" (.cons (.var n!"a") (.cons (.num 1024) (.cons (.var n!"ntt1024_inv_mixed_powers") .nil)))))
  .skip)⟩

/-- The functions of the file. -/
def ntt1024_h : Prog := [
  (n!"ntt1024_ct_rev2std", ntt1024_h.ntt1024_ct_rev2std),
  (n!"ntt1024_gs_rev2std", ntt1024_h.ntt1024_gs_rev2std),
  (n!"ntt1024_ct_std2rev", ntt1024_h.ntt1024_ct_std2rev),
  (n!"ntt1024_gs_std2rev", ntt1024_h.ntt1024_gs_std2rev),
  (n!"intt1024_ct_rev2std", ntt1024_h.intt1024_ct_rev2std),
  (n!"intt1024_gs_rev2std", ntt1024_h.intt1024_gs_rev2std),
  (n!"intt1024_ct_std2rev", ntt1024_h.intt1024_ct_std2rev),
  (n!"intt1024_gs_std2rev", ntt1024_h.intt1024_gs_std2rev),
  (n!"mulntt1024_ct_rev2std", ntt1024_h.mulntt1024_ct_rev2std),
  (n!"mulntt1024_ct_std2rev", ntt1024_h.mulntt1024_ct_std2rev),
  (n!"inttmul1024_gs_rev2std", ntt1024_h.inttmul1024_gs_rev2std),
  (n!"inttmul1024_gs_std2rev", ntt1024_h.inttmul1024_gs_std2rev)]

/-- What is read from the text. -/
theorem ntt1024_h_read : read ntt1024_h_text = some ntt1024_h := by decide +kernel

/-- src/ntt1024.c -/
def ntt1024_c_text : Nat := text! r#"/*
 * NTT for Q=12289 and n=1024.
 */

#include "ntt1024.h"

/*
 * Product of two polynomials
 */
void ntt1024_product1(int32_t *c, int32_t *a, int32_t *b) {
  mul_array16(a, 1024, ntt1024_psi_powers);
  ntt1024_ct_std2rev(a);
  mul_array16(b, 1024, ntt1024_psi_powers);
  ntt1024_ct_std2rev(b);
  mul_array(c, 1024, a, b);
  intt1024_ct_rev2std(c);
  mul_array16(c, 1024, ntt1024_scaled_inv_psi_powers);
}

void ntt1024_product2(int32_t *c, int32_t *a, int32_t *b) {
  mul_array16(a, 1024, ntt1024_psi_powers);
  ntt1024_gs_std2rev(a);
  mul_array16(b, 1024, ntt1024_psi_powers);
  ntt1024_gs_std2rev(b);
  mul_array(c, 1024, a, b);
  intt1024_ct_rev2std(c);
  mul_array16(c, 1024, ntt1024_scaled_inv_psi_powers);
}

void ntt1024_product3(int32_t *c, int32_t *a, int32_t *b) {
  mul_array16(a, 1024, ntt1024_psi_powers);
  ntt1024_ct_std2rev(a);
  mul_array16(b, 1024, ntt1024_psi_powers);
  ntt1024_ct_std2rev(b);
  mul_array(c, 1024, a, b);
  intt1024_gs_rev2std(c);
  mul_array16(c, 1024, ntt1024_scaled_inv_psi_powers);
}

void ntt1024_product4(int32_t *c, int32_t *a, int32_t *b) {
  mul_array16(a, 1024, ntt1024_psi_powers);
  ntt1024_gs_std2rev(a);
  mul_array16(b, 1024, ntt1024_psi_powers);
  ntt1024_gs_std2rev(b);
  mul_array(c, 1024, a, b);
  intt1024_gs_rev2std(c);
  mul_array16(c, 1024, ntt1024_scaled_inv_psi_powers);
}

/*
 * Use combined mulntt then inttmul
 */
void ntt1024_product5(int32_t *c, int32_t *a, int32_t *b) {
  mulntt1024_ct_std2rev(a);
  mulntt1024_ct_std2rev(b);
  mul_array(c, 1024, a, b);
  inttmul1024_gs_rev2std(c);
  scalar_mul_array(c, 1024, ntt1024_inv_n); // divide by n
}
"#

/-- `ntt1024_product1` -/
def ntt1024_c.ntt1024_product1 : Fun := ⟨none, [(n!"c", (.ptr 1)), (n!"a", (.ptr 1)), (n!"b", (.ptr 1))],
  (.seq (.expr (.call n!"mul_array16" (.cons (.var n!"a") (.cons (.num 1024) (.cons (.var n!"ntt1024_psi_powers") .nil)))))
  (.seq (.expr (.call n!"ntt1024_ct_std2rev" (.cons (.var n!"a") .nil)))
  (.seq (.expr (.call n!"mul_array16" (.cons (.var n!"b") (.cons (.num 1024) (.cons (.var n!"ntt1024_psi_powers") .nil)))))
  (.seq (.expr (.call n!"ntt1024_ct_std2rev" (.cons (.var n!"b") .nil)))
  (.seq (.expr (.call n!"mul_array" (.cons (.var n!"c") (.cons (.num 1024) (.cons (.var n!"a") (.cons (.var n!"b") .nil))))))
  (.seq (.expr (.call n!"intt1024_ct_rev2std" (.cons (.var n!"c") .nil)))
  (.seq (.expr (.call n!"mul_array16" (.cons (.var n!"c") (.cons (.num 1024) (.cons (.var n!"ntt1024_scaled_inv_psi_powers") .nil)))))
  .skip)))))))⟩

/-- `ntt1024_product2` -/
def ntt1024_c.ntt1024_product2 : Fun := ⟨none, [(n!"c", (.ptr 1)), (n!"a", (.ptr 1)), (n!"b", (.ptr 1))],
  (.seq (.expr (.call n!"mul_array16" (.cons (.var n!"a") (.cons (.num 1024) (.cons (.var n!"ntt1024_psi_powers") .nil)))))
  (.seq (.expr (.call n!"ntt1024_gs_std2rev" (.cons (.var n!"a") .nil)))
  (.seq (.expr (.call n!"mul_array16" (.cons (.var n!"b") (.cons (.num 1024) (.cons (.var n!"ntt1024_psi_powers") .nil)))))
  (.seq (.expr (.call n!"ntt1024_gs_std2rev" (.cons (.var n!"b") .nil)))
  (.seq (.expr (.call n!"mul_array" (.cons (.var n!"c") (.cons (.num 1024) (.cons (.var n!"a") (.cons (.var n!"b") .nil))))))
  (.seq (.expr (.call n!"intt1024_ct_rev2std" (.cons (.var n!"c") .nil)))
  (.seq (.expr (.call n!"mul_array16" (.cons (.var n!"c") (.cons (.num 1024) (.cons (.var n!"ntt1024_scaled_inv_psi_powers") .nil)))))
  .skip)))))))⟩

/-- `ntt1024_product3` -/
def ntt1024_c.ntt1024_product3 : Fun := ⟨none, [(n!"c", (.ptr 1)), (n!"a", (.ptr 1)), (n!"b", (.ptr 1))],
  (.seq (.expr (.call n!"mul_array16" (.cons (.var n!"a") (.cons (.num 1024) (.cons (.var n!"ntt1024_psi_powers") .nil)))))
  (.seq (.expr (.call n!"ntt1024_ct_std2rev" (.cons (.var n!"a") .nil)))
  (.seq (.expr (.call n!"mul_array16" (.cons (.var n!"b") (.cons (.num 1024) (.cons (.var n!"ntt1024_psi_powers") .nil)))))
  (.seq (.expr (.call n!"ntt1024_ct_std2rev" (.cons (.var n!"b") .nil)))
  (.seq (.expr (.call n!"mul_array" (.cons (.var n!"c") (.cons (.num 1024) (.cons (.var n!"a") (.cons (.var n!"b") .nil))))))
  (.seq (.expr (.call n!"intt1024_gs_rev2std" (.cons (.var n!"c") .nil)))
  (.seq (.expr (.call n!"mul_array16" (.cons (.var n!"c") (.cons (.num 1024) (.cons (.var n!"ntt1024_scaled_inv_psi_powers") .nil)))))
  .skip)))))))⟩

/-- `ntt1024_product4` -/
def ntt1024_c.ntt1024_product4 : Fun := ⟨none, [(n!"c", (.ptr 1)), (n!"a", (.ptr 1)), (n!"b", (.ptr 1))],
  (.seq (.expr (.call n!"mul_array16" (.cons (.var n!"a") (.cons (.num 1024) (.cons (.var n!"ntt1024_psi_powers") .nil)))))
  (.seq (.expr (.call n!"ntt1024_gs_std2rev" (.cons (.var n!"a") .nil)))
  (.seq (.expr (.call n!"mul_array16" (.cons (.var n!"b") (.cons (.num 1024) (.cons (.var n!"ntt1024_psi_powers") .nil)))))
  (.seq (.expr (.call n!"ntt1024_gs_std2rev" (.cons (.var n!"b") .nil)))
  (.seq (.expr (.call n!"mul_array" (.cons (.var n!"c") (.cons (.num 1024) (.cons (.var n!"a") (.cons (.var n!"b") .nil))))))
  (.seq (.expr (.call n!"intt1024_gs_rev2std" (.cons (.var n!"c") .nil)))
  (.seq (.expr (.call n!"mul_array16" (.cons (.var n!"c") (.cons (.num 1024) (.cons (.var n!"ntt1024_scaled_inv_psi_powers") .nil)))))
  .skip)))))))⟩

/-- `ntt1024_product5` -/
def ntt1024_c.ntt1024_product5 : Fun := ⟨none, [(n!"c", (.ptr 1)), (n!"a", (.ptr 1)), (n!"b", (.ptr 1))],
  (.seq (.expr (.call n!"mulntt1024_ct_std2rev" (.cons (.var n!"a") .nil)))
  (.seq (.expr (.call n!"mulntt1024_ct_std2rev" (.cons (.var n!"b") .nil)))
  (.seq (.expr (.call n!"mul_array" (.cons (.var n!"c") (.cons (.num 1024) (.cons (.var n!"a") (.cons (.var n!"b") .nil))))))
  (.seq (.expr (.call n!"inttmul1024_gs_rev2std" (.cons (.var n!"c") .nil)))
  (.seq (.expr (.call n!"scalar_mul_array" (.cons (.var n!"c") (.cons (.num 1024) (.cons (.var n!"ntt1024_inv_n") .nil)))))
  .skip)))))⟩

/-- The functions of the file. -/
def ntt1024_c : Prog := [
  (n!"ntt1024_product1", ntt1024_c.ntt1024_product1),
  (n!"ntt1024_product2", ntt1024_c.ntt1024_product2),
  (n!"ntt1024_product3", ntt1024_c.ntt1024_product3),
  (n!"ntt1024_product4", ntt1024_c.ntt1024_product4),
  (n!"ntt1024_product5", ntt1024_c.ntt1024_product5)]

/-- What is read from the text. -/
theorem ntt1024_c_read : read ntt1024_c_text = some ntt1024_c := by decide +kernel

end CLang.Src
