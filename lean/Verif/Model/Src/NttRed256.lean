import Verif.Model.CRead

/-
The text of src/ntt_red256.h and src/ntt_red256.c, and its functions as read by `CLang.read`.
Written by tools/gensrc.py.
-/

namespace CLang.Src

/-- src/ntt_red256.h -/
def ntt_red256_h_text : Nat := text! r#"/*
 * NTT for Q=12289, n=256, using the Longa/Naehrig reduction method.
 */

#ifndef __NTT_RED256_H
#define __NTT_RED256_H

#include "ntt_red256_tables.h"
#include "ntt_red.h"

/*
 * NTT Variants: as in ntt_red.h
 * using tables from ntt256_red_tables.h
 *
 * Input: a[i] for i=0 .. 15 is expected to satisfy
 *   -21499 <= a[i] <= 21499
 *
 * The result is stored in a, it is not reduced modulo Q.
 */
// forward NTTs
static inline void ntt_red256_ct_rev2std(int32_t *a) {
  ntt_red_ct_rev2std(a, 256, ntt_red256_omega_powers);
}

static inline void ntt_red256_gs_rev2std(int32_t *a) {
  ntt_red_gs_rev2std(a, 256, ntt_red256_omega_powers_rev);
}

static inline void ntt_red256_ct_std2rev(int32_t *a) {
  ntt_red_ct_std2rev(a, 256, ntt_red256_omega_powers_rev);
}

static inline void ntt_red256_gs_std2rev(int32_t *a) {
  ntt_red_gs_std2rev(a, 256, ntt_red256_omega_powers);
}

// inverse
static inline void intt_red256_ct_rev2std(int32_t *a) {
  ntt_red_ct_rev2std(a, 256, ntt_red256_inv_omega_powers);
}

static inline void intt_red256_gs_rev2std(int32_t *a) {
  ntt_red_gs_rev2std(a, 256, ntt_red256_inv_omega_powers_rev);
}

static inline void intt_red256_ct_std2rev(int32_t *a) {
  ntt_red_ct_std2rev(a, 256, ntt_red256_inv_omega_powers_rev);
}

static inline void intt_red256_gs_std2rev(int32_t *a) {
  ntt_red_gs_std2rev(a, 256, ntt_red256_inv_omega_powers);
}

// multiplication by powers of psi then forward ntt
static inline void mulntt_red256_ct_rev2std(int32_t *a) {
  mulntt_red_ct_rev2std(a, 256, ntt_red256_mixed_powers);
}

static inline void mulntt_red256_ct_std2rev(int32_t *a) {
  mulntt_red_ct_std2rev(a, 256, ntt_red256_mixed_powers_rev);
}

// inverse ntt then multiplication by powers of psi^-1
static inline void inttmul_red256_gs_rev2std(int32_t *a) {
  nttmul_red_gs_rev2std(a, 256, ntt_red256_inv_mixed_powers_rev);
}

static inline void inttmul_red256_gs_std2rev(int32_t *a) {
  nttmul_red_gs_std2rev(a, 256, ntt_red256_inv_mixed_powers);
}


/*
 * PRODUCTS
 */

/*
 * Input: two arrays a and b in standard order
 *
 * Result: 
 * - the product is stored in array c, in standard order.
 * - arrays a and b are modified
 *
 * The input arrays must contain elements in the range [0, Q-1]
 * The result is also in that range.
 */
extern void ntt_red256_product1(int32_t *c, int32_t *a, int32_t *b);
extern void ntt_red256_product2(int32_t *c, int32_t *a, int32_t *b);
extern void ntt_red256_product3(int32_t *c, int32_t *a, int32_t *b);
extern void ntt_red256_product4(int32_t *c, int32_t *a, int32_t *b);
extern void ntt_red256_product5(int32_t *c, int32_t *a, int32_t *b);

#endif /* __NTT_RED256_H */
"#

/-- `ntt_red256_ct_rev2std` -/
def ntt_red256_h.ntt_red256_ct_rev2std : Fun := ⟨none, [(n!"a", (.ptr 1))],
  (.seq (.expr (.call n!"ntt_red_ct_rev2std" (.cons (.var n!"a") (.cons (.num 256) (.cons (.var n!"ntt_red256_omega_powers") .nil)))))
  .skip)⟩

/-- `ntt_red256_gs_rev2std` -/
def ntt_red256_h.ntt_red256_gs_rev2std : Fun := ⟨none, [(n!"a", (.ptr 1))],
  (.seq (.expr (.call n!"ntt_red_gs_rev2std" (.cons (.var n!"a") (.cons (.num 256) (.cons (.var n!"ntt_red256_omega_powers_rev") .nil)))))
  .skip)⟩

/-- `ntt_red256_ct_std2rev` -/
def ntt_red256_h.ntt_red256_ct_std2rev : Fun := ⟨none, [(n!"a", (.ptr 1))],
  (.seq (.expr (.call n!"ntt_red_ct_std2rev" (.cons (.var n!"a") (.cons (.num 256) (.cons (.var n!"ntt_red256_omega_powers_rev") .nil)))))
  .skip)⟩

/-- `ntt_red256_gs_std2rev` -/
def ntt_red256_h.ntt_red256_gs_std2rev : Fun := ⟨none, [(n!"a", (.ptr 1))],
  (.seq (.expr (.call n!"ntt_red_gs_std2rev" (.cons (.var n!"a") (.cons (.num 256) (.cons (.var n!"ntt_red256_omega_powers") .nil)))))
  .skip)⟩

/-- `intt_red256_ct_rev2std` -/
def ntt_red256_h.intt_red256_ct_rev2std : Fun := ⟨none, [(n!"a", (.ptr 1))],
  (.seq (.expr (.call n!"ntt_red_ct_rev2std" (.cons (.var n!"a") (.cons (.num 256) (.cons (.var n!"ntt_red256_inv_omega_powers") .nil)))))
  .skip)⟩

/-- `intt_red256_gs_rev2std` -/
def ntt_red256_h.intt_red256_gs_rev2std : Fun := ⟨none, [(n!"a", (.ptr 1))],
  (.seq (.expr (.call n!"ntt_red_gs_rev2std" (.cons (.var n!"a") (.cons (.num 256) (.cons (.var n!"ntt_red256_inv_omega_powers_rev") .nil)))))
  .skip)⟩

/-- `intt_red256_ct_std2rev` -/
def ntt_red256_h.intt_red256_ct_std2rev : Fun := ⟨none, [(n!"a", (.ptr 1))],
  (.seq (.expr (.call n!"ntt_red_ct_std2rev" (.cons (.var n!"a") (.cons (.num 256) (.cons (.var n!"ntt_red256_inv_omega_powers_rev") .nil)))))
  .skip)⟩

/-- `intt_red256_gs_std2rev` -/
def ntt_red256_h.intt_red256_gs_std2rev : Fun := ⟨none, [(n!"a", (.ptr 1))],
  (.seq (.expr (.call n!"ntt_red_gs_std2rev" (.cons (.var n!"a") (.cons (.num 256) (.cons (.var n!"ntt_red256_inv_omega_powers") .nil)))))
  .skip)⟩

/-- `mulntt_red256_ct_rev2std` -/
def ntt_red256_h.mulntt_red256_ct_rev2std : Fun := ⟨none, [(n!"a", (.ptr 1))],
  (.seq (.expr (.call n!"mulntt_red_ct_rev2std" (.cons (.var n!"a") (.cons (.num 256) (.cons (.var n!"ntt_red256_mixed_powers") .nil)))))
  .skip)⟩

/-- `mulntt_red256_ct_std2rev` -/
def ntt_red256_h.mulntt_red256_ct_std2rev : Fun := ⟨none, [(n!"a", (.ptr 1))],
  (.seq (.expr (.call n!"mulntt_red_ct_std2rev" (.cons (.var n!"a") (.cons (.num 256) (.cons (.var n!"ntt_red256_mixed_powers_rev") .nil)))))
  .skip)⟩

/-- `inttmul_red256_gs_rev2std` -/
def ntt_red256_h.inttmul_red256_gs_rev2std : Fun := ⟨none, [(n!"a", (.ptr 1))],
  (.seq (.expr (.call n!"nttmul_red_gs_rev2std" (.cons (.var n!"a") (.cons (.num 256) (.cons (.var n!"ntt_red256_inv_mixed_powers_rev") .nil)))))
  .skip)⟩

/-- `inttmul_red256_gs_std2rev` -/
def ntt_red256_h.inttmul_red256_gs_std2rev : Fun := ⟨none, [(n!"a", (.ptr 1))],
  (.seq (.expr (.call n!"nttmul_red_gs_std2rev" (.cons (.var n!"a") (.cons (.num 256) (.cons (.var n!"ntt_red256_inv_mixed_powers") .nil)))))
  .skip)⟩

/-- The functions of the file. -/
def ntt_red256_h : Prog := [
  (n!"ntt_red256_ct_rev2std", ntt_red256_h.ntt_red256_ct_rev2std),
  (n!"ntt_red256_gs_rev2std", ntt_red256_h.ntt_red256_gs_rev2std),
  (n!"ntt_red256_ct_std2rev", ntt_red256_h.ntt_red256_ct_std2rev),
  (n!"ntt_red256_gs_std2rev", ntt_red256_h.ntt_red256_gs_std2rev),
  (n!"intt_red256_ct_rev2std", ntt_red256_h.intt_red256_ct_rev2std),
  (n!"intt_red256_gs_rev2std", ntt_red256_h.intt_red256_gs_rev2std),
  (n!"intt_red256_ct_std2rev", ntt_red256_h.intt_red256_ct_std2rev),
  (n!"intt_red256_gs_std2rev", ntt_red256_h.intt_red256_gs_std2rev),
  (n!"mulntt_red256_ct_rev2std", ntt_red256_h.mulntt_red256_ct_rev2std),
  (n!"mulntt_red256_ct_std2rev", ntt_red256_h.mulntt_red256_ct_std2rev),
  (n!"inttmul_red256_gs_rev2std", ntt_red256_h.inttmul_red256_gs_rev2std),
  (n!"inttmul_red256_gs_std2rev", ntt_red256_h.inttmul_red256_gs_std2rev)]

/-- What is read from the text. -/
theorem ntt_red256_h_read : read ntt_red256_h_text = some ntt_red256_h := by decide +kernel

/-- src/ntt_red256.c -/
def ntt_red256_c_text : Nat := text! r#"/*
 * NTT for Q=12289, n=256, using the Longa/Naehrig reduction method.
 */

#include "ntt_red256.h"

/*
 * Input: two arrays a and b in standard order
 *
 * Result: 
 * - the product is stored in array c, in standard order.
 * - arrays a and b are modified
 *
 * The input arrays must contain elements in the range [0, Q-1]
 * The result is also in that range.
 */
void ntt_red256_product1(int32_t *c, int32_t *a, int32_t *b) {
  shift_array(a, 256); // convert to [-(Q-1)/2, (Q-1)/2]
  mul_reduce_array16(a, 256, ntt_red256_psi_powers);
  ntt_red256_ct_std2rev(a);
  reduce_array(a, 256);

  shift_array(b, 256);
  mul_reduce_array16(b, 256, ntt_red256_psi_powers);
  ntt_red256_ct_std2rev(b);
  reduce_array(b, 256);
  
  // at this point:
  // a = NTT(a) * 3, -524287 <= a[i] <= 536573
  // b = NTT(b) * 3, -524287 <= b[i] <= 536573
  mul_reduce_array(c, 256, a, b); // c[i] = 3 * a[i] * b[i] 
  reduce_array_twice(c, 256);  // c[i] = 9 * c[i] mod Q

  // we have: -130 <= c[i] <= 12413
  intt_red256_ct_rev2std(c);
  mul_reduce_array16(c, 256, ntt_red256_scaled_inv_psi_powers);
  reduce_array_twice(c, 256); // c[i] = 9 * c[i] mod Q
  correct(c, 256);
}

void ntt_red256_product2(int32_t *c, int32_t *a, int32_t *b) {
  shift_array(a, 256); // convert to [-(Q-1)/2, (Q-1)/2]
  mul_reduce_array16(a, 256, ntt_red256_psi_powers);
  ntt_red256_gs_std2rev(a);
  reduce_array(a, 256);

  shift_array(b, 256);
  mul_reduce_array16(b, 256, ntt_red256_psi_powers);
  ntt_red256_gs_std2rev(b);
  reduce_array(b, 256);
  
  // at this point:
  // a = NTT(a) * 3, -524287 <= a[i] <= 536573
  // b = NTT(b) * 3, -524287 <= b[i] <= 536573
  mul_reduce_array(c, 256, a, b); // c[i] = 3 * a[i] * b[i] 
  reduce_array_twice(c, 256);  // c[i] = 9 * c[i] mod Q

  // we have: -130 <= c[i] <= 12413
  intt_red256_ct_rev2std(c);
  mul_reduce_array16(c, 256, ntt_red256_scaled_inv_psi_powers);
  reduce_array_twice(c, 256); // c[i] = 9 * c[i] mod Q
  correct(c, 256);
}

void ntt_red256_product3(int32_t *c, int32_t *a, int32_t *b) {
  shift_array(a, 256); // convert to [-(Q-1)/2, (Q-1)/2]
  mul_reduce_array16(a, 256, ntt_red256_psi_powers);
  ntt_red256_ct_std2rev(a);
  reduce_array(a, 256);

  shift_array(b, 256);
  mul_reduce_array16(b, 256, ntt_red256_psi_powers);
  ntt_red256_ct_std2rev(b);
  reduce_array(b, 256);
  
  // at this point:
  // a = NTT(a) * 3, -524287 <= a[i] <= 536573
  // b = NTT(b) * 3, -524287 <= b[i] <= 536573
  mul_reduce_array(c, 256, a, b); // c[i] = 3 * a[i] * b[i] 
  reduce_array_twice(c, 256);  // c[i] = 9 * c[i] mod Q

  // we have: -130 <= c[i] <= 12413
  intt_red256_gs_rev2std(c);
  mul_reduce_array16(c, 256, ntt_red256_scaled_inv_psi_powers);
  reduce_array_twice(c, 256); // c[i] = 9 * c[i] mod Q
  correct(c, 256);
}

void ntt_red256_product4(int32_t *c, int32_t *a, int32_t *b) {
  shift_array(a, 256); // convert to [-(Q-1)/2, (Q-1)/2]
  mul_reduce_array16(a, 256, ntt_red256_psi_powers);
  ntt_red256_gs_std2rev(a);
  reduce_array(a, 256);

  shift_array(b, 256);
  mul_reduce_array16(b, 256, ntt_red256_psi_powers);
  ntt_red256_gs_std2rev(b);
  reduce_array(b, 256);
  
  // at this point:
  // a = NTT(a) * 3, -524287 <= a[i] <= 536573
  // b = NTT(b) * 3, -524287 <= b[i] <= 536573
  mul_reduce_array(c, 256, a, b); // c[i] = 3 * a[i] * b[i] 
  reduce_array_twice(c, 256);  // c[i] = 9 * c[i] mod Q

  // we have: -130 <= c[i] <= 12413
  intt_red256_gs_rev2std(c);
  mul_reduce_array16(c, 256, ntt_red256_scaled_inv_psi_powers);
  reduce_array_twice(c, 256); // c[i] = 9 * c[i] mod Q
  correct(c, 256);
}

void ntt_red256_product5(int32_t *c, int32_t *a, int32_t *b) {
  shift_array(a, 256);
  mulntt_red256_ct_std2rev(a);
  reduce_array(a, 256);

  shift_array(b, 256);
  mulntt_red256_ct_std2rev(b);
  reduce_array(b, 256);

  mul_reduce_array(c, 256, a, b); // c[i] = 3 * a[i] * b[i] 
  reduce_array_twice(c, 256);  // c[i] = 9 * c[i] mod Q

  inttmul_red256_gs_rev2std(c);
  scalar_mul_reduce_array(c, 256, ntt_red256_rescale8);
  reduce_array_twice(c, 256);
  correct(c, 256);
}
"#

/-- `ntt_red256_product1` -/
def ntt_red256_c.ntt_red256_product1 : Fun := ⟨none, [(n!"c", (.ptr 1)), (n!"a", (.ptr 1)), (n!"b", (.ptr 1))],
  (.seq (.expr (.call n!"shift_array" (.cons (.var n!"a") (.cons (.num 256) .nil))))
  (.seq (.expr (.call n!"mul_reduce_array16" (.cons (.var n!"a") (.cons (.num 256) (.cons (.var n!"ntt_red256_psi_powers") .nil)))))
  (.seq (.expr (.call n!"ntt_red256_ct_std2rev" (.cons (.var n!"a") .nil)))
  (.seq (.expr (.call n!"reduce_array" (.cons (.var n!"a") (.cons (.num 256) .nil))))
  (.seq (.expr (.call n!"shift_array" (.cons (.var n!"b") (.cons (.num 256) .nil))))
  (.seq (.expr (.call n!"mul_reduce_array16" (.cons (.var n!"b") (.cons (.num 256) (.cons (.var n!"ntt_red256_psi_powers") .nil)))))
  (.seq (.expr (.call n!"ntt_red256_ct_std2rev" (.cons (.var n!"b") .nil)))
  (.seq (.expr (.call n!"reduce_array" (.cons (.var n!"b") (.cons (.num 256) .nil))))
  (.seq (.expr (.call n!"mul_reduce_array" (.cons (.var n!"c") (.cons (.num 256) (.cons (.var n!"a") (.cons (.var n!"b") .nil))))))
  (.seq (.expr (.call n!"reduce_array_twice" (.cons (.var n!"c") (.cons (.num 256) .nil))))
  (.seq (.expr (.call n!"intt_red256_ct_rev2std" (.cons (.var n!"c") .nil)))
  (.seq (.expr (.call n!"mul_reduce_array16" (.cons (.var n!"c") (.cons (.num 256) (.cons (.var n!"ntt_red256_scaled_inv_psi_powers") .nil)))))
  (.seq (.expr (.call n!"reduce_array_twice" (.cons (.var n!"c") (.cons (.num 256) .nil))))
  (.seq (.expr (.call n!"correct" (.cons (.var n!"c") (.cons (.num 256) .nil))))
  .skip))))))))))))))⟩

/-- `ntt_red256_product2` -/
def ntt_red256_c.ntt_red256_product2 : Fun := ⟨none, [(n!"c", (.ptr 1)), (n!"a", (.ptr 1)), (n!"b", (.ptr 1))],
  (.seq (.expr (.call n!"shift_array" (.cons (.var n!"a") (.cons (.num 256) .nil))))
  (.seq (.expr (.call n!"mul_reduce_array16" (.cons (.var n!"a") (.cons (.num 256) (.cons (.var n!"ntt_red256_psi_powers") .nil)))))
  (.seq (.expr (.call n!"ntt_red256_gs_std2rev" (.cons (.var n!"a") .nil)))
  (.seq (.expr (.call n!"reduce_array" (.cons (.var n!"a") (.cons (.num 256) .nil))))
  (.seq (.expr (.call n!"shift_array" (.cons (.var n!"b") (.cons (.num 256) .nil))))
  (.seq (.expr (.call n!"mul_reduce_array16" (.cons (.var n!"b") (.cons (.num 256) (.cons (.var n!"ntt_red256_psi_powers") .nil)))))
  (.seq (.expr (.call n!"ntt_red256_gs_std2rev" (.cons (.var n!"b") .nil)))
  (.seq (.expr (.call n!"reduce_array" (.cons (.var n!"b") (.cons (.num 256) .nil))))
  (.seq (.expr (.call n!"mul_reduce_array" (.cons (.var n!"c") (.cons (.num 256) (.cons (.var n!"a") (.cons (.var n!"b") .nil))))))
  (.seq (.expr (.call n!"reduce_array_twice" (.cons (.var n!"c") (.cons (.num 256) .nil))))
  (.seq (.expr (.call n!"intt_red256_ct_rev2std" (.cons (.var n!"c") .nil)))
  (.seq (.expr (.call n!"mul_reduce_array16" (.cons (.var n!"c") (.cons (.num 256) (.cons (.var n!"ntt_red256_scaled_inv_psi_powers") .nil)))))
  (.seq (.expr (.call n!"reduce_array_twice" (.cons (.var n!"c") (.cons (.num 256) .nil))))
  (.seq (.expr (.call n!"correct" (.cons (.var n!"c") (.cons (.num 256) .nil))))
  .skip))))))))))))))⟩

/-- `ntt_red256_product3` -/
def ntt_red256_c.ntt_red256_product3 : Fun := ⟨none, [(n!"c", (.ptr 1)), (n!"a", (.ptr 1)), (n!"b", (.ptr 1))],
  (.seq (.expr (.call n!"shift_array" (.cons (.var n!"a") (.cons (.num 256) .nil))))
  (.seq (.expr (.call n!"mul_reduce_array16" (.cons (.var n!"a") (.cons (.num 256) (.cons (.var n!"ntt_red256_psi_powers") .nil)))))
  (.seq (.expr (.call n!"ntt_red256_ct_std2rev" (.cons (.var n!"a") .nil)))
  (.seq (.expr (.call n!"reduce_array" (.cons (.var n!"a") (.cons (.num 256) .nil))))
  (.seq (.expr (.call n!"shift_array" (.cons (.var n!"b") (.cons (.num 256) .nil))))
  (.seq (.expr (.call n!"mul_reduce_array16" (.cons (.var n!"b") (.cons (.num 256) (.cons (.var n!"ntt_red256_psi_powers") .nil)))))
  (.seq (.expr (.call n!"ntt_red256_ct_std2rev" (.cons (.var n!"b") .nil)))
  (.seq (.expr (.call n!"reduce_array" (.cons (.var n!"b") (.cons (.num 256) .nil))))
  (.seq (.expr (.call n!"mul_reduce_array" (.cons (.var n!"c") (.cons (.num 256) (.cons (.var n!"a") (.cons (.var n!"b") .nil))))))
  (.seq (.expr (.call n!"reduce_array_twice" (.cons (.var n!"c") (.cons (.num 256) .nil))))
  (.seq (.expr (.call n!"intt_red256_gs_rev2std" (.cons (.var n!"c") .nil)))
  (.seq (.expr (.call n!"mul_reduce_array16" (.cons (.var n!"c") (.cons (.num 256) (.cons (.var n!"ntt_red256_scaled_inv_psi_powers") .nil)))))
  (.seq (.expr (.call n!"reduce_array_twice" (.cons (.var n!"c") (.cons (.num 256) .nil))))
  (.seq (.expr (.call n!"correct" (.cons (.var n!"c") (.cons (.num 256) .nil))))
  .skip))))))))))))))⟩

/-- `ntt_red256_product4` -/
def ntt_red256_c.ntt_red256_product4 : Fun := ⟨none, [(n!"c", (.ptr 1)), (n!"a", (.ptr 1)), (n!"b", (.ptr 1))],
  (.seq (.expr (.call n!"shift_array" (.cons (.var n!"a") (.cons (.num 256) .nil))))
  (.seq (.expr (.call n!"mul_reduce_array16" (.cons (.var n!"a") (.cons (.num 256) (.cons (.var n!"ntt_red256_psi_powers") .nil)))))
  (.seq (.expr (.call n!"ntt_red256_gs_std2rev" (.cons (.var n!"a") .nil)))
  (.seq (.expr (.call n!"reduce_array" (.cons (.var n!"a") (.cons (.num 256) .nil))))
  (.seq (.expr (.call n!"shift_array" (.cons (.var n!"b") (.cons (.num 256) .nil))))
  (.seq (.expr (.call n!"mul_reduce_array16" (.cons (.var n!"b") (.cons (.num 256) (.cons (.var n!"ntt_red256_psi_powers") .nil)))))
  (.seq (.expr (.call n!"ntt_red256_gs_std2rev" (.cons (.var n!"b") .nil)))
  (.seq (.expr (.call n!"reduce_array" (.cons (.var n!"b") (.cons (.num 256) .nil))))
  (.seq (.expr (.call n!"mul_reduce_array" (.cons (.var n!"c") (.cons (.num 256) (.cons (.var n!"a") (.cons (.var n!"b") .nil))))))
  (.seq (.expr (.call n!"reduce_array_twice" (.cons (.var n!"c") (.cons (.num 256) .nil))))
  (.seq (.expr (.call n!"intt_red256_gs_rev2std" (.cons (.var n!"c") .nil)))
  (.seq (.expr (.call n!"mul_reduce_array16" (.cons (.var n!"c") (.cons (.num 256) (.cons (.var n!"ntt_red256_scaled_inv_psi_powers") .nil)))))
  (.seq (.expr (.call n!"reduce_array_twice" (.cons (.var n!"c") (.cons (.num 256) .nil))))
  (.seq (.expr (.call n!"correct" (.cons (.var n!"c") (.cons (.num 256) .nil))))
  .skip))))))))))))))⟩

/-- `ntt_red256_product5` -/
def ntt_red256_c.ntt_red256_product5 : Fun := ⟨none, [(n!"c", (.ptr 1)), (n!"a", (.ptr 1)), (n!"b", (.ptr 1))],
  (.seq (.expr (.call n!"shift_array" (.cons (.var n!"a") (.cons (.num 256) .nil))))
  (.seq (.expr (.call n!"mulntt_red256_ct_std2rev" (.cons (.var n!"a") .nil)))
  (.seq (.expr (.call n!"reduce_array" (.cons (.var n!"a") (.cons (.num 256) .nil))))
  (.seq (.expr (.call n!"shift_array" (.cons (.var n!"b") (.cons (.num 256) .nil))))
  (.seq (.expr (.call n!"mulntt_red256_ct_std2rev" (.cons (.var n!"b") .nil)))
  (.seq (.expr (.call n!"reduce_array" (.cons (.var n!"b") (.cons (.num 256) .nil))))
  (.seq (.expr (.call n!"mul_reduce_array" (.cons (.var n!"c") (.cons (.num 256) (.cons (.var n!"a") (.cons (.var n!"b") .nil))))))
  (.seq (.expr (.call n!"reduce_array_twice" (.cons (.var n!"c") (.cons (.num 256) .nil))))
  (.seq (.expr (.call n!"inttmul_red256_gs_rev2std" (.cons (.var n!"c") .nil)))
  (.seq (.expr (.call n!"scalar_mul_reduce_array" (.cons (.var n!"c") (.cons (.num 256) (.cons (.var n!"ntt_red256_rescale8") .nil)))))
  (.seq (.expr (.call n!"reduce_array_twice" (.cons (.var n!"c") (.cons (.num 256) .nil))))
  (.seq (.expr (.call n!"correct" (.cons (.var n!"c") (.cons (.num 256) .nil))))
  .skip))))))))))))⟩

/-- The functions of the file. -/
def ntt_red256_c : Prog := [
  (n!"ntt_red256_product1", ntt_red256_c.ntt_red256_product1),
  (n!"ntt_red256_product2", ntt_red256_c.ntt_red256_product2),
  (n!"ntt_red256_product3", ntt_red256_c.ntt_red256_product3),
  (n!"ntt_red256_product4", ntt_red256_c.ntt_red256_product4),
  (n!"ntt_red256_product5", ntt_red256_c.ntt_red256_product5)]

/-- What is read from the text. -/
theorem ntt_red256_c_read : read ntt_red256_c_text = some ntt_red256_c := by decide +kernel

end CLang.Src
