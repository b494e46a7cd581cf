import Verif.Model.CRead

/-
The text of src/ntt_red_asm1024.h and src/ntt_red_asm1024.c, and its functions as read by `CLang.read`.
Written by tools/gensrc.py.
-/

namespace CLang.Src

/-- src/ntt_red_asm1024.h -/
def ntt_red_asm1024_h_text : Nat := text! r#"/*
 * NTT for Q=12289, n=1024, using the Longa/Naehrig reduction method.
 * AVX implementation.
 */

#ifndef __NTT_RED_ASM1024_H
#define __NTT_RED_ASM1024_H

#include "ntt_red1024_tables.h"
#include "ntt_asm.h"

/*
 * NTT Variants: as in ntt_asm.h
 * using tables from ntt1024_red_tables.h
 *
 * Input: a[i] for i=0 .. 15 is expected to satisfy
 *   -21499 <= a[i] <= 21499
 *
 * The result is stored in a, it is not reduced modulo Q.
 */
// forward NTTs
static inline void ntt_red1024_ct_rev2std_asm(int32_t *a) {
  ntt_red_ct_rev2std_asm(a, 1024, ntt_red1024_omega_powers);
}

static inline void ntt_red1024_gs_rev2std_asm(int32_t *a) {
  ntt_red_gs_rev2std_asm(a, 1024, ntt_red1024_omega_powers_rev);
}

static inline void ntt_red1024_ct_std2rev_asm(int32_t *a) {
  ntt_red_ct_std2rev_asm(a, 1024, ntt_red1024_omega_powers_rev);
}

static inline void ntt_red1024_gs_std2rev_asm(int32_t *a) {
  ntt_red_gs_std2rev_asm(a, 1024, ntt_red1024_omega_powers);
}

// inverse
static inline void intt_red1024_ct_rev2std_asm(int32_t *a) {
  ntt_red_ct_rev2std_asm(a, 1024, ntt_red1024_inv_omega_powers);
}

static inline void intt_red1024_gs_rev2std_asm(int32_t *a) {
  ntt_red_gs_rev2std_asm(a, 1024, ntt_red1024_inv_omega_powers_rev);
}

static inline void intt_red1024_ct_std2rev_asm(int32_t *a) {
  ntt_red_ct_std2rev_asm(a, 1024, ntt_red1024_inv_omega_powers_rev);
}

static inline void intt_red1024_gs_std2rev_asm(int32_t *a) {
  ntt_red_gs_std2rev_asm(a, 1024, ntt_red1024_inv_omega_powers);
}

// multiplication by powers of psi then forward ntt
static inline void mulntt_red1024_ct_rev2std_asm(int32_t *a) {
  mulntt_red_ct_rev2std_asm(a, 1024, ntt_red1024_mixed_powers);
}

static inline void mulntt_red1024_ct_std2rev_asm(int32_t *a) {
  mulntt_red_ct_std2rev_asm(a, 1024, ntt_red1024_mixed_powers_rev);
}

// inverse ntt then multiplication by powers of psi^-1
static inline void inttmul_red1024_gs_rev2std_asm(int32_t *a) {
  nttmul_red_gs_rev2std_asm(a, 1024, ntt_red1024_inv_mixed_powers_rev);
}

static inline void inttmul_red1024_gs_std2rev_asm(int32_t *a) {
  nttmul_red_gs_std2rev_asm(a, 1024, ntt_red1024_inv_mixed_powers);
}


/*
 * PRODUCTS
 */

/*
 * Input: two arrays a and b in standard order
 *
 * Result: 
 * - the product is stored in array c, in standard order.
 * - arrays a and b are modified
 *
 * The input arrays must contain elements in the range [0, Q-1]
 * The result is also in that range.
 */
extern void ntt_red1024_product1_asm(int32_t *c, int32_t *a, int32_t *b);
extern void ntt_red1024_product2_asm(int32_t *c, int32_t *a, int32_t *b);
extern void ntt_red1024_product3_asm(int32_t *c, int32_t *a, int32_t *b);
extern void ntt_red1024_product4_asm(int32_t *c, int32_t *a, int32_t *b);
extern void ntt_red1024_product5_asm(int32_t *c, int32_t *a, int32_t *b);

#endif /* __NTT_RED_ASM1024_H */
"#

/-- `ntt_red1024_ct_rev2std_asm` -/
def ntt_red_asm1024_h.ntt_red1024_ct_rev2std_asm : Fun := ⟨none, [(n!"a", (.ptr 1))],
  (.seq (.expr (.call n!"ntt_red_ct_rev2std_asm" (.cons (.var n!"a") (.cons (.num 1024) (.cons (.var n!"ntt_red1024_omega_powers") .nil)))))
  .skip)⟩

/-- `ntt_red1024_gs_rev2std_asm` -/
def ntt_red_asm1024_h.ntt_red1024_gs_rev2std_asm : Fun := ⟨none, [(n!"a", (.ptr 1))],
  (.seq (.expr (.call n!"ntt_red_gs_rev2std_asm" (.cons (.var n!"a") (.cons (.num 1024) (.cons (.var n!"ntt_red1024_omega_powers_rev") .nil)))))
  .skip)⟩

/-- `ntt_red1024_ct_std2rev_asm` -/
def ntt_red_asm1024_h.ntt_red1024_ct_std2rev_asm : Fun := ⟨none, [(n!"a", (.ptr 1))],
  (.seq (.expr (.call n!"ntt_red_ct_std2rev_asm" (.cons (.var n!"a") (.cons (.num 1024) (.cons (.var n!"ntt_red1024_omega_powers_rev") .nil)))))
  .skip)⟩

/-- `ntt_red1024_gs_std2rev_asm` -/
def ntt_red_asm1024_h.ntt_red1024_gs_std2rev_asm : Fun := ⟨none, [(n!"a", (.ptr 1))],
  (.seq (.expr (.call n!"ntt_red_gs_std2rev_asm" (.cons (.var n!"a") (.cons (.num 1024) (.cons (.var n!"ntt_red1024_omega_powers") .nil)))))
  .skip)⟩

/-- `intt_red1024_ct_rev2std_asm` -/
def ntt_red_asm1024_h.intt_red1024_ct_rev2std_asm : Fun := ⟨none, [(n!"a", (.ptr 1))],
  (.seq (.expr (.call n!"ntt_red_ct_rev2std_asm" (.cons (.var n!"a") (.cons (.num 1024) (.cons (.var n!"ntt_red1024_inv_omega_powers") .nil)))))
  .skip)⟩

/-- `intt_red1024_gs_rev2std_asm` -/
def ntt_red_asm1024_h.intt_red1024_gs_rev2std_asm : Fun := ⟨none, [(n!"a", (.ptr 1))],
  (.seq (.expr (.call n!"ntt_red_gs_rev2std_asm" (.cons (.var n!"a") (.cons (.num 1024) (.cons (.var n!"ntt_red1024_inv_omega_powers_rev") .nil)))))
  .skip)⟩

/-- `intt_red1024_ct_std2rev_asm` -/
def ntt_red_asm1024_h.intt_red1024_ct_std2rev_asm : Fun := ⟨none, [(n!"a", (.ptr 1))],
  (.seq (.expr (.call n!"ntt_red_ct_std2rev_asm" (.cons (.var n!"a") (.cons (.num 1024) (.cons (.var n!"ntt_red1024_inv_omega_powers_rev") .nil)))))
  .skip)⟩

/-- `intt_red1024_gs_std2rev_asm` -/
def ntt_red_asm1024_h.intt_red1024_gs_std2rev_asm : Fun := ⟨none, [(n!"a", (.ptr 1))],
  (.seq (.expr (.call n!"ntt_red_gs_std2rev_asm" (.cons (.var n!"a") (.cons (.num 1024) (.cons (.var n!"ntt_red1024_inv_omega_powers") .nil)))))
  .skip)⟩

/-- `mulntt_red1024_ct_rev2std_asm` -/
def ntt_red_asm1024_h.mulntt_red1024_ct_rev2std_asm : Fun := ⟨none, [(n!"a", (.ptr 1))],
  (.seq (.expr (.call n!"mulntt_red_ct_rev2std_asm" (.cons (.var n!"a") (.cons (.num 1024) (.cons (.var n!"ntt_red1024_mixed_powers") .nil)))))
  .skip)⟩

/-- `mulntt_red1024_ct_std2rev_asm` -/
def ntt_red_asm1024_h.mulntt_red1024_ct_std2rev_asm : Fun := ⟨none, [(n!"a", (.ptr 1))],
  (.seq (.expr (.call n!"mulntt_red_ct_std2rev_asm" (.cons (.var n!"a") (.cons (.num 1024) (.cons (.var n!"ntt_red1024_mixed_powers_rev") .nil)))))
  .skip)⟩

/-- `inttmul_red1024_gs_rev2std_asm` -/
def ntt_red_asm1024_h.inttmul_red1024_gs_rev2std_asm : Fun := ⟨none, [(n!"a", (.ptr 1))],
  (.seq (.expr (.call n!"nttmul_red_gs_rev2std_asm" (.cons (.var n!"a") (.cons (.num 1024) (.cons (.var n!"ntt_red1024_inv_mixed_powers_rev") .nil)))))
  .skip)⟩

/-- `inttmul_red1024_gs_std2rev_asm` -/
def ntt_red_asm1024_h.inttmul_red1024_gs_std2rev_asm : Fun := ⟨none, [(n!"a", (.ptr 1))],
  (.seq (.expr (.call n!"nttmul_red_gs_std2rev_asm" (.cons (.var n!"a") (.cons (.num 1024) (.cons (.var n!"ntt_red1024_inv_mixed_powers") .nil)))))
  .skip)⟩

/-- The functions of the file. -/
def ntt_red_asm1024_h : Prog := [
  (n!"ntt_red1024_ct_rev2std_asm", ntt_red_asm1024_h.ntt_red1024_ct_rev2std_asm),
  (n!"ntt_red1024_gs_rev2std_asm", ntt_red_asm1024_h.ntt_red1024_gs_rev2std_asm),
  (n!"ntt_red1024_ct_std2rev_asm", ntt_red_asm1024_h.ntt_red1024_ct_std2rev_asm),
  (n!"ntt_red1024_gs_std2rev_asm", ntt_red_asm1024_h.ntt_red1024_gs_std2rev_asm),
  (n!"intt_red1024_ct_rev2std_asm", ntt_red_asm1024_h.intt_red1024_ct_rev2std_asm),
  (n!"intt_red1024_gs_rev2std_asm", ntt_red_asm1024_h.intt_red1024_gs_rev2std_asm),
  (n!"intt_red1024_ct_std2rev_asm", ntt_red_asm1024_h.intt_red1024_ct_std2rev_asm),
  (n!"intt_red1024_gs_std2rev_asm", ntt_red_asm1024_h.intt_red1024_gs_std2rev_asm),
  (n!"mulntt_red1024_ct_rev2std_asm", ntt_red_asm1024_h.mulntt_red1024_ct_rev2std_asm),
  (n!"mulntt_red1024_ct_std2rev_asm", ntt_red_asm1024_h.mulntt_red1024_ct_std2rev_asm),
  (n!"inttmul_red1024_gs_rev2std_asm", ntt_red_asm1024_h.inttmul_red1024_gs_rev2std_asm),
  (n!"inttmul_red1024_gs_std2rev_asm", ntt_red_asm1024_h.inttmul_red1024_gs_std2rev_asm)]

/-- What is read from the text. -/
theorem ntt_red_asm1024_h_read : read ntt_red_asm1024_h_text = some ntt_red_asm1024_h := by decide +kernel

/-- src/ntt_red_asm1024.c -/
def ntt_red_asm1024_c_text : Nat := text! r#"/*
 * NTT for Q=12289, n=1024, using the Longa/Naehrig reduction method.
 */

#include "ntt_red_asm1024.h"

/*
 * Input: two arrays a and b in standard order
 *
 * Result: 
 * - the product is stored in array c, in standard order.
 * - arrays a and b are modified
 *
 * The input arrays must contain elements in the range [0, Q-1]
 * The result is also in that range.
 */
void ntt_red1024_product1_asm(int32_t *c, int32_t *a, int32_t *b) {
  mul_reduce_array16_asm(a, 1024, ntt_red1024_psi_powers);
  ntt_red1024_ct_std2rev_asm(a);
  reduce_array_asm(a, 1024);

  mul_reduce_array16_asm(b, 1024, ntt_red1024_psi_powers);
  ntt_red1024_ct_std2rev_asm(b);
  reduce_array_asm(b, 1024);
  
  // at this point:
  // a = NTT(a) * 3, -524287 <= a[i] <= 536573
  // b = NTT(b) * 3, -524287 <= b[i] <= 536573
  mul_reduce_array_asm(c, 1024, a, b); // c[i] = 3 * a[i] * b[i] 
  //  reduce_array_twice_asm(c, 1024);  // c[i] = 9 * c[i] mod Q

  // we have: -130 <= c[i] <= 12413
  intt_red1024_ct_rev2std_asm(c);
  mul_reduce_array16_asm(c, 1024, ntt_red1024_scaled_inv_psi_powers_var);
  reduce_array_twice_asm(c, 1024); // c[i] = 9 * c[i] mod Q
  correct_asm(c, 1024);
}

void ntt_red1024_product2_asm(int32_t *c, int32_t *a, int32_t *b) {
  //  shift_array(a, 1024); // convert to [-(Q-1)/2, (Q-1)/2]
  mul_reduce_array16_asm(a, 1024, ntt_red1024_psi_powers);
  ntt_red1024_gs_std2rev_asm(a);
  reduce_array_asm(a, 1024);

  //  shift_array(b, 1024);
  mul_reduce_array16_asm(b, 1024, ntt_red1024_psi_powers);
  ntt_red1024_gs_std2rev_asm(b);
  reduce_array_asm(b, 1024);
  
  // at this point:
  // a = NTT(a) * 3, -524287 <= a[i] <= 536573
  // b = NTT(b) * 3, -524287 <= b[i] <= 536573
  mul_reduce_array_asm(c, 1024, a, b); // c[i] = 3 * a[i] * b[i] 
  reduce_array_twice_asm(c, 1024);  // c[i] = 9 * c[i] mod Q

  // we have: -130 <= c[i] <= 12413
  intt_red1024_ct_rev2std_asm(c);
  mul_reduce_array16_asm(c, 1024, ntt_red1024_scaled_inv_psi_powers);
  reduce_array_twice_asm(c, 1024); // c[i] = 9 * c[i] mod Q
  correct_asm(c, 1024);
}

void ntt_red1024_product3_asm(int32_t *c, int32_t *a, int32_t *b) {
  //  shift_array(a, 1024); // convert to [-(Q-1)/2, (Q-1)/2]
  mul_reduce_array16_asm(a, 1024, ntt_red1024_psi_powers);
  ntt_red1024_ct_std2rev_asm(a);
  reduce_array_asm(a, 1024);

  //  shift_array(b, 1024);
  mul_reduce_array16_asm(b, 1024, ntt_red1024_psi_powers);
  ntt_red1024_ct_std2rev_asm(b);
  reduce_array_asm(b, 1024);
  
  // at this point:
  // a = NTT(a) * 3, -524287 <= a[i] <= 536573
  // b = NTT(b) * 3, -524287 <= b[i] <= 536573
  mul_reduce_array_asm(c, 1024, a, b); // c[i] = 3 * a[i] * b[i] 
  reduce_array_twice_asm(c, 1024);  // c[i] = 9 * c[i] mod Q

  // we have: -130 <= c[i] <= 12413
  intt_red1024_gs_rev2std_asm(c);
  mul_reduce_array16_asm(c, 1024, ntt_red1024_scaled_inv_psi_powers);
  reduce_array_twice_asm(c, 1024); // c[i] = 9 * c[i] mod Q
  correct_asm(c, 1024);
}

void ntt_red1024_product4_asm(int32_t *c, int32_t *a, int32_t *b) {
  //  shift_array(a, 1024); // convert to [-(Q-1)/2, (Q-1)/2]
  mul_reduce_array16_asm(a, 1024, ntt_red1024_psi_powers);
  ntt_red1024_gs_std2rev_asm(a);
  reduce_array_asm(a, 1024);

  //  shift_array(b, 1024);
  mul_reduce_array16_asm(b, 1024, ntt_red1024_psi_powers);
  ntt_red1024_gs_std2rev_asm(b);
  reduce_array_asm(b, 1024);
  
  // at this point:
  // a = NTT(a) * 3, -524287 <= a[i] <= 536573
  // b = NTT(b) * 3, -524287 <= b[i] <= 536573
  mul_reduce_array_asm(c, 1024, a, b); // c[i] = 3 * a[i] * b[i] 
  reduce_array_twice_asm(c, 1024);  // c[i] = 9 * c[i] mod Q

  // we have: -130 <= c[i] <= 12413
  intt_red1024_gs_rev2std_asm(c);
  mul_reduce_array16_asm(c, 1024, ntt_red1024_scaled_inv_psi_powers);
  reduce_array_twice_asm(c, 1024); // c[i] = 9 * c[i] mod Q
  correct_asm(c, 1024);
}

void ntt_red1024_product5_asm(int32_t *c, int32_t *a, int32_t *b) {
  //  shift_array(a, 1024);
  mulntt_red1024_ct_std2rev_asm(a);
  reduce_array_asm(a, 1024);

  //  shift_array(b, 1024);
  mulntt_red1024_ct_std2rev_asm(b);
  reduce_array_asm(b, 1024);

  mul_reduce_array_asm(c, 1024, a, b); // c[i] = 3 * a[i] * b[i] 
  reduce_array_twice_asm(c, 1024);  // c[i] = 9 * c[i] mod Q

  inttmul_red1024_gs_rev2std_asm(c);
  scalar_mul_reduce_array_asm(c, 1024, ntt_red1024_rescale8);
  reduce_array_twice_asm(c, 1024);
  correct_asm(c, 1024);
}
"#

/-- `ntt_red1024_product1_asm` -/
def ntt_red_asm1024_c.ntt_red1024_product1_asm : Fun := ⟨none, [(n!"c", (.ptr 1)), (n!"a", (.ptr 1)), (n!"b", (.ptr 1))],
  (.seq (.expr (.call n!"mul_reduce_array16_asm" (.cons (.var n!"a") (.cons (.num 1024) (.cons (.var n!"ntt_red1024_psi_powers") .nil)))))
  (.seq (.expr (.call n!"ntt_red1024_ct_std2rev_asm" (.cons (.var n!"a") .nil)))
  (.seq (.expr (.call n!"reduce_array_asm" (.cons (.var n!"a") (.cons (.num 1024) .nil))))
  (.seq (.expr (.call n!"mul_reduce_array16_asm" (.cons (.var n!"b") (.cons (.num 1024) (.cons (.var n!"ntt_red1024_psi_powers") .nil)))))
  (.seq (.expr (.call n!"ntt_red1024_ct_std2rev_asm" (.cons (.var n!"b") .nil)))
  (.seq (.expr (.call n!"reduce_array_asm" (.cons (.var n!"b") (.cons (.num 1024) .nil))))
  (.seq (.expr (.call n!"mul_reduce_array_asm" (.cons (.var n!"c") (.cons (.num 1024) (.cons (.var n!"a") (.cons (.var n!"b") .nil))))))
  (.seq (.expr (.call n!"intt_red1024_ct_rev2std_asm" (.cons (.var n!"c") .nil)))
  (.seq (.expr (.call n!"mul_reduce_array16_asm" (.cons (.var n!"c") (.cons (.num 1024) (.cons (.var n!"ntt_red1024_scaled_inv_psi_powers_var") .nil)))))
  (.seq (.expr (.call n!"reduce_array_twice_asm" (.cons (.var n!"c") (.cons (.num 1024) .nil))))
  (.seq (.expr (.call n!"correct_asm" (.cons (.var n!"c") (.cons (.num 1024) .nil))))
  .skip)))))))))))⟩

/-- `ntt_red1024_product2_asm` -/
def ntt_red_asm1024_c.ntt_red1024_product2_asm : Fun := ⟨none, [(n!"c", (.ptr 1)), (n!"a", (.ptr 1)), (n!"b", (.ptr 1))],
  (.seq (.expr (.call n!"mul_reduce_array16_asm" (.cons (.var n!"a") (.cons (.num 1024) (.cons (.var n!"ntt_red1024_psi_powers") .nil)))))
  (.seq (.expr (.call n!"ntt_red1024_gs_std2rev_asm" (.cons (.var n!"a") .nil)))
  (.seq (.expr (.call n!"reduce_array_asm" (.cons (.var n!"a") (.cons (.num 1024) .nil))))
  (.seq (.expr (.call n!"mul_reduce_array16_asm" (.cons (.var n!"b") (.cons (.num 1024) (.cons (.var n!"ntt_red1024_psi_powers") .nil)))))
  (.seq (.expr (.call n!"ntt_red1024_gs_std2rev_asm" (.cons (.var n!"b") .nil)))
  (.seq (.expr (.call n!"reduce_array_asm" (.cons (.var n!"b") (.cons (.num 1024) .nil))))
  (.seq (.expr (.call n!"mul_reduce_array_asm" (.cons (.var n!"c") (.cons (.num 1024) (.cons (.var n!"a") (.cons (.var n!"b") .nil))))))
  (.seq (.expr (.call n!"reduce_array_twice_asm" (.cons (.var n!"c") (.cons (.num 1024) .nil))))
  (.seq (.expr (.call n!"intt_red1024_ct_rev2std_asm" (.cons (.var n!"c") .nil)))
  (.seq (.expr (.call n!"mul_reduce_array16_asm" (.cons (.var n!"c") (.cons (.num 1024) (.cons (.var n!"ntt_red1024_scaled_inv_psi_powers") .nil)))))
  (.seq (.expr (.call n!"reduce_array_twice_asm" (.cons (.var n!"c") (.cons (.num 1024) .nil))))
  (.seq (.expr (.call n!"correct_asm" (.cons (.var n!"c") (.cons (.num 1024) .nil))))
  .skip))))))))))))⟩

/-- `ntt_red1024_product3_asm` -/
def ntt_red_asm1024_c.ntt_red1024_product3_asm : Fun := ⟨none, [(n!"c", (.ptr 1)), (n!"a", (.ptr 1)), (n!"b", (.ptr 1))],
  (.seq (.expr (.call n!"mul_reduce_array16_asm" (.cons (.var n!"a") (.cons (.num 1024) (.cons (.var n!"ntt_red1024_psi_powers") .nil)))))
  (.seq (.expr (.call n!"ntt_red1024_ct_std2rev_asm" (.cons (.var n!"a") .nil)))
  (.seq (.expr (.call n!"reduce_array_asm" (.cons (.var n!"a") (.cons (.num 1024) .nil))))
  (.seq (.expr (.call n!"mul_reduce_array16_asm" (.cons (.var n!"b") (.cons (.num 1024) (.cons (.var n!"ntt_red1024_psi_powers") .nil)))))
  (.seq (.expr (.call n!"ntt_red1024_ct_std2rev_asm" (.cons (.var n!"b") .nil)))
  (.seq (.expr (.call n!"reduce_array_asm" (.cons (.var n!"b") (.cons (.num 1024) .nil))))
  (.seq (.expr (.call n!"mul_reduce_array_asm" (.cons (.var n!"c") (.cons (.num 1024) (.cons (.var n!"a") (.cons (.var n!"b") .nil))))))
  (.seq (.expr (.call n!"reduce_array_twice_asm" (.cons (.var n!"c") (.cons (.num 1024) .nil))))
  (.seq (.expr (.call n!"intt_red1024_gs_rev2std_asm" (.cons (.var n!"c") .nil)))
  (.seq (.expr (.call n!"mul_reduce_array16_asm" (.cons (.var n!"c") (.cons (.num 1024) (.cons (.var n!"ntt_red1024_scaled_inv_psi_powers") .nil)))))
  (.seq (.expr (.call n!"reduce_array_twice_asm" (.cons (.var n!"c") (.cons (.num 1024) .nil))))
  (.seq (.expr (.call n!"correct_asm" (.cons (.var n!"c") (.cons (.num 1024) .nil))))
  .skip))))))))))))⟩

/-- `ntt_red1024_product4_asm` -/
def ntt_red_asm1024_c.ntt_red1024_product4_asm : Fun := ⟨none, [(n!"c", (.ptr 1)), (n!"a", (.ptr 1)), (n!"b", (.ptr 1))],
  (.seq (.expr (.call n!"mul_reduce_array16_asm" (.cons (.var n!"a") (.cons (.num 1024) (.cons (.var n!"ntt_red1024_psi_powers") .nil)))))
  (.seq (.expr (.call n!"ntt_red1024_gs_std2rev_asm" (.cons (.var n!"a") .nil)))
  (.seq (.expr (.call n!"reduce_array_asm" (.cons (.var n!"a") (.cons (.num 1024) .nil))))
  (.seq (.expr (.call n!"mul_reduce_array16_asm" (.cons (.var n!"b") (.cons (.num 1024) (.cons (.var n!"ntt_red1024_psi_powers") .nil)))))
  (.seq (.expr (.call n!"ntt_red1024_gs_std2rev_asm" (.cons (.var n!"b") .nil)))
  (.seq (.expr (.call n!"reduce_array_asm" (.cons (.var n!"b") (.cons (.num 1024) .nil))))
  (.seq (.expr (.call n!"mul_reduce_array_asm" (.cons (.var n!"c") (.cons (.num 1024) (.cons (.var n!"a") (.cons (.var n!"b") .nil))))))
  (.seq (.expr (.call n!"reduce_array_twice_asm" (.cons (.var n!"c") (.cons (.num 1024) .nil))))
  (.seq (.expr (.call n!"intt_red1024_gs_rev2std_asm" (.cons (.var n!"c") .nil)))
  (.seq (.expr (.call n!"mul_reduce_array16_asm" (.cons (.var n!"c") (.cons (.num 1024) (.cons (.var n!"ntt_red1024_scaled_inv_psi_powers") .nil)))))
  (.seq (.expr (.call n!"reduce_array_twice_asm" (.cons (.var n!"c") (.cons (.num 1024) .nil))))
  (.seq (.expr (.call n!"correct_asm" (.cons (.var n!"c") (.cons (.num 1024) .nil))))
  .skip))))))))))))⟩

/-- `ntt_red1024_product5_asm` -/
def ntt_red_asm1024_c.ntt_red1024_product5_asm : Fun := ⟨none, [(n!"c", (.ptr 1)), (n!"a", (.ptr 1)), (n!"b", (.ptr 1))],
  (.seq (.expr (.call n!"mulntt_red1024_ct_std2rev_asm" (.cons (.var n!"a") .nil)))
  (.seq (.expr (.call n!"reduce_array_asm" (.cons (.var n!"a") (.cons (.num 1024) .nil))))
  (.seq (.expr (.call n!"mulntt_red1024_ct_std2rev_asm" (.cons (.var n!"b") .nil)))
  (.seq (.expr (.call n!"reduce_array_asm" (.cons (.var n!"b") (.cons (.num 1024) .nil))))
  (.seq (.expr (.call n!"mul_reduce_array_asm" (.cons (.var n!"c") (.cons (.num 1024) (.cons (.var n!"a") (.cons (.var n!"b") .nil))))))
  (.seq (.expr (.call n!"reduce_array_twice_asm" (.cons (.var n!"c") (.cons (.num 1024) .nil))))
  (.seq (.expr (.call n!"inttmul_red1024_gs_rev2std_asm" (.cons (.var n!"c") .nil)))
  (.seq (.expr (.call n!"scalar_mul_reduce_array_asm" (.cons (.var n!"c") (.cons (.num 1024) (.cons (.var n!"ntt_red1024_rescale8") .nil)))))
  (.seq (.expr (.call n!"reduce_array_twice_asm" (.cons (.var n!"c") (.cons (.num 1024) .nil))))
  (.seq (.expr (.call n!"correct_asm" (.cons (.var n!"c") (.cons (.num 1024) .nil))))
  .skip))))))))))⟩

/-- The functions of the file. -/
def ntt_red_asm1024_c : Prog := [
  (n!"ntt_red1024_product1_asm", ntt_red_asm1024_c.ntt_red1024_product1_asm),
  (n!"ntt_red1024_product2_asm", ntt_red_asm1024_c.ntt_red1024_product2_asm),
  (n!"ntt_red1024_product3_asm", ntt_red_asm1024_c.ntt_red1024_product3_asm),
  (n!"ntt_red1024_product4_asm", ntt_red_asm1024_c.ntt_red1024_product4_asm),
  (n!"ntt_red1024_product5_asm", ntt_red_asm1024_c.ntt_red1024_product5_asm)]

/-- What is read from the text. -/
theorem ntt_red_asm1024_c_read : read ntt_red_asm1024_c_text = some ntt_red_asm1024_c := by decide +kernel

end CLang.Src
