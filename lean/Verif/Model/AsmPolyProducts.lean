import Verif.Model.AsmPoly
import Verif.Model.AsmProducts

/-
The products of src/ntt_red_asm16.c, src/ntt_red_asm256.c, src/ntt_red_asm512.c and src/ntt_red_asm1024.c over
the operations of `Verif/TraceAsm.lean`.  `tab` makes an array from the name of a table and its contents.

Generated by tools/genasmtrace.py from `Verif/Model/AsmProducts.lean`.
-/

namespace AsmPoly
open C Tables TraceAsm
open Trace (Named)

/-- A table under its name. -/
def nameTable (name : String) (p : Array Int) : Named Int := ⟨name, p⟩

section
variable {m : Type → Type} [Monad m] {A : Type} (O : Ops m A) (tab : String → Array Int → A) (t : RedTables)
  (n : Nat)

/-- src/ntt_red_asm1024.h:22-24 -/
def fwd_ct_rev2std (a : A) : m A := ntt_red_ct_rev2std_asm O a n (tab "omega_powers" t.omega_powers)

/-- src/ntt_red_asm1024.h:26-28 -/
def fwd_gs_rev2std (a : A) : m A := ntt_red_gs_rev2std_asm O a n (tab "omega_powers_rev" t.omega_powers_rev)

/-- src/ntt_red_asm1024.h:30-32 -/
def fwd_ct_std2rev (a : A) : m A := ntt_red_ct_std2rev_asm O a n (tab "omega_powers_rev" t.omega_powers_rev)

/-- src/ntt_red_asm1024.h:34-36 -/
def fwd_gs_std2rev (a : A) : m A := ntt_red_gs_std2rev_asm O a n (tab "omega_powers" t.omega_powers)

/-- src/ntt_red_asm1024.h:39-41 -/
def intt_ct_rev2std (a : A) : m A := ntt_red_ct_rev2std_asm O a n (tab "inv_omega_powers" t.inv_omega_powers)

/-- src/ntt_red_asm1024.h:43-45 -/
def intt_gs_rev2std (a : A) : m A := ntt_red_gs_rev2std_asm O a n (tab "inv_omega_powers_rev" t.inv_omega_powers_rev)

/-- src/ntt_red_asm1024.h:47-49 -/
def intt_ct_std2rev (a : A) : m A := ntt_red_ct_std2rev_asm O a n (tab "inv_omega_powers_rev" t.inv_omega_powers_rev)

/-- src/ntt_red_asm1024.h:51-53 -/
def intt_gs_std2rev (a : A) : m A := ntt_red_gs_std2rev_asm O a n (tab "inv_omega_powers" t.inv_omega_powers)

/-- src/ntt_red_asm1024.h:56-58 -/
def fwdmul_ct_rev2std (a : A) : m A := mulntt_red_ct_rev2std_asm O a n (tab "mixed_powers" t.mixed_powers)

/-- src/ntt_red_asm1024.h:60-62 -/
def fwdmul_ct_std2rev (a : A) : m A := mulntt_red_ct_std2rev_asm O a n (tab "mixed_powers_rev" t.mixed_powers_rev)

/-- src/ntt_red_asm1024.h:65-67 -/
def inttmul_gs_rev2std (a : A) : m A := nttmul_red_gs_rev2std_asm O a n (tab "inv_mixed_powers_rev" t.inv_mixed_powers_rev)

/-- src/ntt_red_asm1024.h:69-71 -/
def inttmul_gs_std2rev (a : A) : m A := nttmul_red_gs_std2rev_asm O a n (tab "inv_mixed_powers" t.inv_mixed_powers)

/-- The calls `shift_array_asm(a, n)` at the beginning of the products for 16, 256 and 512
(src/ntt_red_asm16.c:18, 23, 42, 47, 66, 71, 90, 95, 114, 118); absent in src/ntt_red_asm1024.c. -/
def shiftInput (sh : Bool) (a : A) : m A := if sh then shift_array_asm O a n else pure a

/-- src/ntt_red_asm16.c:17-39 (also 256, 512; for 1024 see `product1_1024`) -/
def product1 (sh : Bool) (c a b : A) : m (A × A × A) := do
  let a ← shiftInput O n sh a
  let a ← mul_reduce_array16_asm O a n (tab "psi_powers" t.psi_powers)
  let a ← fwd_ct_std2rev O tab t n a
  let a ← reduce_array_asm O a n
  let b ← shiftInput O n sh b
  let b ← mul_reduce_array16_asm O b n (tab "psi_powers" t.psi_powers)
  let b ← fwd_ct_std2rev O tab t n b
  let b ← reduce_array_asm O b n
  let c ← mul_reduce_array_asm O c n a b
  let c ← reduce_array_twice_asm O c n
  let c ← intt_ct_rev2std O tab t n c
  let c ← mul_reduce_array16_asm O c n (tab "scaled_inv_psi_powers" t.scaled_inv_psi_powers)
  let c ← reduce_array_twice_asm O c n
  let c ← correct_asm O c n
  pure (c, a, b)

/-- `ntt_red1024_product1_asm`, src/ntt_red_asm1024.c:17-37: no shift, no double reduction of the
pointwise product, and the table `scaled_inv_psi_powers_var`. -/
def product1_1024 (c a b : A) : m (A × A × A) := do
  let a ← mul_reduce_array16_asm O a n (tab "psi_powers" t.psi_powers)
  let a ← fwd_ct_std2rev O tab t n a
  let a ← reduce_array_asm O a n
  let b ← mul_reduce_array16_asm O b n (tab "psi_powers" t.psi_powers)
  let b ← fwd_ct_std2rev O tab t n b
  let b ← reduce_array_asm O b n
  let c ← mul_reduce_array_asm O c n a b
  let c ← intt_ct_rev2std O tab t n c
  let c ← mul_reduce_array16_asm O c n (tab "scaled_inv_psi_powers_var" t.scaled_inv_psi_powers_var)
  let c ← reduce_array_twice_asm O c n
  let c ← correct_asm O c n
  pure (c, a, b)

/-- src/ntt_red_asm1024.c:39-61, src/ntt_red_asm16.c:41-63 -/
def product2 (sh : Bool) (c a b : A) : m (A × A × A) := do
  let a ← shiftInput O n sh a
  let a ← mul_reduce_array16_asm O a n (tab "psi_powers" t.psi_powers)
  let a ← fwd_gs_std2rev O tab t n a
  let a ← reduce_array_asm O a n
  let b ← shiftInput O n sh b
  let b ← mul_reduce_array16_asm O b n (tab "psi_powers" t.psi_powers)
  let b ← fwd_gs_std2rev O tab t n b
  let b ← reduce_array_asm O b n
  let c ← mul_reduce_array_asm O c n a b
  let c ← reduce_array_twice_asm O c n
  let c ← intt_ct_rev2std O tab t n c
  let c ← mul_reduce_array16_asm O c n (tab "scaled_inv_psi_powers" t.scaled_inv_psi_powers)
  let c ← reduce_array_twice_asm O c n
  let c ← correct_asm O c n
  pure (c, a, b)

/-- src/ntt_red_asm1024.c:63-85, src/ntt_red_asm16.c:65-87 -/
def product3 (sh : Bool) (c a b : A) : m (A × A × A) := do
  let a ← shiftInput O n sh a
  let a ← mul_reduce_array16_asm O a n (tab "psi_powers" t.psi_powers)
  let a ← fwd_ct_std2rev O tab t n a
  let a ← reduce_array_asm O a n
  let b ← shiftInput O n sh b
  let b ← mul_reduce_array16_asm O b n (tab "psi_powers" t.psi_powers)
  let b ← fwd_ct_std2rev O tab t n b
  let b ← reduce_array_asm O b n
  let c ← mul_reduce_array_asm O c n a b
  let c ← reduce_array_twice_asm O c n
  let c ← intt_gs_rev2std O tab t n c
  let c ← mul_reduce_array16_asm O c n (tab "scaled_inv_psi_powers" t.scaled_inv_psi_powers)
  let c ← reduce_array_twice_asm O c n
  let c ← correct_asm O c n
  pure (c, a, b)

/-- src/ntt_red_asm1024.c:87-109, src/ntt_red_asm16.c:89-111 -/
def product4 (sh : Bool) (c a b : A) : m (A × A × A) := do
  let a ← shiftInput O n sh a
  let a ← mul_reduce_array16_asm O a n (tab "psi_powers" t.psi_powers)
  let a ← fwd_gs_std2rev O tab t n a
  let a ← reduce_array_asm O a n
  let b ← shiftInput O n sh b
  let b ← mul_reduce_array16_asm O b n (tab "psi_powers" t.psi_powers)
  let b ← fwd_gs_std2rev O tab t n b
  let b ← reduce_array_asm O b n
  let c ← mul_reduce_array_asm O c n a b
  let c ← reduce_array_twice_asm O c n
  let c ← intt_gs_rev2std O tab t n c
  let c ← mul_reduce_array16_asm O c n (tab "scaled_inv_psi_powers" t.scaled_inv_psi_powers)
  let c ← reduce_array_twice_asm O c n
  let c ← correct_asm O c n
  pure (c, a, b)

/-- src/ntt_red_asm1024.c:111-127, src/ntt_red_asm16.c:113-129.  The scalar argument is passed in the
lower half of `rdx`; `up` is the content of the upper half. -/
def product5 (up : Int) (sh : Bool) (c a b : A) : m (A × A × A) := do
  let a ← shiftInput O n sh a
  let a ← fwdmul_ct_std2rev O tab t n a
  let a ← reduce_array_asm O a n
  let b ← shiftInput O n sh b
  let b ← fwdmul_ct_std2rev O tab t n b
  let b ← reduce_array_asm O b n
  let c ← mul_reduce_array_asm O c n a b
  let c ← reduce_array_twice_asm O c n
  let c ← inttmul_gs_rev2std O tab t n c
  let c ← scalar_mul_reduce_array_asm O c n (t.rescale8 + 4294967296 * up)
  let c ← reduce_array_twice_asm O c n
  let c ← correct_asm O c n
  pure (c, a, b)

end
end AsmPoly
