import Verif.Model.NttAsm
import Verif.Model.Tables

/-
Model of src/ntt_red_asm16.{h,c}, src/ntt_red_asm256.{h,c}, src/ntt_red_asm512.{h,c},
src/ntt_red_asm1024.{h,c}.

The files for 16, 256 and 512 are identical up to the size; src/ntt_red_asm1024.c does not call
`shift_array_asm` on the inputs, and its first product omits the double reduction of `c` and uses
the table `scaled_inv_psi_powers_var` instead.  As in `Verif/Model/RedProducts.lean`, `sh` is true when
the inputs are shifted, `n` is the size and `t` are the tables.  Line numbers of the products are those
of src/ntt_red_asm1024.c and src/ntt_red_asm16.c.

A product returns the final contents of `(c, a, b)`.  The three arrays do not overlap.
-/

namespace AsmProducts
open C Tables Asm

section
variable (t : RedTables) (n : Nat)

/-- src/ntt_red_asm1024.h:22-24 -/
def fwd_ct_rev2std (a : Array Int) : M (Array Int) :=
  ntt_red_ct_rev2std_asm a n t.omega_powers
/-- src/ntt_red_asm1024.h:26-28 -/
def fwd_gs_rev2std (a : Array Int) : M (Array Int) :=
  ntt_red_gs_rev2std_asm a n t.omega_powers_rev
/-- src/ntt_red_asm1024.h:30-32 -/
def fwd_ct_std2rev (a : Array Int) : M (Array Int) :=
  ntt_red_ct_std2rev_asm a n t.omega_powers_rev
/-- src/ntt_red_asm1024.h:34-36 -/
def fwd_gs_std2rev (a : Array Int) : M (Array Int) :=
  ntt_red_gs_std2rev_asm a n t.omega_powers
/-- src/ntt_red_asm1024.h:39-41 -/
def intt_ct_rev2std (a : Array Int) : M (Array Int) :=
  ntt_red_ct_rev2std_asm a n t.inv_omega_powers
/-- src/ntt_red_asm1024.h:43-45 -/
def intt_gs_rev2std (a : Array Int) : M (Array Int) :=
  ntt_red_gs_rev2std_asm a n t.inv_omega_powers_rev
/-- src/ntt_red_asm1024.h:47-49 -/
def intt_ct_std2rev (a : Array Int) : M (Array Int) :=
  ntt_red_ct_std2rev_asm a n t.inv_omega_powers_rev
/-- src/ntt_red_asm1024.h:51-53 -/
def intt_gs_std2rev (a : Array Int) : M (Array Int) :=
  ntt_red_gs_std2rev_asm a n t.inv_omega_powers
/-- src/ntt_red_asm1024.h:56-58 -/
def fwdmul_ct_rev2std (a : Array Int) : M (Array Int) :=
  mulntt_red_ct_rev2std_asm a n t.mixed_powers
/-- src/ntt_red_asm1024.h:60-62 -/
def fwdmul_ct_std2rev (a : Array Int) : M (Array Int) :=
  mulntt_red_ct_std2rev_asm a n t.mixed_powers_rev
/-- src/ntt_red_asm1024.h:65-67 -/
def inttmul_gs_rev2std (a : Array Int) : M (Array Int) :=
  nttmul_red_gs_rev2std_asm a n t.inv_mixed_powers_rev
/-- src/ntt_red_asm1024.h:69-71 -/
def inttmul_gs_std2rev (a : Array Int) : M (Array Int) :=
  nttmul_red_gs_std2rev_asm a n t.inv_mixed_powers

/-- The calls `shift_array_asm(a, n)` at the beginning of the products for 16, 256 and 512
(src/ntt_red_asm16.c:18, 23, 42, 47, 66, 71, 90, 95, 114, 118); absent in src/ntt_red_asm1024.c. -/
def shiftInput (sh : Bool) (a : Array Int) : M (Array Int) :=
  if sh then shift_array_asm a n else pure a

/-- src/ntt_red_asm16.c:17-39 (also 256, 512; for 1024 see `product1_1024`) -/
def product1 (sh : Bool) (c a b : Array Int) : M (Array Int × Array Int × Array Int) := do
  let a ← shiftInput n sh a
  let a ← mul_reduce_array16_asm a n t.psi_powers
  let a ← fwd_ct_std2rev t n a
  let a ← reduce_array_asm a n
  let b ← shiftInput n sh b
  let b ← mul_reduce_array16_asm b n t.psi_powers
  let b ← fwd_ct_std2rev t n b
  let b ← reduce_array_asm b n
  let c ← mul_reduce_array_asm c n a b
  let c ← reduce_array_twice_asm c n
  let c ← intt_ct_rev2std t n c
  let c ← mul_reduce_array16_asm c n t.scaled_inv_psi_powers
  let c ← reduce_array_twice_asm c n
  let c ← correct_asm c n
  pure (c, a, b)

/-- `ntt_red1024_product1_asm`, src/ntt_red_asm1024.c:17-37: no shift, no double reduction of the
pointwise product, and the table `scaled_inv_psi_powers_var`. -/
def product1_1024 (c a b : Array Int) : M (Array Int × Array Int × Array Int) := do
  let a ← mul_reduce_array16_asm a n t.psi_powers
  let a ← fwd_ct_std2rev t n a
  let a ← reduce_array_asm a n
  let b ← mul_reduce_array16_asm b n t.psi_powers
  let b ← fwd_ct_std2rev t n b
  let b ← reduce_array_asm b n
  let c ← mul_reduce_array_asm c n a b
  let c ← intt_ct_rev2std t n c
  let c ← mul_reduce_array16_asm c n t.scaled_inv_psi_powers_var
  let c ← reduce_array_twice_asm c n
  let c ← correct_asm c n
  pure (c, a, b)

/-- src/ntt_red_asm1024.c:39-61, src/ntt_red_asm16.c:41-63 -/
def product2 (sh : Bool) (c a b : Array Int) : M (Array Int × Array Int × Array Int) := do
  let a ← shiftInput n sh a
  let a ← mul_reduce_array16_asm a n t.psi_powers
  let a ← fwd_gs_std2rev t n a
  let a ← reduce_array_asm a n
  let b ← shiftInput n sh b
  let b ← mul_reduce_array16_asm b n t.psi_powers
  let b ← fwd_gs_std2rev t n b
  let b ← reduce_array_asm b n
  let c ← mul_reduce_array_asm c n a b
  let c ← reduce_array_twice_asm c n
  let c ← intt_ct_rev2std t n c
  let c ← mul_reduce_array16_asm c n t.scaled_inv_psi_powers
  let c ← reduce_array_twice_asm c n
  let c ← correct_asm c n
  pure (c, a, b)

/-- src/ntt_red_asm1024.c:63-85, src/ntt_red_asm16.c:65-87 -/
def product3 (sh : Bool) (c a b : Array Int) : M (Array Int × Array Int × Array Int) := do
  let a ← shiftInput n sh a
  let a ← mul_reduce_array16_asm a n t.psi_powers
  let a ← fwd_ct_std2rev t n a
  let a ← reduce_array_asm a n
  let b ← shiftInput n sh b
  let b ← mul_reduce_array16_asm b n t.psi_powers
  let b ← fwd_ct_std2rev t n b
  let b ← reduce_array_asm b n
  let c ← mul_reduce_array_asm c n a b
  let c ← reduce_array_twice_asm c n
  let c ← intt_gs_rev2std t n c
  let c ← mul_reduce_array16_asm c n t.scaled_inv_psi_powers
  let c ← reduce_array_twice_asm c n
  let c ← correct_asm c n
  pure (c, a, b)

/-- src/ntt_red_asm1024.c:87-109, src/ntt_red_asm16.c:89-111 -/
def product4 (sh : Bool) (c a b : Array Int) : M (Array Int × Array Int × Array Int) := do
  let a ← shiftInput n sh a
  let a ← mul_reduce_array16_asm a n t.psi_powers
  let a ← fwd_gs_std2rev t n a
  let a ← reduce_array_asm a n
  let b ← shiftInput n sh b
  let b ← mul_reduce_array16_asm b n t.psi_powers
  let b ← fwd_gs_std2rev t n b
  let b ← reduce_array_asm b n
  let c ← mul_reduce_array_asm c n a b
  let c ← reduce_array_twice_asm c n
  let c ← intt_gs_rev2std t n c
  let c ← mul_reduce_array16_asm c n t.scaled_inv_psi_powers
  let c ← reduce_array_twice_asm c n
  let c ← correct_asm c n
  pure (c, a, b)

/-- src/ntt_red_asm1024.c:111-127, src/ntt_red_asm16.c:113-129.  The scalar argument is passed in the
lower half of `rdx`; `up` is the content of the upper half. -/
def product5 (up : Int) (sh : Bool) (c a b : Array Int) : M (Array Int × Array Int × Array Int) := do
  let a ← shiftInput n sh a
  let a ← fwdmul_ct_std2rev t n a
  let a ← reduce_array_asm a n
  let b ← shiftInput n sh b
  let b ← fwdmul_ct_std2rev t n b
  let b ← reduce_array_asm b n
  let c ← mul_reduce_array_asm c n a b
  let c ← reduce_array_twice_asm c n
  let c ← inttmul_gs_rev2std t n c
  let c ← scalar_mul_reduce_array_asm c n (t.rescale8 + 4294967296 * up)
  let c ← reduce_array_twice_asm c n
  let c ← correct_asm c n
  pure (c, a, b)

end
end AsmProducts
