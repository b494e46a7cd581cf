import Verif.Model.NttRed
import Verif.Model.Tables

/-
Model of src/ntt_red16.{h,c}, src/ntt_red256.{h,c}, src/ntt_red512.{h,c}, src/ntt_red1024.{h,c}.

The four pairs of files are identical up to the size, except that src/ntt_red1024.c does not call
`shift_array` on the inputs (the calls are commented out).  The functions have as parameters the
flag `sh` (true when the inputs are shifted: sizes 16, 256, 512), the size `n` and the tables `t`.
Line numbers of the products are those of src/ntt_red1024.c and src/ntt_red16.c.

A product returns the final contents of `(c, a, b)`.  The three arrays do not overlap.
-/

namespace NttRed
open C Tables

section
variable (t : RedTables) (n : Nat)

/-- src/ntt_red1024.h:21-23 -/
def fwd_ct_rev2std (a : Array Int) : M (Array Int) :=
  ntt_red_ct_rev2std a n t.omega_powers
/-- src/ntt_red1024.h:25-27 -/
def fwd_gs_rev2std (a : Array Int) : M (Array Int) :=
  ntt_red_gs_rev2std a n t.omega_powers_rev
/-- src/ntt_red1024.h:29-31 -/
def fwd_ct_std2rev (a : Array Int) : M (Array Int) :=
  ntt_red_ct_std2rev a n t.omega_powers_rev
/-- src/ntt_red1024.h:33-35 -/
def fwd_gs_std2rev (a : Array Int) : M (Array Int) :=
  ntt_red_gs_std2rev a n t.omega_powers
/-- src/ntt_red1024.h:38-40 -/
def intt_ct_rev2std (a : Array Int) : M (Array Int) :=
  ntt_red_ct_rev2std a n t.inv_omega_powers
/-- src/ntt_red1024.h:42-44 -/
def intt_gs_rev2std (a : Array Int) : M (Array Int) :=
  ntt_red_gs_rev2std a n t.inv_omega_powers_rev
/-- src/ntt_red1024.h:46-48 -/
def intt_ct_std2rev (a : Array Int) : M (Array Int) :=
  ntt_red_ct_std2rev a n t.inv_omega_powers_rev
/-- src/ntt_red1024.h:50-52 -/
def intt_gs_std2rev (a : Array Int) : M (Array Int) :=
  ntt_red_gs_std2rev a n t.inv_omega_powers
/-- src/ntt_red1024.h:55-57 -/
def fwdmul_ct_rev2std (a : Array Int) : M (Array Int) :=
  mulntt_red_ct_rev2std a n t.mixed_powers
/-- src/ntt_red1024.h:59-61 -/
def fwdmul_ct_std2rev (a : Array Int) : M (Array Int) :=
  mulntt_red_ct_std2rev a n t.mixed_powers_rev
/-- src/ntt_red1024.h:64-66 -/
def inttmul_gs_rev2std (a : Array Int) : M (Array Int) :=
  nttmul_red_gs_rev2std a n t.inv_mixed_powers_rev
/-- src/ntt_red1024.h:68-70 -/
def inttmul_gs_std2rev (a : Array Int) : M (Array Int) :=
  nttmul_red_gs_std2rev a n t.inv_mixed_powers

/-- The calls `shift_array(a, n)` at the beginning of the products for 16, 256 and 512
(src/ntt_red16.c:18, 23, 42, 47, 66, 71, 90, 95, 114, 118); absent in src/ntt_red1024.c. -/
def shiftInput (sh : Bool) (a : Array Int) : M (Array Int) :=
  if sh then shift_array a n else pure a

/-- src/ntt_red1024.c:17-37, src/ntt_red16.c:17-39 -/
def product1 (sh : Bool) (c a b : Array Int) : M (Array Int × Array Int × Array Int) := do
  let a ← shiftInput n sh a
  let a ← mul_reduce_array16 a n t.psi_powers
  let a ← fwd_ct_std2rev t n a
  let a ← reduce_array a n
  let b ← shiftInput n sh b
  let b ← mul_reduce_array16 b n t.psi_powers
  let b ← fwd_ct_std2rev t n b
  let b ← reduce_array b n
  let c ← mul_reduce_array c n a b
  let c ← reduce_array_twice c n
  let c ← intt_ct_rev2std t n c
  let c ← mul_reduce_array16 c n t.scaled_inv_psi_powers
  let c ← reduce_array_twice c n
  let c ← correct c n
  pure (c, a, b)

/-- src/ntt_red1024.c:39-61, src/ntt_red16.c:41-63 -/
def product2 (sh : Bool) (c a b : Array Int) : M (Array Int × Array Int × Array Int) := do
  let a ← shiftInput n sh a
  let a ← mul_reduce_array16 a n t.psi_powers
  let a ← fwd_gs_std2rev t n a
  let a ← reduce_array a n
  let b ← shiftInput n sh b
  let b ← mul_reduce_array16 b n t.psi_powers
  let b ← fwd_gs_std2rev t n b
  let b ← reduce_array b n
  let c ← mul_reduce_array c n a b
  let c ← reduce_array_twice c n
  let c ← intt_ct_rev2std t n c
  let c ← mul_reduce_array16 c n t.scaled_inv_psi_powers
  let c ← reduce_array_twice c n
  let c ← correct c n
  pure (c, a, b)

/-- src/ntt_red1024.c:63-85, src/ntt_red16.c:65-87 -/
def product3 (sh : Bool) (c a b : Array Int) : M (Array Int × Array Int × Array Int) := do
  let a ← shiftInput n sh a
  let a ← mul_reduce_array16 a n t.psi_powers
  let a ← fwd_ct_std2rev t n a
  let a ← reduce_array a n
  let b ← shiftInput n sh b
  let b ← mul_reduce_array16 b n t.psi_powers
  let b ← fwd_ct_std2rev t n b
  let b ← reduce_array b n
  let c ← mul_reduce_array c n a b
  let c ← reduce_array_twice c n
  let c ← intt_gs_rev2std t n c
  let c ← mul_reduce_array16 c n t.scaled_inv_psi_powers
  let c ← reduce_array_twice c n
  let c ← correct c n
  pure (c, a, b)

/-- src/ntt_red1024.c:87-109, src/ntt_red16.c:89-111 -/
def product4 (sh : Bool) (c a b : Array Int) : M (Array Int × Array Int × Array Int) := do
  let a ← shiftInput n sh a
  let a ← mul_reduce_array16 a n t.psi_powers
  let a ← fwd_gs_std2rev t n a
  let a ← reduce_array a n
  let b ← shiftInput n sh b
  let b ← mul_reduce_array16 b n t.psi_powers
  let b ← fwd_gs_std2rev t n b
  let b ← reduce_array b n
  let c ← mul_reduce_array c n a b
  let c ← reduce_array_twice c n
  let c ← intt_gs_rev2std t n c
  let c ← mul_reduce_array16 c n t.scaled_inv_psi_powers
  let c ← reduce_array_twice c n
  let c ← correct c n
  pure (c, a, b)

/-- src/ntt_red1024.c:111-127, src/ntt_red16.c:113-129 -/
def product5 (sh : Bool) (c a b : Array Int) : M (Array Int × Array Int × Array Int) := do
  let a ← shiftInput n sh a
  let a ← fwdmul_ct_std2rev t n a
  let a ← reduce_array a n
  let b ← shiftInput n sh b
  let b ← fwdmul_ct_std2rev t n b
  let b ← reduce_array b n
  let c ← mul_reduce_array c n a b
  let c ← reduce_array_twice c n
  let c ← inttmul_gs_rev2std t n c
  let c ← scalar_mul_reduce_array c n t.rescale8
  let c ← reduce_array_twice c n
  let c ← correct c n
  pure (c, a, b)

end
end NttRed
