import Verif.Model.Ntt
import Verif.Model.Tables

/-
Model of src/ntt16.{h,c}, src/ntt256.{h,c}, src/ntt512.{h,c}, src/ntt1024.{h,c}.

The four pairs of files are identical up to the size, so the functions have the size `n` and the
tables `t` as parameters; the instances are at the end of the file.  Line numbers are those of
src/ntt1024.{h,c} (src/ntt16.c has one more empty line before product5).

A product returns the final contents of `(c, a, b)`.  The three arrays do not overlap.
`ntt<n>_product6` is declared in src/ntt256.h, src/ntt512.h and src/ntt1024.h but not defined
anywhere.
-/

namespace Ntt
open C Tables

section
variable (t : Nttables) (n : Nat)

/-- src/ntt1024.h:21-23 -/
def fwd_ct_rev2std (a : Array Int) : M (Array Int) := ntt_ct_rev2std a n t.omega_powers
/-- src/ntt1024.h:25-27 -/
def fwd_gs_rev2std (a : Array Int) : M (Array Int) := ntt_gs_rev2std a n t.omega_powers_rev
/-- src/ntt1024.h:29-31 -/
def fwd_ct_std2rev (a : Array Int) : M (Array Int) := ntt_ct_std2rev a n t.omega_powers_rev
/-- src/ntt1024.h:33-35 -/
def fwd_gs_std2rev (a : Array Int) : M (Array Int) := ntt_gs_std2rev a n t.omega_powers
/-- src/ntt1024.h:38-40 -/
def intt_ct_rev2std (a : Array Int) : M (Array Int) := ntt_ct_rev2std a n t.inv_omega_powers
/-- src/ntt1024.h:42-44 -/
def intt_gs_rev2std (a : Array Int) : M (Array Int) := ntt_gs_rev2std a n t.inv_omega_powers_rev
/-- src/ntt1024.h:46-48 -/
def intt_ct_std2rev (a : Array Int) : M (Array Int) := ntt_ct_std2rev a n t.inv_omega_powers_rev
/-- src/ntt1024.h:50-52 -/
def intt_gs_std2rev (a : Array Int) : M (Array Int) := ntt_gs_std2rev a n t.inv_omega_powers
/-- src/ntt1024.h:55-57 -/
def fwdmul_ct_rev2std (a : Array Int) : M (Array Int) := mulntt_ct_rev2std a n t.mixed_powers
/-- src/ntt1024.h:59-61 -/
def fwdmul_ct_std2rev (a : Array Int) : M (Array Int) := mulntt_ct_std2rev a n t.mixed_powers_rev
/-- src/ntt1024.h:64-66 -/
def inttmul_gs_rev2std (a : Array Int) : M (Array Int) := nttmul_gs_rev2std a n t.inv_mixed_powers_rev
/-- src/ntt1024.h:68-70 -/
def inttmul_gs_std2rev (a : Array Int) : M (Array Int) := nttmul_gs_std2rev a n t.inv_mixed_powers

/-- src/ntt1024.c:10-18 -/
def product1 (c a b : Array Int) : M (Array Int × Array Int × Array Int) := do
  let a ← mul_array16 a n t.psi_powers
  let a ← fwd_ct_std2rev t n a
  let b ← mul_array16 b n t.psi_powers
  let b ← fwd_ct_std2rev t n b
  let c ← mul_array c n a b
  let c ← intt_ct_rev2std t n c
  let c ← mul_array16 c n t.scaled_inv_psi_powers
  pure (c, a, b)

/-- src/ntt1024.c:20-28 -/
def product2 (c a b : Array Int) : M (Array Int × Array Int × Array Int) := do
  let a ← mul_array16 a n t.psi_powers
  let a ← fwd_gs_std2rev t n a
  let b ← mul_array16 b n t.psi_powers
  let b ← fwd_gs_std2rev t n b
  let c ← mul_array c n a b
  let c ← intt_ct_rev2std t n c
  let c ← mul_array16 c n t.scaled_inv_psi_powers
  pure (c, a, b)

/-- src/ntt1024.c:30-38 -/
def product3 (c a b : Array Int) : M (Array Int × Array Int × Array Int) := do
  let a ← mul_array16 a n t.psi_powers
  let a ← fwd_ct_std2rev t n a
  let b ← mul_array16 b n t.psi_powers
  let b ← fwd_ct_std2rev t n b
  let c ← mul_array c n a b
  let c ← intt_gs_rev2std t n c
  let c ← mul_array16 c n t.scaled_inv_psi_powers
  pure (c, a, b)

/-- src/ntt1024.c:40-48 -/
def product4 (c a b : Array Int) : M (Array Int × Array Int × Array Int) := do
  let a ← mul_array16 a n t.psi_powers
  let a ← fwd_gs_std2rev t n a
  let b ← mul_array16 b n t.psi_powers
  let b ← fwd_gs_std2rev t n b
  let c ← mul_array c n a b
  let c ← intt_gs_rev2std t n c
  let c ← mul_array16 c n t.scaled_inv_psi_powers
  pure (c, a, b)

/-- src/ntt1024.c:53-59 -/
def product5 (c a b : Array Int) : M (Array Int × Array Int × Array Int) := do
  let a ← fwdmul_ct_std2rev t n a
  let b ← fwdmul_ct_std2rev t n b
  let c ← mul_array c n a b
  let c ← inttmul_gs_rev2std t n c
  let c ← scalar_mul_array c n t.inv_n
  pure (c, a, b)

end
end Ntt
