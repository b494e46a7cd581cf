import Verif.Model.Skeleton
import Verif.Model.Tables

/-
Model of src/naive_ntt.c and of src/naive_ntt16.{h,c}, src/naive_ntt256.{h,c},
src/naive_ntt512.{h,c}, src/naive_ntt1024.{h,c}.

`bitrev_shuffle` and `shuffle_with_table` (src/naive_ntt.c:24-56) are copies of the functions of
src/ntt.c, see `Verif/Model/Ntt.lean`.  The modulus is an argument.  Remainders by `q = -1` are not
distinguished (the code is only called with `q = 12289`).
-/

namespace Naive
open C NTT Tables

/-- `mul_array16_naive` (src/naive_ntt.c:68-74). -/
def mul_array16 (a : Array Int) (n : Nat) (p : Array Int) (q : Int) : M (Array Int) :=
  forUp 0 n 1 (fun i a => do
    let x ← rd a i
    let y ← rd p i
    let z ← i32 (x * y)
    let z ← crem z q
    wr a i z) a

/-- `mul_array_naive` (src/naive_ntt.c:80-86), for `c` distinct from `a` and `b`. -/
def mul_array (c : Array Int) (n : Nat) (a b : Array Int) (q : Int) : M (Array Int) :=
  forUp 0 n 1 (fun i c => do
    let x ← rd a i
    let y ← rd b i
    let z ← i32 (x * y)
    let z ← crem z q
    wr c i z) c

/-- `scalar_mul_array_naive` (src/naive_ntt.c:96-102). -/
def scalar_mul_array (a : Array Int) (n : Nat) (c q : Int) : M (Array Int) :=
  forUp 0 n 1 (fun i a => do
    let x ← rd a i
    let z ← i32 (x * c)
    let z ← crem z q
    wr a i z) a

/-- Butterfly without multiplication (src/naive_ntt.c:137-139, 223-225, 311-313, 390-392):
`x = a[k]; a[k] = (a[s] - x) % q; a[s] = (a[s] + x) % q`. -/
def bf0 (q : Int) (s k : Nat) (a : Array Int) : M (Array Int) := do
  let x ← rd a k
  let y ← rd a s
  let v ← i32 (y - x)
  let v ← crem v q
  let a ← wr a k v
  let y ← rd a s
  let u ← i32 (y + x)
  let u ← crem u q
  wr a s u

/-- Cooley-Tukey butterfly (src/naive_ntt.c:146-148, 181-183, 232-234, 274-276):
`x = a[k] * w; a[k] = (a[s] - x) % q; a[s] = (a[s] + x) % q`. -/
def ctBf (q w : Int) (s k : Nat) (a : Array Int) : M (Array Int) := do
  let z ← rd a k
  let x ← i32 (z * w)
  let y ← rd a s
  let v ← i32 (y - x)
  let v ← crem v q
  let a ← wr a k v
  let y ← rd a s
  let u ← i32 (y + x)
  let u ← crem u q
  wr a s u

/-- Gentleman-Sande butterfly (src/naive_ntt.c:319-322, 355-358, 398-401, 431-434):
`x = a[k]; a[k] = ((a[s] - x) * w) % q; a[s] = (a[s] + x) % q`. -/
def gsBf (q w : Int) (s k : Nat) (a : Array Int) : M (Array Int) := do
  let x ← rd a k
  let y ← rd a s
  let v ← i32 (y - x)
  let v ← i32 (v * w)
  let v ← crem v q
  let a ← wr a k v
  let y ← rd a s
  let u ← i32 (y + x)
  let u ← crem u q
  wr a s u

/-- src/naive_ntt.c:125-152 -/
def ntt_ct_rev2std (a : Array Int) (n : Nat) (p : Array Int) (q : Int) : M (Array Int) :=
  ctRev2std (bf0 q) (ctBf q) a n p

/-- src/naive_ntt.c:162-187 -/
def mulntt_ct_rev2std (a : Array Int) (n : Nat) (p : Array Int) (q : Int) : M (Array Int) :=
  mulCtRev2std (ctBf q) a n p

/-- src/naive_ntt.c:204-238 -/
def ntt_ct_std2rev (a : Array Int) (n : Nat) (p : Array Int) (q : Int) : M (Array Int) :=
  ctStd2rev (bf0 q) (ctBf q) a n p

/-- src/naive_ntt.c:251-280 -/
def mulntt_ct_std2rev (a : Array Int) (n : Nat) (p : Array Int) (q : Int) : M (Array Int) :=
  mulCtStd2rev (ctBf q) a n p

/-- src/naive_ntt.c:296-326 -/
def ntt_gs_rev2std (a : Array Int) (n : Nat) (p : Array Int) (q : Int) : M (Array Int) :=
  gsRev2std (bf0 q) (gsBf q) a n p

/-- src/naive_ntt.c:338-362 -/
def nttmul_gs_rev2std (a : Array Int) (n : Nat) (p : Array Int) (q : Int) : M (Array Int) :=
  gsMulRev2std (gsBf q) a n p

/-- src/naive_ntt.c:378-405 -/
def ntt_gs_std2rev (a : Array Int) (n : Nat) (p : Array Int) (q : Int) : M (Array Int) :=
  gsStd2rev (bf0 q) (gsBf q) a n p

/-- src/naive_ntt.c:417-438 -/
def nttmul_gs_std2rev (a : Array Int) (n : Nat) (p : Array Int) (q : Int) : M (Array Int) :=
  gsMulStd2rev (gsBf q) a n p

/-! The four size-specific pairs of files are identical up to the size; line numbers are those of
src/naive_ntt1024.{h,c}. -/

section
variable (t : Nttables) (n : Nat)

/-- src/naive_ntt1024.h:21-23 -/
def fwd_ct_rev2std (a : Array Int) : M (Array Int) := ntt_ct_rev2std a n t.omega_powers 12289
/-- src/naive_ntt1024.h:25-27 -/
def fwd_gs_rev2std (a : Array Int) : M (Array Int) := ntt_gs_rev2std a n t.omega_powers_rev 12289
/-- src/naive_ntt1024.h:29-31 -/
def fwd_ct_std2rev (a : Array Int) : M (Array Int) := ntt_ct_std2rev a n t.omega_powers_rev 12289
/-- src/naive_ntt1024.h:33-35 -/
def fwd_gs_std2rev (a : Array Int) : M (Array Int) := ntt_gs_std2rev a n t.omega_powers 12289
/-- src/naive_ntt1024.h:38-40 -/
def intt_ct_rev2std (a : Array Int) : M (Array Int) := ntt_ct_rev2std a n t.inv_omega_powers 12289
/-- src/naive_ntt1024.h:42-44 -/
def intt_gs_rev2std (a : Array Int) : M (Array Int) := ntt_gs_rev2std a n t.inv_omega_powers_rev 12289
/-- src/naive_ntt1024.h:46-48 -/
def intt_ct_std2rev (a : Array Int) : M (Array Int) := ntt_ct_std2rev a n t.inv_omega_powers_rev 12289
/-- src/naive_ntt1024.h:50-52 -/
def intt_gs_std2rev (a : Array Int) : M (Array Int) := ntt_gs_std2rev a n t.inv_omega_powers 12289
/-- src/naive_ntt1024.h:55-57 -/
def fwdmul_ct_rev2std (a : Array Int) : M (Array Int) := mulntt_ct_rev2std a n t.mixed_powers 12289
/-- src/naive_ntt1024.h:59-61 -/
def fwdmul_ct_std2rev (a : Array Int) : M (Array Int) := mulntt_ct_std2rev a n t.mixed_powers_rev 12289
/-- src/naive_ntt1024.h:64-66 -/
def inttmul_gs_rev2std (a : Array Int) : M (Array Int) := nttmul_gs_rev2std a n t.inv_mixed_powers_rev 12289
/-- src/naive_ntt1024.h:68-70 -/
def inttmul_gs_std2rev (a : Array Int) : M (Array Int) := nttmul_gs_std2rev a n t.inv_mixed_powers 12289

/-- src/naive_ntt1024.c:10-18 -/
def product1 (c a b : Array Int) : M (Array Int × Array Int × Array Int) := do
  let a ← mul_array16 a n t.psi_powers 12289
  let a ← fwd_ct_std2rev t n a
  let b ← mul_array16 b n t.psi_powers 12289
  let b ← fwd_ct_std2rev t n b
  let c ← mul_array c n a b 12289
  let c ← intt_ct_rev2std t n c
  let c ← mul_array16 c n t.scaled_inv_psi_powers 12289
  pure (c, a, b)

/-- src/naive_ntt1024.c:20-28 -/
def product2 (c a b : Array Int) : M (Array Int × Array Int × Array Int) := do
  let a ← mul_array16 a n t.psi_powers 12289
  let a ← fwd_gs_std2rev t n a
  let b ← mul_array16 b n t.psi_powers 12289
  let b ← fwd_gs_std2rev t n b
  let c ← mul_array c n a b 12289
  let c ← intt_ct_rev2std t n c
  let c ← mul_array16 c n t.scaled_inv_psi_powers 12289
  pure (c, a, b)

/-- src/naive_ntt1024.c:30-38 -/
def product3 (c a b : Array Int) : M (Array Int × Array Int × Array Int) := do
  let a ← mul_array16 a n t.psi_powers 12289
  let a ← fwd_ct_std2rev t n a
  let b ← mul_array16 b n t.psi_powers 12289
  let b ← fwd_ct_std2rev t n b
  let c ← mul_array c n a b 12289
  let c ← intt_gs_rev2std t n c
  let c ← mul_array16 c n t.scaled_inv_psi_powers 12289
  pure (c, a, b)

/-- src/naive_ntt1024.c:40-48 -/
def product4 (c a b : Array Int) : M (Array Int × Array Int × Array Int) := do
  let a ← mul_array16 a n t.psi_powers 12289
  let a ← fwd_gs_std2rev t n a
  let b ← mul_array16 b n t.psi_powers 12289
  let b ← fwd_gs_std2rev t n b
  let c ← mul_array c n a b 12289
  let c ← intt_gs_rev2std t n c
  let c ← mul_array16 c n t.scaled_inv_psi_powers 12289
  pure (c, a, b)

/-- src/naive_ntt1024.c:54-60 -/
def product5 (c a b : Array Int) : M (Array Int × Array Int × Array Int) := do
  let a ← fwdmul_ct_std2rev t n a
  let b ← fwdmul_ct_std2rev t n b
  let c ← mul_array c n a b 12289
  let c ← inttmul_gs_rev2std t n c
  let c ← scalar_mul_array c n t.inv_n 12289
  pure (c, a, b)

end
end Naive
