import Verif.Model.Ntt
import Verif.Model.RedProducts

/-
The library as it is built: src/Makefile:9 sets `CPPFLAGS=-DNDEBUG`, and the rule for `%.o` (src/Makefile:97-98) uses it,
so that `assert` expands to nothing in src/ntt.c, src/naive_ntt.c and src/ntt_red.c.

This file has the functions whose model (Model/Ntt.lean, Model/NttRed.lean, Model/RedProducts.lean) contains an assertion, or
calls a function that does, without the assertions.  All other functions of the two models are the same in both builds.
Without its assertion `bitrev_shuffle` can be called with `n = 0`, and then `n - 1` is 2^32 - 1.
-/

namespace Release
open C NTT Tables
open NttRed (red reduce_array reduce_array_twice correct shift_array shiftInput bf0)

/-- `bitrev_shuffle` without the assertion (src/ntt.c:27-44, src/naive_ntt.c:24-41). -/
def bitrev_shuffle {α : Type} (a : Array α) (n : Nat) : M (Array α) := do
  let r ← forUp 1 (u32 (n + 4294967295)) 1 (fun i (st : Nat × Array α) => do
    let a ← (if i < st.1 then Ntt.swap st.2 i st.1 else .ok st.2)
    let j ← Ntt.bitrevNext 33 st.1 n
    pure (j, a)) (n / 2, a)
  pure r.2

/-- `mul_red` without the assertion (src/ntt_red.c:39-46): `(int64_t) x * y` cannot overflow for `int32_t` operands; the
assignments of `z & 4095` and `z >> 12` to `int32_t` variables convert. -/
def mul_red (x y : Int) : M Int := do
  let z ← i64 (x * y)
  let x := toI32 (land64 z 4095)
  let y := toI32 (sar z 12)
  let x ← i32 (3 * x)
  i32 (x - y)

/-- `normalize` without the assertion (src/ntt_red.c:72-82). -/
def normalize (a : Array Int) (n : Nat) : M (Array Int) :=
  forUp 0 n 1 (fun i a => do
    let x ← rd a i
    let x ← crem x 12289
    let x ← (if x < 0 then i32 (x + 12289) else pure x)
    wr a i x) a

/-- `normalize_inv3` without the assertion (src/ntt_red.c:87-97). -/
def normalize_inv3 (a : Array Int) (n : Nat) : M (Array Int) :=
  forUp 0 n 1 (fun i a => do
    let x ← rd a i
    let z ← i64 (x * 8193)
    let z ← crem z 12289
    let x := toI32 z
    let x ← (if x < 0 then i32 (x + 12289) else pure x)
    wr a i x) a

/-- `mul_reduce_array16` (src/ntt_red.c:197-203). -/
def mul_reduce_array16 (a : Array Int) (n : Nat) (p : Array Int) : M (Array Int) :=
  forUp 0 n 1 (fun i a => do
    let x ← rd a i
    let y ← rd p i
    let z ← mul_red x y
    wr a i z) a

/-- `mul_reduce_array` (src/ntt_red.c:205-211), for `c` distinct from `a` and `b`. -/
def mul_reduce_array (c : Array Int) (n : Nat) (a b : Array Int) : M (Array Int) :=
  forUp 0 n 1 (fun i c => do
    let x ← rd a i
    let y ← rd b i
    let z ← mul_red x y
    wr c i z) c

/-- `scalar_mul_reduce_array` (src/ntt_red.c:217-223). -/
def scalar_mul_reduce_array (a : Array Int) (n : Nat) (c : Int) : M (Array Int) :=
  forUp 0 n 1 (fun i a => do
    let x ← rd a i
    let z ← mul_red x c
    wr a i z) a

/-- Cooley-Tukey butterfly (src/ntt_red.c:264-266, 298-300, 349-351, 391-393):
`x = mul_red(a[k], w); a[k] = a[s] - x; a[s] = a[s] + x`. -/
def ctBf (w : Int) (s k : Nat) (a : Array Int) : M (Array Int) := do
  let z ← rd a k
  let x ← mul_red z w
  let y ← rd a s
  let v ← i32 (y - x)
  let a ← wr a k v
  let y ← rd a s
  let u ← i32 (y + x)
  wr a s u

/-- Gentleman-Sande butterfly (src/ntt_red.c:437-439, 473-475, 515-517, 548-550):
`x = a[k]; a[k] = mul_red(a[s] - x, w); a[s] = a[s] + x`. -/
def gsBf (w : Int) (s k : Nat) (a : Array Int) : M (Array Int) := do
  let x ← rd a k
  let y ← rd a s
  let d ← i32 (y - x)
  let v ← mul_red d w
  let a ← wr a k v
  let y ← rd a s
  let u ← i32 (y + x)
  wr a s u

/-- src/ntt_red.c:244-270 -/
def ntt_red_ct_rev2std (a : Array Int) (n : Nat) (p : Array Int) : M (Array Int) :=
  ctRev2std bf0 ctBf a n p

/-- src/ntt_red.c:280-304 -/
def mulntt_red_ct_rev2std (a : Array Int) (n : Nat) (p : Array Int) : M (Array Int) :=
  mulCtRev2std ctBf a n p

/-- src/ntt_red.c:321-355 -/
def ntt_red_ct_std2rev (a : Array Int) (n : Nat) (p : Array Int) : M (Array Int) :=
  ctStd2rev bf0 ctBf a n p

/-- src/ntt_red.c:368-397 -/
def mulntt_red_ct_std2rev (a : Array Int) (n : Nat) (p : Array Int) : M (Array Int) :=
  mulCtStd2rev ctBf a n p

/-- src/ntt_red.c:414-443 -/
def ntt_red_gs_rev2std (a : Array Int) (n : Nat) (p : Array Int) : M (Array Int) :=
  gsRev2std bf0 gsBf a n p

/-- src/ntt_red.c:456-479 -/
def nttmul_red_gs_rev2std (a : Array Int) (n : Nat) (p : Array Int) : M (Array Int) :=
  gsMulRev2std gsBf a n p

/-- src/ntt_red.c:495-521 -/
def ntt_red_gs_std2rev (a : Array Int) (n : Nat) (p : Array Int) : M (Array Int) :=
  gsStd2rev bf0 gsBf a n p

/-- src/ntt_red.c:534-554 -/
def nttmul_red_gs_std2rev (a : Array Int) (n : Nat) (p : Array Int) : M (Array Int) :=
  gsMulStd2rev gsBf a n p

section
variable (t : RedTables) (n : Nat)

/-- src/ntt_red1024.h:21-23 -/
def fwd_ct_rev2std (a : Array Int) : M (Array Int) :=
  ntt_red_ct_rev2std a n t.omega_powers
/-- src/ntt_red1024.h:25-27 -/
def fwd_gs_rev2std (a : Array Int) : M (Array Int) :=
  ntt_red_gs_rev2std a n t.omega_powers_rev
/-- src/ntt_red1024.h:29-31 -/
def fwd_ct_std2rev (a : Array Int) : M (Array Int) :=
  ntt_red_ct_std2rev a n t.omega_powers_rev
/-- src/ntt_red1024.h:33-35 -/
def fwd_gs_std2rev (a : Array Int) : M (Array Int) :=
  ntt_red_gs_std2rev a n t.omega_powers
/-- src/ntt_red1024.h:38-40 -/
def intt_ct_rev2std (a : Array Int) : M (Array Int) :=
  ntt_red_ct_rev2std a n t.inv_omega_powers
/-- src/ntt_red1024.h:42-44 -/
def intt_gs_rev2std (a : Array Int) : M (Array Int) :=
  ntt_red_gs_rev2std a n t.inv_omega_powers_rev
/-- src/ntt_red1024.h:46-48 -/
def intt_ct_std2rev (a : Array Int) : M (Array Int) :=
  ntt_red_ct_std2rev a n t.inv_omega_powers_rev
/-- src/ntt_red1024.h:50-52 -/
def intt_gs_std2rev (a : Array Int) : M (Array Int) :=
  ntt_red_gs_std2rev a n t.inv_omega_powers
/-- src/ntt_red1024.h:55-57 -/
def fwdmul_ct_rev2std (a : Array Int) : M (Array Int) :=
  mulntt_red_ct_rev2std a n t.mixed_powers
/-- src/ntt_red1024.h:59-61 -/
def fwdmul_ct_std2rev (a : Array Int) : M (Array Int) :=
  mulntt_red_ct_std2rev a n t.mixed_powers_rev
/-- src/ntt_red1024.h:64-66 -/
def inttmul_gs_rev2std (a : Array Int) : M (Array Int) :=
  nttmul_red_gs_rev2std a n t.inv_mixed_powers_rev
/-- src/ntt_red1024.h:68-70 -/
def inttmul_gs_std2rev (a : Array Int) : M (Array Int) :=
  nttmul_red_gs_std2rev a n t.inv_mixed_powers

/-- src/ntt_red1024.c:17-37, src/ntt_red16.c:17-39 -/
def product1 (sh : Bool) (c a b : Array Int) : M (Array Int × Array Int × Array Int) := do
  let a ← shiftInput n sh a
  let a ← mul_reduce_array16 a n t.psi_powers
  let a ← fwd_ct_std2rev t n a
  let a ← reduce_array a n
  let b ← shiftInput n sh b
  let b ← mul_reduce_array16 b n t.psi_powers
  let b ← fwd_ct_std2rev t n b
  let b ← reduce_array b n
  let c ← mul_reduce_array c n a b
  let c ← reduce_array_twice c n
  let c ← intt_ct_rev2std t n c
  let c ← mul_reduce_array16 c n t.scaled_inv_psi_powers
  let c ← reduce_array_twice c n
  let c ← correct c n
  pure (c, a, b)

/-- src/ntt_red1024.c:39-61, src/ntt_red16.c:41-63 -/
def product2 (sh : Bool) (c a b : Array Int) : M (Array Int × Array Int × Array Int) := do
  let a ← shiftInput n sh a
  let a ← mul_reduce_array16 a n t.psi_powers
  let a ← fwd_gs_std2rev t n a
  let a ← reduce_array a n
  let b ← shiftInput n sh b
  let b ← mul_reduce_array16 b n t.psi_powers
  let b ← fwd_gs_std2rev t n b
  let b ← reduce_array b n
  let c ← mul_reduce_array c n a b
  let c ← reduce_array_twice c n
  let c ← intt_ct_rev2std t n c
  let c ← mul_reduce_array16 c n t.scaled_inv_psi_powers
  let c ← reduce_array_twice c n
  let c ← correct c n
  pure (c, a, b)

/-- src/ntt_red1024.c:63-85, src/ntt_red16.c:65-87 -/
def product3 (sh : Bool) (c a b : Array Int) : M (Array Int × Array Int × Array Int) := do
  let a ← shiftInput n sh a
  let a ← mul_reduce_array16 a n t.psi_powers
  let a ← fwd_ct_std2rev t n a
  let a ← reduce_array a n
  let b ← shiftInput n sh b
  let b ← mul_reduce_array16 b n t.psi_powers
  let b ← fwd_ct_std2rev t n b
  let b ← reduce_array b n
  let c ← mul_reduce_array c n a b
  let c ← reduce_array_twice c n
  let c ← intt_gs_rev2std t n c
  let c ← mul_reduce_array16 c n t.scaled_inv_psi_powers
  let c ← reduce_array_twice c n
  let c ← correct c n
  pure (c, a, b)

/-- src/ntt_red1024.c:87-109, src/ntt_red16.c:89-111 -/
def product4 (sh : Bool) (c a b : Array Int) : M (Array Int × Array Int × Array Int) := do
  let a ← shiftInput n sh a
  let a ← mul_reduce_array16 a n t.psi_powers
  let a ← fwd_gs_std2rev t n a
  let a ← reduce_array a n
  let b ← shiftInput n sh b
  let b ← mul_reduce_array16 b n t.psi_powers
  let b ← fwd_gs_std2rev t n b
  let b ← reduce_array b n
  let c ← mul_reduce_array c n a b
  let c ← reduce_array_twice c n
  let c ← intt_gs_rev2std t n c
  let c ← mul_reduce_array16 c n t.scaled_inv_psi_powers
  let c ← reduce_array_twice c n
  let c ← correct c n
  pure (c, a, b)

/-- src/ntt_red1024.c:111-127, src/ntt_red16.c:113-129 -/
def product5 (sh : Bool) (c a b : Array Int) : M (Array Int × Array Int × Array Int) := do
  let a ← shiftInput n sh a
  let a ← fwdmul_ct_std2rev t n a
  let a ← reduce_array a n
  let b ← shiftInput n sh b
  let b ← fwdmul_ct_std2rev t n b
  let b ← reduce_array b n
  let c ← mul_reduce_array c n a b
  let c ← reduce_array_twice c n
  let c ← inttmul_gs_rev2std t n c
  let c ← scalar_mul_reduce_array c n t.rescale8
  let c ← reduce_array_twice c n
  let c ← correct c n
  pure (c, a, b)

end
end Release
