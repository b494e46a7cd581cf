import Verif.Shared
import Verif.Model.Products
import Verif.Model.RedProducts
import Verif.Model.Naive

/-
The functions of src/ntt.c, src/ntt_red.c, src/naive_ntt.c and the products, on references to arrays in a shared
memory.

Every definition is the definition of the same name in `Verif/Model/{Skeleton,Ntt,NttRed,Naive,
Products,RedProducts}.lean`, written with the accesses of `Verif/Shared.lean`; the comments cite the lines of
the C code.  `tb` gives the reference to each table.  Generated by tools/genshared.py.
-/

namespace Shared
open C Tables

/-! ### loop nests -/

section

/-- Body of one iteration of the outer loop of `ntt_ct_rev2std` and `ntt_gs_std2rev`
(variants without psi), for a given `t`:
src/ntt.c:226-241 and 477-491 (`ntt_ct_rev2std`, `ntt_gs_std2rev`), src/ntt_red.c:254-268 and
505-519, src/naive_ntt.c:135-150 and 388-403. -/
def roundA (bf0 : Nat → Nat → Ref → Prog Ref)
    (bf : Int → Nat → Nat → Ref → Prog Ref)
    (n : Nat) (p : Ref) (t : Nat) (a : Ref) : Prog Ref := do
  -- first loop: for (s=0; s<n; s += t + t)
  let a ← pforUp 0 n (u32 (t + t)) (fun s a => bf0 s (u32 (s + t)) a) a
  -- general case: for (j=1; j<t; j++)
  pforUp 1 t 1 (fun j a => do
    let w ← prd p (u32 (t + j))
    -- for (s=j; s<n; s += t + t)
    pforUp j n (u32 (t + t)) (fun s a => bf w s (u32 (s + t)) a) a) a

/-- Body of one iteration of the outer loop of `mulntt_ct_rev2std` and `nttmul_gs_std2rev`
(variants with psi: `j` starts at 0):
src/ntt.c:268-276 and 516-523, src/ntt_red.c:295-302 and 545-552,
src/naive_ntt.c:177-185 and 428-436. -/
def roundAMul (bf : Int → Nat → Nat → Ref → Prog Ref)
    (n : Nat) (p : Ref) (t : Nat) (a : Ref) : Prog Ref :=
  pforUp 0 t 1 (fun j a => do
    let w ← prd p (u32 (t + j))
    pforUp j n (u32 (t + t)) (fun s a => bf w s (u32 (s + t)) a) a) a

/-- Body of one iteration of the outer loop of `ntt_ct_std2rev`, after `d >>= 1`; `u` is
incremented before the inner loop: src/ntt.c:312-327, src/ntt_red.c:338-353,
src/naive_ntt.c:221-236. -/
def roundBCt (bf0 : Nat → Nat → Ref → Prog Ref)
    (bf : Int → Nat → Nat → Ref → Prog Ref)
    (p : Ref) (t d : Nat) (a : Ref) : Prog Ref := do
  -- for (s=0; s<d; s ++)
  let a ← pforUp 0 d 1 (fun s a => bf0 s (u32 (s + d)) a) a
  -- u = 0; for (j=1; j<t; j++)
  let r ← pforUp 1 t 1 (fun j (st : Nat × Ref) => do
    let w ← prd p (u32 (t + j))
    let u := u32 (st.1 + u32 (2 * d))
    let a ← pforUp u (u32 (u + d)) 1 (fun s a => bf w s (u32 (s + d)) a) st.2
    pure (u, a)) (0, a)
  pure r.2

/-- Body of one iteration of the outer loop of `ntt_gs_rev2std`, after `t >>= 1`; `u` starts at
`2*d` and is incremented after the inner loop: src/ntt.c:400-414, src/ntt_red.c:427-441,
src/naive_ntt.c:309-324. -/
def roundBGs (bf0 : Nat → Nat → Ref → Prog Ref)
    (bf : Int → Nat → Nat → Ref → Prog Ref)
    (p : Ref) (t d : Nat) (a : Ref) : Prog Ref := do
  let a ← pforUp 0 d 1 (fun s a => bf0 s (u32 (s + d)) a) a
  -- for (j=1, u=2*d; j<t; j++, u += 2*d)
  let r ← pforUp 1 t 1 (fun j (st : Nat × Ref) => do
    let w ← prd p (u32 (t + j))
    let a ← pforUp st.1 (u32 (st.1 + d)) 1 (fun s a => bf w s (u32 (s + d)) a) st.2
    pure (u32 (st.1 + u32 (2 * d)), a)) (u32 (2 * d), a)
  pure r.2

/-- Body of one iteration of the outer loop of `mulntt_ct_std2rev` (after `d >>= 1`) and
`nttmul_gs_rev2std` (after `t >>= 1`): src/ntt.c:362-369 and 442-449,
src/ntt_red.c:388-395 and 470-477, src/naive_ntt.c:271-278 and 352-360. -/
def roundBMul (bf : Int → Nat → Nat → Ref → Prog Ref)
    (p : Ref) (t d : Nat) (a : Ref) : Prog Ref := do
  -- for (j=0, u=0; j<t; j++, u += 2*d)
  let r ← pforUp 0 t 1 (fun j (st : Nat × Ref) => do
    let w ← prd p (u32 (t + j))
    let a ← pforUp st.1 (u32 (st.1 + d)) 1 (fun s a => bf w s (u32 (s + d)) a) st.2
    pure (u32 (st.1 + u32 (2 * d)), a)) (0, a)
  pure r.2

/-- `for (t=1; t<n; t <<= 1)` with body `roundA`: `ntt_ct_rev2std` (src/ntt.c:216-243,
src/ntt_red.c:244-270, src/naive_ntt.c:125-152). -/
def ctRev2std (bf0 : Nat → Nat → Ref → Prog Ref)
    (bf : Int → Nat → Nat → Ref → Prog Ref)
    (a : Ref) (n : Nat) (p : Ref) : Prog Ref :=
  pforShl 1 n (fun t a => roundA bf0 bf n p t a) a

/-- `mulntt_ct_rev2std` (src/ntt.c:253-278, src/ntt_red.c:280-304, src/naive_ntt.c:162-187). -/
def mulCtRev2std (bf : Int → Nat → Nat → Ref → Prog Ref)
    (a : Ref) (n : Nat) (p : Ref) : Prog Ref :=
  pforShl 1 n (fun t a => roundAMul bf n p t a) a

/-- `ntt_ct_std2rev` (src/ntt.c:295-329, src/ntt_red.c:321-355, src/naive_ntt.c:204-238):
`d = n; for (t=1; t<n; t <<= 1) { d >>= 1; ... }`. -/
def ctStd2rev (bf0 : Nat → Nat → Ref → Prog Ref)
    (bf : Int → Nat → Nat → Ref → Prog Ref)
    (a : Ref) (n : Nat) (p : Ref) : Prog Ref := do
  let r ← pforShl 1 n (fun t (st : Nat × Ref) => do
    let d := st.1 / 2
    let a ← roundBCt bf0 bf p t d st.2
    pure (d, a)) (n, a)
  pure r.2

/-- `mulntt_ct_std2rev` (src/ntt.c:342-371, src/ntt_red.c:368-397, src/naive_ntt.c:251-280). -/
def mulCtStd2rev (bf : Int → Nat → Nat → Ref → Prog Ref)
    (a : Ref) (n : Nat) (p : Ref) : Prog Ref := do
  let r ← pforShl 1 n (fun t (st : Nat × Ref) => do
    let d := st.1 / 2
    let a ← roundBMul bf p t d st.2
    pure (d, a)) (n, a)
  pure r.2

/-- `ntt_gs_rev2std` (src/ntt.c:387-416, src/ntt_red.c:414-443, src/naive_ntt.c:296-326):
`t = n; for (d=1; d<n; d<<=1) { t >>= 1; ... }`. -/
def gsRev2std (bf0 : Nat → Nat → Ref → Prog Ref)
    (bf : Int → Nat → Nat → Ref → Prog Ref)
    (a : Ref) (n : Nat) (p : Ref) : Prog Ref := do
  let r ← pforShl 1 n (fun d (st : Nat × Ref) => do
    let t := st.1 / 2
    let a ← roundBGs bf0 bf p t d st.2
    pure (t, a)) (n, a)
  pure r.2

/-- `nttmul_gs_rev2std` (src/ntt.c:428-451, src/ntt_red.c:456-479, src/naive_ntt.c:338-362). -/
def gsMulRev2std (bf : Int → Nat → Nat → Ref → Prog Ref)
    (a : Ref) (n : Nat) (p : Ref) : Prog Ref := do
  let r ← pforShl 1 n (fun d (st : Nat × Ref) => do
    let t := st.1 / 2
    let a ← roundBMul bf p t d st.2
    pure (t, a)) (n, a)
  pure r.2

/-- `ntt_gs_std2rev` (src/ntt.c:467-493, src/ntt_red.c:495-521, src/naive_ntt.c:378-405):
`for (t = n>>1; t > 0; t >>= 1)`. -/
def gsStd2rev (bf0 : Nat → Nat → Ref → Prog Ref)
    (bf : Int → Nat → Nat → Ref → Prog Ref)
    (a : Ref) (n : Nat) (p : Ref) : Prog Ref :=
  pforShr (n / 2) (fun t a => roundA bf0 bf n p t a) a

/-- `nttmul_gs_std2rev` (src/ntt.c:505-525, src/ntt_red.c:534-554, src/naive_ntt.c:417-438). -/
def gsMulStd2rev (bf : Int → Nat → Nat → Ref → Prog Ref)
    (a : Ref) (n : Nat) (p : Ref) : Prog Ref :=
  pforShr (n / 2) (fun t a => roundAMul bf n p t a) a

/-- `ntt_ct_rev2std_v1` (src/ntt.c:168-197): the table is `p[i] = psi^i` and the twiddle of round
`t` is read at `p[j*l]`, where `l` starts at `n` and is halved with each round. -/
def ctRev2stdV1 (bf0 : Nat → Nat → Ref → Prog Ref)
    (bf : Int → Nat → Nat → Ref → Prog Ref)
    (a : Ref) (n : Nat) (p : Ref) : Prog Ref := do
  -- for (t=1, l = n; t<n; t <<= 1, l >>= 1)
  let r ← pforShl 1 n (fun t (st : Nat × Ref) => do
    let l := st.1
    let a ← pforUp 0 n (u32 (t + t)) (fun s a => bf0 s (u32 (s + t)) a) st.2
    let a ← pforUp 1 t 1 (fun j a => do
      let w ← prd p (u32 (j * l))
      pforUp j n (u32 (t + t)) (fun s a => bf w s (u32 (s + t)) a) a) a
    pure (l / 2, a)) (n, a)
  pure r.2

end

/-! ### src/ntt.c -/

namespace Ntt
open _root_.Ntt (bitrevNext sub_mod add_mod modq)

/-- Swap of `a[i]` and `a[j]` (src/ntt.c:36 and 57): `x = a[i]; a[i] = a[j]; a[j] = x`. -/
def swap (a : Ref) (i j : Nat) : Prog Ref := do
  let x ← prd a i
  let y ← prd a j
  let a ← pwr a i y
  pwr a j x

/-- `bitrev_shuffle` (src/ntt.c:27-44; the copy in src/naive_ntt.c:24-41 is identical). -/
def bitrev_shuffle (a : Ref) (n : Nat) : Prog Ref := do
  cassert (decide (0 < n) && decide (n &&& (n - 1) = 0))
  let r ← pforUp 1 (n - 1) 1 (fun i (st : Nat × Ref) => do
    let a ← (if i < st.1 then swap st.2 i st.1 else pure st.2)
    let j ← bitrevNext 33 st.1 n
    pure (j, a)) (n / 2, a)
  pure r.2

/-- `shuffle_with_table` (src/ntt.c:50-59; the copy in src/naive_ntt.c:47-56 is identical). -/
def shuffle_with_table (a : Ref) (p : Array (Nat × Nat)) (n : Nat) :
    Prog Ref :=
  pforUp 0 n 1 (fun i a => do
    let jk ← rd p i
    swap a jk.1 jk.2) a

/-- `mul_array16` (src/ntt.c:119-125). -/
def mul_array16 (a : Ref) (n : Nat) (p : Ref) : Prog Ref :=
  pforUp 0 n 1 (fun i a => do
    let x ← prd a i
    let y ← prd p i
    let z ← i32 (x * y)
    pwr a i (modq z)) a

/-- `mul_array` (src/ntt.c:131-137). -/
def mul_array (c : Ref) (n : Nat) (a b : Ref) : Prog Ref :=
  pforUp 0 n 1 (fun i c => do
    let x ← prd a i
    let y ← prd b i
    let z ← i32 (x * y)
    pwr c i (modq z)) c

/-- `scalar_mul_array` (src/ntt.c:147-153). -/
def scalar_mul_array (a : Ref) (n : Nat) (c : Int) : Prog Ref :=
  pforUp 0 n 1 (fun i a => do
    let x ← prd a i
    let z ← i32 (x * c)
    pwr a i (modq z)) a

/-- Butterfly without multiplication (src/ntt.c:182-184, 228-230, 314-316, 402-404, 479-481):
`x = a[k]; a[k] = sub_mod(a[s], x); a[s] = add_mod(a[s], x)`. -/
def bf0 (s k : Nat) (a : Ref) : Prog Ref := do
  let x ← prd a k
  let y ← prd a s
  let v ← sub_mod y x
  let a ← pwr a k v
  let y ← prd a s
  let u ← add_mod y x
  pwr a s u

/-- Cooley-Tukey butterfly (src/ntt.c:191-193, 237-239, 272-274, 323-325, 365-367):
`x = modq(a[k] * w); a[k] = sub_mod(a[s], x); a[s] = add_mod(a[s], x)`. -/
def ctBf (w : Int) (s k : Nat) (a : Ref) : Prog Ref := do
  let z ← prd a k
  let z ← i32 (z * w)
  let x := modq z
  let y ← prd a s
  let v ← sub_mod y x
  let a ← pwr a k v
  let y ← prd a s
  let u ← add_mod y x
  pwr a s u

/-- Gentleman-Sande butterfly (src/ntt.c:410-412, 445-447, 487-489, 519-521):
`x = a[k]; a[k] = modq(sub_mod(a[s], x) * w); a[s] = add_mod(a[s], x)`. -/
def gsBf (w : Int) (s k : Nat) (a : Ref) : Prog Ref := do
  let x ← prd a k
  let y ← prd a s
  let v ← sub_mod y x
  let v ← i32 (v * w)
  let a ← pwr a k (modq v)
  let y ← prd a s
  let u ← add_mod y x
  pwr a s u

/-- src/ntt.c:168-197 -/
def ntt_ct_rev2std_v1 (a : Ref) (n : Nat) (p : Ref) : Prog Ref :=
  ctRev2stdV1 bf0 ctBf a n p

/-- src/ntt.c:216-243 -/
def ntt_ct_rev2std (a : Ref) (n : Nat) (p : Ref) : Prog Ref :=
  ctRev2std bf0 ctBf a n p

/-- src/ntt.c:253-278 -/
def mulntt_ct_rev2std (a : Ref) (n : Nat) (p : Ref) : Prog Ref :=
  mulCtRev2std ctBf a n p

/-- src/ntt.c:295-329 -/
def ntt_ct_std2rev (a : Ref) (n : Nat) (p : Ref) : Prog Ref :=
  ctStd2rev bf0 ctBf a n p

/-- src/ntt.c:342-371 -/
def mulntt_ct_std2rev (a : Ref) (n : Nat) (p : Ref) : Prog Ref :=
  mulCtStd2rev ctBf a n p

/-- src/ntt.c:387-416 -/
def ntt_gs_rev2std (a : Ref) (n : Nat) (p : Ref) : Prog Ref :=
  gsRev2std bf0 gsBf a n p

/-- src/ntt.c:428-451 -/
def nttmul_gs_rev2std (a : Ref) (n : Nat) (p : Ref) : Prog Ref :=
  gsMulRev2std gsBf a n p

/-- src/ntt.c:467-493 -/
def ntt_gs_std2rev (a : Ref) (n : Nat) (p : Ref) : Prog Ref :=
  gsStd2rev bf0 gsBf a n p

/-- src/ntt.c:505-525 -/
def nttmul_gs_std2rev (a : Ref) (n : Nat) (p : Ref) : Prog Ref :=
  gsMulStd2rev gsBf a n p

end Ntt

/-! ### src/ntt_red.c -/

namespace NttRed
open _root_.NttRed (red mul_red)

/-- `normalize` (src/ntt_red.c:72-82). -/
def normalize (a : Ref) (n : Nat) : Prog Ref :=
  pforUp 0 n 1 (fun i a => do
    let x ← prd a i
    let x ← crem x 12289
    let x ← (if x < 0 then i32 (x + 12289) else pure x)
    cassert (decide (0 ≤ x) && decide (x < 12289))
    pwr a i x) a

/-- `normalize_inv3` (src/ntt_red.c:87-97). -/
def normalize_inv3 (a : Ref) (n : Nat) : Prog Ref :=
  pforUp 0 n 1 (fun i a => do
    let x ← prd a i
    let z ← i64 (x * 8193)
    let z ← crem z 12289
    let x := toI32 z
    let x ← (if x < 0 then i32 (x + 12289) else pure x)
    cassert (decide (0 ≤ x) && decide (x < 12289))
    pwr a i x) a

/-- `shift_array` (src/ntt_red.c:103-111). -/
def shift_array (a : Ref) (n : Nat) : Prog Ref :=
  pforUp 0 n 1 (fun i a => do
    let x ← prd a i
    let y ← (if x > 6144 then i32 (x - 12289) else pure x)
    pwr a i y) a

/-- `reduce_array` (src/ntt_red.c:124-130). -/
def reduce_array (a : Ref) (n : Nat) : Prog Ref :=
  pforUp 0 n 1 (fun i a => do
    let x ← prd a i
    let y ← red x
    pwr a i y) a

/-- `reduce_array_twice` (src/ntt_red.c:138-144). -/
def reduce_array_twice (a : Ref) (n : Nat) : Prog Ref :=
  pforUp 0 n 1 (fun i a => do
    let x ← prd a i
    let y ← red x
    let y ← red y
    pwr a i y) a

/-- `correct` (src/ntt_red.c:150-169), the compiled branch. -/
def correct (a : Ref) (n : Nat) : Prog Ref :=
  pforUp 0 n 1 (fun i a => do
    let x ← prd a i
    let x ← i32 (x + land32 (sar x 16) 12289)
    let x ← i32 (x - 12289)
    let x ← i32 (x + land32 (sar x 16) 12289)
    pwr a i x) a

/-- `mul_reduce_array16` (src/ntt_red.c:197-203). -/
def mul_reduce_array16 (a : Ref) (n : Nat) (p : Ref) : Prog Ref :=
  pforUp 0 n 1 (fun i a => do
    let x ← prd a i
    let y ← prd p i
    let z ← mul_red x y
    pwr a i z) a

/-- `mul_reduce_array` (src/ntt_red.c:205-211). -/
def mul_reduce_array (c : Ref) (n : Nat) (a b : Ref) : Prog Ref :=
  pforUp 0 n 1 (fun i c => do
    let x ← prd a i
    let y ← prd b i
    let z ← mul_red x y
    pwr c i z) c

/-- `scalar_mul_reduce_array` (src/ntt_red.c:217-223). -/
def scalar_mul_reduce_array (a : Ref) (n : Nat) (c : Int) : Prog Ref :=
  pforUp 0 n 1 (fun i a => do
    let x ← prd a i
    let z ← mul_red x c
    pwr a i z) a

/-- Butterfly without multiplication (src/ntt_red.c:256-258, 340-342, 429-431, 507-509):
`x = a[k]; a[k] = a[s] - x; a[s] = a[s] + x`. -/
def bf0 (s k : Nat) (a : Ref) : Prog Ref := do
  let x ← prd a k
  let y ← prd a s
  let v ← i32 (y - x)
  let a ← pwr a k v
  let y ← prd a s
  let u ← i32 (y + x)
  pwr a s u

/-- Cooley-Tukey butterfly (src/ntt_red.c:264-266, 298-300, 349-351, 391-393):
`x = mul_red(a[k], w); a[k] = a[s] - x; a[s] = a[s] + x`. -/
def ctBf (w : Int) (s k : Nat) (a : Ref) : Prog Ref := do
  let z ← prd a k
  let x ← mul_red z w
  let y ← prd a s
  let v ← i32 (y - x)
  let a ← pwr a k v
  let y ← prd a s
  let u ← i32 (y + x)
  pwr a s u

/-- Gentleman-Sande butterfly (src/ntt_red.c:437-439, 473-475, 515-517, 548-550):
`x = a[k]; a[k] = mul_red(a[s] - x, w); a[s] = a[s] + x`. -/
def gsBf (w : Int) (s k : Nat) (a : Ref) : Prog Ref := do
  let x ← prd a k
  let y ← prd a s
  let d ← i32 (y - x)
  let v ← mul_red d w
  let a ← pwr a k v
  let y ← prd a s
  let u ← i32 (y + x)
  pwr a s u

/-- src/ntt_red.c:244-270 -/
def ntt_red_ct_rev2std (a : Ref) (n : Nat) (p : Ref) : Prog Ref :=
  ctRev2std bf0 ctBf a n p

/-- src/ntt_red.c:280-304 -/
def mulntt_red_ct_rev2std (a : Ref) (n : Nat) (p : Ref) : Prog Ref :=
  mulCtRev2std ctBf a n p

/-- src/ntt_red.c:321-355 -/
def ntt_red_ct_std2rev (a : Ref) (n : Nat) (p : Ref) : Prog Ref :=
  ctStd2rev bf0 ctBf a n p

/-- src/ntt_red.c:368-397 -/
def mulntt_red_ct_std2rev (a : Ref) (n : Nat) (p : Ref) : Prog Ref :=
  mulCtStd2rev ctBf a n p

/-- src/ntt_red.c:414-443 -/
def ntt_red_gs_rev2std (a : Ref) (n : Nat) (p : Ref) : Prog Ref :=
  gsRev2std bf0 gsBf a n p

/-- src/ntt_red.c:456-479 -/
def nttmul_red_gs_rev2std (a : Ref) (n : Nat) (p : Ref) : Prog Ref :=
  gsMulRev2std gsBf a n p

/-- src/ntt_red.c:495-521 -/
def ntt_red_gs_std2rev (a : Ref) (n : Nat) (p : Ref) : Prog Ref :=
  gsStd2rev bf0 gsBf a n p

/-- src/ntt_red.c:534-554 -/
def nttmul_red_gs_std2rev (a : Ref) (n : Nat) (p : Ref) : Prog Ref :=
  gsMulStd2rev gsBf a n p

end NttRed

/-! ### src/naive_ntt.c and its products -/

namespace Naive

/-- `mul_array16_naive` (src/naive_ntt.c:68-74). -/
def mul_array16 (a : Ref) (n : Nat) (p : Ref) (q : Int) : Prog Ref :=
  pforUp 0 n 1 (fun i a => do
    let x ← prd a i
    let y ← prd p i
    let z ← i32 (x * y)
    let z ← crem z q
    pwr a i z) a

/-- `mul_array_naive` (src/naive_ntt.c:80-86). -/
def mul_array (c : Ref) (n : Nat) (a b : Ref) (q : Int) : Prog Ref :=
  pforUp 0 n 1 (fun i c => do
    let x ← prd a i
    let y ← prd b i
    let z ← i32 (x * y)
    let z ← crem z q
    pwr c i z) c

/-- `scalar_mul_array_naive` (src/naive_ntt.c:96-102). -/
def scalar_mul_array (a : Ref) (n : Nat) (c q : Int) : Prog Ref :=
  pforUp 0 n 1 (fun i a => do
    let x ← prd a i
    let z ← i32 (x * c)
    let z ← crem z q
    pwr a i z) a

/-- Butterfly without multiplication (src/naive_ntt.c:137-139, 223-225, 311-313, 390-392):
`x = a[k]; a[k] = (a[s] - x) % q; a[s] = (a[s] + x) % q`. -/
def bf0 (q : Int) (s k : Nat) (a : Ref) : Prog Ref := do
  let x ← prd a k
  let y ← prd a s
  let v ← i32 (y - x)
  let v ← crem v q
  let a ← pwr a k v
  let y ← prd a s
  let u ← i32 (y + x)
  let u ← crem u q
  pwr a s u

/-- Cooley-Tukey butterfly (src/naive_ntt.c:146-148, 181-183, 232-234, 274-276):
`x = a[k] * w; a[k] = (a[s] - x) % q; a[s] = (a[s] + x) % q`. -/
def ctBf (q w : Int) (s k : Nat) (a : Ref) : Prog Ref := do
  let z ← prd a k
  let x ← i32 (z * w)
  let y ← prd a s
  let v ← i32 (y - x)
  let v ← crem v q
  let a ← pwr a k v
  let y ← prd a s
  let u ← i32 (y + x)
  let u ← crem u q
  pwr a s u

/-- Gentleman-Sande butterfly (src/naive_ntt.c:319-322, 355-358, 398-401, 431-434):
`x = a[k]; a[k] = ((a[s] - x) * w) % q; a[s] = (a[s] + x) % q`. -/
def gsBf (q w : Int) (s k : Nat) (a : Ref) : Prog Ref := do
  let x ← prd a k
  let y ← prd a s
  let v ← i32 (y - x)
  let v ← i32 (v * w)
  let v ← crem v q
  let a ← pwr a k v
  let y ← prd a s
  let u ← i32 (y + x)
  let u ← crem u q
  pwr a s u

/-- src/naive_ntt.c:125-152 -/
def ntt_ct_rev2std (a : Ref) (n : Nat) (p : Ref) (q : Int) : Prog Ref :=
  ctRev2std (bf0 q) (ctBf q) a n p

/-- src/naive_ntt.c:162-187 -/
def mulntt_ct_rev2std (a : Ref) (n : Nat) (p : Ref) (q : Int) : Prog Ref :=
  mulCtRev2std (ctBf q) a n p

/-- src/naive_ntt.c:204-238 -/
def ntt_ct_std2rev (a : Ref) (n : Nat) (p : Ref) (q : Int) : Prog Ref :=
  ctStd2rev (bf0 q) (ctBf q) a n p

/-- src/naive_ntt.c:251-280 -/
def mulntt_ct_std2rev (a : Ref) (n : Nat) (p : Ref) (q : Int) : Prog Ref :=
  mulCtStd2rev (ctBf q) a n p

/-- src/naive_ntt.c:296-326 -/
def ntt_gs_rev2std (a : Ref) (n : Nat) (p : Ref) (q : Int) : Prog Ref :=
  gsRev2std (bf0 q) (gsBf q) a n p

/-- src/naive_ntt.c:338-362 -/
def nttmul_gs_rev2std (a : Ref) (n : Nat) (p : Ref) (q : Int) : Prog Ref :=
  gsMulRev2std (gsBf q) a n p

/-- src/naive_ntt.c:378-405 -/
def ntt_gs_std2rev (a : Ref) (n : Nat) (p : Ref) (q : Int) : Prog Ref :=
  gsStd2rev (bf0 q) (gsBf q) a n p

/-- src/naive_ntt.c:417-438 -/
def nttmul_gs_std2rev (a : Ref) (n : Nat) (p : Ref) (q : Int) : Prog Ref :=
  gsMulStd2rev (gsBf q) a n p

section
variable (t : Nttables) (tb : String → Ref) (n : Nat)

/-- src/naive_ntt1024.h:21-23 -/
def fwd_ct_rev2std (a : Ref) : Prog Ref := ntt_ct_rev2std a n (tb "omega_powers") 12289

/-- src/naive_ntt1024.h:25-27 -/
def fwd_gs_rev2std (a : Ref) : Prog Ref := ntt_gs_rev2std a n (tb "omega_powers_rev") 12289

/-- src/naive_ntt1024.h:29-31 -/
def fwd_ct_std2rev (a : Ref) : Prog Ref := ntt_ct_std2rev a n (tb "omega_powers_rev") 12289

/-- src/naive_ntt1024.h:33-35 -/
def fwd_gs_std2rev (a : Ref) : Prog Ref := ntt_gs_std2rev a n (tb "omega_powers") 12289

/-- src/naive_ntt1024.h:38-40 -/
def intt_ct_rev2std (a : Ref) : Prog Ref := ntt_ct_rev2std a n (tb "inv_omega_powers") 12289

/-- src/naive_ntt1024.h:42-44 -/
def intt_gs_rev2std (a : Ref) : Prog Ref := ntt_gs_rev2std a n (tb "inv_omega_powers_rev") 12289

/-- src/naive_ntt1024.h:46-48 -/
def intt_ct_std2rev (a : Ref) : Prog Ref := ntt_ct_std2rev a n (tb "inv_omega_powers_rev") 12289

/-- src/naive_ntt1024.h:50-52 -/
def intt_gs_std2rev (a : Ref) : Prog Ref := ntt_gs_std2rev a n (tb "inv_omega_powers") 12289

/-- src/naive_ntt1024.h:55-57 -/
def fwdmul_ct_rev2std (a : Ref) : Prog Ref := mulntt_ct_rev2std a n (tb "mixed_powers") 12289

/-- src/naive_ntt1024.h:59-61 -/
def fwdmul_ct_std2rev (a : Ref) : Prog Ref := mulntt_ct_std2rev a n (tb "mixed_powers_rev") 12289

/-- src/naive_ntt1024.h:64-66 -/
def inttmul_gs_rev2std (a : Ref) : Prog Ref := nttmul_gs_rev2std a n (tb "inv_mixed_powers_rev") 12289

/-- src/naive_ntt1024.h:68-70 -/
def inttmul_gs_std2rev (a : Ref) : Prog Ref := nttmul_gs_std2rev a n (tb "inv_mixed_powers") 12289

/-- src/naive_ntt1024.c:10-18 -/
def product1 (c a b : Ref) : Prog (Ref × Ref × Ref) := do
  let a ← mul_array16 a n (tb "psi_powers") 12289
  let a ← fwd_ct_std2rev tb n a
  let b ← mul_array16 b n (tb "psi_powers") 12289
  let b ← fwd_ct_std2rev tb n b
  let c ← mul_array c n a b 12289
  let c ← intt_ct_rev2std tb n c
  let c ← mul_array16 c n (tb "scaled_inv_psi_powers") 12289
  pure (c, a, b)

/-- src/naive_ntt1024.c:20-28 -/
def product2 (c a b : Ref) : Prog (Ref × Ref × Ref) := do
  let a ← mul_array16 a n (tb "psi_powers") 12289
  let a ← fwd_gs_std2rev tb n a
  let b ← mul_array16 b n (tb "psi_powers") 12289
  let b ← fwd_gs_std2rev tb n b
  let c ← mul_array c n a b 12289
  let c ← intt_ct_rev2std tb n c
  let c ← mul_array16 c n (tb "scaled_inv_psi_powers") 12289
  pure (c, a, b)

/-- src/naive_ntt1024.c:30-38 -/
def product3 (c a b : Ref) : Prog (Ref × Ref × Ref) := do
  let a ← mul_array16 a n (tb "psi_powers") 12289
  let a ← fwd_ct_std2rev tb n a
  let b ← mul_array16 b n (tb "psi_powers") 12289
  let b ← fwd_ct_std2rev tb n b
  let c ← mul_array c n a b 12289
  let c ← intt_gs_rev2std tb n c
  let c ← mul_array16 c n (tb "scaled_inv_psi_powers") 12289
  pure (c, a, b)

/-- src/naive_ntt1024.c:40-48 -/
def product4 (c a b : Ref) : Prog (Ref × Ref × Ref) := do
  let a ← mul_array16 a n (tb "psi_powers") 12289
  let a ← fwd_gs_std2rev tb n a
  let b ← mul_array16 b n (tb "psi_powers") 12289
  let b ← fwd_gs_std2rev tb n b
  let c ← mul_array c n a b 12289
  let c ← intt_gs_rev2std tb n c
  let c ← mul_array16 c n (tb "scaled_inv_psi_powers") 12289
  pure (c, a, b)

/-- src/naive_ntt1024.c:54-60 -/
def product5 (c a b : Ref) : Prog (Ref × Ref × Ref) := do
  let a ← fwdmul_ct_std2rev tb n a
  let b ← fwdmul_ct_std2rev tb n b
  let c ← mul_array c n a b 12289
  let c ← inttmul_gs_rev2std tb n c
  let c ← scalar_mul_array c n t.inv_n 12289
  pure (c, a, b)

end
end Naive

/-! ### src/ntt16.c, ... -/

namespace Ntt

section
variable (t : Nttables) (tb : String → Ref) (n : Nat)

/-- src/ntt1024.h:21-23 -/
def fwd_ct_rev2std (a : Ref) : Prog Ref := ntt_ct_rev2std a n (tb "omega_powers")

/-- src/ntt1024.h:25-27 -/
def fwd_gs_rev2std (a : Ref) : Prog Ref := ntt_gs_rev2std a n (tb "omega_powers_rev")

/-- src/ntt1024.h:29-31 -/
def fwd_ct_std2rev (a : Ref) : Prog Ref := ntt_ct_std2rev a n (tb "omega_powers_rev")

/-- src/ntt1024.h:33-35 -/
def fwd_gs_std2rev (a : Ref) : Prog Ref := ntt_gs_std2rev a n (tb "omega_powers")

/-- src/ntt1024.h:38-40 -/
def intt_ct_rev2std (a : Ref) : Prog Ref := ntt_ct_rev2std a n (tb "inv_omega_powers")

/-- src/ntt1024.h:42-44 -/
def intt_gs_rev2std (a : Ref) : Prog Ref := ntt_gs_rev2std a n (tb "inv_omega_powers_rev")

/-- src/ntt1024.h:46-48 -/
def intt_ct_std2rev (a : Ref) : Prog Ref := ntt_ct_std2rev a n (tb "inv_omega_powers_rev")

/-- src/ntt1024.h:50-52 -/
def intt_gs_std2rev (a : Ref) : Prog Ref := ntt_gs_std2rev a n (tb "inv_omega_powers")

/-- src/ntt1024.h:55-57 -/
def fwdmul_ct_rev2std (a : Ref) : Prog Ref := mulntt_ct_rev2std a n (tb "mixed_powers")

/-- src/ntt1024.h:59-61 -/
def fwdmul_ct_std2rev (a : Ref) : Prog Ref := mulntt_ct_std2rev a n (tb "mixed_powers_rev")

/-- src/ntt1024.h:64-66 -/
def inttmul_gs_rev2std (a : Ref) : Prog Ref := nttmul_gs_rev2std a n (tb "inv_mixed_powers_rev")

/-- src/ntt1024.h:68-70 -/
def inttmul_gs_std2rev (a : Ref) : Prog Ref := nttmul_gs_std2rev a n (tb "inv_mixed_powers")

/-- src/ntt1024.c:10-18 -/
def product1 (c a b : Ref) : Prog (Ref × Ref × Ref) := do
  let a ← mul_array16 a n (tb "psi_powers")
  let a ← fwd_ct_std2rev tb n a
  let b ← mul_array16 b n (tb "psi_powers")
  let b ← fwd_ct_std2rev tb n b
  let c ← mul_array c n a b
  let c ← intt_ct_rev2std tb n c
  let c ← mul_array16 c n (tb "scaled_inv_psi_powers")
  pure (c, a, b)

/-- src/ntt1024.c:20-28 -/
def product2 (c a b : Ref) : Prog (Ref × Ref × Ref) := do
  let a ← mul_array16 a n (tb "psi_powers")
  let a ← fwd_gs_std2rev tb n a
  let b ← mul_array16 b n (tb "psi_powers")
  let b ← fwd_gs_std2rev tb n b
  let c ← mul_array c n a b
  let c ← intt_ct_rev2std tb n c
  let c ← mul_array16 c n (tb "scaled_inv_psi_powers")
  pure (c, a, b)

/-- src/ntt1024.c:30-38 -/
def product3 (c a b : Ref) : Prog (Ref × Ref × Ref) := do
  let a ← mul_array16 a n (tb "psi_powers")
  let a ← fwd_ct_std2rev tb n a
  let b ← mul_array16 b n (tb "psi_powers")
  let b ← fwd_ct_std2rev tb n b
  let c ← mul_array c n a b
  let c ← intt_gs_rev2std tb n c
  let c ← mul_array16 c n (tb "scaled_inv_psi_powers")
  pure (c, a, b)

/-- src/ntt1024.c:40-48 -/
def product4 (c a b : Ref) : Prog (Ref × Ref × Ref) := do
  let a ← mul_array16 a n (tb "psi_powers")
  let a ← fwd_gs_std2rev tb n a
  let b ← mul_array16 b n (tb "psi_powers")
  let b ← fwd_gs_std2rev tb n b
  let c ← mul_array c n a b
  let c ← intt_gs_rev2std tb n c
  let c ← mul_array16 c n (tb "scaled_inv_psi_powers")
  pure (c, a, b)

/-- src/ntt1024.c:53-59 -/
def product5 (c a b : Ref) : Prog (Ref × Ref × Ref) := do
  let a ← fwdmul_ct_std2rev tb n a
  let b ← fwdmul_ct_std2rev tb n b
  let c ← mul_array c n a b
  let c ← inttmul_gs_rev2std tb n c
  let c ← scalar_mul_array c n t.inv_n
  pure (c, a, b)

end
end Ntt

/-! ### src/ntt_red16.c, ... -/

namespace NttRed

section
variable (t : RedTables) (tb : String → Ref) (n : Nat)

/-- src/ntt_red1024.h:21-23 -/
def fwd_ct_rev2std (a : Ref) : Prog Ref :=
  ntt_red_ct_rev2std a n (tb "omega_powers")

/-- src/ntt_red1024.h:25-27 -/
def fwd_gs_rev2std (a : Ref) : Prog Ref :=
  ntt_red_gs_rev2std a n (tb "omega_powers_rev")

/-- src/ntt_red1024.h:29-31 -/
def fwd_ct_std2rev (a : Ref) : Prog Ref :=
  ntt_red_ct_std2rev a n (tb "omega_powers_rev")

/-- src/ntt_red1024.h:33-35 -/
def fwd_gs_std2rev (a : Ref) : Prog Ref :=
  ntt_red_gs_std2rev a n (tb "omega_powers")

/-- src/ntt_red1024.h:38-40 -/
def intt_ct_rev2std (a : Ref) : Prog Ref :=
  ntt_red_ct_rev2std a n (tb "inv_omega_powers")

/-- src/ntt_red1024.h:42-44 -/
def intt_gs_rev2std (a : Ref) : Prog Ref :=
  ntt_red_gs_rev2std a n (tb "inv_omega_powers_rev")

/-- src/ntt_red1024.h:46-48 -/
def intt_ct_std2rev (a : Ref) : Prog Ref :=
  ntt_red_ct_std2rev a n (tb "inv_omega_powers_rev")

/-- src/ntt_red1024.h:50-52 -/
def intt_gs_std2rev (a : Ref) : Prog Ref :=
  ntt_red_gs_std2rev a n (tb "inv_omega_powers")

/-- src/ntt_red1024.h:55-57 -/
def fwdmul_ct_rev2std (a : Ref) : Prog Ref :=
  mulntt_red_ct_rev2std a n (tb "mixed_powers")

/-- src/ntt_red1024.h:59-61 -/
def fwdmul_ct_std2rev (a : Ref) : Prog Ref :=
  mulntt_red_ct_std2rev a n (tb "mixed_powers_rev")

/-- src/ntt_red1024.h:64-66 -/
def inttmul_gs_rev2std (a : Ref) : Prog Ref :=
  nttmul_red_gs_rev2std a n (tb "inv_mixed_powers_rev")

/-- src/ntt_red1024.h:68-70 -/
def inttmul_gs_std2rev (a : Ref) : Prog Ref :=
  nttmul_red_gs_std2rev a n (tb "inv_mixed_powers")

/-- The calls `shift_array(a, n)` at the beginning of the products for 16, 256 and 512
(src/ntt_red16.c:18, 23, 42, 47, 66, 71, 90, 95, 114, 118); absent in src/ntt_red1024.c. -/
def shiftInput (sh : Bool) (a : Ref) : Prog Ref :=
  if sh then shift_array a n else pure a

/-- src/ntt_red1024.c:17-37, src/ntt_red16.c:17-39 -/
def product1 (sh : Bool) (c a b : Ref) : Prog (Ref × Ref × Ref) := do
  let a ← shiftInput n sh a
  let a ← mul_reduce_array16 a n (tb "psi_powers")
  let a ← fwd_ct_std2rev tb n a
  let a ← reduce_array a n
  let b ← shiftInput n sh b
  let b ← mul_reduce_array16 b n (tb "psi_powers")
  let b ← fwd_ct_std2rev tb n b
  let b ← reduce_array b n
  let c ← mul_reduce_array c n a b
  let c ← reduce_array_twice c n
  let c ← intt_ct_rev2std tb n c
  let c ← mul_reduce_array16 c n (tb "scaled_inv_psi_powers")
  let c ← reduce_array_twice c n
  let c ← correct c n
  pure (c, a, b)

/-- src/ntt_red1024.c:39-61, src/ntt_red16.c:41-63 -/
def product2 (sh : Bool) (c a b : Ref) : Prog (Ref × Ref × Ref) := do
  let a ← shiftInput n sh a
  let a ← mul_reduce_array16 a n (tb "psi_powers")
  let a ← fwd_gs_std2rev tb n a
  let a ← reduce_array a n
  let b ← shiftInput n sh b
  let b ← mul_reduce_array16 b n (tb "psi_powers")
  let b ← fwd_gs_std2rev tb n b
  let b ← reduce_array b n
  let c ← mul_reduce_array c n a b
  let c ← reduce_array_twice c n
  let c ← intt_ct_rev2std tb n c
  let c ← mul_reduce_array16 c n (tb "scaled_inv_psi_powers")
  let c ← reduce_array_twice c n
  let c ← correct c n
  pure (c, a, b)

/-- src/ntt_red1024.c:63-85, src/ntt_red16.c:65-87 -/
def product3 (sh : Bool) (c a b : Ref) : Prog (Ref × Ref × Ref) := do
  let a ← shiftInput n sh a
  let a ← mul_reduce_array16 a n (tb "psi_powers")
  let a ← fwd_ct_std2rev tb n a
  let a ← reduce_array a n
  let b ← shiftInput n sh b
  let b ← mul_reduce_array16 b n (tb "psi_powers")
  let b ← fwd_ct_std2rev tb n b
  let b ← reduce_array b n
  let c ← mul_reduce_array c n a b
  let c ← reduce_array_twice c n
  let c ← intt_gs_rev2std tb n c
  let c ← mul_reduce_array16 c n (tb "scaled_inv_psi_powers")
  let c ← reduce_array_twice c n
  let c ← correct c n
  pure (c, a, b)

/-- src/ntt_red1024.c:87-109, src/ntt_red16.c:89-111 -/
def product4 (sh : Bool) (c a b : Ref) : Prog (Ref × Ref × Ref) := do
  let a ← shiftInput n sh a
  let a ← mul_reduce_array16 a n (tb "psi_powers")
  let a ← fwd_gs_std2rev tb n a
  let a ← reduce_array a n
  let b ← shiftInput n sh b
  let b ← mul_reduce_array16 b n (tb "psi_powers")
  let b ← fwd_gs_std2rev tb n b
  let b ← reduce_array b n
  let c ← mul_reduce_array c n a b
  let c ← reduce_array_twice c n
  let c ← intt_gs_rev2std tb n c
  let c ← mul_reduce_array16 c n (tb "scaled_inv_psi_powers")
  let c ← reduce_array_twice c n
  let c ← correct c n
  pure (c, a, b)

/-- src/ntt_red1024.c:111-127, src/ntt_red16.c:113-129 -/
def product5 (sh : Bool) (c a b : Ref) : Prog (Ref × Ref × Ref) := do
  let a ← shiftInput n sh a
  let a ← fwdmul_ct_std2rev tb n a
  let a ← reduce_array a n
  let b ← shiftInput n sh b
  let b ← fwdmul_ct_std2rev tb n b
  let b ← reduce_array b n
  let c ← mul_reduce_array c n a b
  let c ← reduce_array_twice c n
  let c ← inttmul_gs_rev2std tb n c
  let c ← scalar_mul_reduce_array c n t.rescale8
  let c ← reduce_array_twice c n
  let c ← correct c n
  pure (c, a, b)

end
end NttRed

end Shared
