import Verif.Model.Skeleton

/-
Model of src/ntt_red.c.

`int32_t` arrays are `Array Int`, `const int16_t *` tables are `Array Int` (their elements are
promoted to `int`).  Functions that update an array in place return the new array.
-/

namespace NttRed
open C NTT

/-- `red` (src/ntt_red.c:34-36). -/
def red (x : Int) : M Int := do
  let y ← i32 (3 * land32 x 4095)
  i32 (y - sar x 12)

/-- `mul_red` (src/ntt_red.c:39-46): `(int64_t) x * y` cannot overflow for `int32_t` operands; the
assignments of `z & 4095` and `z >> 12` to `int32_t` variables convert. -/
def mul_red (x y : Int) : M Int := do
  let z ← i64 (x * y)
  cassert (decide (-8796042698752 ≤ z) && decide (z ≤ 8796093026303))
  let x := toI32 (land64 z 4095)
  let y := toI32 (sar z 12)
  let x ← i32 (3 * x)
  i32 (x - y)

/-- `normalize` (src/ntt_red.c:72-82). -/
def normalize (a : Array Int) (n : Nat) : M (Array Int) :=
  forUp 0 n 1 (fun i a => do
    let x ← rd a i
    let x ← crem x 12289
    let x ← (if x < 0 then i32 (x + 12289) else pure x)
    cassert (decide (0 ≤ x) && decide (x < 12289))
    wr a i x) a

/-- `normalize_inv3` (src/ntt_red.c:87-97). -/
def normalize_inv3 (a : Array Int) (n : Nat) : M (Array Int) :=
  forUp 0 n 1 (fun i a => do
    let x ← rd a i
    let z ← i64 (x * 8193)
    let z ← crem z 12289
    let x := toI32 z
    let x ← (if x < 0 then i32 (x + 12289) else pure x)
    cassert (decide (0 ≤ x) && decide (x < 12289))
    wr a i x) a

/-- `shift_array` (src/ntt_red.c:103-111). -/
def shift_array (a : Array Int) (n : Nat) : M (Array Int) :=
  forUp 0 n 1 (fun i a => do
    let x ← rd a i
    let y ← (if x > 6144 then i32 (x - 12289) else pure x)
    wr a i y) a

/-- `reduce_array` (src/ntt_red.c:124-130). -/
def reduce_array (a : Array Int) (n : Nat) : M (Array Int) :=
  forUp 0 n 1 (fun i a => do
    let x ← rd a i
    let y ← red x
    wr a i y) a

/-- `reduce_array_twice` (src/ntt_red.c:138-144). -/
def reduce_array_twice (a : Array Int) (n : Nat) : M (Array Int) :=
  forUp 0 n 1 (fun i a => do
    let x ← rd a i
    let y ← red x
    let y ← red y
    wr a i y) a

/-- `correct` (src/ntt_red.c:150-169), the compiled branch. -/
def correct (a : Array Int) (n : Nat) : M (Array Int) :=
  forUp 0 n 1 (fun i a => do
    let x ← rd a i
    let x ← i32 (x + land32 (sar x 16) 12289)
    let x ← i32 (x - 12289)
    let x ← i32 (x + land32 (sar x 16) 12289)
    wr a i x) a

/-- `mul_reduce_array16` (src/ntt_red.c:197-203). -/
def mul_reduce_array16 (a : Array Int) (n : Nat) (p : Array Int) : M (Array Int) :=
  forUp 0 n 1 (fun i a => do
    let x ← rd a i
    let y ← rd p i
    let z ← mul_red x y
    wr a i z) a

/-- `mul_reduce_array` (src/ntt_red.c:205-211), for `c` distinct from `a` and `b`. -/
def mul_reduce_array (c : Array Int) (n : Nat) (a b : Array Int) : M (Array Int) :=
  forUp 0 n 1 (fun i c => do
    let x ← rd a i
    let y ← rd b i
    let z ← mul_red x y
    wr c i z) c

/-- `scalar_mul_reduce_array` (src/ntt_red.c:217-223). -/
def scalar_mul_reduce_array (a : Array Int) (n : Nat) (c : Int) : M (Array Int) :=
  forUp 0 n 1 (fun i a => do
    let x ← rd a i
    let z ← mul_red x c
    wr a i z) a

/-- Butterfly without multiplication (src/ntt_red.c:256-258, 340-342, 429-431, 507-509):
`x = a[k]; a[k] = a[s] - x; a[s] = a[s] + x`. -/
def bf0 (s k : Nat) (a : Array Int) : M (Array Int) := do
  let x ← rd a k
  let y ← rd a s
  let v ← i32 (y - x)
  let a ← wr a k v
  let y ← rd a s
  let u ← i32 (y + x)
  wr a s u

/-- Cooley-Tukey butterfly (src/ntt_red.c:264-266, 298-300, 349-351, 391-393):
`x = mul_red(a[k], w); a[k] = a[s] - x; a[s] = a[s] + x`. -/
def ctBf (w : Int) (s k : Nat) (a : Array Int) : M (Array Int) := do
  let z ← rd a k
  let x ← mul_red z w
  let y ← rd a s
  let v ← i32 (y - x)
  let a ← wr a k v
  let y ← rd a s
  let u ← i32 (y + x)
  wr a s u

/-- Gentleman-Sande butterfly (src/ntt_red.c:437-439, 473-475, 515-517, 548-550):
`x = a[k]; a[k] = mul_red(a[s] - x, w); a[s] = a[s] + x`. -/
def gsBf (w : Int) (s k : Nat) (a : Array Int) : M (Array Int) := do
  let x ← rd a k
  let y ← rd a s
  let d ← i32 (y - x)
  let v ← mul_red d w
  let a ← wr a k v
  let y ← rd a s
  let u ← i32 (y + x)
  wr a s u

/-- src/ntt_red.c:244-270 -/
def ntt_red_ct_rev2std (a : Array Int) (n : Nat) (p : Array Int) : M (Array Int) :=
  ctRev2std bf0 ctBf a n p

/-- src/ntt_red.c:280-304 -/
def mulntt_red_ct_rev2std (a : Array Int) (n : Nat) (p : Array Int) : M (Array Int) :=
  mulCtRev2std ctBf a n p

/-- src/ntt_red.c:321-355 -/
def ntt_red_ct_std2rev (a : Array Int) (n : Nat) (p : Array Int) : M (Array Int) :=
  ctStd2rev bf0 ctBf a n p

/-- src/ntt_red.c:368-397 -/
def mulntt_red_ct_std2rev (a : Array Int) (n : Nat) (p : Array Int) : M (Array Int) :=
  mulCtStd2rev ctBf a n p

/-- src/ntt_red.c:414-443 -/
def ntt_red_gs_rev2std (a : Array Int) (n : Nat) (p : Array Int) : M (Array Int) :=
  gsRev2std bf0 gsBf a n p

/-- src/ntt_red.c:456-479 -/
def nttmul_red_gs_rev2std (a : Array Int) (n : Nat) (p : Array Int) : M (Array Int) :=
  gsMulRev2std gsBf a n p

/-- src/ntt_red.c:495-521 -/
def ntt_red_gs_std2rev (a : Array Int) (n : Nat) (p : Array Int) : M (Array Int) :=
  gsStd2rev bf0 gsBf a n p

/-- src/ntt_red.c:534-554 -/
def nttmul_red_gs_std2rev (a : Array Int) (n : Nat) (p : Array Int) : M (Array Int) :=
  gsMulStd2rev gsBf a n p

end NttRed
