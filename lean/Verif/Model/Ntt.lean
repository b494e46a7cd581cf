import Verif.Model.Skeleton

/-
Model of src/ntt.c.

`int32_t` arrays are `Array Int`, `const uint16_t *` tables are `Array Int` (their elements are
promoted to `int`), arrays of pairs `const uint16_t p[][2]` are `Array (Nat × Nat)`.
Functions that update an array in place return the new array.
-/

namespace Ntt
open C NTT

/-- `#define Q 12289` (src/ntt.c:18). -/
def Q : Int := 12289

/-- `do { k >>= 1; j ^= k; } while ((j & k) == 0)` (src/ntt.c:39-42): returns the new `j`.
The fuel is only used up if `k` reaches 0, in which case the C loop does not terminate. -/
def bitrevNext : Nat → Nat → Nat → M Nat
  | 0, _, _ => .error .nonterm
  | fuel + 1, j, k =>
    let k := k / 2
    let j := j ^^^ k
    if j &&& k = 0 then bitrevNext fuel j k else .ok j

/-- Swap of `a[i]` and `a[j]` (src/ntt.c:36 and 57): `x = a[i]; a[i] = a[j]; a[j] = x`. -/
def swap {α : Type} (a : Array α) (i j : Nat) : M (Array α) := do
  let x ← rd a i
  let y ← rd a j
  let a ← wr a i y
  wr a j x

/-- `bitrev_shuffle` (src/ntt.c:27-44; the copy in src/naive_ntt.c:24-41 is identical). -/
def bitrev_shuffle {α : Type} (a : Array α) (n : Nat) : M (Array α) := do
  cassert (decide (0 < n) && decide (n &&& (n - 1) = 0))
  let r ← forUp 1 (n - 1) 1 (fun i (st : Nat × Array α) => do
    let a ← (if i < st.1 then swap st.2 i st.1 else .ok st.2)
    let j ← bitrevNext 33 st.1 n
    pure (j, a)) (n / 2, a)
  pure r.2

/-- `shuffle_with_table` (src/ntt.c:50-59; the copy in src/naive_ntt.c:47-56 is identical). -/
def shuffle_with_table {α : Type} (a : Array α) (p : Array (Nat × Nat)) (n : Nat) :
    M (Array α) :=
  forUp 0 n 1 (fun i a => do
    let jk ← rd p i
    swap a jk.1 jk.2) a

/-- `sub_mod` (src/ntt.c:69-74). -/
def sub_mod (x y : Int) : M Int := do
  let x ← i32 (x - y)
  i32 (x + land32 (sar x 14) Q)

/-- `add_mod` (src/ntt.c:76-81). -/
def add_mod (x y : Int) : M Int := do
  let d ← i32 (y - Q)
  let x ← i32 (x + d)
  i32 (x + land32 (sar x 14) Q)

/-- `divq` (src/ntt.c:101-103): the argument is converted to `uint64_t`, the result to
`uint32_t`. -/
def divq (x : Int) : Nat := u32 (u64 (toU64 x * 178942409) / 2 ^ 41)

/-- `modq` (src/ntt.c:105-107): `x - divq(x) * Q` is `uint32_t` arithmetic, since `divq` returns
`uint32_t`; the result is converted to `int32_t`. -/
def modq (x : Int) : Int := toI32 ((toU32 x : Int) - (u32 (divq x * 12289) : Nat))

/-- `mul_array16` (src/ntt.c:119-125). -/
def mul_array16 (a : Array Int) (n : Nat) (p : Array Int) : M (Array Int) :=
  forUp 0 n 1 (fun i a => do
    let x ← rd a i
    let y ← rd p i
    let z ← i32 (x * y)
    wr a i (modq z)) a

/-- `mul_array` (src/ntt.c:131-137), for `c` distinct from `a` and `b`. -/
def mul_array (c : Array Int) (n : Nat) (a b : Array Int) : M (Array Int) :=
  forUp 0 n 1 (fun i c => do
    let x ← rd a i
    let y ← rd b i
    let z ← i32 (x * y)
    wr c i (modq z)) c

/-- `scalar_mul_array` (src/ntt.c:147-153). -/
def scalar_mul_array (a : Array Int) (n : Nat) (c : Int) : M (Array Int) :=
  forUp 0 n 1 (fun i a => do
    let x ← rd a i
    let z ← i32 (x * c)
    wr a i (modq z)) a

/-- Butterfly without multiplication (src/ntt.c:182-184, 228-230, 314-316, 402-404, 479-481):
`x = a[k]; a[k] = sub_mod(a[s], x); a[s] = add_mod(a[s], x)`. -/
def bf0 (s k : Nat) (a : Array Int) : M (Array Int) := do
  let x ← rd a k
  let y ← rd a s
  let v ← sub_mod y x
  let a ← wr a k v
  let y ← rd a s
  let u ← add_mod y x
  wr a s u

/-- Cooley-Tukey butterfly (src/ntt.c:191-193, 237-239, 272-274, 323-325, 365-367):
`x = modq(a[k] * w); a[k] = sub_mod(a[s], x); a[s] = add_mod(a[s], x)`. -/
def ctBf (w : Int) (s k : Nat) (a : Array Int) : M (Array Int) := do
  let z ← rd a k
  let z ← i32 (z * w)
  let x := modq z
  let y ← rd a s
  let v ← sub_mod y x
  let a ← wr a k v
  let y ← rd a s
  let u ← add_mod y x
  wr a s u

/-- Gentleman-Sande butterfly (src/ntt.c:410-412, 445-447, 487-489, 519-521):
`x = a[k]; a[k] = modq(sub_mod(a[s], x) * w); a[s] = add_mod(a[s], x)`. -/
def gsBf (w : Int) (s k : Nat) (a : Array Int) : M (Array Int) := do
  let x ← rd a k
  let y ← rd a s
  let v ← sub_mod y x
  let v ← i32 (v * w)
  let a ← wr a k (modq v)
  let y ← rd a s
  let u ← add_mod y x
  wr a s u

/-- src/ntt.c:168-197 -/
def ntt_ct_rev2std_v1 (a : Array Int) (n : Nat) (p : Array Int) : M (Array Int) :=
  ctRev2stdV1 bf0 ctBf a n p

/-- src/ntt.c:216-243 -/
def ntt_ct_rev2std (a : Array Int) (n : Nat) (p : Array Int) : M (Array Int) :=
  ctRev2std bf0 ctBf a n p

/-- src/ntt.c:253-278 -/
def mulntt_ct_rev2std (a : Array Int) (n : Nat) (p : Array Int) : M (Array Int) :=
  mulCtRev2std ctBf a n p

/-- src/ntt.c:295-329 -/
def ntt_ct_std2rev (a : Array Int) (n : Nat) (p : Array Int) : M (Array Int) :=
  ctStd2rev bf0 ctBf a n p

/-- src/ntt.c:342-371 -/
def mulntt_ct_std2rev (a : Array Int) (n : Nat) (p : Array Int) : M (Array Int) :=
  mulCtStd2rev ctBf a n p

/-- src/ntt.c:387-416 -/
def ntt_gs_rev2std (a : Array Int) (n : Nat) (p : Array Int) : M (Array Int) :=
  gsRev2std bf0 gsBf a n p

/-- src/ntt.c:428-451 -/
def nttmul_gs_rev2std (a : Array Int) (n : Nat) (p : Array Int) : M (Array Int) :=
  gsMulRev2std gsBf a n p

/-- src/ntt.c:467-493 -/
def ntt_gs_std2rev (a : Array Int) (n : Nat) (p : Array Int) : M (Array Int) :=
  gsStd2rev bf0 gsBf a n p

/-- src/ntt.c:505-525 -/
def nttmul_gs_std2rev (a : Array Int) (n : Nat) (p : Array Int) : M (Array Int) :=
  gsMulStd2rev gsBf a n p

end Ntt
