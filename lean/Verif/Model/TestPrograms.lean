import Verif.Model.Sort
import Verif.Model.BitrevTables
import Verif.Model.Naive
import Verif.Model.Products
import Verif.Model.RedProducts
import Verif.Model.AsmProducts

/-
Model of the test programs specialised for one size:
src/test_naive_ntt<n>.c, src/test_ntt<n>.c, src/test_ntt_red<n>.c, src/test_ntt_red_asm<n>.c for
n = 16, 256, 512, 1024.

The sixteen files are copies of one another up to the size, the names of the functions tested, the
calls that normalise arrays (`Variant`) and two calls of `shift_array` in src/test_ntt_red256.c and
src/test_ntt_red_asm256.c.  Line numbers are those of src/test_ntt_red16.c; src/test_naive_ntt16.c
and src/test_ntt16.c are cited where they differ.

What a program reads from its environment is a `World`: the results of `random()`, the cycle
counter and the contents of uninitialised arrays.  A counter `k` of such events is threaded through
the functions, so every event has its own value.  `printf` is not modelled, except that the pairs
(median, average) displayed by the speed tests are collected in a list.  `exit(1)` after a message
of failure is the error `abort`.  `uint32_t` counters wrap.
-/

namespace TestProg
open C Tables

/-- The environment: `random()` returns a `long` between 0 and 2^31-1, `cpucycles()` returns any
`uint64_t`, and a local array starts with any contents. -/
structure World where
  random : Nat → Nat
  cycles : Nat → Nat
  junk : Nat → Array Int

/-- `for (i=0; i<n; i++) { if (...) return false; ... } return true;`: the body gives the next state
or `none` for `return false`. -/
def scan {σ : Type} (n : Nat) (body : Nat → σ → M (Option σ)) : Nat → Nat → σ → M Bool
  | 0, _, _ => .error .nonterm
  | fuel + 1, i, s =>
    if i < n then do
      match ← body i s with
      | none => pure false
      | some s => scan n body fuel (u32 (i + 1)) s
    else pure true

/-- `equal_arrays` (src/test_ntt_red16.c:93-100). -/
def equal_arrays (a b : Array Int) (n : Nat) : M Bool :=
  scan n (fun i (_ : Unit) => do
    let x ← rd a i
    let y ← rd b i
    pure (if x ≠ y then none else some ())) (n + 1) 0 ()

/-- `simple_poly` (src/test_ntt_red16.c:105-114). -/
def simple_poly (a : Array Int) (k n : Nat) : M (Array Int) := do
  cassert (decide (k < n))
  let a ← forUp 0 n 1 (fun i a => wr a i 0) a
  wr a k 1

/-- `random_coeff` (src/test_ntt_red16.c:119-125). -/
def random_coeff (w : World) (k : Nat) : M (Int × Nat) := do
  let r ← crem (w.random k) 12289
  let x := toI32 r
  cassert (decide (0 ≤ x) && decide (x ≤ 12288))
  pure (x, k + 1)

/-- `random_poly` (src/test_ntt_red16.c:130-136). -/
def random_poly (w : World) (a : Array Int) (n k : Nat) : M (Array Int × Nat) :=
  forUp 0 n 1 (fun i s => do
    let x ← random_coeff w s.2
    let a ← wr s.1 i x.1
    pure (a, x.2)) (a, k)

/-- `power` (src/test_ntt_red16.c:153-165); the state of the loop is `(k, x, y)`. -/
def power (x : Int) (k : Nat) : M Int := do
  let s ← cwhile (fun s : Nat × Int × Int => decide (s.1 ≠ 0)) (fun s => do
    let y ← (if s.1 &&& 1 ≠ 0 then do let z ← i32 (s.2.2 * s.2.1); crem z 12289 else pure s.2.2)
    let z ← i32 (s.2.1 * s.2.1)
    let x ← crem z 12289
    pure (s.1 / 2, x, y)) 33 (k, x, 1)
  pure s.2.2

/-- `check_ntt_simple` (src/test_ntt_red16.c:173-184). -/
def check_ntt_simple (a : Array Int) (n k : Nat) (omega : Int) : M Bool := do
  let y ← power omega k
  scan n (fun i x => do
    let v ← rd a i
    if v ≠ x then pure none
    else do
      let z ← i32 (x * y)
      let x ← crem z 12289
      pure (some x)) (n + 1) 0 1

/-- `check_ntt_ntt_simple` (src/test_ntt_red16.c:192-204): `a[i] != n` compares `uint32_t` values. -/
def check_ntt_ntt_simple (a : Array Int) (n k : Nat) : M Bool := do
  cassert (decide (k < n))
  let j := if k = 0 then 0 else n - k
  scan n (fun i (_ : Unit) => do
    if i = j then do
      let v ← rd a i
      pure (if toU32 v ≠ n then none else some ())
    else do
      let v ← rd a i
      pure (if v ≠ 0 then none else some ())) (n + 1) 0 ()

/-- `equal_simple_poly` (src/test_ntt_red16.c:315-335). -/
def equal_simple_poly (c : Array Int) (n m : Nat) : M Bool := do
  cassert (decide (m < u32 (2 * n)))
  let j := if m ≥ n then m - n else m
  let val : Int := if m ≥ n then 12288 else 1
  scan n (fun i (_ : Unit) => do
    let v ← rd c i
    pure (if (i = j ∧ v ≠ val) ∨ (i ≠ j ∧ v ≠ 0) then none else some ())) (n + 1) 0 ()

/-- `ntt16_normalize` (src/test_naive_ntt16.c:150-156). -/
def add_q (a : Array Int) (n : Nat) : M (Array Int) :=
  forUp 0 n 1 (fun i a => do
    let x ← rd a i
    if x < 0 then do
      let y ← i32 (x + 12289)
      wr a i y
    else pure a) a

/-- The three kinds of files: src/test_naive_ntt<n>.c, src/test_ntt<n>.c, and src/test_ntt_red<n>.c
or src/test_ntt_red_asm<n>.c. -/
inductive Variant where
  | naive
  | exact
  | red

/-- What the files are specialised for: the size, the table for the shuffle, constants of the table
files, and the functions tested. -/
structure Lib where
  variant : Variant
  /-- `check_inverse` calls `shift_array` (src/test_ntt_red256.c:275, 278,
  src/test_ntt_red_asm256.c:276, 279) -/
  shifts : Bool
  n : Nat
  bitrev : Array (Nat × Nat)
  npairs : Nat
  omega : Int
  inv_omega : Int
  inv_n : Int
  ct_rev2std : Array Int → M (Array Int)
  gs_rev2std : Array Int → M (Array Int)
  ct_std2rev : Array Int → M (Array Int)
  gs_std2rev : Array Int → M (Array Int)
  inv_ct_rev2std : Array Int → M (Array Int)
  inv_gs_rev2std : Array Int → M (Array Int)
  inv_ct_std2rev : Array Int → M (Array Int)
  inv_gs_std2rev : Array Int → M (Array Int)
  product1 : Array Int → Array Int → Array Int → M (Array Int × Array Int × Array Int)
  product2 : Array Int → Array Int → Array Int → M (Array Int × Array Int × Array Int)
  product3 : Array Int → Array Int → Array Int → M (Array Int × Array Int × Array Int)
  product4 : Array Int → Array Int → Array Int → M (Array Int × Array Int × Array Int)
  product5 : Array Int → Array Int → Array Int → M (Array Int × Array Int × Array Int)

section
variable (L : Lib) (w : World)

/-- `shift_array(a, n)` in the files for the Longa-Naehrig functions. -/
def shiftIf (b : Bool) (a : Array Int) : M (Array Int) :=
  if b then NttRed.shift_array a L.n else pure a

/-- `apply_ntt16` (src/test_ntt_red16.c:212-224, src/test_ntt16.c:212-220). -/
def apply_ntt (a : Array Int) (f : Array Int → M (Array Int)) (std2rev : Bool) : M (Array Int) :=
  match L.variant with
  | .red =>
    if std2rev then do
      let a ← NttRed.shift_array a L.n
      let a ← f a
      let a ← Ntt.shuffle_with_table a L.bitrev L.npairs
      NttRed.normalize a L.n
    else do
      let a ← NttRed.shift_array a L.n
      let a ← Ntt.shuffle_with_table a L.bitrev L.npairs
      let a ← f a
      NttRed.normalize a L.n
  | _ =>
    if std2rev then do
      let a ← f a
      Ntt.shuffle_with_table a L.bitrev L.npairs
    else do
      let a ← Ntt.shuffle_with_table a L.bitrev L.npairs
      f a

/-- The call `ntt16_normalize(a, 16)` of src/test_naive_ntt16.c:253, 261, 287, 350; absent in the
other files. -/
def fixSigns (a : Array Int) : M (Array Int) :=
  match L.variant with
  | .naive => add_q a L.n
  | _ => pure a

/-- One iteration of `test_simple_polys` (src/test_ntt_red16.c:242-258,
src/test_naive_ntt16.c:249-267). -/
def test_simple_poly (f : Array Int → M (Array Int)) (omega : Int) (std2rev : Bool) (j : Nat)
    (a : Array Int) : M (Array Int) := do
  let a ← simple_poly a j L.n
  let a ← apply_ntt L a f std2rev
  let a ← fixSigns L a
  let b ← check_ntt_simple a L.n j omega
  if !b then .error .abort
  else do
    let a ← apply_ntt L a f std2rev
    let a ← fixSigns L a
    let b ← check_ntt_ntt_simple a L.n j
    if !b then .error .abort else pure a

/-- `test_simple_polys` (src/test_ntt_red16.c:234-260): returns the event counter. -/
def test_simple_polys (f : Array Int → M (Array Int)) (omega : Int) (std2rev : Bool) (k : Nat) :
    M Nat := do
  let _ ← forUp 0 L.n 1 (test_simple_poly L f omega std2rev) (w.junk k)
  pure (k + 1)

/-- `check_inverse` (src/test_ntt_red16.c:266-293, src/test_naive_ntt16.c:275-299,
src/test_ntt16.c:259-284); `b` has the initial contents of the local array. -/
def check_inverse (a b : Array Int) (forward inverse : Array Int → M (Array Int)) : M Unit := do
  let b ← forUp 0 L.n 1 (fun i b => do let x ← rd a i; wr b i x) b
  let b ← (match L.variant with
    | .red => do
      let b ← shiftIf L L.shifts b
      let b ← forward b
      let b ← NttRed.normalize b L.n
      let b ← shiftIf L L.shifts b
      let b ← inverse b
      let b ← NttRed.normalize b L.n
      Ntt.scalar_mul_array b L.n L.inv_n
    | .exact => do
      let b ← forward b
      let b ← inverse b
      Ntt.scalar_mul_array b L.n L.inv_n
    | .naive => do
      let b ← forward b
      let b ← inverse b
      let b ← Naive.scalar_mul_array b L.n L.inv_n 12289
      add_q b L.n)
  let e ← equal_arrays a b L.n
  if !e then .error .abort else pure ()

/-- `test_forward_inverse` (src/test_ntt_red16.c:295-307). -/
def test_forward_inverse (forward inverse : Array Int → M (Array Int)) (k : Nat) : M Nat := do
  let s ← forUp 0 1000 1 (fun _ s => do
    let r ← random_poly w s.1 L.n s.2
    check_inverse L r.1 (w.junk r.2) forward inverse
    pure (r.1, r.2 + 1)) (w.junk k, k + 1)
  pure s.2

/-- `test_simple_product` (src/test_ntt_red16.c:338-351, src/test_naive_ntt16.c:344-360). -/
def test_simple_product (f : Array Int → Array Int → Array Int → M (Array Int × Array Int × Array Int))
    (n m k : Nat) : M Nat := do
  let a ← simple_poly (w.junk k) n L.n
  let b ← simple_poly (w.junk (k + 1)) m L.n
  let r ← f (w.junk (k + 2)) a b
  let c ← fixSigns L r.1
  let e ← equal_simple_poly c L.n (u32 (n + m))
  if !e then .error .abort else pure (k + 3)

/-- `test_simple_products` (src/test_ntt_red16.c:353-364). -/
def test_simple_products
    (f : Array Int → Array Int → Array Int → M (Array Int × Array Int × Array Int)) (k : Nat) : M Nat :=
  forUp 0 L.n 1 (fun n k => forUp 0 L.n 1 (fun m k => test_simple_product L w f n m k) k) k

/-- The tests of `main` (src/test_ntt_red16.c:426-447): returns the event counter. -/
def tests (k : Nat) : M Nat := do
  let k ← test_simple_polys L w L.ct_rev2std L.omega false k
  let k ← test_simple_polys L w L.gs_rev2std L.omega false k
  let k ← test_simple_polys L w L.ct_std2rev L.omega true k
  let k ← test_simple_polys L w L.gs_std2rev L.omega true k
  let k ← test_simple_polys L w L.inv_ct_rev2std L.inv_omega false k
  let k ← test_simple_polys L w L.inv_gs_rev2std L.inv_omega false k
  let k ← test_simple_polys L w L.inv_ct_std2rev L.inv_omega true k
  let k ← test_simple_polys L w L.inv_gs_std2rev L.inv_omega true k
  let k ← test_forward_inverse L w L.ct_std2rev L.inv_ct_rev2std k
  let k ← test_forward_inverse L w L.inv_ct_rev2std L.ct_std2rev k
  let k ← test_forward_inverse L w L.ct_std2rev L.inv_gs_rev2std k
  let k ← test_forward_inverse L w L.inv_gs_rev2std L.ct_std2rev k
  let k ← test_forward_inverse L w L.gs_std2rev L.inv_gs_rev2std k
  let k ← test_forward_inverse L w L.inv_gs_rev2std L.gs_std2rev k
  let k ← test_simple_products L w L.product1 k
  let k ← test_simple_products L w L.product2 k
  let k ← test_simple_products L w L.product3 k
  let k ← test_simple_products L w L.product4 k
  test_simple_products L w L.product5 k

end

/-! ### Speed tests -/

/-- src/test_ntt_red16.c:31 -/
def NTESTS : Nat := 102400

/-- `average_time` (src/test_ntt_red16.c:36-45). -/
def average_time (t : Array Nat) : M Nat := do
  let s ← forUp 0 NTESTS 1 (fun i s => do
    let x ← rd t i
    pure (u64 (s + x))) 0
  udiv s NTESTS

/-- `median_time` (src/test_ntt_red16.c:48-60): the sorted array and the result. -/
def median_time (t : Array Nat) : M (Array Nat × Nat) := do
  let t ← IntSort.sort t NTESTS
  let _ ← forUp 1 NTESTS 1 (fun i _ => do
    let x ← rd t i
    let y ← rd t (i - 1)
    if x < y then .error .abort else pure ()) ()
  let m ← rd t (NTESTS / 2)
  pure (t, m)

/-- The loop that replaces times by durations (src/test_ntt_red16.c:383-387); `c` is the last time. -/
def durations (t : Array Nat) (c : Nat) : M (Array Nat) := do
  let t ← forUp 0 (NTESTS - 1) 1 (fun i t => do
    let y ← rd t (i + 1)
    let x ← rd t i
    wr t i (u64 (y + (18446744073709551616 - x)))) t
  let x ← rd t (NTESTS - 1)
  wr t (NTESTS - 1) (u64 (c + (18446744073709551616 - x)))

/-- State of the speed tests: the global array `t`, the event counter, and the pairs
(median, average) displayed so far. -/
structure Speed where
  t : Array Nat
  k : Nat
  shown : List (Nat × Nat)

section
variable (n : Nat) (w : World)

/-- `for (i=0; i<n; i++) a[i] = i;` (src/test_ntt_red16.c:374-376). -/
def iota (a : Array Int) : M (Array Int) :=
  forUp 0 n 1 (fun i a => wr a i (toI32 i)) a

/-- The measurements (src/test_ntt_red16.c:378-393, 410-424): `f` is called on a state of type
`σ` `NTESTS` times. -/
def measure {σ : Type} (f : σ → M σ) (x : σ) (s : Speed) : M Speed := do
  let r ← forUp 0 NTESTS 1 (fun i (s : Array Nat × σ × Nat) => do
    let t ← wr s.1 i (w.cycles s.2.2)
    let x ← f s.2.1
    pure (t, x, s.2.2 + 1)) (s.t, x, s.k)
  let t ← durations r.1 (w.cycles r.2.2)
  let avg ← average_time t
  let m ← median_time t
  pure ⟨m.1, r.2.2 + 1, s.shown ++ [(m.2, avg)]⟩

/-- `speed_test` (src/test_ntt_red16.c:369-392). -/
def speed_test (f : Array Int → M (Array Int)) (s : Speed) : M Speed := do
  let a ← iota n (w.junk s.k)
  measure w f a { s with k := s.k + 1 }

/-- `speed_test2` (src/test_ntt_red16.c:396-423): the state is `(d, a, b)`. -/
def speed_test2 (f : Array Int → Array Int → Array Int → M (Array Int × Array Int × Array Int))
    (s : Speed) : M Speed := do
  let r ← forUp 0 n 1 (fun i (r : Array Int × Array Int) => do
    let a ← wr r.1 i (toI32 i)
    let b ← wr r.2 i (toI32 i)
    pure (a, b)) (w.junk s.k, w.junk (s.k + 1))
  measure w (fun x : Array Int × Array Int × Array Int => f x.1 x.2.1 x.2.2)
    (w.junk (s.k + 2), r.1, r.2) { s with k := s.k + 3 }

end

section
variable (L : Lib) (w : World)

/-- The speed tests of `main` (src/test_ntt_red16.c:449-464). -/
def speeds (s : Speed) : M Speed := do
  let s ← speed_test L.n w L.ct_rev2std s
  let s ← speed_test L.n w L.gs_rev2std s
  let s ← speed_test L.n w L.ct_std2rev s
  let s ← speed_test L.n w L.gs_std2rev s
  let s ← speed_test L.n w L.inv_ct_rev2std s
  let s ← speed_test L.n w L.inv_gs_rev2std s
  let s ← speed_test L.n w L.inv_ct_std2rev s
  let s ← speed_test L.n w L.inv_gs_std2rev s
  let s ← speed_test2 L.n w L.product1 s
  let s ← speed_test2 L.n w L.product2 s
  let s ← speed_test2 L.n w L.product3 s
  let s ← speed_test2 L.n w L.product4 s
  speed_test2 L.n w L.product5 s

/-- `main` (src/test_ntt_red16.c:426-467): the pairs (median, average) displayed.  `t` is a static
array, initially 0. -/
def main : M (List (Nat × Nat)) := do
  let k ← tests L w 0
  let s ← speeds L w ⟨Array.replicate NTESTS 0, k, []⟩
  pure s.shown

/-- `main` of src/test_ntt_red_asm16.c:427-474: `avx` is the result of `avx2_supported()`. -/
def main_asm (avx : Bool) : M (List (Nat × Nat)) :=
  if !avx then pure [] else main L w

end

/-! ### The sixteen programs -/

section
variable (n : Nat) (bitrev : Array (Nat × Nat)) (npairs : Nat)

/-- src/test_naive_ntt<n>.c (src/test_naive_ntt16.c:434-455) -/
def naiveLib (t : Nttables) : Lib where
  variant := .naive
  shifts := false
  n := n
  bitrev := bitrev
  npairs := npairs
  omega := t.omega
  inv_omega := t.inv_omega
  inv_n := t.inv_n
  ct_rev2std := Naive.fwd_ct_rev2std t n
  gs_rev2std := Naive.fwd_gs_rev2std t n
  ct_std2rev := Naive.fwd_ct_std2rev t n
  gs_std2rev := Naive.fwd_gs_std2rev t n
  inv_ct_rev2std := Naive.intt_ct_rev2std t n
  inv_gs_rev2std := Naive.intt_gs_rev2std t n
  inv_ct_std2rev := Naive.intt_ct_std2rev t n
  inv_gs_std2rev := Naive.intt_gs_std2rev t n
  product1 := Naive.product1 t n
  product2 := Naive.product2 t n
  product3 := Naive.product3 t n
  product4 := Naive.product4 t n
  product5 := Naive.product5 t n

/-- src/test_ntt<n>.c (src/test_ntt16.c:417-438) -/
def exactLib (t : Nttables) : Lib where
  variant := .exact
  shifts := false
  n := n
  bitrev := bitrev
  npairs := npairs
  omega := t.omega
  inv_omega := t.inv_omega
  inv_n := t.inv_n
  ct_rev2std := Ntt.fwd_ct_rev2std t n
  gs_rev2std := Ntt.fwd_gs_rev2std t n
  ct_std2rev := Ntt.fwd_ct_std2rev t n
  gs_std2rev := Ntt.fwd_gs_std2rev t n
  inv_ct_rev2std := Ntt.intt_ct_rev2std t n
  inv_gs_rev2std := Ntt.intt_gs_rev2std t n
  inv_ct_std2rev := Ntt.intt_ct_std2rev t n
  inv_gs_std2rev := Ntt.intt_gs_std2rev t n
  product1 := Ntt.product1 t n
  product2 := Ntt.product2 t n
  product3 := Ntt.product3 t n
  product4 := Ntt.product4 t n
  product5 := Ntt.product5 t n

/-- src/test_ntt_red<n>.c (src/test_ntt_red16.c:426-447); `sh` tells whether the products shift their
operands (all sizes but 1024), `shifts` is true for 256. -/
def redLib (shifts sh : Bool) (t : RedTables) : Lib where
  variant := .red
  shifts := shifts
  n := n
  bitrev := bitrev
  npairs := npairs
  omega := t.omega
  inv_omega := t.inv_omega
  inv_n := t.inv_n
  ct_rev2std := NttRed.fwd_ct_rev2std t n
  gs_rev2std := NttRed.fwd_gs_rev2std t n
  ct_std2rev := NttRed.fwd_ct_std2rev t n
  gs_std2rev := NttRed.fwd_gs_std2rev t n
  inv_ct_rev2std := NttRed.intt_ct_rev2std t n
  inv_gs_rev2std := NttRed.intt_gs_rev2std t n
  inv_ct_std2rev := NttRed.intt_ct_std2rev t n
  inv_gs_std2rev := NttRed.intt_gs_std2rev t n
  product1 := NttRed.product1 t n sh
  product2 := NttRed.product2 t n sh
  product3 := NttRed.product3 t n sh
  product4 := NttRed.product4 t n sh
  product5 := NttRed.product5 t n sh

/-- src/test_ntt_red_asm<n>.c (src/test_ntt_red_asm16.c:433-454); `up` is the upper half of the
register that carries the scalar argument in product5, `p1` is `product1` of the size. -/
def asmLib (shifts sh : Bool) (up : Int) (t : RedTables)
    (p1 : Array Int → Array Int → Array Int → M (Array Int × Array Int × Array Int)) : Lib where
  variant := .red
  shifts := shifts
  n := n
  bitrev := bitrev
  npairs := npairs
  omega := t.omega
  inv_omega := t.inv_omega
  inv_n := t.inv_n
  ct_rev2std := AsmProducts.fwd_ct_rev2std t n
  gs_rev2std := AsmProducts.fwd_gs_rev2std t n
  ct_std2rev := AsmProducts.fwd_ct_std2rev t n
  gs_std2rev := AsmProducts.fwd_gs_std2rev t n
  inv_ct_rev2std := AsmProducts.intt_ct_rev2std t n
  inv_gs_rev2std := AsmProducts.intt_gs_rev2std t n
  inv_ct_std2rev := AsmProducts.intt_ct_std2rev t n
  inv_gs_std2rev := AsmProducts.intt_gs_std2rev t n
  product1 := p1
  product2 := AsmProducts.product2 t n sh
  product3 := AsmProducts.product3 t n sh
  product4 := AsmProducts.product4 t n sh
  product5 := AsmProducts.product5 t n up sh

end

/-- The tables for the shuffles: `#include "bitrev<n>_table.h"` (src/test_ntt_red16.c:12). -/
def shuffleTable : Nat → Array (Nat × Nat) × Nat
  | 16 => (bitrev16, BITREV16_NPAIRS)
  | 256 => (bitrev256, BITREV256_NPAIRS)
  | 512 => (bitrev512, BITREV512_NPAIRS)
  | 1024 => (bitrev1024, BITREV1024_NPAIRS)
  | _ => (#[], 0)

/-- src/test_naive_ntt16.c, src/test_naive_ntt256.c, src/test_naive_ntt512.c,
src/test_naive_ntt1024.c -/
def naiveTest (n : Nat) (t : Nttables) : Lib :=
  naiveLib n (shuffleTable n).1 (shuffleTable n).2 t

/-- src/test_ntt16.c, src/test_ntt256.c, src/test_ntt512.c, src/test_ntt1024.c -/
def exactTest (n : Nat) (t : Nttables) : Lib :=
  exactLib n (shuffleTable n).1 (shuffleTable n).2 t

/-- src/test_ntt_red16.c, src/test_ntt_red256.c, src/test_ntt_red512.c, src/test_ntt_red1024.c -/
def redTest (n : Nat) (t : RedTables) : Lib :=
  redLib n (shuffleTable n).1 (shuffleTable n).2 (n == 256) (n != 1024) t

/-- src/test_ntt_red_asm16.c, src/test_ntt_red_asm256.c, src/test_ntt_red_asm512.c,
src/test_ntt_red_asm1024.c -/
def asmTest (n : Nat) (up : Int) (t : RedTables) : Lib :=
  asmLib n (shuffleTable n).1 (shuffleTable n).2 (n == 256) (n != 1024) up t
    (if n = 1024 then AsmProducts.product1_1024 t n else AsmProducts.product1 t n (n != 1024))

end TestProg
