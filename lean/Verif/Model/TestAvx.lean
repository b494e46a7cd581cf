import Verif.Model.TestPrograms
import Verif.Model.NttAsm
import Verif.Model.Tables

/-
Model of src/test_avx.c: comparison of the assembler functions on arrays with those of src/ntt_red.c.  The conventions are those of
Model/TestPrograms.lean: `random()`, `cpucycles()` and the contents of uninitialised arrays come from a `World`, `exit(1)` after a
failure is the error `abort`, and printing is dropped except the pairs shown by the speed tests.

`2 * n` in `random_coeff` overflows for the argument 0x40000000.  The flag `wrap` says what it does then: undefined behaviour if
false (C), the value modulo 2^32 if true (e.g. gcc -fwrapv).  Loops that consume random numbers until they find a good pair are
limited by `fuel`.
-/

namespace TestAvx
open C TestProg

/-- The environment; a local array of `n` elements starts with the contents `junk n k`. -/
structure World where
  random : Nat → Nat
  cycles : Nat → Nat
  junk : Nat → Nat → Array Int

section
variable (wrap : Bool) (fuel : Nat) (w : World)

/-- `random_coeff` (src/test_avx.c:124-133). -/
def random_coeff (n : Int) (k : Nat) : M (Int × Nat) := do
  cassert (decide (n > 0))
  let m ← (if wrap then pure (toI32 (2 * n)) else i32 (2 * n))
  let r ← crem (w.random k) m
  let x ← i32 (toI32 r - n)
  cassert (decide (-n ≤ x) && decide (x ≤ n - 1))
  pure (x, k + 1)

/-- `random_array` (src/test_avx.c:139-145). -/
def random_array (a : Array Int) (n k : Nat) : M (Array Int × Nat) :=
  forUp 0 n 1 (fun i s => do
    let x ← random_coeff wrap w 1073741824 s.2
    let a ← wr s.1 i x.1
    pure (a, x.2)) (a, k)

/-- `random_array16` (src/test_avx.c:148-154). -/
def random_array16 (p : Array Int) (n k : Nat) : M (Array Int × Nat) :=
  forUp 0 n 1 (fun i s => do
    let x ← random_coeff wrap w 32768 s.2
    let a ← wr s.1 i (Tables.toI16 x.1)
    pure (a, x.2)) (p, k)

/-- `copy_array` (src/test_avx.c:159-165). -/
def copy_array (b a : Array Int) (n : Nat) : M (Array Int) :=
  forUp 0 n 1 (fun i b => do let x ← rd a i; wr b i x) b

/-- `cross_check` (src/test_avx.c:173-192): the event counter. -/
def cross_check (n : Nat) (f g : Array Int → Nat → M (Array Int)) (k : Nat) : M Nat := do
  let s ← forUp 0 10000 1 (fun _ (s : Array Int × Array Int × Nat) => do
    let r ← random_array wrap w s.1 n s.2.2
    let b ← copy_array s.2.1 r.1 n
    let a ← f r.1 n
    let b ← g b n
    let e ← equal_arrays a b n
    if !e then .error .abort else pure (a, b, r.2)) (w.junk n k, w.junk n (k + 1), k + 2)
  pure s.2.2

/-- `random_elem_for_correct` (src/test_avx.c:298-305). -/
def random_elem_for_correct (k : Nat) : M (Int × Nat) := do
  let r ← crem (w.random k) (3 * 12289)
  let x ← i32 (toI32 r - 12289)
  cassert (decide (-12289 ≤ x) && decide (x ≤ 2 * 12289 - 1))
  pure (x, k + 1)

/-- `random_array_for_correct` (src/test_avx.c:307-313). -/
def random_array_for_correct (a : Array Int) (n k : Nat) : M (Array Int × Nat) :=
  forUp 0 n 1 (fun i s => do
    let x ← random_elem_for_correct w s.2
    let a ← wr s.1 i x.1
    pure (a, x.2)) (a, k)

/-- `random_array_for_shift` (src/test_avx.c:345-351). -/
def random_array_for_shift (a : Array Int) (n k : Nat) : M (Array Int × Nat) :=
  forUp 0 n 1 (fun i s => do
    let r ← crem (w.random s.2) 12289
    let a ← wr s.1 i (toI32 r)
    pure (a, s.2 + 1)) (a, k)

/-- `test_correction` and `test_shift` (src/test_avx.c:315-338, 353-376), with the functions that fill the array, the function tested
and the reference. -/
def test_with (gen : Array Int → Nat → Nat → M (Array Int × Nat)) (f g : Array Int → Nat → M (Array Int)) (n k : Nat) : M Nat := do
  let s ← forUp 0 10000 1 (fun _ (s : Array Int × Array Int × Array Int × Nat) => do
    let r ← gen s.1 n s.2.2.2
    let b ← copy_array s.2.1 r.1 n
    let c ← copy_array s.2.2.1 r.1 n
    let a ← f r.1 n
    let b ← g b n
    let e ← equal_arrays a b n
    if !e then .error .abort else pure (a, b, c, r.2)) (w.junk n k, w.junk n (k + 1), w.junk n (k + 2), k + 3)
  pure s.2.2.2

/-- `test_correction` (src/test_avx.c:315-338). -/
def test_correction (n k : Nat) : M Nat := test_with w (random_array_for_correct w) Asm.correct_asm NttRed.normalize n k

/-- `test_shift` (src/test_avx.c:353-376). -/
def test_shift (n k : Nat) : M Nat := test_with w (random_array_for_shift w) Asm.shift_array_asm NttRed.shift_array n k

/-- `random_arrays_for_mul_reduce16` (src/test_avx.c:382-400); the state is `(a, p, i, k)`. -/
def random_arrays_for_mul_reduce16 (a p : Array Int) (n k : Nat) : M (Array Int × Array Int × Nat) := do
  let s ← cwhile (fun s : Array Int × Array Int × Nat × Nat => decide (s.2.2.1 < n)) (fun s => do
    let x ← random_coeff wrap w 1073741824 s.2.2.2
    let y ← random_coeff wrap w 32768 x.2
    cassert (decide (-32768 ≤ y.1) && decide (y.1 ≤ 32767))
    let z ← i64 (x.1 * y.1)
    if -8796042698752 ≤ z ∧ z ≤ 8796093026303 then do
      let a ← wr s.1 s.2.2.1 x.1
      let p ← wr s.2.1 s.2.2.1 (Tables.toI16 y.1)
      pure (a, p, u32 (s.2.2.1 + 1), y.2)
    else pure (s.1, s.2.1, s.2.2.1, y.2)) fuel (a, p, 0, k)
  pure (s.1, s.2.1, s.2.2.2)

/-- The loop that halves `y` until the product is within the bounds (src/test_avx.c:412-416): the state is `(y, z)`. -/
def halve (x y : Int) : M Int := do
  let z ← i64 (x * y)
  let s ← cwhile (fun s : Int × Int => decide (s.2 < -8796042698752) || decide (s.2 > 8796093026303)) (fun s => do
    let y := sar s.1 1
    let z ← i64 (x * y)
    pure (y, z)) 33 (y, z)
  pure s.1

/-- `random_arrays_for_mul_reduce` (src/test_avx.c:402-421); the state is `(a, b, i, k)`. -/
def random_arrays_for_mul_reduce (a b : Array Int) (n k : Nat) : M (Array Int × Array Int × Nat) := do
  let s ← forUp 0 n 1 (fun i (s : Array Int × Array Int × Nat) => do
    let x ← random_coeff wrap w 1073741824 s.2.2
    let y ← random_coeff wrap w 1073741824 x.2
    let y' ← halve x.1 y.1
    let a ← wr s.1 i x.1
    let b ← wr s.2.1 i y'
    pure (a, b, y.2)) (a, b, k)
  pure s

/-- `test_mul_reduce_array16` (src/test_avx.c:423-449). -/
def test_mul_reduce_array16 (n k : Nat) : M Nat := do
  let s ← forUp 0 10000 1 (fun _ (s : Array Int × Array Int × Array Int × Array Int × Nat) => do
    let r ← random_arrays_for_mul_reduce16 wrap fuel w s.1 s.2.2.2.1 n s.2.2.2.2
    let b ← copy_array s.2.1 r.1 n
    let c ← copy_array s.2.2.1 r.1 n
    let a ← Asm.mul_reduce_array16_asm r.1 n r.2.1
    let b ← NttRed.mul_reduce_array16 b n r.2.1
    let e ← equal_arrays a b n
    if !e then .error .abort else pure (a, b, c, r.2.1, r.2.2))
    (w.junk n k, w.junk n (k + 1), w.junk n (k + 2), w.junk n (k + 3), k + 4)
  pure s.2.2.2.2

/-- `test_mul_reduce_array` (src/test_avx.c:451-477). -/
def test_mul_reduce_array (n k : Nat) : M Nat := do
  let s ← forUp 0 10000 1 (fun _ (s : Array Int × Array Int × Array Int × Array Int × Nat) => do
    let r ← random_arrays_for_mul_reduce wrap w s.2.1 s.2.2.1 n s.2.2.2.2
    let a ← Asm.mul_reduce_array_asm s.1 n r.1 r.2.1
    let d ← NttRed.mul_reduce_array s.2.2.2.1 n r.1 r.2.1
    let e ← equal_arrays a d n
    if !e then .error .abort else pure (a, r.1, r.2.1, d, r.2.2))
    (w.junk n k, w.junk n (k + 1), w.junk n (k + 2), w.junk n (k + 3), k + 4)
  pure s.2.2.2.2

/-- The loop that halves the scalar (src/test_avx.c:498-500). -/
def halve_scalar (min max x : Int) : M Int :=
  cwhile (fun x : Int => decide (x * min < -8796042698752) || decide (x * max > 8796093026303)) (fun x => pure (sar x 1)) 33 x

/-- `random_array_for_scalar_mul` (src/test_avx.c:484-502): the array, the scalar and the event counter; the state of the loop
is `(a, min, max, k)`. -/
def random_array_for_scalar_mul (a : Array Int) (n k : Nat) : M (Array Int × Int × Nat) := do
  let s ← forUp 0 n 1 (fun i (s : Array Int × Int × Int × Nat) => do
    let x ← random_coeff wrap w 1073741824 s.2.2.2
    let min := if x.1 < s.2.1 then x.1 else s.2.1
    let max := if x.1 > s.2.2.1 then x.1 else s.2.2.1
    let a ← wr s.1 i x.1
    pure (a, min, max, x.2)) (a, 2147483647, -2147483648, k)
  let x ← random_coeff wrap w 1073741824 s.2.2.2
  let c ← halve_scalar s.2.1 s.2.2.1 x.1
  pure (s.1, c, x.2)

/-- `test_scalar_mul_reduce_array` (src/test_avx.c:504-532). -/
def test_scalar_mul_reduce_array (n k : Nat) : M Nat := do
  let s ← forUp 0 10000 1 (fun _ (s : Array Int × Array Int × Array Int × Nat) => do
    let r ← random_array_for_scalar_mul wrap w s.1 n s.2.2.2
    let b ← copy_array s.2.1 r.1 n
    let d ← copy_array s.2.2.1 r.1 n
    let a ← Asm.scalar_mul_reduce_array_asm r.1 n r.2.1
    let b ← NttRed.scalar_mul_reduce_array b n r.2.1
    let e ← equal_arrays a b n
    if !e then .error .abort else pure (a, b, d, r.2.2)) (w.junk n k, w.junk n (k + 1), w.junk n (k + 2), k + 3)
  pure s.2.2.2

/-- The tests of `run_tests` for one size (src/test_avx.c:541-549). -/
def tests (n k : Nat) : M Nat := do
  let k ← cross_check wrap w n Asm.reduce_array_asm NttRed.reduce_array k
  let k ← cross_check wrap w n Asm.reduce_array_asm2 NttRed.reduce_array k
  let k ← cross_check wrap w n Asm.reduce_array_twice_asm NttRed.reduce_array_twice k
  let k ← cross_check wrap w n Asm.reduce_array_twice_asm2 NttRed.reduce_array_twice k
  let k ← test_correction w n k
  let k ← test_shift w n k
  let k ← test_mul_reduce_array16 wrap fuel w n k
  let k ← test_mul_reduce_array wrap w n k
  test_scalar_mul_reduce_array wrap w n k

/-- The global buffers of the speed tests (src/test_avx.c:201-204), with the array `t`, the event counter and the pairs shown. -/
structure Globals where
  a : Array Int
  b : Array Int
  d : Array Int
  p : Array Int
  s : Speed

/-- The measurements of `speed_test`, ..., `speed_test4` (src/test_avx.c:212-224, 235-247, 258-270, 279-291): `f` is called on the
array `NTESTS` times. -/
def measure (f : Array Int → M (Array Int)) (a : Array Int) (s : Speed) : M (Array Int × Speed) := do
  let r ← forUp 0 NTESTS 1 (fun i (s : Array Nat × Array Int × Nat) => do
    let t ← wr s.1 i (w.cycles s.2.2)
    let x ← f s.2.1
    pure (t, x, s.2.2 + 1)) (s.t, a, s.k)
  let t ← durations r.1 (w.cycles r.2.2)
  let avg ← average_time t
  let m ← median_time t
  pure (r.2.1, ⟨m.1, r.2.2 + 1, s.shown ++ [(m.2, avg)]⟩)

/-- `speed_test` (src/test_avx.c:206-225). -/
def speed_test (n : Nat) (f : Array Int → Nat → M (Array Int)) (g : Globals) : M Globals := do
  let r ← random_array wrap w g.a n g.s.k
  let m ← measure w (fun a => f a n) r.1 { g.s with k := r.2 }
  pure { g with a := m.1, s := m.2 }

/-- `speed_test2` (src/test_avx.c:228-248). -/
def speed_test2 (n : Nat) (f : Array Int → Nat → Array Int → M (Array Int)) (g : Globals) : M Globals := do
  let r ← random_array wrap w g.a n g.s.k
  let q ← random_array16 wrap w g.p n r.2
  let m ← measure w (fun a => f a n q.1) r.1 { g.s with k := q.2 }
  pure { g with a := m.1, p := q.1, s := m.2 }

/-- `speed_test3` (src/test_avx.c:251-271). -/
def speed_test3 (n : Nat) (f : Array Int → Nat → Array Int → Array Int → M (Array Int)) (g : Globals) : M Globals := do
  let r ← random_array wrap w g.b n g.s.k
  let q ← random_array wrap w g.d n r.2
  let m ← measure w (fun a => f a n r.1 q.1) g.a { g.s with k := q.2 }
  pure { g with a := m.1, b := r.1, d := q.1, s := m.2 }

/-- `speed_test4` (src/test_avx.c:274-292). -/
def speed_test4 (n : Nat) (f : Array Int → Nat → Int → M (Array Int)) (g : Globals) : M Globals := do
  let r ← random_array wrap w g.a n g.s.k
  let m ← measure w (fun a => f a n 273) r.1 { g.s with k := r.2 }
  pure { g with a := m.1, s := m.2 }

/-- The speed tests of `run_tests` for one size (src/test_avx.c:554-571). -/
def speed_tests (n : Nat) (g : Globals) : M Globals := do
  let g ← speed_test wrap w n NttRed.reduce_array g
  let g ← speed_test wrap w n NttRed.reduce_array_twice g
  let g ← speed_test wrap w n NttRed.correct g
  let g ← speed_test wrap w n NttRed.shift_array g
  let g ← speed_test2 wrap w n NttRed.mul_reduce_array16 g
  let g ← speed_test3 wrap w n NttRed.mul_reduce_array g
  let g ← speed_test4 wrap w n NttRed.scalar_mul_reduce_array g
  let g ← speed_test wrap w n Asm.reduce_array_asm g
  let g ← speed_test wrap w n Asm.reduce_array_asm2 g
  let g ← speed_test wrap w n Asm.reduce_array_twice_asm g
  let g ← speed_test wrap w n Asm.reduce_array_twice_asm2 g
  let g ← speed_test wrap w n Asm.correct_asm g
  let g ← speed_test wrap w n Asm.shift_array_asm g
  let g ← speed_test2 wrap w n Asm.mul_reduce_array16_asm g
  let g ← speed_test2 wrap w n Asm.mul_reduce_array16_asm2 g
  let g ← speed_test3 wrap w n Asm.mul_reduce_array_asm g
  speed_test4 wrap w n Asm.scalar_mul_reduce_array_asm g

/-- `run_tests` (src/test_avx.c:537-574): the pairs shown. -/
def run_tests : M (List (Nat × Nat)) := do
  let k ← [16, 32, 64, 128, 256, 512, 1024, 2048].foldlM (fun k n => tests wrap fuel w n k) 0
  let z := Array.replicate 2048 0
  let g ← [16, 32, 64, 128, 256, 512, 1024, 2048].foldlM (fun g n => speed_tests wrap w n g) ⟨z, z, z, z, ⟨Array.replicate NTESTS 0, k, []⟩⟩
  pure g.s.shown

/-- `main` (src/test_avx.c:576-584); `avx` says whether the processor supports AVX2. -/
def main (avx : Bool) : M (List (Nat × Nat)) := if avx then run_tests wrap fuel w else pure []

end
end TestAvx
