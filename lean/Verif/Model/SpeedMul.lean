import Verif.Model.TestPrograms

/-
Model of the four programs src/speed_mul1024.c, src/speed_mul1024_naive.c, src/speed_mul1024_red.c and
src/speed_mul1024_red_asm.c.  They are the same text up to the names of the five functions they measure; line numbers
refer to src/speed_mul1024_red.c.  `average_time` and `median_time` (28-52) are those of src/test_ntt_red16.c:36-60, and
`cpucycles()` (16-21) is the next clock reading of the world, as in `Verif/Model/TestPrograms.lean`.  The texts printed are
not modelled, only the numbers.
-/

namespace SpeedMul
open C TestProg Tables

/-- A product function: the three arrays that it gets, and what it leaves in them. -/
abbrev Product := Array Int → Array Int → Array Int → M (Array Int × Array Int × Array Int)

/-- `print_results` (src/speed_mul1024_red.c:54-66): the array `t` that it leaves, the median and the average.  The median
comes first, so that the average is taken over the sorted array. -/
def print_results (t : Array Nat) (c : Nat) : M (Array Nat × Nat × Nat) := do
  let t ← durations t c
  let m ← median_time t
  let avg ← average_time m.1
  pure (m.1, m.2, avg)

/-- The array `t` (src/speed_mul1024_red.c:25), the number of clock readings so far, the pairs displayed so far and the
local arrays of `test_mul` (69). -/
structure State where
  t : Array Nat
  k : Nat
  shown : List (Nat × Nat)
  c : Array Int
  a : Array Int
  b : Array Int

/-- One measurement (src/speed_mul1024_red.c:72-81, 83-92, 94-103, 105-114, 116-125). -/
def block (w : World) (f : Product) (s : State) : M State := do
  let r ← forUp 0 1024 1 (fun i (r : Array Int × Array Int) => do
    let a ← wr r.1 i (toI32 i)
    let b ← wr r.2 i (toI32 i)
    pure (a, b)) (s.a, s.b)
  let q ← forUp 0 NTESTS 1 (fun i (x : Array Nat × (Array Int × Array Int × Array Int) × Nat) => do
    let t ← wr x.1 i (w.cycles x.2.2)
    let y ← f x.2.1.1 x.2.1.2.1 x.2.1.2.2
    pure (t, y, x.2.2 + 1)) (s.t, (s.c, r.1, r.2), s.k)
  let p ← print_results q.1 (w.cycles q.2.2)
  pure ⟨p.1, q.2.2 + 1, s.shown ++ [p.2], q.2.1.1, q.2.1.2.1, q.2.1.2.2⟩

/-- `test_mul` (src/speed_mul1024_red.c:68-126). -/
def test_mul (w : World) (p1 p2 p3 p4 p5 : Product) (s : State) : M State := do
  let s ← block w p1 s
  let s ← block w p2 s
  let s ← block w p3 s
  let s ← block w p4 s
  block w p5 s

/-- `main` (src/speed_mul1024_red.c:128-132): the pairs displayed.  The global array is initially 0, the local arrays hold
any values. -/
def main (w : World) (p1 p2 p3 p4 p5 : Product) : M (List (Nat × Nat)) := do
  let s ← test_mul w p1 p2 p3 p4 p5 ⟨Array.replicate NTESTS 0, 0, [], w.junk 0, w.junk 1, w.junk 2⟩
  pure s.shown

/-- src/speed_mul1024.c -/
def exact (w : World) (t : Nttables) : M (List (Nat × Nat)) :=
  main w (Ntt.product1 t 1024) (Ntt.product2 t 1024) (Ntt.product3 t 1024) (Ntt.product4 t 1024) (Ntt.product5 t 1024)

/-- src/speed_mul1024_naive.c -/
def naive (w : World) (t : Nttables) : M (List (Nat × Nat)) :=
  main w (Naive.product1 t 1024) (Naive.product2 t 1024) (Naive.product3 t 1024) (Naive.product4 t 1024)
    (Naive.product5 t 1024)

/-- src/speed_mul1024_red.c; the products of src/ntt_red1024.c do not shift their operands. -/
def red (w : World) (t : RedTables) : M (List (Nat × Nat)) :=
  main w (NttRed.product1 t 1024 false) (NttRed.product2 t 1024 false) (NttRed.product3 t 1024 false)
    (NttRed.product4 t 1024 false) (NttRed.product5 t 1024 false)

/-- src/speed_mul1024_red_asm.c, on a processor with AVX2 (the program does not check); `up` is the upper half of the
register with the scalar argument in the fifth product. -/
def asm (w : World) (up : Int) (t : RedTables) : M (List (Nat × Nat)) :=
  main w (AsmProducts.product1_1024 t 1024) (AsmProducts.product2 t 1024 false) (AsmProducts.product3 t 1024 false)
    (AsmProducts.product4 t 1024 false) (AsmProducts.product5 t 1024 up false)

end SpeedMul
