import Verif.CSem

/-
Model of src/test_shift.c.  A line printed is a constructor with the numbers in it.
-/

namespace TestShift
open C

/-- The lines printed (src/test_shift.c:5-6, 10-11); the last number is the result. -/
inductive Line where
  | shift31 (x r : Int)
  | shift11 (x r : Int)
  | and31 (x q r : Int)
  | and11 (x q r : Int)
  deriving DecidableEq, Repr

/-- `print_shift` (src/test_shift.c:4-7). -/
def print_shift (x : Int) : List Line := [.shift31 x (sar x 31), .shift11 x (sar x 11)]

/-- `print_shift_and` (src/test_shift.c:9-12). -/
def print_shift_and (x q : Int) : List Line := [.and31 x q (land32 (sar x 31) q), .and11 x q (land32 (sar x 11) q)]

/-- `main` (src/test_shift.c:14-25): the lines, in order.  The counter is an `int32_t` and stays between 0 and 1003. -/
def main : M (List Line) :=
  forUp 0 1003 1 (fun i l => do
    let ni ← i32 (-(i : Int))
    pure (l ++ print_shift i ++ print_shift ni ++ print_shift_and i 12289 ++ print_shift_and ni 12289)) []

end TestShift
