import Verif.CSem

/-
Model of src/test_mod.c: approximations of the remainder modulo Q by a product and a shift.  What the functions print is
returned as a value.
-/

namespace TestMod
open C

/-- `smodq` (src/test_mod.c:9-11). -/
def smodq (x : Int) : M Int := crem x 12289

/-- `umodq` (src/test_mod.c:13-15), not used by the program. -/
def umodq (x : Nat) : M Nat := urem x 12289

/-- `pmodq` (src/test_mod.c:17-21). -/
def pmodq (x : Int) : M Int := do
  let r ← smodq x
  if r < 0 then i32 (r + 12289) else pure r

/-- `approx_qinv` (src/test_mod.c:23-25), for `n < 64`. -/
def approx_qinv (n : Nat) : M Nat := do
  let y ← udiv (u64 (2 ^ n)) 12289
  pure (u32 (u64 (y + 1)))

/-- `approx_divq` (src/test_mod.c:26-28), for `n < 64`. -/
def approx_divq (x n : Nat) : M Nat := do
  let y ← approx_qinv n
  pure (u32 (u64 (x * y) / 2 ^ n))

/-- `approx_modq` (src/test_mod.c:30-32). -/
def approx_modq (x n : Nat) : M Nat := do
  let y ← approx_divq x n
  pure (u32 (x + (4294967296 - u32 (y * 12289))))

/-- The loop of `test_approx` (src/test_mod.c:38-45): the value for which the approximation fails. -/
def approx_loop (n : Nat) : Nat → Nat → M (Option Nat)
  | 0, _ => .error .nonterm
  | fuel + 1, x => do
    let y ← approx_modq x n
    let z ← urem x 12289
    if y ≠ z then pure (some x) else
      let x := u32 (x + 1)
      if x ≤ 150994944 then approx_loop n fuel x else pure none

/-- `test_approx` (src/test_mod.c:34-48): `some x` for "approx n fails for x", `none` for "approx n works". -/
def test_approx (n : Nat) : M (Option Nat) := approx_loop n 150994945 0

/-- `test_all_approx` (src/test_mod.c:50-57): `n`, the approximation of `1/Q` and the result, for each `n`. -/
def test_all_approx : M (List (Nat × Nat × Option Nat)) :=
  forUp 30 50 1 (fun n l => do
    let y ← approx_qinv n
    let r ← test_approx n
    pure (l ++ [(n, y, r)])) []

/-- `approx_pinv` (src/test_mod.c:60-62), for `n < 63`. -/
def approx_pinv (n : Nat) : M Int := do
  let y ← i64 (2 ^ n)
  let y ← cdiv y 12289
  i64 (y + 1)

/-- `approx_pdivq` (src/test_mod.c:64-66). -/
def approx_pdivq (x : Int) (n : Nat) : M Int := do
  let y ← approx_pinv n
  let y ← i64 (x * y)
  pure (toI32 (sar y n))

/-- `approx_pmodq` (src/test_mod.c:68-72). -/
def approx_pmodq (x : Int) (n : Nat) : M Int := do
  let y ← approx_pdivq x n
  let y ← i32 (y * 12289)
  let r ← i32 (x - y)
  pure (if r < 12289 then r else 0)

/-- `for (x=...; x<INT32_MAX; x++) if (bad(x)) return;` and the test of `INT32_MAX` after it (src/test_mod.c:78-90, 112-122):
the value for which the test fails. -/
def search_up (bad : Int → M Bool) : Nat → Int → M (Option Int)
  | 0, _ => .error .nonterm
  | fuel + 1, x => do
    if ← bad x then pure (some x) else
      if x < 2147483647 then do
        let x ← i32 (x + 1)
        search_up bad fuel x
      else pure none

/-- The same downwards to `INT32_MIN` (src/test_mod.c:92-104, 124-134). -/
def search_down (bad : Int → M Bool) : Nat → Int → M (Option Int)
  | 0, _ => .error .nonterm
  | fuel + 1, x => do
    if ← bad x then pure (some x) else
      if x > -2147483648 then do
        let x ← i32 (x - 1)
        search_down bad fuel x
      else pure none

/-- Both loops: from 0 up, from -1 down. -/
def search (bad : Int → M Bool) : M (Option Int) := do
  match ← search_up bad 2147483648 0 with
  | some x => pure (some x)
  | none => search_down bad 2147483648 (-1)

/-- What `test_pmod_approx` prints. -/
inductive Verdict where
  /-- "signed-approx n fails for x" -/
  | fails (x : Int)
  /-- "signed-approx n works", and "signed-approx bound fails for x" -/
  | boundFails (x : Int)
  /-- "signed-approx n works", and "Bound for signed-approx holds" -/
  | works
  deriving DecidableEq, Repr

/-- `check_approx_pmodq_bound` (src/test_mod.c:75-107). -/
def check_approx_pmodq_bound (n : Nat) : M (Option Int) := search fun x => do
  let r ← approx_pmodq x n
  pure (decide (r < 0) || decide (r > 12289))

/-- `test_pmod_approx` (src/test_mod.c:109-139). -/
def test_pmod_approx (n : Nat) : M Verdict := do
  match ← search (fun x => do
    let r ← approx_pmodq x n
    let s ← pmodq x
    pure (decide (r ≠ s))) with
  | some x => pure (.fails x)
  | none =>
    match ← check_approx_pmodq_bound n with
    | some x => pure (.boundFails x)
    | none => pure .works

/-- `test_all_pmod_approx` (src/test_mod.c:141-149). -/
def test_all_pmod_approx : M (List (Nat × Int × Verdict)) :=
  forUp 30 50 1 (fun n l => do
    let y ← approx_pinv n
    let r ← test_pmod_approx n
    pure (l ++ [(n, y, r)])) []

/-- The loop of `main` (src/test_mod.c:154-160): `(x, min)`. -/
def min_loop : M (Int × Int) :=
  forUp 0 100000 1 (fun _ s => do
    let m ← smodq s.1
    let min := if m < s.2 then m else s.2
    let y ← i32 (16 * s.1)
    let x ← i32 (y + 4)
    pure (x, min)) (4, 12289)

/-- `main` (src/test_mod.c:151-169). -/
def main : M (Int × List (Nat × Nat × Option Nat) × List (Nat × Int × Verdict)) := do
  let s ← min_loop
  let a ← test_all_approx
  let b ← test_all_pmod_approx
  pure (s.2, a, b)

end TestMod
