import Verif.Model.RedBounds

/-
Model of src/test_red.c: search for the largest interval on which the reduction fits in 32 bits, and bounds for the rounds of
the transforms.  What the program prints is returned as a value.
-/

namespace TestRed
open C

/-- `red` (src/test_red.c:18-20). -/
def red (x : Int) : M Int := do
  let y ← i64 (3 * land64 x 4095)
  i64 (y - sar x 12)

/-- `test_overflow` (src/test_red.c:54-58). -/
def test_overflow (x : Int) : M Bool := do
  let r ← red x
  pure (decide (r > 2147483647) || decide (r < -2147483648))

/-- The loop of `test_overflow2` (src/test_red.c:65-69). -/
def overflow_loop (x : Int) : Nat → Int → M Bool
  | 0, _ => .error .nonterm
  | fuel + 1, w =>
    if w < 4096 then do
      let y ← i64 (x + w)
      if ← test_overflow y then pure true else do
        let w ← i64 (w + 1)
        overflow_loop x fuel w
    else pure false

/-- `test_overflow2` (src/test_red.c:61-71). -/
def test_overflow2 (x : Int) : M Bool := do
  let x ← i64 (x * 4096)
  overflow_loop x 4097 0

/-- The loop of `find_lower_bound` (src/test_red.c:78-86).  The fuel bounds the number of rounds. -/
def lower_loop : Nat → Int → Int → M Int
  | 0, _, _ => .error .nonterm
  | fuel + 1, l, h => do
    let s ← i64 (l + h)
    let x ← cdiv s 2
    cassert (decide (l < x) && decide (x ≤ h))
    let l' ← i64 (l + 1)
    if ← test_overflow2 x then
      let l1 ← i64 (x + 1)
      if l1 < h then lower_loop fuel x h else pure h
    else if l' < x then lower_loop fuel l x else pure x

/-- `find_lower_bound` (src/test_red.c:73-90): the value of `lower_bound`.  `INT64_MIN/4096` is computed at compile time. -/
def find_lower_bound : M Int := do
  let h ← lower_loop 64 (-2251799813685248) (-1)
  i64 (4096 * h)

/-- The loop of `find_upper_bound` (src/test_red.c:97-105). -/
def upper_loop : Nat → Int → Int → M Int
  | 0, _, _ => .error .nonterm
  | fuel + 1, l, h => do
    let s ← i64 (l + h)
    let x ← cdiv s 2
    cassert (decide (l ≤ x) && decide (x < h))
    let l' ← i64 (l + 1)
    if ← test_overflow2 x then
      if l' < x then upper_loop fuel l x else pure l
    else
      let l1 ← i64 (x + 1)
      if l1 < h then upper_loop fuel x h else pure x

/-- `find_upper_bound` (src/test_red.c:92-109): the value of `upper_bound`.  `INT64_MAX/4096` is computed at compile time. -/
def find_upper_bound : M Int := do
  let l ← upper_loop 64 0 2251799813685247
  let y ← i64 (4096 * l)
  i64 (y + 4095)

/-- A loop `for (x=from; x<to; x++) if (test_overflow(bound + x)) printf(...)` (src/test_red.c:210-214, 216-220): the values
of `x` printed.  State `(x, printed)`. -/
def scan (bound start stop : Int) : M (List Int) := do
  let s ← cwhile (fun s : Int × List Int => decide (s.1 < stop)) (fun s => do
    let y ← i64 (bound + s.1)
    let b ← test_overflow y
    let x ← i64 (s.1 + 1)
    pure (x, if b then s.2 ++ [s.1] else s.2)) ((stop - start).toNat + 1) (start, [])
  pure s.2

/-- A line printed by the loops on bounds. -/
inductive Line where
  /-- `B<i> = <b>` -/
  | bound (i : Nat) (b : Int)
  /-- `Reduction to <b>` -/
  | reduction (b : Int)
  deriving DecidableEq, Repr

/-- The bounds after a reduction, `b/4096 + Q - K` (src/test_red.c:121, 135, 182, 195). -/
def reduced_bound (b : Int) : M Int := do
  let y ← cdiv b 4096
  let y ← i64 (y + 12289)
  i64 (y - 3)

/-- `(K+1) * b + Q - K` (src/test_red.c:119, 123). -/
def ct_bound0 (b : Int) : M Int := do
  let y ← i64 (4 * b)
  let y ← i64 (y + 12289)
  i64 (y - 3)

/-- `2 * K * b + Q - K` (src/test_red.c:133, 137). -/
def gs_bound0 (b : Int) : M Int := do
  let y ← i64 (6 * b)
  let y ← i64 (y + 12289)
  i64 (y - 3)

/-- `ct_bound` (src/test_red.c:151-156). -/
def ct_bound (b : Int) : M Int := do
  let y ← i64 (b + 1)
  let y ← cdiv y 4096
  let delta ← i64 (12286 - y)
  let z ← i64 (4 * b)
  if delta < 0 then pure z else i64 (z + delta)

/-- `gs_bound` (src/test_red.c:164-170). -/
def gs_bound (b : Int) : M Int := do
  let bb ← i64 (2 * b)
  let y ← i64 (bb + 1)
  let y ← cdiv y 4096
  let delta ← i64 (12286 - y)
  let z ← i64 (3 * bb)
  if delta < 0 then pure z else i64 (z + delta)

/-- The four loops of `iter_bound_abs` and `iter_bound_abs2` (src/test_red.c:116-126, 130-140, 177-187, 190-200), with `f` for
the computation of `nb`: the final value of `b` and the lines printed. -/
def iter_bound (f : Int → M Int) : M (Int × List Line) :=
  forUp 0 20 1 (fun i (s : Int × List Line) => do
    let nb ← f s.1
    if nb > 2147483647 then do
      let b ← reduced_bound s.1
      let nb ← f b
      pure (nb, s.2 ++ [.bound i s.1, .reduction b])
    else pure (nb, s.2 ++ [.bound i s.1])) (12288, [])

/-- What `main` prints. -/
structure Output where
  lower : Int
  upper : Int
  overLower : List Int
  overUpper : List Int
  hexLower : Nat
  hexUpper : Nat
  ct : List Line
  gs : List Line
  ct2 : List Line
  gs2 : List Line
  deriving DecidableEq, Repr

/-- `main` (src/test_red.c:203-232). -/
def main : M Output := do
  let lower ← find_lower_bound
  let upper ← find_upper_bound
  let overLower ← scan lower (-10000) 1000000000
  let overUpper ← scan upper (-1000000000) 10000
  let ct ← iter_bound ct_bound0
  let gs ← iter_bound gs_bound0
  let ct2 ← iter_bound ct_bound
  let gs2 ← iter_bound gs_bound
  pure ⟨lower, upper, overLower, overUpper, toU64 lower, toU64 upper, ct.2, gs.2, ct2.2, gs2.2⟩

end TestRed
