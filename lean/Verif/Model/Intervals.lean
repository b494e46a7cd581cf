import Verif.Model.RedBounds

/-
Model of src/intervals.c.

An `interval_t *` is modelled by the value of the structure it points to: all functions only read
their arguments and return a newly allocated structure.  Allocation and `delete_interval` are not
modelled (a failing `malloc` ends the program).

The Makefile compiles this file with -DNDEBUG; the flag `dbg` says whether assertions are compiled
in.
-/

namespace Intervals
open C
open RedBounds (dassert min_red max_red min_red_mul max_red_mul min_red_mul_interval
  max_red_mul_interval)

/-- `interval_t` (src/intervals.h:12-15). -/
structure Ivl where
  min : Int
  max : Int
  deriving DecidableEq, Repr

/-- `make_interval` (src/intervals.c:39-47). -/
def make_interval (dbg : Bool) (x y : Int) : M Ivl := do
  dassert dbg (pure (decide (x ≤ y)))
  pure ⟨x, y⟩

/-- `point` (src/intervals.c:52-54). -/
def point (dbg : Bool) (x : Int) : M Ivl := make_interval dbg x x

/-- `interval` (src/intervals.c:59-66). -/
def interval (dbg : Bool) (min max : Int) : M Ivl :=
  if min > max then .error .abort else make_interval dbg min max

/-- `neg` (src/intervals.c:72-78). -/
def neg (dbg : Bool) (a : Ivl) : M Ivl :=
  if a.min = -9223372036854775808 then .error .abort
  else do
    let x ← i64 (-a.max)
    let y ← i64 (-a.min)
    make_interval dbg x y

/-- `add64` (src/intervals.c:81-90). -/
def add64 (x y : Int) : M Int := do
  let z ← i64 (x + y)
  if (x < 0 ∧ y < 0 ∧ z ≥ 0) ∨ (x ≥ 0 ∧ y ≥ 0 ∧ z < 0) then .error .abort
  else pure z

/-- `sub64` (src/intervals.c:93-102). -/
def sub64 (x y : Int) : M Int := do
  let z ← i64 (x - y)
  if (x < 0 ∧ y ≥ 0 ∧ z ≥ 0) ∨ (x ≥ 0 ∧ y < 0 ∧ z < 0) then .error .abort
  else pure z

/-- `size` (src/intervals.c:108-113): the subtraction is done on signed operands, then converted
to `uint64_t`. -/
def size (dbg : Bool) (a : Ivl) : M Nat := do
  dassert dbg (pure (decide (a.min ≤ a.max)))
  let d ← i64 (a.max - a.min)
  pure (toU64 d)

/-- `add` (src/intervals.c:118-120). -/
def add (dbg : Bool) (a b : Ivl) : M Ivl := do
  let l ← add64 a.min b.min
  let h ← add64 a.max b.max
  make_interval dbg l h

/-- `sub` (src/intervals.c:125-127). -/
def sub (dbg : Bool) (a b : Ivl) : M Ivl := do
  let l ← sub64 a.min b.max
  let h ← sub64 a.max b.min
  make_interval dbg l h

/-- `red` (src/intervals.c:132-138). -/
def red (dbg : Bool) (a : Ivl) : M Ivl := do
  let mn ← min_red dbg a.min a.max
  let mx ← max_red dbg a.min a.max
  make_interval dbg mn.1 mx.1

/-- `red_twice` (src/intervals.c:144-153). -/
def red_twice (dbg : Bool) (a : Ivl) : M Ivl := do
  let mn0 ← min_red dbg a.min a.max
  let mx0 ← max_red dbg a.min a.max
  dassert dbg (pure (decide (mn0.1 ≤ mx0.1)))
  let mn ← min_red dbg mn0.1 mx0.1
  let mx ← max_red dbg mn0.1 mx0.1
  make_interval dbg mn.1 mx.1

/-- `red_mul` (src/intervals.c:160-178). -/
def red_mul (dbg : Bool) (a b : Ivl) : M Ivl := do
  let sa ← size dbg a
  let sb ← size dbg b
  let (a, b) := if sa < sb then (b, a) else (a, b)
  let mn ← min_red_mul_interval dbg a.min a.max b.min b.max
  let mx ← max_red_mul_interval dbg a.min a.max b.min b.max
  make_interval dbg mn.r mx.r

/-- `red_scale` (src/intervals.c:185-191). -/
def red_scale (dbg : Bool) (k : Int) (a : Ivl) : M Ivl := do
  let mn ← min_red_mul dbg a.min a.max k
  let mx ← max_red_mul dbg a.min a.max k
  make_interval dbg mn.1 mx.1

/-- `rem_q` (src/intervals.c:197-204). -/
def rem_q (dbg : Bool) (x : Int) : M Int := do
  let r ← crem x 12289
  let r ← (if r < 0 then i64 (r + 12289) else pure r)
  dassert dbg (pure (decide (0 ≤ r) && decide (r ≤ 12288)))
  pure r

/-- `normal` (src/intervals.c:211-226). -/
def normal (dbg : Bool) (a : Ivl) : M Ivl := do
  let s ← size dbg a
  if s ≥ 12288 then make_interval dbg 0 12288
  else do
    let l ← rem_q dbg a.min
    let h ← rem_q dbg a.max
    if l ≤ h then make_interval dbg l h else make_interval dbg 0 12288

/-- `normal_inv3` (src/intervals.c:233-242). -/
def normal_inv3 (dbg : Bool) (a : Ivl) : M Ivl :=
  if a.min = a.max then do
    let x ← rem_q dbg a.min
    let x ← i64 (x * 8193)
    let x ← rem_q dbg x
    make_interval dbg x x
  else make_interval dbg 0 12288

/-- `shift` (src/intervals.c:250-259). -/
def shift (dbg : Bool) (a : Ivl) : M Ivl := do
  dassert dbg (pure (decide (0 ≤ a.min) && decide (a.min ≤ a.max) && decide (a.max ≤ 12288)))
  if a.min > 6144 then do
    let l ← i64 (a.min - 12289)
    let h ← i64 (a.max - 12289)
    make_interval dbg l h
  else if a.max ≤ 6144 then make_interval dbg a.min a.max
  else make_interval dbg (-6144) 6144

/-- `correct` (src/intervals.c:265-287). -/
def correct (dbg : Bool) (a : Ivl) : M Ivl := do
  dassert dbg (pure (decide (-12289 ≤ a.min) && decide (a.min ≤ a.max) && decide (a.max < 2 * 12289)))
  if a.max < 0 then do
    dassert dbg (do
      let l ← i64 (a.min + 12289)
      let h ← i64 (a.max + 12289)
      pure (decide (l ≥ 0) && decide (h ≤ 12288)))
    let l ← i64 (a.min + 12289)
    let h ← i64 (a.max + 12289)
    make_interval dbg l h
  else if a.min ≥ 12289 then do
    dassert dbg (do
      let l ← i64 (a.min - 12289)
      let h ← i64 (a.max - 12289)
      pure (decide (l ≥ 0) && decide (h ≤ 12288)))
    let l ← i64 (a.min - 12289)
    let h ← i64 (a.max - 12289)
    make_interval dbg l h
  else if a.min ≥ 0 ∧ a.max < 12289 then make_interval dbg a.min a.max
  else make_interval dbg 0 12288

end Intervals
