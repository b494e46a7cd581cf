import Verif.CSem

/-
Model of src/red_bounds.c.

`int64_t` values are `Int`s; signed 64-bit overflow is an error.  A pointer argument through which a
result is returned is modelled by returning a pair `(result, *m)`.

The Makefile compiles this file with -DNDEBUG.  The flag `dbg` says whether assertions are compiled
in: the theorems hold for both values.
-/

namespace RedBounds
open C

/-- `assert(e)`; with -DNDEBUG the expression is not evaluated. -/
def dassert (dbg : Bool) (e : M Bool) : M Unit :=
  if dbg then do
    let b ← e
    cassert b
  else .ok ()

/-- `red` (src/red_bounds.c:16-18). -/
def red (x : Int) : M Int := do
  let y ← i64 (3 * land64 x 4095)
  i64 (y - sar x 12)

/-- `divd` (src/red_bounds.c:20-22). -/
def divd (x : Int) : Int := sar x 12

/-- `remd` (src/red_bounds.c:24-26). -/
def remd (x : Int) : Int := land64 x 4095

/-- `max_red` (src/red_bounds.c:37-48). -/
def max_red (dbg : Bool) (a b : Int) : M (Int × Int) := do
  dassert dbg (pure (decide (a ≤ b)))
  let d := lor64 a 4095
  let d := if d ≤ b then d else b
  let r ← red d
  pure (r, d)

/-- `min_red` (src/red_bounds.c:53-63); `~4095` is `-4096`. -/
def min_red (dbg : Bool) (a b : Int) : M (Int × Int) := do
  dassert dbg (pure (decide (a ≤ b)))
  let d := land64 b (-4096)
  let d := if d ≥ a then d else a
  let r ← red d
  pure (r, d)

/-- `gcd4096` (src/red_bounds.c:74-84): state `(g, w)`.  A left shift `g <<= 1` of a positive `g`
that does not fit is an overflow. -/
def gcd4096 (w : Int) : M Int := do
  let r ← cwhile (fun (st : Int × Int) => decide (land64 st.2 1 = 0)) (fun st => do
    let g ← i64 (2 * st.1)
    pure (g, sar st.2 1)) 65 (1, w)
  pure (if r.1 < 4096 then r.1 else 4096)

/-- `lmax` (src/red_bounds.c:90-99). -/
def lmax (dbg : Bool) (w x : Int) : M Int := do
  let z ← i64 (w * x)
  let k ← cdiv (4095 - land64 z 4095) w
  let y ← i64 (x + k)
  dassert dbg (do
    let u ← i64 (w * y)
    let v ← i64 (w * x)
    pure (decide (sar u 12 = sar v 12)))
  dassert dbg (do
    let y1 ← i64 (y + 1)
    let u ← i64 (w * y1)
    let v ← i64 (w * x)
    pure (decide (sar u 12 > sar v 12)))
  pure y

/-- The loop of `max_red_mul` (src/red_bounds.c:128-142).  The fuel bounds the number of
iterations; returns `(x_max, r_max)`. -/
def maxLoop (dbg : Bool) (pw b g h : Int) : Nat → Int → Int → Int → M (Int × Int)
  | 0, _, _, _ => .error .nonterm
  | fuel + 1, x, x_max, r_max => do
    let x ← lmax dbg pw x
    if x ≥ b then pure (x_max, r_max)
    else do
      let z ← i64 (pw * x)
      let e ← i64 (-(divd z))
      let e ← i64 (e + g)
      if e ≤ r_max then pure (x_max, r_max)
      else do
        let z ← i64 (pw * x)
        let r ← red z
        if r > r_max then do
          let z ← i64 (pw * x)
          if remd z = h then pure (x, r)
          else do
            let x' ← i64 (x + 1)
            maxLoop dbg pw b g h fuel x' x r
        else do
          let x' ← i64 (x + 1)
          maxLoop dbg pw b g h fuel x' x_max r_max

/-- Lines 112-116 and 176-180 of src/red_bounds.c: `(a, b, pw)` after the change of sign. -/
def absArgs (a b w : Int) : M (Int × Int × Int) :=
  if w < 0 then do
    let x ← i64 (-a)
    let a ← i64 (-b)
    let pw ← i64 (-w)
    pure (a, x, pw)
  else pure (a, b, w)

/-- `max_red_mul` (src/red_bounds.c:105-148): returns `(r_max, *m)`. -/
def max_red_mul (dbg : Bool) (a b w : Int) : M (Int × Int) := do
  dassert dbg (pure (decide (a ≤ b)))
  let (a, b, pw) ← absArgs a b w
  let z ← i64 (pw * b)
  let r_max ← red z
  let g ← gcd4096 w
  let h := 4096 - g
  let r ← maxLoop dbg pw b (3 * h) h ((b - a).toNat + 1) a b r_max
  let x_max ← (if w < 0 then i64 (-r.1) else pure r.1)
  pure (r.2, x_max)

/-- `lmin` (src/red_bounds.c:155-164). -/
def lmin (dbg : Bool) (w x : Int) : M Int := do
  let z ← i64 (w * x)
  let k ← cdiv (land64 z 4095) w
  let y ← i64 (x - k)
  dassert dbg (do
    let u ← i64 (w * y)
    let v ← i64 (w * x)
    pure (decide (sar u 12 = sar v 12)))
  dassert dbg (do
    let y1 ← i64 (y - 1)
    let u ← i64 (w * y1)
    let v ← i64 (w * x)
    pure (decide (sar u 12 < sar v 12)))
  pure y

/-- The loop of `min_red_mul` (src/red_bounds.c:186-198): returns `(x_min, r_min)`. -/
def minLoop (dbg : Bool) (pw a : Int) : Nat → Int → Int → Int → M (Int × Int)
  | 0, _, _, _ => .error .nonterm
  | fuel + 1, x, x_min, r_min => do
    let x ← lmin dbg pw x
    if x ≤ a then pure (x_min, r_min)
    else do
      let z ← i64 (pw * x)
      let e ← i64 (-(divd z))
      if e ≥ r_min then pure (x_min, r_min)
      else do
        let z ← i64 (pw * x)
        let r ← red z
        if r < r_min then do
          let z ← i64 (pw * x)
          if remd z = 0 then pure (x, r)
          else do
            let x' ← i64 (x - 1)
            minLoop dbg pw a fuel x' x r
        else do
          let x' ← i64 (x - 1)
          minLoop dbg pw a fuel x' x_min r_min

/-- `min_red_mul` (src/red_bounds.c:169-204): returns `(r_min, *m)`. -/
def min_red_mul (dbg : Bool) (a b w : Int) : M (Int × Int) := do
  dassert dbg (pure (decide (a ≤ b)))
  let (a, b, pw) ← absArgs a b w
  let z ← i64 (pw * a)
  let r_min ← red z
  let r ← minLoop dbg pw a ((b - a).toNat + 1) b a r_min
  let x_min ← (if w < 0 then i64 (-r.1) else pure r.1)
  pure (r.2, x_min)

/-- Best bound found so far, with its `x` and `w`. -/
structure Best where
  r : Int
  x : Int
  w : Int
  deriving DecidableEq

/-- Loop over negative `w` of `max_red_mul_interval` (src/red_bounds.c:223-239); the fuel bounds the
number of tests of the loop condition. -/
def maxNeg (dbg : Bool) (a b h : Int) : Nat → Int → Best → M Best
  | 0, _, _ => .error .nonterm
  | fuel + 1, w, s =>
    if w < h then do
      dassert dbg (pure (decide (w < 0)))
      let z ← i64 (w * b)
      let e ← i64 (-(divd z))
      let e ← i64 (e + 12285)
      if e ≤ s.r then pure s
      else do
        let (r, x) ← max_red_mul dbg a b w
        let w' ← i64 (w + 1)
        maxNeg dbg a b h fuel w' (if r > s.r then ⟨r, x, w⟩ else s)
    else pure s

/-- Loop over positive `w` of `max_red_mul_interval` (src/red_bounds.c:244-258). -/
def maxPos (dbg : Bool) (a b l : Int) : Nat → Int → Best → M Best
  | 0, _, _ => .error .nonterm
  | fuel + 1, w, s =>
    if w > l then do
      dassert dbg (pure (decide (w > 0)))
      let nw ← i64 (-w)
      let z ← i64 (nw * b)
      let e ← i64 (-(divd z))
      let e ← i64 (e + 12285)
      if e ≤ s.r then pure s
      else do
        let (r, x) ← max_red_mul dbg a b w
        let w' ← i64 (w - 1)
        maxPos dbg a b l fuel w' (if r > s.r then ⟨r, x, w⟩ else s)
    else pure s

/-- `max_red_mul_interval` (src/red_bounds.c:211-264). -/
def max_red_mul_interval (dbg : Bool) (a b low high : Int) : M Best := do
  dassert dbg (pure (decide (a ≤ b) && decide (low ≤ high)))
  let l := if low < 0 then low else 0
  let h ← (if high ≥ 0 then pure 0 else i64 (high + 1))
  let s ← maxNeg dbg a b h ((h - l).toNat + 1) l ⟨0, 0, 0⟩
  let l ← (if low ≤ 0 then pure 0 else i64 (low - 1))
  let h := if high > 0 then high else 0
  maxPos dbg a b l ((h - l).toNat + 1) h s

/-- Loop over negative `w` of `min_red_mul_interval` (src/red_bounds.c:281-296). -/
def minNeg (dbg : Bool) (a b h : Int) : Nat → Int → Best → M Best
  | 0, _, _ => .error .nonterm
  | fuel + 1, w, s =>
    if w < h then do
      dassert dbg (pure (decide (w < 0)))
      let nw ← i64 (-w)
      let z ← i64 (nw * b)
      let e ← i64 (-(divd z))
      if e ≥ s.r then pure s
      else do
        let (r, x) ← min_red_mul dbg a b w
        let w' ← i64 (w + 1)
        minNeg dbg a b h fuel w' (if r < s.r then ⟨r, x, w⟩ else s)
    else pure s

/-- Loop over positive `w` of `min_red_mul_interval` (src/red_bounds.c:301-314). -/
def minPos (dbg : Bool) (a b l : Int) : Nat → Int → Best → M Best
  | 0, _, _ => .error .nonterm
  | fuel + 1, w, s =>
    if w > l then do
      dassert dbg (pure (decide (w > 0)))
      let z ← i64 (w * b)
      let e ← i64 (-(divd z))
      if e ≥ s.r then pure s
      else do
        let (r, x) ← min_red_mul dbg a b w
        let w' ← i64 (w - 1)
        minPos dbg a b l fuel w' (if r < s.r then ⟨r, x, w⟩ else s)
    else pure s

/-- `min_red_mul_interval` (src/red_bounds.c:269-320). -/
def min_red_mul_interval (dbg : Bool) (a b low high : Int) : M Best := do
  dassert dbg (pure (decide (a ≤ b) && decide (low ≤ high)))
  let l := if low < 0 then low else 0
  let h ← (if high > 0 then pure 0 else i64 (high + 1))
  let s ← minNeg dbg a b h ((h - l).toNat + 1) l ⟨0, 0, 0⟩
  let l ← (if low < 0 then pure 0 else i64 (low - 1))
  let h := if high > 0 then high else 0
  minPos dbg a b l ((h - l).toNat + 1) h s

/-- Lines 346-351 and 391-396 of src/red_bounds.c. -/
def ctCombine (b min_r max_r : Int) : M Int := do
  let b1 ← i64 (b + max_r)
  let b2 ← i64 (b - min_r)
  let b1 ← (if b1 < 0 then i64 (-b1) else pure b1)
  let b2 ← (if b2 < 0 then i64 (-b2) else pure b2)
  pure (if b1 < b2 then b2 else b1)

/-- Lines 371-374 and 414-417 of src/red_bounds.c. -/
def gsCombine (b min_r max_r : Int) : M Int := do
  let nmin ← i64 (-min_r)
  let b1 := if max_r < 0 then nmin else if min_r > 0 then max_r
    else if max_r > nmin then max_r else nmin
  let b2 ← i64 (2 * b)
  pure (if b1 < b2 then b2 else b1)

/-- `ct_bound` (src/red_bounds.c:335-352). -/
def ct_bound (dbg : Bool) (b low high : Int) : M Int := do
  dassert dbg (pure (decide (b ≥ 0) && decide (low ≤ high)))
  let nb ← i64 (-b)
  let mn ← min_red_mul_interval dbg nb b low high
  let mx ← max_red_mul_interval dbg nb b low high
  ctCombine b mn.r mx.r

/-- `gs_bound` (src/red_bounds.c:360-375).  In `gsCombine` the negation `-min_r` is computed in all
cases; it can only overflow for `min_r = -2^63`, which `min_red_mul_interval` never returns. -/
def gs_bound (dbg : Bool) (b low high : Int) : M Int := do
  dassert dbg (pure (decide (b ≥ 0) && decide (low ≤ high)))
  let n2b ← i64 (-2 * b)
  let p2b ← i64 (2 * b)
  let mn ← min_red_mul_interval dbg n2b p2b low high
  let mx ← max_red_mul_interval dbg n2b p2b low high
  gsCombine b mn.r mx.r

/-- `ct_bound_fixed` (src/red_bounds.c:380-397). -/
def ct_bound_fixed (dbg : Bool) (b w : Int) : M Int := do
  dassert dbg (pure (decide (b ≥ 0)))
  let nb ← i64 (-b)
  let mn ← min_red_mul dbg nb b w
  let mx ← max_red_mul dbg nb b w
  ctCombine b mn.1 mx.1

/-- `gs_bound_fixed` (src/red_bounds.c:403-418). -/
def gs_bound_fixed (dbg : Bool) (b w : Int) : M Int := do
  dassert dbg (pure (decide (b ≥ 0)))
  let n2b ← i64 (-2 * b)
  let p2b ← i64 (2 * b)
  let mn ← min_red_mul dbg n2b p2b w
  let mx ← max_red_mul dbg n2b p2b w
  gsCombine b mn.1 mx.1

/-- Body of the outer loops of `ntt_ct_bounds` and `ntt_gs_bounds` (src/red_bounds.c:436-449,
471-478): state `(k, b, bound)`; `f` is `ct_bound_fixed` or `gs_bound_fixed`. -/
def boundsRound (f : Int → Int → M Int) (p : Array Int) (t : Nat)
    (st : Nat × Int × Array Int) : M (Nat × Int × Array Int) := do
  let (k, b, bound) := st
  let k := u32 (k + 1)
  let w ← rd p t
  let c ← f b w
  let c ← forUp 1 t 1 (fun j c => do
    let w ← rd p (u32 (t + j))
    let d ← f b w
    pure (if d > c then d else c)) c
  let bound ← wr bound k c
  pure (k, c, bound)

/-- `ntt_ct_bounds` (src/red_bounds.c:428-453): returns the bound and the array of bounds. -/
def ntt_ct_bounds (dbg : Bool) (b0 : Int) (n : Nat) (p bound : Array Int) :
    M (Int × Array Int) := do
  let bound ← wr bound 0 b0
  let r ← forShl 1 n (fun t st => boundsRound (ct_bound_fixed dbg) p t st) (0, b0, bound)
  pure (r.2.1, r.2.2)

/-- `ntt_gs_bounds` (src/red_bounds.c:463-482). -/
def ntt_gs_bounds (dbg : Bool) (b0 : Int) (n : Nat) (p bound : Array Int) :
    M (Int × Array Int) := do
  let bound ← wr bound 0 b0
  let r ← forShr (n / 2) (fun t st => boundsRound (gs_bound_fixed dbg) p t st) (0, b0, bound)
  pure (r.2.1, r.2.2)

end RedBounds
