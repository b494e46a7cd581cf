import Verif.Model.Skeleton
import Verif.Model.Intervals

/-
Model of src/ntt_red_interval.c.

An array `interval_t **a` is modelled by the array of the structures its elements point to (all
pointers are distinct: every function frees the old elements, so shared pointers would be freed
twice).  `const int16_t *p` is an `Array Int`; `const interval_t **p` an `Array Ivl`.

The transforms print the array at the start of each iteration of the outer loop and at the end.
The output is modelled by the list of `Shown` records, without the label and the loop counter
printed in the first line.
-/

namespace NttRedInterval
open C NTT Intervals

/-- `abstract_normalize` (src/ntt_red_interval.c:60-69). -/
def abstract_normalize (dbg : Bool) (a : Array Ivl) (n : Nat) : M (Array Ivl) :=
  forUp 0 n 1 (fun i a => do
    let x ← rd a i
    let y ← normal dbg x
    wr a i y) a

/-- `abstract_normalize_inv3` (src/ntt_red_interval.c:74-83). -/
def abstract_normalize_inv3 (dbg : Bool) (a : Array Ivl) (n : Nat) : M (Array Ivl) :=
  forUp 0 n 1 (fun i a => do
    let x ← rd a i
    let y ← normal_inv3 dbg x
    wr a i y) a

/-- `abstract_shift_array` (src/ntt_red_interval.c:89-98). -/
def abstract_shift_array (dbg : Bool) (a : Array Ivl) (n : Nat) : M (Array Ivl) :=
  forUp 0 n 1 (fun i a => do
    let x ← rd a i
    let y ← shift dbg x
    wr a i y) a

/-- `abstract_reduce_array` (src/ntt_red_interval.c:111-120). -/
def abstract_reduce_array (dbg : Bool) (a : Array Ivl) (n : Nat) : M (Array Ivl) :=
  forUp 0 n 1 (fun i a => do
    let x ← rd a i
    let y ← red dbg x
    wr a i y) a

/-- `abstract_reduce_array_twice` (src/ntt_red_interval.c:128-137). -/
def abstract_reduce_array_twice (dbg : Bool) (a : Array Ivl) (n : Nat) : M (Array Ivl) :=
  forUp 0 n 1 (fun i a => do
    let x ← rd a i
    let y ← red_twice dbg x
    wr a i y) a

/-- `abstract_correct` (src/ntt_red_interval.c:150-165). -/
def abstract_correct (dbg : Bool) (a : Array Ivl) (n : Nat) : M (Array Ivl) :=
  forUp 0 n 1 (fun i a => do
    let x ← rd a i
    if x.min < -12289 ∨ x.max ≥ 2 * 12289 then .error .abort
    else do
      let y ← correct dbg x
      wr a i y) a

/-- `abstract_mul_reduce_array16` (src/ntt_red_interval.c:193-202). -/
def abstract_mul_reduce_array16 (dbg : Bool) (a : Array Ivl) (n : Nat) (p : Array Int) :
    M (Array Ivl) :=
  forUp 0 n 1 (fun i a => do
    let x ← rd a i
    let w ← rd p i
    let y ← red_scale dbg w x
    wr a i y) a

/-- `abstract_mul_reduce_array` (src/ntt_red_interval.c:204-210). -/
def abstract_mul_reduce_array (dbg : Bool) (c : Array Ivl) (n : Nat) (a b : Array Ivl) :
    M (Array Ivl) :=
  forUp 0 n 1 (fun i c => do
    let x ← rd a i
    let y ← rd b i
    let z ← red_mul dbg x y
    wr c i z) c

/-- `abstract_scalar_mul_reduce_array` (src/ntt_red_interval.c:216-225). -/
def abstract_scalar_mul_reduce_array (dbg : Bool) (a : Array Ivl) (n : Nat) (c : Int) :
    M (Array Ivl) :=
  forUp 0 n 1 (fun i a => do
    let x ← rd a i
    let y ← red_scale dbg c x
    wr a i y) a

/-- One call of `show_intervals`: the array printed, and the indices for which a warning is
printed. -/
structure Shown where
  a : Array Ivl
  warnings : List Nat
  deriving DecidableEq

/-- `show_intervals` (src/ntt_red_interval.c:232-247). -/
def show_intervals (a : Array Ivl) (n : Nat) : M Shown := do
  let w ← forUp 0 n 1 (fun i w => do
    let x ← rd a i
    pure (if x.min < -2147483648 ∨ x.max > 2147483647 then w ++ [i] else w)) []
  pure ⟨a, w⟩

/-- Butterfly without multiplication (src/ntt_red_interval.c:278-281, 468-471, 679-684, 869-874). -/
def absBf0 (dbg : Bool) (s k : Nat) (a : Array Ivl) : M (Array Ivl) := do
  let x ← rd a k
  let y ← rd a s
  let v ← sub dbg y x
  let a ← wr a k v
  let u ← add dbg y x
  wr a s u

/-- Cooley-Tukey butterfly (src/ntt_red_interval.c:290-294, 380-384, 480-484, 583-590); `mul x` is
`red_scale(w, x)`, or `red_mul(x, w)` in the variants `abstract2_*` (lines 334-338, 416-420,
529-533, 627-634). -/
def absCt (dbg : Bool) (mul : Ivl → M Ivl) (s k : Nat) (a : Array Ivl) : M (Array Ivl) := do
  let x ← rd a k
  let y ← rd a s
  let z ← mul x
  let v ← sub dbg y z
  let a ← wr a k v
  let u ← add dbg y z
  wr a s u

/-- Gentleman-Sande butterfly (src/ntt_red_interval.c:692-696, 788-792, 880-884, 974-978); `mul z`
is `red_scale(w, z)`, or `red_mul(z, w)` in the variants `abstract2_*` (lines 740-744, 825-829,
925-929, 1008-1012). -/
def absGs (dbg : Bool) (mul : Ivl → M Ivl) (s k : Nat) (a : Array Ivl) : M (Array Ivl) := do
  let x ← rd a k
  let y ← rd a s
  let z ← sub dbg y x
  let v ← mul z
  let a ← wr a k v
  let u ← add dbg y x
  wr a s u

/-- Outer loop `d = n; for (t=1; t<n; t <<= 1) { show_intervals(...); d >>= 1; ... }
show_intervals(...)` (src/ntt_red_interval.c:452-493, 561-597, and with `t` and `d` exchanged
664-704, 772-801).  The functions of lines 265-304 and 359-393 have the same loop without the
variable `d`. -/
def absUp (round : Nat → Nat → Array Ivl → M (Array Ivl)) (a : Array Ivl) (n : Nat) :
    M (Array Ivl × List Shown) := do
  let r ← forShl 1 n (fun t (st : Nat × Array Ivl × List Shown) => do
    let sh ← show_intervals st.2.1 n
    let d := st.1 / 2
    let a ← round t d st.2.1
    pure (d, a, st.2.2 ++ [sh])) (n, a, [])
  let sh ← show_intervals r.2.1 n
  pure (r.2.1, r.2.2 ++ [sh])

/-- Outer loop `for (t = n>>1; t > 0; t >>= 1) { show_intervals(...); ... } show_intervals(...)`
(src/ntt_red_interval.c:860-897, 962-988). -/
def absDown (round : Nat → Array Ivl → M (Array Ivl)) (a : Array Ivl) (n : Nat) :
    M (Array Ivl × List Shown) := do
  let r ← forShr (n / 2) (fun t (st : Array Ivl × List Shown) => do
    let sh ← show_intervals st.1 n
    let a ← round t st.1
    pure (a, st.2 ++ [sh])) (a, [])
  let sh ← show_intervals r.1 n
  pure (r.1, r.2 ++ [sh])

/-- src/ntt_red_interval.c:265-304 -/
def abstract_ntt_red_ct_rev2std (dbg : Bool) (a : Array Ivl) (n : Nat) (p : Array Int) :
    M (Array Ivl × List Shown) :=
  absUp (fun t _ a => roundA (absBf0 dbg) (fun w => absCt dbg (red_scale dbg w)) n p t a) a n

/-- src/ntt_red_interval.c:309-348 -/
def abstract2_ntt_red_ct_rev2std (dbg : Bool) (a : Array Ivl) (n : Nat) (p : Array Ivl) :
    M (Array Ivl × List Shown) :=
  absUp (fun t _ a => roundA (absBf0 dbg) (fun w => absCt dbg (fun x => red_mul dbg x w)) n p t a)
    a n

/-- src/ntt_red_interval.c:359-393 -/
def abstract_mulntt_red_ct_rev2std (dbg : Bool) (a : Array Ivl) (n : Nat) (p : Array Int) :
    M (Array Ivl × List Shown) :=
  absUp (fun t _ a => roundAMul (fun w => absCt dbg (red_scale dbg w)) n p t a) a n

/-- src/ntt_red_interval.c:395-429 -/
def abstract2_mulntt_red_ct_rev2std (dbg : Bool) (a : Array Ivl) (n : Nat) (p : Array Ivl) :
    M (Array Ivl × List Shown) :=
  absUp (fun t _ a => roundAMul (fun w => absCt dbg (fun x => red_mul dbg x w)) n p t a) a n

/-- src/ntt_red_interval.c:447-494 -/
def abstract_ntt_red_ct_std2rev (dbg : Bool) (a : Array Ivl) (n : Nat) (p : Array Int) :
    M (Array Ivl × List Shown) :=
  absUp (fun t d a => roundBCt (absBf0 dbg) (fun w => absCt dbg (red_scale dbg w)) p t d a) a n

/-- src/ntt_red_interval.c:496-543 -/
def abstract2_ntt_red_ct_std2rev (dbg : Bool) (a : Array Ivl) (n : Nat) (p : Array Ivl) :
    M (Array Ivl × List Shown) :=
  absUp (fun t d a => roundBCt (absBf0 dbg) (fun w => absCt dbg (fun x => red_mul dbg x w)) p t d a)
    a n

/-- src/ntt_red_interval.c:556-598 -/
def abstract_mulntt_red_ct_std2rev (dbg : Bool) (a : Array Ivl) (n : Nat) (p : Array Int) :
    M (Array Ivl × List Shown) :=
  absUp (fun t d a => roundBMul (fun w => absCt dbg (red_scale dbg w)) p t d a) a n

/-- src/ntt_red_interval.c:600-642 -/
def abstract2_mulntt_red_ct_std2rev (dbg : Bool) (a : Array Ivl) (n : Nat) (p : Array Ivl) :
    M (Array Ivl × List Shown) :=
  absUp (fun t d a => roundBMul (fun w => absCt dbg (fun x => red_mul dbg x w)) p t d a) a n

/-- src/ntt_red_interval.c:659-705; the loop variable is `d`, and `t` is halved. -/
def abstract_ntt_red_gs_rev2std (dbg : Bool) (a : Array Ivl) (n : Nat) (p : Array Int) :
    M (Array Ivl × List Shown) :=
  absUp (fun d t a => roundBGs (absBf0 dbg) (fun w => absGs dbg (red_scale dbg w)) p t d a) a n

/-- src/ntt_red_interval.c:707-753 -/
def abstract2_ntt_red_gs_rev2std (dbg : Bool) (a : Array Ivl) (n : Nat) (p : Array Ivl) :
    M (Array Ivl × List Shown) :=
  absUp (fun d t a => roundBGs (absBf0 dbg) (fun w => absGs dbg (fun z => red_mul dbg z w)) p t d a)
    a n

/-- src/ntt_red_interval.c:767-802 -/
def abstract_nttmul_red_gs_rev2std (dbg : Bool) (a : Array Ivl) (n : Nat) (p : Array Int) :
    M (Array Ivl × List Shown) :=
  absUp (fun d t a => roundBMul (fun w => absGs dbg (red_scale dbg w)) p t d a) a n

/-- src/ntt_red_interval.c:804-839 -/
def abstract2_nttmul_red_gs_rev2std (dbg : Bool) (a : Array Ivl) (n : Nat) (p : Array Ivl) :
    M (Array Ivl × List Shown) :=
  absUp (fun d t a => roundBMul (fun w => absGs dbg (fun z => red_mul dbg z w)) p t d a) a n

/-- src/ntt_red_interval.c:855-898 -/
def abstract_ntt_red_gs_std2rev (dbg : Bool) (a : Array Ivl) (n : Nat) (p : Array Int) :
    M (Array Ivl × List Shown) :=
  absDown (fun t a => roundA (absBf0 dbg) (fun w => absGs dbg (red_scale dbg w)) n p t a) a n

/-- src/ntt_red_interval.c:900-943 -/
def abstract2_ntt_red_gs_std2rev (dbg : Bool) (a : Array Ivl) (n : Nat) (p : Array Ivl) :
    M (Array Ivl × List Shown) :=
  absDown (fun t a => roundA (absBf0 dbg) (fun w => absGs dbg (fun z => red_mul dbg z w)) n p t a)
    a n

/-- src/ntt_red_interval.c:957-989 -/
def abstract_nttmul_red_gs_std2rev (dbg : Bool) (a : Array Ivl) (n : Nat) (p : Array Int) :
    M (Array Ivl × List Shown) :=
  absDown (fun t a => roundAMul (fun w => absGs dbg (red_scale dbg w)) n p t a) a n

/-- src/ntt_red_interval.c:991-1023 -/
def abstract2_nttmul_red_gs_std2rev (dbg : Bool) (a : Array Ivl) (n : Nat) (p : Array Ivl) :
    M (Array Ivl × List Shown) :=
  absDown (fun t a => roundAMul (fun w => absGs dbg (fun z => red_mul dbg z w)) n p t a) a n

end NttRedInterval
