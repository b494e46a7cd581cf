import Verif.CSem

/-
Model of src/sort.c.

`uint64_t *a` is an array and an offset `base`: the recursive calls pass `a + j`.  The elements are
natural numbers (they are only compared and copied).  `uint32_t` counters wrap.  Loops and recursive
calls have fuel.
-/

namespace IntSort
open C

/-- `while (a[j] < x) j ++;` (src/sort.c:17). -/
def scanLess (a : Array Nat) (base x : Nat) : Nat → Nat → M Nat
  | 0, _ => .error .nonterm
  | fuel + 1, j => do
    let v ← rd a (base + j)
    if v < x then scanLess a base x fuel (u32 (j + 1)) else pure j

/-- `while (j < i) { y = a[j]; a[j] = x; x = y; j ++; }` (src/sort.c:18-21): final `a`, `x`, `j`. -/
def insertShift (base i : Nat) : Nat → Array Nat → Nat → Nat → M (Array Nat × Nat × Nat)
  | 0, _, _, _ => .error .nonterm
  | fuel + 1, a, x, j =>
    if j < i then do
      let y ← rd a (base + j)
      let a ← wr a (base + j) x
      insertShift base i fuel a y (u32 (j + 1))
    else pure (a, x, j)

/-- `isort_int_array` (src/sort.c:10-24). -/
def isort_int_array (a : Array Nat) (base n : Nat) : M (Array Nat) :=
  forUp 1 n 1 (fun i a => do
    let x ← rd a (base + i)
    let j ← scanLess a base x (n + 1) 0
    let r ← insertShift base i (n + 1) a x j
    wr r.1 (base + r.2.2) r.2.1) a

/-- `do { j--; } while (a[j] > x);` (src/sort.c:50, 56). -/
def scanDown (a : Array Nat) (base x : Nat) : Nat → Nat → M Nat
  | 0, _ => .error .nonterm
  | fuel + 1, j => do
    let j := u32 (j + 4294967295)
    let v ← rd a (base + j)
    if v > x then scanDown a base x fuel j else pure j

/-- `do { i++; } while (i <= j && a[i] < x);` (src/sort.c:51). -/
def scanUpTo (a : Array Nat) (base x j : Nat) : Nat → Nat → M Nat
  | 0, _ => .error .nonterm
  | fuel + 1, i =>
    let i := u32 (i + 1)
    if i ≤ j then do
      let v ← rd a (base + i)
      if v < x then scanUpTo a base x j fuel i else pure i
    else pure i

/-- `do { i++; } while (a[i] < x);` (src/sort.c:57). -/
def scanUp (a : Array Nat) (base x : Nat) : Nat → Nat → M Nat
  | 0, _ => .error .nonterm
  | fuel + 1, i => do
    let i := u32 (i + 1)
    let v ← rd a (base + i)
    if v < x then scanUp a base x fuel i else pure i

/-- The loop of lines 53-58 of src/sort.c: final `a` and `j`. -/
def partLoop (base n x : Nat) : Nat → Array Nat → Nat → Nat → M (Array Nat × Nat)
  | 0, _, _, _ => .error .nonterm
  | fuel + 1, a, i, j =>
    if i < j then do
      let y ← rd a (base + i)
      let z ← rd a (base + j)
      let a ← wr a (base + i) z
      let a ← wr a (base + j) y
      let j ← scanDown a base x (n + 1) j
      let i ← scanUp a base x (n + 1) i
      partLoop base n x fuel a i j
    else pure (a, j)

/-- Lines 39-62 of src/sort.c: final `a` and `j`. -/
def partition (a : Array Nat) (base n : Nat) : M (Array Nat × Nat) := do
  let i := n / 2
  let x ← rd a (base + i)
  let a0 ← rd a base
  let a ← wr a (base + i) a0
  let a ← wr a base x
  let j ← scanDown a base x (n + 1) n
  let i ← scanUpTo a base x j (n + 1) 0
  let r ← partLoop base n x (n + 1) a i j
  let aj ← rd r.1 (base + r.2)
  let a ← wr r.1 base aj
  let a ← wr a (base + r.2) x
  pure (a, r.2)

/-- `sort_array` (src/sort.c:26-32) with `qsort_int_array` (src/sort.c:35-68) inlined; `fuel` bounds
the depth of the recursion. -/
def sort_array : Nat → Array Nat → Nat → Nat → M (Array Nat)
  | 0, _, _, _ => .error .nonterm
  | fuel + 1, a, base, n =>
    if n < 10 then isort_int_array a base n
    else do
      let r ← partition a base n
      let a ← sort_array fuel r.1 base r.2
      let j := u32 (r.2 + 1)
      sort_array fuel a (base + j) (u32 (n + 4294967296 - j))

/-- `sort` (src/sort.c:74-76). -/
def sort (a : Array Nat) (n : Nat) : M (Array Nat) := sort_array (n + 1) a 0 n

end IntSort
