import Verif.Shared

/-
Array arguments that are parts of larger arrays.

In `Verif/Shared.lean` an array argument is a reference to a whole array.  Here the memory consists of objects (the
arrays that the caller declares or allocates), and an argument is a pointer into an object: an object and an offset, as
in `ntt1024_product1(buf, buf + 1024, buf + 2048)`.  An access is valid if and only if it is within the object, so that
an access outside the part that was meant is not an error here, but a read or a change of other data.
-/

namespace Shared
open C

/-- The name of an object. -/
abbrev Obj : Type := String

/-- The contents of all objects. -/
abbrev Heap : Type := Obj → Array Int

/-- Where the arrays are: the array `h` consists of the elements `off h`, ..., `off h + len h - 1` of the object
`obj h`. -/
structure Layout where
  obj : Ref → Obj
  off : Ref → Nat
  len : Ref → Nat

/-- Element `j` of the object `o` belongs to the array `h`. -/
def Layout.Has (L : Layout) (h : Ref) (o : Obj) (j : Nat) : Prop := L.obj h = o ∧ L.off h ≤ j ∧ j < L.off h + L.len h

/-- Every array is within its object, and different arrays have no element in common. -/
structure Layout.OK (L : Layout) (H : Heap) : Prop where
  fits : ∀ h, L.off h + L.len h ≤ (H (L.obj h)).size
  apart : ∀ h h' o j, L.Has h o j → L.Has h' o j → h = h'

/-- The contents of the arrays. -/
def view (L : Layout) (H : Heap) : Mem := fun h => (H (L.obj h)).extract (L.off h) (L.off h + L.len h)

/-- The heap `H` with `a` as the contents of the object `o`. -/
def Heap.set (H : Heap) (o : Obj) (a : Array Int) : Heap := fun k => if k = o then a else H k

/-- A program alone in a heap, where the argument `h` is the pointer `obj h + off h`; see `run`. -/
def runAt {α : Type} (L : Layout) (x : Prog α) (H : Heap) : Except Err (α × Heap) :=
  match x with
  | .pure a => .ok (a, H)
  | .fail e => .error e
  | .read h i k =>
    match rd (H (L.obj h)) (L.off h + i) with
    | .error e => .error e
    | .ok v => runAt L (k v) H
  | .write h i v k =>
    match wr (H (L.obj h)) (L.off h + i) v with
    | .error e => .error e
    | .ok a => runAt L k (H.set (L.obj h) a)

/-- One step of a program in a heap; see `step`. -/
def stepAt {α : Type} (L : Layout) (x : Prog α) (H : Heap) : Prog α × Heap :=
  match x with
  | .pure a => (.pure a, H)
  | .fail e => (.fail e, H)
  | .read h i k =>
    match rd (H (L.obj h)) (L.off h + i) with
    | .error e => (.fail e, H)
    | .ok v => (k v, H)
  | .write h i v k =>
    match wr (H (L.obj h)) (L.off h + i) v with
    | .error e => (.fail e, H)
    | .ok a => (k, H.set (L.obj h) a)

/-- Threads with a shared heap: one step of thread `i`; see `stepThread`. -/
def stepThreadAt {ι α : Type} [DecidableEq ι] (L : Layout) (s : (ι → Prog α) × Heap) (i : ι) :
    (ι → Prog α) × Heap :=
  ((fun j => if j = i then (stepAt L (s.1 i) s.2).1 else s.1 j), (stepAt L (s.1 i) s.2).2)

/-- The threads `P` run in the heap `H` in the order given by the schedule; see `exec`. -/
def execAt {ι α : Type} [DecidableEq ι] (L : Layout) (sched : List ι) (P : ι → Prog α) (H : Heap) :
    (ι → Prog α) × Heap :=
  sched.foldl (stepThreadAt L) (P, H)

/-- Nothing but elements of the arrays `A` differs between the heaps. -/
def OnlyIn (L : Layout) (A : Ref → Prop) (H H' : Heap) : Prop :=
  ∀ o j, (∀ h, A h → ¬ L.Has h o j) → (H' o)[j]? = (H o)[j]?

end Shared
