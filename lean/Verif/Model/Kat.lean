import Verif.CSem
import Verif.Model.KatData

/-
Model of the known-answer tests: src/data_poly1024.c, src/kat_mul1024.c, src/kat_mul1024_red.c and
src/kat_mul1024_red_asm.c.

The three programs are copies of one another up to the names of the functions tested; line numbers are those of
src/kat_mul1024.c.  Messages are not modelled; `exit(EXIT_FAILURE)` is the error `abort`.
-/

namespace Kat
open C

/-- One of the arrays `a0`, `b0`, `c0`, `a1`, ... of src/data_poly1024.c:19-617, from the number that represents it in
Model/KatData.lean. -/
def row (x : Nat) : Array Int :=
  Array.ofFn (n := 1024) fun i => (((x >>> (16 * i.val)) % 65536 : Nat) : Int)

/-- The global arrays `a`, `b`, `c` (src/data_poly1024.c:17): `REPETITIONS` rows of `N` elements. -/
structure Globals where
  a : Array (Array Int)
  b : Array (Array Int)
  c : Array (Array Int)

/-- src/data_poly1024.h:10 -/
def REPETITIONS : Nat := 100

/-- src/data_poly1024.h:11 -/
def N : Nat := 1025

/-- The arrays start with zeros (static storage). -/
def zeros : Globals :=
  let z := Array.replicate REPETITIONS (Array.replicate N (0 : Int))
  ⟨z, z, z⟩

/-- `for (i=0; i<1024; i++) a[r][i] = src[i];`, a line of src/data_poly1024.c:622-920. -/
def copyRow (src : Array Int) (r : Nat) (a : Array (Array Int)) : M (Array (Array Int)) := do
  let x ← rd a r
  let x ← forUp 0 1024 1 (fun i x => do let v ← rd src i; wr x i v) x
  wr a r x

/-- `build_kat` (src/data_poly1024.c:619-921): the three lines for `r = 0, 1, ..., 99`, written as a loop here. -/
def build_kat (g : Globals) : M Globals :=
  forUp 0 100 1 (fun r g => do
    let a ← copyRow (row (Data.a.getD r 0)) r g.a
    let b ← copyRow (row (Data.b.getD r 0)) r g.b
    let c ← copyRow (row (Data.c.getD r 0)) r g.c
    pure ⟨a, b, c⟩) g

/-- `copy_poly` (src/kat_mul1024.c:21-27). -/
def copy_poly (a b : Array Int) : M (Array Int) :=
  forUp 0 1024 1 (fun i a => do let x ← rd b i; wr a i x) a

/-- The functions tested: `f(c, a, b)` changes the three arrays. -/
abbrev Product := Array Int → Array Int → Array Int → M (Array Int × Array Int × Array Int)

/-- One round of `test_mul_from_KAT_values` (src/kat_mul1024.c:33-42); the state is `(ua, ub, uc)`. -/
def round (g : Globals) (f : Product) (i : Nat) (s : Array Int × Array Int × Array Int) :
    M (Array Int × Array Int × Array Int) := do
  let x ← rd g.a i
  let ua ← copy_poly s.1 x
  let y ← rd g.b i
  let ub ← copy_poly s.2.1 y
  let r ← f s.2.2 ua ub
  let z ← rd g.c i
  let _ ← forUp 0 1024 1 (fun j (_ : Unit) => do
    let u ← rd r.1 j
    let v ← rd z j
    if u ≠ v then .error .abort else pure ()) ()
  pure (r.2.1, r.2.2, r.1)

/-- `test_mul_from_KAT_values` (src/kat_mul1024.c:29-46); `ua`, `ub`, `uc` are the initial contents of the local
arrays. -/
def test_mul_from_KAT_values (g : Globals) (f : Product) (ua ub uc : Array Int) : M Unit := do
  let _ ← forUp 0 REPETITIONS 1 (round g f) (ua, ub, uc)
  pure ()

/-- The tests of `main` one after the other; `junk` gives the initial contents of local arrays. -/
def tests (g : Globals) (junk : Nat → Array Int) : List Product → Nat → M Unit
  | [], _ => pure ()
  | f :: fs, k => do
    test_mul_from_KAT_values g f (junk k) (junk (k + 1)) (junk (k + 2))
    tests g junk fs (k + 3)

/-- `main` (src/kat_mul1024.c:48-67, src/kat_mul1024_red.c:49-68, src/kat_mul1024_red_asm.c:49-68) with the list of the
five functions tested. -/
def main (junk : Nat → Array Int) (fs : List Product) : M Unit := do
  let g ← build_kat zeros
  tests g junk fs 0

end Kat
