import Verif.Model.Kat
import Verif.Spec

/-
Vocabulary for the known-answer tests (C58).
-/

namespace Spec
open C

/-- Row `r` of a two-dimensional array. -/
def rowOf (t : Array (Array Int)) (r : Nat) : Array Int := t.getD r #[]

/-- The first `n` elements are in `[0, Q-1]`. -/
def ReducedUpTo (n : Nat) (a : Array Int) : Prop := ∀ i, i < n → 0 ≤ elt a i ∧ elt a i ≤ 12288

/-- `a[r]`, `b[r]`, `c[r]` are reduced polynomials of degree < 1024 and `c[r] = a[r] * b[r]` modulo `X^1024 + 1`, for the
100 values of `r`. -/
def KnownAnswers (g : Kat.Globals) : Prop :=
  ∀ r, r < 100 → (ReducedUpTo 1024 (rowOf g.a r) ∧ ReducedUpTo 1024 (rowOf g.b r) ∧ ReducedUpTo 1024 (rowOf g.c r)) ∧
    ∀ i, i < 1024 → coeff (rowOf g.c r) i = negacyclic 1024 (coeff (rowOf g.a r)) (coeff (rowOf g.b r)) i

/-- `x` is a local array of 1024 elements with the first 1024 elements of `y`. -/
def Copy (x y : Array Int) : Prop := x.size = 1024 ∧ ∀ i, i < 1024 → elt x i = elt y i

/-- On the 100 pairs `a[r]`, `b[r]`, `f` returns the product modulo `X^1024 + 1` in canonical form. -/
def RightOnKat (g : Kat.Globals) (f : Kat.Product) : Prop :=
  ∀ r, r < 100 → ∃ d x y d' x' y', d.size = 1024 ∧ Copy x (rowOf g.a r) ∧ Copy y (rowOf g.b r) ∧
    f d x y = .ok (d', x', y') ∧ Reduced d' ∧ ∀ i, i < 1024 → coeff d' i = negacyclic 1024 (coeff x) (coeff y) i

/-- The function keeps the sizes of its three arrays, as every C function does. -/
def KeepsSizes (f : Kat.Product) : Prop :=
  ∀ d x y d' x' y', d.size = 1024 → x.size = 1024 → y.size = 1024 → f d x y = .ok (d', x', y') →
    d'.size = 1024 ∧ x'.size = 1024 ∧ y'.size = 1024

end Spec
