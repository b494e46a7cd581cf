import Verif.Model.SpeedMul
import Verif.Spec

/-
Vocabulary for C59: a client that owns any number of arrays and calls product functions on them again and again.
-/

namespace Spec
open C

/-- A call `f(c, a, b)` on three of the client's arrays. -/
structure Call where
  f : SpeedMul.Product
  c : Nat
  a : Nat
  b : Nat

/-- The client's arrays after a call. -/
def afterCall (mem : Nat → Array Int) (x : Call) (r : Array Int × Array Int × Array Int) : Nat → Array Int :=
  fun i => if i = x.c then r.1 else if i = x.a then r.2.1 else if i = x.b then r.2.2 else mem i

/-- The calls, made one after the other on the arrays `mem`, all return, and each of them leaves in its destination the
product modulo `X^n + 1` of what its operands contained just before, with coefficients in `[lo, hi]`. -/
def AllRight (n : Nat) (lo hi : Int) : List Call → (Nat → Array Int) → Prop
  | [], _ => True
  | x :: xs, mem => ∃ r, x.f (mem x.c) (mem x.a) (mem x.b) = .ok r ∧ InRange lo hi r.1 ∧
      (∀ i, i < n → coeff r.1 i = negacyclic n (coeff (mem x.a)) (coeff (mem x.b)) i) ∧
      AllRight n lo hi xs (afterCall mem x r)

/-- The calls use functions of the list, and each of them three different arrays. -/
def Calls (fs : List SpeedMul.Product) (xs : List Call) : Prop :=
  ∀ x ∈ xs, x.f ∈ fs ∧ x.c ≠ x.a ∧ x.c ≠ x.b ∧ x.a ≠ x.b

end Spec
