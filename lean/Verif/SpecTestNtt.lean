import Verif.SpecTransforms
import Verif.SpecTestPrograms

/-
Vocabulary for the programs that test the size-independent functions (C61, C62).
-/

namespace Spec
open C

/-- `f` maps every array of `2^k` values in `[0, q-1]` to the array of the `2^k` components of `scaledNtt`
(SpecTransforms.lean), both in standard order, with results in `[0, q-1]`. -/
def Std2Std (k : Nat) (ω pre post : Zq) (f : Array Int → M (Array Int)) : Prop :=
  ∀ a : Array Int, a.size = 2 ^ k → Reduced a →
    ∃ a', f a = .ok a' ∧ a'.size = 2 ^ k ∧ Reduced a' ∧
      ∀ i, i < 2 ^ k → coeff a' i = scaledNtt (2 ^ k) ω pre post (coeff a) i

/-- What `random()` and the cycle counter can provide. -/
structure Clock (w : TestProg.World) : Prop where
  random : ∀ i, w.random i < 2 ^ 31
  cycles : ∀ i, w.cycles i < 2 ^ 64

/-- `f` works on arrays of `n` elements of type `int32_t`: when it returns, the array has the same size and its
elements are of this type. -/
def KeepsArrays (n : Nat) (f : Array Int → M (Array Int)) : Prop :=
  ∀ a a', a.size = n → f a = .ok a' → a'.size = n ∧ ∀ i, i < n → -2147483648 ≤ elt a' i ∧ elt a' i ≤ 2147483647

/-- `f` gives the transform of `X^j` with root `om` for every `j < n`, and applied again `n X^((n-j) mod n)`, with
coefficients in `[0, q-1]`. -/
def TwiceOnMonomials (n : Nat) (om : Int) (f : Array Int → M (Array Int)) : Prop :=
  ∀ j, j < n → ∃ x y z, IsMono n j x ∧ f x = .ok y ∧ Reduced y ∧ (∀ i, i < n → coeff y i = ntt n (om : Zq) (mono j) i) ∧
    f y = .ok z ∧ ∀ i, i < n → elt z i = if i = (n - j) % n then (n : Int) else 0

/-- `f` and `g` give the same array on every `X^j`, and again on the result. -/
def SameOnMonomials (n : Nat) (f g : Array Int → M (Array Int)) : Prop :=
  ∀ j, j < n → ∃ x y z, IsMono n j x ∧ f x = .ok y ∧ g x = .ok y ∧ f y = .ok z ∧ g y = .ok z

end Spec
