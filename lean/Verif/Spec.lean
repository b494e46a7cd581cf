import Mathlib.Data.ZMod.Basic
import Mathlib.Algebra.BigOperators.Group.Finset.Basic
import Mathlib.GroupTheory.OrderOfElement

/-
Specification vocabulary.  Nothing here refers to the code: these are the mathematical notions
the property theorems are stated with.
-/

namespace Spec
open Finset

/-- The modulus. -/
abbrev Q : Nat := 12289

/-- Integers modulo 12289. -/
abbrev Zq := ZMod 12289

/-- Reversal of the `k` low-order bits of `i` (see `Spec.testBit_rev`). -/
def rev : Nat → Nat → Nat
  | 0, _ => 0
  | k + 1, i => (i % 2) * 2 ^ k + rev k (i / 2)

/-- Element `i` of an integer array, as an integer (0 outside the array). -/
def elt (a : Array Int) (i : Nat) : Int := a.getD i 0

/-- Element `i` of an integer array modulo 12289: the coefficient of `X^i`. -/
def coeff (a : Array Int) (i : Nat) : Zq := (elt a i : Zq)

/-- All elements are in `[lo, hi]`. -/
def InRange (lo hi : Int) (a : Array Int) : Prop := ∀ i, i < a.size → lo ≤ elt a i ∧ elt a i ≤ hi

/-- All elements are in `[0, Q-1]`. -/
abbrev Reduced (a : Array Int) : Prop := InRange 0 12288 a

/-- Value at `x` of the polynomial of degree `< n` with coefficients `A`. -/
def evalPoly {R : Type} [CommRing R] (n : Nat) (A : Nat → R) (x : R) : R :=
  ∑ l ∈ range n, A l * x ^ l

/-- The number theoretic transform: component `i` is the value of the polynomial at `ω^i`. -/
def ntt {R : Type} [CommRing R] (n : Nat) (ω : R) (A : Nat → R) (i : Nat) : R :=
  evalPoly n A (ω ^ i)

/-- Product modulo `X^n + 1`: coefficient `k`. -/
def negacyclic {R : Type} [CommRing R] (n : Nat) (A B : Nat → R) (k : Nat) : R :=
  ∑ i ∈ range n, ∑ j ∈ range n,
    if i + j = k then A i * B j else if i + j = k + n then -(A i * B j) else 0

/-- `ω` is a primitive `n`-th root of unity: its multiplicative order is exactly `n`. -/
def PrimRoot (n : Nat) (ω : Zq) : Prop := orderOf ω = n

/-- A table of twiddle factors in standard order, for size `n = 2^k`: for `t = 1, 2, 4, ..., n/2`
and `j < t`, entry `t+j` is `c^(n/2t) * (ω^(n/2t))^j` up to the constant factor `κ` (`κ` times the
entry is that value), and lies in `[lo, hi]`. -/
def StdTable (κ c ω : Zq) (lo hi : Int) (k : Nat) (p : Array Int) : Prop :=
  2 ^ k ≤ p.size ∧ ∀ m j, m < k → j < 2 ^ m →
    (lo ≤ elt p (2 ^ m + j) ∧ elt p (2 ^ m + j) ≤ hi) ∧
    κ * coeff p (2 ^ m + j) = c ^ (2 ^ k / (2 * 2 ^ m)) * (ω ^ (2 ^ k / (2 * 2 ^ m))) ^ j

/-- The same in bit-reverse order: entry `t+j` is `c^(n/2t) * (ω^(n/2t))^rev(j)` up to `κ`, where
`rev` reverses the `m` bits of `j` (`t = 2^m`). -/
def RevTable (κ c ω : Zq) (lo hi : Int) (k : Nat) (p : Array Int) : Prop :=
  2 ^ k ≤ p.size ∧ ∀ m j, m < k → j < 2 ^ m →
    (lo ≤ elt p (2 ^ m + j) ∧ elt p (2 ^ m + j) ≤ hi) ∧
    κ * coeff p (2 ^ m + j) = c ^ (2 ^ k / (2 * 2 ^ m)) * (ω ^ (2 ^ k / (2 * 2 ^ m))) ^ rev m j

/-- A table of scaled powers: `κ * p[i] = s * c^i` for `i < n`, entries in `[lo, hi]`. -/
def PowTable (κ s c : Zq) (lo hi : Int) (n : Nat) (p : Array Int) : Prop :=
  n ≤ p.size ∧ ∀ i, i < n → (lo ≤ elt p i ∧ elt p i ≤ hi) ∧ κ * coeff p i = s * c ^ i

/-- The Longa-Naehrig reduction for `q = 3 * 2^12 + 1`: `3 * (x mod 2^12) - floor(x / 2^12)`. -/
def red (x : Int) : Int := 3 * (x % 4096) - x / 4096

/-- `p` is a correct table of pairs for size `2^k`, with `n` entries: the pairs `(i, rev i)` with
`i < rev i`, each exactly once. -/
def PairTable (k n : Nat) (p : Array (Nat × Nat)) : Prop :=
  n ≤ p.size ∧
  (∀ z, z < n → ∃ i, i < rev k i ∧ i < 2 ^ k ∧ p[z]? = some (i, rev k i)) ∧
  (∀ z z', z < n → z' < n → p[z]? = p[z']? → z = z') ∧
  (∀ i, i < 2 ^ k → i < rev k i → ∃ z, z < n ∧ p[z]? = some (i, rev k i))

end Spec
