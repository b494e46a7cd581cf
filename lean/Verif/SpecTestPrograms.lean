import Verif.Model.TestPrograms
import Verif.SpecTransforms

/-
Vocabulary for the test programs (C55-C57).
-/

namespace Spec
open C

/-- The coefficients of the polynomial `X^j`. -/
def mono (j : Nat) : Nat → Zq := fun i => if i = j then 1 else 0

/-- `a` is the array of `n` integers with `1` at position `j` and `0` elsewhere. -/
def IsMono (n j : Nat) (a : Array Int) : Prop :=
  a.size = n ∧ ∀ i, i < n → elt a i = if i = j then 1 else 0

/-- What `random()`, the cycle counter and the stack can provide: see POSIX for `random`; a local
array has the declared size. -/
structure WorldOK (n : Nat) (w : TestProg.World) : Prop where
  random : ∀ i, w.random i < 2 ^ 31
  cycles : ∀ i, w.cycles i < 2 ^ 64
  junk : ∀ i, (w.junk i).size = n

/-- `f` gives the transform of `X^j` with root `om` for every `j`; the input or the output is in bit-reverse order. -/
def TransformOnMonomials (k : Nat) (om : Int) (std2rev : Bool) (f : Array Int → M (Array Int)) : Prop :=
  ∀ j, j < 2 ^ k → ∃ x y, IsMono (2 ^ k) (if std2rev then j else rev k j) x ∧ f x = .ok y ∧
    ∀ i, i < 2 ^ k → coeff y (if std2rev then rev k i else i) = ntt (2 ^ k) (om : Zq) (mono j) i

/-- `f` gives the product of `X^i` and `X^j` for all `i` and `j`. -/
def ProductOnMonomials (k : Nat)
    (f : Array Int → Array Int → Array Int → M (Array Int × Array Int × Array Int)) : Prop :=
  ∀ i j, i < 2 ^ k → j < 2 ^ k → ∃ d x y d' x' y', d.size = 2 ^ k ∧ IsMono (2 ^ k) i x ∧ IsMono (2 ^ k) j y ∧
    f d x y = .ok (d', x', y') ∧ ∀ l, l < 2 ^ k → coeff d' l = negacyclic (2 ^ k) (mono i) (mono j) l

/-- `x` and `y` have the same residues modulo `Q`. -/
def SameClass (n : Nat) (x y : Array Int) : Prop := x.size = n ∧ ∀ i, i < n → coeff x i = coeff y i

/-- For the polynomial with coefficients `random()` mod `Q` drawn at the events `p`, `p + 1`, ...: `fwd`, then `inv`
on an array with the same residues as the result, then multiplication by `c`, give back its coefficients. -/
def RoundTrip (k : Nat) (w : TestProg.World) (fwd inv : Array Int → M (Array Int)) (c : Int) (p : Nat) : Prop :=
  ∃ x y y' z : Array Int, x.size = 2 ^ k ∧ (∀ i, i < 2 ^ k → coeff x i = ((w.random (p + i) : Nat) : Zq)) ∧
    fwd x = .ok y ∧ (∀ i, i < 2 ^ k → coeff y' i = coeff y i) ∧ inv y' = .ok z ∧
    ∀ i, i < 2 ^ k → coeff z i * (c : Zq) = ((w.random (p + i) : Nat) : Zq)

/-- 1000 round trips on polynomials from disjoint ranges of random numbers. -/
def RoundTrips (k : Nat) (w : TestProg.World) (fwd inv : Array Int → M (Array Int)) (c : Int) : Prop :=
  ∃ p : Nat → Nat, (∀ i, p i + 2 ^ k < p (i + 1)) ∧ ∀ i, i < 1000 → RoundTrip k w fwd inv c (p i)

/-- Time between the clock readings `k` and `k + 1` of a world, modulo `2^64`. -/
def duration (w : TestProg.World) (k : Nat) : Nat := (w.cycles (k + 1) + 2 ^ 64 - w.cycles k) % 2 ^ 64

/-- The 102400 durations that start at the readings `k`, `k + 1`, ... -/
def durations (w : TestProg.World) (k : Nat) : List Nat :=
  (List.range 102400).map fun i => duration w (k + i)

/-- `p` is the pair of the median and of the average of these durations: the median is the element at
position 51200 (from 0) of the sorted list; the sum is taken modulo `2^64` and the quotient rounded down. -/
def Shows (w : TestProg.World) (k : Nat) (p : Nat × Nat) : Prop :=
  (∃ l : List Nat, l.Perm (durations w k) ∧ l.Pairwise (· ≤ ·) ∧ l[51200]? = some p.1) ∧
    p.2 = (durations w k).sum % 2 ^ 64 / 102400

/-- The `m` pairs shown come from disjoint ranges of clock readings, in order. -/
def Measured (w : TestProg.World) (m : Nat) (shown : List (Nat × Nat)) : Prop :=
  ∃ ks : List Nat, ks.length = m ∧ ks.Pairwise (fun k k' => k + 102400 < k') ∧
    List.Forall₂ (Shows w) ks shown

end Spec
