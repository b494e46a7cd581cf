import Verif.SpecIntervals
import Verif.Model.NttRedInterval

/-
Specification vocabulary for the abstract transforms: what they display.
-/

namespace Intervals
open NttRedInterval

/-- All the intervals displayed are included in `[-L, L]`. -/
def ShownWithin (L : Int) (log : List Shown) : Prop :=
  ∀ sh, sh ∈ log → ∀ (i : Nat) (X : Ivl), sh.a[i]? = some X → -L ≤ X.min ∧ X.max ≤ L

/-- In the array displayed before each round `m` (the last array displayed is the result) all intervals are
non-empty and included in `[-B m, B m]`. -/
def ShownBounds (B : Nat → Int) (log : List Shown) : Prop :=
  ∀ m sh, log[m]? = some sh → ∀ (i : Nat) (X : Ivl), sh.a[i]? = some X →
    -B m ≤ X.min ∧ X.min ≤ X.max ∧ X.max ≤ B m

/-- All elements are non-empty intervals included in `[-L, L]`. -/
def IvlsWithin (L : Int) (A : Array Ivl) : Prop :=
  ∀ (i : Nat) (X : Ivl), A[i]? = some X → -L ≤ X.min ∧ X.min ≤ X.max ∧ X.max ≤ L

/-- A table of `n` twiddle factors in `[-6144, 6144]`, not 0 except possibly the first, which is not used. -/
def NonzeroTable (n : Nat) (p : Array Int) : Prop :=
  n ≤ p.size ∧ ∀ (i : Nat) (w : Int), p[i]? = some w → (-6144 ≤ w ∧ w ≤ 6144) ∧ (0 < i → i < n → w ≠ 0)

/-- No warning is displayed. -/
def NoWarning (log : List Shown) : Prop := ∀ sh, sh ∈ log → sh.warnings = []

/-- The interval reaches at least as far above 0 as below. -/
def LeansUp (X : Ivl) : Prop := -X.max ≤ X.min

/-- In the array displayed before each round `m` (the last array displayed is the result), the second
elements `i = s + h m` of the pairs `(s, s + h m)` processed in this round lean up. -/
def ShownLeanUp (h : Nat → Nat) (log : List Shown) : Prop :=
  ∀ m sh, m + 1 < log.length → log[m]? = some sh → ∀ (i : Nat) (X : Ivl), (i / h m) % 2 = 1 →
    sh.a[i]? = some X → LeansUp X

/-- In the array displayed before each round `m`, the center of element `i` is not below the center
of element `i + h m`, for the pairs processed in this round. -/
def ShownCentered (h : Nat → Nat) (log : List Shown) : Prop :=
  ∀ m sh, m + 1 < log.length → log[m]? = some sh → ∀ (i : Nat) (X Y : Ivl), (i / h m) % 2 = 0 →
    sh.a[i]? = some X → sh.a[i + h m]? = some Y → Y.min + Y.max ≤ X.min + X.max

end Intervals
