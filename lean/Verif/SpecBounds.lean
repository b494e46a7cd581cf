import Verif.Spec
import Mathlib.Algebra.Order.Group.Abs
import Mathlib.Algebra.Order.Ring.Int
import Mathlib.Order.Bounds.Basic

/-
Specification of the functions of src/red_bounds.c: extrema of `red(w * x)` over intervals and
bounds on the results of butterflies.
-/

namespace Spec

/-- Arguments for which no operation of `max_red_mul` and `min_red_mul` overflows. -/
def RedMulFits (a b w : Int) : Prop :=
  |w| * (|a| + 1) + 4095 < 9223372036854775808 ∧ |w| * (|b| + 1) + 4095 < 9223372036854775808

/-- Absolute values of the results `x ± red(w * y)` of a Cooley-Tukey butterfly with
`|x|, |y| ≤ b` and a multiplier in `W`. -/
def ctSet (b : Int) (W : Int → Prop) : Set Int :=
  {v | ∃ x y w, |x| ≤ b ∧ |y| ≤ b ∧ W w ∧
    (v = |x + red (w * y)| ∨ v = |x - red (w * y)|)}

/-- Absolute values of the results `x + y`, `red(w * (x - y))` of a Gentleman-Sande butterfly with
`|x|, |y| ≤ b` and a multiplier in `W`. -/
def gsSet (b : Int) (W : Int → Prop) : Set Int :=
  {v | ∃ x y w, |x| ≤ b ∧ |y| ≤ b ∧ W w ∧ (v = |x + y| ∨ v = |red (w * (x - y))|)}

/-- The table entries `p[t], ..., p[t + j - 1]`. -/
def Entries (p : Array Int) (t j : Nat) (w : Int) : Prop := ∃ i, i < j ∧ p[t + i]? = some w

/-- What the bounds functions compute: the array `B` of bounds, where `B 0 = b0` and `B (m+1)` is
the best bound on the results of the butterflies of round `m` for operands bounded by `B m`. -/
def Chain (S : Int → (Int → Prop) → Set Int) (p : Array Int) (T : Nat → Nat) (k : Nat) (b0 : Int)
    (B : Nat → Int) : Prop :=
  B 0 = b0 ∧ ∀ m, m < k → IsGreatest (S (B m) (Entries p (T m) (T m))) (B (m + 1))

/-- `int16_t` entries. -/
def Table16 (p : Array Int) : Prop := ∀ (i : Nat) (w : Int), p[i]? = some w → -32768 ≤ w ∧ w ≤ 32767

end Spec
