import Mathlib.Algebra.Order.Ring.Int

/-
Vocabulary of src/notes.txt, the analysis behind the Longa-Naehrig reduction, for a modulus `q = k * 2^m + 1`.
-/

namespace Notes

/-- The modulus (src/notes.txt:1). -/
def modulus (k : Int) (m : Nat) : Int := k * 2 ^ m + 1

/-- `red(x) = k*r - a` where `x = a * 2^m + r` with `0 <= r <= 2^m-1` (src/notes.txt:5-6). -/
def red (k : Int) (m : Nat) (x : Int) : Int := k * (x % 2 ^ m) - x / 2 ^ m

/-- A value of type `int32_t`. -/
def Fits (x : Int) : Prop := -2 ^ 31 ≤ x ∧ x ≤ 2 ^ 31 - 1

/-- `f` iterated: `B0, B1, ...`. -/
def seq (f : Int → Int) (b : Int) : Nat → List Int
  | 0 => [b]
  | n + 1 => b :: seq f (f b) n

/-- The sequence of bounds with a reduction (`g`) before every step (`f`) that would leave `int32_t`; the list has the bounds
after each step, and the bound after a reduction in front of the next step. -/
def seqRed (f g : Int → Int) (b : Int) : Nat → List Int
  | 0 => [b]
  | n + 1 => if f b < 2 ^ 31 then b :: seqRed f g (f b) n else b :: g b :: seqRed f g (f (g b)) n

end Notes
