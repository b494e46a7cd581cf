import Verif.Spec
import Verif.Model.TestRed

/-
Vocabulary for the bounds printed by test_red (C64).
-/

namespace Spec
open TestRed (Line)

/-- A Cooley-Tukey butterfly `x' = x + red(w y)`, `y' = x - red(w y)` with `|w| ≤ Q-1` takes values of magnitude at most `b`
to values of magnitude at most `b'`. -/
def CtRound (b b' : Int) : Prop := ∀ x y w : Int, |x| ≤ b → |y| ≤ b → |w| ≤ 12288 →
  |x + red (w * y)| ≤ b' ∧ |x - red (w * y)| ≤ b'

/-- The same for a Gentleman-Sande butterfly `x' = x + y`, `y' = red(w (x - y))`. -/
def GsRound (b b' : Int) : Prop := ∀ x y w : Int, |x| ≤ b → |y| ≤ b → |w| ≤ 12288 →
  |x + y| ≤ b' ∧ |red (w * (x - y))| ≤ b'

/-- The same for a reduction `red(x)`. -/
def Reduces (b b' : Int) : Prop := ∀ x : Int, |x| ≤ b → |red x| ≤ b'

/-- From line to line the bounds are right for a round `R`, or for a reduction followed by a round where the program prints a
reduction; rounds are numbered from `i`; every bound after a round fits in `int32_t`. -/
inductive SoundLines (R : Int → Int → Prop) : Nat → Int → List Line → Prop
  | last (i : Nat) (b : Int) : SoundLines R i b [.bound i b]
  | lastReduced (i : Nat) (b r : Int) : Reduces b r → SoundLines R i b [.bound i b, .reduction r]
  | round (i : Nat) (b b' : Int) (l : List Line) : R b b' → b' ≤ 2147483647 → SoundLines R (i + 1) b' l →
      SoundLines R i b (.bound i b :: l)
  | reduced (i : Nat) (b r b' : Int) (l : List Line) : Reduces b r → R r b' → b' ≤ 2147483647 → SoundLines R (i + 1) b' l →
      SoundLines R i b (.bound i b :: .reduction r :: l)

end Spec
