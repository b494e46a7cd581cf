import Verif.Spec
import Verif.Model.TestTables

/-
What the tables checked in for the test programs must contain (C60).
-/

namespace Spec

/-- The four twiddle-factor tables of a size: powers of `ω = ψ^2` in standard and bit-reverse order, and the same with the
factors `ψ`; every entry times `κ` is the power. -/
structure TwiddlesOK (κ ψ : Zq) (lo hi : Int) (k : Nat) (p pr s sr : Array Int) : Prop where
  std : StdTable κ 1 (ψ ^ 2) lo hi k p
  rev : RevTable κ 1 (ψ ^ 2) lo hi k pr
  scaled : StdTable κ ψ (ψ ^ 2) lo hi k s
  scaled_rev : RevTable κ ψ (ψ ^ 2) lo hi k sr
  entries : ∀ a ∈ [p, pr, s, sr], a.size = 2 ^ k ∧ InRange lo hi a

/-- The sizes of the test programs, `(k, ψ)` for `n = 2^k` as the comments in the header files give them. -/
def testParams : List (Nat × Nat) := [(4, 1212), (7, 1022), (8, 1002), (9, 1003), (10, 1014), (11, 1016)]

end Spec
