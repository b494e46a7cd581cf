import Verif.CSem
import Verif.Spec

/-
What the per-size functions of src/ntt<n>.h, src/ntt_red<n>.h and src/ntt_red_asm<n>.h compute
(C49), in the words of their headers: a transform with root `ω`, with the input or the output in
bit-reverse order, where coefficient `l` of the input is first multiplied by `pre^l` and component
`i` of the result is multiplied by `post^i`.
-/

namespace Spec
open C

/-- The formula: `post^i * sum over l of A l * pre^l * ω^(i*l)`. -/
def scaledNtt (n : Nat) (ω pre post : Zq) (A : Nat → Zq) (i : Nat) : Zq :=
  post ^ i * ntt n ω (fun l => A l * pre ^ l) i

/-- `f` maps every array of `2^k` values in `[lo, hi]` in bit-reverse order to the array of `2^k`
components in standard order; these are in `[lo', hi']`. -/
def Rev2Std (k : Nat) (ω pre post : Zq) (lo hi lo' hi' : Int) (f : Array Int → M (Array Int)) : Prop :=
  ∀ a : Array Int, a.size = 2 ^ k → InRange lo hi a →
    ∃ a', f a = .ok a' ∧ a'.size = 2 ^ k ∧ InRange lo' hi' a' ∧
      ∀ i, i < 2 ^ k → coeff a' i = scaledNtt (2 ^ k) ω pre post (fun l => coeff a (rev k l)) i

/-- `f` maps every array of `2^k` values in `[lo, hi]` in standard order to the array of `2^k`
components in bit-reverse order; these are in `[lo', hi']`. -/
def Std2Rev (k : Nat) (ω pre post : Zq) (lo hi lo' hi' : Int) (f : Array Int → M (Array Int)) : Prop :=
  ∀ a : Array Int, a.size = 2 ^ k → InRange lo hi a →
    ∃ a', f a = .ok a' ∧ a'.size = 2 ^ k ∧ InRange lo' hi' a' ∧
      ∀ i, i < 2 ^ k → coeff a' i = scaledNtt (2 ^ k) ω pre post (coeff a) (rev k i)

end Spec
