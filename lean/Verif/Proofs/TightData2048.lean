import Verif.Proofs.Tight

/-
The bounds of Verif/Proofs/Tight.lean, evaluated for n = 2048.
-/

namespace Tight

theorem fwd2048 : AllOk 11 1016 1048575 2147483647 2147483647 2147483647 2147483647 :=
  { ctA := by decide +kernel, ctB := by decide +kernel, gsA := by decide +kernel, gsB := by decide +kernel,
    mulctA := by decide +kernel, mulctB := by decide +kernel, gsmulA := by decide +kernel, gsmulB := by decide +kernel }
theorem mul2048 : ctA 11 1016 0 false 2147483647 200000 = true := by decide +kernel

end Tight
