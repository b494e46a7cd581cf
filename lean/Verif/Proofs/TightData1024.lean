import Verif.Proofs.Tight

/-
The bounds of Verif/Proofs/Tight.lean, evaluated for n = 1024.
-/

namespace Tight

theorem fwd1024 : AllOk 10 1014 2097151 2147483647 2147483647 2147483647 2147483647 :=
  { ctA := by decide +kernel, ctB := by decide +kernel, gsA := by decide +kernel, gsB := by decide +kernel,
    mulctA := by decide +kernel, mulctB := by decide +kernel, gsmulA := by decide +kernel, gsmulB := by decide +kernel }
theorem fwd1024_red : AllOk 10 1014 12288 16309495 15522039 28314107 15590382 :=
  { ctA := by decide +kernel, ctB := by decide +kernel, gsA := by decide +kernel, gsB := by decide +kernel,
    mulctA := by decide +kernel, mulctB := by decide +kernel, gsmulA := by decide +kernel, gsmulB := by decide +kernel }
theorem inv1024 : AllOk 10 5078 2097151 2147483647 2147483647 2147483647 2147483647 :=
  { ctA := by decide +kernel, ctB := by decide +kernel, gsA := by decide +kernel, gsB := by decide +kernel,
    mulctA := by decide +kernel, mulctB := by decide +kernel, gsmulA := by decide +kernel, gsmulB := by decide +kernel }
theorem inv1024_red : AllOk 10 5078 12288 16309495 15522039 28314107 15590382 :=
  { ctA := by decide +kernel, ctB := by decide +kernel, gsA := by decide +kernel, gsB := by decide +kernel,
    mulctA := by decide +kernel, mulctB := by decide +kernel, gsmulA := by decide +kernel, gsmulB := by decide +kernel }
theorem mul1024 : ctA 10 1014 0 false 2147483647 200000 = true := by decide +kernel

end Tight
