import Verif.Proofs.Tight

/-
The bounds of Verif/Proofs/Tight.lean, evaluated for n = 16, 128, 256 and 512.
-/

namespace Tight

theorem fwd16 : AllOk 4 1212 134217727 2147483647 2147483647 2147483647 2147483647 :=
  { ctA := by decide +kernel, ctB := by decide +kernel, gsA := by decide +kernel, gsB := by decide +kernel,
    mulctA := by decide +kernel, mulctB := by decide +kernel, gsmulA := by decide +kernel, gsmulB := by decide +kernel }
theorem fwd16_red : AllOk 4 1212 12288 196608 208851 266891 222311 :=
  { ctA := by decide +kernel, ctB := by decide +kernel, gsA := by decide +kernel, gsB := by decide +kernel,
    mulctA := by decide +kernel, mulctB := by decide +kernel, gsmulA := by decide +kernel, gsmulB := by decide +kernel }
theorem inv16 : AllOk 4 2545 134217727 2147483647 2147483647 2147483647 2147483647 :=
  { ctA := by decide +kernel, ctB := by decide +kernel, gsA := by decide +kernel, gsB := by decide +kernel,
    mulctA := by decide +kernel, mulctB := by decide +kernel, gsmulA := by decide +kernel, gsmulB := by decide +kernel }
theorem inv16_red : AllOk 4 2545 12288 196608 208851 266891 222311 :=
  { ctA := by decide +kernel, ctB := by decide +kernel, gsA := by decide +kernel, gsB := by decide +kernel,
    mulctA := by decide +kernel, mulctB := by decide +kernel, gsmulA := by decide +kernel, gsmulB := by decide +kernel }
theorem mul16 : ctA 4 1212 0 false 2147483647 200000 = true := by decide +kernel

theorem fwd128 : AllOk 7 1022 16777215 2147483647 2147483647 2147483647 2147483647 :=
  { ctA := by decide +kernel, ctB := by decide +kernel, gsA := by decide +kernel, gsB := by decide +kernel,
    mulctA := by decide +kernel, mulctB := by decide +kernel, gsmulA := by decide +kernel, gsmulB := by decide +kernel }
theorem mul128 : ctA 7 1022 0 false 2147483647 200000 = true := by decide +kernel

theorem fwd256 : AllOk 8 1002 8388607 2147483647 2147483647 2147483647 2147483647 :=
  { ctA := by decide +kernel, ctB := by decide +kernel, gsA := by decide +kernel, gsB := by decide +kernel,
    mulctA := by decide +kernel, mulctB := by decide +kernel, gsmulA := by decide +kernel, gsmulB := by decide +kernel }
theorem fwd256_red : AllOk 8 1002 12288 3371551 3803577 5252721 3831948 :=
  { ctA := by decide +kernel, ctB := by decide +kernel, gsA := by decide +kernel, gsB := by decide +kernel,
    mulctA := by decide +kernel, mulctB := by decide +kernel, gsmulA := by decide +kernel, gsmulB := by decide +kernel }
theorem inv256 : AllOk 8 10805 8388607 2147483647 2147483647 2147483647 2147483647 :=
  { ctA := by decide +kernel, ctB := by decide +kernel, gsA := by decide +kernel, gsB := by decide +kernel,
    mulctA := by decide +kernel, mulctB := by decide +kernel, gsmulA := by decide +kernel, gsmulB := by decide +kernel }
theorem inv256_red : AllOk 8 10805 12288 3371551 3803577 5252721 3831948 :=
  { ctA := by decide +kernel, ctB := by decide +kernel, gsA := by decide +kernel, gsB := by decide +kernel,
    mulctA := by decide +kernel, mulctB := by decide +kernel, gsmulA := by decide +kernel, gsmulB := by decide +kernel }
theorem mul256 : ctA 8 1002 0 false 2147483647 200000 = true := by decide +kernel

theorem fwd512 : AllOk 9 1003 4194303 2147483647 2147483647 2147483647 2147483647 :=
  { ctA := by decide +kernel, ctB := by decide +kernel, gsA := by decide +kernel, gsB := by decide +kernel,
    mulctA := by decide +kernel, mulctB := by decide +kernel, gsmulA := by decide +kernel, gsmulB := by decide +kernel }
theorem fwd512_red : AllOk 9 1003 12288 6995742 7635525 12248971 7886514 :=
  { ctA := by decide +kernel, ctB := by decide +kernel, gsA := by decide +kernel, gsB := by decide +kernel,
    mulctA := by decide +kernel, mulctB := by decide +kernel, gsmulA := by decide +kernel, gsmulB := by decide +kernel }
theorem inv512 : AllOk 9 1360 4194303 2147483647 2147483647 2147483647 2147483647 :=
  { ctA := by decide +kernel, ctB := by decide +kernel, gsA := by decide +kernel, gsB := by decide +kernel,
    mulctA := by decide +kernel, mulctB := by decide +kernel, gsmulA := by decide +kernel, gsmulB := by decide +kernel }
theorem inv512_red : AllOk 9 1360 12288 6995742 7635525 12248971 7886514 :=
  { ctA := by decide +kernel, ctB := by decide +kernel, gsA := by decide +kernel, gsB := by decide +kernel,
    mulctA := by decide +kernel, mulctB := by decide +kernel, gsmulA := by decide +kernel, gsmulB := by decide +kernel }
theorem mul512 : ctA 9 1003 0 false 2147483647 200000 = true := by decide +kernel

end Tight
