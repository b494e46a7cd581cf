import Verif.Model.TestNttAvx
import Verif.SpecTestAvx

/-
Vocabulary for the statements about src/test_ntt_avx.c.
-/

namespace TestNttAvx

/-- `n` successive random numbers, the first of which is number `k`, reduced to `[-200000, 199999]`. -/
def drawn (w : TestAvx.World) (n k : Nat) : Array Int := Array.ofFn fun i : Fin n => ((w.random (k + i) % 400000 : Nat) : Int) - 200000

/-- The six sizes. -/
def sizes : List Size := [size16, size128, size256, size512, size1024, size2048]

end TestNttAvx
