import Verif.Model.TestAvx
import Verif.Spec

/-
Vocabulary for the statements about src/test_avx.c.
-/

namespace TestAvx

/-- `random()` returns a value below 2^31; a local array of `n` elements has `n` elements. -/
structure WorldOK (w : World) : Prop where
  random : ∀ k, w.random k < 2147483648
  junk : ∀ n k, (w.junk n k).size = n

/-- `n` successive random numbers, the first of which is number `k`, minus 2^30. -/
def drawn (w : World) (n k : Nat) : Array Int := Array.ofFn fun i : Fin n => (w.random (k + i) : Int) - 1073741824

/-- A number in `[-2^30, 2^30 - 1]`. -/
def B30 (x : Int) : Prop := -1073741824 ≤ x ∧ x ≤ 1073741823

/-- The range documented for the products. -/
def InDoc (z : Int) : Prop := -8796042698752 ≤ z ∧ z ≤ 8796093026303

/-- Two arrays of `n` elements such that all products of corresponding elements are in that range. -/
def Pairs (n : Nat) (a b : Array Int) : Prop :=
  a.size = n ∧ b.size = n ∧ ∀ i, i < n → B30 (Spec.elt a i) ∧ B30 (Spec.elt b i) ∧ InDoc (Spec.elt a i * Spec.elt b i)

/-- An array and a scalar: if the scalar is not negative, all products are in that range. -/
def Scaled (n : Nat) (a : Array Int) (c : Int) : Prop :=
  a.size = n ∧ B30 c ∧ ∀ i, i < n → B30 (Spec.elt a i) ∧ (0 ≤ c → InDoc (Spec.elt a i * c))

end TestAvx
