import Verif.Proofs.Products
import Verif.Math.Poly

/-
Algebra of the product modulo `X^n + 1`: a polynomial of degree `< n` is determined by its values at the roots
`psi^(2j+1)` of `X^n + 1`, and the value of a product is the product of the values.
-/

namespace Algebra
open Spec NTT Finset

variable {k : Nat} {ψ : Zq}

/-- The value at the `j`-th root. -/
def val (k : Nat) (ψ : Zq) (A : Nat → Zq) (j : Nat) : Zq := evalPoly (2 ^ k) A (ψ * (ψ ^ 2) ^ j)

theorem val_eq_ntt (A : Nat → Zq) (j : Nat) :
    val k ψ A j = ntt (2 ^ k) (ψ ^ 2) (fun l => A l * ψ ^ l) j := by
  unfold val; rw [evalPoly_scale]; rfl

theorem val_ext (hψ : ψ ^ 2 ^ k = -1) {A B : Nat → Zq} (h : ∀ j, j < 2 ^ k → val k ψ A j = val k ψ B j)
    {i : Nat} (hi : i < 2 ^ k) : A i = B i := by
  rw [← unscale hψ A hi, ← unscale hψ B hi]
  congr 1
  show evalPoly _ _ _ = evalPoly _ _ _
  unfold evalPoly
  refine sum_congr rfl fun j hj => ?_
  rw [← val_eq_ntt, ← val_eq_ntt, h j (mem_range.1 hj)]

theorem val_mul (hψ : ψ ^ 2 ^ k = -1) (A B : Nat → Zq) (j : Nat) :
    val k ψ (negacyclic (2 ^ k) A B) j = val k ψ A j * val k ψ B j := by
  unfold val
  exact evalPoly_negacyclic _ _ _ _ (root_of_negacyclic hψ j)

theorem val_congr {A B : Nat → Zq} (h : ∀ i, i < 2 ^ k → A i = B i) (j : Nat) : val k ψ A j = val k ψ B j := by
  unfold val evalPoly
  exact sum_congr rfl fun i hi => by rw [h i (mem_range.1 hi)]

theorem val_add (A B : Nat → Zq) (j : Nat) : val k ψ (fun i => A i + B i) j = val k ψ A j + val k ψ B j := by
  unfold val evalPoly
  rw [← sum_add_distrib]
  exact sum_congr rfl fun i _ => by ring

theorem val_single {m : Nat} (hm : m < 2 ^ k) (c : Zq) (j : Nat) :
    val k ψ (fun i => if i = m then c else 0) j = c * (ψ * (ψ ^ 2) ^ j) ^ m := by
  unfold val evalPoly
  rw [sum_eq_single m]
  · simp
  · intro b _ hb; simp [hb]
  · intro h; exact absurd (mem_range.2 hm) h

theorem val_zero (j : Nat) : val k ψ (fun _ => 0) j = 0 := by
  unfold val evalPoly; simp

/-- Multiplication by `X^m`. -/
theorem negacyclic_single {n m : Nat} (hm : m < n) (A : Nat → Zq) {i : Nat} (hi : i < n) :
    negacyclic n (fun l => if l = m then 1 else 0) A i =
      if m ≤ i then A (i - m) else - A (i + n - m) := by
  unfold negacyclic
  rw [sum_eq_single m]
  · by_cases h : m ≤ i
    · rw [if_pos h, sum_eq_single (i - m)]
      · rw [if_pos (by omega)]; simp
      · intro b hb hne
        have := mem_range.1 hb
        rw [if_neg (by omega), if_neg (by omega)]
      · intro hx; exact absurd (mem_range.2 (by omega)) hx
    · rw [if_neg h, sum_eq_single (i + n - m)]
      · rw [if_neg (by omega), if_pos (by omega)]; simp
      · intro b hb hne
        have := mem_range.1 hb
        rw [if_neg (by omega), if_neg (by omega)]
      · intro hx; exact absurd (mem_range.2 (by omega)) hx
  · intro b _ hb
    refine sum_eq_zero fun j _ => ?_
    simp [hb]
  · intro hx; exact absurd (mem_range.2 hm) hx

end Algebra
