import Verif.Math.Conv
import Mathlib.RingTheory.AdjoinRoot

/-
`Spec.negacyclic` is the product of polynomials modulo `X^n + 1`, in Mathlib's sense.
-/

namespace Spec
open Finset Polynomial

/-- The polynomial of degree `< n` with coefficients `A`. -/
noncomputable def toPoly {R : Type} [CommRing R] (n : Nat) (A : Nat → R) : R[X] :=
  ∑ l ∈ range n, C (A l) * X ^ l

theorem map_negacyclic {R S : Type} [CommRing R] [CommRing S] (f : R →+* S) (n : Nat)
    (A B : Nat → R) (k : Nat) :
    f (negacyclic n A B k) = negacyclic n (fun i => f (A i)) (fun i => f (B i)) k := by
  unfold negacyclic
  rw [map_sum]
  refine sum_congr rfl fun i _ => ?_
  rw [map_sum]
  refine sum_congr rfl fun j _ => ?_
  split_ifs <;> simp

theorem mk_toPoly {R : Type} [CommRing R] (f : R[X]) (n : Nat) (A : Nat → R) :
    AdjoinRoot.mk f (toPoly n A) =
      evalPoly n (fun i => AdjoinRoot.of f (A i)) (AdjoinRoot.root f) := by
  unfold toPoly evalPoly
  rw [map_sum]
  refine sum_congr rfl fun l _ => ?_
  rw [map_mul, map_pow, AdjoinRoot.mk_C, AdjoinRoot.mk_X]

theorem degree_toPoly_lt {R : Type} [CommRing R] (n : Nat) (A : Nat → R) :
    (toPoly n A).degree < n := by
  unfold toPoly
  refine lt_of_le_of_lt (degree_sum_le _ _) ?_
  refine (Finset.sup_lt_iff (WithBot.bot_lt_coe n)).2 ?_
  intro l hl
  refine lt_of_le_of_lt (degree_C_mul_X_pow_le l (A l)) ?_
  exact Nat.cast_lt.2 (mem_range.1 hl)

/-- `negacyclic n A B` are the coefficients of the remainder of the product by `X^n + 1`. -/
theorem negacyclic_eq_modByMonic {R : Type} [CommRing R] [Nontrivial R] {n : Nat} (hn : 0 < n)
    (A B : Nat → R) :
    toPoly n (negacyclic n A B) = (toPoly n A * toPoly n B) %ₘ (X ^ n + 1) := by
  have hm : (X ^ n + 1 : R[X]).Monic := by
    have := monic_X_pow_add_C (1 : R) (n := n) (by omega); simpa using this
  have hroot : (AdjoinRoot.root (X ^ n + 1 : R[X])) ^ n = -1 := by
    have h : AdjoinRoot.mk (X ^ n + 1 : R[X]) (X ^ n + 1) = 0 := AdjoinRoot.mk_self
    rw [map_add, map_pow, AdjoinRoot.mk_X, map_one] at h
    exact eq_neg_of_add_eq_zero_left h
  have hd : (X ^ n + 1 : R[X]) ∣ toPoly n A * toPoly n B - toPoly n (negacyclic n A B) := by
    rw [← AdjoinRoot.mk_eq_mk, map_mul, mk_toPoly, mk_toPoly, mk_toPoly,
      ← evalPoly_negacyclic _ _ _ _ hroot]
    refine evalPoly_congr (fun i _ => ?_) _
    rw [map_negacyclic]
  have hdeg : (X ^ n + 1 : R[X]).degree = n := by
    have := degree_X_pow_add_C (R := R) hn 1; simpa using this
  rw [modByMonic_eq_of_dvd_sub hm hd]
  exact ((modByMonic_eq_self_iff hm).2 (by rw [hdeg]; exact degree_toPoly_lt n _)).symm

end Spec
