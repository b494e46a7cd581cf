import Verif.Spec
import Mathlib.Algebra.BigOperators.Ring.Finset
import Mathlib.Algebra.BigOperators.Intervals
import Mathlib.Algebra.Field.GeomSum
import Mathlib.Algebra.Field.ZMod
import Mathlib.GroupTheory.OrderOfElement
import Mathlib.Tactic.Ring
import Mathlib.Tactic.LinearCombination
import Mathlib.Tactic.NormNum.Prime

/-
Inversion of the transform and the convolution theorem.
-/

namespace Spec
open Finset

section ring
variable {R : Type} [CommRing R]

theorem evalPoly_congr {n : Nat} {A B : Nat → R} (h : ∀ i, i < n → A i = B i) (x : R) :
    evalPoly n A x = evalPoly n B x := by
  unfold evalPoly
  exact sum_congr rfl fun l hl => by rw [h l (mem_range.1 hl)]

theorem ntt_congr {n : Nat} {A B : Nat → R} {ω : R} (h : ∀ i, i < n → A i = B i) (i : Nat) :
    ntt n ω A i = ntt n ω B i := evalPoly_congr h _

/-- Evaluating at `c*x` is evaluating the polynomial with scaled coefficients at `x`. -/
theorem evalPoly_scale (n : Nat) (A : Nat → R) (c x : R) :
    evalPoly n A (c * x) = evalPoly n (fun l => A l * c ^ l) x := by
  unfold evalPoly
  refine sum_congr rfl fun l _ => ?_
  rw [mul_pow]; ring

/-- The convolution theorem: at a root of `X^n + 1`, the product modulo `X^n + 1` has value the
product of the values. -/
theorem evalPoly_negacyclic (n : Nat) (A B : Nat → R) (z : R) (hz : z ^ n = -1) :
    evalPoly n (negacyclic n A B) z = evalPoly n A z * evalPoly n B z := by
  have inner : ∀ i j, i < n → j < n →
      ∑ k ∈ range n, (if i + j = k then A i * B j else if i + j = k + n then -(A i * B j) else 0)
        * z ^ k = (A i * z ^ i) * (B j * z ^ j) := by
    intro i j hi hj
    rcases Nat.lt_or_ge (i + j) n with h | h
    · rw [sum_eq_single (i + j)]
      · rw [if_pos rfl, pow_add]; ring
      · intro k _ hk
        rw [if_neg (fun e => hk e.symm), if_neg (by omega), zero_mul]
      · intro h'; exact absurd (mem_range.2 h) h'
    · rw [sum_eq_single (i + j - n)]
      · have e : z ^ i * z ^ j = - z ^ (i + j - n) := by
          rw [← pow_add]
          conv_lhs => rw [show i + j = (i + j - n) + n by omega, pow_add, hz]
          ring
        rw [if_neg (by omega), if_pos (by omega)]
        linear_combination (-(A i * B j)) * e
      · intro k hk hk'
        have := mem_range.1 hk
        rw [if_neg (by omega), if_neg (by omega), zero_mul]
      · intro h'; exact absurd (mem_range.2 (by omega)) h'
  unfold evalPoly negacyclic
  rw [sum_mul_sum]
  simp only [sum_mul]
  rw [sum_comm]
  refine sum_congr rfl fun i hi => ?_
  rw [sum_comm]
  refine sum_congr rfl fun j hj => ?_
  exact inner i j (mem_range.1 hi) (mem_range.1 hj)

end ring

section field
variable {K : Type} [Field K]

/-- A root of unity of order `n = 2^k`: its powers below `n` differ from 1. -/
theorem pow_ne_one {k : Nat} {ω : K} (h2 : (2 : K) ≠ 0) (hω : 0 < k → ω ^ 2 ^ (k - 1) = -1)
    {d : Nat} (hd0 : 0 < d) (hd : d < 2 ^ k) : ω ^ d ≠ 1 := by
  intro h
  rcases Nat.eq_zero_or_pos k with hk | hk
  · subst hk; simp at hd; omega
  · have hω := hω hk
    have hne : ¬ ω ^ 2 ^ (k - 1) = 1 := by
      rw [hω]; intro e
      apply h2
      linear_combination -e
    have hfin : ω ^ 2 ^ (k - 1 + 1) = 1 := by
      rw [pow_succ, pow_mul, hω]; ring
    have : Fact (Nat.Prime 2) := ⟨Nat.prime_two⟩
    have ho := orderOf_eq_prime_pow hne hfin
    have hdvd := orderOf_dvd_of_pow_eq_one h
    rw [ho, show k - 1 + 1 = k by omega] at hdvd
    exact absurd (Nat.le_of_dvd hd0 hdvd) (by omega)

theorem pow_full {k : Nat} {ω : K} (hω : 0 < k → ω ^ 2 ^ (k - 1) = -1) (h0 : k = 0 → ω = 1) :
    ω ^ 2 ^ k = 1 := by
  rcases Nat.eq_zero_or_pos k with hk | hk
  · subst hk; simp [h0 rfl]
  · rw [show k = k - 1 + 1 by omega, pow_succ, pow_mul, hω hk]; ring

/-- Orthogonality. -/
theorem orthogonality {k : Nat} {ω ω' : K} (h2 : (2 : K) ≠ 0)
    (hω : 0 < k → ω ^ 2 ^ (k - 1) = -1) (hinv : ω * ω' = 1)
    {m l : Nat} (hm : m < 2 ^ k) (hl : l < 2 ^ k) :
    ∑ i ∈ range (2 ^ k), (ω ^ m) ^ i * (ω' ^ l) ^ i = if m = l then (2 ^ k : K) else 0 := by
  have e : ∀ i, (ω ^ m) ^ i * (ω' ^ l) ^ i = (ω ^ m * ω' ^ l) ^ i := fun i => (mul_pow _ _ _).symm
  simp only [e]
  split
  · next h =>
    subst h
    rw [← mul_pow, hinv]
    simp
  · next h =>
    have hk : 0 < k := by
      rcases Nat.eq_zero_or_pos k with hk | hk
      · subst hk; simp at hm hl; omega
      · exact hk
    have hful : ω ^ 2 ^ k = 1 := pow_full hω (by omega)
    have hful' : ω' ^ 2 ^ k = 1 := by
      have : (ω * ω') ^ 2 ^ k = 1 := by rw [hinv, one_pow]
      rwa [mul_pow, hful, one_mul] at this
    have hne : ω ^ m * ω' ^ l ≠ 1 := by
      intro hx
      rcases Nat.lt_or_ge m l with h' | h'
      · -- multiply by ω^l * ω'^m : 1 = ω^(l-m)
        have : ω ^ (l - m) = 1 := by
          have h1 : ω ^ l * (ω ^ m * ω' ^ l) = ω ^ l := by rw [hx, mul_one]
          have h3 : ω ^ l * ω' ^ l = 1 := by rw [← mul_pow, hinv, one_pow]
          have h4 : ω ^ m = ω ^ l := by linear_combination h1 - (ω ^ m) * h3
          have h5 : ω ^ l = ω ^ (l - m) * ω ^ m := by rw [← pow_add]; congr 1; omega
          have h6 : ω ^ m ≠ 0 := by
            intro h0
            have : ω ^ m * ω' ^ m = 1 := by rw [← mul_pow, hinv, one_pow]
            rw [h0, zero_mul] at this
            exact zero_ne_one this
          have h7 : ω ^ (l - m) * ω ^ m = 1 * ω ^ m := by rw [← h5, ← h4, one_mul]
          exact mul_right_cancel₀ h6 h7
        exact pow_ne_one h2 hω (by omega) (by omega) this
      · have : ω ^ (m - l) = 1 := by
          have h5 : ω ^ m = ω ^ (m - l) * ω ^ l := by rw [← pow_add]; congr 1; omega
          have h3 : ω ^ l * ω' ^ l = 1 := by rw [← mul_pow, hinv, one_pow]
          rw [h5] at hx
          linear_combination hx - (ω ^ (m - l)) * h3
        exact pow_ne_one h2 hω (by omega) (by omega) this
    have hxn : (ω ^ m * ω' ^ l) ^ 2 ^ k = 1 := by
      rw [mul_pow, ← pow_mul, ← pow_mul, Nat.mul_comm m, Nat.mul_comm l, pow_mul, pow_mul,
        hful, hful', one_pow, one_pow, mul_one]
    have hg := geom_sum_mul (ω ^ m * ω' ^ l) (2 ^ k)
    rw [hxn, sub_self] at hg
    exact (mul_eq_zero.1 hg).resolve_right (sub_ne_zero.2 hne)

/-- Inversion: transforming with `ω` and then with its inverse multiplies by `n`. -/
theorem ntt_ntt {k : Nat} {ω ω' : K} (h2 : (2 : K) ≠ 0)
    (hω : 0 < k → ω ^ 2 ^ (k - 1) = -1) (hinv : ω * ω' = 1) (C : Nat → K)
    {l : Nat} (hl : l < 2 ^ k) :
    ntt (2 ^ k) ω' (ntt (2 ^ k) ω C) l = 2 ^ k * C l := by
  unfold ntt evalPoly
  simp only [sum_mul]
  rw [sum_comm]
  have : ∀ m ∈ range (2 ^ k), ∑ i ∈ range (2 ^ k), C m * (ω ^ i) ^ m * (ω' ^ l) ^ i =
      if m = l then C m * 2 ^ k else 0 := by
    intro m hm
    have ho := orthogonality h2 hω hinv (mem_range.1 hm) hl
    have : ∀ i, C m * (ω ^ i) ^ m * (ω' ^ l) ^ i = C m * ((ω ^ m) ^ i * (ω' ^ l) ^ i) := fun i => by
      rw [← pow_mul ω i m, Nat.mul_comm i m, pow_mul]; ring
    simp only [this]
    rw [← mul_sum, ho]
    split <;> simp
  rw [sum_congr rfl this, sum_ite_eq' (range (2 ^ k)) l, if_pos (mem_range.2 hl)]
  ring

end field

instance : Fact (Nat.Prime 12289) := ⟨by norm_num⟩

theorem two_ne_zero_Zq : (2 : Zq) ≠ 0 := by decide

end Spec
