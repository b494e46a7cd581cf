import Verif.Math.Rev
import Verif.Proofs.Skeleton
import Mathlib.Algebra.BigOperators.Ring.Finset
import Mathlib.Algebra.BigOperators.Intervals
import Mathlib.Tactic.LinearCombination

/-
Closed forms of the arrays at each round of the transforms, and the butterfly equations between
consecutive rounds.
-/

namespace Spec
open Finset

variable {R : Type} [CommRing R]

/-- Splitting a sum of even length into even and odd terms. -/
theorem sum_even_odd (t : Nat) (f : Nat → R) :
    ∑ l ∈ range (2 * t), f l = ∑ l ∈ range t, f (2 * l) + ∑ l ∈ range t, f (2 * l + 1) := by
  induction t with
  | zero => simp
  | succ t ih =>
    rw [show 2 * (t + 1) = 2 * t + 1 + 1 by ring, sum_range_succ, sum_range_succ, ih,
      sum_range_succ, sum_range_succ]
    ring

/-- Cooley-Tukey, natural output order: element `i` at the start of round `m`. -/
def ctF (k : Nat) (c ω : R) (A : Nat → R) (m i : Nat) : R :=
  ∑ l ∈ range (2 ^ m),
    A (l * 2 ^ (k - m) + rev (k - m) (i / 2 ^ m)) * ((c * ω ^ (i % 2 ^ m)) ^ 2 ^ (k - m)) ^ l

theorem ctF_zero (k : Nat) (c ω : R) (A : Nat → R) (i : Nat) : ctF k c ω A 0 i = A (rev k i) := by
  simp [ctF]

theorem ctF_last (k : Nat) (c ω : R) (A : Nat → R) (i : Nat) (hi : i < 2 ^ k) :
    ctF k c ω A k i = evalPoly (2 ^ k) A (c * ω ^ i) := by
  unfold ctF evalPoly
  simp [rev, Nat.mod_eq_of_lt hi]

/-- Twiddle factor number `j` of the round with `2^m` twiddle factors. -/
def tw (k : Nat) (c ω : R) (m j : Nat) : R := (c * ω ^ j) ^ 2 ^ (k - 1 - m)

theorem ct_div1 {t b j : Nat} (hj : j < t) : (2 * t * b + j) / t = 2 * b := by
  rw [show 2 * t * b + j = t * (2 * b) + j by ring, Nat.mul_add_div (by omega), Nat.div_eq_of_lt hj, Nat.add_zero]

theorem ct_div2 {t b j : Nat} (hj : j < t) : (2 * t * b + j + t) / t = 2 * b + 1 := by
  rw [show 2 * t * b + j + t = t * (2 * b + 1) + j by ring, Nat.mul_add_div (by omega), Nat.div_eq_of_lt hj]

theorem ct_mod1 {t b j : Nat} (hj : j < t) : (2 * t * b + j) % (2 * t) = j := by
  rw [Nat.mul_add_mod, Nat.mod_eq_of_lt (by omega)]

theorem ct_mod2 {t b j : Nat} (hj : j < t) : (2 * t * b + j + t) % (2 * t) = j + t := by
  rw [Nat.add_assoc, Nat.mul_add_mod, Nat.mod_eq_of_lt (by omega)]

/-- General even/odd split of the closed form, with `y` the twiddle. -/
theorem ct_split (t N R0 : Nat) (A : Nat → R) (y : R) :
    ∑ l ∈ range (2 * t), A (l * N + R0) * y ^ l =
      ∑ l ∈ range t, A (l * (2 * N) + R0) * (y ^ 2) ^ l +
      y * ∑ l ∈ range t, A (l * (2 * N) + (N + R0)) * (y ^ 2) ^ l := by
  rw [sum_even_odd, mul_sum]
  congr 1
  · refine sum_congr rfl fun l _ => ?_
    rw [← pow_mul]; congr 2; ring
  · refine sum_congr rfl fun l _ => ?_
    rw [← pow_mul, show (2 * l + 1) * N + R0 = l * (2 * N) + (N + R0) by ring, pow_succ]; ring

theorem ctF_step (k : Nat) (c ω : R) (A : Nat → R) (m b j : Nat) (hm : m < k)
    (hω : ω ^ 2 ^ (k - 1) = -1) (hj : j < 2 ^ m) :
    ctF k c ω A (m + 1) (2 * 2 ^ m * b + j) =
      ctF k c ω A m (2 * 2 ^ m * b + j) + tw k c ω m j * ctF k c ω A m (2 * 2 ^ m * b + j + 2 ^ m) ∧
    ctF k c ω A (m + 1) (2 * 2 ^ m * b + j + 2 ^ m) =
      ctF k c ω A m (2 * 2 ^ m * b + j) - tw k c ω m j * ctF k c ω A m (2 * 2 ^ m * b + j + 2 ^ m) := by
  have hN : k - m = (k - 1 - m) + 1 := by omega
  have hN' : k - (m + 1) = k - 1 - m := by omega
  have hpow : (2 : Nat) ^ (k - m) = 2 * 2 ^ (k - 1 - m) := by rw [hN, Nat.pow_succ']
  have hneg : (ω ^ 2 ^ m) ^ 2 ^ (k - 1 - m) = -1 := by
    rw [← pow_mul, ← Nat.pow_add, show m + (k - 1 - m) = k - 1 by omega, hω]
  have e1 : ctF k c ω A m (2 * 2 ^ m * b + j) = ∑ l ∈ range (2 ^ m),
      A (l * (2 * 2 ^ (k - 1 - m)) + rev (k - 1 - m) b) * (tw k c ω m j ^ 2) ^ l := by
    unfold ctF tw
    rw [ct_div1 hj, NTT.lo_mod hj, hpow, hN, rev_even]
    refine sum_congr rfl fun l _ => ?_
    rw [← pow_mul (c * ω ^ j) _ 2, Nat.mul_comm 2]
  have e2 : ctF k c ω A m (2 * 2 ^ m * b + j + 2 ^ m) = ∑ l ∈ range (2 ^ m),
      A (l * (2 * 2 ^ (k - 1 - m)) + (2 ^ (k - 1 - m) + rev (k - 1 - m) b)) *
        (tw k c ω m j ^ 2) ^ l := by
    unfold ctF tw
    rw [ct_div2 hj, NTT.hi_mod hj, hpow, hN, rev_odd]
    refine sum_congr rfl fun l _ => ?_
    rw [← pow_mul (c * ω ^ j) _ 2, Nat.mul_comm 2]
  constructor
  · rw [e1, e2, ← ct_split]
    unfold ctF
    rw [Nat.pow_succ', NTT.lo_div hj, ct_mod1 hj, hN']
    rfl
  · have := ct_split (2 ^ m) (2 ^ (k - 1 - m)) (rev (k - 1 - m) b) A (-tw k c ω m j)
    rw [neg_sq] at this
    rw [e1, e2, sub_eq_add_neg, ← neg_mul, ← this]
    unfold ctF
    rw [Nat.pow_succ', NTT.hi_div hj, ct_mod2 hj, hN']
    have hy : (c * ω ^ (j + 2 ^ m)) ^ 2 ^ (k - 1 - m) = -tw k c ω m j := by
      unfold tw
      rw [pow_add, ← mul_assoc, mul_pow, hneg]; ring
    rw [hy]

/-- Gentleman-Sande, natural input order: element `i` at the start of round `m`. -/
def gsF (k : Nat) (c ω : R) (A : Nat → R) (m i : Nat) : R :=
  c ^ rev m (i / 2 ^ (k - m)) * ∑ l ∈ range (2 ^ m),
    A (i % 2 ^ (k - m) + l * 2 ^ (k - m)) *
      ω ^ ((i % 2 ^ (k - m) + l * 2 ^ (k - m)) * rev m (i / 2 ^ (k - m)))

theorem gsF_zero (k : Nat) (c ω : R) (A : Nat → R) (i : Nat) (hi : i < 2 ^ k) :
    gsF k c ω A 0 i = A i := by
  simp [gsF, rev, Nat.mod_eq_of_lt hi]

theorem gsF_last (k : Nat) (c ω : R) (A : Nat → R) (i : Nat) :
    gsF k c ω A k i = c ^ rev k i * evalPoly (2 ^ k) A (ω ^ rev k i) := by
  unfold gsF evalPoly
  simp only [Nat.sub_self, pow_zero, Nat.div_one, Nat.mod_one, Nat.zero_add, Nat.mul_one]
  congr 1
  refine sum_congr rfl fun l _ => ?_
  rw [← pow_mul, Nat.mul_comm]

theorem gsF_step (k : Nat) (c ω : R) (A : Nat → R) (m b j : Nat) (hm : m < k)
    (hω : ω ^ 2 ^ (k - 1) = -1) (hj : j < 2 ^ (k - 1 - m)) :
    gsF k c ω A (m + 1) (2 * 2 ^ (k - 1 - m) * b + j) =
      gsF k c ω A m (2 * 2 ^ (k - 1 - m) * b + j) +
      gsF k c ω A m (2 * 2 ^ (k - 1 - m) * b + j + 2 ^ (k - 1 - m)) ∧
    gsF k c ω A (m + 1) (2 * 2 ^ (k - 1 - m) * b + j + 2 ^ (k - 1 - m)) =
      tw k c ω (k - 1 - m) j * (gsF k c ω A m (2 * 2 ^ (k - 1 - m) * b + j) -
      gsF k c ω A m (2 * 2 ^ (k - 1 - m) * b + j + 2 ^ (k - 1 - m))) := by
  have hN : k - m = (k - 1 - m) + 1 := by omega
  have hN' : k - (m + 1) = k - 1 - m := by omega
  have hpow : (2 : Nat) ^ (k - m) = 2 * 2 ^ (k - 1 - m) := by rw [hN, Nat.pow_succ']
  have hexp : k - 1 - (k - 1 - m) = m := by omega
  unfold gsF tw
  rw [hN', hpow, hexp, NTT.lo_div hj, NTT.hi_div hj, ct_div1 hj, ct_div2 hj, rev_even, rev_odd,
    ct_mod1 hj, ct_mod2 hj, NTT.lo_mod hj, NTT.hi_mod hj]
  have hneg : (ω ^ 2 ^ (k - 1 - m)) ^ 2 ^ m = -1 := by
    rw [← pow_mul, ← Nat.pow_add, show (k - 1 - m) + m = k - 1 by omega, hω]
  generalize 2 ^ (k - 1 - m) = t at *
  generalize rev m b = β
  rw [Nat.pow_succ', sum_even_odd]
  have ev : ∀ l, j + 2 * l * t = j + l * (2 * t) := fun l => by ring
  have od : ∀ l, j + (2 * l + 1) * t = j + t + l * (2 * t) := fun l => by ring
  constructor
  · rw [mul_add]
    congr 2
    · refine sum_congr rfl fun l _ => ?_
      rw [ev]
    · refine sum_congr rfl fun l _ => ?_
      rw [od]
  · rw [sum_even_odd, ← mul_sub, ← sum_sub_distrib, ← sum_add_distrib, pow_add, mul_pow, ← pow_mul ω j]
    have hx : ∀ l, ω ^ ((j + l * (2 * t)) * (2 ^ m + β)) =
        ω ^ (j * 2 ^ m) * ω ^ ((j + l * (2 * t)) * β) := fun l => by
      rw [show (j + l * (2 * t)) * (2 ^ m + β) = j * 2 ^ m + (t * 2 ^ m) * (2 * l) +
        (j + l * (2 * t)) * β by ring, pow_add, pow_add, pow_mul ω (t * 2 ^ m), pow_mul ω t, hneg,
        pow_mul]
      simp
    have hy : ∀ l, ω ^ ((j + t + l * (2 * t)) * (2 ^ m + β)) =
        - (ω ^ (j * 2 ^ m) * ω ^ ((j + t + l * (2 * t)) * β)) := fun l => by
      rw [show (j + t + l * (2 * t)) * (2 ^ m + β) = j * 2 ^ m + (t * 2 ^ m) * (2 * l + 1) +
        (j + t + l * (2 * t)) * β by ring, pow_add, pow_add, pow_mul ω (t * 2 ^ m), pow_mul ω t, hneg,
        pow_succ, pow_mul]
      simp
    simp only [mul_sum]
    refine sum_congr rfl fun l _ => ?_
    rw [ev, od, hx, hy]
    ring

end Spec
