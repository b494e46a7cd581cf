import Verif.Spec
import Mathlib.Tactic.Ring

/-
Facts on bit reversal.
-/

namespace Spec

theorem rev_lt (k i : Nat) : rev k i < 2 ^ k := by
  induction k generalizing i with
  | zero => simp [rev]
  | succ k ih =>
    have h1 := ih (i / 2)
    have h2 : i % 2 < 2 := Nat.mod_lt _ (by omega)
    have h3 : i % 2 = 0 ∨ i % 2 = 1 := by omega
    unfold rev
    rw [Nat.pow_succ]
    rcases h3 with h | h <;> rw [h] <;> omega

theorem rev_succ (k i : Nat) : rev (k + 1) i = (i % 2) * 2 ^ k + rev k (i / 2) := rfl

theorem rev_zero (k : Nat) : rev k 0 = 0 := by
  induction k with
  | zero => rfl
  | succ k ih => simp [rev, ih]

/-- Reversing a concatenation. -/
theorem rev_append (a b x y : Nat) (hy : y < 2 ^ a) :
    rev (a + b) (x * 2 ^ a + y) = rev a y * 2 ^ b + rev b x := by
  induction a generalizing y with
  | zero =>
    have : y = 0 := by simpa using hy
    subst this
    simp [rev]
  | succ a ih =>
    have e0 : x * 2 ^ (a + 1) + y = 2 * (x * 2 ^ a) + y := by ring
    have e1 : (x * 2 ^ (a + 1) + y) % 2 = y % 2 := by rw [e0]; omega
    have e2 : (x * 2 ^ (a + 1) + y) / 2 = x * 2 ^ a + y / 2 := by rw [e0]; omega
    rw [show a + 1 + b = (a + b) + 1 by omega]
    unfold rev
    rw [e1, e2, ih (y / 2) (by rw [Nat.pow_succ] at hy; omega)]
    rw [Nat.pow_add]
    cases b with
    | zero => simp [rev]
    | succ b => simp only [rev]; ring

theorem rev_one (h : Nat) (hh : h < 2) : rev 1 h = h := by
  simp [rev]; omega

theorem rev_even (k b : Nat) : rev (k + 1) (2 * b) = rev k b := by
  rw [rev_succ]; simp

theorem rev_odd (k b : Nat) : rev (k + 1) (2 * b + 1) = 2 ^ k + rev k b := by
  rw [rev_succ]
  have e1 : (2 * b + 1) % 2 = 1 := by omega
  have e2 : (2 * b + 1) / 2 = b := by omega
  rw [e1, e2, Nat.one_mul]

/-- A value with an extra high bit. -/
theorem rev_high (e h y : Nat) (hh : h < 2) (hy : y < 2 ^ e) :
    rev (e + 1) (h * 2 ^ e + y) = 2 * rev e y + h := by
  rw [rev_append e 1 h y hy, rev_one h hh]; ring

/-- Bit reversal is an involution. -/
theorem rev_rev (k i : Nat) (hi : i < 2 ^ k) : rev k (rev k i) = i := by
  induction k generalizing i with
  | zero => simp at hi; simp [rev, hi]
  | succ k ih =>
    have h2 : i % 2 < 2 := Nat.mod_lt _ (by omega)
    rw [rev_succ k i, rev_high k (i % 2) _ h2 (rev_lt k _), ih (i / 2) (by rw [Nat.pow_succ] at hi; omega)]
    omega

/-- Specification of `rev`: bit `b` of the reversal is bit `k-1-b` of the argument. -/
theorem testBit_rev (k i b : Nat) (hb : b < k) :
    (rev k i).testBit b = i.testBit (k - 1 - b) := by
  induction k generalizing i b with
  | zero => omega
  | succ k ih =>
    unfold rev
    rcases Nat.lt_or_ge b k with h | h
    · have : k + 1 - 1 - b = (k - 1 - b) + 1 := by omega
      rw [this, Nat.testBit_succ, Nat.mul_comm, Nat.testBit_two_pow_mul_add _ (rev_lt k _), if_pos h,
        ih _ _ h]
    · have : b = k := by omega
      subst this
      rw [Nat.mul_comm, Nat.testBit_two_pow_mul_add _ (rev_lt b _), if_neg (by omega)]
      simp [Nat.testBit_zero]

/-- Shape B pair, lower element. -/
theorem rev_pairB_lo (e f j r : Nat) (hr : r < 2 ^ e) :
    rev (e + 1 + f) (2 * 2 ^ e * j + r) = 2 * 2 ^ f * rev e r + rev f j := by
  have e1 : 2 * 2 ^ e * j + r = j * 2 ^ (e + 1) + r := by ring
  rw [e1, rev_append (e + 1) f j r (by rw [Nat.pow_succ]; omega)]
  have := rev_high e 0 r (by omega) hr
  simp only [Nat.zero_mul, Nat.zero_add, Nat.add_zero] at this
  rw [this]; ring

/-- Shape B pair, upper element. -/
theorem rev_pairB_hi (e f j r : Nat) (hr : r < 2 ^ e) :
    rev (e + 1 + f) (2 * 2 ^ e * j + r + 2 ^ e) = 2 * 2 ^ f * rev e r + rev f j + 2 ^ f := by
  have e1 : 2 * 2 ^ e * j + r + 2 ^ e = j * 2 ^ (e + 1) + (1 * 2 ^ e + r) := by ring
  rw [e1, rev_append (e + 1) f j _ (by rw [Nat.pow_succ]; omega)]
  rw [rev_high e 1 r (by omega) hr]; ring

end Spec
