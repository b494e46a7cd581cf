import Verif.SpecCrab
import Mathlib.Order.Bounds.Basic

/-
The bitwise operations on arbitrary precision numbers and the transfer function of the Crab domain.
-/

namespace Crab

theorem ldiff_4095 (m : Nat) : Nat.ldiff 4095 m = 4095 - m % 4096 := by
  apply Nat.eq_of_testBit_eq
  intro i
  rw [Nat.testBit_ldiff]
  have : 4095 - m % 4096 = 2^12 - (m % 4096 + 1) := by omega
  rw [this, Nat.testBit_two_pow_sub_succ (by omega), show 4096 = 2^12 by rfl, Nat.testBit_mod_two_pow,
   show 4095 = 2^12 - 1 by rfl, Nat.testBit_two_pow_sub_one]
  cases decide (i < 12) <;> simp
theorem land_4095 (x : Int) : Int.land x 4095 = x % 4096 := by
  cases x with
  | ofNat m => show ((m &&& 4095 : Nat) : Int) = _ ; rw [show 4095 = 2^12-1 by rfl, Nat.and_two_pow_sub_one_eq_mod]; simp
  | negSucc m => show ((Nat.ldiff 4095 m : Nat) : Int) = _ ; rw [ldiff_4095]; omega
theorem ldiff_low (m : Nat) : Nat.ldiff m 4095 = m / 4096 * 4096 := by
  apply Nat.eq_of_testBit_eq
  intro i
  rw [Nat.testBit_ldiff, show 4096 = 2^12 by rfl, Nat.testBit_mul_two_pow,  Nat.testBit_div_two_pow,
   show 4095 = 2^12 - 1 by rfl, Nat.testBit_two_pow_sub_one]
  by_cases h : i < 12
  · simp [h]
  · simp [h]; simp at h;  simp [h, Nat.sub_add_cancel h]
theorem lor_low (m : Nat) : m ||| 4095 = m / 4096 * 4096 + 4095 := by
  have := Nat.two_pow_add_eq_or_of_lt (b := 4095) (i := 12) (by omega) (m / 4096)
  rw [show m / 4096 * 4096 = 2^12 * (m/4096) by omega, this]
  apply Nat.eq_of_testBit_eq
  intro i
  rw [Nat.testBit_or, Nat.testBit_or, show 4096 = 2^12 by rfl, Nat.mul_comm, Nat.testBit_mul_two_pow, Nat.testBit_div_two_pow,
   show 4095 = 2^12 - 1 by rfl, Nat.testBit_two_pow_sub_one]
  by_cases h : i < 12
  · simp [h]
  · simp [h]; simp at h;  simp [h, Nat.sub_add_cancel h]
theorem lor_4095 (x : Int) : Int.lor x 4095 = x / 4096 * 4096 + 4095 := by
  cases x with
  | ofNat m => show ((m ||| 4095 : Nat) : Int) = _ ; rw [lor_low]; simp
  | negSucc m => show Int.negSucc (Nat.ldiff m 4095) = _ ; rw [ldiff_low]; omega
theorem land_n4096 (x : Int) : Int.land x (-4096) = x / 4096 * 4096 := by
  cases x with
  | ofNat m => show ((Nat.ldiff m 4095 : Nat) : Int) = _ ; rw [ldiff_low]; simp
  | negSucc m => show Int.negSucc (m ||| 4095) = _ ; rw [lor_low]; omega

theorem red_eq (x : Int) : red x = Spec.red x := by
  unfold red Spec.red
  rw [land_4095, Int.shiftRight_eq_div_pow]
  rfl

/-- The two points at which the code evaluates `red`. -/
theorem least (a b : Int) (h : a ≤ b) :
    IsLeast {v | ∃ x, a ≤ x ∧ x ≤ b ∧ v = Spec.red x}
      (red (if Int.land b (-4096) ≥ a then Int.land b (-4096) else a)) := by
  rw [red_eq, land_n4096]
  refine ⟨⟨_, ?_, ?_, rfl⟩, ?_⟩
  · split <;> omega
  · split <;> omega
  · rintro v ⟨x, h1, h2, rfl⟩
    unfold Spec.red
    split <;> omega

theorem greatest (a b : Int) (h : a ≤ b) :
    IsGreatest {v | ∃ x, a ≤ x ∧ x ≤ b ∧ v = Spec.red x}
      (red (if Int.lor a 4095 ≤ b then Int.lor a 4095 else b)) := by
  rw [red_eq, lor_4095]
  refine ⟨⟨_, ?_, ?_, rfl⟩, ?_⟩
  · split <;> omega
  · split <;> omega
  · rintro v ⟨x, h1, h2, rfl⟩
    unfold Spec.red
    split <;> omega

variable {V : Type} [DecidableEq V]

theorem intrinsic_finite (E : V → Interval) (x y : V) (a b : Int) (h : a ≤ b)
    (hx : E x = .mk (.num a) (.num b)) :
    ∃ l u, intrinsic "red" [.var x] [y] (some E) =
        .ok (some (fun z => if z = y then .mk (.num l) (.num u) else E z)) ∧
      IsLeast {v | ∃ x, a ≤ x ∧ x ≤ b ∧ v = Spec.red x} l ∧
      IsGreatest {v | ∃ x, a ≤ x ∧ x ≤ b ∧ v = Spec.red x} u := by
  refine ⟨_, _, ?_, least a b h, greatest a b h⟩
  have h2 := (greatest a b h).2 (least a b h).1
  unfold intrinsic
  simp only [decide_true, hx, Interval.lb, Interval.ub, Bound.number]
  unfold interval
  rw [if_neg (by omega)]
  rfl

theorem intrinsic_infinite (E : V → Interval) (x y : V)
    (hx : ∀ a b, E x ≠ .mk (.num a) (.num b)) :
    intrinsic "red" [.var x] [y] (some E) =
        .ok (some (fun z => if z = y then .top else E z)) := by
  unfold intrinsic
  simp only [decide_true]
  cases h : E x with
  | bottom => rfl
  | mk l u =>
    cases l <;> cases u <;> first | rfl | exact absurd h (hx _ _)

end Crab
