import Verif.SpecKat
import Mathlib.Algebra.BigOperators.Ring.Finset
import Mathlib.Algebra.Order.BigOperators.Group.Finset
import Mathlib.Tactic.Ring
import Mathlib.Tactic.Positivity

/-
The known-answer tests: the products are checked with one multiplication of large numbers each (the polynomials
evaluated at 2^40), then digit by digit modulo 12289.
-/

namespace Kat
open C Spec Finset

/-- Digit `i` in base `2^w`. -/
def dig (w x i : Nat) : Nat := (x >>> (w * i)) % 2 ^ w

/-- The number with the digits of `x` in base `2^16` as digits in base `2^40`. -/
def spread (x : Nat) : Nat → Nat
  | 0 => 0
  | n + 1 => spread x n + dig 16 x n <<< (40 * n)

def allBelow (f : Nat → Bool) : Nat → Bool
  | 0 => true
  | n + 1 => f n && allBelow f n

def check (a b c : Nat) : Bool :=
  allBelow (fun i => Nat.blt (dig 16 a i) 12289 && Nat.blt (dig 16 b i) 12289 && Nat.blt (dig 16 c i) 12289) 1024 &&
  (fun P => allBelow (fun i => Nat.beq (dig 40 P i % 12289) ((dig 16 c i + dig 40 P (i + 1024)) % 12289)) 1024)
    (spread a 1024 * spread b 1024)

theorem allBelow_iff {f : Nat → Bool} : ∀ {n : Nat}, allBelow f n = true ↔ ∀ i, i < n → f i = true
  | 0 => ⟨fun _ i hi => absurd hi (Nat.not_lt_zero _), fun _ => rfl⟩
  | n + 1 => by
    unfold allBelow
    rw [Bool.and_eq_true, allBelow_iff]
    constructor
    · rintro ⟨h1, h2⟩ i hi
      by_cases h : i = n
      · subst h; exact h1
      · exact h2 i (by omega)
    · exact fun h => ⟨h n (by omega), fun i hi => h i (by omega)⟩

theorem spread_eq (x n : Nat) : spread x n = ∑ i ∈ range n, dig 16 x i * (2 ^ 40) ^ i := by
  induction n with
  | zero => rfl
  | succ n ih => rw [spread, ih, sum_range_succ, Nat.shiftLeft_eq, pow_mul]

/-- Sum of digits below the base: less than the next power. -/
theorem sum_lt {B : Nat} (c : Nat → Nat) (hc : ∀ i, c i < B) (n : Nat) : ∑ i ∈ range n, c i * B ^ i < B ^ n := by
  induction n with
  | zero => simp
  | succ n ih =>
    rw [sum_range_succ, pow_succ]
    have : c n + 1 ≤ B := hc n
    calc _ < B ^ n + c n * B ^ n := Nat.add_lt_add_right ih _
      _ = (c n + 1) * B ^ n := by ring
      _ ≤ B * B ^ n := Nat.mul_le_mul_right _ this
      _ = B ^ n * B := by ring

/-- Digits of a sum. -/
theorem dig_sum {w : Nat} (c : Nat → Nat) (hc : ∀ i, c i < 2 ^ w) {n i : Nat} (hi : i < n) :
    dig w (∑ l ∈ range n, c l * (2 ^ w) ^ l) i = c i := by
  obtain ⟨m, rfl⟩ : ∃ m, n = i + 1 + m := ⟨n - (i + 1), by omega⟩
  unfold dig
  rw [Nat.shiftRight_eq_div_pow, sum_range_add, sum_range_succ, pow_mul]
  have hlt := sum_lt c hc i
  have hpos : 0 < (2 ^ w) ^ i := by positivity
  have e : ∑ x ∈ range m, c (i + 1 + x) * (2 ^ w) ^ (i + 1 + x) =
      (2 ^ w * ∑ x ∈ range m, c (i + 1 + x) * (2 ^ w) ^ x) * (2 ^ w) ^ i := by
    rw [mul_sum, sum_mul]
    refine sum_congr rfl fun x _ => ?_
    rw [pow_add, pow_add, pow_one]; ring
  rw [e, add_assoc, ← add_mul, Nat.add_mul_div_right _ _ hpos, Nat.div_eq_of_lt hlt, Nat.zero_add,
    Nat.add_mul_mod_self_left, Nat.mod_eq_of_lt (hc i)]

/-- Coefficient `k` of the product of two polynomials with natural coefficients. -/
def conv (A B : Nat → Nat) (k : Nat) : Nat :=
  ∑ i ∈ range 1024, ∑ j ∈ range 1024, if i + j = k then A i * B j else 0

theorem spread_mul (a b : Nat) : spread a 1024 * spread b 1024 =
    ∑ k ∈ range 2048, conv (dig 16 a) (dig 16 b) k * (2 ^ 40) ^ k := by
  rw [spread_eq, spread_eq, sum_mul_sum]
  unfold conv
  simp only [sum_mul]
  rw [sum_comm (s := range 2048)]
  refine sum_congr rfl fun i hi => ?_
  rw [sum_comm (s := range 2048)]
  refine sum_congr rfl fun j hj => ?_
  rw [mem_range] at hi hj
  rw [sum_eq_single (i + j)]
  · rw [if_pos rfl, pow_add]; ring
  · intro k _ hk; rw [if_neg (Ne.symm hk), zero_mul]
  · intro h; exact absurd (mem_range.2 (by omega)) h

theorem conv_le {A B : Nat → Nat} (hA : ∀ i, i < 1024 → A i < 12289) (hB : ∀ i, i < 1024 → B i < 12289) (k : Nat) :
    conv A B k < 2 ^ 40 := by
  have h1 : ∀ i ∈ range 1024, (∑ j ∈ range 1024, if i + j = k then A i * B j else 0) ≤ 12288 * 12288 := by
    intro i hi
    rw [mem_range] at hi
    by_cases h : i ≤ k
    · calc _ ≤ ∑ j ∈ range 1024, if j = k - i then 12288 * 12288 else 0 := sum_le_sum fun j hj => by
            rw [mem_range] at hj
            by_cases e : i + j = k
            · rw [if_pos e, if_pos (by omega)]
              exact Nat.mul_le_mul (by have := hA i hi; omega) (by have := hB j hj; omega)
            · rw [if_neg e]; exact Nat.zero_le _
        _ ≤ 12288 * 12288 := by
            rw [sum_ite_eq']; split <;> omega
    · rw [sum_eq_zero fun j _ => if_neg (by omega)]; exact Nat.zero_le _
  have h2 := sum_le_card_nsmul (range 1024) _ _ h1
  rw [card_range, smul_eq_mul] at h2
  have : conv A B k ≤ 1024 * (12288 * 12288) := h2
  omega

theorem conv_negacyclic (A B : Nat → Nat) (k : Nat) (_hk : k < 1024) :
    negacyclic 1024 (fun i => (A i : Zq)) (fun i => (B i : Zq)) k =
      (conv A B k : Zq) - (conv A B (k + 1024) : Zq) := by
  unfold negacyclic conv
  push_cast
  rw [← sum_sub_distrib]
  refine sum_congr rfl fun i _ => ?_
  rw [← sum_sub_distrib]
  refine sum_congr rfl fun j _ => ?_
  by_cases h : i + j = k
  · rw [if_pos h, if_pos h, if_neg (by omega), sub_zero]
  · rw [if_neg h, if_neg h]
    by_cases h' : i + j = k + 1024
    · rw [if_pos h', if_pos h', zero_sub]
    · rw [if_neg h', if_neg h', sub_zero]

theorem check_sound {a b c : Nat} (h : check a b c = true) :
    (∀ i, i < 1024 → dig 16 a i < 12289 ∧ dig 16 b i < 12289 ∧ dig 16 c i < 12289) ∧
    ∀ i, i < 1024 → (dig 16 c i : Zq) =
      negacyclic 1024 (fun i => (dig 16 a i : Zq)) (fun i => (dig 16 b i : Zq)) i := by
  unfold check at h
  rw [Bool.and_eq_true, allBelow_iff, allBelow_iff] at h
  obtain ⟨h1, h2⟩ := h
  have hr : ∀ i, i < 1024 → dig 16 a i < 12289 ∧ dig 16 b i < 12289 ∧ dig 16 c i < 12289 := by
    intro i hi
    have := h1 i hi
    simp only [Bool.and_eq_true, Nat.blt_eq] at this
    exact ⟨this.1.1, this.1.2, this.2⟩
  refine ⟨hr, fun i hi => ?_⟩
  have hc := fun k => conv_le (A := dig 16 a) (B := dig 16 b) (fun i hi => (hr i hi).1) (fun i hi => (hr i hi).2.1) k
  have h3 := Nat.eq_of_beq_eq_true (h2 i hi)
  rw [spread_mul, dig_sum _ hc (by omega), dig_sum _ hc (by omega)] at h3
  rw [conv_negacyclic _ _ i hi]
  have h4 : ((conv (dig 16 a) (dig 16 b) i : Nat) : Zq) =
      ((dig 16 c i + conv (dig 16 a) (dig 16 b) (i + 1024) : Nat) : Zq) :=
    (ZMod.natCast_eq_natCast_iff _ _ _).2 h3
  rw [h4]
  push_cast
  ring

/-- The 100 checks. -/
def checkAll : List Nat → List Nat → List Nat → Bool
  | [], [], [] => true
  | a :: as, b :: bs, c :: cs => check a b c && checkAll as bs cs
  | _, _, _ => false

theorem checkAll_sound : ∀ {as bs cs : List Nat}, checkAll as bs cs = true → ∀ r, r < as.length →
    check (as.getD r 0) (bs.getD r 0) (cs.getD r 0) = true
  | [], _, _, _, r, hr => absurd hr (Nat.not_lt_zero _)
  | a :: as, [], _, h, _, _ => by simp [checkAll] at h
  | a :: as, b :: bs, [], h, _, _ => by simp [checkAll] at h
  | a :: as, b :: bs, c :: cs, h, r, hr => by
    rw [checkAll, Bool.and_eq_true] at h
    cases r with
    | zero => exact h.1
    | succ r => exact checkAll_sound h.2 r (Nat.lt_of_succ_lt_succ hr)

theorem data_ok : checkAll Data.a Data.b Data.c = true := by decide +kernel

theorem data_length : Data.a.length = 100 := by decide +kernel

end Kat
