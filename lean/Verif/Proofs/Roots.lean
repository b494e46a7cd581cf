import Verif.Model.Roots
import Verif.Proofs.Params
import Mathlib.GroupTheory.OrderOfElement

/-
The lists of primitive roots are checked against all numbers below Q, by evaluation in the kernel.
-/

namespace Roots
open Spec NTT

/-- `x^(2^k)` modulo Q by repeated squaring. -/
def sq : Nat → Nat → Nat
  | 0, x => x % 12289
  | k + 1, x => sq k (x * x % 12289)

theorem sq_eq (k : Nat) : ∀ x, sq k x = x ^ 2 ^ k % 12289 := by
  induction k with
  | zero => intro x; rw [sq, pow_zero, pow_one]
  | succ k ih =>
    intro x
    rw [sq, ih, ← Nat.pow_mod, ← pow_two, ← pow_mul, pow_succ, mul_comm]

/-- Starting from `x`, the next `fuel` numbers with `x^(2^k) = -1` are exactly those of the list. -/
def chk (k : Nat) : Nat → Nat → List Nat → Bool
  | 0, _, [] => true
  | 0, _, _ :: _ => false
  | fuel + 1, x, L =>
    if sq k x = 12288 then
      match L with
      | [] => false
      | y :: L => if x = y then chk k fuel (x + 1) L else false
    else chk k fuel (x + 1) L

theorem chk_mem {k : Nat} : ∀ {fuel x : Nat} {L : List Nat}, chk k fuel x L = true →
    L.Pairwise (· < ·) ∧ ∀ z, z ∈ L ↔ x ≤ z ∧ z < x + fuel ∧ sq k z = 12288 := by
  intro fuel
  induction fuel with
  | zero =>
    intro x L h
    cases L with
    | nil => exact ⟨List.Pairwise.nil, fun z => ⟨fun h => (List.not_mem_nil h).elim, fun h => by omega⟩⟩
    | cons y L => cases h
  | succ fuel ih =>
    intro x L h
    unfold chk at h
    split at h
    · rename_i hx
      cases L with
      | nil => cases h
      | cons y L =>
        simp only at h
        split at h
        · rename_i hy
          subst hy
          obtain ⟨h1, h2⟩ := ih h
          refine ⟨List.pairwise_cons.2 ⟨fun z hz => ?_, h1⟩, fun z => ?_⟩
          · have := (h2 z).1 hz; omega
          · rw [List.mem_cons, h2]
            constructor
            · rintro (rfl | h)
              · exact ⟨le_refl _, by omega, hx⟩
              · exact ⟨by omega, by omega, h.2.2⟩
            · rintro ⟨a, b, c⟩
              by_cases hz : z = x
              · exact Or.inl hz
              · exact Or.inr ⟨by omega, by omega, c⟩
        · cases h
    · rename_i hx
      obtain ⟨h1, h2⟩ := ih h
      refine ⟨h1, fun z => ?_⟩
      rw [h2]
      constructor
      · rintro ⟨a, b, c⟩; exact ⟨by omega, by omega, c⟩
      · rintro ⟨a, b, c⟩
        have : z ≠ x := by rintro rfl; exact hx c
        exact ⟨by omega, by omega, c⟩

theorem sq_iff {k x : Nat} : sq k x = 12288 ↔ (x : Zq) ^ 2 ^ k = -1 := by
  rw [sq_eq]
  constructor
  · exact pow_neg_one_of_nat
  · intro h
    have e : (-1 : Zq) = ((12288 : Nat) : Zq) := by decide
    rw [e, ← Nat.cast_pow, ZMod.natCast_eq_natCast_iff] at h
    exact h

theorem primRoot_iff {k : Nat} (x : Zq) : PrimRoot (2 ^ (k + 1)) x ↔ x ^ 2 ^ k = -1 := by
  haveI : Fact (Nat.Prime 2) := ⟨Nat.prime_two⟩
  constructor
  · intro h
    exact primRoot_half h (Nat.succ_pos k)
  · intro h
    refine orderOf_eq_prime_pow (p := 2) (fun h1 => ?_) ?_
    · rw [h] at h1
      exact absurd h1 (by decide)
    · rw [pow_succ, pow_mul, h]; norm_num

theorem chk1024 : chk 9 12289 0 roots1024 = true := by decide +kernel
theorem chk2048 : chk 10 12289 0 roots2048 = true := by decide +kernel
theorem chk4096 : chk 11 12289 0 roots4096 = true := by decide +kernel

end Roots
