import Verif.Proofs.Ntt

/-
C38: the constants for division by Q listed in src/ntt.c.
-/

namespace Props
open C

/-- `(((uint64_t) x) * K) >> k` converted to `uint32_t`, for a `uint32_t` argument (src/ntt.c:83-103,
and `approx_divq` of src/test_mod.c:26-28). -/
def recipDiv (k K x : Nat) : Nat := u32 (u64 (x * K) / 2 ^ k)

/-- The table in src/ntt.c:92-98: the shift `k`, the constant `K`, and (not in the source) the
smallest `x` for which the quotient is wrong, as far as there is one that fits 32 bits. -/
def recipTable : List (Nat × Nat × Nat) :=
  [(41, 178942409, 254259409), (42, 357884817, 878036760), (43, 715769634, 878036760),
   (44, 1431539267, 2270847442), (45, 2863078533, 2 ^ 32)]

theorem recipDiv_eq {k K x : Nat} (hB : x * K < 18446744073709551616)
    (hq : x * K / 2 ^ k = x / 12289) (hx : x < 4294967296) :
    x * K < 2 ^ 64 ∧ recipDiv k K x = x / 12289 := by
  refine ⟨by norm_num; exact hB, ?_⟩
  unfold recipDiv u32 u64
  rw [Nat.mod_eq_of_lt hB, hq]
  omega

/-- Each constant of the table gives the exact quotient and remainder for all `x` in `[0, (Q-1)^2]`
and the multiplication does not exceed 64 bits. -/
theorem C38_reciprocals : ∀ r ∈ recipTable, ∀ x : Nat, x ≤ (12289 - 1) ^ 2 →
    x * r.2.1 < 2 ^ 64 ∧ recipDiv r.1 r.2.1 x = x / 12289 ∧
      x - recipDiv r.1 r.2.1 x * 12289 = x % 12289 := by
  intro r hr x hx
  have key : x * r.2.1 < 2 ^ 64 ∧ recipDiv r.1 r.2.1 x = x / 12289 := by
    simp only [recipTable, List.mem_cons, List.not_mem_nil, or_false] at hr
    norm_num at hx
    rcases hr with rfl | rfl | rfl | rfl | rfl <;>
      exact recipDiv_eq (by dsimp only; omega)
        (by simp only [Nat.reducePow]; omega) (by omega)
  refine ⟨key.1, key.2, ?_⟩
  rw [key.2]; omega

/-- The exact range: the quotient is right for all 32-bit values below the limit of the table and,
for k = 41..44, wrong at the limit; k = 45 (the constant that compilers use) is right for all 32-bit
values. -/
theorem C38_exact_range : ∀ r ∈ recipTable,
    (∀ x : Nat, x < r.2.2 → x * r.2.1 < 2 ^ 64 ∧ recipDiv r.1 r.2.1 x = x / 12289) ∧
    (r.2.2 < 2 ^ 32 → recipDiv r.1 r.2.1 r.2.2 ≠ r.2.2 / 12289) := by
  intro r hr
  simp only [recipTable, List.mem_cons, List.not_mem_nil, or_false] at hr
  rcases hr with rfl | rfl | rfl | rfl | rfl <;>
    refine ⟨fun x hx => ?_, by decide⟩ <;>
    · norm_num at hx
      exact recipDiv_eq (by dsimp only; omega)
        (by simp only [Nat.reducePow]; omega) (by omega)

/-- `modq`, the function of src/ntt.c that uses the first constant, is `x % Q` for all `int32_t`
`0 ≤ x < 254259409`, which includes `[0, (Q-1)^2]`, and not at 254259409. -/
theorem C38_modq : (∀ x : Int, 0 ≤ x → x < 254259409 → Ntt.modq x = x % 12289) ∧
    Ntt.modq 254259409 ≠ 254259409 % 12289 := by
  refine ⟨fun x h0 h1 => ?_, by decide⟩
  obtain ⟨y, rfl⟩ := Int.eq_ofNat_of_zero_le h0
  have hd : Ntt.divq (y : Int) = y / 12289 := by
    have := (C38_exact_range _ (List.mem_cons_self ..)).1 y (by simpa using h1)
    have h2 := this.2
    unfold recipDiv at h2
    unfold Ntt.divq
    have : toU64 (y : Int) = y := by unfold toU64; omega
    rw [this]; exact h2
  unfold Ntt.modq
  rw [hd]
  unfold toU32 toI32 u32
  omega

/-- The range is not empty: the largest product of two reduced numbers. -/
example : (41, 178942409, 254259409) ∈ recipTable ∧
    recipDiv 41 178942409 ((12289 - 1) ^ 2) = 12287 := by decide

end Props
