import Verif.Proofs.TestMod
import Mathlib.Tactic.IntervalCases

/-
C65: what test_mod establishes about the approximations of the remainder modulo Q by a product and a shift.
-/

namespace Props
open C TestMod
open NttRed (ok_bind)

/-! ### What the tests mean -/

/-- C65: "approx n works" is printed if and only if the approximation is the remainder for every `x` from 0 to `(Q-1)²`. -/
theorem C65_works_iff (n : Nat) : test_approx n = .ok none ↔ ∀ x ≤ 150994944, approx_modq x n = .ok (x % 12289) := by
  refine ⟨fun h => ?_, test_approx_none⟩
  by_contra hc
  push Not at hc
  obtain ⟨x, ⟨hx, hne⟩, hmin⟩ := Nat.findX hc
  obtain ⟨z, hz⟩ := approx_modq_total x n
  have := test_approx_some (fun y hy => by
    by_contra hyn
    exact hmin y hy ⟨by omega, hyn⟩) hz (fun e => hne (e ▸ hz)) hx
  rw [h] at this
  cases this

/-- C65: "approx n fails for x" is printed if and only if `x` is the least number, at most `(Q-1)²`, for which the approximation
is not the remainder. -/
theorem C65_fails_iff (n x : Nat) : test_approx n = .ok (some x) ↔
    x ≤ 150994944 ∧ approx_modq x n ≠ .ok (x % 12289) ∧ ∀ y < x, approx_modq y n = .ok (y % 12289) := by
  constructor
  · intro h
    have hc : ∃ x, x ≤ 150994944 ∧ approx_modq x n ≠ .ok (x % 12289) := by
      by_contra hc
      push Not at hc
      rw [(C65_works_iff n).2 hc] at h
      cases h
    obtain ⟨y, ⟨hy, hne⟩, hmin⟩ := Nat.findX hc
    have hb : ∀ z < y, approx_modq z n = .ok (z % 12289) := fun z hz => by
      by_contra hzn
      exact hmin z hz ⟨by omega, hzn⟩
    obtain ⟨z, hz⟩ := approx_modq_total y n
    have := test_approx_some hb hz (fun e => hne (e ▸ hz)) hy
    rw [h] at this
    cases this
    exact ⟨hy, hne, hb⟩
  · rintro ⟨h1, h2, h3⟩
    obtain ⟨z, hz⟩ := approx_modq_total x n
    exact test_approx_some h3 hz (fun e => h2 (e ▸ hz)) h1

/-! ### The shifts from 30 to 49 -/

theorem range30 : Range 30 87375 9551 9 12288 := by decide +kernel
theorem range31 : Range 31 174749 6813 25 12288 := by decide +kernel
theorem range32 : Range 32 349497 1337 261 12288 := by decide +kernel
theorem range33 : Range 33 698994 2674 261 12288 := by decide +kernel
theorem range34 : Range 34 1397988 5348 261 12288 := by decide +kernel
theorem range35 : Range 35 2795976 10696 261 12288 := by decide +kernel
theorem range36 : Range 36 5591951 9103 614 12288 := by decide +kernel
theorem range37 : Range 37 11183901 5917 1890 12288 := by decide +kernel
theorem range38 : Range 38 22367802 11834 1890 12288 := by decide +kernel
theorem range39 : Range 39 44735603 11379 3931 12288 := by decide +kernel
theorem range40 : Range 40 89471205 10469 8546 12288 := by decide +kernel
theorem range41 : Range 41 178942409 8649 20689 12288 := by decide +kernel
theorem range42 : Range 42 357884817 5009 71448 12288 := by decide +kernel
theorem range43 : Range 43 715769634 10018 71448 12288 := by decide +kernel
theorem range44 : Range 44 1431539267 7747 184786 12288 := by decide +kernel
theorem range45 : Range 45 2863078533 3205 893316 12288 := by decide +kernel
theorem range46 : Range 46 5726157066 6410 893316 12288 := by decide +kernel
theorem range47 : Range 47 11452314131 531 21567446 12288 := by decide +kernel
theorem range48 : Range 48 22904628262 1062 21567446 12288 := by decide +kernel
theorem range49 : Range 49 45809256524 2124 21567446 12288 := by decide +kernel

theorem small {n M v : Nat} (hn : 46 ≤ n) (hM : approx_qinv n = .ok M) (h46 : M < 4294967296)
    (hv : approx_modq 12289 n = .ok v) (hne : v ≠ 0) : test_approx n = .ok (some 12289) := by
  refine test_approx_some (fun x hx => ?_) hv (by simpa using hne) (by norm_num)
  unfold approx_modq approx_divq
  rw [hM, ok_bind]
  have h1 : x * M ≤ 12288 * 4294967295 := Nat.mul_le_mul (by omega) (by omega)
  have h2 : (2 : Nat) ^ 46 ≤ 2 ^ n := Nat.pow_le_pow_right (by norm_num) hn
  have h3 : u64 (x * M) / 2 ^ n = 0 := by
    rw [Nat.div_eq_zero_iff]
    right
    have : u64 (x * M) ≤ x * M := Nat.mod_le _ _
    omega
  show Except.ok _ = _
  congr 1
  rw [h3]
  unfold u32
  omega

theorem loop_map {α : Type} {lo hi : Nat} {body : Nat → List α → M (List α)} (g : Nat → α) (hw : hi < 4294967296) (hlo : lo ≤ hi)
    (h : ∀ n l, lo ≤ n → n < hi → body n l = .ok (l ++ [g n])) :
    forUp lo hi 1 body [] = .ok ((List.range' lo (hi - lo)).map g) := by
  have : Wp NoErr (forUp lo hi 1 body []) (fun l => l = (List.range' lo (hi - lo)).map g) := by
    refine wp_forUp1 (fun i l => l = (List.range' lo (i - lo)).map g) hw hlo (by simp) ?_ (fun _ h => h)
    rintro i l h1 h2 rfl
    rw [h i _ h1 h2, wp_ok, show i + 1 - lo = (i - lo) + 1 by omega, List.range'_1_concat, List.map_append]
    rw [show lo + (i - lo) = i by omega]; rfl
  obtain ⟨l, e, rfl⟩ := wp_total.1 this
  exact e

/-- C65: which multiplier, what the test prints: for each shift `n` from 30 to 49, the approximation `2^n/Q + 1` (truncated to 32
bits) and the least argument for which the remainder is wrong.  The shifts from 41 to 45 work. -/
theorem C65_test_all_approx : test_all_approx = .ok [
    (30, 87375, some 122889), (31, 174749, some 319513), (32, 349497, some 3219717),
    (33, 698994, some 3219717), (34, 1397988, some 3219717), (35, 2795976, some 3219717),
    (36, 5591951, some 7557734), (37, 11183901, some 23238498), (38, 22367802, some 23238498),
    (39, 44735603, some 48320347), (40, 89471205, some 105034082), (41, 178942409, none),
    (42, 357884817, none), (43, 715769634, none), (44, 1431539267, none),
    (45, 2863078533, none), (46, 1431189770, some 12289), (47, 2862379539, some 12289),
    (48, 1429791782, some 12289), (49, 2859583564, some 12289)] := by
  have t30 : test_approx 30 = .ok (some 122889) := test_approx_some (fun x hx => approx_modq_eq range30 (by norm_num) (by norm_num)
    (by omega) (by omega)) (z := 4294967295) (by decide +kernel) (by decide) (by norm_num)
  have i30 : approx_qinv 30 = .ok 87375 := approx_qinv_eq range30 (by norm_num) (by norm_num)
  have t31 : test_approx 31 = .ok (some 319513) := test_approx_some (fun x hx => approx_modq_eq range31 (by norm_num) (by norm_num)
    (by omega) (by omega)) (z := 4294967295) (by decide +kernel) (by decide) (by norm_num)
  have i31 : approx_qinv 31 = .ok 174749 := approx_qinv_eq range31 (by norm_num) (by norm_num)
  have t32 : test_approx 32 = .ok (some 3219717) := test_approx_some (fun x hx => approx_modq_eq range32 (by norm_num) (by norm_num)
    (by omega) (by omega)) (z := 4294967295) (by decide +kernel) (by decide) (by norm_num)
  have i32 : approx_qinv 32 = .ok 349497 := approx_qinv_eq range32 (by norm_num) (by norm_num)
  have t33 : test_approx 33 = .ok (some 3219717) := test_approx_some (fun x hx => approx_modq_eq range33 (by norm_num) (by norm_num)
    (by omega) (by omega)) (z := 4294967295) (by decide +kernel) (by decide) (by norm_num)
  have i33 : approx_qinv 33 = .ok 698994 := approx_qinv_eq range33 (by norm_num) (by norm_num)
  have t34 : test_approx 34 = .ok (some 3219717) := test_approx_some (fun x hx => approx_modq_eq range34 (by norm_num) (by norm_num)
    (by omega) (by omega)) (z := 4294967295) (by decide +kernel) (by decide) (by norm_num)
  have i34 : approx_qinv 34 = .ok 1397988 := approx_qinv_eq range34 (by norm_num) (by norm_num)
  have t35 : test_approx 35 = .ok (some 3219717) := test_approx_some (fun x hx => approx_modq_eq range35 (by norm_num) (by norm_num)
    (by omega) (by omega)) (z := 4294967295) (by decide +kernel) (by decide) (by norm_num)
  have i35 : approx_qinv 35 = .ok 2795976 := approx_qinv_eq range35 (by norm_num) (by norm_num)
  have t36 : test_approx 36 = .ok (some 7557734) := test_approx_some (fun x hx => approx_modq_eq range36 (by norm_num) (by norm_num)
    (by omega) (by omega)) (z := 4294967295) (by decide +kernel) (by decide) (by norm_num)
  have i36 : approx_qinv 36 = .ok 5591951 := approx_qinv_eq range36 (by norm_num) (by norm_num)
  have t37 : test_approx 37 = .ok (some 23238498) := test_approx_some (fun x hx => approx_modq_eq range37 (by norm_num) (by norm_num)
    (by omega) (by omega)) (z := 4294967295) (by decide +kernel) (by decide) (by norm_num)
  have i37 : approx_qinv 37 = .ok 11183901 := approx_qinv_eq range37 (by norm_num) (by norm_num)
  have t38 : test_approx 38 = .ok (some 23238498) := test_approx_some (fun x hx => approx_modq_eq range38 (by norm_num) (by norm_num)
    (by omega) (by omega)) (z := 4294967295) (by decide +kernel) (by decide) (by norm_num)
  have i38 : approx_qinv 38 = .ok 22367802 := approx_qinv_eq range38 (by norm_num) (by norm_num)
  have t39 : test_approx 39 = .ok (some 48320347) := test_approx_some (fun x hx => approx_modq_eq range39 (by norm_num) (by norm_num)
    (by omega) (by omega)) (z := 4294967295) (by decide +kernel) (by decide) (by norm_num)
  have i39 : approx_qinv 39 = .ok 44735603 := approx_qinv_eq range39 (by norm_num) (by norm_num)
  have t40 : test_approx 40 = .ok (some 105034082) := test_approx_some (fun x hx => approx_modq_eq range40 (by norm_num) (by norm_num)
    (by omega) (by omega)) (z := 4294967295) (by decide +kernel) (by decide) (by norm_num)
  have i40 : approx_qinv 40 = .ok 89471205 := approx_qinv_eq range40 (by norm_num) (by norm_num)
  have t41 : test_approx 41 = .ok none := test_approx_none fun x hx => approx_modq_eq range41 (by norm_num) (by norm_num)
    (by omega) (by omega)
  have i41 : approx_qinv 41 = .ok 178942409 := approx_qinv_eq range41 (by norm_num) (by norm_num)
  have t42 : test_approx 42 = .ok none := test_approx_none fun x hx => approx_modq_eq range42 (by norm_num) (by norm_num)
    (by omega) (by omega)
  have i42 : approx_qinv 42 = .ok 357884817 := approx_qinv_eq range42 (by norm_num) (by norm_num)
  have t43 : test_approx 43 = .ok none := test_approx_none fun x hx => approx_modq_eq range43 (by norm_num) (by norm_num)
    (by omega) (by omega)
  have i43 : approx_qinv 43 = .ok 715769634 := approx_qinv_eq range43 (by norm_num) (by norm_num)
  have t44 : test_approx 44 = .ok none := test_approx_none fun x hx => approx_modq_eq range44 (by norm_num) (by norm_num)
    (by omega) (by omega)
  have i44 : approx_qinv 44 = .ok 1431539267 := approx_qinv_eq range44 (by norm_num) (by norm_num)
  have t45 : test_approx 45 = .ok none := test_approx_none fun x hx => approx_modq_eq range45 (by norm_num) (by norm_num)
    (by omega) (by omega)
  have i45 : approx_qinv 45 = .ok 2863078533 := approx_qinv_eq range45 (by norm_num) (by norm_num)
  have t46 : test_approx 46 = .ok (some 12289) := small (by norm_num) (rfl) (by decide +kernel) (rfl) (by decide +kernel)
  have i46 : approx_qinv 46 = .ok 1431189770 := by decide +kernel
  have t47 : test_approx 47 = .ok (some 12289) := small (by norm_num) (rfl) (by decide +kernel) (rfl) (by decide +kernel)
  have i47 : approx_qinv 47 = .ok 2862379539 := by decide +kernel
  have t48 : test_approx 48 = .ok (some 12289) := small (by norm_num) (rfl) (by decide +kernel) (rfl) (by decide +kernel)
  have i48 : approx_qinv 48 = .ok 1429791782 := by decide +kernel
  have t49 : test_approx 49 = .ok (some 12289) := small (by norm_num) (rfl) (by decide +kernel) (rfl) (by decide +kernel)
  have i49 : approx_qinv 49 = .ok 2859583564 := by decide +kernel
  unfold test_all_approx
  rw [loop_map (fun n => [
    (30, 87375, some 122889), (31, 174749, some 319513), (32, 349497, some 3219717),
    (33, 698994, some 3219717), (34, 1397988, some 3219717), (35, 2795976, some 3219717),
    (36, 5591951, some 7557734), (37, 11183901, some 23238498), (38, 22367802, some 23238498),
    (39, 44735603, some 48320347), (40, 89471205, some 105034082), (41, 178942409, none),
    (42, 357884817, none), (43, 715769634, none), (44, 1431539267, none),
    (45, 2863078533, none), (46, 1431189770, some 12289), (47, 2862379539, some 12289),
    (48, 1429791782, some 12289), (49, 2859583564, some 12289)].getD (n - 30) (0, 0, none)) (by norm_num) (by norm_num) ?_]
  · rfl
  · intro n l h1 h2
    interval_cases n
    · rw [i30, ok_bind, t30, ok_bind]; rfl
    · rw [i31, ok_bind, t31, ok_bind]; rfl
    · rw [i32, ok_bind, t32, ok_bind]; rfl
    · rw [i33, ok_bind, t33, ok_bind]; rfl
    · rw [i34, ok_bind, t34, ok_bind]; rfl
    · rw [i35, ok_bind, t35, ok_bind]; rfl
    · rw [i36, ok_bind, t36, ok_bind]; rfl
    · rw [i37, ok_bind, t37, ok_bind]; rfl
    · rw [i38, ok_bind, t38, ok_bind]; rfl
    · rw [i39, ok_bind, t39, ok_bind]; rfl
    · rw [i40, ok_bind, t40, ok_bind]; rfl
    · rw [i41, ok_bind, t41, ok_bind]; rfl
    · rw [i42, ok_bind, t42, ok_bind]; rfl
    · rw [i43, ok_bind, t43, ok_bind]; rfl
    · rw [i44, ok_bind, t44, ok_bind]; rfl
    · rw [i45, ok_bind, t45, ok_bind]; rfl
    · rw [i46, ok_bind, t46, ok_bind]; rfl
    · rw [i47, ok_bind, t47, ok_bind]; rfl
    · rw [i48, ok_bind, t48, ok_bind]; rfl
    · rw [i49, ok_bind, t49, ok_bind]; rfl

example : approx_modq 254259408 41 = .ok (254259408 % 12289) ∧ approx_modq 254259409 41 ≠ .ok (254259409 % 12289) := by decide +kernel

/-- C65: with a shift of 45 the approximation is the remainder for all 32-bit arguments (the loop bound in the comment of the
program), with 44 it is not. -/
theorem C65_full_range : (∀ x < 4294967296, approx_modq x 45 = .ok (x % 12289)) ∧
    ∃ x < 4294967296, approx_modq x 44 ≠ .ok (x % 12289) :=
  ⟨fun x hx => approx_modq_eq range45 (by norm_num) (by norm_num) (by omega) hx, 2270847442, by norm_num, by decide +kernel⟩

/-! ### The signed approximation -/

/-- The outcome of the tests of the signed approximation for `n`. -/
theorem signed_fails {n : Nat} {m e k : Int} (h : Range n m e k 12288) (hn : n < 63) (hm : m ≤ 4294967296) {v : Int}
    (hk : 0 ≤ k) (hx : 12289 * k + 12288 ≤ 2147483647) (hv : approx_pmodq (12289 * k + 12288) n = .ok v) (hne : v ≠ 12288) :
    test_pmod_approx n = .ok (.fails (12289 * k + 12288)) := by
  unfold test_pmod_approx search
  rw [search_up_some (x0 := 12289 * k + 12288) hx ?_ _ 0 (by omega) (by omega) (by norm_num; omega) ?_, ok_bind]
  · rfl
  · rw [hv, ok_bind, pmodq_up (by omega), ok_bind]
    show Except.ok _ = _
    congr 1
    rw [decide_eq_true_eq]; omega
  · intro x h1 h2
    have : x * m ≤ 2147483647 * 4294967296 := by
      calc x * m ≤ x * 4294967296 := mul_le_mul_of_nonneg_left hm h1
        _ ≤ _ := by omega
    rw [approx_pmodq_up h hn h1 h2 (by omega) (by omega), ok_bind, pmodq_up h1, ok_bind]
    show Except.ok _ = _
    congr 1
    simp

theorem signed_overflow_up {n : Nat} {m e k x0 : Int} (h : Range n m e k 12288) (hn : n < 63) (h0 : 0 ≤ x0) (hx : x0 ≤ 2147483647)
    (hk : x0 ≤ 12289 * k + 12288) (hm : (x0 - 1) * m ≤ 9223372036854775807) (hv : approx_pmodq x0 n = .error .overflow) :
    test_pmod_approx n = .error .overflow := by
  have hm0 : 0 ≤ m := by rw [h.m_eq]; positivity
  unfold test_pmod_approx search
  rw [search_up_err (x0 := x0) hx ?_ _ 0 (by omega) (by omega) (by norm_num; omega) ?_]
  · rfl
  · rw [hv]; rfl
  · intro x h1 h2
    have : x * m ≤ (x0 - 1) * m := mul_le_mul_of_nonneg_right (by omega) hm0
    rw [approx_pmodq_up h hn h1 (by omega) (by omega) (by omega), ok_bind, pmodq_up h1, ok_bind]
    show Except.ok _ = _
    congr 1
    simp

theorem signed_overflow_down {n : Nat} {m e k : Int} (h : Range n m e k 12288) (hn : n < 63) (hm : m ≤ 4294967296)
    (hk : 2147483648 ≤ 12289 * k) (hv : approx_pmodq (-2147478172) n = .error .overflow) :
    test_pmod_approx n = .error .overflow := by
  unfold test_pmod_approx search
  rw [search_up_none _ 0 (by omega) (by omega) (by norm_num) ?_, ok_bind]
  · show ((search_down _ _ _) >>= _) = _
    rw [search_down_err (x0 := -2147478172) (by norm_num) ?_ _ (-1) (by omega) (by omega) (by norm_num) ?_]
    · rfl
    · rw [hv]; rfl
    · intro x h1 h2
      obtain ⟨y, rfl⟩ : ∃ y, x = -y := ⟨-x, by ring⟩
      have : y * m ≤ 2147478171 * 4294967296 := by
        calc y * m ≤ y * 4294967296 := mul_le_mul_of_nonneg_left hm (by omega)
          _ ≤ _ := by omega
      rw [approx_pmodq_down h hn (by omega) (by omega) (by omega) (by omega), ok_bind, pmodq_down (by omega), ok_bind]
      show Except.ok _ = _
      congr 1
      simp
  · intro x h1 h2
    have : x * m ≤ 2147483647 * 4294967296 := by
      calc x * m ≤ x * 4294967296 := mul_le_mul_of_nonneg_left hm h1
        _ ≤ _ := by omega
    rw [approx_pmodq_up h hn h1 (by omega) (by omega) (by omega), ok_bind, pmodq_up h1, ok_bind]
    show Except.ok _ = _
    congr 1
    simp

/-- C65: the signed approximation is reported to fail, for the same arguments as the unsigned one, for the shifts from 30 to 43. -/
theorem C65_signed_fails :
    test_pmod_approx 30 = .ok (.fails 122889) ∧
    test_pmod_approx 31 = .ok (.fails 319513) ∧
    test_pmod_approx 32 = .ok (.fails 3219717) ∧
    test_pmod_approx 33 = .ok (.fails 3219717) ∧
    test_pmod_approx 34 = .ok (.fails 3219717) ∧
    test_pmod_approx 35 = .ok (.fails 3219717) ∧
    test_pmod_approx 36 = .ok (.fails 7557734) ∧
    test_pmod_approx 37 = .ok (.fails 23238498) ∧
    test_pmod_approx 38 = .ok (.fails 23238498) ∧
    test_pmod_approx 39 = .ok (.fails 48320347) ∧
    test_pmod_approx 40 = .ok (.fails 105034082) ∧
    test_pmod_approx 41 = .ok (.fails 254259409) ∧
    test_pmod_approx 42 = .ok (.fails 878036760) ∧
    test_pmod_approx 43 = .ok (.fails 878036760) := by
  refine ⟨signed_fails range30 (by norm_num) (by norm_num) (v := -1) (by norm_num) (by norm_num) (by decide +kernel) (by norm_num),
    signed_fails range31 (by norm_num) (by norm_num) (v := -1) (by norm_num) (by norm_num) (by decide +kernel) (by norm_num),
    signed_fails range32 (by norm_num) (by norm_num) (v := -1) (by norm_num) (by norm_num) (by decide +kernel) (by norm_num),
    signed_fails range33 (by norm_num) (by norm_num) (v := -1) (by norm_num) (by norm_num) (by decide +kernel) (by norm_num),
    signed_fails range34 (by norm_num) (by norm_num) (v := -1) (by norm_num) (by norm_num) (by decide +kernel) (by norm_num),
    signed_fails range35 (by norm_num) (by norm_num) (v := -1) (by norm_num) (by norm_num) (by decide +kernel) (by norm_num),
    signed_fails range36 (by norm_num) (by norm_num) (v := -1) (by norm_num) (by norm_num) (by decide +kernel) (by norm_num),
    signed_fails range37 (by norm_num) (by norm_num) (v := -1) (by norm_num) (by norm_num) (by decide +kernel) (by norm_num),
    signed_fails range38 (by norm_num) (by norm_num) (v := -1) (by norm_num) (by norm_num) (by decide +kernel) (by norm_num),
    signed_fails range39 (by norm_num) (by norm_num) (v := -1) (by norm_num) (by norm_num) (by decide +kernel) (by norm_num),
    signed_fails range40 (by norm_num) (by norm_num) (v := -1) (by norm_num) (by norm_num) (by decide +kernel) (by norm_num),
    signed_fails range41 (by norm_num) (by norm_num) (v := -1) (by norm_num) (by norm_num) (by decide +kernel) (by norm_num),
    signed_fails range42 (by norm_num) (by norm_num) (v := -1) (by norm_num) (by norm_num) (by decide +kernel) (by norm_num),
    signed_fails range43 (by norm_num) (by norm_num) (v := -1) (by norm_num) (by norm_num) (by decide +kernel) (by norm_num)⟩

/-- C65: for the shifts from 44 to 49 the test has undefined behaviour: a signed overflow, in the product by Q for 44 and 45, in the
product by the approximation of `1/Q` for the others. -/
theorem C65_signed_overflow {n : Nat} (h1 : 44 ≤ n) (h2 : n < 50) : test_pmod_approx n = .error .overflow := by
  interval_cases n
  · exact signed_overflow_down range44 (by norm_num) (by norm_num) (by norm_num) (by decide +kernel)
  · exact signed_overflow_down range45 (by norm_num) (by norm_num) (by norm_num) (by decide +kernel)
  · exact signed_overflow_up range46 (by norm_num) (x0 := 1610743808) (by norm_num) (by norm_num) (by norm_num) (by norm_num) (by decide +kernel)
  · exact signed_overflow_up range47 (by norm_num) (x0 := 805371904) (by norm_num) (by norm_num) (by norm_num) (by norm_num) (by decide +kernel)
  · exact signed_overflow_up range48 (by norm_num) (x0 := 402685952) (by norm_num) (by norm_num) (by norm_num) (by norm_num) (by decide +kernel)
  · exact signed_overflow_up range49 (by norm_num) (x0 := 201342976) (by norm_num) (by norm_num) (by norm_num) (by norm_num) (by decide +kernel)

/-- C65: hence "signed-approx n works" is never printed for the shifts that the program tries. -/
theorem C65_signed_never_works {n : Nat} (h1 : 30 ≤ n) (h2 : n < 50) :
    (∃ x, test_pmod_approx n = .ok (.fails x)) ∨ test_pmod_approx n = .error .overflow := by
  by_cases h : 44 ≤ n
  · exact .inr (C65_signed_overflow h h2)
  · left
    obtain ⟨t30, t31, t32, t33, t34, t35, t36, t37, t38, t39, t40, t41, t42, t43⟩ := C65_signed_fails
    push Not at h
    interval_cases n
    · exact ⟨_, t30⟩
    · exact ⟨_, t31⟩
    · exact ⟨_, t32⟩
    · exact ⟨_, t33⟩
    · exact ⟨_, t34⟩
    · exact ⟨_, t35⟩
    · exact ⟨_, t36⟩
    · exact ⟨_, t37⟩
    · exact ⟨_, t38⟩
    · exact ⟨_, t39⟩
    · exact ⟨_, t40⟩
    · exact ⟨_, t41⟩
    · exact ⟨_, t42⟩
    · exact ⟨_, t43⟩

/-- C65: before that overflow the signed approximation is right: for the shifts 44 and 45, it is the remainder, between 0 and Q-1, of
all arguments but the least 5477 ones. -/
theorem C65_signed_exact {n : Nat} (hn : n = 44 ∨ n = 45) {x : Int} (h1 : -2147478171 ≤ x) (h2 : x ≤ 2147483647) :
    approx_pmodq x n = .ok (x % 12289) := by
  have key {n : Nat} {m e k : Int} (h : Range n m e k 12288) (hn : n < 63) (hm : m ≤ 4294967296) (hk : 2147483648 ≤ 12289 * k) :
      approx_pmodq x n = .ok (x % 12289) := by
    rcases le_or_gt 0 x with h0 | h0
    · have : x * m ≤ 2147483647 * 4294967296 := by
        calc x * m ≤ x * 4294967296 := mul_le_mul_of_nonneg_left hm h0
          _ ≤ _ := by omega
      exact approx_pmodq_up h hn h0 (by omega) (by omega) (by omega)
    · obtain ⟨y, rfl⟩ : ∃ y, x = -y := ⟨-x, by ring⟩
      have : y * m ≤ 2147478171 * 4294967296 := by
        calc y * m ≤ y * 4294967296 := mul_le_mul_of_nonneg_left hm (by omega)
          _ ≤ _ := by omega
      exact approx_pmodq_down h hn (by omega) (by omega) (by omega) (by omega)
  rcases hn with rfl | rfl
  · exact key range44 (by norm_num) (by norm_num) (by norm_num)
  · exact key range45 (by norm_num) (by norm_num) (by norm_num)

example : approx_pmodq (-24578) 45 = .ok 0 ∧ approx_pmodq (-24577) 45 = .ok 1 ∧ approx_pmodq (-2147478172) 45 = .error .overflow := by
  decide +kernel

theorem pmodq_eq (x : Int) : pmodq x = .ok (x % 12289) := by
  rcases le_or_gt 0 x with h | h
  · exact pmodq_up h
  · have := pmodq_down (y := -x) (by omega)
    rwa [neg_neg] at this

/-- C65: the second check of the signed approximation reports that its bounds hold exactly if the result is defined and between 0 and
Q for each `int32_t`. -/
theorem C65_signed_bound_iff (n : Nat) : check_approx_pmodq_bound n = .ok none ↔
    ∀ x, -2147483648 ≤ x → x ≤ 2147483647 → ∃ r, approx_pmodq x n = .ok r ∧ 0 ≤ r ∧ r ≤ 12289 := by
  unfold check_approx_pmodq_bound
  rw [search_none_iff]
  refine forall_congr' fun x => forall_congr' fun _ => forall_congr' fun _ => ?_
  cases h : approx_pmodq x n with
  | error e =>
    constructor
    · intro h; cases h
    · rintro ⟨r, h, _⟩; cases h
  | ok r =>
    rw [ok_bind]
    constructor
    · intro h
      have h : (decide (r < 0) || decide (r > 12289)) = false := Except.ok.inj h
      simp only [Bool.or_eq_false_iff, decide_eq_false_iff_not] at h
      exact ⟨r, rfl, by omega, by omega⟩
    · rintro ⟨r', e, h1, h2⟩
      obtain rfl := Except.ok.inj e
      show Except.ok _ = _
      congr 1
      simp only [Bool.or_eq_false_iff, decide_eq_false_iff_not]
      omega

theorem first_test_iff (n : Nat) : search (fun x => do
    let r ← approx_pmodq x n
    let s ← pmodq x
    pure (decide (r ≠ s))) = .ok none ↔
    ∀ x, -2147483648 ≤ x → x ≤ 2147483647 → approx_pmodq x n = .ok (x % 12289) := by
  rw [search_none_iff]
  refine forall_congr' fun x => forall_congr' fun _ => forall_congr' fun _ => ?_
  rw [pmodq_eq]
  cases h : approx_pmodq x n with
  | error e => constructor <;> (intro h; cases h)
  | ok r =>
    rw [ok_bind, ok_bind]
    constructor
    · intro h
      have h : decide (r ≠ x % 12289) = false := Except.ok.inj h
      simp only [ne_eq, decide_eq_false_iff_not, not_not] at h
      rw [h]
    · intro h
      obtain rfl := Except.ok.inj h
      show Except.ok _ = _
      congr 1
      simp

/-- C65: the test of the signed approximation reports success exactly if it is the remainder for each `int32_t`, for every shift. -/
theorem C65_signed_works_iff (n : Nat) : test_pmod_approx n = .ok .works ↔
    ∀ x, -2147483648 ≤ x → x ≤ 2147483647 → approx_pmodq x n = .ok (x % 12289) := by
  rw [← first_test_iff]
  unfold test_pmod_approx
  constructor
  · intro h
    revert h
    generalize search (fun x => do
      let r ← approx_pmodq x n
      let s ← pmodq x
      pure (decide (r ≠ s))) = S
    intro h
    rcases S with e | (_ | x)
    · cases h
    · rfl
    · cases h
  · intro h
    rw [h, ok_bind]
    have hb : check_approx_pmodq_bound n = .ok none :=
      (C65_signed_bound_iff n).2 fun x h1 h2 => ⟨_, (first_test_iff n).1 h x h1 h2, by omega, by omega⟩
    dsimp only
    rw [hb]
    rfl

/-- C65: the second check never fails: when it is made, the remainders have been found to be right. -/
theorem C65_signed_bound_never_fails (n : Nat) (x : Int) : test_pmod_approx n ≠ .ok (.boundFails x) := by
  intro h
  have hw := C65_signed_works_iff n
  rw [← first_test_iff] at hw
  have h' := h
  unfold test_pmod_approx at h
  revert h hw
  generalize search (fun x => do
    let r ← approx_pmodq x n
    let s ← pmodq x
    pure (decide (r ≠ s))) = S
  intro h hw
  rcases S with e | (_ | x)
  · cases h
  · rw [hw.2 rfl] at h'; cases h'
  · cases h

/-- C65: the program as a whole has undefined behaviour before any test: `x = P * x + R` overflows in the first loop of `main`. -/
theorem C65_main_overflow : TestMod.main = .error .overflow := by
  have h : min_loop = .error .overflow := by
    unfold min_loop forUp
    rw [show (100000 : Nat) + 1 = 99991 + 1 + 1 + 1 + 1 + 1 + 1 + 1 + 1 + 1 + 1 from rfl]
    rfl
  unfold TestMod.main
  rw [h]
  rfl

end Props
