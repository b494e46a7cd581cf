import Verif.Proofs.CTestRed
import Verif.Props.TestMod
import Verif.Props.TestRed

/-
C96: the computing functions of src/test_mod.c and src/test_red.c, executed from their text.
-/

namespace Props
open C CLang CLang.Gen CLang.Tm CLang.Tr

theorem approx_ok {n : Nat} (h1 : 41 ≤ n) (h2 : n ≤ 45) : ∃ m e k : Int, TestMod.Range n m e k 12288 ∧ 20689 ≤ k ∧ m < 4294967296 := by
  obtain rfl | rfl | rfl | rfl | rfl : n = 41 ∨ n = 42 ∨ n = 43 ∨ n = 44 ∨ n = 45 := by omega
  · exact ⟨_, _, _, range41, by decide, by decide⟩
  · exact ⟨_, _, _, range42, by decide, by decide⟩
  · exact ⟨_, _, _, range43, by decide, by decide⟩
  · exact ⟨_, _, _, range44, by decide, by decide⟩
  · exact ⟨_, _, _, range45, by decide, by decide⟩

theorem qinv_ok {n : Nat} (h : n < 46) : TestMod.approx_qinv n = .ok (2 ^ n / 12289 + 1) := by
  have h0 : 2 ^ n ≤ 2 ^ 45 := Nat.pow_le_pow_right (by decide) (by omega)
  unfold TestMod.approx_qinv
  rw [show u64 (2 ^ n) = 2 ^ n from Nat.mod_eq_of_lt (by omega)]
  show Except.ok _ = _
  generalize 2 ^ n = p at *
  unfold u32 u64
  congr 1
  omega

theorem divq_ok {x : Nat} (h : x < 4294967296) : TestMod.approx_divq x 45 = .ok (x / 12289) := by
  unfold TestMod.approx_divq
  rw [qinv_ok (by decide)]
  show Except.ok _ = _
  have hu := range45.up (x := (x : Int)) (by omega) (by omega)
  have hu' : x * 2863078533 / 2 ^ 45 = x / 12289 := by exact_mod_cast hu
  congr 1
  rw [show 2 ^ 45 / 12289 + 1 = 2863078533 by decide, show u64 (x * 2863078533) = x * 2863078533 from Nat.mod_eq_of_lt (by omega), hu']
  exact Nat.mod_eq_of_lt (by omega)

/-- C96: what the functions of src/test_mod.c compute, executed from the text of the file. -/
theorem C96_remainders : Remainders Src.test_mod where
  smodq x t h1 h2 := computes_of fun G => smodq_gives rfl ⟨h1, h2⟩
  umodq x t h := computes_of fun G => umodq_gives rfl h
  pmodq x t h1 h2 := computes_of fun G => pmodq_gives rfl rfl ⟨h1, h2⟩
  approx_qinv n t h := computes_of fun G => approx_qinv_gives rfl (by omega) (qinv_ok h)
  full x t t' h := ⟨computes_of fun G => approx_divq_gives rfl rfl h (by decide) (divq_ok h),
    computes_of fun G => approx_modq_gives rfl rfl rfl h (by decide) (C65_full_range.1 x h)⟩
  approx_modq x n t t' h h1 h2 := computes_of fun G => by
    obtain ⟨m, e, k, hr, hk, hm⟩ := approx_ok h1 h2
    exact approx_modq_gives rfl rfl rfl (by omega) (by omega) (TestMod.approx_modq_eq hr (by omega) hm (by omega) (by omega))
  wrong n h := by
    rcases h with rfl | rfl
    · exact ⟨105034082, 4294967295, by decide, by decide, fun t t' => computes_of fun G =>
        approx_modq_gives rfl rfl rfl (by decide) (by decide) (by decide +kernel)⟩
    · exact ⟨12289, 12289, by decide, by decide, fun t t' => computes_of fun G =>
        approx_modq_gives rfl rfl rfl (by decide) (by decide) (by decide +kernel)⟩
  approx_pmodq x n t t' h h1 h2 := computes_of fun G => by
    obtain ⟨m, e, k, hr, hk, hm⟩ := approx_ok h1 h2
    rw [abs_le] at h
    have hm0 : 0 ≤ m := by rw [hr.m_eq]; positivity
    refine approx_pmodq_gives rfl rfl rfl (by unfold I32; omega) (by omega) ?_
    by_cases hx : 0 ≤ x
    · exact TestMod.approx_pmodq_up hr (by omega) hx (by omega) (by omega) (by nlinarith)
    · obtain ⟨y, rfl⟩ : ∃ y, x = -y := ⟨-x, by omega⟩
      exact TestMod.approx_pmodq_down hr (by omega) (by omega) (by omega) (by omega) (by nlinarith)

/-- The file is read; a call with concrete numbers, for all types of the arguments. -/
example : readSome Src.test_mod_text = Src.test_mod ∧
    Computes Src.test_mod n!"approx_modq" [.int .u32 4294967295, .int .i32 45] .u32 10951 ∧
    Computes Src.test_mod n!"pmodq" [.int .i32 (-2147483648)] .i32 6813 :=
  ⟨Src.test_mod_read, (C96_remainders.full 4294967295 .u32 .i32 (by decide)).2, C96_remainders.pmodq (-2147483648) .i32 (by decide) (by decide)⟩

/-- C96: what the functions of src/test_red.c compute, executed from the text of the file. -/
theorem C96_reductions : Reductions Src.test_red where
  red x t h1 h2 := computes_of fun G => (red_gives rfl ⟨h1, h2⟩ (TestRed.red_eq ⟨h1, h2⟩)).2
  test_overflow x t h1 h2 G mem hG := by
    have := (test_overflow_gives (P := Src.test_red) (t := t) rfl rfl hG (x := x) ⟨h1, h2⟩).returns (mem := mem)
    refine ⟨fun h => ?_, fun h => ?_⟩
    · rwa [decide_eq_true (show TestRed.Over x from h)] at this
    · rwa [decide_eq_false (show ¬ TestRed.Over x from h)] at this
  test_overflow2 x t h1 h2 G mem hG := by
    obtain ⟨b, st', hb, hm, hi⟩ := test_overflow2_rt (P := Src.test_red) (mem := mem) rfl rfl hG h1 h2
    have hr := Returns.mk (P := Src.test_red) (g := n!"test_overflow2") rfl (RedB.bind1 (t := t) (x := x) (by unfold I64; omega)) hb
      (result_bool b)
    rw [hm] at hr
    have he : (∃ j : Nat, j < 4096 ∧ TestRed.Over (x * 4096 + j)) ↔ ∃ y, 4096 * x ≤ y ∧ y ≤ 4096 * x + 4095 ∧ Overflows y := by
      constructor
      · rintro ⟨j, hj, ho⟩
        exact ⟨x * 4096 + j, by omega, by omega, ho⟩
      · rintro ⟨y, hy1, hy2, ho⟩
        refine ⟨(y - 4096 * x).toNat, by omega, ?_⟩
        rw [show x * 4096 + ((y - 4096 * x).toNat : Int) = y by omega]
        exact ho
    rw [he] at hi
    refine ⟨fun h => ?_, fun h => ?_⟩
    · rw [hi.2 h] at hr; exact hr
    · rw [Bool.eq_false_iff.2 fun e => h (hi.1 e)] at hr; exact hr
  ct_bound b t h0 h1 := by
    obtain ⟨b', he, hr⟩ := (C64_bound_functions h0 h1).2.2.1
    exact ⟨b', hr, computes_of fun G => ct_bound_gives rfl (by unfold I64; omega) h0 he⟩
  gs_bound b t h0 h1 := by
    obtain ⟨b', he, hr⟩ := (C64_bound_functions h0 h1).2.2.2.1
    exact ⟨b', hr, computes_of fun G => gs_bound_gives rfl (by unfold I64; omega) h0 he⟩

/-- The file is read; the interval in which nothing overflows ends where test_red says. -/
example : readSome Src.test_red_text = Src.test_red ∧ Limits (fun x => if x = n!"INT32_MAX" then some (.int .i32 (some 2147483647))
      else if x = n!"INT32_MIN" then some (.int .i32 (some (-2147483648))) else none) ∧
    Overflows 8796093026304 ∧ ¬ Overflows 8796093026303 ∧
    Computes Src.test_red n!"red" [.int .i64 (-9223372036854775808)] .i64 2251799813685248 :=
  ⟨Src.test_red_read, ⟨rfl, rfl⟩, by unfold Overflows Spec.red; decide, by unfold Overflows Spec.red; decide,
    C96_reductions.red _ .i64 (by decide) (by decide)⟩

end Props
