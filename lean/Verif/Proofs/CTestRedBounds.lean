import Verif.Proofs.CTestMod
import Verif.Proofs.CRedAddr
import Verif.Model.Src.TestRedBounds

/-
`max_abs_red` of src/test_red_bounds.c, as read from the text, returns the greatest magnitude.
-/

namespace CLang.Tb
open C CLang CLang.Gen CLang.RedB CLang.Tm

set_option linter.unusedSimpArgs false

variable {P : Prog} {G : Name → Option Cell} {mem : Nat → Obj}

/-- Variables of `max_abs_red`. -/
abbrev ma (sp : Nat) (b : Int) (min max m : Option Int) : List (Name × Cell) :=
  [(n!"b", lc b), (0, .ptr sp 0 1), (n!"min", .int .i64 min), (n!"max", .int .i64 max), (n!"m", .int .i64 m)]

theorem red_rng51 {x : Int} (h : I64 x) : -9223372036854775807 ≤ Spec.red x ∧ Spec.red x ≤ 9223372036854775807 := by
  unfold I64 at h; unfold Spec.red; omega

theorem max_abs_red_rt (hR : P.lookup n!"red" = some Src.red_bounds.red) (h1 : P.lookup n!"min_red" = some Src.red_bounds.min_red)
    (h2 : P.lookup n!"max_red" = some Src.red_bounds.max_red) {b : Int} {sp : Nat} (h0 : 0 ≤ b) (hb : I64 b) :
    ∃ r m x y, ∃ st', RedBounds.min_red true (-b) b = .ok (r, x) ∧ RedBounds.max_red true (-b) b = .ok (m, y) ∧
      Rt P G Src.test_red_bounds.max_abs_red.body (E [(n!"b", lc b), (0, .ptr sp 0 1)] mem) (.int .i64 (Max.max (-r) m)) st' ∧ st'.mem = mem := by
  have hnb : I64 (-b) := by unfold I64 at *; omega
  obtain ⟨r, x, e1, hx, hrx, hmin⟩ := Props.C28_min_red true (-b) b hnb hb (by omega)
  obtain ⟨m, y, e2, hy, hmy, hmax⟩ := Props.C28_max_red true (-b) b hnb hb (by omega)
  have hr : -9223372036854775807 ≤ r ∧ r ≤ 9223372036854775807 := hrx ▸ red_rng51 (by unfold I64 at *; omega)
  have hm : -9223372036854775807 ≤ m ∧ m ≤ 9223372036854775807 := hmy ▸ red_rng51 (by unfold I64 at *; omega)
  have hr' : I64 r := by unfold I64; omega
  have hm' : I64 m := by unfold I64; omega
  have hnr : I64 (-r) := by unfold I64; omega
  have hrm : r ≤ m := by
    have a1 : r ≤ Spec.red 0 := hmin.2 ⟨0, by omega, by omega, rfl⟩
    have a2 : Spec.red 0 ≤ m := hmax.2 ⟨0, by omega, by omega, rfl⟩
    omega
  have hargs : ∀ min max k, EvA P G (.cons (.neg (.var n!"b")) (.cons (.var n!"b") .nil)) (E (ma sp b min max k) mem) [.int .i64 (-b), .int .i64 b] :=
    fun min max k => EvA.cons (neg_ev (Ev.v rfl rfl) hb (i64_of hnb)) (EvA.cons (Ev.v rfl rfl) (EvA.nil _))
  have c1 : Ex P G (.callAt n!"min" n!"min_red" (.cons (.neg (.var n!"b")) (.cons (.var n!"b") .nil)) [n!"m"]) (E (ma sp b none none none) mem)
      (E (ma sp b (some r) none (some x)) mem) :=
    Ex.callAt1 (m := x) (hargs none none none) rfl rfl rfl hr' (fun z => ReturnsAt.of h1 (by decide)
      (min_red_returns hR h1 hnb hb (setMem_self mem sp ⟨.i64, #[z]⟩) e1))
  have c2 : Ex P G (.callAt n!"max" n!"max_red" (.cons (.neg (.var n!"b")) (.cons (.var n!"b") .nil)) [n!"m"]) (E (ma sp b (some r) none (some x)) mem)
      (E (ma sp b (some r) (some m) (some y)) mem) :=
    Ex.callAt1 (m := y) (hargs _ _ _) rfl rfl rfl hm' (fun z => ReturnsAt.of h2 (by decide)
      (max_red_returns hR h2 hnb hb (setMem_self mem sp ⟨.i64, #[z]⟩) e2))
  have d0 : Ex P G (.seq (.decl .i64 n!"min") (.seq (.decl .i64 n!"max") (.decl .i64 n!"m"))) (E [(n!"b", lc b), (0, .ptr sp 0 1)] mem)
      (E (ma sp b none none none) mem) := Ex.mk 3 fun f => by crs []
  have t1 : Ev P G (.bin .lt (.var n!"max") (.num 0)) (E (ma sp b (some r) (some m) (some y)) mem) (truth (decide (m < 0))) :=
    lt_ev rfl (Ev.v rfl rfl) (num_ev (by decide) rfl) hm' (by decide)
  have t2 : Ev P G (.bin .gt (.var n!"min") (.num 0)) (E (ma sp b (some r) (some m) (some y)) mem) (truth (decide (r > 0))) :=
    gt_ev rfl (Ev.v rfl rfl) (num_ev (by decide) rfl) hr' (by decide)
  refine ⟨r, m, x, y, ?_⟩
  by_cases k1 : m < 0
  · rw [decide_eq_true k1] at t1
    rw [show Max.max (-r) m = -r from max_eq_left (by omega)]
    exact ⟨_, e1, e2, Rt.seq d0 (Rt.seq c1 (Rt.seq c2 (Rt.left (Rt.ite t1
      (by rw [if_pos rfl]; exact Rt.ret (neg_ev (Ev.v rfl rfl) hr' (i64_of hnr))))))), rfl⟩
  rw [decide_eq_false k1] at t1
  have s1 : Ex P G (.ite (.bin .lt (.var n!"max") (.num 0)) (.ret (.neg (.var n!"min"))) .skip) (E (ma sp b (some r) (some m) (some y)) mem)
      (E (ma sp b (some r) (some m) (some y)) mem) := Ex.ite t1 (by rw [if_neg (by simp)]; exact Ex.skip _)
  by_cases k2 : r > 0
  · rw [decide_eq_true k2] at t2
    rw [show Max.max (-r) m = m from max_eq_right (by omega)]
    exact ⟨_, e1, e2, Rt.seq d0 (Rt.seq c1 (Rt.seq c2 (Rt.seq s1 (Rt.left (Rt.ite t2
      (by rw [if_pos rfl]; exact Rt.ret (Ev.v rfl rfl))))))), rfl⟩
  rw [decide_eq_false k2] at t2
  have s2 : Ex P G (.ite (.bin .gt (.var n!"min") (.num 0)) (.ret (.var n!"max")) .skip) (E (ma sp b (some r) (some m) (some y)) mem)
      (E (ma sp b (some r) (some m) (some y)) mem) := Ex.ite t2 (by rw [if_neg (by simp)]; exact Ex.skip _)
  have s3 : Ex P G (.assign n!"min" (.neg (.var n!"min"))) (E (ma sp b (some r) (some m) (some y)) mem)
      (E (ma sp b (some (-r)) (some m) (some y)) mem) := asg (neg_ev (Ev.v rfl rfl) hr' (i64_of hnr)) rfl hnr
  refine ⟨_, e1, e2, Rt.seq d0 (Rt.seq c1 (Rt.seq c2 (Rt.seq s1 (Rt.seq s2 (Rt.seq s3 (Rt.left (Rt.ret
    (cond_ev (r := decide (m > -r)) (gt_ev rfl (Ev.v rfl rfl) (Ev.v rfl rfl) hm' hnr) ?_)))))))), rfl⟩
  by_cases k3 : m > -r
  · rw [if_pos (by simpa using k3), max_eq_right (by omega)]
    exact Ev.v rfl rfl
  · rw [if_neg (by simpa using k3), max_eq_left (by omega)]
    exact Ev.v rfl rfl

end CLang.Tb
