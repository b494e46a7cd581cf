import Verif.Proofs.CTestMod
import Verif.Proofs.TestRed
import Verif.Model.Src.TestRed

/-
The functions of src/test_red.c, as read from the text, do what the model says.
-/

namespace CLang.Tr
open C CLang CLang.Gen CLang.RedB CLang.Tm

set_option linter.unusedSimpArgs false

variable {P : Prog} {G : Name → Option Cell} {mem : Nat → Obj}

theorem red_gives (hP : P.lookup n!"red" = some Src.test_red.red) {x z : Int} {t : Ty} (hx : I64 x) (h : TestRed.red x = .ok z) :
    I64 z ∧ Gives P G n!"red" [.int t x] (.int .i64 z) := by
  simp only [TestRed.red, CLang.bind_ok] at h
  obtain ⟨y, hy, h⟩ := h
  exact ⟨i64_rng h, _, _, .int .i64 z, hP, rfl, bind1 hx, result64 (i64_rng h), fun mem => ⟨_, Rt.left (Rt.ret
    (sub_ev rfl (mul_ev rfl (num_ev (by decide) rfl) (and_ev rfl (Ev.v rfl rfl) (num_ev (by decide) rfl) hx (by decide)) (by decide)
      (I64_land64 _ _) hy) (sar_ev (Ev.v rfl rfl) hx (by decide)) (i64_rng hy) (I64_sar _ hx) h)), rfl⟩⟩

theorem global_ev {l : List (Name × Cell)} {x : Name} {t : Ty} {v : Int} (h0 : look l x = none) (h : G x = some (.int t (some v))) :
    Ev P G (.var x) (E l mem) (.int t v) :=
  Ev.mk 1 fun f => by
    rw [eval_var]
    show cellVal ((look l x).or (G x)) = _
    rw [h0, h]
    rfl

theorem test_overflow_gives (hR : P.lookup n!"red" = some Src.test_red.red) (hP : P.lookup n!"test_overflow" = some Src.test_red.test_overflow)
    (hG : Limits G) {x : Int} {t : Ty} (hx : I64 x) :
    Gives P G n!"test_overflow" [.int t x] (.int .bool (if decide (TestRed.Over x) then 1 else 0)) := by
  have hr := red_gives (G := G) (t := .i64) hR hx (TestRed.red_eq hx)
  refine ⟨_, _, truth (decide (TestRed.Over x)), hP, rfl, bind1 hx, result_bool _, fun mem => ?_⟩
  refine ⟨_, Rt.seq (st₁ := E [(n!"x", lc x), (n!"r", .int .i64 none)] mem) (Ex.mk 1 fun f => by crs [])
    (Rt.seq (asg (hr.2.ev (EvA.cons (Ev.v rfl rfl) (EvA.nil _))) rfl hr.1) (Rt.left (Rt.ret ?_))), rfl⟩
  have := RedB.lor_ev (P := P) (G := G) (st := E [(n!"x", lc x), (n!"r", lc (Spec.red x))] mem)
    (gt_ev rfl (Ev.v (x := n!"r") rfl rfl) (global_ev (x := n!"INT32_MAX") rfl hG.1) hr.1 (by decide))
    (fun _ => lt_ev rfl (Ev.v (x := n!"r") rfl rfl) (global_ev (x := n!"INT32_MIN") rfl hG.2) hr.1 (by decide))
  have he : (decide (Spec.red x > 2147483647) || decide (Spec.red x < -2147483648)) = decide (TestRed.Over x) := by
    unfold TestRed.Over
    by_cases h1 : 2147483647 < Spec.red x <;> by_cases h2 : Spec.red x < -2147483648 <;> simp [h1, h2]
  rw [he] at this
  exact this

/-! ### test_overflow2 -/

theorem ite_ev {c : Expr} {a b : Stmt} {st : State} {t : Ty} {r : Bool} {o : Option Val × State}
    (hc : Ev P G c st (.int t (if r then 1 else 0)))
    (h : ∃ N, ∀ f, N ≤ f → exec P G f (if r then a else b) st = .ok o) : ∃ N, ∀ f, N ≤ f → exec P G f (.ite c a b) st = .ok o := by
  obtain ⟨N, hN⟩ := hc
  obtain ⟨N', hN'⟩ := h
  refine ⟨max N N' + 1, fun f hf => ?_⟩
  obtain ⟨g, rfl⟩ := Nat.exists_eq_add_of_le' (show 1 ≤ f by omega)
  have h2 := hN' g (by omega)
  rw [exec_ite, hN g (by omega), ok_bind]
  cases r
  · simpa [test, ok_bind] using h2
  · simpa [test, ok_bind] using h2

abbrev ov (x : Int) (i : Nat) : List (Name × Cell) := [(n!"x", lc x), (n!"w", lc (i : Nat))]

theorem ov_loop {c : Expr} {s : Stmt} {st : Nat → State} {bad : Nat → Prop} {n : Nat}
    (hc : ∀ i, i ≤ n → Ev P G c (st i) (truth (decide (i < n))))
    (hg : ∀ i, i < n → ¬ bad i → Ex P G s (st i) (st (i + 1)))
    (hb : ∀ i, i < n → bad i → Rt P G s (st i) (truth true) (st i)) :
    ∀ d i, i + d = n → ((∀ j, i ≤ j → j < n → ¬ bad j) ∧ Ex P G (.while c s) (st i) (st n)) ∨
      (∃ j, i ≤ j ∧ j < n ∧ bad j ∧ Rt P G (.while c s) (st i) (truth true) (st j)) := by
  intro d
  induction d with
  | zero =>
    intro i hi
    obtain rfl : i = n := by omega
    have h := hc i (le_refl i)
    rw [decide_eq_false (by omega)] at h
    exact Or.inl ⟨fun j _ _ => by omega, Ex.while_false h⟩
  | succ d ih =>
    intro i hi
    have h := hc i (by omega)
    rw [decide_eq_true (by omega)] at h
    by_cases ho : bad i
    · exact Or.inr ⟨i, le_refl i, by omega, ho, Rt.while_now h (hb i (by omega) ho)⟩
    · rcases ih (i + 1) (by omega) with ⟨h1, h2⟩ | ⟨j, h1, h2, h3, h4⟩
      · refine Or.inl ⟨fun j hj hj' => ?_, Ex.while_true h (hg i (by omega) ho) h2⟩
        by_cases e : i = j
        · exact e ▸ ho
        · exact h1 j (by omega) hj'
      · exact Or.inr ⟨j, by omega, h2, h3, Rt.while_later h (hg i (by omega) ho) h4⟩

theorem test_overflow2_rt (hR : P.lookup n!"red" = some Src.test_red.red) (hO : P.lookup n!"test_overflow" = some Src.test_red.test_overflow)
    (hG : Limits G) {x : Int} (h1 : -2251799813685248 ≤ x) (h2 : x ≤ 2251799813685247) :
    ∃ (b : Bool) (st' : State), Rt P G Src.test_red.test_overflow2.body (E [(n!"x", lc x)] mem) (truth b) st' ∧ st'.mem = mem ∧
      (b = true ↔ ∃ j : Nat, j < 4096 ∧ TestRed.Over (x * 4096 + j)) := by
  have hx : I64 x := by unfold I64; omega
  have hx4 : I64 (x * 4096) := by unfold I64; omega
  have hadd : ∀ j : Nat, j < 4096 → I64 (x * 4096 + j) := fun j hj => by unfold I64; omega
  have hj : ∀ j : Nat, j ≤ 4096 → I64 (j : Int) := fun j hj => by unfold I64; omega
  have hcall : ∀ j : Nat, j < 4096 → Ev P G (.call n!"test_overflow" (.cons (.bin .add (.var n!"x") (.var n!"w")) .nil)) (E (ov (x * 4096) j) mem)
      (.int .bool (if decide (TestRed.Over (x * 4096 + j)) then 1 else 0)) := fun j hjn =>
    (test_overflow_gives hR hO hG (hadd j hjn)).ev (EvA.cons (add_ev rfl (Ev.v rfl rfl) (Ev.v rfl rfl) hx4 (hj j (by omega)) (i64_of (hadd j hjn)))
      (EvA.nil _))
  have hloop := ov_loop (P := P) (G := G) (st := fun i => E (ov (x * 4096) i) mem) (bad := fun j : Nat => TestRed.Over (x * 4096 + j)) (n := 4096)
    (c := .bin .lt (.var n!"w") (.num 4096))
    (s := .seq (.seq (.ite (.call n!"test_overflow" (.cons (.bin .add (.var n!"x") (.var n!"w")) .nil)) (.seq (.ret (.num 1)) .skip) .skip) .skip)
      (.assign n!"w" (.bin .add (.var n!"w") (.num 1))))
    (fun i hi => by
      have := lt_ev (P := P) (G := G) (st := E (ov (x * 4096) i) mem) (s := .i64) (t := .i32) rfl (Ev.v (x := n!"w") rfl rfl)
        (num_ev (n := 4096) (z := 4096) (by decide) rfl) (hj i hi) (by decide)
      rwa [show decide ((i : Int) < 4096) = decide (i < 4096) by congr 1; simp] at this)
    (fun i hi hb => by
      have hc := hcall i hi
      rw [decide_eq_false hb] at hc
      refine Ex.seq (st₁ := E (ov (x * 4096) i) mem) (Ex.seq (st₁ := E (ov (x * 4096) i) mem) (ite_ev hc (Ex.skip _)) (Ex.skip _)) ?_
      exact asg (v := ((i + 1 : Nat) : Int)) (add_ev rfl (Ev.v rfl rfl) (num_ev (z := 1) (by decide) rfl) (hj i (by omega)) (by decide)
        (i64_of (hj (i + 1) (by omega)))) rfl (hj (i + 1) (by omega)))
    (fun i hi hb => by
      have hc := hcall i hi
      rw [decide_eq_true hb] at hc
      exact Rt.left (Rt.left (ite_ev hc (Rt.left (Rt.ret (num_ev (by decide) rfl))))))
    4096 0 rfl
  have hstart : Ex P G (.assign n!"x" (.bin .mul (.var n!"x") (.num 4096))) (E [(n!"x", lc x), (n!"w", .int .i64 none)] mem)
      (E [(n!"x", lc (x * 4096)), (n!"w", .int .i64 none)] mem) :=
    asg (mul_ev rfl (Ev.v rfl rfl) (num_ev (z := 4096) (by decide) rfl) hx (by decide) (i64_of hx4)) rfl hx4
  have hw0 : Ex P G (.assign n!"w" (.num 0)) (E [(n!"x", lc (x * 4096)), (n!"w", .int .i64 none)] mem) (E (ov (x * 4096) 0) mem) :=
    asg (v := ((0 : Nat) : Int)) (num_nat (by decide)) rfl (by decide)
  have hdecl : Ex P G (.decl .i64 n!"w") (E [(n!"x", lc x)] mem) (E [(n!"x", lc x), (n!"w", .int .i64 none)] mem) := Ex.mk 1 fun f => by crs []
  rcases hloop with ⟨h1, h2⟩ | ⟨j, _, hjn, h3, h4⟩
  · exact ⟨false, _, Rt.seq hdecl (Rt.seq hstart (Rt.seq (Ex.seq hw0 h2) (Rt.left (Rt.ret (num_ev (z := 0) (by decide) rfl))))), rfl,
      fun h => by simp at h, fun ⟨j, hj, ho⟩ => absurd ho (h1 j (by omega) hj)⟩
  · exact ⟨true, _, Rt.seq hdecl (Rt.seq hstart (Rt.left (Rt.seq hw0 h4))), rfl, fun _ => ⟨j, hjn, h3⟩, fun _ => rfl⟩

/-! ### Bounds -/

theorem k12286 {st : State} : Ev P G (.bin .sub (.num 12289) (.num 3)) st (.int .i32 12286) :=
  Ev.bin (num_ev (z := 12289) (by decide) rfl) (num_ev (z := 3) (by decide) rfl)
    (by rw [binop_ii (by simp) (by simp) (by decide) (by decide), arith_sub32]; rfl)

theorem k4 {st : State} : Ev P G (.bin .add (.num 3) (.num 1)) st (.int .i32 4) :=
  Ev.bin (num_ev (z := 3) (by decide) rfl) (num_ev (z := 1) (by decide) rfl)
    (by rw [binop_ii (by simp) (by simp) (by decide) (by decide), arith_add32]; rfl)

theorem ct_bound_gives (hP : P.lookup n!"ct_bound" = some Src.test_red.ct_bound) {b r : Int} {t : Ty} (hb : I64 b) (h0 : 0 ≤ b)
    (h : TestRed.ct_bound b = .ok r) : Gives P G n!"ct_bound" [.int t b] (.int .i64 r) := by
  simp only [TestRed.ct_bound, CLang.bind_ok] at h
  obtain ⟨y, hy, d, hd, delta, hdelta, z, hz, h⟩ := h
  have hy' := CLang.i64_ok.1 hy
  have hr : I64 r := by
    split at h
    · cases h; exact i64_rng hz
    · exact i64_rng h
  refine ⟨_, _, .int .i64 r, hP, rfl, bind1 hb, result64 hr, fun mem => ?_⟩
  have hdiv := div_ev (P := P) (G := G) (st := E [(n!"b", lc b), (n!"delta", .int .i64 none)] mem) (s := .i64) (t := .i32) rfl
    (add_ev (s := .i64) (t := .i32) rfl (Ev.v (x := n!"b") rfl rfl) (num_ev (n := 1) (z := 1) (by decide) rfl) hb (by decide) hy)
    (num_ev (n := 4096) (z := 4096) (by decide) rfl) (i64_rng hy) (by omega) (by decide) hd
  have hdi := i64_rng hdelta
  have hmul : Ev P G (.bin .mul (.bin .add (.num 3) (.num 1)) (.var n!"b")) (E [(n!"b", lc b), (n!"delta", lc delta)] mem) (.int .i64 z) :=
    mul_ev rfl k4 (Ev.v rfl rfl) (by decide) hb hz
  refine ⟨_, Rt.seq (st₁ := E [(n!"b", lc b), (n!"delta", .int .i64 none)] mem) (Ex.mk 1 fun f => by crs [])
    (Rt.seq (asg (sub_ev rfl k12286 hdiv.1 (by decide) hdiv.2 hdelta) rfl hdi)
      (Rt.left (Rt.ret (cond_ev (r := decide (delta < 0)) (lt_ev rfl (Ev.v rfl rfl) (num_ev (z := 0) (by decide) rfl) hdi (by decide)) ?_)))), rfl⟩
  by_cases hc : delta < 0
  · rw [if_pos hc] at h
    cases h
    rw [if_pos (by simpa using hc)]
    exact hmul
  · rw [if_neg hc] at h
    rw [if_neg (by simpa using hc)]
    exact add_ev rfl hmul (Ev.v rfl rfl) (i64_rng hz) hdi h

theorem gs_bound_gives (hP : P.lookup n!"gs_bound" = some Src.test_red.gs_bound) {b r : Int} {t : Ty} (hb : I64 b) (h0 : 0 ≤ b)
    (h : TestRed.gs_bound b = .ok r) : Gives P G n!"gs_bound" [.int t b] (.int .i64 r) := by
  simp only [TestRed.gs_bound, CLang.bind_ok] at h
  obtain ⟨bb, hbb, y, hy, d, hd, delta, hdelta, z, hz, h⟩ := h
  have hy' := CLang.i64_ok.1 hy
  have hbb' := CLang.i64_ok.1 hbb
  have hr : I64 r := by
    split at h
    · cases h; exact i64_rng hz
    · exact i64_rng h
  refine ⟨_, _, .int .i64 r, hP, rfl, bind1 hb, result64 hr, fun mem => ?_⟩
  have hbi := i64_rng hbb
  have hdiv := div_ev (P := P) (G := G) (st := E [(n!"b", lc b), (n!"delta", .int .i64 none), (n!"bb", lc bb)] mem) (s := .i64) (t := .i32) rfl
    (add_ev (s := .i64) (t := .i32) rfl (Ev.v (x := n!"bb") rfl rfl) (num_ev (n := 1) (z := 1) (by decide) rfl) hbi (by decide) hy)
    (num_ev (n := 4096) (z := 4096) (by decide) rfl) (i64_rng hy) (by omega) (by decide) hd
  have hdi := i64_rng hdelta
  have hmul : Ev P G (.bin .mul (.num 3) (.var n!"bb")) (E [(n!"b", lc b), (n!"delta", lc delta), (n!"bb", lc bb)] mem) (.int .i64 z) :=
    mul_ev rfl (num_ev (z := 3) (by decide) rfl) (Ev.v rfl rfl) (by decide) hbi hz
  refine ⟨_, Rt.seq (st₁ := E [(n!"b", lc b), (n!"delta", .int .i64 none), (n!"bb", .int .i64 none)] mem) (Ex.mk 2 fun f => by crs [])
    (Rt.seq (asg (mul_ev rfl (num_ev (z := 2) (by decide) rfl) (Ev.v rfl rfl) (by decide) hb hbb) rfl hbi)
    (Rt.seq (asg (sub_ev rfl k12286 hdiv.1 (by decide) hdiv.2 hdelta) rfl hdi)
      (Rt.left (Rt.ret (cond_ev (r := decide (delta < 0)) (lt_ev rfl (Ev.v rfl rfl) (num_ev (z := 0) (by decide) rfl) hdi (by decide)) ?_))))), rfl⟩
  by_cases hc : delta < 0
  · rw [if_pos hc] at h
    cases h
    rw [if_pos (by simpa using hc)]
    exact hmul
  · rw [if_neg hc] at h
    rw [if_neg (by simpa using hc)]
    exact add_ev rfl hmul (Ev.v rfl rfl) (i64_rng hz) hdi h

end CLang.Tr
