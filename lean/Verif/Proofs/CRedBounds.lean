import Verif.Proofs.CExact
import Verif.Proofs.NttRed
import Verif.Model.RedBounds
import Verif.Model.Src.RedBounds

/-
Functions of src/red_bounds.c, as read from the text, do what the model says.
-/

namespace CLang.RedB
open C CLang RedBounds

set_option linter.unusedSimpArgs false

variable {P : Prog} {G : Name → Option Cell} {mem : Nat → Obj}

/-- An `int64_t` variable. -/
abbrev lc (x : Int) : Cell := .int .i64 (some x)

/-! ### Expressions -/

theorem binop64 {o : Bin} {s t : Ty} {x y : Int} (hc : common s t = .i64) (h1 : o ≠ .shl) (h2 : o ≠ .shr) (hx : I64 x) (hy : I64 y) :
    binop o (.int s x) (.int t y) = arith .i64 x y o := by
  cases o <;> simp_all only [binop, conv_i64, toI64_of, ne_eq, not_true_eq_false]

theorem I64_sar {x : Int} (k : Nat) (h : I64 x) : I64 (sar x k) := by
  unfold sar I64 at *
  have hp : (0 : Int) < (2 ^ k : Nat) := by exact_mod_cast Nat.two_pow_pos k
  have h1 : (1 : Int) ≤ (2 ^ k : Nat) := hp
  constructor
  · rw [Int.le_ediv_iff_mul_le hp]
    nlinarith
  · have := Int.ediv_lt_of_lt_mul hp (show x < 9223372036854775808 * (2 ^ k : Nat) by nlinarith)
    omega

theorem num_ev {n : Nat} {z : Int} {st : State} (h : n ≤ 2147483647) (hz : (n : Int) = z) : Ev P G (.num n) st (.int .i32 z) := by
  subst hz
  exact Ev.mk 1 fun f => eval_num f st n h

section
variable {a b : Expr} {st : State} {s t : Ty} {x y z : Int}

theorem add_ev (hc : common s t = .i64) (ha : Ev P G a st (.int s x)) (hb : Ev P G b st (.int t y)) (hx : I64 x) (hy : I64 y)
    (h : C.i64 (x + y) = .ok z) : Ev P G (.bin .add a b) st (.int .i64 z) :=
  Ev.bin ha hb (by rw [binop64 hc (by simp) (by simp) hx hy, arith_add64, h, ok_bind])

theorem sub_ev (hc : common s t = .i64) (ha : Ev P G a st (.int s x)) (hb : Ev P G b st (.int t y)) (hx : I64 x) (hy : I64 y)
    (h : C.i64 (x - y) = .ok z) : Ev P G (.bin .sub a b) st (.int .i64 z) :=
  Ev.bin ha hb (by rw [binop64 hc (by simp) (by simp) hx hy, arith_sub64, h, ok_bind])

theorem mul_ev (hc : common s t = .i64) (ha : Ev P G a st (.int s x)) (hb : Ev P G b st (.int t y)) (hx : I64 x) (hy : I64 y)
    (h : C.i64 (x * y) = .ok z) : Ev P G (.bin .mul a b) st (.int .i64 z) :=
  Ev.bin ha hb (by rw [binop64 hc (by simp) (by simp) hx hy, arith_mul64, h, ok_bind])

theorem and_ev (hc : common s t = .i64) (ha : Ev P G a st (.int s x)) (hb : Ev P G b st (.int t y)) (hx : I64 x) (hy : I64 y) :
    Ev P G (.bin .and a b) st (.int .i64 (land64 x y)) :=
  Ev.bin ha hb (by rw [binop64 hc (by simp) (by simp) hx hy, arith_and64])

theorem or_ev (hc : common s t = .i64) (ha : Ev P G a st (.int s x)) (hb : Ev P G b st (.int t y)) (hx : I64 x) (hy : I64 y) :
    Ev P G (.bin .or a b) st (.int .i64 (lor64 x y)) :=
  Ev.bin ha hb (by rw [binop64 hc (by simp) (by simp) hx hy]; rfl)

theorem lt_ev (hc : common s t = .i64) (ha : Ev P G a st (.int s x)) (hb : Ev P G b st (.int t y)) (hx : I64 x) (hy : I64 y) :
    Ev P G (.bin .lt a b) st (truth (decide (x < y))) :=
  Ev.bin ha hb (by rw [binop64 hc (by simp) (by simp) hx hy]; rfl)
theorem gt_ev (hc : common s t = .i64) (ha : Ev P G a st (.int s x)) (hb : Ev P G b st (.int t y)) (hx : I64 x) (hy : I64 y) :
    Ev P G (.bin .gt a b) st (truth (decide (x > y))) :=
  Ev.bin ha hb (by rw [binop64 hc (by simp) (by simp) hx hy]; rfl)
theorem le_ev (hc : common s t = .i64) (ha : Ev P G a st (.int s x)) (hb : Ev P G b st (.int t y)) (hx : I64 x) (hy : I64 y) :
    Ev P G (.bin .le a b) st (truth (decide (x ≤ y))) :=
  Ev.bin ha hb (by rw [binop64 hc (by simp) (by simp) hx hy]; rfl)
theorem ge_ev (hc : common s t = .i64) (ha : Ev P G a st (.int s x)) (hb : Ev P G b st (.int t y)) (hx : I64 x) (hy : I64 y) :
    Ev P G (.bin .ge a b) st (truth (decide (x ≥ y))) :=
  Ev.bin ha hb (by rw [binop64 hc (by simp) (by simp) hx hy]; rfl)
theorem eq_ev (hc : common s t = .i64) (ha : Ev P G a st (.int s x)) (hb : Ev P G b st (.int t y)) (hx : I64 x) (hy : I64 y) :
    Ev P G (.bin .eq a b) st (truth (decide (x = y))) :=
  Ev.bin ha hb (by rw [binop64 hc (by simp) (by simp) hx hy]; rfl)

theorem div_ev (hc : common s t = .i64) (ha : Ev P G a st (.int s x)) (hb : Ev P G b st (.int t y)) (hx : I64 x) (h0 : -9223372036854775807 ≤ x)
    (hy : I64 y) (h : cdiv x y = .ok z) : Ev P G (.bin .div a b) st (.int .i64 z) ∧ I64 z := by
  unfold cdiv at h
  split at h
  · simp at h
  · next hy0 =>
    cases h
    have hd : I64 (x.tdiv y) := by
      have := Int.natAbs_tdiv_le_natAbs x y
      unfold I64 at *
      omega
    refine ⟨Ev.bin ha hb ?_, hd⟩
    rw [binop64 hc (by simp) (by simp) hx hy]
    simp only [arith]
    rw [if_neg hy0]
    show (C.i64 _ >>= _) = _
    rw [i64_of hd, ok_bind]

theorem sar_ev {k : Nat} (ha : Ev P G a st (.int .i64 x)) (hx : I64 x) (hk : k < 64) :
    Ev P G (.bin .shr a (.num k)) st (.int .i64 (sar x k)) :=
  Ev.bin ha (num_ev (by omega) rfl) (binop_sar64 k hx hk)

theorem neg_ev (ha : Ev P G a st (.int .i64 x)) (hx : I64 x) (h : C.i64 (-x) = .ok z) : Ev P G (.neg a) st (.int .i64 z) := by
  obtain ⟨N, hN⟩ := ha
  refine ⟨N + 1, fun f hf => ?_⟩
  obtain ⟨g, rfl⟩ := Nat.exists_eq_add_of_le' hf
  show eval P G (g + N + 1) _ st = _
  rw [eval_neg, hN (g + N) (by omega), ok_bind, binop64 rfl (by simp) (by simp) (by unfold I64; omega) hx, arith_sub64, Int.zero_sub, h, ok_bind]

theorem cond_ev {c : Expr} {r : Bool} {v : Val} (hc : Ev P G c st (truth r)) (h : Ev P G (if r then a else b) st v) :
    Ev P G (.cond c a b) st v := by
  obtain ⟨N, hN⟩ := hc
  obtain ⟨N', hN'⟩ := h
  refine ⟨max N N' + 1, fun f hf => ?_⟩
  obtain ⟨g, rfl⟩ := Nat.exists_eq_add_of_le' (show 1 ≤ f by omega)
  have h2 := hN' g (by omega)
  rw [eval_cond, hN g (by omega), ok_bind, test_truth, ok_bind]
  cases r <;> simpa using h2

theorem lor_ev {p q : Bool} (ha : Ev P G a st (truth p)) (hb : p = false → Ev P G b st (truth q)) :
    Ev P G (.lor a b) st (truth (p || q)) := by
  obtain ⟨N, hN⟩ := ha
  cases p with
  | true =>
    refine ⟨N + 1, fun f hf => ?_⟩
    obtain ⟨g, rfl⟩ := Nat.exists_eq_add_of_le' (show 1 ≤ f by omega)
    rw [eval, hN g (by omega), ok_bind, test_truth, ok_bind]
    rfl
  | false =>
    obtain ⟨N', hN'⟩ := hb rfl
    refine ⟨max N N' + 1, fun f hf => ?_⟩
    obtain ⟨g, rfl⟩ := Nat.exists_eq_add_of_le' (show 1 ≤ f by omega)
    rw [eval, hN g (by omega), ok_bind, test_truth, ok_bind, hN' g (by omega)]
    simp only [Bool.false_eq_true, if_false, ok_bind, test_truth, Bool.false_or]

end

/-! ### Statements -/

theorem Rt.brk (st : State) : Rt P G .brk st .brk st := ⟨1, fun f hf => by
  obtain ⟨g, rfl⟩ := Nat.exists_eq_add_of_le' hf
  rw [exec]⟩

theorem Ex.while_brk {c : Expr} {s : Stmt} {st st' : State} (hc : Ev P G c st (truth true)) (h : Rt P G s st .brk st') :
    Ex P G (.while c s) st st' := by
  obtain ⟨N, hN⟩ := hc
  obtain ⟨N', hN'⟩ := h
  refine ⟨max N N' + 1, fun f hf => ?_⟩
  obtain ⟨g, rfl⟩ := Nat.exists_eq_add_of_le' (show 1 ≤ f by omega)
  rw [exec]
  simp only [hN g (by omega), ok_bind, test_truth, if_true, hN' g (by omega)]

theorem forever_ev {st : State} : Ev P G (.num 1) st (truth true) := num_ev (by decide) rfl

/-- `x = e` for a variable of type `int64_t` -/
theorem asg {l : List (Name × Cell)} {x : Name} {e : Expr} {t : Ty} {v : Int} {o : Option Int}
    (he : Ev P G e (E l mem) (.int t v)) (hx : look l x = some (.int .i64 o)) (hv : I64 v) :
    Ex P G (.assign x e) (E l mem) (E (upd l x (lc v)) mem) :=
  Ex.asg he hx (toI64_of hv)

/-- `*m = e` -/
theorem store_ex {l : List (Name × Cell)} {x : Name} {e : Expr} {t : Ty} {v z : Int} {o : Nat} (hx : look l x = some (.ptr o 0 1))
    (hm : mem o = ⟨.i64, #[z]⟩) (he : Ev P G e (E l mem) (.int t v)) (hv : I64 v) :
    Ex P G (.store (.var x) (.num 0) e) (E l mem) (E l (setMem mem o ⟨.i64, #[v]⟩)) := by
  refine Ex.store (Ev.v hx rfl) (num_ev (z := ((0 : Nat) : Int)) (by decide) rfl) he ?_
  rw [storeAt_nat]
  show (wr (mem o).data 0 (conv (mem o).ty v) >>= _) = _
  rw [hm]
  show (wr #[z] 0 (toI64 v) >>= _) = _
  rw [toI64_of hv]
  simp [wr, ok_bind, hm]

/-! ### Functions without loops -/

theorem bind1 {t : Ty} {n : Name} {x : Int} (hx : I64 x) : bindParams [(n, .int .i64)] [.int t x] = .ok (look [(n, lc x)]) := by
  simp only [bindParams, ok_bind, conv_i64, toI64_of hx, look_nil, setEnv_look, upd]

theorem bind2 {s t : Ty} {n k : Name} {x y : Int} (hx : I64 x) (hy : I64 y) (h : n ≠ k) :
    bindParams [(n, .int .i64), (k, .int .i64)] [.int s x, .int t y] = .ok (look [(k, lc y), (n, lc x)]) := by
  simp only [bindParams, ok_bind, conv_i64, toI64_of hx, toI64_of hy, look_nil, setEnv_look, upd, if_neg h]

theorem result64 {t : Ty} {v : Int} (hv : I64 v) : result (some .i64) (some (.int t v)) = .ok (.int .i64 v) := by
  simp only [result, conv_i64, toI64_of hv]

section
variable {e : Expr} {st : State} {x z : Int}

theorem red_rng (h : red x = .ok z) : I64 z := by
  simp only [red, bind_ok] at h
  obtain ⟨y, _, h⟩ := h
  exact i64_rng h

theorem red_ev (hP : P.lookup n!"red" = some Src.red_bounds.red) (he : Ev P G e st (.int .i64 x)) (hx : I64 x) (h : red x = .ok z) :
    Ev P G (.call n!"red" (.cons e .nil)) st (.int .i64 z) := by
  simp only [red, bind_ok] at h
  obtain ⟨y, hy, h⟩ := h
  refine Ev.callv (EvA.cons he (EvA.nil _)) hP rfl (bind1 hx) (v := .int .i64 z) (Rt.left (Rt.ret ?_)) (result64 (i64_rng h))
  exact sub_ev rfl (mul_ev rfl (num_ev (by decide) rfl) (and_ev rfl (Ev.v rfl rfl) (num_ev (by decide) rfl) hx (by decide)) (by decide) (I64_land64 _ _) hy)
    (sar_ev (Ev.v rfl rfl) hx (by decide)) (i64_rng hy) (I64_sar _ hx) h

theorem divd_ev (hP : P.lookup n!"divd" = some Src.red_bounds.divd) (he : Ev P G e st (.int .i64 x)) (hx : I64 x) :
    Ev P G (.call n!"divd" (.cons e .nil)) st (.int .i64 (divd x)) :=
  Ev.callv (EvA.cons he (EvA.nil _)) hP rfl (bind1 hx) (v := .int .i64 (sar x 12)) (Rt.left (Rt.ret (sar_ev (Ev.v rfl rfl) hx (by decide))))
    (result64 (I64_sar _ hx))

theorem remd_ev (hP : P.lookup n!"remd" = some Src.red_bounds.remd) (he : Ev P G e st (.int .i64 x)) (hx : I64 x) :
    Ev P G (.call n!"remd" (.cons e .nil)) st (.int .i64 (remd x)) :=
  Ev.callv (EvA.cons he (EvA.nil _)) hP rfl (bind1 hx) (v := .int .i64 (land64 x 4095))
    (Rt.left (Rt.ret (and_ev rfl (Ev.v rfl rfl) (num_ev (by decide) rfl) hx (by decide)))) (result64 (I64_land64 _ _))

end

theorem dassert_ok {m : M Bool} {u : Unit} : dassert true m = .ok u ↔ m = .ok true := by
  unfold dassert
  simp only [if_true, bind_ok, cassert_ok]
  constructor
  · rintro ⟨b, h, rfl⟩; exact h
  · intro h; exact ⟨true, h, rfl⟩

theorem lmax_ev {e1 e2 : Expr} {st : State} {w x y : Int} (hP : P.lookup n!"lmax" = some Src.red_bounds.lmax) (h1 : Ev P G e1 st (.int .i64 w))
    (h2 : Ev P G e2 st (.int .i64 x)) (hw : I64 w) (hx : I64 x) (h : lmax true w x = .ok y) :
    Ev P G (.call n!"lmax" (.cons e1 (.cons e2 .nil))) st (.int .i64 y) ∧ I64 y := by
  simp only [lmax, bind_ok, pure_ok, dassert_ok] at h
  obtain ⟨z, hz, k, hk, y', hy, _, ⟨u, hu, v, hv, h3⟩, _, ⟨y1, hy1, u1, hu1, v1, hv1, h4⟩, rfl⟩ := h
  have hland := I64_land64 z 4095
  have hl : 0 ≤ land64 z 4095 ∧ land64 z 4095 ≤ 4095 := by
    rw [NttRed.land64_4095]
    omega
  have hb : C.i64 (4095 - land64 z 4095) = .ok (4095 - land64 z 4095) := i64_of (by unfold I64; omega)
  have hyy := i64_rng hy
  have hmul : ∀ {l : List (Name × Cell)} {y z : Int}, look l n!"w" = some (lc w) → look l n!"y" = some (lc y) → I64 y → C.i64 (w * y) = .ok z →
      Ev P G (.bin .mul (.var n!"w") (.var n!"y")) (E l st.mem) (.int .i64 z) := fun hlw hly hy h => mul_ev rfl (Ev.v hlw rfl) (Ev.v hly rfl) hw hy h
  have hmulx : ∀ {l : List (Name × Cell)} {z : Int}, look l n!"w" = some (lc w) → look l n!"x" = some (lc x) → C.i64 (w * x) = .ok z →
      Ev P G (.bin .mul (.var n!"w") (.var n!"x")) (E l st.mem) (.int .i64 z) := fun hlw hly h => mul_ev rfl (Ev.v hlw rfl) (Ev.v hly rfl) hw hx h
  obtain ⟨ek, rk⟩ := div_ev (P := P) (G := G) (st := E [(n!"x", lc x), (n!"w", lc w), (n!"y", .int .i64 none), (n!"k", .int .i64 none)] st.mem)
    (a := .bin .sub (.num 4095) (.bin .and (.bin .mul (.var n!"w") (.var n!"x")) (.num 4095))) (b := .var n!"w") (s := .i64) (t := .i64) rfl
    (sub_ev rfl (num_ev (by decide) rfl) (and_ev rfl (hmulx rfl rfl hz) (num_ev (by decide) rfl) (i64_rng hz) (by decide)) (by decide) hland hb)
    (Ev.v rfl rfl) (i64_rng hb) (by omega) hw hk
  refine ⟨Ev.callv (EvA.cons h1 (EvA.cons h2 (EvA.nil _))) hP rfl (bind2 hw hx (by decide)) (v := .int .i64 y)
    (st' := E [(n!"x", lc x), (n!"w", lc w), (n!"y", lc y), (n!"k", lc k)] st.mem) ?_ (result64 hyy), hyy⟩
  refine Rt.seq (st₁ := E [(n!"x", lc x), (n!"w", lc w), (n!"y", .int .i64 none), (n!"k", .int .i64 none)] st.mem)
      (Ex.mk 2 fun f => by simp only [crun, Nat.reduceEqDiff, reduceIte])
    (Rt.seq (asg ek rfl rk)
    (Rt.seq (asg (add_ev rfl (Ev.v rfl rfl) (Ev.v rfl rfl) hx rk hy) rfl hyy)
    (Rt.seq (Ex.asserts ?_) (Rt.seq (Ex.asserts ?_) (Rt.left (Rt.ret (Ev.v rfl rfl)))))))
  · have h5 : decide (sar u 12 = sar v 12) = true := h3.symm
    rw [← h5]
    exact eq_ev rfl (sar_ev (hmul rfl rfl hyy hu) (i64_rng hu) (by decide)) (sar_ev (hmulx rfl rfl hv) (i64_rng hv) (by decide)) (I64_sar _ (i64_rng hu))
      (I64_sar _ (i64_rng hv))
  · have h5 : decide (sar u1 12 > sar v1 12) = true := h4.symm
    rw [← h5]
    exact gt_ev rfl (sar_ev (mul_ev rfl (Ev.v rfl rfl) (add_ev rfl (Ev.v rfl rfl) (num_ev (by decide) rfl) hyy (by decide) hy1) hw (i64_rng hy1) hu1) (i64_rng hu1) (by decide))
      (sar_ev (hmulx rfl rfl hv1) (i64_rng hv1) (by decide)) (I64_sar _ (i64_rng hu1)) (I64_sar _ (i64_rng hv1))

theorem lmin_ev {e1 e2 : Expr} {st : State} {w x y : Int} (hP : P.lookup n!"lmin" = some Src.red_bounds.lmin) (h1 : Ev P G e1 st (.int .i64 w))
    (h2 : Ev P G e2 st (.int .i64 x)) (hw : I64 w) (hx : I64 x) (h : lmin true w x = .ok y) :
    Ev P G (.call n!"lmin" (.cons e1 (.cons e2 .nil))) st (.int .i64 y) ∧ I64 y := by
  simp only [lmin, bind_ok, pure_ok, dassert_ok] at h
  obtain ⟨z, hz, k, hk, y', hy, _, ⟨u, hu, v, hv, h3⟩, _, ⟨y1, hy1, u1, hu1, v1, hv1, h4⟩, rfl⟩ := h
  have hland := I64_land64 z 4095
  have hl : 0 ≤ land64 z 4095 ∧ land64 z 4095 ≤ 4095 := by
    rw [NttRed.land64_4095]
    omega
  have hyy := i64_rng hy
  have hmul : ∀ {l : List (Name × Cell)} {y z : Int}, look l n!"w" = some (lc w) → look l n!"y" = some (lc y) → I64 y → C.i64 (w * y) = .ok z →
      Ev P G (.bin .mul (.var n!"w") (.var n!"y")) (E l st.mem) (.int .i64 z) := fun hlw hly hy h => mul_ev rfl (Ev.v hlw rfl) (Ev.v hly rfl) hw hy h
  have hmulx : ∀ {l : List (Name × Cell)} {z : Int}, look l n!"w" = some (lc w) → look l n!"x" = some (lc x) → C.i64 (w * x) = .ok z →
      Ev P G (.bin .mul (.var n!"w") (.var n!"x")) (E l st.mem) (.int .i64 z) := fun hlw hly h => mul_ev rfl (Ev.v hlw rfl) (Ev.v hly rfl) hw hx h
  obtain ⟨ek, rk⟩ := div_ev (P := P) (G := G) (st := E [(n!"x", lc x), (n!"w", lc w), (n!"y", .int .i64 none), (n!"k", .int .i64 none)] st.mem)
    (a := .bin .and (.bin .mul (.var n!"w") (.var n!"x")) (.num 4095)) (b := .var n!"w") (s := .i64) (t := .i64) rfl
    (and_ev rfl (hmulx rfl rfl hz) (num_ev (z := 4095) (by decide) rfl) (i64_rng hz) (by decide)) (Ev.v rfl rfl) hland (by omega) hw hk
  refine ⟨Ev.callv (EvA.cons h1 (EvA.cons h2 (EvA.nil _))) hP rfl (bind2 hw hx (by decide)) (v := .int .i64 y)
    (st' := E [(n!"x", lc x), (n!"w", lc w), (n!"y", lc y), (n!"k", lc k)] st.mem) ?_ (result64 hyy), hyy⟩
  refine Rt.seq (st₁ := E [(n!"x", lc x), (n!"w", lc w), (n!"y", .int .i64 none), (n!"k", .int .i64 none)] st.mem)
      (Ex.mk 2 fun f => by simp only [crun, Nat.reduceEqDiff, reduceIte])
    (Rt.seq (asg ek rfl rk)
    (Rt.seq (asg (sub_ev rfl (Ev.v rfl rfl) (Ev.v rfl rfl) hx rk hy) rfl hyy)
    (Rt.seq (Ex.asserts ?_) (Rt.seq (Ex.asserts ?_) (Rt.left (Rt.ret (Ev.v rfl rfl)))))))
  · have h5 : decide (sar u 12 = sar v 12) = true := h3.symm
    rw [← h5]
    exact eq_ev rfl (sar_ev (hmul rfl rfl hyy hu) (i64_rng hu) (by decide)) (sar_ev (hmulx rfl rfl hv) (i64_rng hv) (by decide)) (I64_sar _ (i64_rng hu))
      (I64_sar _ (i64_rng hv))
  · have h5 : decide (sar u1 12 < sar v1 12) = true := h4.symm
    rw [← h5]
    exact lt_ev rfl (sar_ev (mul_ev rfl (Ev.v rfl rfl) (sub_ev rfl (Ev.v rfl rfl) (num_ev (by decide) rfl) hyy (by decide) hy1) hw (i64_rng hy1) hu1) (i64_rng hu1) (by decide))
      (sar_ev (hmulx rfl rfl hv1) (i64_rng hv1) (by decide)) (I64_sar _ (i64_rng hu1)) (I64_sar _ (i64_rng hv1))


/-! ### gcd4096 -/

theorem gcd_ev {e : Expr} {st : State} {w r : Int} (hP : P.lookup n!"gcd4096" = some Src.red_bounds.gcd4096) (he : Ev P G e st (.int .i64 w)) (hw : I64 w)
    (h : gcd4096 w = .ok r) : Ev P G (.call n!"gcd4096" (.cons e .nil)) st (.int .i64 r) ∧ 1 ≤ r ∧ r ≤ 4096 := by
  simp only [gcd4096, bind_ok, pure_ok] at h
  obtain ⟨g, hg, rfl⟩ := h
  obtain ⟨st', hl, hR⟩ := Ex.while_cwhile (P := P) (G := G) (c := .bin .eq (.bin .and (.var n!"w") (.num 1)) (.num 0))
    (s := .seq (.assign n!"g" (.bin .shl (.var n!"g") (.num 1))) (.seq (.assign n!"w" (.bin .shr (.var n!"w") (.num 1))) .skip))
    (fun (s : Int × Int) st' => st' = E [(n!"w", lc s.2), (n!"g", lc s.1)] st.mem ∧ I64 s.1 ∧ 1 ≤ s.1 ∧ I64 s.2)
    (by
      rintro ⟨g, w⟩ st' ⟨rfl, h1, h2, h3⟩
      exact eq_ev rfl (and_ev rfl (Ev.v rfl rfl) (num_ev (by decide) rfl) h3 (by decide)) (num_ev (by decide) rfl) (I64_land64 _ _) (by decide))
    (by
      rintro ⟨g, w⟩ ⟨g', w'⟩ st' ⟨rfl, h1, h2, h3⟩ _ hb
      simp only [bind_ok, pure_ok, Prod.mk.injEq] at hb h1 h2 h3
      obtain ⟨g₁, hg, rfl, rfl⟩ := hb
      have hr := i64_rng hg
      have h2' := hg
      rw [i64_ok] at h2'
      refine ⟨E [(n!"w", lc (sar w 1)), (n!"g", lc g')] st.mem, ?_, rfl, hr, ?_, I64_sar _ h3⟩
      · refine Ex.seq (asg (t := .i64) (Ev.bin (Ev.v rfl rfl) (num_ev (z := ((1 : Nat) : Int)) (by decide) rfl) ?_) rfl hr)
          (Ex.seq (asg (sar_ev (Ev.v rfl rfl) h3 (by decide)) rfl (I64_sar _ h3)) (Ex.skip _))
        simp only [binop, promote, conv_i64, toI64_of h1, conv_i32]
        rw [toI32_of (show I32 ((1 : Nat) : Int) by decide)]
        unfold shift
        rw [if_neg (by simp [width]), if_pos rfl]
        simp only
        rw [if_neg (by omega)]
        show (C.i64 (g * 2 ^ 1) >>= _) = _
        rw [show g * 2 ^ 1 = 2 * g by ring, hg, ok_bind]
      · show 1 ≤ g'
        omega)
    _ (1, w) g (E [(n!"w", lc w), (n!"g", lc 1)] st.mem) ⟨rfl, show I64 1 by decide, show (1 : Int) ≤ 1 by decide, hw⟩ hg
  obtain ⟨rfl, h1, h2, h3⟩ := hR
  have hr : I64 (if g.1 < 4096 then g.1 else 4096) := by
    split
    · exact h1
    · decide
  refine ⟨Ev.callv (EvA.cons he (EvA.nil _)) hP rfl (bind1 hw) (v := if g.1 < 4096 then .int .i64 g.1 else .int .i32 4096)
    (st' := E [(n!"w", lc g.2), (n!"g", lc g.1)] st.mem) ?_ ?_, ?_, ?_⟩
  · refine Rt.seq (st₁ := E [(n!"w", lc w), (n!"g", .int .i64 none)] st.mem) (Ex.mk 1 fun f => by simp only [crun, Nat.reduceEqDiff, reduceIte])
      (Rt.seq (asg (num_ev (by decide) rfl) rfl (by decide)) (Rt.seq hl (Rt.left (Rt.ret (cond_ev
        (lt_ev rfl (Ev.v rfl rfl) (num_ev (z := 4096) (by decide) rfl) h1 (by decide)) ?_)))))
    by_cases hg : g.1 < 4096
    · rw [decide_eq_true hg, if_pos rfl, if_pos hg]
      exact Ev.v rfl rfl
    · rw [decide_eq_false hg, if_neg (by simp), if_neg hg]
      exact num_ev (by decide) rfl
  · by_cases hg : g.1 < 4096
    · rw [if_pos hg, if_pos hg]; exact result64 h1
    · rw [if_neg hg, if_neg hg]; exact result64 (by decide)
  · split <;> omega
  · split <;> omega

/-! ### max_red and min_red -/

theorem bind3 {s t : Ty} {n k m : Name} {x y : Int} {o : Nat} (hx : I64 x) (hy : I64 y) (h : n ≠ k) (h2 : n ≠ m) (h3 : k ≠ m) :
    bindParams [(n, .int .i64), (k, .int .i64), (m, .ptr 1)] [.int s x, .int t y, .ptr o 0 1] =
      .ok (look [(m, .ptr o 0 1), (k, lc y), (n, lc x)]) := by
  simp only [bindParams, ok_bind, conv_i64, toI64_of hx, toI64_of hy, look_nil, setEnv_look, upd, if_neg h, if_neg h2, if_neg h3, if_true]

theorem I64_lor64 (x y : Int) : I64 (lor64 x y) := I64_toI64 _

theorem I64_ite {p : Prop} [Decidable p] {x y : Int} (hx : I64 x) (hy : I64 y) : I64 (if p then x else y) := by
  split
  · exact hx
  · exact hy

theorem max_red_returns {s t : Ty} {a b r m z : Int} {o : Nat} (hR : P.lookup n!"red" = some Src.red_bounds.red)
    (hP : P.lookup n!"max_red" = some Src.red_bounds.max_red) (ha : I64 a) (hb : I64 b) (hm : mem o = ⟨.i64, #[z]⟩) (h : max_red true a b = .ok (r, m)) :
    Returns P G n!"max_red" [.int s a, .int t b, .ptr o 0 1] mem (.int .i64 r) (setMem mem o ⟨.i64, #[m]⟩) := by
  simp only [max_red, bind_ok, pure_ok, dassert_ok, Prod.mk.injEq] at h
  obtain ⟨_, h1, r', hr, rfl, rfl⟩ := h
  have hd := I64_lor64 a 4095
  have hd2 : I64 (if lor64 a 4095 ≤ b then lor64 a 4095 else b) := I64_ite hd hb
  generalize hD : (if lor64 a 4095 ≤ b then lor64 a 4095 else b) = d at hr hd2 ⊢
  refine Returns.mk (st' := E [(n!"m", .ptr o 0 1), (n!"b", lc b), (n!"a", lc a), (n!"d", lc d), (n!"r", lc r)] _) (v := .int .i64 r) hP
    (bind3 ha hb (by decide) (by decide) (by decide)) ?_ (result64 (red_rng hr))
  refine Rt.seq (st₁ := E [(n!"m", .ptr o 0 1), (n!"b", lc b), (n!"a", lc a), (n!"d", .int .i64 none), (n!"r", .int .i64 none)] mem)
      (Ex.mk 2 fun f => by simp only [crun, Nat.reduceEqDiff, reduceIte])
    (Rt.seq (Ex.asserts ?_)
    (Rt.seq (asg (or_ev rfl (Ev.v rfl rfl) (num_ev (z := 4095) (by decide) rfl) ha (by decide)) rfl hd)
    (Rt.seq (asg (t := .i64) (cond_ev (le_ev rfl (Ev.v rfl rfl) (Ev.v rfl rfl) hd hb) ?_) rfl hd2)
    (Rt.seq (asg (red_ev hR (Ev.v rfl rfl) hd2 hr) rfl (red_rng hr))
    (Rt.seq (store_ex rfl hm (Ev.v rfl rfl) hd2) (Rt.left (Rt.ret (Ev.v rfl rfl))))))))
  · have h5 : decide (a ≤ b) = true := h1.symm
    rw [← h5]
    exact le_ev rfl (Ev.v rfl rfl) (Ev.v rfl rfl) ha hb
  · by_cases hc : lor64 a 4095 ≤ b
    · rw [if_pos hc] at hD
      rw [decide_eq_true hc, if_pos rfl, ← hD]; exact Ev.v rfl rfl
    · rw [if_neg hc] at hD
      rw [decide_eq_false hc, if_neg (by simp), ← hD]; exact Ev.v rfl rfl

theorem not_ev {st : State} : Ev P G (.not (.num 4095)) st (.int .i32 (-4096)) := by
  refine Ev.mk 2 fun f => ?_
  rw [eval, eval_num _ _ _ (by decide), ok_bind]
  rfl

theorem min_red_returns {s t : Ty} {a b r m z : Int} {o : Nat} (hR : P.lookup n!"red" = some Src.red_bounds.red)
    (hP : P.lookup n!"min_red" = some Src.red_bounds.min_red) (ha : I64 a) (hb : I64 b) (hm : mem o = ⟨.i64, #[z]⟩) (h : min_red true a b = .ok (r, m)) :
    Returns P G n!"min_red" [.int s a, .int t b, .ptr o 0 1] mem (.int .i64 r) (setMem mem o ⟨.i64, #[m]⟩) := by
  simp only [min_red, bind_ok, pure_ok, dassert_ok, Prod.mk.injEq] at h
  obtain ⟨_, h1, r', hr, hr', hm'⟩ := h
  rw [← hr'] at hr
  rw [hm']
  clear hm'
  have hd := I64_land64 b (-4096)
  have hd2 : I64 (if land64 b (-4096) ≥ a then land64 b (-4096) else a) := I64_ite hd ha
  generalize hD : (if land64 b (-4096) ≥ a then land64 b (-4096) else a) = d at hr hd2 ⊢
  refine Returns.mk (st' := E [(n!"m", .ptr o 0 1), (n!"b", lc b), (n!"a", lc a), (n!"d", lc d), (n!"r", lc r)] _) (v := .int .i64 r) hP
    (bind3 ha hb (by decide) (by decide) (by decide)) ?_ (result64 (red_rng hr))
  refine Rt.seq (st₁ := E [(n!"m", .ptr o 0 1), (n!"b", lc b), (n!"a", lc a), (n!"d", .int .i64 none), (n!"r", .int .i64 none)] mem)
      (Ex.mk 2 fun f => by simp only [crun, Nat.reduceEqDiff, reduceIte])
    (Rt.seq (Ex.asserts ?_)
    (Rt.seq (asg (and_ev rfl (Ev.v rfl rfl) not_ev hb (by decide)) rfl hd)
    (Rt.seq (asg (t := .i64) (cond_ev (ge_ev rfl (Ev.v rfl rfl) (Ev.v rfl rfl) hd ha) ?_) rfl hd2)
    (Rt.seq (asg (red_ev hR (Ev.v rfl rfl) hd2 hr) rfl (red_rng hr))
    (Rt.seq (store_ex rfl hm (Ev.v rfl rfl) hd2) (Rt.left (Rt.ret (Ev.v rfl rfl))))))))
  · have h5 : decide (a ≤ b) = true := h1.symm
    rw [← h5]
    exact le_ev rfl (Ev.v rfl rfl) (Ev.v rfl rfl) ha hb
  · by_cases hc : land64 b (-4096) ≥ a
    · rw [if_pos hc] at hD
      rw [decide_eq_true hc, if_pos rfl, ← hD]; exact Ev.v rfl rfl
    · rw [if_neg hc] at hD
      rw [decide_eq_false hc, if_neg (by simp), ← hD]; exact Ev.v rfl rfl


/-! ### max_red_mul -/

theorem bind4 {s t u : Ty} {a b w : Int} {o : Nat} (ha : I64 a) (hb : I64 b) (hw : I64 w) :
    bindParams [(n!"a", .int .i64), (n!"b", .int .i64), (n!"w", .int .i64), (n!"m", .ptr 1)] [.int s a, .int t b, .int u w, .ptr o 0 1] =
      .ok (look [(n!"m", .ptr o 0 1), (n!"w", lc w), (n!"b", lc b), (n!"a", lc a)]) := by
  simp only [bindParams, ok_bind, conv_i64, toI64_of ha, toI64_of hb, toI64_of hw, look_nil, setEnv_look, upd, Nat.reduceEqDiff, reduceIte]

/-- The functions of the file. -/
structure Funs (P : Prog) : Prop where
  red : P.lookup n!"red" = some Src.red_bounds.red
  divd : P.lookup n!"divd" = some Src.red_bounds.divd
  remd : P.lookup n!"remd" = some Src.red_bounds.remd
  gcd4096 : P.lookup n!"gcd4096" = some Src.red_bounds.gcd4096
  lmax : P.lookup n!"lmax" = some Src.red_bounds.lmax
  lmin : P.lookup n!"lmin" = some Src.red_bounds.lmin

/-- Variables of `max_red_mul`. -/
abbrev mx (o : Nat) (w b a : Int) (pw g h x r x_max r_max : Option Int) : List (Name × Cell) :=
  [(n!"m", .ptr o 0 1), (n!"w", lc w), (n!"b", lc b), (n!"a", lc a), (n!"pw", .int .i64 pw), (n!"g", .int .i64 g), (n!"h", .int .i64 h),
    (n!"x", .int .i64 x), (n!"r", .int .i64 r), (n!"x_max", .int .i64 x_max), (n!"r_max", .int .i64 r_max)]

/-- The body of the loop of `max_red_mul`. -/
abbrev maxBody : Stmt :=
    (.seq (.assign n!"x" (.call n!"lmax" (.cons (.var n!"pw") (.cons (.var n!"x") .nil))))
    (.seq (.ite (.lor (.bin .ge (.var n!"x") (.var n!"b")) (.bin .le (.bin .add (.neg (.call n!"divd" (.cons (.bin .mul (.var n!"pw") (.var n!"x")) .nil))) (.var n!"g")) (.var n!"r_max")))
      .brk
      .skip)
    (.seq (.assign n!"r" (.call n!"red" (.cons (.bin .mul (.var n!"pw") (.var n!"x")) .nil)))
    (.seq (.ite (.bin .gt (.var n!"r") (.var n!"r_max"))
      (.seq (.assign n!"x_max" (.var n!"x"))
      (.seq (.assign n!"r_max" (.var n!"r"))
      (.seq (.ite (.bin .eq (.call n!"remd" (.cons (.bin .mul (.var n!"pw") (.var n!"x")) .nil)) (.var n!"h"))
        (.seq .brk
        .skip)
        .skip)
      .skip)))
      .skip)
    (.seq (.assign n!"x" (.bin .add (.var n!"x") (.num 1)))
    .skip)))))

theorem maxLoop_ex (hF : Funs P) {o : Nat} {w b a pw g h : Int} (hb : I64 b) (hpw : I64 pw) (hg : I64 g) (hh : I64 h) :
    ∀ fuel x x_max r_max (r : Option Int) res, I64 x → I64 x_max → I64 r_max → maxLoop true pw b g h fuel x x_max r_max = .ok res →
      I64 res.1 ∧ I64 res.2 ∧ ∃ x' r', Ex P G (.while (.num 1) maxBody) (E (mx o w b a (some pw) (some g) (some h) (some x) r (some x_max) (some r_max)) mem)
        (E (mx o w b a (some pw) (some g) (some h) x' r' (some res.1) (some res.2)) mem) := by
  intro fuel
  induction fuel with
  | zero => intro x x_max r_max r res _ _ _ h; simp [maxLoop] at h
  | succ fuel ih =>
    intro x x_max r_max r res hx hxm hrm hl
    rw [maxLoop] at hl
    simp only [bind_ok] at hl
    obtain ⟨x₁, h1, hl⟩ := hl
    obtain ⟨e1, hx₁⟩ := lmax_ev (P := P) (G := G) (st := E (mx o w b a (some pw) (some g) (some h) (some x) r (some x_max) (some r_max)) mem)
      (e1 := .var n!"pw") (e2 := .var n!"x") hF.lmax (Ev.v rfl rfl) (Ev.v rfl rfl) hpw hx h1
    have hge : Ev P G (.bin .ge (.var n!"x") (.var n!"b")) (E (mx o w b a (some pw) (some g) (some h) (some x₁) r (some x_max) (some r_max)) mem)
        (truth (decide (x₁ ≥ b))) := ge_ev rfl (Ev.v rfl rfl) (Ev.v rfl rfl) hx₁ hb
    by_cases h2 : x₁ ≥ b
    · rw [if_pos h2] at hl
      cases hl
      refine ⟨hxm, hrm, some x₁, r, Ex.while_brk forever_ev (Rt.seq (asg e1 rfl hx₁) (Rt.left (Rt.ite (lor_ev (q := true) hge ?_) ?_)))⟩
      · rw [decide_eq_true h2]; simp
      · rw [Bool.or_true, if_pos rfl]; exact Rt.brk _
    · rw [if_neg h2] at hl
      simp only [bind_ok] at hl
      obtain ⟨z, hz, e, he, e', he', hl⟩ := hl
      have hmul : ∀ {l : List (Name × Cell)}, look l n!"pw" = some (lc pw) → look l n!"x" = some (lc x₁) →
          Ev P G (.bin .mul (.var n!"pw") (.var n!"x")) (E l mem) (.int .i64 z) := fun h1 h2 => mul_ev rfl (Ev.v h1 rfl) (Ev.v h2 rfl) hpw hx₁ hz
      have hle : Ev P G (.bin .le (.bin .add (.neg (.call n!"divd" (.cons (.bin .mul (.var n!"pw") (.var n!"x")) .nil))) (.var n!"g")) (.var n!"r_max"))
          (E (mx o w b a (some pw) (some g) (some h) (some x₁) r (some x_max) (some r_max)) mem) (truth (decide (e' ≤ r_max))) :=
        le_ev rfl (add_ev rfl (neg_ev (divd_ev hF.divd (hmul rfl rfl) (i64_rng hz)) (I64_sar _ (i64_rng hz)) he) (Ev.v rfl rfl) (i64_rng he) hg he')
          (Ev.v rfl rfl) (i64_rng he') hrm
      have hlor := lor_ev hge fun _ => hle
      rw [decide_eq_false h2, Bool.false_or] at hlor
      by_cases h3 : e' ≤ r_max
      · rw [if_pos h3] at hl
        cases hl
        rw [decide_eq_true h3] at hlor
        refine ⟨hxm, hrm, some x₁, r, Ex.while_brk forever_ev (Rt.seq (asg e1 rfl hx₁) (Rt.left (Rt.ite hlor ?_)))⟩
        rw [if_pos rfl]; exact Rt.brk _
      · rw [if_neg h3] at hl
        rw [decide_eq_false h3] at hlor
        simp only [bind_ok, hz, Except.ok.injEq] at hl
        obtain ⟨_, rfl, ρ, hr, hl⟩ := hl
        have hρ := red_rng hr
        have s1 : Ex P G (.ite (.lor (.bin .ge (.var n!"x") (.var n!"b")) (.bin .le (.bin .add (.neg (.call n!"divd" (.cons (.bin .mul (.var n!"pw") (.var n!"x")) .nil))) (.var n!"g")) (.var n!"r_max")))
            .brk .skip) (E (mx o w b a (some pw) (some g) (some h) (some x₁) r (some x_max) (some r_max)) mem)
            (E (mx o w b a (some pw) (some g) (some h) (some x₁) r (some x_max) (some r_max)) mem) := Ex.ite hlor (by rw [if_neg (by simp)]; exact Ex.skip _)
        have s2 : Ex P G (.assign n!"r" (.call n!"red" (.cons (.bin .mul (.var n!"pw") (.var n!"x")) .nil)))
            (E (mx o w b a (some pw) (some g) (some h) (some x₁) r (some x_max) (some r_max)) mem)
            (E (mx o w b a (some pw) (some g) (some h) (some x₁) (some ρ) (some x_max) (some r_max)) mem) :=
          asg (red_ev hF.red (hmul rfl rfl) (i64_rng hz) hr) rfl hρ
        have hgt : Ev P G (.bin .gt (.var n!"r") (.var n!"r_max")) (E (mx o w b a (some pw) (some g) (some h) (some x₁) (some ρ) (some x_max) (some r_max)) mem)
          (truth (decide (ρ > r_max))) := gt_ev rfl (Ev.v rfl rfl) (Ev.v rfl rfl) hρ hrm
        by_cases h4 : ρ > r_max
        · rw [if_pos h4] at hl
          rw [decide_eq_true h4] at hgt
          simp only [bind_ok, hz, Except.ok.injEq] at hl
          obtain ⟨_, rfl, hl⟩ := hl
          have s3 : Ex P G (.assign n!"x_max" (.var n!"x")) (E (mx o w b a (some pw) (some g) (some h) (some x₁) (some ρ) (some x_max) (some r_max)) mem)
              (E (mx o w b a (some pw) (some g) (some h) (some x₁) (some ρ) (some x₁) (some r_max)) mem) := asg (Ev.v rfl rfl) rfl hx₁
          have s4 : Ex P G (.assign n!"r_max" (.var n!"r")) (E (mx o w b a (some pw) (some g) (some h) (some x₁) (some ρ) (some x₁) (some r_max)) mem)
              (E (mx o w b a (some pw) (some g) (some h) (some x₁) (some ρ) (some x₁) (some ρ)) mem) := asg (Ev.v rfl rfl) rfl hρ
          have hq : Ev P G (.bin .eq (.call n!"remd" (.cons (.bin .mul (.var n!"pw") (.var n!"x")) .nil)) (.var n!"h"))
              (E (mx o w b a (some pw) (some g) (some h) (some x₁) (some ρ) (some x₁) (some ρ)) mem) (truth (decide (remd z = h))) :=
            eq_ev rfl (remd_ev hF.remd (hmul rfl rfl) (i64_rng hz)) (Ev.v rfl rfl) (I64_land64 _ _) hh
          by_cases h5 : remd z = h
          · rw [if_pos h5] at hl
            cases hl
            rw [decide_eq_true h5] at hq
            refine ⟨hx₁, hρ, some x₁, some ρ, Ex.while_brk forever_ev (Rt.seq (asg e1 rfl hx₁) (Rt.seq s1 (Rt.seq s2 (Rt.left (Rt.ite hgt ?_)))))⟩
            rw [if_pos rfl]
            refine Rt.seq s3 (Rt.seq s4 (Rt.left (Rt.ite hq ?_)))
            rw [if_pos rfl]
            exact Rt.left (Rt.brk _)
          · rw [if_neg h5] at hl
            rw [decide_eq_false h5] at hq
            simp only [bind_ok] at hl
            obtain ⟨x₂, hx2, hl⟩ := hl
            obtain ⟨r1, r2, x', r', hex⟩ := ih x₂ x₁ ρ (some ρ) res (i64_rng hx2) hx₁ hρ hl
            refine ⟨r1, r2, x', r', Ex.while_true forever_ev (Ex.seq (asg e1 rfl hx₁) (Ex.seq s1 (Ex.seq s2 (Ex.seq (st₁ := E (mx o w b a (some pw) (some g) (some h) (some x₁) (some ρ) (some x₁) (some ρ)) mem) (Ex.ite hgt ?_)
              (Ex.seq (asg (add_ev rfl (Ev.v rfl rfl) (num_ev (by decide) rfl) hx₁ (by decide) hx2) rfl (i64_rng hx2)) (Ex.skip _)))))) hex⟩
            rw [if_pos rfl]
            refine Ex.seq s3 (Ex.seq s4 (Ex.seq (Ex.ite hq ?_) (Ex.skip _)))
            rw [if_neg (by simp)]
            exact Ex.skip _
        · rw [if_neg h4] at hl
          rw [decide_eq_false h4] at hgt
          simp only [bind_ok] at hl
          obtain ⟨x₂, hx2, hl⟩ := hl
          obtain ⟨r1, r2, x', r', hex⟩ := ih x₂ x_max r_max (some ρ) res (i64_rng hx2) hxm hrm hl
          refine ⟨r1, r2, x', r', Ex.while_true forever_ev (Ex.seq (asg e1 rfl hx₁) (Ex.seq s1 (Ex.seq s2 (Ex.seq (st₁ := E (mx o w b a (some pw) (some g) (some h) (some x₁) (some ρ) (some x_max) (some r_max)) mem) (Ex.ite hgt ?_)
            (Ex.seq (asg (add_ev rfl (Ev.v rfl rfl) (num_ev (by decide) rfl) hx₁ (by decide) hx2) rfl (i64_rng hx2)) (Ex.skip _)))))) hex⟩
          rw [if_neg (by simp)]
          exact Ex.skip _

/-- The change of sign at the start of `max_red_mul` and `min_red_mul`. -/
abbrev absStmt : Stmt :=
  (.ite (.bin .lt (.var n!"w") (.num 0))
    (.seq (.assign n!"x" (.neg (.var n!"a")))
    (.seq (.assign n!"a" (.neg (.var n!"b")))
    (.seq (.assign n!"b" (.var n!"x"))
    (.seq (.assign n!"pw" (.neg (.var n!"w")))
    .skip))))
    .skip)

theorem max_red_mul_returns (hF : Funs P) {s t u : Ty} {a b w r m z : Int} {o : Nat} (hP : P.lookup n!"max_red_mul" = some Src.red_bounds.max_red_mul)
    (ha : I64 a) (hb : I64 b) (hw : I64 w) (hm : mem o = ⟨.i64, #[z]⟩) (h : max_red_mul true a b w = .ok (r, m)) :
    Returns P G n!"max_red_mul" [.int s a, .int t b, .int u w, .ptr o 0 1] mem (.int .i64 r) (setMem mem o ⟨.i64, #[m]⟩) := by
  simp only [max_red_mul, bind_ok, pure_ok, dassert_ok, Prod.mk.injEq] at h
  obtain ⟨_, h1, ⟨a', b', pw⟩, habs, y, hy, r₀, hr₀, g, hg, res, hres, x', hx', rfl, rfl⟩ := h
  simp only at hy hr₀ hres
  have hlt : ∀ {l : List (Name × Cell)} {mem : Nat → Obj}, look l n!"w" = some (lc w) →
      Ev P G (.bin .lt (.var n!"w") (.num 0)) (E l mem) (truth (decide (w < 0))) :=
    fun h => lt_ev rfl (Ev.v h rfl) (num_ev (by decide) rfl) hw (by decide)
  have habs' : ∃ x₀, I64 a' ∧ I64 b' ∧ I64 pw ∧ Ex P G absStmt (E (mx o w b a (some w) none none none none none none) mem)
      (E (mx o w b' a' (some pw) none none x₀ none none none) mem) := by
    unfold absArgs at habs
    by_cases h0 : w < 0
    · rw [if_pos h0] at habs
      simp only [bind_ok, pure_ok, Prod.mk.injEq] at habs
      obtain ⟨x, hx, a₁, ha₁, p, hp, rfl, rfl, rfl⟩ := habs
      refine ⟨some b', i64_rng ha₁, i64_rng hx, i64_rng hp, Ex.ite (hlt rfl) ?_⟩
      rw [decide_eq_true h0, if_pos rfl]
      exact Ex.seq (asg (neg_ev (Ev.v rfl rfl) ha hx) rfl (i64_rng hx)) (Ex.seq (asg (neg_ev (Ev.v rfl rfl) hb ha₁) rfl (i64_rng ha₁))
        (Ex.seq (asg (Ev.v rfl rfl) rfl (i64_rng hx)) (Ex.seq (asg (neg_ev (Ev.v rfl rfl) hw hp) rfl (i64_rng hp)) (Ex.skip _))))
    · rw [if_neg h0] at habs
      cases habs
      refine ⟨none, ha, hb, hw, Ex.ite (hlt rfl) ?_⟩
      rw [decide_eq_false h0, if_neg (by simp)]
      exact Ex.skip _
  obtain ⟨x₀, ha', hb', hpw, eabs⟩ := habs'
  have hh : I64 (4096 - g) ∧ I64 (3 * (4096 - g)) := by
    have := (gcd_ev (P := P) (G := G) (st := E (mx o w b' a' (some pw) none none x₀ none (some b') (some r₀)) mem) (e := .var n!"w") hF.gcd4096
      (Ev.v rfl rfl) hw hg).2
    unfold I64
    omega
  obtain ⟨rx, rr, x₁, r₁, hex⟩ := maxLoop_ex (P := P) (G := G) (mem := mem) (o := o) (w := w) (a := a') hF hb' hpw hh.2 hh.1 _ a' b' r₀ none res ha' hb'
    (red_rng hr₀) hres
  have hx64 : I64 m := by
    split at hx'
    · exact i64_rng hx'
    · cases hx'; exact rx
  refine Returns.mk (st' := E (mx o w b' a' (some pw) (some (3 * (4096 - g))) (some (4096 - g)) x₁ r₁ (some m) (some res.2)) _) (v := .int .i64 res.2) hP
    (bind4 ha hb hw) ?_ (result64 rr)
  refine Rt.seq (st₁ := E (mx o w b a none none none none none none none) mem) (Ex.mk 7 fun f => by simp only [crun, Nat.reduceEqDiff, reduceIte])
    (Rt.seq (Ex.asserts ?_)
    (Rt.seq (asg (Ev.v rfl rfl) rfl hw)
    (Rt.seq eabs
    (Rt.seq (asg (Ev.v rfl rfl) rfl hb')
    (Rt.seq (asg (red_ev hF.red (mul_ev rfl (Ev.v rfl rfl) (Ev.v rfl rfl) hpw hb' hy) (i64_rng hy) hr₀) rfl (red_rng hr₀))
    (Rt.seq (asg (sub_ev rfl (num_ev (z := 4096) (by decide) rfl) (gcd_ev hF.gcd4096 (Ev.v rfl rfl) hw hg).1 (by decide) ?_ (i64_of hh.1)) rfl hh.1)
    (Rt.seq (asg (mul_ev rfl (num_ev (z := 3) (by decide) rfl) (Ev.v rfl rfl) (by decide) hh.1 (i64_of hh.2)) rfl hh.2)
    (Rt.seq (asg (Ev.v rfl rfl) rfl ha')
    (Rt.seq hex
    (Rt.seq (st₁ := E (mx o w b' a' (some pw) (some (3 * (4096 - g))) (some (4096 - g)) x₁ r₁ (some m) (some res.2)) mem) (Ex.ite (hlt rfl) ?_)
    (Rt.seq (store_ex rfl hm (Ev.v rfl rfl) hx64) (Rt.left (Rt.ret (Ev.v rfl rfl))))))))))))))
  · have h5 : decide (a ≤ b) = true := h1.symm
    rw [← h5]
    exact le_ev rfl (Ev.v rfl rfl) (Ev.v rfl rfl) ha hb
  · have := hh.1
    unfold I64 at *
    omega
  · by_cases h0 : w < 0
    · rw [decide_eq_true h0, if_pos rfl]
      rw [if_pos h0] at hx'
      exact asg (neg_ev (Ev.v rfl rfl) rx hx') rfl hx64
    · rw [decide_eq_false h0, if_neg (by simp)]
      rw [if_neg h0] at hx'
      cases hx'
      exact Ex.skip _

/-! ### min_red_mul -/

/-- Variables of `min_red_mul`. -/
abbrev mn (o : Nat) (w b a : Int) (pw x r x_min r_min : Option Int) : List (Name × Cell) :=
  [(n!"m", .ptr o 0 1), (n!"w", lc w), (n!"b", lc b), (n!"a", lc a), (n!"pw", .int .i64 pw), (n!"x", .int .i64 x), (n!"r", .int .i64 r), (n!"x_min", .int .i64 x_min), (n!"r_min", .int .i64 r_min)]

/-- The body of the loop of `min_red_mul`. -/
abbrev minBody : Stmt :=
    (.seq (.assign n!"x" (.call n!"lmin" (.cons (.var n!"pw") (.cons (.var n!"x") .nil))))
    (.seq (.ite (.lor (.bin .le (.var n!"x") (.var n!"a")) (.bin .ge (.neg (.call n!"divd" (.cons (.bin .mul (.var n!"pw") (.var n!"x")) .nil))) (.var n!"r_min")))
      .brk
      .skip)
    (.seq (.assign n!"r" (.call n!"red" (.cons (.bin .mul (.var n!"pw") (.var n!"x")) .nil)))
    (.seq (.ite (.bin .lt (.var n!"r") (.var n!"r_min"))
      (.seq (.assign n!"x_min" (.var n!"x"))
      (.seq (.assign n!"r_min" (.var n!"r"))
      (.seq (.ite (.bin .eq (.call n!"remd" (.cons (.bin .mul (.var n!"pw") (.var n!"x")) .nil)) (.num 0))
        (.seq .brk
        .skip)
        .skip)
      .skip)))
      .skip)
    (.seq (.assign n!"x" (.bin .sub (.var n!"x") (.num 1)))
    .skip)))))

theorem minLoop_ex (hF : Funs P) {o : Nat} {w b a pw : Int} (ha : I64 a) (hpw : I64 pw) :
    ∀ fuel x x_min r_min (r : Option Int) res, I64 x → I64 x_min → I64 r_min → minLoop true pw a fuel x x_min r_min = .ok res →
      I64 res.1 ∧ I64 res.2 ∧ ∃ x' r', Ex P G (.while (.num 1) minBody) (E (mn o w b a (some pw) (some x) r (some x_min) (some r_min)) mem)
        (E (mn o w b a (some pw) x' r' (some res.1) (some res.2)) mem) := by
  intro fuel
  induction fuel with
  | zero => intro x x_min r_min r res _ _ _ h; simp [minLoop] at h
  | succ fuel ih =>
    intro x x_min r_min r res hx hxm hrm hl
    rw [minLoop] at hl
    simp only [bind_ok] at hl
    obtain ⟨x₁, h1, hl⟩ := hl
    obtain ⟨e1, hx₁⟩ := lmin_ev (P := P) (G := G) (st := E (mn o w b a (some pw) (some x) r (some x_min) (some r_min)) mem)
      (e1 := .var n!"pw") (e2 := .var n!"x") hF.lmin (Ev.v rfl rfl) (Ev.v rfl rfl) hpw hx h1
    have hge : Ev P G (.bin .le (.var n!"x") (.var n!"a")) (E (mn o w b a (some pw) (some x₁) r (some x_min) (some r_min)) mem)
        (truth (decide (x₁ ≤ a))) := le_ev rfl (Ev.v rfl rfl) (Ev.v rfl rfl) hx₁ ha
    by_cases h2 : x₁ ≤ a
    · rw [if_pos h2] at hl
      cases hl
      refine ⟨hxm, hrm, some x₁, r, Ex.while_brk forever_ev (Rt.seq (asg e1 rfl hx₁) (Rt.left (Rt.ite (lor_ev (q := true) hge ?_) ?_)))⟩
      · rw [decide_eq_true h2]; simp
      · rw [Bool.or_true, if_pos rfl]; exact Rt.brk _
    · rw [if_neg h2] at hl
      simp only [bind_ok] at hl
      obtain ⟨z, hz, e', he, hl⟩ := hl
      have hmul : ∀ {l : List (Name × Cell)}, look l n!"pw" = some (lc pw) → look l n!"x" = some (lc x₁) →
          Ev P G (.bin .mul (.var n!"pw") (.var n!"x")) (E l mem) (.int .i64 z) := fun h1 h2 => mul_ev rfl (Ev.v h1 rfl) (Ev.v h2 rfl) hpw hx₁ hz
      have hle : Ev P G (.bin .ge (.neg (.call n!"divd" (.cons (.bin .mul (.var n!"pw") (.var n!"x")) .nil))) (.var n!"r_min"))
          (E (mn o w b a (some pw) (some x₁) r (some x_min) (some r_min)) mem) (truth (decide (e' ≥ r_min))) :=
        ge_ev rfl (neg_ev (divd_ev hF.divd (hmul rfl rfl) (i64_rng hz)) (I64_sar _ (i64_rng hz)) he) (Ev.v rfl rfl) (i64_rng he) hrm
      have hlor := lor_ev hge fun _ => hle
      rw [decide_eq_false h2, Bool.false_or] at hlor
      by_cases h3 : e' ≥ r_min
      · rw [if_pos h3] at hl
        cases hl
        rw [decide_eq_true h3] at hlor
        refine ⟨hxm, hrm, some x₁, r, Ex.while_brk forever_ev (Rt.seq (asg e1 rfl hx₁) (Rt.left (Rt.ite hlor ?_)))⟩
        rw [if_pos rfl]; exact Rt.brk _
      · rw [if_neg h3] at hl
        rw [decide_eq_false h3] at hlor
        simp only [bind_ok, hz, Except.ok.injEq] at hl
        obtain ⟨_, rfl, ρ, hr, hl⟩ := hl
        have hρ := red_rng hr
        have s1 : Ex P G (.ite (.lor (.bin .le (.var n!"x") (.var n!"a")) (.bin .ge (.neg (.call n!"divd" (.cons (.bin .mul (.var n!"pw") (.var n!"x")) .nil))) (.var n!"r_min")))
            .brk .skip) (E (mn o w b a (some pw) (some x₁) r (some x_min) (some r_min)) mem)
            (E (mn o w b a (some pw) (some x₁) r (some x_min) (some r_min)) mem) := Ex.ite hlor (by rw [if_neg (by simp)]; exact Ex.skip _)
        have s2 : Ex P G (.assign n!"r" (.call n!"red" (.cons (.bin .mul (.var n!"pw") (.var n!"x")) .nil)))
            (E (mn o w b a (some pw) (some x₁) r (some x_min) (some r_min)) mem)
            (E (mn o w b a (some pw) (some x₁) (some ρ) (some x_min) (some r_min)) mem) :=
          asg (red_ev hF.red (hmul rfl rfl) (i64_rng hz) hr) rfl hρ
        have hgt : Ev P G (.bin .lt (.var n!"r") (.var n!"r_min")) (E (mn o w b a (some pw) (some x₁) (some ρ) (some x_min) (some r_min)) mem)
          (truth (decide (ρ < r_min))) := lt_ev rfl (Ev.v rfl rfl) (Ev.v rfl rfl) hρ hrm
        by_cases h4 : ρ < r_min
        · rw [if_pos h4] at hl
          rw [decide_eq_true h4] at hgt
          simp only [bind_ok, hz, Except.ok.injEq] at hl
          obtain ⟨_, rfl, hl⟩ := hl
          have s3 : Ex P G (.assign n!"x_min" (.var n!"x")) (E (mn o w b a (some pw) (some x₁) (some ρ) (some x_min) (some r_min)) mem)
              (E (mn o w b a (some pw) (some x₁) (some ρ) (some x₁) (some r_min)) mem) := asg (Ev.v rfl rfl) rfl hx₁
          have s4 : Ex P G (.assign n!"r_min" (.var n!"r")) (E (mn o w b a (some pw) (some x₁) (some ρ) (some x₁) (some r_min)) mem)
              (E (mn o w b a (some pw) (some x₁) (some ρ) (some x₁) (some ρ)) mem) := asg (Ev.v rfl rfl) rfl hρ
          have hq : Ev P G (.bin .eq (.call n!"remd" (.cons (.bin .mul (.var n!"pw") (.var n!"x")) .nil)) (.num 0))
              (E (mn o w b a (some pw) (some x₁) (some ρ) (some x₁) (some ρ)) mem) (truth (decide (remd z = 0))) :=
            eq_ev rfl (remd_ev hF.remd (hmul rfl rfl) (i64_rng hz)) (num_ev (z := 0) (by decide) rfl) (I64_land64 _ _) (by decide)
          by_cases h5 : remd z = 0
          · rw [if_pos h5] at hl
            cases hl
            rw [decide_eq_true h5] at hq
            refine ⟨hx₁, hρ, some x₁, some ρ, Ex.while_brk forever_ev (Rt.seq (asg e1 rfl hx₁) (Rt.seq s1 (Rt.seq s2 (Rt.left (Rt.ite hgt ?_)))))⟩
            rw [if_pos rfl]
            refine Rt.seq s3 (Rt.seq s4 (Rt.left (Rt.ite hq ?_)))
            rw [if_pos rfl]
            exact Rt.left (Rt.brk _)
          · rw [if_neg h5] at hl
            rw [decide_eq_false h5] at hq
            simp only [bind_ok] at hl
            obtain ⟨x₂, hx2, hl⟩ := hl
            obtain ⟨r1, r2, x', r', hex⟩ := ih x₂ x₁ ρ (some ρ) res (i64_rng hx2) hx₁ hρ hl
            refine ⟨r1, r2, x', r', Ex.while_true forever_ev (Ex.seq (asg e1 rfl hx₁) (Ex.seq s1 (Ex.seq s2 (Ex.seq (st₁ := E (mn o w b a (some pw) (some x₁) (some ρ) (some x₁) (some ρ)) mem) (Ex.ite hgt ?_)
              (Ex.seq (asg (sub_ev rfl (Ev.v rfl rfl) (num_ev (by decide) rfl) hx₁ (by decide) hx2) rfl (i64_rng hx2)) (Ex.skip _)))))) hex⟩
            rw [if_pos rfl]
            refine Ex.seq s3 (Ex.seq s4 (Ex.seq (Ex.ite hq ?_) (Ex.skip _)))
            rw [if_neg (by simp)]
            exact Ex.skip _
        · rw [if_neg h4] at hl
          rw [decide_eq_false h4] at hgt
          simp only [bind_ok] at hl
          obtain ⟨x₂, hx2, hl⟩ := hl
          obtain ⟨r1, r2, x', r', hex⟩ := ih x₂ x_min r_min (some ρ) res (i64_rng hx2) hxm hrm hl
          refine ⟨r1, r2, x', r', Ex.while_true forever_ev (Ex.seq (asg e1 rfl hx₁) (Ex.seq s1 (Ex.seq s2 (Ex.seq (st₁ := E (mn o w b a (some pw) (some x₁) (some ρ) (some x_min) (some r_min)) mem) (Ex.ite hgt ?_)
            (Ex.seq (asg (sub_ev rfl (Ev.v rfl rfl) (num_ev (by decide) rfl) hx₁ (by decide) hx2) rfl (i64_rng hx2)) (Ex.skip _)))))) hex⟩
          rw [if_neg (by simp)]
          exact Ex.skip _

theorem min_red_mul_returns (hF : Funs P) {s t u : Ty} {a b w r m z : Int} {o : Nat} (hP : P.lookup n!"min_red_mul" = some Src.red_bounds.min_red_mul)
    (ha : I64 a) (hb : I64 b) (hw : I64 w) (hm : mem o = ⟨.i64, #[z]⟩) (h : min_red_mul true a b w = .ok (r, m)) :
    Returns P G n!"min_red_mul" [.int s a, .int t b, .int u w, .ptr o 0 1] mem (.int .i64 r) (setMem mem o ⟨.i64, #[m]⟩) := by
  simp only [min_red_mul, bind_ok, pure_ok, dassert_ok, Prod.mk.injEq] at h
  obtain ⟨_, h1, ⟨a', b', pw⟩, habs, y, hy, r₀, hr₀, res, hres, x', hx', rfl, rfl⟩ := h
  simp only at hy hr₀ hres
  have hlt : ∀ {l : List (Name × Cell)} {mem : Nat → Obj}, look l n!"w" = some (lc w) →
      Ev P G (.bin .lt (.var n!"w") (.num 0)) (E l mem) (truth (decide (w < 0))) :=
    fun h => lt_ev rfl (Ev.v h rfl) (num_ev (by decide) rfl) hw (by decide)
  have habs' : ∃ x₀, I64 a' ∧ I64 b' ∧ I64 pw ∧ Ex P G absStmt (E (mn o w b a (some w) none none none none) mem)
      (E (mn o w b' a' (some pw) x₀ none none none) mem) := by
    unfold absArgs at habs
    by_cases h0 : w < 0
    · rw [if_pos h0] at habs
      simp only [bind_ok, pure_ok, Prod.mk.injEq] at habs
      obtain ⟨x, hx, a₁, ha₁, p, hp, rfl, rfl, rfl⟩ := habs
      refine ⟨some b', i64_rng ha₁, i64_rng hx, i64_rng hp, Ex.ite (hlt rfl) ?_⟩
      rw [decide_eq_true h0, if_pos rfl]
      exact Ex.seq (asg (neg_ev (Ev.v rfl rfl) ha hx) rfl (i64_rng hx)) (Ex.seq (asg (neg_ev (Ev.v rfl rfl) hb ha₁) rfl (i64_rng ha₁))
        (Ex.seq (asg (Ev.v rfl rfl) rfl (i64_rng hx)) (Ex.seq (asg (neg_ev (Ev.v rfl rfl) hw hp) rfl (i64_rng hp)) (Ex.skip _))))
    · rw [if_neg h0] at habs
      cases habs
      refine ⟨none, ha, hb, hw, Ex.ite (hlt rfl) ?_⟩
      rw [decide_eq_false h0, if_neg (by simp)]
      exact Ex.skip _
  obtain ⟨x₀, ha', hb', hpw, eabs⟩ := habs'
  obtain ⟨rx, rr, x₁, r₁, hex⟩ := minLoop_ex (P := P) (G := G) (mem := mem) (o := o) (w := w) (b := b') hF ha' hpw _ b' a' r₀ none res hb' ha'
    (red_rng hr₀) hres
  have hx64 : I64 m := by
    split at hx'
    · exact i64_rng hx'
    · cases hx'; exact rx
  refine Returns.mk (st' := E (mn o w b' a' (some pw) x₁ r₁ (some m) (some res.2)) _) (v := .int .i64 res.2) hP
    (bind4 ha hb hw) ?_ (result64 rr)
  refine Rt.seq (st₁ := E (mn o w b a none none none none none) mem) (Ex.mk 5 fun f => by simp only [crun, Nat.reduceEqDiff, reduceIte])
    (Rt.seq (Ex.asserts ?_)
    (Rt.seq (asg (Ev.v rfl rfl) rfl hw)
    (Rt.seq eabs
    (Rt.seq (asg (Ev.v rfl rfl) rfl ha')
    (Rt.seq (asg (red_ev hF.red (mul_ev rfl (Ev.v rfl rfl) (Ev.v rfl rfl) hpw ha' hy) (i64_rng hy) hr₀) rfl (red_rng hr₀))
    (Rt.seq (asg (Ev.v rfl rfl) rfl hb')
    (Rt.seq hex
    (Rt.seq (st₁ := E (mn o w b' a' (some pw) x₁ r₁ (some m) (some res.2)) mem) (Ex.ite (hlt rfl) ?_)
    (Rt.seq (store_ex rfl hm (Ev.v rfl rfl) hx64) (Rt.left (Rt.ret (Ev.v rfl rfl))))))))))))
  · have h5 : decide (a ≤ b) = true := h1.symm
    rw [← h5]
    exact le_ev rfl (Ev.v rfl rfl) (Ev.v rfl rfl) ha hb
  · by_cases h0 : w < 0
    · rw [decide_eq_true h0, if_pos rfl]
      rw [if_pos h0] at hx'
      exact asg (neg_ev (Ev.v rfl rfl) rx hx') rfl hx64
    · rw [decide_eq_false h0, if_neg (by simp)]
      rw [if_neg h0] at hx'
      cases hx'
      exact Ex.skip _

end CLang.RedB
