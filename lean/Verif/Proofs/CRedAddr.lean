import Verif.SpecSourceBounds
import Verif.Proofs.CRedBounds
import Verif.Props.RedBounds

/-
The functions of src/red_bounds.c that take addresses of their variables, as read from the text, do what the model says.
-/

namespace CLang.RedB
open C CLang RedBounds

set_option linter.unusedSimpArgs false

variable {P : Prog} {G : Name → Option Cell} {mem : Nat → Obj}

/-! ### Calls with addresses of variables -/

theorem ReturnsAt.of {sp : Nat} {g : Name} {vs : List Val} {mem' : Nat → Obj} {v : Val} {fn : Fun} (hg : P.lookup g = some fn) (hn : fn.body.addr = false)
    (h : Returns P G g vs mem v mem') : ReturnsAt P G sp g vs mem v mem' := by
  obtain ⟨N, hN⟩ := h
  refine ⟨N, fun f hf => ?_⟩
  have h := hN f hf
  unfold callValue at h
  unfold callValueAt
  rw [hg] at h ⊢
  simp only [withStack, hn, Bool.false_eq_true, if_false]
  exact h

theorem ReturnsAt.mk {sp : Nat} {g : Name} {vs : List Val} {fn : Fun} {env : Name → Option Cell} {st' : State} {v w : Val}
    (hg : P.lookup g = some fn) (ha : fn.body.addr = true) (hb : bindParams fn.params vs = .ok env)
    (hr : Rt P G fn.body ⟨setEnv env 0 (.ptr sp 0 1), mem⟩ v st') (hv : result fn.ret (some v) = .ok w) : ReturnsAt P G sp g vs mem w st'.mem := by
  obtain ⟨N, hN⟩ := hr
  refine ⟨N, fun f hf => ?_⟩
  simp only [callValueAt, hg, hb, ok_bind, withStack, ha, if_true, hN f hf, hv]

theorem ReturnsAt.range {sp : Nat} {g : Name} {vs : List Val} {mem' : Nat → Obj} {r : Int} {fn : Fun} (hg : P.lookup g = some fn) (hn : fn.ret = some .i64)
    (h : ReturnsAt P G sp g vs mem (.int .i64 r) mem') : I64 r := by
  obtain ⟨N, hN⟩ := h
  have h := hN N le_rfl
  unfold callValueAt at h
  rw [hg] at h
  simp only [bind_ok] at h
  obtain ⟨env, _, q, _, v, hv, h⟩ := h
  cases h
  rw [hn] at hv
  rcases hq : q.1 with _ | v
  · rw [hq] at hv; simp [result] at hv
  · rw [hq] at hv
    cases v with
    | int t x => simp only [result, Except.ok.injEq, Val.int.injEq] at hv; rw [← hv.2]; exact I64_toI64 _
    | ptr => simp [result] at hv
    | brk => simp [result] at hv

theorem Ex.callAt {x g : Name} {args : Expr} {outs : List Name} {l : List (Name × Cell)} {vs ps : List Val} {m1 mem' : Nat → Obj} {sp : Nat}
    {v : Int} {t t' : Ty} {o : Option Int} (ha : EvA P G args (E l mem) vs) (hs : look l 0 = some (.ptr sp 0 1)) (hn : outs.Nodup)
    (hp : pushOuts (look l) sp outs mem = .ok (ps, m1)) (hr : ReturnsAt P G (sp + outs.length) g (vs ++ ps) m1 (.int t' v) mem')
    (hx : popOuts mem' sp outs (look l) x = some (.int t o)) :
    Ex P G (.callAt x g args outs) (E l mem)
      ⟨setEnv (popOuts mem' sp outs (look l)) x (.int t (some (conv t v))), fun o => if sp ≤ o then mem o else mem' o⟩ := by
  obtain ⟨N, hN⟩ := ha
  obtain ⟨N', hN'⟩ := hr
  refine ⟨max N N' + 1, fun f hf => ?_⟩
  obtain ⟨k, rfl⟩ := Nat.exists_eq_add_of_le' (show 1 ≤ f by omega)
  have h := hN' k (by omega)
  unfold callValueAt at h
  rw [exec, hN k (by omega), ok_bind]
  cases hg : P.lookup g with
  | none => rw [hg] at h; simp at h
  | some fn =>
    rw [hg] at h
    simp only [bind_ok] at h
    obtain ⟨env, h1, q, h2, v', h3, h4⟩ := h
    cases h4
    simp only [hs, decide_eq_true hn, cassert, if_true, ok_bind, hp, h1, h2, h3, assign, hx]

theorem Ex.callAt0 {x g : Name} {args : Expr} {l : List (Name × Cell)} {vs : List Val} {sp : Nat} {r : Int} {ox : Option Int}
    (ha : EvA P G args (E l mem) vs) (hs : look l 0 = some (.ptr sp 0 1)) (hx : look l x = some (.int .i64 ox)) (hi : I64 r)
    (hr : ReturnsAt P G sp g vs mem (.int .i64 r) mem) : Ex P G (.callAt x g args []) (E l mem) (E (upd l x (lc r)) mem) := by
  have h := Ex.callAt (outs := []) ha hs List.nodup_nil rfl (by simpa using hr) hx
  simp only [popOuts, setEnv_look, conv_i64, toI64_of hi, ite_self] at h
  exact h

theorem Ex.callAt1 {x g y : Name} {args : Expr} {l : List (Name × Cell)} {vs : List Val} {sp : Nat} {r m : Int} {ox oy : Option Int}
    (ha : EvA P G args (E l mem) vs) (hs : look l 0 = some (.ptr sp 0 1)) (hy : look l y = some (.int .i64 oy))
    (hx : look (upd l y (lc m)) x = some (.int .i64 ox)) (hi : I64 r)
    (hr : ∀ z, ReturnsAt P G (sp + 1) g (vs ++ [.ptr sp 0 1]) (setMem mem sp ⟨.i64, #[z]⟩) (.int .i64 r) (setMem (setMem mem sp ⟨.i64, #[z]⟩) sp ⟨.i64, #[m]⟩)) :
    Ex P G (.callAt x g args [y]) (E l mem) (E (upd (upd l y (lc m)) x (lc r)) mem) := by
  have h := Ex.callAt (outs := [y]) ha hs (by simp) (ps := [.ptr sp 0 1]) (m1 := setMem mem sp ⟨.i64, #[oy.getD (junk .i64 (mem sp))]⟩)
    (by simp only [pushOuts, hy, ok_bind]) (hr _) (x := x) (t := .i64) (o := ox) ?_
  · simp only [popOuts, setMem_self, setEnv_look, conv_i64, toI64_of hi] at h
    refine (congrArg (Ex P G _ _) ?_).mp h
    congr 1
    funext o
    split
    · rfl
    · next ho => rw [setMem_ne (by omega), setMem_ne (by omega)]
  · simp only [popOuts, setMem_self, setEnv_look]
    exact hx

theorem Ex.callAt2 {x g y y' : Name} {args : Expr} {l : List (Name × Cell)} {vs : List Val} {sp : Nat} {r m m' : Int} {ox oy oy' : Option Int}
    (ha : EvA P G args (E l mem) vs) (hs : look l 0 = some (.ptr sp 0 1)) (hy : look l y = some (.int .i64 oy)) (hy' : look l y' = some (.int .i64 oy'))
    (hne : y ≠ y') (hx : look (upd (upd l y (lc m)) y' (lc m')) x = some (.int .i64 ox)) (hi : I64 r)
    (hr : ∀ z z', ReturnsAt P G (sp + 2) g (vs ++ [.ptr sp 0 1, .ptr (sp + 1) 0 1]) (setMem (setMem mem sp ⟨.i64, #[z]⟩) (sp + 1) ⟨.i64, #[z']⟩) (.int .i64 r)
      (setMem (setMem (setMem (setMem mem sp ⟨.i64, #[z]⟩) (sp + 1) ⟨.i64, #[z']⟩) sp ⟨.i64, #[m]⟩) (sp + 1) ⟨.i64, #[m']⟩)) :
    Ex P G (.callAt x g args [y, y']) (E l mem) (E (upd (upd (upd l y (lc m)) y' (lc m')) x (lc r)) mem) := by
  have h := Ex.callAt (outs := [y, y']) ha hs (by simp [hne]) (ps := [.ptr sp 0 1, .ptr (sp + 1) 0 1])
    (m1 := setMem (setMem mem sp ⟨.i64, #[oy.getD (junk .i64 (mem sp))]⟩) (sp + 1)
      ⟨.i64, #[oy'.getD (junk .i64 (setMem mem sp ⟨.i64, #[oy.getD (junk .i64 (mem sp))]⟩ (sp + 1)))]⟩)
    (by simp only [pushOuts, hy, hy', ok_bind]) (hr _ _) (x := x) (t := .i64) (o := ox) ?_
  · simp only [popOuts, setMem_self, setMem_ne (show sp ≠ sp + 1 by omega), setEnv_look, conv_i64, toI64_of hi] at h
    refine (congrArg (Ex P G _ _) ?_).mp h
    congr 1
    funext o
    split
    · rfl
    · next ho => rw [setMem_ne (by omega), setMem_ne (by omega), setMem_ne (by omega), setMem_ne (by omega)]
  · simp only [popOuts, setMem_self, setMem_ne (show sp ≠ sp + 1 by omega), setEnv_look]
    exact hx

/-! ### Extrema for an interval of factors -/

theorem args3 {e1 e2 e3 : Expr} {st : State} {v1 v2 v3 : Val} (h1 : Ev P G e1 st v1) (h2 : Ev P G e2 st v2) (h3 : Ev P G e3 st v3) :
    EvA P G (.cons e1 (.cons e2 (.cons e3 .nil))) st [v1, v2, v3] := EvA.cons h1 (EvA.cons h2 (EvA.cons h3 (EvA.nil _)))

theorem k12285 {st : State} : Ev P G (.bin .mul (.num 3) (.num 4095)) st (.int .i32 12285) :=
  Ev.bin (num_ev (z := 3) (by decide) rfl) (num_ev (z := 4095) (by decide) rfl) (by decide)

/-- The functions of the file. -/
structure Funs2 (P : Prog) : Prop extends Funs P where
  max_red_mul : P.lookup n!"max_red_mul" = some Src.red_bounds.max_red_mul
  min_red_mul : P.lookup n!"min_red_mul" = some Src.red_bounds.min_red_mul

theorem max_call (hF : Funs2 P) {l : List (Name × Cell)} {x y : Name} {args : Expr} {sp : Nat} {s t u : Ty} {a b w r m : Int} {ox oy : Option Int}
    (he : EvA P G args (E l mem) [.int s a, .int t b, .int u w]) (hs : look l 0 = some (.ptr sp 0 1))
    (hy : look l y = some (.int .i64 oy)) (hx : look (upd l y (lc m)) x = some (.int .i64 ox)) (ha : I64 a) (hb : I64 b) (hw : I64 w) (hab : a ≤ b)
    (h : RedBounds.max_red_mul true a b w = .ok (r, m)) :
    I64 r ∧ I64 m ∧ Ex P G (.callAt x n!"max_red_mul" args [y]) (E l mem) (E (upd (upd l y (lc m)) x (lc r)) mem) := by
  have hm : I64 m := by
    have := (Props.C29_max_red_mul_any true a b w hab hw r m h).2.1
    unfold I64 at *
    omega
  have hr := fun z => ReturnsAt.of (sp := sp + 1) hF.max_red_mul (by decide) (max_red_mul_returns (s := s) (t := t) (u := u) (G := G) hF.toFuns hF.max_red_mul ha hb hw
    (setMem_self mem sp ⟨.i64, #[z]⟩) h)
  have hi := ReturnsAt.range hF.max_red_mul rfl (hr 0)
  exact ⟨hi, hm, Ex.callAt1 he hs hy hx hi hr⟩

theorem min_call (hF : Funs2 P) {l : List (Name × Cell)} {x y : Name} {args : Expr} {sp : Nat} {s t u : Ty} {a b w r m : Int} {ox oy : Option Int}
    (he : EvA P G args (E l mem) [.int s a, .int t b, .int u w]) (hs : look l 0 = some (.ptr sp 0 1))
    (hy : look l y = some (.int .i64 oy)) (hx : look (upd l y (lc m)) x = some (.int .i64 ox)) (ha : I64 a) (hb : I64 b) (hw : I64 w) (hab : a ≤ b)
    (h : RedBounds.min_red_mul true a b w = .ok (r, m)) :
    I64 r ∧ I64 m ∧ Ex P G (.callAt x n!"min_red_mul" args [y]) (E l mem) (E (upd (upd l y (lc m)) x (lc r)) mem) := by
  have hm : I64 m := by
    have := (Props.C29_min_red_mul_any true a b w hab r m h).2.1
    unfold I64 at *
    omega
  have hr := fun z => ReturnsAt.of (sp := sp + 1) hF.min_red_mul (by decide) (min_red_mul_returns (s := s) (t := t) (u := u) (G := G) hF.toFuns hF.min_red_mul ha hb hw
    (setMem_self mem sp ⟨.i64, #[z]⟩) h)
  have hi := ReturnsAt.range hF.min_red_mul rfl (hr 0)
  exact ⟨hi, hm, Ex.callAt1 he hs hy hx hi hr⟩

/-- Variables of `max_red_mul_interval`. -/
abbrev ivmax (ow om sp : Nat) (high low b a : Int) (rm xm wm r x w d l h : Option Int) : List (Name × Cell) :=
  [(n!"mw", .ptr ow 0 1), (n!"m", .ptr om 0 1), (n!"high", lc high), (n!"low", lc low), (n!"b", lc b), (n!"a", lc a), (0, .ptr sp 0 1),
    (n!"r_max", .int .i64 rm), (n!"x_max", .int .i64 xm), (n!"w_max", .int .i64 wm), (n!"r", .int .i64 r), (n!"x", .int .i64 x),
    (n!"w", .int .i64 w), (n!"d", .int .i64 d), (n!"l", .int .i64 l), (n!"h", .int .i64 h)]

/-- The test that ends the loop `maxNeg`. -/
abbrev maxNegStop : Expr := .bin .le (.bin .add (.neg (.var n!"d")) (.bin .mul (.num 3) (.num 4095))) (.var n!"r_max")

/-- The loop `maxNeg`. -/
abbrev maxNegLoop : Stmt :=
   (.while (.bin .lt (.var n!"w") (.var n!"h"))
    (.seq (.seq (.assert (.bin .lt (.var n!"w") (.num 0)))
     (.seq (.assign n!"d" (.call n!"divd" (.cons (.bin .mul (.var n!"w") (.var n!"b")) .nil)))
     (.seq (.ite maxNegStop
       (.seq .brk
       .skip)
       .skip)
     (.seq (.callAt n!"r" n!"max_red_mul" (.cons (.var n!"a") (.cons (.var n!"b") (.cons (.var n!"w") .nil))) [n!"x"])
     (.seq (.ite (.bin .gt (.var n!"r") (.var n!"r_max"))
       (.seq (.assign n!"r_max" (.var n!"r"))
       (.seq (.assign n!"x_max" (.var n!"x"))
       (.seq (.assign n!"w_max" (.var n!"w"))
       .skip)))
       .skip)
     .skip)))))
    (.assign n!"w" (.bin .add (.var n!"w") (.num 1)))))

theorem maxNeg_ex (hF : Funs2 P) {ow om sp : Nat} {high low b a l h : Int} (ha : I64 a) (hb : I64 b) (_ : I64 l) (hh : I64 h) (hab : a ≤ b) :
    ∀ fuel w (s : Best) r x d res, I64 w → I64 s.r → I64 s.x → I64 s.w → maxNeg true a b h fuel w s = .ok res →
      I64 res.r ∧ I64 res.x ∧ I64 res.w ∧ ∃ r' x' w' d', Ex P G maxNegLoop
        (E (ivmax ow om sp high low b a (some s.r) (some s.x) (some s.w) r x (some w) d (some l) (some h)) mem)
        (E (ivmax ow om sp high low b a (some res.r) (some res.x) (some res.w) r' x' w' d' (some l) (some h)) mem) := by
  intro fuel
  induction fuel with
  | zero => intro w s r x d res _ _ _ _ h; simp [maxNeg] at h
  | succ fuel ih =>
    intro w s r x d res hw hr hx hsw hm
    rw [maxNeg] at hm
    have hc : Ev P G (.bin .lt (.var n!"w") (.var n!"h")) (E (ivmax ow om sp high low b a (some s.r) (some s.x) (some s.w) r x (some w) d (some l) (some h)) mem)
        (truth (decide (w < h))) := lt_ev rfl (Ev.v rfl rfl) (Ev.v rfl rfl) hw hh
    by_cases h1 : w < h
    · rw [if_pos h1] at hm
      rw [decide_eq_true h1] at hc
      simp only [bind_ok, dassert_ok, pure_ok] at hm
      obtain ⟨_, h2, z, hz, e, he, e', he', hm⟩ := hm
      have hd : I64 (divd z) := I64_sar _ (i64_rng hz)
      have s1 : Ex P G (.assert (.bin .lt (.var n!"w") (.num 0)))
          (E (ivmax ow om sp high low b a (some s.r) (some s.x) (some s.w) r x (some w) d (some l) (some h)) mem)
          (E (ivmax ow om sp high low b a (some s.r) (some s.x) (some s.w) r x (some w) d (some l) (some h)) mem) := by
        refine Ex.asserts ?_
        have h5 : decide (w < 0) = true := h2.symm
        rw [← h5]
        exact lt_ev rfl (Ev.v rfl rfl) (num_ev (by decide) rfl) hw (by decide)
      have s2 : Ex P G (.assign n!"d" (.call n!"divd" (.cons (.bin .mul (.var n!"w") (.var n!"b")) .nil)))
          (E (ivmax ow om sp high low b a (some s.r) (some s.x) (some s.w) r x (some w) d (some l) (some h)) mem)
          (E (ivmax ow om sp high low b a (some s.r) (some s.x) (some s.w) r x (some w) (some (divd z)) (some l) (some h)) mem) :=
        asg (divd_ev hF.divd (mul_ev rfl (Ev.v rfl rfl) (Ev.v rfl rfl) hw hb hz) (i64_rng hz)) rfl hd
      have hle : Ev P G maxNegStop (E (ivmax ow om sp high low b a (some s.r) (some s.x) (some s.w) r x (some w) (some (divd z)) (some l) (some h)) mem)
          (truth (decide (e' ≤ s.r))) := le_ev rfl (add_ev rfl (neg_ev (Ev.v rfl rfl) hd he) k12285 (i64_rng he) (by decide) he') (Ev.v rfl rfl) (i64_rng he') hr
      by_cases h3 : e' ≤ s.r
      · rw [if_pos h3] at hm
        cases hm
        rw [decide_eq_true h3] at hle
        refine ⟨hr, hx, hsw, r, x, some w, some (divd z), Ex.while_brk hc (Rt.left (Rt.seq s1 (Rt.seq s2 (Rt.left (Rt.ite hle ?_)))))⟩
        rw [if_pos rfl]
        exact Rt.left (Rt.brk _)
      · rw [if_neg h3] at hm
        rw [decide_eq_false h3] at hle
        simp only [bind_ok] at hm
        obtain ⟨⟨ρ, m⟩, hρ, w', hw', hm⟩ := hm
        simp only at hm
        obtain ⟨rρ, rm, s4⟩ := max_call (G := G) (mem := mem) hF (x := n!"r") (y := n!"x") (ox := r) (oy := x) (sp := sp)
          (l := ivmax ow om sp high low b a (some s.r) (some s.x) (some s.w) r x (some w) (some (divd z)) (some l) (some h))
          (args := .cons (.var n!"a") (.cons (.var n!"b") (.cons (.var n!"w") .nil))) (s := .i64) (t := .i64) (u := .i64)
          (args3 (Ev.v rfl rfl) (Ev.v rfl rfl) (Ev.v rfl rfl)) rfl rfl rfl ha hb hw hab hρ
        have s3 : Ex P G (.ite maxNegStop (.seq .brk .skip) .skip)
            (E (ivmax ow om sp high low b a (some s.r) (some s.x) (some s.w) r x (some w) (some (divd z)) (some l) (some h)) mem)
            (E (ivmax ow om sp high low b a (some s.r) (some s.x) (some s.w) r x (some w) (some (divd z)) (some l) (some h)) mem) :=
          Ex.ite hle (by rw [if_neg (by simp)]; exact Ex.skip _)
        have hgt : Ev P G (.bin .gt (.var n!"r") (.var n!"r_max"))
            (E (ivmax ow om sp high low b a (some s.r) (some s.x) (some s.w) (some ρ) (some m) (some w) (some (divd z)) (some l) (some h)) mem)
            (truth (decide (ρ > s.r))) := gt_ev rfl (Ev.v rfl rfl) (Ev.v rfl rfl) rρ hr
        by_cases h4 : ρ > s.r
        · rw [if_pos h4] at hm
          rw [decide_eq_true h4] at hgt
          obtain ⟨r1, r2, r3, r', x', w₂, d', hex⟩ := ih w' ⟨ρ, m, w⟩ (some ρ) (some m) (some (divd z)) res (i64_rng hw') rρ rm hw hm
          refine ⟨r1, r2, r3, r', x', w₂, d', Ex.while_true hc (Ex.seq
            (st₁ := E (ivmax ow om sp high low b a (some ρ) (some m) (some w) (some ρ) (some m) (some w) (some (divd z)) (some l) (some h)) mem)
            (Ex.seq s1 (Ex.seq s2 (Ex.seq s3 (Ex.seq s4 (Ex.seq (Ex.ite hgt ?_) (Ex.skip _))))))
            (asg (add_ev rfl (Ev.v rfl rfl) (num_ev (by decide) rfl) hw (by decide) hw') rfl (i64_rng hw'))) hex⟩
          rw [if_pos rfl]
          exact Ex.seq (asg (Ev.v rfl rfl) rfl rρ) (Ex.seq (asg (Ev.v rfl rfl) rfl rm) (Ex.seq (asg (Ev.v rfl rfl) rfl hw) (Ex.skip _)))
        · rw [if_neg h4] at hm
          rw [decide_eq_false h4] at hgt
          obtain ⟨r1, r2, r3, r', x', w₂, d', hex⟩ := ih w' s (some ρ) (some m) (some (divd z)) res (i64_rng hw') hr hx hsw hm
          refine ⟨r1, r2, r3, r', x', w₂, d', Ex.while_true hc (Ex.seq
            (st₁ := E (ivmax ow om sp high low b a (some s.r) (some s.x) (some s.w) (some ρ) (some m) (some w) (some (divd z)) (some l) (some h)) mem)
            (Ex.seq s1 (Ex.seq s2 (Ex.seq s3 (Ex.seq s4 (Ex.seq (Ex.ite hgt ?_) (Ex.skip _))))))
            (asg (add_ev rfl (Ev.v rfl rfl) (num_ev (by decide) rfl) hw (by decide) hw') rfl (i64_rng hw'))) hex⟩
          rw [if_neg (by simp)]
          exact Ex.skip _
    · rw [if_neg h1] at hm
      rw [decide_eq_false h1] at hc
      cases hm
      exact ⟨hr, hx, hsw, r, x, some w, d, Ex.while_false hc⟩

/-- The test that ends the loop `maxPos`. -/
abbrev maxPosStop : Expr := .bin .le (.bin .add (.neg (.var n!"d")) (.bin .mul (.num 3) (.num 4095))) (.var n!"r_max")

/-- The loop `maxPos`. -/
abbrev maxPosLoop : Stmt :=
   (.while (.bin .gt (.var n!"w") (.var n!"l"))
    (.seq (.seq (.assert (.bin .gt (.var n!"w") (.num 0)))
     (.seq (.assign n!"d" (.call n!"divd" (.cons (.bin .mul (.neg (.var n!"w")) (.var n!"b")) .nil)))
     (.seq (.ite maxPosStop
       (.seq .brk
       .skip)
       .skip)
     (.seq (.callAt n!"r" n!"max_red_mul" (.cons (.var n!"a") (.cons (.var n!"b") (.cons (.var n!"w") .nil))) [n!"x"])
     (.seq (.ite (.bin .gt (.var n!"r") (.var n!"r_max"))
       (.seq (.assign n!"r_max" (.var n!"r"))
       (.seq (.assign n!"x_max" (.var n!"x"))
       (.seq (.assign n!"w_max" (.var n!"w"))
       .skip)))
       .skip)
     .skip)))))
    (.assign n!"w" (.bin .sub (.var n!"w") (.num 1)))))

theorem maxPos_ex (hF : Funs2 P) {ow om sp : Nat} {high low b a l h : Int} (ha : I64 a) (hb : I64 b) (hl : I64 l) (_ : I64 h) (hab : a ≤ b) :
    ∀ fuel w (s : Best) r x d res, I64 w → I64 s.r → I64 s.x → I64 s.w → maxPos true a b l fuel w s = .ok res →
      I64 res.r ∧ I64 res.x ∧ I64 res.w ∧ ∃ r' x' w' d', Ex P G maxPosLoop
        (E (ivmax ow om sp high low b a (some s.r) (some s.x) (some s.w) r x (some w) d (some l) (some h)) mem)
        (E (ivmax ow om sp high low b a (some res.r) (some res.x) (some res.w) r' x' w' d' (some l) (some h)) mem) := by
  intro fuel
  induction fuel with
  | zero => intro w s r x d res _ _ _ _ h; simp [maxPos] at h
  | succ fuel ih =>
    intro w s r x d res hw hr hx hsw hm
    rw [maxPos] at hm
    have hc : Ev P G (.bin .gt (.var n!"w") (.var n!"l")) (E (ivmax ow om sp high low b a (some s.r) (some s.x) (some s.w) r x (some w) d (some l) (some h)) mem)
        (truth (decide (w > l))) := gt_ev rfl (Ev.v rfl rfl) (Ev.v rfl rfl) hw hl
    by_cases h1 : w > l
    · rw [if_pos h1] at hm
      rw [decide_eq_true h1] at hc
      simp only [bind_ok, dassert_ok, pure_ok] at hm
      obtain ⟨_, h2, nw, hnw, z, hz, e, he, e', he', hm⟩ := hm
      have hd : I64 (divd z) := I64_sar _ (i64_rng hz)
      have s1 : Ex P G (.assert (.bin .gt (.var n!"w") (.num 0)))
          (E (ivmax ow om sp high low b a (some s.r) (some s.x) (some s.w) r x (some w) d (some l) (some h)) mem)
          (E (ivmax ow om sp high low b a (some s.r) (some s.x) (some s.w) r x (some w) d (some l) (some h)) mem) := by
        refine Ex.asserts ?_
        have h5 : decide (w > 0) = true := h2.symm
        rw [← h5]
        exact gt_ev rfl (Ev.v rfl rfl) (num_ev (by decide) rfl) hw (by decide)
      have s2 : Ex P G (.assign n!"d" (.call n!"divd" (.cons (.bin .mul (.neg (.var n!"w")) (.var n!"b")) .nil)))
          (E (ivmax ow om sp high low b a (some s.r) (some s.x) (some s.w) r x (some w) d (some l) (some h)) mem)
          (E (ivmax ow om sp high low b a (some s.r) (some s.x) (some s.w) r x (some w) (some (divd z)) (some l) (some h)) mem) :=
        asg (divd_ev hF.divd (mul_ev rfl (neg_ev (Ev.v rfl rfl) hw hnw) (Ev.v rfl rfl) (i64_rng hnw) hb hz) (i64_rng hz)) rfl hd
      have hle : Ev P G maxPosStop (E (ivmax ow om sp high low b a (some s.r) (some s.x) (some s.w) r x (some w) (some (divd z)) (some l) (some h)) mem)
          (truth (decide (e' ≤ s.r))) := le_ev rfl (add_ev rfl (neg_ev (Ev.v rfl rfl) hd he) k12285 (i64_rng he) (by decide) he') (Ev.v rfl rfl) (i64_rng he') hr
      by_cases h3 : e' ≤ s.r
      · rw [if_pos h3] at hm
        cases hm
        rw [decide_eq_true h3] at hle
        refine ⟨hr, hx, hsw, r, x, some w, some (divd z), Ex.while_brk hc (Rt.left (Rt.seq s1 (Rt.seq s2 (Rt.left (Rt.ite hle ?_)))))⟩
        rw [if_pos rfl]
        exact Rt.left (Rt.brk _)
      · rw [if_neg h3] at hm
        rw [decide_eq_false h3] at hle
        simp only [bind_ok] at hm
        obtain ⟨⟨ρ, m⟩, hρ, w', hw', hm⟩ := hm
        simp only at hm
        obtain ⟨rρ, rm, s4⟩ := max_call (G := G) (mem := mem) hF (x := n!"r") (y := n!"x") (ox := r) (oy := x) (sp := sp)
          (l := ivmax ow om sp high low b a (some s.r) (some s.x) (some s.w) r x (some w) (some (divd z)) (some l) (some h))
          (args := .cons (.var n!"a") (.cons (.var n!"b") (.cons (.var n!"w") .nil))) (s := .i64) (t := .i64) (u := .i64)
          (args3 (Ev.v rfl rfl) (Ev.v rfl rfl) (Ev.v rfl rfl)) rfl rfl rfl ha hb hw hab hρ
        have s3 : Ex P G (.ite maxPosStop (.seq .brk .skip) .skip)
            (E (ivmax ow om sp high low b a (some s.r) (some s.x) (some s.w) r x (some w) (some (divd z)) (some l) (some h)) mem)
            (E (ivmax ow om sp high low b a (some s.r) (some s.x) (some s.w) r x (some w) (some (divd z)) (some l) (some h)) mem) :=
          Ex.ite hle (by rw [if_neg (by simp)]; exact Ex.skip _)
        have hgt : Ev P G (.bin .gt (.var n!"r") (.var n!"r_max"))
            (E (ivmax ow om sp high low b a (some s.r) (some s.x) (some s.w) (some ρ) (some m) (some w) (some (divd z)) (some l) (some h)) mem)
            (truth (decide (ρ > s.r))) := gt_ev rfl (Ev.v rfl rfl) (Ev.v rfl rfl) rρ hr
        by_cases h4 : ρ > s.r
        · rw [if_pos h4] at hm
          rw [decide_eq_true h4] at hgt
          obtain ⟨r1, r2, r3, r', x', w₂, d', hex⟩ := ih w' ⟨ρ, m, w⟩ (some ρ) (some m) (some (divd z)) res (i64_rng hw') rρ rm hw hm
          refine ⟨r1, r2, r3, r', x', w₂, d', Ex.while_true hc (Ex.seq
            (st₁ := E (ivmax ow om sp high low b a (some ρ) (some m) (some w) (some ρ) (some m) (some w) (some (divd z)) (some l) (some h)) mem)
            (Ex.seq s1 (Ex.seq s2 (Ex.seq s3 (Ex.seq s4 (Ex.seq (Ex.ite hgt ?_) (Ex.skip _))))))
            (asg (sub_ev rfl (Ev.v rfl rfl) (num_ev (by decide) rfl) hw (by decide) hw') rfl (i64_rng hw'))) hex⟩
          rw [if_pos rfl]
          exact Ex.seq (asg (Ev.v rfl rfl) rfl rρ) (Ex.seq (asg (Ev.v rfl rfl) rfl rm) (Ex.seq (asg (Ev.v rfl rfl) rfl hw) (Ex.skip _)))
        · rw [if_neg h4] at hm
          rw [decide_eq_false h4] at hgt
          obtain ⟨r1, r2, r3, r', x', w₂, d', hex⟩ := ih w' s (some ρ) (some m) (some (divd z)) res (i64_rng hw') hr hx hsw hm
          refine ⟨r1, r2, r3, r', x', w₂, d', Ex.while_true hc (Ex.seq
            (st₁ := E (ivmax ow om sp high low b a (some s.r) (some s.x) (some s.w) (some ρ) (some m) (some w) (some (divd z)) (some l) (some h)) mem)
            (Ex.seq s1 (Ex.seq s2 (Ex.seq s3 (Ex.seq s4 (Ex.seq (Ex.ite hgt ?_) (Ex.skip _))))))
            (asg (sub_ev rfl (Ev.v rfl rfl) (num_ev (by decide) rfl) hw (by decide) hw') rfl (i64_rng hw'))) hex⟩
          rw [if_neg (by simp)]
          exact Ex.skip _
    · rw [if_neg h1] at hm
      rw [decide_eq_false h1] at hc
      cases hm
      exact ⟨hr, hx, hsw, r, x, some w, d, Ex.while_false hc⟩

theorem bind6max {t1 t2 t3 t4 : Ty} {a b low high : Int} {om ow : Nat} (ha : I64 a) (hb : I64 b) (hl : I64 low) (hh : I64 high) :
    bindParams [(n!"a", .int .i64), (n!"b", .int .i64), (n!"low", .int .i64), (n!"high", .int .i64), (n!"m", .ptr 1), (n!"mw", .ptr 1)]
      [.int t1 a, .int t2 b, .int t3 low, .int t4 high, .ptr om 0 1, .ptr ow 0 1] =
      .ok (look [(n!"mw", .ptr ow 0 1), (n!"m", .ptr om 0 1), (n!"high", lc high), (n!"low", lc low), (n!"b", lc b), (n!"a", lc a)]) := by
  simp only [bindParams, ok_bind, conv_i64, toI64_of ha, toI64_of hb, toI64_of hl, toI64_of hh, look_nil, setEnv_look, upd, Nat.reduceEqDiff, reduceIte]

theorem max_red_mul_interval_returns (hF : Funs2 P) {t1 t2 t3 t4 : Ty} {a b low high z1 z2 : Int} {res : Best} {om ow sp : Nat}
    (hP : P.lookup n!"max_red_mul_interval" = some Src.red_bounds.max_red_mul_interval)
    (ha : I64 a) (hb : I64 b) (hlo : I64 low) (hhi : I64 high) (hm : mem om = ⟨.i64, #[z1]⟩) (hw : mem ow = ⟨.i64, #[z2]⟩) (hne : om ≠ ow)
    (h : RedBounds.max_red_mul_interval true a b low high = .ok res) :
    I64 res.r ∧ I64 res.x ∧ I64 res.w ∧ ReturnsAt P G sp n!"max_red_mul_interval" [.int t1 a, .int t2 b, .int t3 low, .int t4 high, .ptr om 0 1, .ptr ow 0 1] mem
      (.int .i64 res.r) (setMem (setMem mem om ⟨.i64, #[res.x]⟩) ow ⟨.i64, #[res.w]⟩) := by
  simp only [RedBounds.max_red_mul_interval, bind_ok, dassert_ok, pure_ok] at h
  obtain ⟨_, h1, h₁, hh₁, s₁, hs₁, l₂, hl₂, hs₂⟩ := h
  have h1' : (decide (a ≤ b) && decide (low ≤ high)) = true := h1.symm
  have hab : a ≤ b := by simp at h1'; exact h1'.1
  have rl1 : I64 (if low < 0 then low else 0) := I64_ite hlo (by decide)
  have rh1 : I64 h₁ := by
    split at hh₁
    · cases hh₁; decide
    · exact i64_rng hh₁
  have rl2 : I64 l₂ := by
    split at hl₂
    · cases hl₂; decide
    · exact i64_rng hl₂
  have rh2 : I64 (if high > 0 then high else 0) := I64_ite hhi (by decide)
  obtain ⟨q1, q2, q3, r₁, x₁, w₁, d₁, e1⟩ := maxNeg_ex (G := G) (mem := mem) (ow := ow) (om := om) (sp := sp) (high := high) (low := low) hF ha hb rl1 rh1 hab
    _ _ ⟨0, 0, 0⟩ none none none s₁ rl1 (by decide) (by decide) (by decide) hs₁
  obtain ⟨p1, p2, p3, r₂, x₂, w₂, d₂, e2⟩ := maxPos_ex (G := G) (mem := mem) (ow := ow) (om := om) (sp := sp) (high := high) (low := low) hF ha hb rl2 rh2 hab
    _ _ s₁ r₁ x₁ d₁ res rh2 q1 q2 q3 hs₂
  refine ⟨p1, p2, p3, ?_⟩
  refine ReturnsAt.mk (st' := E (ivmax ow om sp high low b a (some res.r) (some res.x) (some res.w) r₂ x₂ w₂ d₂ (some l₂) (some (if high > 0 then high else 0))) _)
    (v := .int .i64 res.r) hP (by decide) (bind6max ha hb hlo hhi) ?_ (result64 p1)
  refine Rt.seq (st₁ := E (ivmax ow om sp high low b a none none none none none none none none none) mem)
    (Ex.mk 10 fun f => by simp only [crun, setEnv_look, upd, Nat.reduceEqDiff, reduceIte])
    (Rt.seq (Ex.asserts ?_)
    (Rt.seq (asg (num_ev (z := 0) (by decide) rfl) rfl (by decide))
    (Rt.seq (asg (num_ev (z := 0) (by decide) rfl) rfl (by decide))
    (Rt.seq (asg (num_ev (z := 0) (by decide) rfl) rfl (by decide))
    (Rt.seq (asg (v := if low < 0 then low else 0) (t := if low < 0 then .i64 else .i32) (cond_ev (r := decide (low < 0)) (lt_ev rfl (Ev.v rfl rfl) (num_ev (by decide) rfl) hlo (by decide)) ?_) rfl rl1)
    (Rt.seq (asg (v := h₁) (t := if high ≥ 0 then .i32 else .i64) (cond_ev (r := decide (high ≥ 0)) (ge_ev rfl (Ev.v rfl rfl) (num_ev (by decide) rfl) hhi (by decide)) ?_) rfl rh1)
    (Rt.seq (Ex.seq (asg (Ev.v rfl rfl) rfl rl1) e1)
    (Rt.seq (asg (v := l₂) (t := if low ≤ 0 then .i32 else .i64) (cond_ev (r := decide (low ≤ 0)) (le_ev rfl (Ev.v rfl rfl) (num_ev (by decide) rfl) hlo (by decide)) ?_) rfl rl2)
    (Rt.seq (asg (v := if high > 0 then high else 0) (t := if high > 0 then .i64 else .i32) (cond_ev (r := decide (high > 0)) (gt_ev rfl (Ev.v rfl rfl) (num_ev (by decide) rfl) hhi (by decide)) ?_) rfl rh2)
    (Rt.seq (Ex.seq (asg (Ev.v rfl rfl) rfl rh2) e2)
    (Rt.seq (store_ex rfl hm (Ev.v rfl rfl) p2)
    (Rt.seq (store_ex (z := z2) rfl (by rw [setMem_ne hne.symm]; exact hw) (Ev.v rfl rfl) p3)
    (Rt.left (Rt.ret (Ev.v rfl rfl)))))))))))))))
  · rw [← h1']
    exact Ev.land (le_ev rfl (Ev.v rfl rfl) (Ev.v rfl rfl) ha hb) fun _ => le_ev rfl (Ev.v rfl rfl) (Ev.v rfl rfl) hlo hhi
  · by_cases h2 : low < 0
    · simp only [h2, decide_true, if_true]; exact Ev.v rfl rfl
    · simp only [h2, decide_false, Bool.false_eq_true, if_false]; exact num_ev (by decide) rfl
  · by_cases h2 : high ≥ 0
    · rw [if_pos h2] at hh₁
      cases hh₁
      simp only [h2, decide_true, if_true]; exact num_ev (by decide) rfl
    · rw [if_neg h2] at hh₁
      simp only [h2, decide_false, Bool.false_eq_true, if_false]
      exact add_ev rfl (Ev.v rfl rfl) (num_ev (by decide) rfl) hhi (by decide) hh₁
  · by_cases h2 : low ≤ 0
    · rw [if_pos h2] at hl₂
      cases hl₂
      simp only [h2, decide_true, if_true]; exact num_ev (by decide) rfl
    · rw [if_neg h2] at hl₂
      simp only [h2, decide_false, Bool.false_eq_true, if_false]
      exact sub_ev rfl (Ev.v rfl rfl) (num_ev (by decide) rfl) hlo (by decide) hl₂
  · by_cases h2 : high > 0
    · simp only [h2, decide_true, if_true]; exact Ev.v rfl rfl
    · simp only [h2, decide_false, Bool.false_eq_true, if_false]; exact num_ev (by decide) rfl

/-- Variables of `min_red_mul_interval`. -/
abbrev ivmin (ow om sp : Nat) (high low b a : Int) (rm xm wm r x w d l h : Option Int) : List (Name × Cell) :=
  [(n!"wm", .ptr ow 0 1), (n!"m", .ptr om 0 1), (n!"high", lc high), (n!"low", lc low), (n!"b", lc b), (n!"a", lc a), (0, .ptr sp 0 1),
    (n!"r_min", .int .i64 rm), (n!"x_min", .int .i64 xm), (n!"w_min", .int .i64 wm), (n!"r", .int .i64 r), (n!"x", .int .i64 x),
    (n!"w", .int .i64 w), (n!"d", .int .i64 d), (n!"l", .int .i64 l), (n!"h", .int .i64 h)]

/-- The test that ends the loop `minNeg`. -/
abbrev minNegStop : Expr := .bin .ge (.neg (.var n!"d")) (.var n!"r_min")

/-- The loop `minNeg`. -/
abbrev minNegLoop : Stmt :=
   (.while (.bin .lt (.var n!"w") (.var n!"h"))
    (.seq (.seq (.assert (.bin .lt (.var n!"w") (.num 0)))
     (.seq (.assign n!"d" (.call n!"divd" (.cons (.bin .mul (.neg (.var n!"w")) (.var n!"b")) .nil)))
     (.seq (.ite minNegStop
       (.seq .brk
       .skip)
       .skip)
     (.seq (.callAt n!"r" n!"min_red_mul" (.cons (.var n!"a") (.cons (.var n!"b") (.cons (.var n!"w") .nil))) [n!"x"])
     (.seq (.ite (.bin .lt (.var n!"r") (.var n!"r_min"))
       (.seq (.assign n!"r_min" (.var n!"r"))
       (.seq (.assign n!"x_min" (.var n!"x"))
       (.seq (.assign n!"w_min" (.var n!"w"))
       .skip)))
       .skip)
     .skip)))))
    (.assign n!"w" (.bin .add (.var n!"w") (.num 1)))))

theorem minNeg_ex (hF : Funs2 P) {ow om sp : Nat} {high low b a l h : Int} (ha : I64 a) (hb : I64 b) (_ : I64 l) (hh : I64 h) (hab : a ≤ b) :
    ∀ fuel w (s : Best) r x d res, I64 w → I64 s.r → I64 s.x → I64 s.w → minNeg true a b h fuel w s = .ok res →
      I64 res.r ∧ I64 res.x ∧ I64 res.w ∧ ∃ r' x' w' d', Ex P G minNegLoop
        (E (ivmin ow om sp high low b a (some s.r) (some s.x) (some s.w) r x (some w) d (some l) (some h)) mem)
        (E (ivmin ow om sp high low b a (some res.r) (some res.x) (some res.w) r' x' w' d' (some l) (some h)) mem) := by
  intro fuel
  induction fuel with
  | zero => intro w s r x d res _ _ _ _ h; simp [minNeg] at h
  | succ fuel ih =>
    intro w s r x d res hw hr hx hsw hm
    rw [minNeg] at hm
    have hc : Ev P G (.bin .lt (.var n!"w") (.var n!"h")) (E (ivmin ow om sp high low b a (some s.r) (some s.x) (some s.w) r x (some w) d (some l) (some h)) mem)
        (truth (decide (w < h))) := lt_ev rfl (Ev.v rfl rfl) (Ev.v rfl rfl) hw hh
    by_cases h1 : w < h
    · rw [if_pos h1] at hm
      rw [decide_eq_true h1] at hc
      simp only [bind_ok, dassert_ok, pure_ok] at hm
      obtain ⟨_, h2, nw, hnw, z, hz, e, he, hm⟩ := hm
      have hd : I64 (divd z) := I64_sar _ (i64_rng hz)
      have s1 : Ex P G (.assert (.bin .lt (.var n!"w") (.num 0)))
          (E (ivmin ow om sp high low b a (some s.r) (some s.x) (some s.w) r x (some w) d (some l) (some h)) mem)
          (E (ivmin ow om sp high low b a (some s.r) (some s.x) (some s.w) r x (some w) d (some l) (some h)) mem) := by
        refine Ex.asserts ?_
        have h5 : decide (w < 0) = true := h2.symm
        rw [← h5]
        exact lt_ev rfl (Ev.v rfl rfl) (num_ev (by decide) rfl) hw (by decide)
      have s2 : Ex P G (.assign n!"d" (.call n!"divd" (.cons (.bin .mul (.neg (.var n!"w")) (.var n!"b")) .nil)))
          (E (ivmin ow om sp high low b a (some s.r) (some s.x) (some s.w) r x (some w) d (some l) (some h)) mem)
          (E (ivmin ow om sp high low b a (some s.r) (some s.x) (some s.w) r x (some w) (some (divd z)) (some l) (some h)) mem) :=
        asg (divd_ev hF.divd (mul_ev rfl (neg_ev (Ev.v rfl rfl) hw hnw) (Ev.v rfl rfl) (i64_rng hnw) hb hz) (i64_rng hz)) rfl hd
      have hle : Ev P G minNegStop (E (ivmin ow om sp high low b a (some s.r) (some s.x) (some s.w) r x (some w) (some (divd z)) (some l) (some h)) mem)
          (truth (decide (e ≥ s.r))) := ge_ev rfl (neg_ev (Ev.v rfl rfl) hd he) (Ev.v rfl rfl) (i64_rng he) hr
      by_cases h3 : e ≥ s.r
      · rw [if_pos h3] at hm
        cases hm
        rw [decide_eq_true h3] at hle
        refine ⟨hr, hx, hsw, r, x, some w, some (divd z), Ex.while_brk hc (Rt.left (Rt.seq s1 (Rt.seq s2 (Rt.left (Rt.ite hle ?_)))))⟩
        rw [if_pos rfl]
        exact Rt.left (Rt.brk _)
      · rw [if_neg h3] at hm
        rw [decide_eq_false h3] at hle
        simp only [bind_ok] at hm
        obtain ⟨⟨ρ, m⟩, hρ, w', hw', hm⟩ := hm
        simp only at hm
        obtain ⟨rρ, rm, s4⟩ := min_call (G := G) (mem := mem) hF (x := n!"r") (y := n!"x") (ox := r) (oy := x) (sp := sp)
          (l := ivmin ow om sp high low b a (some s.r) (some s.x) (some s.w) r x (some w) (some (divd z)) (some l) (some h))
          (args := .cons (.var n!"a") (.cons (.var n!"b") (.cons (.var n!"w") .nil))) (s := .i64) (t := .i64) (u := .i64)
          (args3 (Ev.v rfl rfl) (Ev.v rfl rfl) (Ev.v rfl rfl)) rfl rfl rfl ha hb hw hab hρ
        have s3 : Ex P G (.ite minNegStop (.seq .brk .skip) .skip)
            (E (ivmin ow om sp high low b a (some s.r) (some s.x) (some s.w) r x (some w) (some (divd z)) (some l) (some h)) mem)
            (E (ivmin ow om sp high low b a (some s.r) (some s.x) (some s.w) r x (some w) (some (divd z)) (some l) (some h)) mem) :=
          Ex.ite hle (by rw [if_neg (by simp)]; exact Ex.skip _)
        have hgt : Ev P G (.bin .lt (.var n!"r") (.var n!"r_min"))
            (E (ivmin ow om sp high low b a (some s.r) (some s.x) (some s.w) (some ρ) (some m) (some w) (some (divd z)) (some l) (some h)) mem)
            (truth (decide (ρ < s.r))) := lt_ev rfl (Ev.v rfl rfl) (Ev.v rfl rfl) rρ hr
        by_cases h4 : ρ < s.r
        · rw [if_pos h4] at hm
          rw [decide_eq_true h4] at hgt
          obtain ⟨r1, r2, r3, r', x', w₂, d', hex⟩ := ih w' ⟨ρ, m, w⟩ (some ρ) (some m) (some (divd z)) res (i64_rng hw') rρ rm hw hm
          refine ⟨r1, r2, r3, r', x', w₂, d', Ex.while_true hc (Ex.seq
            (st₁ := E (ivmin ow om sp high low b a (some ρ) (some m) (some w) (some ρ) (some m) (some w) (some (divd z)) (some l) (some h)) mem)
            (Ex.seq s1 (Ex.seq s2 (Ex.seq s3 (Ex.seq s4 (Ex.seq (Ex.ite hgt ?_) (Ex.skip _))))))
            (asg (add_ev rfl (Ev.v rfl rfl) (num_ev (by decide) rfl) hw (by decide) hw') rfl (i64_rng hw'))) hex⟩
          rw [if_pos rfl]
          exact Ex.seq (asg (Ev.v rfl rfl) rfl rρ) (Ex.seq (asg (Ev.v rfl rfl) rfl rm) (Ex.seq (asg (Ev.v rfl rfl) rfl hw) (Ex.skip _)))
        · rw [if_neg h4] at hm
          rw [decide_eq_false h4] at hgt
          obtain ⟨r1, r2, r3, r', x', w₂, d', hex⟩ := ih w' s (some ρ) (some m) (some (divd z)) res (i64_rng hw') hr hx hsw hm
          refine ⟨r1, r2, r3, r', x', w₂, d', Ex.while_true hc (Ex.seq
            (st₁ := E (ivmin ow om sp high low b a (some s.r) (some s.x) (some s.w) (some ρ) (some m) (some w) (some (divd z)) (some l) (some h)) mem)
            (Ex.seq s1 (Ex.seq s2 (Ex.seq s3 (Ex.seq s4 (Ex.seq (Ex.ite hgt ?_) (Ex.skip _))))))
            (asg (add_ev rfl (Ev.v rfl rfl) (num_ev (by decide) rfl) hw (by decide) hw') rfl (i64_rng hw'))) hex⟩
          rw [if_neg (by simp)]
          exact Ex.skip _
    · rw [if_neg h1] at hm
      rw [decide_eq_false h1] at hc
      cases hm
      exact ⟨hr, hx, hsw, r, x, some w, d, Ex.while_false hc⟩

/-- The test that ends the loop `minPos`. -/
abbrev minPosStop : Expr := .bin .ge (.neg (.var n!"d")) (.var n!"r_min")

/-- The loop `minPos`. -/
abbrev minPosLoop : Stmt :=
   (.while (.bin .gt (.var n!"w") (.var n!"l"))
    (.seq (.seq (.assert (.bin .gt (.var n!"w") (.num 0)))
     (.seq (.assign n!"d" (.call n!"divd" (.cons (.bin .mul (.var n!"w") (.var n!"b")) .nil)))
     (.seq (.ite minPosStop
       (.seq .brk
       .skip)
       .skip)
     (.seq (.callAt n!"r" n!"min_red_mul" (.cons (.var n!"a") (.cons (.var n!"b") (.cons (.var n!"w") .nil))) [n!"x"])
     (.seq (.ite (.bin .lt (.var n!"r") (.var n!"r_min"))
       (.seq (.assign n!"r_min" (.var n!"r"))
       (.seq (.assign n!"x_min" (.var n!"x"))
       (.seq (.assign n!"w_min" (.var n!"w"))
       .skip)))
       .skip)
     .skip)))))
    (.assign n!"w" (.bin .sub (.var n!"w") (.num 1)))))

theorem minPos_ex (hF : Funs2 P) {ow om sp : Nat} {high low b a l h : Int} (ha : I64 a) (hb : I64 b) (hl : I64 l) (_ : I64 h) (hab : a ≤ b) :
    ∀ fuel w (s : Best) r x d res, I64 w → I64 s.r → I64 s.x → I64 s.w → minPos true a b l fuel w s = .ok res →
      I64 res.r ∧ I64 res.x ∧ I64 res.w ∧ ∃ r' x' w' d', Ex P G minPosLoop
        (E (ivmin ow om sp high low b a (some s.r) (some s.x) (some s.w) r x (some w) d (some l) (some h)) mem)
        (E (ivmin ow om sp high low b a (some res.r) (some res.x) (some res.w) r' x' w' d' (some l) (some h)) mem) := by
  intro fuel
  induction fuel with
  | zero => intro w s r x d res _ _ _ _ h; simp [minPos] at h
  | succ fuel ih =>
    intro w s r x d res hw hr hx hsw hm
    rw [minPos] at hm
    have hc : Ev P G (.bin .gt (.var n!"w") (.var n!"l")) (E (ivmin ow om sp high low b a (some s.r) (some s.x) (some s.w) r x (some w) d (some l) (some h)) mem)
        (truth (decide (w > l))) := gt_ev rfl (Ev.v rfl rfl) (Ev.v rfl rfl) hw hl
    by_cases h1 : w > l
    · rw [if_pos h1] at hm
      rw [decide_eq_true h1] at hc
      simp only [bind_ok, dassert_ok, pure_ok] at hm
      obtain ⟨_, h2, z, hz, e, he, hm⟩ := hm
      have hd : I64 (divd z) := I64_sar _ (i64_rng hz)
      have s1 : Ex P G (.assert (.bin .gt (.var n!"w") (.num 0)))
          (E (ivmin ow om sp high low b a (some s.r) (some s.x) (some s.w) r x (some w) d (some l) (some h)) mem)
          (E (ivmin ow om sp high low b a (some s.r) (some s.x) (some s.w) r x (some w) d (some l) (some h)) mem) := by
        refine Ex.asserts ?_
        have h5 : decide (w > 0) = true := h2.symm
        rw [← h5]
        exact gt_ev rfl (Ev.v rfl rfl) (num_ev (by decide) rfl) hw (by decide)
      have s2 : Ex P G (.assign n!"d" (.call n!"divd" (.cons (.bin .mul (.var n!"w") (.var n!"b")) .nil)))
          (E (ivmin ow om sp high low b a (some s.r) (some s.x) (some s.w) r x (some w) d (some l) (some h)) mem)
          (E (ivmin ow om sp high low b a (some s.r) (some s.x) (some s.w) r x (some w) (some (divd z)) (some l) (some h)) mem) :=
        asg (divd_ev hF.divd (mul_ev rfl (Ev.v rfl rfl) (Ev.v rfl rfl) hw hb hz) (i64_rng hz)) rfl hd
      have hle : Ev P G minPosStop (E (ivmin ow om sp high low b a (some s.r) (some s.x) (some s.w) r x (some w) (some (divd z)) (some l) (some h)) mem)
          (truth (decide (e ≥ s.r))) := ge_ev rfl (neg_ev (Ev.v rfl rfl) hd he) (Ev.v rfl rfl) (i64_rng he) hr
      by_cases h3 : e ≥ s.r
      · rw [if_pos h3] at hm
        cases hm
        rw [decide_eq_true h3] at hle
        refine ⟨hr, hx, hsw, r, x, some w, some (divd z), Ex.while_brk hc (Rt.left (Rt.seq s1 (Rt.seq s2 (Rt.left (Rt.ite hle ?_)))))⟩
        rw [if_pos rfl]
        exact Rt.left (Rt.brk _)
      · rw [if_neg h3] at hm
        rw [decide_eq_false h3] at hle
        simp only [bind_ok] at hm
        obtain ⟨⟨ρ, m⟩, hρ, w', hw', hm⟩ := hm
        simp only at hm
        obtain ⟨rρ, rm, s4⟩ := min_call (G := G) (mem := mem) hF (x := n!"r") (y := n!"x") (ox := r) (oy := x) (sp := sp)
          (l := ivmin ow om sp high low b a (some s.r) (some s.x) (some s.w) r x (some w) (some (divd z)) (some l) (some h))
          (args := .cons (.var n!"a") (.cons (.var n!"b") (.cons (.var n!"w") .nil))) (s := .i64) (t := .i64) (u := .i64)
          (args3 (Ev.v rfl rfl) (Ev.v rfl rfl) (Ev.v rfl rfl)) rfl rfl rfl ha hb hw hab hρ
        have s3 : Ex P G (.ite minPosStop (.seq .brk .skip) .skip)
            (E (ivmin ow om sp high low b a (some s.r) (some s.x) (some s.w) r x (some w) (some (divd z)) (some l) (some h)) mem)
            (E (ivmin ow om sp high low b a (some s.r) (some s.x) (some s.w) r x (some w) (some (divd z)) (some l) (some h)) mem) :=
          Ex.ite hle (by rw [if_neg (by simp)]; exact Ex.skip _)
        have hgt : Ev P G (.bin .lt (.var n!"r") (.var n!"r_min"))
            (E (ivmin ow om sp high low b a (some s.r) (some s.x) (some s.w) (some ρ) (some m) (some w) (some (divd z)) (some l) (some h)) mem)
            (truth (decide (ρ < s.r))) := lt_ev rfl (Ev.v rfl rfl) (Ev.v rfl rfl) rρ hr
        by_cases h4 : ρ < s.r
        · rw [if_pos h4] at hm
          rw [decide_eq_true h4] at hgt
          obtain ⟨r1, r2, r3, r', x', w₂, d', hex⟩ := ih w' ⟨ρ, m, w⟩ (some ρ) (some m) (some (divd z)) res (i64_rng hw') rρ rm hw hm
          refine ⟨r1, r2, r3, r', x', w₂, d', Ex.while_true hc (Ex.seq
            (st₁ := E (ivmin ow om sp high low b a (some ρ) (some m) (some w) (some ρ) (some m) (some w) (some (divd z)) (some l) (some h)) mem)
            (Ex.seq s1 (Ex.seq s2 (Ex.seq s3 (Ex.seq s4 (Ex.seq (Ex.ite hgt ?_) (Ex.skip _))))))
            (asg (sub_ev rfl (Ev.v rfl rfl) (num_ev (by decide) rfl) hw (by decide) hw') rfl (i64_rng hw'))) hex⟩
          rw [if_pos rfl]
          exact Ex.seq (asg (Ev.v rfl rfl) rfl rρ) (Ex.seq (asg (Ev.v rfl rfl) rfl rm) (Ex.seq (asg (Ev.v rfl rfl) rfl hw) (Ex.skip _)))
        · rw [if_neg h4] at hm
          rw [decide_eq_false h4] at hgt
          obtain ⟨r1, r2, r3, r', x', w₂, d', hex⟩ := ih w' s (some ρ) (some m) (some (divd z)) res (i64_rng hw') hr hx hsw hm
          refine ⟨r1, r2, r3, r', x', w₂, d', Ex.while_true hc (Ex.seq
            (st₁ := E (ivmin ow om sp high low b a (some s.r) (some s.x) (some s.w) (some ρ) (some m) (some w) (some (divd z)) (some l) (some h)) mem)
            (Ex.seq s1 (Ex.seq s2 (Ex.seq s3 (Ex.seq s4 (Ex.seq (Ex.ite hgt ?_) (Ex.skip _))))))
            (asg (sub_ev rfl (Ev.v rfl rfl) (num_ev (by decide) rfl) hw (by decide) hw') rfl (i64_rng hw'))) hex⟩
          rw [if_neg (by simp)]
          exact Ex.skip _
    · rw [if_neg h1] at hm
      rw [decide_eq_false h1] at hc
      cases hm
      exact ⟨hr, hx, hsw, r, x, some w, d, Ex.while_false hc⟩

theorem bind6min {t1 t2 t3 t4 : Ty} {a b low high : Int} {om ow : Nat} (ha : I64 a) (hb : I64 b) (hl : I64 low) (hh : I64 high) :
    bindParams [(n!"a", .int .i64), (n!"b", .int .i64), (n!"low", .int .i64), (n!"high", .int .i64), (n!"m", .ptr 1), (n!"wm", .ptr 1)]
      [.int t1 a, .int t2 b, .int t3 low, .int t4 high, .ptr om 0 1, .ptr ow 0 1] =
      .ok (look [(n!"wm", .ptr ow 0 1), (n!"m", .ptr om 0 1), (n!"high", lc high), (n!"low", lc low), (n!"b", lc b), (n!"a", lc a)]) := by
  simp only [bindParams, ok_bind, conv_i64, toI64_of ha, toI64_of hb, toI64_of hl, toI64_of hh, look_nil, setEnv_look, upd, Nat.reduceEqDiff, reduceIte]

theorem min_red_mul_interval_returns (hF : Funs2 P) {t1 t2 t3 t4 : Ty} {a b low high z1 z2 : Int} {res : Best} {om ow sp : Nat}
    (hP : P.lookup n!"min_red_mul_interval" = some Src.red_bounds.min_red_mul_interval)
    (ha : I64 a) (hb : I64 b) (hlo : I64 low) (hhi : I64 high) (hm : mem om = ⟨.i64, #[z1]⟩) (hw : mem ow = ⟨.i64, #[z2]⟩) (hne : om ≠ ow)
    (h : RedBounds.min_red_mul_interval true a b low high = .ok res) :
    I64 res.r ∧ I64 res.x ∧ I64 res.w ∧ ReturnsAt P G sp n!"min_red_mul_interval" [.int t1 a, .int t2 b, .int t3 low, .int t4 high, .ptr om 0 1, .ptr ow 0 1] mem
      (.int .i64 res.r) (setMem (setMem mem om ⟨.i64, #[res.x]⟩) ow ⟨.i64, #[res.w]⟩) := by
  simp only [RedBounds.min_red_mul_interval, bind_ok, dassert_ok, pure_ok] at h
  obtain ⟨_, h1, h₁, hh₁, s₁, hs₁, l₂, hl₂, hs₂⟩ := h
  have h1' : (decide (a ≤ b) && decide (low ≤ high)) = true := h1.symm
  have hab : a ≤ b := by simp at h1'; exact h1'.1
  have rl1 : I64 (if low < 0 then low else 0) := I64_ite hlo (by decide)
  have rh1 : I64 h₁ := by
    split at hh₁
    · cases hh₁; decide
    · exact i64_rng hh₁
  have rl2 : I64 l₂ := by
    split at hl₂
    · cases hl₂; decide
    · exact i64_rng hl₂
  have rh2 : I64 (if high > 0 then high else 0) := I64_ite hhi (by decide)
  obtain ⟨q1, q2, q3, r₁, x₁, w₁, d₁, e1⟩ := minNeg_ex (G := G) (mem := mem) (ow := ow) (om := om) (sp := sp) (high := high) (low := low) hF ha hb rl1 rh1 hab
    _ _ ⟨0, 0, 0⟩ none none none s₁ rl1 (by decide) (by decide) (by decide) hs₁
  obtain ⟨p1, p2, p3, r₂, x₂, w₂, d₂, e2⟩ := minPos_ex (G := G) (mem := mem) (ow := ow) (om := om) (sp := sp) (high := high) (low := low) hF ha hb rl2 rh2 hab
    _ _ s₁ r₁ x₁ d₁ res rh2 q1 q2 q3 hs₂
  refine ⟨p1, p2, p3, ?_⟩
  refine ReturnsAt.mk (st' := E (ivmin ow om sp high low b a (some res.r) (some res.x) (some res.w) r₂ x₂ w₂ d₂ (some l₂) (some (if high > 0 then high else 0))) _)
    (v := .int .i64 res.r) hP (by decide) (bind6min ha hb hlo hhi) ?_ (result64 p1)
  refine Rt.seq (st₁ := E (ivmin ow om sp high low b a none none none none none none none none none) mem)
    (Ex.mk 10 fun f => by simp only [crun, setEnv_look, upd, Nat.reduceEqDiff, reduceIte])
    (Rt.seq (Ex.asserts ?_)
    (Rt.seq (asg (num_ev (z := 0) (by decide) rfl) rfl (by decide))
    (Rt.seq (asg (num_ev (z := 0) (by decide) rfl) rfl (by decide))
    (Rt.seq (asg (num_ev (z := 0) (by decide) rfl) rfl (by decide))
    (Rt.seq (asg (v := if low < 0 then low else 0) (t := if low < 0 then .i64 else .i32) (cond_ev (r := decide (low < 0)) (lt_ev rfl (Ev.v rfl rfl) (num_ev (by decide) rfl) hlo (by decide)) ?_) rfl rl1)
    (Rt.seq (asg (v := h₁) (t := if high > 0 then .i32 else .i64) (cond_ev (r := decide (high > 0)) (gt_ev rfl (Ev.v rfl rfl) (num_ev (by decide) rfl) hhi (by decide)) ?_) rfl rh1)
    (Rt.seq (Ex.seq (asg (Ev.v rfl rfl) rfl rl1) e1)
    (Rt.seq (asg (v := l₂) (t := if low < 0 then .i32 else .i64) (cond_ev (r := decide (low < 0)) (lt_ev rfl (Ev.v rfl rfl) (num_ev (by decide) rfl) hlo (by decide)) ?_) rfl rl2)
    (Rt.seq (asg (v := if high > 0 then high else 0) (t := if high > 0 then .i64 else .i32) (cond_ev (r := decide (high > 0)) (gt_ev rfl (Ev.v rfl rfl) (num_ev (by decide) rfl) hhi (by decide)) ?_) rfl rh2)
    (Rt.seq (Ex.seq (asg (Ev.v rfl rfl) rfl rh2) e2)
    (Rt.seq (store_ex rfl hm (Ev.v rfl rfl) p2)
    (Rt.seq (store_ex (z := z2) rfl (by rw [setMem_ne hne.symm]; exact hw) (Ev.v rfl rfl) p3)
    (Rt.left (Rt.ret (Ev.v rfl rfl)))))))))))))))
  · rw [← h1']
    exact Ev.land (le_ev rfl (Ev.v rfl rfl) (Ev.v rfl rfl) ha hb) fun _ => le_ev rfl (Ev.v rfl rfl) (Ev.v rfl rfl) hlo hhi
  · by_cases h2 : low < 0
    · simp only [h2, decide_true, if_true]; exact Ev.v rfl rfl
    · simp only [h2, decide_false, Bool.false_eq_true, if_false]; exact num_ev (by decide) rfl
  · by_cases h2 : high > 0
    · rw [if_pos h2] at hh₁
      cases hh₁
      simp only [h2, decide_true, if_true]; exact num_ev (by decide) rfl
    · rw [if_neg h2] at hh₁
      simp only [h2, decide_false, Bool.false_eq_true, if_false]
      exact add_ev rfl (Ev.v rfl rfl) (num_ev (by decide) rfl) hhi (by decide) hh₁
  · by_cases h2 : low < 0
    · rw [if_pos h2] at hl₂
      cases hl₂
      simp only [h2, decide_true, if_true]; exact num_ev (by decide) rfl
    · rw [if_neg h2] at hl₂
      simp only [h2, decide_false, Bool.false_eq_true, if_false]
      exact sub_ev rfl (Ev.v rfl rfl) (num_ev (by decide) rfl) hlo (by decide) hl₂
  · by_cases h2 : high > 0
    · simp only [h2, decide_true, if_true]; exact Ev.v rfl rfl
    · simp only [h2, decide_false, Bool.false_eq_true, if_false]; exact num_ev (by decide) rfl

/-! ### Bounds on the results of butterflies -/

theorem max_icall (hF : Funs2 P) (hP : P.lookup n!"max_red_mul_interval" = some Src.red_bounds.max_red_mul_interval)
    {l : List (Name × Cell)} {x y y' : Name} {args : Expr} {sp : Nat} {t1 t2 t3 t4 : Ty} {a b low high : Int} {s : Best} {ox oy oy' : Option Int}
    (he : EvA P G args (E l mem) [.int t1 a, .int t2 b, .int t3 low, .int t4 high]) (hs : look l 0 = some (.ptr sp 0 1))
    (hy : look l y = some (.int .i64 oy)) (hy' : look l y' = some (.int .i64 oy')) (hne : y ≠ y')
    (hx : look (upd (upd l y (lc s.x)) y' (lc s.w)) x = some (.int .i64 ox)) (ha : I64 a) (hb : I64 b) (hl : I64 low) (hh : I64 high)
    (h : RedBounds.max_red_mul_interval true a b low high = .ok s) :
    I64 s.r ∧ I64 s.x ∧ I64 s.w ∧ Ex P G (.callAt x n!"max_red_mul_interval" args [y, y']) (E l mem)
      (E (upd (upd (upd l y (lc s.x)) y' (lc s.w)) x (lc s.r)) mem) := by
  have hr := fun z z' => max_red_mul_interval_returns (sp := sp + 2) (t1 := t1) (t2 := t2) (t3 := t3) (t4 := t4) (G := G)
    (mem := setMem (setMem mem sp ⟨.i64, #[z]⟩) (sp + 1) ⟨.i64, #[z']⟩) (om := sp) (ow := sp + 1) (z1 := z) (z2 := z') hF hP ha hb hl hh
    (by rw [setMem_ne (by omega), setMem_self]) (by rw [setMem_self]) (by omega) h
  exact ⟨(hr 0 0).1, (hr 0 0).2.1, (hr 0 0).2.2.1, Ex.callAt2 he hs hy hy' hne hx (hr 0 0).1 fun z z' => (hr z z').2.2.2⟩

theorem min_icall (hF : Funs2 P) (hP : P.lookup n!"min_red_mul_interval" = some Src.red_bounds.min_red_mul_interval)
    {l : List (Name × Cell)} {x y y' : Name} {args : Expr} {sp : Nat} {t1 t2 t3 t4 : Ty} {a b low high : Int} {s : Best} {ox oy oy' : Option Int}
    (he : EvA P G args (E l mem) [.int t1 a, .int t2 b, .int t3 low, .int t4 high]) (hs : look l 0 = some (.ptr sp 0 1))
    (hy : look l y = some (.int .i64 oy)) (hy' : look l y' = some (.int .i64 oy')) (hne : y ≠ y')
    (hx : look (upd (upd l y (lc s.x)) y' (lc s.w)) x = some (.int .i64 ox)) (ha : I64 a) (hb : I64 b) (hl : I64 low) (hh : I64 high)
    (h : RedBounds.min_red_mul_interval true a b low high = .ok s) :
    I64 s.r ∧ I64 s.x ∧ I64 s.w ∧ Ex P G (.callAt x n!"min_red_mul_interval" args [y, y']) (E l mem)
      (E (upd (upd (upd l y (lc s.x)) y' (lc s.w)) x (lc s.r)) mem) := by
  have hr := fun z z' => min_red_mul_interval_returns (sp := sp + 2) (t1 := t1) (t2 := t2) (t3 := t3) (t4 := t4) (G := G)
    (mem := setMem (setMem mem sp ⟨.i64, #[z]⟩) (sp + 1) ⟨.i64, #[z']⟩) (om := sp) (ow := sp + 1) (z1 := z) (z2 := z') hF hP ha hb hl hh
    (by rw [setMem_ne (by omega), setMem_self]) (by rw [setMem_self]) (by omega) h
  exact ⟨(hr 0 0).1, (hr 0 0).2.1, (hr 0 0).2.2.1, Ex.callAt2 he hs hy hy' hne hx (hr 0 0).1 fun z z' => (hr z z').2.2.2⟩

theorem args4 {e1 e2 e3 e4 : Expr} {st : State} {v1 v2 v3 v4 : Val} (h1 : Ev P G e1 st v1) (h2 : Ev P G e2 st v2) (h3 : Ev P G e3 st v3)
    (h4 : Ev P G e4 st v4) : EvA P G (.cons e1 (.cons e2 (.cons e3 (.cons e4 .nil)))) st [v1, v2, v3, v4] := EvA.cons h1 (args3 h2 h3 h4)

theorem neg2_ev {st : State} : Ev P G (.neg (.num 2)) st (.int .i32 (-2)) := by
  refine Ev.mk 2 fun f => ?_
  simp only [crun]
  rfl

theorem bind3i {t1 t2 t3 : Ty} {b low high : Int} (hb : I64 b) (hl : I64 low) (hh : I64 high) :
    bindParams [(n!"b", .int .i64), (n!"low", .int .i64), (n!"high", .int .i64)] [.int t1 b, .int t2 low, .int t3 high] =
      .ok (look [(n!"high", lc high), (n!"low", lc low), (n!"b", lc b)]) := by
  simp only [bindParams, ok_bind, conv_i64, toI64_of hb, toI64_of hl, toI64_of hh, look_nil, setEnv_look, upd, Nat.reduceEqDiff, reduceIte]

theorem bind2i {t1 t2 : Ty} {b w : Int} (hb : I64 b) (hw : I64 w) :
    bindParams [(n!"b", .int .i64), (n!"w", .int .i64)] [.int t1 b, .int t2 w] = .ok (look [(n!"w", lc w), (n!"b", lc b)]) := by
  simp only [bindParams, ok_bind, conv_i64, toI64_of hb, toI64_of hw, look_nil, setEnv_look, upd, Nat.reduceEqDiff, reduceIte]

/-- Variables of `ct_bound`. -/
abbrev cti (sp : Nat) (high low b : Int) (min_r max_r min_y min_w max_y max_w b1 b2 : Option Int) : List (Name × Cell) :=
  [(n!"high", lc high), (n!"low", lc low), (n!"b", lc b), (0, .ptr sp 0 1), (n!"min_r", .int .i64 min_r), (n!"max_r", .int .i64 max_r), (n!"min_y", .int .i64 min_y), (n!"min_w", .int .i64 min_w), (n!"max_y", .int .i64 max_y), (n!"max_w", .int .i64 max_w), (n!"b1", .int .i64 b1), (n!"b2", .int .i64 b2)]

theorem ct_bound_returns (hF : Funs2 P) (hmn : P.lookup n!"min_red_mul_interval" = some Src.red_bounds.min_red_mul_interval)
    (hmx : P.lookup n!"max_red_mul_interval" = some Src.red_bounds.max_red_mul_interval) (hP : P.lookup n!"ct_bound" = some Src.red_bounds.ct_bound) {sp : Nat} {t1 t2 t3 : Ty} {b low high r : Int}
    (hb : I64 b) (hl : I64 low) (hh : I64 high) (h : RedBounds.ct_bound true b low high = .ok r) : I64 r ∧ ReturnsAt P G sp n!"ct_bound" [.int t1 b, .int t2 low, .int t3 high] mem (.int .i64 r) mem := by
  simp only [RedBounds.ct_bound, bind_ok, dassert_ok, pure_ok] at h
  obtain ⟨_, h1, nb, hnb, mn, hmin, mx, hmax, h⟩ := h
  have h1' : (decide (b ≥ 0) && decide (low ≤ high)) = true := h1.symm
  have h0 : b ≥ 0 := by simp at h1'; exact h1'.1
  have hnb0 : nb ≤ b := by have := (i64_ok.mp hnb).1; omega
  obtain ⟨rmn, _, _, smn⟩ := min_icall (G := G) (mem := mem) hF hmn (x := n!"min_r") (y := n!"min_y") (y' := n!"min_w") (ox := none) (oy := none) (oy' := none) (sp := sp)
    (l := cti sp high low b none none none none none none none none) (args := (.cons (.neg (.var n!"b")) (.cons (.var n!"b") (.cons (.var n!"low") (.cons (.var n!"high") .nil))))) (t1 := .i64) (t2 := .i64) (t3 := .i64) (t4 := .i64)
    (args4 (neg_ev (Ev.v rfl rfl) hb hnb) (Ev.v rfl rfl) (Ev.v rfl rfl) (Ev.v rfl rfl)) rfl rfl rfl (by decide) rfl (i64_rng hnb) hb hl hh hmin
  obtain ⟨rmx, _, _, smx⟩ := max_icall (G := G) (mem := mem) hF hmx (x := n!"max_r") (y := n!"max_y") (y' := n!"max_w") (ox := none) (oy := none) (oy' := none) (sp := sp)
    (l := cti sp high low b (some mn.r) none (some mn.x) (some mn.w) none none none none) (args := (.cons (.neg (.var n!"b")) (.cons (.var n!"b") (.cons (.var n!"low") (.cons (.var n!"high") .nil))))) (t1 := .i64) (t2 := .i64) (t3 := .i64) (t4 := .i64)
    (args4 (neg_ev (Ev.v rfl rfl) hb hnb) (Ev.v rfl rfl) (Ev.v rfl rfl) (Ev.v rfl rfl)) rfl rfl rfl (by decide) rfl (i64_rng hnb) hb hl hh hmax
  simp only [ctCombine, bind_ok, pure_ok] at h
  obtain ⟨x1, hx1, x2, hx2, y1, hy1, y2, hy2, h⟩ := h
  have ry1 : I64 y1 := by
    split at hy1
    · exact i64_rng hy1
    · cases hy1; exact i64_rng hx1
  have ry2 : I64 y2 := by
    split at hy2
    · exact i64_rng hy2
    · cases hy2; exact i64_rng hx2
  have hr : I64 r := by rw [h]; exact I64_ite ry2 ry1
  have s1 : Ex P G (.ite (.bin .lt (.var n!"b1") (.num 0)) (.assign n!"b1" (.neg (.var n!"b1"))) .skip)
      (E (cti sp high low b (some mn.r) (some mx.r) (some mn.x) (some mn.w) (some mx.x) (some mx.w) (some x1) (some x2)) mem) (E (cti sp high low b (some mn.r) (some mx.r) (some mn.x) (some mn.w) (some mx.x) (some mx.w) (some y1) (some x2)) mem) := by
    refine Ex.ite (lt_ev rfl (Ev.v rfl rfl) (num_ev (by decide) rfl) (i64_rng hx1) (by decide)) ?_
    by_cases h2 : x1 < 0
    · rw [if_pos h2] at hy1
      rw [if_pos (by simpa using h2)]
      exact asg (neg_ev (Ev.v rfl rfl) (i64_rng hx1) hy1) rfl ry1
    · rw [if_neg h2] at hy1
      cases hy1
      rw [if_neg (by simpa using h2)]
      exact Ex.skip _
  have s2 : Ex P G (.ite (.bin .lt (.var n!"b2") (.num 0)) (.assign n!"b2" (.neg (.var n!"b2"))) .skip)
      (E (cti sp high low b (some mn.r) (some mx.r) (some mn.x) (some mn.w) (some mx.x) (some mx.w) (some y1) (some x2)) mem) (E (cti sp high low b (some mn.r) (some mx.r) (some mn.x) (some mn.w) (some mx.x) (some mx.w) (some y1) (some y2)) mem) := by
    refine Ex.ite (lt_ev rfl (Ev.v rfl rfl) (num_ev (by decide) rfl) (i64_rng hx2) (by decide)) ?_
    by_cases h2 : x2 < 0
    · rw [if_pos h2] at hy2
      rw [if_pos (by simpa using h2)]
      exact asg (neg_ev (Ev.v rfl rfl) (i64_rng hx2) hy2) rfl ry2
    · rw [if_neg h2] at hy2
      cases hy2
      rw [if_neg (by simpa using h2)]
      exact Ex.skip _
  refine ⟨hr, ReturnsAt.mk (st' := E (cti sp high low b (some mn.r) (some mx.r) (some mn.x) (some mn.w) (some mx.x) (some mx.w) (some y1) (some y2)) mem) (v := .int .i64 r) hP (by decide) (bind3i hb hl hh) ?_ (result64 hr)⟩
  refine Rt.seq (st₁ := E (cti sp high low b none none none none none none none none) mem) (Ex.mk 10 fun f => by simp only [crun, setEnv_look, upd, Nat.reduceEqDiff, reduceIte])
    (Rt.seq (Ex.asserts (by rw [← h1']; exact (Ev.land (ge_ev rfl (Ev.v rfl rfl) (num_ev (by decide) rfl) hb (by decide)) fun _ => le_ev rfl (Ev.v rfl rfl) (Ev.v rfl rfl) hl hh)))
    (Rt.seq smn (Rt.seq smx
    (Rt.seq (asg (add_ev rfl (Ev.v rfl rfl) (Ev.v rfl rfl) hb rmx hx1) rfl (i64_rng hx1))
    (Rt.seq (asg (sub_ev rfl (Ev.v rfl rfl) (Ev.v rfl rfl) hb rmn hx2) rfl (i64_rng hx2))
    (Rt.seq s1 (Rt.seq s2 (Rt.left (Rt.ret (cond_ev (r := decide (y1 < y2)) (lt_ev rfl (Ev.v rfl rfl) (Ev.v rfl rfl) ry1 ry2) ?_))))))))))
  rw [h]
  by_cases h2 : y1 < y2
  · simp only [h2, decide_true, if_true]; exact Ev.v rfl rfl
  · simp only [h2, decide_false, Bool.false_eq_true, if_false]; exact Ev.v rfl rfl

/-- Variables of `gs_bound`. -/
abbrev gsi (sp : Nat) (high low b : Int) (min_r max_r min_w max_w min_d max_d b1 b2 : Option Int) : List (Name × Cell) :=
  [(n!"high", lc high), (n!"low", lc low), (n!"b", lc b), (0, .ptr sp 0 1), (n!"min_r", .int .i64 min_r), (n!"max_r", .int .i64 max_r), (n!"min_w", .int .i64 min_w), (n!"max_w", .int .i64 max_w), (n!"min_d", .int .i64 min_d), (n!"max_d", .int .i64 max_d), (n!"b1", .int .i64 b1), (n!"b2", .int .i64 b2)]

theorem gs_bound_returns (hF : Funs2 P) (hmn : P.lookup n!"min_red_mul_interval" = some Src.red_bounds.min_red_mul_interval)
    (hmx : P.lookup n!"max_red_mul_interval" = some Src.red_bounds.max_red_mul_interval) (hP : P.lookup n!"gs_bound" = some Src.red_bounds.gs_bound) {sp : Nat} {t1 t2 t3 : Ty} {b low high r : Int}
    (hb : I64 b) (hl : I64 low) (hh : I64 high) (h : RedBounds.gs_bound true b low high = .ok r) : I64 r ∧ ReturnsAt P G sp n!"gs_bound" [.int t1 b, .int t2 low, .int t3 high] mem (.int .i64 r) mem := by
  simp only [RedBounds.gs_bound, bind_ok, dassert_ok, pure_ok] at h
  obtain ⟨_, h1, nb, hnb, pb, hpb, mn, hmin, mx, hmax, h⟩ := h
  have h1' : (decide (b ≥ 0) && decide (low ≤ high)) = true := h1.symm
  have h0 : b ≥ 0 := by simp at h1'; exact h1'.1
  have hnb0 : nb ≤ pb := by have := (i64_ok.mp hnb).1; have := (i64_ok.mp hpb).1; omega
  obtain ⟨rmn, _, _, smn⟩ := min_icall (G := G) (mem := mem) hF hmn (x := n!"min_r") (y := n!"min_d") (y' := n!"min_w") (ox := none) (oy := none) (oy' := none) (sp := sp)
    (l := gsi sp high low b none none none none none none none none) (args := (.cons (.bin .mul (.neg (.num 2)) (.var n!"b")) (.cons (.bin .mul (.num 2) (.var n!"b")) (.cons (.var n!"low") (.cons (.var n!"high") .nil))))) (t1 := .i64) (t2 := .i64) (t3 := .i64) (t4 := .i64)
    (args4 (mul_ev rfl neg2_ev (Ev.v rfl rfl) (by decide) hb hnb) (mul_ev rfl (num_ev (z := 2) (by decide) rfl) (Ev.v rfl rfl) (by decide) hb hpb) (Ev.v rfl rfl) (Ev.v rfl rfl)) rfl rfl rfl (by decide) rfl (i64_rng hnb) (i64_rng hpb) hl hh hmin
  obtain ⟨rmx, _, _, smx⟩ := max_icall (G := G) (mem := mem) hF hmx (x := n!"max_r") (y := n!"max_d") (y' := n!"max_w") (ox := none) (oy := none) (oy' := none) (sp := sp)
    (l := gsi sp high low b (some mn.r) none (some mn.w) none (some mn.x) none none none) (args := (.cons (.bin .mul (.neg (.num 2)) (.var n!"b")) (.cons (.bin .mul (.num 2) (.var n!"b")) (.cons (.var n!"low") (.cons (.var n!"high") .nil))))) (t1 := .i64) (t2 := .i64) (t3 := .i64) (t4 := .i64)
    (args4 (mul_ev rfl neg2_ev (Ev.v rfl rfl) (by decide) hb hnb) (mul_ev rfl (num_ev (z := 2) (by decide) rfl) (Ev.v rfl rfl) (by decide) hb hpb) (Ev.v rfl rfl) (Ev.v rfl rfl)) rfl rfl rfl (by decide) rfl (i64_rng hnb) (i64_rng hpb) hl hh hmax
  simp only [gsCombine, bind_ok, pure_ok] at h
  obtain ⟨nm, hnm, x2, hx2, h⟩ := h
  have ry1 : I64 (if mx.r < 0 then nm else if mn.r > 0 then mx.r else if mx.r > nm then mx.r else nm) :=
    I64_ite (i64_rng hnm) (I64_ite rmx (I64_ite rmx (i64_rng hnm)))
  have ry2 := i64_rng hx2
  have hneg := fun st (hv : Ev P G (.var n!"min_r") st (.int .i64 mn.r)) => neg_ev hv rmn hnm
  have h12 : Ev P G (.cond (.bin .lt (.var n!"max_r") (.num 0)) (.neg (.var n!"min_r")) (.cond (.bin .gt (.var n!"min_r") (.num 0)) (.var n!"max_r")
      (.cond (.bin .gt (.var n!"max_r") (.neg (.var n!"min_r"))) (.var n!"max_r") (.neg (.var n!"min_r")))))
      (E (gsi sp high low b (some mn.r) (some mx.r) (some mn.w) (some mx.w) (some mn.x) (some mx.x) none none) mem)
      (.int .i64 (if mx.r < 0 then nm else if mn.r > 0 then mx.r else if mx.r > nm then mx.r else nm)) := by
    refine cond_ev (r := decide (mx.r < 0)) (lt_ev rfl (Ev.v rfl rfl) (num_ev (by decide) rfl) rmx (by decide)) ?_
    by_cases c1 : mx.r < 0
    · simp only [c1, decide_true, if_true]; exact hneg _ (Ev.v rfl rfl)
    simp only [c1, decide_false, Bool.false_eq_true, if_false]
    refine cond_ev (r := decide (mn.r > 0)) (gt_ev rfl (Ev.v rfl rfl) (num_ev (by decide) rfl) rmn (by decide)) ?_
    by_cases c2 : mn.r > 0
    · simp only [c2, decide_true, if_true]; exact Ev.v rfl rfl
    simp only [c2, decide_false, Bool.false_eq_true, if_false]
    refine cond_ev (r := decide (mx.r > nm)) (gt_ev rfl (Ev.v rfl rfl) (hneg _ (Ev.v rfl rfl)) rmx (i64_rng hnm)) ?_
    by_cases c3 : mx.r > nm
    · simp only [c3, decide_true, if_true]; exact Ev.v rfl rfl
    simp only [c3, decide_false, Bool.false_eq_true, if_false]
    exact hneg _ (Ev.v rfl rfl)
  generalize (if mx.r < 0 then nm else if mn.r > 0 then mx.r else if mx.r > nm then mx.r else nm) = y1 at h ry1 h12
  have hr : I64 r := by rw [h]; exact I64_ite ry2 ry1
  refine ⟨hr, ReturnsAt.mk (st' := E (gsi sp high low b (some mn.r) (some mx.r) (some mn.w) (some mx.w) (some mn.x) (some mx.x) (some y1) (some x2)) mem) (v := .int .i64 r) hP (by decide) (bind3i hb hl hh) ?_ (result64 hr)⟩
  refine Rt.seq (st₁ := E (gsi sp high low b none none none none none none none none) mem) (Ex.mk 10 fun f => by simp only [crun, setEnv_look, upd, Nat.reduceEqDiff, reduceIte])
    (Rt.seq (Ex.asserts (by rw [← h1']; exact (Ev.land (ge_ev rfl (Ev.v rfl rfl) (num_ev (by decide) rfl) hb (by decide)) fun _ => le_ev rfl (Ev.v rfl rfl) (Ev.v rfl rfl) hl hh)))
    (Rt.seq smn (Rt.seq smx
    (Rt.seq (asg h12 rfl ry1)
    (Rt.seq (asg (mul_ev rfl (num_ev (z := 2) (by decide) rfl) (Ev.v rfl rfl) (by decide) hb hx2) rfl ry2)
    (Rt.left (Rt.ret (cond_ev (r := decide (y1 < x2)) (lt_ev rfl (Ev.v rfl rfl) (Ev.v rfl rfl) ry1 ry2) ?_))))))))
  rw [h]
  by_cases h2 : y1 < x2
  · simp only [h2, decide_true, if_true]; exact Ev.v rfl rfl
  · simp only [h2, decide_false, Bool.false_eq_true, if_false]; exact Ev.v rfl rfl

/-- Variables of `ct_bound_fixed`. -/
abbrev ctf (sp : Nat) (w b : Int) (min_r max_r min_y max_y b1 b2 : Option Int) : List (Name × Cell) :=
  [(n!"w", lc w), (n!"b", lc b), (0, .ptr sp 0 1), (n!"min_r", .int .i64 min_r), (n!"max_r", .int .i64 max_r), (n!"min_y", .int .i64 min_y), (n!"max_y", .int .i64 max_y), (n!"b1", .int .i64 b1), (n!"b2", .int .i64 b2)]

theorem ct_bound_fixed_returns (hF : Funs2 P) (hP : P.lookup n!"ct_bound_fixed" = some Src.red_bounds.ct_bound_fixed) {sp : Nat} {t1 t2 : Ty} {b w r : Int}
    (hb : I64 b) (hw : I64 w) (h : RedBounds.ct_bound_fixed true b w = .ok r) : I64 r ∧ ReturnsAt P G sp n!"ct_bound_fixed" [.int t1 b, .int t2 w] mem (.int .i64 r) mem := by
  simp only [RedBounds.ct_bound_fixed, bind_ok, dassert_ok, pure_ok] at h
  obtain ⟨_, h1, nb, hnb, mn, hmin, mx, hmax, h⟩ := h
  have h1' : decide (b ≥ 0) = true := h1.symm
  have h0 : b ≥ 0 := by simpa using h1'
  have hnb0 : nb ≤ b := by have := (i64_ok.mp hnb).1; omega
  obtain ⟨rmn, _, smn⟩ := min_call (G := G) (mem := mem) hF (x := n!"min_r") (y := n!"min_y") (ox := none) (oy := none) (sp := sp) (r := mn.1) (m := mn.2)
    (l := ctf sp w b none none none none none none) (args := (.cons (.neg (.var n!"b")) (.cons (.var n!"b") (.cons (.var n!"w") .nil)))) (s := .i64) (t := .i64) (u := .i64)
    (args3 (neg_ev (Ev.v rfl rfl) hb hnb) (Ev.v rfl rfl) (Ev.v rfl rfl)) rfl rfl rfl (i64_rng hnb) hb hw hnb0 hmin
  obtain ⟨rmx, _, smx⟩ := max_call (G := G) (mem := mem) hF (x := n!"max_r") (y := n!"max_y") (ox := none) (oy := none) (sp := sp) (r := mx.1) (m := mx.2)
    (l := ctf sp w b (some mn.1) none (some mn.2) none none none) (args := (.cons (.neg (.var n!"b")) (.cons (.var n!"b") (.cons (.var n!"w") .nil)))) (s := .i64) (t := .i64) (u := .i64)
    (args3 (neg_ev (Ev.v rfl rfl) hb hnb) (Ev.v rfl rfl) (Ev.v rfl rfl)) rfl rfl rfl (i64_rng hnb) hb hw hnb0 hmax
  simp only [ctCombine, bind_ok, pure_ok] at h
  obtain ⟨x1, hx1, x2, hx2, y1, hy1, y2, hy2, h⟩ := h
  have ry1 : I64 y1 := by
    split at hy1
    · exact i64_rng hy1
    · cases hy1; exact i64_rng hx1
  have ry2 : I64 y2 := by
    split at hy2
    · exact i64_rng hy2
    · cases hy2; exact i64_rng hx2
  have hr : I64 r := by rw [h]; exact I64_ite ry2 ry1
  have s1 : Ex P G (.ite (.bin .lt (.var n!"b1") (.num 0)) (.assign n!"b1" (.neg (.var n!"b1"))) .skip)
      (E (ctf sp w b (some mn.1) (some mx.1) (some mn.2) (some mx.2) (some x1) (some x2)) mem) (E (ctf sp w b (some mn.1) (some mx.1) (some mn.2) (some mx.2) (some y1) (some x2)) mem) := by
    refine Ex.ite (lt_ev rfl (Ev.v rfl rfl) (num_ev (by decide) rfl) (i64_rng hx1) (by decide)) ?_
    by_cases h2 : x1 < 0
    · rw [if_pos h2] at hy1
      rw [if_pos (by simpa using h2)]
      exact asg (neg_ev (Ev.v rfl rfl) (i64_rng hx1) hy1) rfl ry1
    · rw [if_neg h2] at hy1
      cases hy1
      rw [if_neg (by simpa using h2)]
      exact Ex.skip _
  have s2 : Ex P G (.ite (.bin .lt (.var n!"b2") (.num 0)) (.assign n!"b2" (.neg (.var n!"b2"))) .skip)
      (E (ctf sp w b (some mn.1) (some mx.1) (some mn.2) (some mx.2) (some y1) (some x2)) mem) (E (ctf sp w b (some mn.1) (some mx.1) (some mn.2) (some mx.2) (some y1) (some y2)) mem) := by
    refine Ex.ite (lt_ev rfl (Ev.v rfl rfl) (num_ev (by decide) rfl) (i64_rng hx2) (by decide)) ?_
    by_cases h2 : x2 < 0
    · rw [if_pos h2] at hy2
      rw [if_pos (by simpa using h2)]
      exact asg (neg_ev (Ev.v rfl rfl) (i64_rng hx2) hy2) rfl ry2
    · rw [if_neg h2] at hy2
      cases hy2
      rw [if_neg (by simpa using h2)]
      exact Ex.skip _
  refine ⟨hr, ReturnsAt.mk (st' := E (ctf sp w b (some mn.1) (some mx.1) (some mn.2) (some mx.2) (some y1) (some y2)) mem) (v := .int .i64 r) hP (by decide) (bind2i hb hw) ?_ (result64 hr)⟩
  refine Rt.seq (st₁ := E (ctf sp w b none none none none none none) mem) (Ex.mk 10 fun f => by simp only [crun, setEnv_look, upd, Nat.reduceEqDiff, reduceIte])
    (Rt.seq (Ex.asserts (by rw [← h1']; exact (ge_ev rfl (Ev.v rfl rfl) (num_ev (by decide) rfl) hb (by decide))))
    (Rt.seq smn (Rt.seq smx
    (Rt.seq (asg (add_ev rfl (Ev.v rfl rfl) (Ev.v rfl rfl) hb rmx hx1) rfl (i64_rng hx1))
    (Rt.seq (asg (sub_ev rfl (Ev.v rfl rfl) (Ev.v rfl rfl) hb rmn hx2) rfl (i64_rng hx2))
    (Rt.seq s1 (Rt.seq s2 (Rt.left (Rt.ret (cond_ev (r := decide (y1 < y2)) (lt_ev rfl (Ev.v rfl rfl) (Ev.v rfl rfl) ry1 ry2) ?_))))))))))
  rw [h]
  by_cases h2 : y1 < y2
  · simp only [h2, decide_true, if_true]; exact Ev.v rfl rfl
  · simp only [h2, decide_false, Bool.false_eq_true, if_false]; exact Ev.v rfl rfl

/-- Variables of `gs_bound_fixed`. -/
abbrev gsf (sp : Nat) (w b : Int) (min_r max_r min_y max_y b1 b2 : Option Int) : List (Name × Cell) :=
  [(n!"w", lc w), (n!"b", lc b), (0, .ptr sp 0 1), (n!"min_r", .int .i64 min_r), (n!"max_r", .int .i64 max_r), (n!"min_y", .int .i64 min_y), (n!"max_y", .int .i64 max_y), (n!"b1", .int .i64 b1), (n!"b2", .int .i64 b2)]

theorem gs_bound_fixed_returns (hF : Funs2 P) (hP : P.lookup n!"gs_bound_fixed" = some Src.red_bounds.gs_bound_fixed) {sp : Nat} {t1 t2 : Ty} {b w r : Int}
    (hb : I64 b) (hw : I64 w) (h : RedBounds.gs_bound_fixed true b w = .ok r) : I64 r ∧ ReturnsAt P G sp n!"gs_bound_fixed" [.int t1 b, .int t2 w] mem (.int .i64 r) mem := by
  simp only [RedBounds.gs_bound_fixed, bind_ok, dassert_ok, pure_ok] at h
  obtain ⟨_, h1, nb, hnb, pb, hpb, mn, hmin, mx, hmax, h⟩ := h
  have h1' : decide (b ≥ 0) = true := h1.symm
  have h0 : b ≥ 0 := by simpa using h1'
  have hnb0 : nb ≤ pb := by have := (i64_ok.mp hnb).1; have := (i64_ok.mp hpb).1; omega
  obtain ⟨rmn, _, smn⟩ := min_call (G := G) (mem := mem) hF (x := n!"min_r") (y := n!"min_y") (ox := none) (oy := none) (sp := sp) (r := mn.1) (m := mn.2)
    (l := gsf sp w b none none none none none none) (args := (.cons (.bin .mul (.neg (.num 2)) (.var n!"b")) (.cons (.bin .mul (.num 2) (.var n!"b")) (.cons (.var n!"w") .nil)))) (s := .i64) (t := .i64) (u := .i64)
    (args3 (mul_ev rfl neg2_ev (Ev.v rfl rfl) (by decide) hb hnb) (mul_ev rfl (num_ev (z := 2) (by decide) rfl) (Ev.v rfl rfl) (by decide) hb hpb) (Ev.v rfl rfl)) rfl rfl rfl (i64_rng hnb) (i64_rng hpb) hw hnb0 hmin
  obtain ⟨rmx, _, smx⟩ := max_call (G := G) (mem := mem) hF (x := n!"max_r") (y := n!"max_y") (ox := none) (oy := none) (sp := sp) (r := mx.1) (m := mx.2)
    (l := gsf sp w b (some mn.1) none (some mn.2) none none none) (args := (.cons (.bin .mul (.neg (.num 2)) (.var n!"b")) (.cons (.bin .mul (.num 2) (.var n!"b")) (.cons (.var n!"w") .nil)))) (s := .i64) (t := .i64) (u := .i64)
    (args3 (mul_ev rfl neg2_ev (Ev.v rfl rfl) (by decide) hb hnb) (mul_ev rfl (num_ev (z := 2) (by decide) rfl) (Ev.v rfl rfl) (by decide) hb hpb) (Ev.v rfl rfl)) rfl rfl rfl (i64_rng hnb) (i64_rng hpb) hw hnb0 hmax
  simp only [gsCombine, bind_ok, pure_ok] at h
  obtain ⟨nm, hnm, x2, hx2, h⟩ := h
  have ry1 : I64 (if mx.1 < 0 then nm else if mn.1 > 0 then mx.1 else if mx.1 > nm then mx.1 else nm) :=
    I64_ite (i64_rng hnm) (I64_ite rmx (I64_ite rmx (i64_rng hnm)))
  have ry2 := i64_rng hx2
  have hneg := fun st (hv : Ev P G (.var n!"min_r") st (.int .i64 mn.1)) => neg_ev hv rmn hnm
  have h12 : Ev P G (.cond (.bin .lt (.var n!"max_r") (.num 0)) (.neg (.var n!"min_r")) (.cond (.bin .gt (.var n!"min_r") (.num 0)) (.var n!"max_r")
      (.cond (.bin .gt (.var n!"max_r") (.neg (.var n!"min_r"))) (.var n!"max_r") (.neg (.var n!"min_r")))))
      (E (gsf sp w b (some mn.1) (some mx.1) (some mn.2) (some mx.2) none none) mem)
      (.int .i64 (if mx.1 < 0 then nm else if mn.1 > 0 then mx.1 else if mx.1 > nm then mx.1 else nm)) := by
    refine cond_ev (r := decide (mx.1 < 0)) (lt_ev rfl (Ev.v rfl rfl) (num_ev (by decide) rfl) rmx (by decide)) ?_
    by_cases c1 : mx.1 < 0
    · simp only [c1, decide_true, if_true]; exact hneg _ (Ev.v rfl rfl)
    simp only [c1, decide_false, Bool.false_eq_true, if_false]
    refine cond_ev (r := decide (mn.1 > 0)) (gt_ev rfl (Ev.v rfl rfl) (num_ev (by decide) rfl) rmn (by decide)) ?_
    by_cases c2 : mn.1 > 0
    · simp only [c2, decide_true, if_true]; exact Ev.v rfl rfl
    simp only [c2, decide_false, Bool.false_eq_true, if_false]
    refine cond_ev (r := decide (mx.1 > nm)) (gt_ev rfl (Ev.v rfl rfl) (hneg _ (Ev.v rfl rfl)) rmx (i64_rng hnm)) ?_
    by_cases c3 : mx.1 > nm
    · simp only [c3, decide_true, if_true]; exact Ev.v rfl rfl
    simp only [c3, decide_false, Bool.false_eq_true, if_false]
    exact hneg _ (Ev.v rfl rfl)
  generalize (if mx.1 < 0 then nm else if mn.1 > 0 then mx.1 else if mx.1 > nm then mx.1 else nm) = y1 at h ry1 h12
  have hr : I64 r := by rw [h]; exact I64_ite ry2 ry1
  refine ⟨hr, ReturnsAt.mk (st' := E (gsf sp w b (some mn.1) (some mx.1) (some mn.2) (some mx.2) (some y1) (some x2)) mem) (v := .int .i64 r) hP (by decide) (bind2i hb hw) ?_ (result64 hr)⟩
  refine Rt.seq (st₁ := E (gsf sp w b none none none none none none) mem) (Ex.mk 10 fun f => by simp only [crun, setEnv_look, upd, Nat.reduceEqDiff, reduceIte])
    (Rt.seq (Ex.asserts (by rw [← h1']; exact (ge_ev rfl (Ev.v rfl rfl) (num_ev (by decide) rfl) hb (by decide))))
    (Rt.seq smn (Rt.seq smx
    (Rt.seq (asg h12 rfl ry1)
    (Rt.seq (asg (mul_ev rfl (num_ev (z := 2) (by decide) rfl) (Ev.v rfl rfl) (by decide) hb hx2) rfl ry2)
    (Rt.left (Rt.ret (cond_ev (r := decide (y1 < x2)) (lt_ev rfl (Ev.v rfl rfl) (Ev.v rfl rfl) ry1 ry2) ?_))))))))
  rw [h]
  by_cases h2 : y1 < x2
  · simp only [h2, decide_true, if_true]; exact Ev.v rfl rfl
  · simp only [h2, decide_false, Bool.false_eq_true, if_false]; exact Ev.v rfl rfl

/-! ### Bounds for whole transforms -/

theorem rd_table {p : Array Int} {i : Nat} {w : Int} (hp : Spec.Table16 p) (h : rd p i = .ok w) : I64 w := by
  have h2 : p[i]? = some w := by
    unfold rd at h
    split at h
    · cases h; assumption
    · cases h
  have := hp i w h2
  unfold I64
  omega

/-- `a[i] = e` for an array of elements of type `int64_t` -/
theorem store_arr {l : List (Name × Cell)} {x i : Name} {e : Expr} {t : Ty} {v : Int} {o k : Nat} {a a' : Array Int} (hx : look l x = some (.ptr o 0 1))
    (hi : look l i = some (uc k)) (hm : mem o = ⟨.i64, a⟩) (he : Ev P G e (E l mem) (.int t v)) (hv : I64 v) (hw : wr a k v = .ok a') :
    Ex P G (.store (.var x) (.var i) e) (E l mem) (E l (setMem mem o ⟨.i64, a'⟩)) := by
  refine Ex.store (Ev.v hx rfl) (Ev.v hi rfl) he ?_
  rw [storeAt_nat]
  show (wr (mem o).data k (conv (mem o).ty v) >>= _) = _
  rw [hm]
  show (wr a k (toI64 v) >>= _) = _
  rw [toI64_of hv, hw]
  simp only [ok_bind, hm]

/-- `p[i]` for an array of elements of type `int16_t` -/
theorem table_ev {l : List (Name × Cell)} {x : Name} {e : Expr} {t : Ty} {o k : Nat} {p : Array Int} {w : Int} (hx : look l x = some (.ptr o 0 1))
    (hm : mem o = ⟨.i16, p⟩) (he : Ev P G e (E l mem) (.int t (k : Int))) (hw : rd p k = .ok w) :
    Ev P G (.idx (.var x) e) (E l mem) (.int .i16 w) := by
  refine Ev.idx (Ev.v hx rfl) he ?_
  rw [load_nat]
  show (rd (mem o).data k >>= _) = _
  simp only [hm, hw, ok_bind]

theorem bind4n {t1 t2 : Ty} {b0 : Int} {n op ob : Nat} (hb : I64 b0) (hn : n < 4294967296) :
    bindParams [(n!"b0", .int .i64), (n!"n", .int .u32), (n!"p", .ptr 1), (n!"bound", .ptr 1)] [.int t1 b0, .int t2 (n : Int), .ptr op 0 1, .ptr ob 0 1] =
      .ok (look [(n!"bound", .ptr ob 0 1), (n!"p", .ptr op 0 1), (n!"n", uc n), (n!"b0", lc b0)]) := by
  simp only [bindParams, ok_bind, conv_i64, toI64_of hb, conv_u32_nat, u32_of hn, look_nil, setEnv_look, upd, Nat.reduceEqDiff, reduceIte]

theorem args2 {e1 e2 : Expr} {st : State} {v1 v2 : Val} (h1 : Ev P G e1 st v1) (h2 : Ev P G e2 st v2) :
    EvA P G (.cons e1 (.cons e2 .nil)) st [v1, v2] := EvA.cons h1 (EvA.cons h2 (EvA.nil _))

/-- Variables of `ntt_ct_bounds`. -/
abbrev nvct (ob op sp n : Nat) (b0 : Int) (j t k b c d : Option Int) : List (Name × Cell) :=
  [(n!"bound", .ptr ob 0 1), (n!"p", .ptr op 0 1), (n!"n", uc n), (n!"b0", lc b0), (0, .ptr sp 0 1), (n!"j", .int .u32 j), (n!"t", .int .u32 t),
    (n!"k", .int .u32 k), (n!"b", .int .i64 b), (n!"c", .int .i64 c), (n!"d", .int .i64 d)]

/-- The inner loop of `ntt_ct_bounds`. -/
abbrev innerct : Stmt :=
  (.while (.bin .lt (.var n!"j") (.var n!"t"))
    (.seq (.seq (.callAt n!"d" n!"ct_bound_fixed" (.cons (.var n!"b") (.cons (.idx (.var n!"p") (.bin .add (.var n!"t") (.var n!"j"))) .nil)) [])
     (.seq (.ite (.bin .gt (.var n!"d") (.var n!"c"))
       (.assign n!"c" (.var n!"d"))
       .skip)
     .skip))
    (.assign n!"j" (.bin .add (.var n!"j") (.num 1)))))

/-- The body of the outer loop. -/
abbrev roundct : Stmt :=
  (.seq (.assign n!"k" (.bin .add (.var n!"k") (.num 1)))
     (.seq (.callAt n!"c" n!"ct_bound_fixed" (.cons (.var n!"b") (.cons (.idx (.var n!"p") (.var n!"t")) .nil)) [])
     (.seq (.seq (.assign n!"j" (.num 1)) innerct)
     (.seq (.store (.var n!"bound") (.var n!"k") (.var n!"c"))
     (.seq (.assign n!"b" (.var n!"c"))
     .skip)))))

/-- `ntt_ct_bounds`, where calls of functions that take addresses are statements. -/
def nttct : Fun := ⟨some .i64, [(n!"b0", .int .i64), (n!"n", .int .u32), (n!"p", .ptr 1), (n!"bound", .ptr 1)],
  (.seq (.seq (.decl .u32 n!"j")
   (.seq (.decl .u32 n!"t")
   (.decl .u32 n!"k")))
  (.seq (.seq (.decl .i64 n!"b")
   (.seq (.decl .i64 n!"c")
   (.decl .i64 n!"d")))
  (.seq (.assign n!"b" (.var n!"b0"))
  (.seq (.assign n!"k" (.num 0))
  (.seq (.store (.var n!"bound") (.var n!"k") (.var n!"b0"))
  (.seq (.seq (.assign n!"t" (.num 1))
   (.while (.bin .lt (.var n!"t") (.var n!"n"))
    (.seq roundct
    (.assign n!"t" (.bin .shl (.var n!"t") (.num 1))))))
  (.seq (.ret (.var n!"b"))
  .skip)))))))⟩

theorem fixed_callct (hF : Funs2 P) (hC : P.lookup n!"ct_bound_fixed" = some Src.red_bounds.ct_bound_fixed) {l : List (Name × Cell)} {x : Name} {args : Expr}
    {sp : Nat} {t1 t2 : Ty} {b w r : Int} {ox : Option Int} (he : EvA P G args (E l mem) [.int t1 b, .int t2 w]) (hs : look l 0 = some (.ptr sp 0 1))
    (hx : look l x = some (.int .i64 ox)) (hb : I64 b) (hw : I64 w) (h : RedBounds.ct_bound_fixed true b w = .ok r) :
    I64 r ∧ Ex P G (.callAt x n!"ct_bound_fixed" args []) (E l mem) (E (upd l x (lc r)) mem) := by
  obtain ⟨h1, h2⟩ := ct_bound_fixed_returns (G := G) (mem := mem) (sp := sp) (t1 := t1) (t2 := t2) hF hC hb hw h
  exact ⟨h1, Ex.callAt0 he hs hx h1 h2⟩

theorem innerct_ex (hF : Funs2 P) (hC : P.lookup n!"ct_bound_fixed" = some Src.red_bounds.ct_bound_fixed) {ob op sp n t k : Nat} {b0 b : Int} {p : Array Int}
    (hm : mem op = ⟨.i16, p⟩) (hp : Spec.Table16 p) (ht : t < 4294967296) (hb : I64 b) {fuel : Nat} {c c' : Int} {d : Option Int} (hc : I64 c)
    (h : cfor (fun i => decide (i < t)) (fun i => u32 (i + 1)) (fun j c => do
      let w ← rd p (u32 (t + j))
      let d ← RedBounds.ct_bound_fixed true b w
      pure (if d > c then d else c)) fuel 1 c = .ok c') :
    I64 c' ∧ ∃ j' d', Ex P G innerct (E (nvct ob op sp n b0 (some (1 : Nat)) (some (t : Nat)) (some (k : Nat)) (some b) (some c) d) mem)
      (E (nvct ob op sp n b0 j' (some (t : Nat)) (some (k : Nat)) (some b) (some c') d') mem) := by
  obtain ⟨st', j', hw, ⟨d', hst⟩, h1, h2⟩ := Ex.while_cfor (P := P) (G := G) (c := .bin .lt (.var n!"j") (.var n!"t"))
    (s := .seq (.seq (.callAt n!"d" n!"ct_bound_fixed" (.cons (.var n!"b") (.cons (.idx (.var n!"p") (.bin .add (.var n!"t") (.var n!"j"))) .nil)) [])
     (.seq (.ite (.bin .gt (.var n!"d") (.var n!"c"))
       (.assign n!"c" (.var n!"d"))
       .skip)
     .skip))
    (.assign n!"j" (.bin .add (.var n!"j") (.num 1))))
    (fun j (c : Int) st => (∃ d, st = E (nvct ob op sp n b0 (some (j : Nat)) (some (t : Nat)) (some (k : Nat)) (some b) (some c) d) mem) ∧ I64 c ∧ j < 4294967296)
    (by
      rintro j c st ⟨⟨d, rfl⟩, _, hj⟩
      exact Ev.bin (x := .int .u32 (j : Nat)) (y := .int .u32 (t : Nat)) (Ev.v rfl rfl) (Ev.v rfl rfl) (binop_ltU hj ht))
    (by
      rintro j c c' st ⟨⟨d, rfl⟩, hc, hj⟩ _ hb'
      simp only [bind_ok, pure_ok] at hb'
      obtain ⟨w, hw, r, hr, rfl⟩ := hb'
      have hti : Ev P G (.bin .add (.var n!"t") (.var n!"j")) (E (nvct ob op sp n b0 (some (j : Nat)) (some (t : Nat)) (some (k : Nat)) (some b) (some c) d) mem)
          (.int .u32 (u32 (t + j) : Nat)) := Ev.bin (Ev.v rfl rfl) (Ev.v rfl rfl) (binop_addU ht hj)
      obtain ⟨rr, e1⟩ := fixed_callct (G := G) (mem := mem) (x := n!"d") (ox := d) (sp := sp) (t1 := .i64) (t2 := .i16) (b := b) hF hC
        (l := nvct ob op sp n b0 (some (j : Nat)) (some (t : Nat)) (some (k : Nat)) (some b) (some c) d)
        (args := .cons (.var n!"b") (.cons (.idx (.var n!"p") (.bin .add (.var n!"t") (.var n!"j"))) .nil))
        (args2 (Ev.v rfl rfl) (table_ev rfl hm hti hw)) rfl rfl hb (rd_table hp hw) hr
      refine ⟨E (nvct ob op sp n b0 (some (u32 (j + 1) : Nat)) (some (t : Nat)) (some (k : Nat)) (some b) (some (if r > c then r else c)) (some r)) mem,
        Ex.seq (st₁ := E (nvct ob op sp n b0 (some (j : Nat)) (some (t : Nat)) (some (k : Nat)) (some b) (some (if r > c then r else c)) (some r)) mem)
          (Ex.seq e1 (Ex.seq (Ex.ite (gt_ev rfl (Ev.v rfl rfl) (Ev.v rfl rfl) rr hc) ?_) (Ex.skip _)))
          (Ex.asgu (t' := .u32) (Ev.bin (Ev.v rfl rfl) (num_ev (z := 1) (by decide) rfl) (binop_incU hj)) rfl (u32_lt _)), ⟨_, rfl⟩, I64_ite rr hc, u32_lt _⟩
      by_cases h2 : r > c
      · rw [if_pos (by simpa using h2), if_pos h2]
        exact asg (Ev.v rfl rfl) rfl rr
      · rw [if_neg (by simpa using h2), if_neg h2]
        exact Ex.skip _)
    fuel 1 c c' _ ⟨⟨d, rfl⟩, hc, by decide⟩ h
  subst hst
  exact ⟨h1, _, _, hw⟩

theorem nttct_returns (hF : Funs2 P) (hC : P.lookup n!"ct_bound_fixed" = some Src.red_bounds.ct_bound_fixed) (hP : P.lookup n!"ntt_ct_bounds" = some nttct)
    {t1 t2 : Ty} {sp op ob n : Nat} {b0 B : Int} {p bound bound' : Array Int} (hm : mem op = ⟨.i16, p⟩) (hm' : mem ob = ⟨.i64, bound⟩) (hp : Spec.Table16 p)
    (hn : n < 4294967296) (hb : I64 b0) (h : RedBounds.ntt_ct_bounds true b0 n p bound = .ok (B, bound')) :
    ReturnsAt P G sp n!"ntt_ct_bounds" [.int t1 b0, .int t2 (n : Int), .ptr op 0 1, .ptr ob 0 1] mem (.int .i64 B) (setMem mem ob ⟨.i64, bound'⟩) := by
  have hne : op ≠ ob := by
    rintro rfl
    rw [hm] at hm'
    simp at hm'
  simp only [RedBounds.ntt_ct_bounds, bind_ok, pure_ok] at h
  obtain ⟨bound₁, h1, ⟨k', b', bound₂⟩, h2, h3⟩ := h
  simp only [Prod.mk.injEq] at h3
  obtain ⟨rfl, rfl⟩ := h3
  obtain ⟨st', t', hw, ⟨j', c', d', hst⟩, hB, _, _⟩ := Ex.while_cfor (P := P) (G := G) (c := (.bin .lt (.var n!"t") (.var n!"n")))
    (s := .seq roundct (.assign n!"t" (.bin .shl (.var n!"t") (.num 1))))
    (fun t (s : Nat × Int × Array Int) st => (∃ j c d, st = E (nvct ob op sp n b0 j (some (t : Nat)) (some (s.1 : Nat)) (some s.2.1) c d) (setMem mem ob ⟨.i64, s.2.2⟩)) ∧
      I64 s.2.1 ∧ s.1 < 4294967296 ∧ t < 4294967296)
    (by
      rintro t ⟨k, b, bd⟩ st ⟨⟨j, c, d, rfl⟩, _, _, ht⟩
      exact Ev.bin (x := .int .u32 (t : Nat)) (y := .int .u32 (n : Nat)) (Ev.v rfl rfl) (Ev.v rfl rfl) (binop_ltU ht hn))
    (by
      rintro t ⟨k, b, bd⟩ s' st ⟨⟨j, c, d, rfl⟩, hb', hk, ht⟩ _ hbody
      simp only at hb' hk
      simp only [boundsRound, forUp, bind_ok, pure_ok] at hbody
      obtain ⟨w, hw, c₁, hc₁, c₂, hc₂, bd', hbd, rfl⟩ := hbody
      have hmo : (setMem mem ob ⟨.i64, bd⟩) op = ⟨.i16, p⟩ := by rw [setMem_ne hne, hm]
      obtain ⟨rc, e1⟩ := fixed_callct (G := G) (mem := setMem mem ob ⟨.i64, bd⟩) (x := n!"c") (ox := c) (sp := sp) (t1 := .i64) (t2 := .i16) (b := b) hF hC
        (l := nvct ob op sp n b0 j (some (t : Nat)) (some (u32 (k + 1) : Nat)) (some b) c d)
        (args := .cons (.var n!"b") (.cons (.idx (.var n!"p") (.var n!"t")) .nil))
        (args2 (Ev.v rfl rfl) (table_ev (t := .u32) rfl hmo (Ev.v rfl rfl) hw)) rfl rfl hb' (rd_table hp hw) hc₁
      obtain ⟨rc2, j2, d2, e2⟩ := innerct_ex (G := G) (ob := ob) (sp := sp) (n := n) (k := u32 (k + 1)) (b0 := b0) (d := d) hF hC hmo hp ht hb' rc hc₂
      refine ⟨E (nvct ob op sp n b0 j2 (some (u32 (2 * t) : Nat)) (some (u32 (k + 1) : Nat)) (some c₂) (some c₂) d2) (setMem mem ob ⟨.i64, bd'⟩),
        Ex.seq (st₁ := E (nvct ob op sp n b0 j2 (some (t : Nat)) (some (u32 (k + 1) : Nat)) (some c₂) (some c₂) d2) (setMem mem ob ⟨.i64, bd'⟩))
          (Ex.seq (Ex.asgu (t' := .u32) (Ev.bin (Ev.v rfl rfl) (num_ev (z := 1) (by decide) rfl) (binop_incU hk)) rfl (u32_lt _))
          (Ex.seq e1 (Ex.seq (Ex.seq (Ex.asgu (v := 1) (num_ev (by decide) rfl) rfl (by decide)) e2) (Ex.seq (st₁ := E (nvct ob op sp n b0 j2 (some (t : Nat)) (some (u32 (k + 1) : Nat)) (some b) (some c₂) d2) (setMem mem ob ⟨.i64, bd'⟩)) ?_
          (Ex.seq (asg (Ev.v rfl rfl) rfl rc2) (Ex.skip _))))))
          (Ex.asgu (t' := .u32) (Ev.bin (Ev.v rfl rfl) (num_ev (z := 1) (by decide) rfl) (binop_shlU ht)) rfl (u32_lt _)), ⟨_, _, _, rfl⟩, rc2, u32_lt _, (u32_lt _)⟩
      have := store_arr (P := P) (G := G) (mem := setMem mem ob ⟨.i64, bd⟩) (l := nvct ob op sp n b0 j2 (some (t : Nat)) (some (u32 (k + 1) : Nat)) (some b) (some c₂) d2)
        (x := n!"bound") (i := n!"k") (e := .var n!"c") (t := .i64) (o := ob) rfl rfl (setMem_self _ _ _) (Ev.v rfl rfl) rc2 hbd
      rw [setMem_setMem] at this
      exact this)
    34 1 (0, b0, bound₁) (k', B, bound') (E (nvct ob op sp n b0 none (some (1 : Nat)) (some (0 : Nat)) (some b0) none none) (setMem mem ob ⟨.i64, bound₁⟩))
    ⟨⟨none, none, none, rfl⟩, hb, show 0 < 4294967296 by decide, by decide⟩ h2
  subst hst
  simp only at hB hw
  refine ReturnsAt.mk (st' := E (nvct ob op sp n b0 j' (some (t' : Nat)) (some (k' : Nat)) (some B) c' d') (setMem mem ob ⟨.i64, bound'⟩)) (v := .int .i64 B) hP (by decide)
    (bind4n hb hn) ?_ (result64 hB)
  refine Rt.seq (st₁ := E [(n!"bound", .ptr ob 0 1), (n!"p", .ptr op 0 1), (n!"n", uc n), (n!"b0", lc b0), (0, .ptr sp 0 1), (n!"j", .int .u32 none), (n!"t", .int .u32 none),
      (n!"k", .int .u32 none)] mem) (Ex.mk 10 fun f => by simp only [crun, setEnv_look, upd, Nat.reduceEqDiff, reduceIte])
    (Rt.seq (st₁ := E (nvct ob op sp n b0 none none none none none none) mem) (Ex.mk 10 fun f => by simp only [crun, setEnv_look, upd, Nat.reduceEqDiff, reduceIte])
    (Rt.seq (asg (Ev.v rfl rfl) rfl hb)
    (Rt.seq (Ex.asgu (v := 0) (num_ev (by decide) rfl) rfl (by decide))
    (Rt.seq (store_arr (k := 0) rfl rfl hm' (Ev.v rfl rfl) hb h1)
    (Rt.seq (Ex.seq (Ex.asgu (v := 1) (num_ev (by decide) rfl) rfl (by decide)) hw)
    (Rt.left (Rt.ret (Ev.v rfl rfl))))))))

/-- Variables of `ntt_gs_bounds`. -/
abbrev nvgs (ob op sp n : Nat) (b0 : Int) (j t k b c d : Option Int) : List (Name × Cell) :=
  [(n!"bound", .ptr ob 0 1), (n!"p", .ptr op 0 1), (n!"n", uc n), (n!"b0", lc b0), (0, .ptr sp 0 1), (n!"t", .int .u32 t), (n!"j", .int .u32 j),
    (n!"k", .int .u32 k), (n!"b", .int .i64 b), (n!"c", .int .i64 c), (n!"d", .int .i64 d)]

/-- The inner loop of `ntt_gs_bounds`. -/
abbrev innergs : Stmt :=
  (.while (.bin .lt (.var n!"j") (.var n!"t"))
    (.seq (.seq (.callAt n!"d" n!"gs_bound_fixed" (.cons (.var n!"b") (.cons (.idx (.var n!"p") (.bin .add (.var n!"t") (.var n!"j"))) .nil)) [])
     (.seq (.ite (.bin .gt (.var n!"d") (.var n!"c"))
       (.assign n!"c" (.var n!"d"))
       .skip)
     .skip))
    (.assign n!"j" (.bin .add (.var n!"j") (.num 1)))))

/-- The body of the outer loop. -/
abbrev roundgs : Stmt :=
  (.seq (.assign n!"k" (.bin .add (.var n!"k") (.num 1)))
     (.seq (.callAt n!"c" n!"gs_bound_fixed" (.cons (.var n!"b") (.cons (.idx (.var n!"p") (.var n!"t")) .nil)) [])
     (.seq (.seq (.assign n!"j" (.num 1)) innergs)
     (.seq (.store (.var n!"bound") (.var n!"k") (.var n!"c"))
     (.seq (.assign n!"b" (.var n!"c"))
     .skip)))))

/-- `ntt_gs_bounds`, where calls of functions that take addresses are statements. -/
def nttgs : Fun := ⟨some .i64, [(n!"b0", .int .i64), (n!"n", .int .u32), (n!"p", .ptr 1), (n!"bound", .ptr 1)],
  (.seq (.seq (.decl .u32 n!"t")
   (.seq (.decl .u32 n!"j")
   (.decl .u32 n!"k")))
  (.seq (.seq (.decl .i64 n!"b")
   (.seq (.decl .i64 n!"c")
   (.decl .i64 n!"d")))
  (.seq (.assign n!"b" (.var n!"b0"))
  (.seq (.assign n!"k" (.num 0))
  (.seq (.store (.var n!"bound") (.var n!"k") (.var n!"b0"))
  (.seq (.seq (.assign n!"t" (.bin .div (.var n!"n") (.num 2)))
   (.while (.bin .gt (.var n!"t") (.num 0))
    (.seq roundgs
    (.assign n!"t" (.bin .shr (.var n!"t") (.num 1))))))
  (.seq (.ret (.var n!"b"))
  .skip)))))))⟩

theorem fixed_callgs (hF : Funs2 P) (hC : P.lookup n!"gs_bound_fixed" = some Src.red_bounds.gs_bound_fixed) {l : List (Name × Cell)} {x : Name} {args : Expr}
    {sp : Nat} {t1 t2 : Ty} {b w r : Int} {ox : Option Int} (he : EvA P G args (E l mem) [.int t1 b, .int t2 w]) (hs : look l 0 = some (.ptr sp 0 1))
    (hx : look l x = some (.int .i64 ox)) (hb : I64 b) (hw : I64 w) (h : RedBounds.gs_bound_fixed true b w = .ok r) :
    I64 r ∧ Ex P G (.callAt x n!"gs_bound_fixed" args []) (E l mem) (E (upd l x (lc r)) mem) := by
  obtain ⟨h1, h2⟩ := gs_bound_fixed_returns (G := G) (mem := mem) (sp := sp) (t1 := t1) (t2 := t2) hF hC hb hw h
  exact ⟨h1, Ex.callAt0 he hs hx h1 h2⟩

theorem innergs_ex (hF : Funs2 P) (hC : P.lookup n!"gs_bound_fixed" = some Src.red_bounds.gs_bound_fixed) {ob op sp n t k : Nat} {b0 b : Int} {p : Array Int}
    (hm : mem op = ⟨.i16, p⟩) (hp : Spec.Table16 p) (ht : t < 4294967296) (hb : I64 b) {fuel : Nat} {c c' : Int} {d : Option Int} (hc : I64 c)
    (h : cfor (fun i => decide (i < t)) (fun i => u32 (i + 1)) (fun j c => do
      let w ← rd p (u32 (t + j))
      let d ← RedBounds.gs_bound_fixed true b w
      pure (if d > c then d else c)) fuel 1 c = .ok c') :
    I64 c' ∧ ∃ j' d', Ex P G innergs (E (nvgs ob op sp n b0 (some (1 : Nat)) (some (t : Nat)) (some (k : Nat)) (some b) (some c) d) mem)
      (E (nvgs ob op sp n b0 j' (some (t : Nat)) (some (k : Nat)) (some b) (some c') d') mem) := by
  obtain ⟨st', j', hw, ⟨d', hst⟩, h1, h2⟩ := Ex.while_cfor (P := P) (G := G) (c := .bin .lt (.var n!"j") (.var n!"t"))
    (s := .seq (.seq (.callAt n!"d" n!"gs_bound_fixed" (.cons (.var n!"b") (.cons (.idx (.var n!"p") (.bin .add (.var n!"t") (.var n!"j"))) .nil)) [])
     (.seq (.ite (.bin .gt (.var n!"d") (.var n!"c"))
       (.assign n!"c" (.var n!"d"))
       .skip)
     .skip))
    (.assign n!"j" (.bin .add (.var n!"j") (.num 1))))
    (fun j (c : Int) st => (∃ d, st = E (nvgs ob op sp n b0 (some (j : Nat)) (some (t : Nat)) (some (k : Nat)) (some b) (some c) d) mem) ∧ I64 c ∧ j < 4294967296)
    (by
      rintro j c st ⟨⟨d, rfl⟩, _, hj⟩
      exact Ev.bin (x := .int .u32 (j : Nat)) (y := .int .u32 (t : Nat)) (Ev.v rfl rfl) (Ev.v rfl rfl) (binop_ltU hj ht))
    (by
      rintro j c c' st ⟨⟨d, rfl⟩, hc, hj⟩ _ hb'
      simp only [bind_ok, pure_ok] at hb'
      obtain ⟨w, hw, r, hr, rfl⟩ := hb'
      have hti : Ev P G (.bin .add (.var n!"t") (.var n!"j")) (E (nvgs ob op sp n b0 (some (j : Nat)) (some (t : Nat)) (some (k : Nat)) (some b) (some c) d) mem)
          (.int .u32 (u32 (t + j) : Nat)) := Ev.bin (Ev.v rfl rfl) (Ev.v rfl rfl) (binop_addU ht hj)
      obtain ⟨rr, e1⟩ := fixed_callgs (G := G) (mem := mem) (x := n!"d") (ox := d) (sp := sp) (t1 := .i64) (t2 := .i16) (b := b) hF hC
        (l := nvgs ob op sp n b0 (some (j : Nat)) (some (t : Nat)) (some (k : Nat)) (some b) (some c) d)
        (args := .cons (.var n!"b") (.cons (.idx (.var n!"p") (.bin .add (.var n!"t") (.var n!"j"))) .nil))
        (args2 (Ev.v rfl rfl) (table_ev rfl hm hti hw)) rfl rfl hb (rd_table hp hw) hr
      refine ⟨E (nvgs ob op sp n b0 (some (u32 (j + 1) : Nat)) (some (t : Nat)) (some (k : Nat)) (some b) (some (if r > c then r else c)) (some r)) mem,
        Ex.seq (st₁ := E (nvgs ob op sp n b0 (some (j : Nat)) (some (t : Nat)) (some (k : Nat)) (some b) (some (if r > c then r else c)) (some r)) mem)
          (Ex.seq e1 (Ex.seq (Ex.ite (gt_ev rfl (Ev.v rfl rfl) (Ev.v rfl rfl) rr hc) ?_) (Ex.skip _)))
          (Ex.asgu (t' := .u32) (Ev.bin (Ev.v rfl rfl) (num_ev (z := 1) (by decide) rfl) (binop_incU hj)) rfl (u32_lt _)), ⟨_, rfl⟩, I64_ite rr hc, u32_lt _⟩
      by_cases h2 : r > c
      · rw [if_pos (by simpa using h2), if_pos h2]
        exact asg (Ev.v rfl rfl) rfl rr
      · rw [if_neg (by simpa using h2), if_neg h2]
        exact Ex.skip _)
    fuel 1 c c' _ ⟨⟨d, rfl⟩, hc, by decide⟩ h
  subst hst
  exact ⟨h1, _, _, hw⟩

theorem nttgs_returns (hF : Funs2 P) (hC : P.lookup n!"gs_bound_fixed" = some Src.red_bounds.gs_bound_fixed) (hP : P.lookup n!"ntt_gs_bounds" = some nttgs)
    {t1 t2 : Ty} {sp op ob n : Nat} {b0 B : Int} {p bound bound' : Array Int} (hm : mem op = ⟨.i16, p⟩) (hm' : mem ob = ⟨.i64, bound⟩) (hp : Spec.Table16 p)
    (hn : n < 4294967296) (hb : I64 b0) (h : RedBounds.ntt_gs_bounds true b0 n p bound = .ok (B, bound')) :
    ReturnsAt P G sp n!"ntt_gs_bounds" [.int t1 b0, .int t2 (n : Int), .ptr op 0 1, .ptr ob 0 1] mem (.int .i64 B) (setMem mem ob ⟨.i64, bound'⟩) := by
  have hne : op ≠ ob := by
    rintro rfl
    rw [hm] at hm'
    simp at hm'
  simp only [RedBounds.ntt_gs_bounds, bind_ok, pure_ok] at h
  obtain ⟨bound₁, h1, ⟨k', b', bound₂⟩, h2, h3⟩ := h
  simp only [Prod.mk.injEq] at h3
  obtain ⟨rfl, rfl⟩ := h3
  obtain ⟨st', t', hw, ⟨j', c', d', hst⟩, hB, _, _⟩ := Ex.while_cfor (P := P) (G := G) (c := (.bin .gt (.var n!"t") (.num 0)))
    (s := .seq roundgs (.assign n!"t" (.bin .shr (.var n!"t") (.num 1))))
    (fun t (s : Nat × Int × Array Int) st => (∃ j c d, st = E (nvgs ob op sp n b0 j (some (t : Nat)) (some (s.1 : Nat)) (some s.2.1) c d) (setMem mem ob ⟨.i64, s.2.2⟩)) ∧
      I64 s.2.1 ∧ s.1 < 4294967296 ∧ t < 4294967296)
    (by
      rintro t ⟨k, b, bd⟩ st ⟨⟨j, c, d, rfl⟩, _, _, ht⟩
      exact Ev.bin (x := .int .u32 (t : Nat)) (Ev.v rfl rfl) (num_ev (z := 0) (by decide) rfl) (binop_posU ht))
    (by
      rintro t ⟨k, b, bd⟩ s' st ⟨⟨j, c, d, rfl⟩, hb', hk, ht⟩ _ hbody
      simp only at hb' hk
      simp only [boundsRound, forUp, bind_ok, pure_ok] at hbody
      obtain ⟨w, hw, c₁, hc₁, c₂, hc₂, bd', hbd, rfl⟩ := hbody
      have hmo : (setMem mem ob ⟨.i64, bd⟩) op = ⟨.i16, p⟩ := by rw [setMem_ne hne, hm]
      obtain ⟨rc, e1⟩ := fixed_callgs (G := G) (mem := setMem mem ob ⟨.i64, bd⟩) (x := n!"c") (ox := c) (sp := sp) (t1 := .i64) (t2 := .i16) (b := b) hF hC
        (l := nvgs ob op sp n b0 j (some (t : Nat)) (some (u32 (k + 1) : Nat)) (some b) c d)
        (args := .cons (.var n!"b") (.cons (.idx (.var n!"p") (.var n!"t")) .nil))
        (args2 (Ev.v rfl rfl) (table_ev (t := .u32) rfl hmo (Ev.v rfl rfl) hw)) rfl rfl hb' (rd_table hp hw) hc₁
      obtain ⟨rc2, j2, d2, e2⟩ := innergs_ex (G := G) (ob := ob) (sp := sp) (n := n) (k := u32 (k + 1)) (b0 := b0) (d := d) hF hC hmo hp ht hb' rc hc₂
      refine ⟨E (nvgs ob op sp n b0 j2 (some (t / 2 : Nat)) (some (u32 (k + 1) : Nat)) (some c₂) (some c₂) d2) (setMem mem ob ⟨.i64, bd'⟩),
        Ex.seq (st₁ := E (nvgs ob op sp n b0 j2 (some (t : Nat)) (some (u32 (k + 1) : Nat)) (some c₂) (some c₂) d2) (setMem mem ob ⟨.i64, bd'⟩))
          (Ex.seq (Ex.asgu (t' := .u32) (Ev.bin (Ev.v rfl rfl) (num_ev (z := 1) (by decide) rfl) (binop_incU hk)) rfl (u32_lt _))
          (Ex.seq e1 (Ex.seq (Ex.seq (Ex.asgu (v := 1) (num_ev (by decide) rfl) rfl (by decide)) e2) (Ex.seq (st₁ := E (nvgs ob op sp n b0 j2 (some (t : Nat)) (some (u32 (k + 1) : Nat)) (some b) (some c₂) d2) (setMem mem ob ⟨.i64, bd'⟩)) ?_
          (Ex.seq (asg (Ev.v rfl rfl) rfl rc2) (Ex.skip _))))))
          (Ex.asgu (t' := .u32) (Ev.bin (Ev.v rfl rfl) (num_ev (z := 1) (by decide) rfl) (binop_shrU ht)) rfl (by omega)), ⟨_, _, _, rfl⟩, rc2, u32_lt _, (by omega)⟩
      have := store_arr (P := P) (G := G) (mem := setMem mem ob ⟨.i64, bd⟩) (l := nvgs ob op sp n b0 j2 (some (t : Nat)) (some (u32 (k + 1) : Nat)) (some b) (some c₂) d2)
        (x := n!"bound") (i := n!"k") (e := .var n!"c") (t := .i64) (o := ob) rfl rfl (setMem_self _ _ _) (Ev.v rfl rfl) rc2 hbd
      rw [setMem_setMem] at this
      exact this)
    34 (n / 2) (0, b0, bound₁) (k', B, bound') (E (nvgs ob op sp n b0 none (some ((n / 2) : Nat)) (some (0 : Nat)) (some b0) none none) (setMem mem ob ⟨.i64, bound₁⟩))
    ⟨⟨none, none, none, rfl⟩, hb, show 0 < 4294967296 by decide, by omega⟩ h2
  subst hst
  simp only at hB hw
  refine ReturnsAt.mk (st' := E (nvgs ob op sp n b0 j' (some (t' : Nat)) (some (k' : Nat)) (some B) c' d') (setMem mem ob ⟨.i64, bound'⟩)) (v := .int .i64 B) hP (by decide)
    (bind4n hb hn) ?_ (result64 hB)
  refine Rt.seq (st₁ := E [(n!"bound", .ptr ob 0 1), (n!"p", .ptr op 0 1), (n!"n", uc n), (n!"b0", lc b0), (0, .ptr sp 0 1), (n!"t", .int .u32 none), (n!"j", .int .u32 none),
      (n!"k", .int .u32 none)] mem) (Ex.mk 10 fun f => by simp only [crun, setEnv_look, upd, Nat.reduceEqDiff, reduceIte])
    (Rt.seq (st₁ := E (nvgs ob op sp n b0 none none none none none none) mem) (Ex.mk 10 fun f => by simp only [crun, setEnv_look, upd, Nat.reduceEqDiff, reduceIte])
    (Rt.seq (asg (Ev.v rfl rfl) rfl hb)
    (Rt.seq (Ex.asgu (v := 0) (num_ev (by decide) rfl) rfl (by decide))
    (Rt.seq (store_arr (k := 0) rfl rfl hm' (Ev.v rfl rfl) hb h1)
    (Rt.seq (Ex.seq (Ex.asgu (t' := .u32) (v := n / 2) (Ev.bin (Ev.v rfl rfl) (num_ev (z := ((2 : Nat) : Int)) (by decide) rfl)
      (by rw [binop_uk (by simp) (by simp) hn (by decide), arith_divU hn (z := n / 2) (by simp [udiv])])) rfl (by omega)) hw)
    (Rt.left (Rt.ret (Ev.v rfl rfl))))))))

end CLang.RedB
