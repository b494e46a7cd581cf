import Verif.Proofs.CRun
import Verif.Model.Src.NttRed
import Verif.Model.NttRed

/-
The functions of src/ntt_red.c as read from the text do what the model says.
-/

namespace CLang
open C

/-- The program contains the functions of another one. -/
def Has (P Q : Prog) : Prop := ∀ g fn, Q.lookup g = some fn → P.lookup g = some fn

section
variable {P : Prog} {G : Name → Option Cell}

theorem Ev.red {e : Expr} {st : State} {t : Ty} {x y : Int} (hP : Has P Src.ntt_red) (he : Ev P G e st (.int t x)) (hx : I32 x)
    (h : NttRed.red x = .ok y) : Ev P G (.call n!"red" (.cons e .nil)) st (.int .i32 y) := by
  simp only [NttRed.red, bind_ok] at h
  obtain ⟨z, h1, h2⟩ := h
  have e1 := binop_sar32 (x := x) 12 hx (by decide)
  have e2 := binop_and32 hx (show I32 (4095 : Nat) by decide)
  have e3 := binop_mul32 (show I32 (3 : Nat) by decide) (I32_land32 x 4095)
  have e4 := binop_sub32 (i32_rng h1) (I32_sar 12 hx)
  simp only [Nat.cast_ofNat] at e1 e2 e3
  refine Ev.call (EvA.cons he (EvA.nil _)) (hP _ Src.ntt_red.red (by rfl)) (by decide) (env := setEnv (fun _ => none) n!"x" (.int .i32 (some x)))
    (r := (some (.int .i32 y), ⟨setEnv (fun _ => none) n!"x" (.int .i32 (some x)), st.mem⟩)) ?_ ⟨20, fun f hf => ?_⟩ ?_
  · simp only [Src.ntt_red.red, bindParams, ok_bind, conv_i32, toI32_of hx]
  · obtain ⟨g, rfl⟩ := Nat.exists_eq_add_of_le' hf
    simp only [Src.ntt_red.red, crun, Nat.reduceLeDiff, reduceIte, Nat.cast_ofNat, e1, e2, e3, e4, h1, h2]
  · simp only [Src.ntt_red.red, result, conv_i32, toI32_of (i32_rng h2)]

theorem red_rng {x y : Int} (h : NttRed.red x = .ok y) : I32 y := by
  simp only [NttRed.red, bind_ok] at h
  obtain ⟨z, h1, h2⟩ := h
  exact i32_rng h2

theorem mul_red_rng {x y z : Int} (h : NttRed.mul_red x y = .ok z) : I32 z := by
  simp only [NttRed.mul_red, bind_ok] at h
  obtain ⟨_, _, _, _, _, _, h2⟩ := h
  exact i32_rng h2

theorem Ev.mul_red {e e' : Expr} {st : State} {t t' : Ty} {x y z : Int} (hP : Has P Src.ntt_red) (he : Ev P G e st (.int t x))
    (he' : Ev P G e' st (.int t' y)) (hx : I32 x) (hy : I32 y) (h : NttRed.mul_red x y = .ok z) :
    Ev P G (.call n!"mul_red" (.cons e (.cons e' .nil))) st (.int .i32 z) := by
  simp only [NttRed.mul_red, bind_ok, cassert_ok, Bool.and_eq_true] at h
  obtain ⟨v, h1, _, ⟨ha, ha'⟩, u, h2, h3⟩ := h
  have hv := i64_rng h1
  have e1 := binop_mul64 (s := .i32) (Or.inl rfl) (I64_of_I32 hx) (I64_of_I32 hy)
  have e2 := binop_and64 hv (show I32 (4095 : Nat) by decide)
  have e3 := binop_sar64 (x := v) 12 hv (by decide)
  have e4 := binop_mul32 (show I32 (3 : Nat) by decide) (I32_toI32 (land64 v 4095))
  have e5 := binop_sub32 (i32_rng h2) (I32_toI32 (sar v 12))
  have e6 : binop .sub (.int .i32 0) (.int .i64 (8796042698752 : Nat)) = .ok (.int .i64 (-8796042698752)) := by decide
  have e7 := binop_le64 (show I64 (-8796042698752) by decide) hv
  have e8 := binop_le64 hv (show I64 (8796093026303 : Nat) by decide)
  simp only [Nat.cast_ofNat] at e2 e3 e4 e6 e8
  refine Ev.call (EvA.cons he (EvA.cons he' (EvA.nil _))) (hP _ Src.ntt_red.mul_red (by rfl)) (by decide)
    (env := setEnv (setEnv (fun _ => none) n!"y" (.int .i32 (some y))) n!"x" (.int .i32 (some x)))
    (r := (some (.int .i32 z), ⟨setEnv (setEnv (setEnv (setEnv (setEnv (setEnv (fun _ => none) n!"y" (.int .i32 (some y))) n!"x"
      (.int .i32 (some x))) n!"z" (.int .i64 none)) n!"z" (.int .i64 (some v))) n!"x" (.int .i32 (some (toI32 (land64 v 4095)))))
      n!"y" (.int .i32 (some (toI32 (sar v 12)))), st.mem⟩)) ?_ ⟨20, fun f hf => ?_⟩ ?_
  · simp only [Src.ntt_red.mul_red, bindParams, ok_bind, conv_i32, toI32_of hx, toI32_of hy]
  · obtain ⟨g, rfl⟩ := Nat.exists_eq_add_of_le' hf
    simp only [Src.ntt_red.mul_red, crun, Nat.reduceLeDiff, reduceIte, Nat.reduceEqDiff, CLang.assign, toI64_of (I64_of_I32 hx), e1, h1,
      toI64_of hv, Nat.cast_ofNat, e6, e7, e8, ha, ha', cassert, e2, e3, e4, h2, e5, h3]
  · simp only [Src.ntt_red.mul_red, result, conv_i32, toI32_of (i32_rng h3)]

/-- `a[i]` -/
theorem Ev.elem {st : State} {x y : Name} {o i : Nat} {ob : Obj} {v : Int} (ha : st.env x = some (.ptr o 0 1)) (hi : st.env y = cu i)
    (hm : st.mem o = ob) (hv : rd ob.data i = .ok v) : Ev P G (.idx (.var x) (.var y)) st (.int ob.ty v) := by
  refine Ev.mk 3 fun f => ?_
  simp only [crun, ha, hi, load_nat, hm, hv]

theorem Ev.var {st : State} {x : Name} {c : Cell} {v : Val} (ha : st.env x = some c) (hc : cellVal (some c) = .ok v) :
    Ev P G (.var x) st v := by
  refine Ev.mk 1 fun f => ?_
  simp only [crun, ha, hc]

/-- `a[i] = e` -/
theorem Inv.put {D : List (Name × Ty)} {st₀ st : State} {o i : Nat} {a a' : Array Int} {x : Name} {ei e : Expr} {t t' : Ty} {v : Int}
    (hI : Inv D st₀ o a st) (ha : st.env x = some (.ptr o 0 1)) (hi : Ev P G ei st (.int t' (i : Nat))) (he : Ev P G e st (.int t v)) (hv : I32 v)
    (hw : wr a i v = .ok a') :
    Ex P G (.store (.var x) ei e) st ⟨st.env, setMem st.mem o ⟨.i32, a'⟩⟩ ∧ Inv D st₀ o a' ⟨st.env, setMem st.mem o ⟨.i32, a'⟩⟩ := by
  refine ⟨Ex.store (Ev.var ha rfl) hi he ?_, hI.store hv hw⟩
  rw [storeAt_nat, hI.arr]
  simp only [conv_i32, toI32_of hv, hw, ok_bind]

/-- `for (i=0; i<n; i++) b` -/
abbrev loopN (b : Stmt) : Stmt := .seq (.assign n!"i" (.num 0)) (.while (.bin .lt (.var n!"i") (.var n!"n"))
  (.seq b (.assign n!"i" (.bin .add (.var n!"i") (.num 1)))))

/-- A function with one loop. -/
theorem Calls.loop1 {g : Name} {fn : Fun} {vs : List Val} {env : Name → Option Cell} {b : Stmt} {n o : Nat}
    {body : Nat → Array Int → M (Array Int)} {a a' : Array Int} {mem : Nat → Obj} (hP : P.lookup g = some fn)
    (hfn : fn.body = .seq (.decl .u32 n!"i") (.seq (loopN b) .skip)) (henv : bindParams fn.params vs = .ok env)
    (hn' : env n!"n" = cu n) (hn : n < 4294967296) (hm : mem o = ⟨.i32, a⟩) (ha : Wf a)
    (hb : ∀ i a a' st, Inv [(n!"i", .u32)] ⟨setEnv env n!"i" (.int .u32 none), mem⟩ o a st → st.env n!"i" = cu i → i < n →
      body i a = .ok a' → ∃ st', Ex P G b st st' ∧ Inv [(n!"i", .u32)] ⟨setEnv env n!"i" (.int .u32 none), mem⟩ o a' st' ∧
        st'.env n!"i" = cu i)
    (h : forUp 0 n 1 body a = .ok a') : Calls P G g vs mem (setMem mem o ⟨.i32, a'⟩) ∧ Wf a' := by
  have hI : Inv [(n!"i", .u32)] ⟨setEnv env n!"i" (.int .u32 none), mem⟩ o a ⟨setEnv env n!"i" (.int .u32 none), mem⟩ :=
    Inv.refl (by intro d hd; rw [List.mem_singleton] at hd; subst hd; exact ⟨none, by simp only [setEnv_self]⟩) hm ha
  obtain ⟨st', h₁, h₂⟩ := Inv.elementwise (P := P) (G := G) (List.mem_singleton.mpr rfl) hn
    (show setEnv env n!"i" (.int .u32 none) n!"n" = _ by rw [setEnv_ne (by decide)]; exact hn') (by decide) hb hI h
  refine ⟨?_, h₂.wf⟩
  have h₃ := h₂.mem
  simp only at h₃
  rw [← h₃]
  refine Calls.mk hP henv ?_
  rw [hfn]
  refine Ex.seq (st₁ := ⟨setEnv env n!"i" (.int .u32 none), mem⟩) ?_ (Ex.seq h₁ (Ex.skip _))
  exact Ex.mk 1 fun f => by simp only [crun]

/-- A function with one loop and a variable `x`. -/
theorem Calls.loop2 {g : Name} {fn : Fun} {vs : List Val} {env : Name → Option Cell} {b : Stmt} {n o : Nat}
    {body : Nat → Array Int → M (Array Int)} {a a' : Array Int} {mem : Nat → Obj} (hP : P.lookup g = some fn)
    (hfn : fn.body = .seq (.decl .u32 n!"i") (.seq (.decl .i32 n!"x") (.seq (loopN b) .skip))) (henv : bindParams fn.params vs = .ok env)
    (hn' : env n!"n" = cu n) (hn : n < 4294967296) (hm : mem o = ⟨.i32, a⟩) (ha : Wf a)
    (hb : ∀ i a a' st, Inv [(n!"i", .u32), (n!"x", .i32)] ⟨setEnv (setEnv env n!"i" (.int .u32 none)) n!"x" (.int .i32 none), mem⟩ o a st →
      st.env n!"i" = cu i → i < n → body i a = .ok a' → ∃ st', Ex P G b st st' ∧
        Inv [(n!"i", .u32), (n!"x", .i32)] ⟨setEnv (setEnv env n!"i" (.int .u32 none)) n!"x" (.int .i32 none), mem⟩ o a' st' ∧
        st'.env n!"i" = cu i)
    (h : forUp 0 n 1 body a = .ok a') : Calls P G g vs mem (setMem mem o ⟨.i32, a'⟩) ∧ Wf a' := by
  have hI : Inv [(n!"i", .u32), (n!"x", .i32)] ⟨setEnv (setEnv env n!"i" (.int .u32 none)) n!"x" (.int .i32 none), mem⟩ o a
      ⟨setEnv (setEnv env n!"i" (.int .u32 none)) n!"x" (.int .i32 none), mem⟩ := by
    refine Inv.refl (fun d hd => ?_) hm ha
    simp only [List.mem_cons, List.not_mem_nil, or_false] at hd
    rcases hd with rfl | rfl
    · exact ⟨none, by simp only [crun, Nat.reduceEqDiff, reduceIte]⟩
    · exact ⟨none, by simp only [setEnv_self]⟩
  obtain ⟨st', h₁, h₂⟩ := Inv.elementwise (P := P) (G := G) (by simp) hn
    (show setEnv (setEnv env n!"i" (.int .u32 none)) n!"x" (.int .i32 none) n!"n" = _ by rw [setEnv_ne (by decide), setEnv_ne (by decide)]; exact hn') (by decide) hb hI h
  refine ⟨?_, h₂.wf⟩
  have h₃ := h₂.mem
  simp only at h₃
  rw [← h₃]
  refine Calls.mk hP henv ?_
  rw [hfn]
  refine Ex.seq (st₁ := ⟨setEnv env n!"i" (.int .u32 none), mem⟩) ?_
    (Ex.seq (st₁ := ⟨setEnv (setEnv env n!"i" (.int .u32 none)) n!"x" (.int .i32 none), mem⟩) ?_ (Ex.seq h₁ (Ex.skip _)))
  · exact Ex.mk 1 fun f => by simp only [crun]
  · exact Ex.mk 1 fun f => by simp only [crun]

/-! ### The functions of src/ntt_red.c on arrays -/

theorem bind_an {o n : Nat} {t : Ty} (hn : n < 4294967296) :
    bindParams [(n!"a", .ptr 1), (n!"n", .int .u32)] [.ptr o 0 1, .int t (n : Int)] =
      .ok (setEnv (setEnv (fun _ => none) n!"n" (.int .u32 (some (n : Int)))) n!"a" (.ptr o 0 1)) := by
  simp only [bindParams, ok_bind, conv_u32_nat, u32_of hn, if_true]

theorem reduce_array_calls {o n : Nat} {t : Ty} {a a' : Array Int} {mem : Nat → Obj} (hP : Has P Src.ntt_red) (hn : n < 4294967296)
    (hm : mem o = ⟨.i32, a⟩) (ha : Wf a) (h : NttRed.reduce_array a n = .ok a') :
    Calls P G n!"reduce_array" [.ptr o 0 1, .int t n] mem (setMem mem o ⟨.i32, a'⟩) ∧ Wf a' := by
  refine Calls.loop1 (hP _ Src.ntt_red.reduce_array (by rfl)) rfl (bind_an hn) (by simp only [crun, Nat.reduceEqDiff, reduceIte]) hn hm ha
    (fun i a a' st hI hi _ hab => ?_) h
  simp only [bind_ok] at hab
  obtain ⟨x, h1, y, h2, h3⟩ := hab
  have hav : st.env n!"a" = some (.ptr o 0 1) := by
    rw [hI.keep _ (by decide)]; simp only [crun, Nat.reduceEqDiff, reduceIte]
  obtain ⟨h4, h5⟩ := hI.put hav (Ev.var hi rfl) (Ev.red hP (Ev.elem hav hi hI.arr h1) (hI.wf _ _ h1) h2) (red_rng h2) h3
  exact ⟨_, Ex.seq h4 (Ex.skip _), h5, hi⟩

theorem reduce_array_twice_calls {o n : Nat} {t : Ty} {a a' : Array Int} {mem : Nat → Obj} (hP : Has P Src.ntt_red) (hn : n < 4294967296)
    (hm : mem o = ⟨.i32, a⟩) (ha : Wf a) (h : NttRed.reduce_array_twice a n = .ok a') :
    Calls P G n!"reduce_array_twice" [.ptr o 0 1, .int t n] mem (setMem mem o ⟨.i32, a'⟩) ∧ Wf a' := by
  refine Calls.loop1 (hP _ Src.ntt_red.reduce_array_twice (by rfl)) rfl (bind_an hn) (by simp only [crun, Nat.reduceEqDiff, reduceIte]) hn hm ha
    (fun i a a' st hI hi _ hab => ?_) h
  simp only [bind_ok] at hab
  obtain ⟨x, h1, y, h2, z, h3, h4⟩ := hab
  have hav : st.env n!"a" = some (.ptr o 0 1) := by
    rw [hI.keep _ (by decide)]; simp only [crun, Nat.reduceEqDiff, reduceIte]
  obtain ⟨h5, h6⟩ := hI.put hav (Ev.var hi rfl)
    (Ev.red hP (Ev.red hP (Ev.elem hav hi hI.arr h1) (hI.wf _ _ h1) h2) (red_rng h2) h3) (red_rng h3) h4
  exact ⟨_, Ex.seq h5 (Ex.skip _), h6, hi⟩

theorem shift_array_calls {o n : Nat} {t : Ty} {a a' : Array Int} {mem : Nat → Obj} (hP : Has P Src.ntt_red) (hn : n < 4294967296)
    (hm : mem o = ⟨.i32, a⟩) (ha : Wf a) (h : NttRed.shift_array a n = .ok a') :
    Calls P G n!"shift_array" [.ptr o 0 1, .int t n] mem (setMem mem o ⟨.i32, a'⟩) ∧ Wf a' := by
  refine Calls.loop2 (hP _ Src.ntt_red.shift_array (by rfl)) rfl (bind_an hn) (by simp only [crun, Nat.reduceEqDiff, reduceIte]) hn hm ha
    (fun i a a' st hI hi _ hab => ?_) h
  simp only [bind_ok] at hab
  obtain ⟨x, h1, y, h2, h3⟩ := hab
  have hx := hI.wf _ _ h1
  have hav : st.env n!"a" = some (.ptr o 0 1) := by
    rw [hI.keep _ (by decide)]; simp only [crun, Nat.reduceEqDiff, reduceIte]
  have h4 := hI.set (x := n!"x") (t := .i32) (by simp) (Ev.elem (P := P) (G := G) hav hi hI.arr h1)
  have h5 := hI.assign (x := n!"x") (t := .i32) (by simp) (conv .i32 x)
  rw [conv_i32, toI32_of hx] at h4 h5
  have hy : I32 y := by
    split at h2
    · exact i32_rng h2
    · rw [pure_ok] at h2; rw [h2]; exact hx
  have e1 : binop .sub (.int .i32 (12289 : Nat)) (.int .i32 (1 : Nat)) = .ok (.int .i32 12288) := by decide
  have e2 : binop .div (.int .i32 12288) (.int .i32 (2 : Nat)) = .ok (.int .i32 6144) := by decide
  have e3 := binop_gt32 hx (show I32 6144 by decide)
  have e4 := binop_sub32 hx (show I32 (12289 : Nat) by decide)
  simp only [Nat.cast_ofNat, Nat.cast_one] at e1 e2 e3 e4
  obtain ⟨h6, h7⟩ := h5.put (P := P) (G := G) (x := n!"a") (ei := .var n!"i")
    (e := .cond (.bin .gt (.var n!"x") (.bin .div (.bin .sub (.num 12289) (.num 1)) (.num 2))) (.bin .sub (.var n!"x") (.num 12289)) (.var n!"x"))
    (t := .i32) (t' := .u32) (by simp only [crun, Nat.reduceEqDiff, reduceIte, hav]) (Ev.var (by simp only [crun, Nat.reduceEqDiff, reduceIte, hi]; rfl) rfl)
    (Ev.mk 8 fun f => by
      simp only [crun, Nat.reduceLeDiff, reduceIte, Nat.cast_ofNat, Nat.cast_one, e1, e2, e3]
      by_cases hc : 6144 < x
      · rw [if_pos hc] at h2
        simp only [decide_eq_true hc, if_true, e4, h2, ok_bind]
      · rw [if_neg hc, pure_ok] at h2
        simp only [decide_eq_false hc, h2]
        rfl) hy h3
  exact ⟨_, Ex.seq h4 (Ex.seq h6 (Ex.skip _)), h7, by simp only [crun, Nat.reduceEqDiff, reduceIte, hi]⟩

theorem correct_calls {o n : Nat} {t : Ty} {a a' : Array Int} {mem : Nat → Obj} (hP : Has P Src.ntt_red) (hn : n < 4294967296)
    (hm : mem o = ⟨.i32, a⟩) (ha : Wf a) (h : NttRed.correct a n = .ok a') :
    Calls P G n!"correct" [.ptr o 0 1, .int t n] mem (setMem mem o ⟨.i32, a'⟩) ∧ Wf a' := by
  refine Calls.loop2 (hP _ Src.ntt_red.correct (by rfl)) rfl (bind_an hn) (by simp only [crun, Nat.reduceEqDiff, reduceIte]) hn hm ha
    (fun i a a' st hI hi _ hab => ?_) h
  simp only [bind_ok] at hab
  obtain ⟨x, h1, y, h2, z, h3, w, h4, h5⟩ := hab
  have hx := hI.wf _ _ h1
  have hav : st.env n!"a" = some (.ptr o 0 1) := by
    rw [hI.keep _ (by decide)]; simp only [crun, Nat.reduceEqDiff, reduceIte]
  obtain ⟨v, hv⟩ := hI.decl (n!"x", .i32) (by simp)
  simp only at hv
  have e1 := binop_sar32 16 hx (by decide)
  have e2 := binop_and32 (I32_sar 16 hx) (show I32 (12289 : Nat) by decide)
  have e3 := binop_add32 hx (I32_land32 (sar x 16) 12289)
  have e4 := binop_sub32 (i32_rng h2) (show I32 (12289 : Nat) by decide)
  have e5 := binop_sar32 16 (i32_rng h3) (by decide)
  have e6 := binop_and32 (I32_sar 16 (i32_rng h3)) (show I32 (12289 : Nat) by decide)
  have e7 := binop_add32 (i32_rng h3) (I32_land32 (sar z 16) 12289)
  simp only [Nat.cast_ofNat] at e1 e2 e4 e5 e6
  refine ⟨⟨setEnv (setEnv (setEnv (setEnv st.env n!"x" (.int .i32 (some x))) n!"x" (.int .i32 (some y))) n!"x" (.int .i32 (some z))) n!"x" (.int .i32 (some w)),
    setMem st.mem o ⟨.i32, a'⟩⟩, Ex.mk 20 fun f => ?_, ?_, ?_⟩
  · simp only [crun, Nat.reduceLeDiff, Nat.reduceEqDiff, reduceIte, hav, hi, hv, load_nat, storeAt_nat, hI.arr, h1, CLang.assign, toI32_of hx, Nat.cast_ofNat, e1, e2, e3, h2,
      toI32_of (i32_rng h2), e4, h3, toI32_of (i32_rng h3), e5, e6, e7, h4, toI32_of (i32_rng h4), h5]
  · exact (((((hI.assign (x := n!"x") (t := .i32) (by simp) x).assign (x := n!"x") (t := .i32) (by simp) y).assign (x := n!"x") (t := .i32) (by simp) z).assign (x := n!"x")
      (t := .i32) (by simp) w)).store (i32_rng h4) h5
  · simp only [crun, Nat.reduceEqDiff, reduceIte, hi]

theorem normalize_calls {o n : Nat} {t : Ty} {a a' : Array Int} {mem : Nat → Obj} (hP : Has P Src.ntt_red) (hn : n < 4294967296)
    (hm : mem o = ⟨.i32, a⟩) (ha : Wf a) (h : NttRed.normalize a n = .ok a') :
    Calls P G n!"normalize" [.ptr o 0 1, .int t n] mem (setMem mem o ⟨.i32, a'⟩) ∧ Wf a' := by
  refine Calls.loop2 (hP _ Src.ntt_red.normalize (by rfl)) rfl (bind_an hn) (by simp only [crun, Nat.reduceEqDiff, reduceIte]) hn hm ha
    (fun i a a' st hI hi _ hab => ?_) h
  simp only [bind_ok, cassert_ok, Bool.and_eq_true] at hab
  obtain ⟨x, h1, y, h2, z, h3, _, ⟨h4, h4'⟩, h5⟩ := hab
  have hx := hI.wf _ _ h1
  have hav : st.env n!"a" = some (.ptr o 0 1) := by
    rw [hI.keep _ (by decide)]; simp only [crun, Nat.reduceEqDiff, reduceIte]
  obtain ⟨v, hv⟩ := hI.decl (n!"x", .i32) (by simp)
  simp only at hv
  have h2' : y = x.tmod 12289 := by
    unfold crem at h2; rw [if_neg (by decide)] at h2; cases h2; rfl
  have hy : I32 y := by
    have ha := Int.tmod_lt_of_pos x (show (0 : Int) < 12289 by decide)
    have hb := Int.lt_tmod_of_pos x (show (0 : Int) < 12289 by decide)
    unfold I32; omega
  have hz : I32 z := by
    have h4 := of_decide_eq_true h4
    have h4' := of_decide_eq_true h4'
    unfold I32; omega
  have e1 := binop_rem32 hx (show I32 (12289 : Nat) by decide) (by decide)
  have e2 := binop_lt32 hy (show I32 (0 : Nat) by decide)
  have e3 := binop_add32 hy (show I32 (12289 : Nat) by decide)
  have e4 := binop_le32 (show I32 (0 : Nat) by decide) hz
  have e5 := binop_lt32 hz (show I32 (12289 : Nat) by decide)
  simp only [Nat.cast_ofNat, Nat.cast_zero] at e1 e2 e3 e4 e5
  rw [← h2'] at e1
  by_cases hc : y < 0
  · rw [if_pos hc] at h3
    refine ⟨⟨setEnv (setEnv st.env n!"x" (.int .i32 (some y))) n!"x" (.int .i32 (some z)), setMem st.mem o ⟨.i32, a'⟩⟩, Ex.mk 20 fun f => ?_, ?_, ?_⟩
    · simp only [crun, Nat.reduceLeDiff, Nat.reduceEqDiff, reduceIte, hav, hi, hv, load_nat, storeAt_nat, hI.arr, h1, CLang.assign, Nat.cast_ofNat, Nat.cast_zero, e1,
        toI32_of hy, e2, decide_eq_true hc, e3, h3, toI32_of hz, e4, h4, e5, h4', cassert, h5]
    · exact ((hI.assign (x := n!"x") (t := .i32) (by simp) y).assign (x := n!"x") (t := .i32) (by simp) z).store hz h5
    · simp only [crun, Nat.reduceEqDiff, reduceIte, hi]
  · rw [if_neg hc, pure_ok] at h3
    rw [h3] at hz h4 h4' e4 e5 h5
    refine ⟨⟨setEnv st.env n!"x" (.int .i32 (some y)), setMem st.mem o ⟨.i32, a'⟩⟩, Ex.mk 20 fun f => ?_, ?_, ?_⟩
    · simp only [crun, Nat.reduceLeDiff, Nat.reduceEqDiff, reduceIte, hav, hi, hv, load_nat, storeAt_nat, hI.arr, h1, CLang.assign, Nat.cast_ofNat, Nat.cast_zero, e1,
        toI32_of hy, e2, decide_eq_false hc, Bool.false_eq_true, e4, h4, e5, h4', cassert, h5]
    · exact (hI.assign (x := n!"x") (t := .i32) (by simp) y).store hz h5
    · simp only [crun, Nat.reduceEqDiff, reduceIte, hi]

theorem normalize_inv3_calls {o n : Nat} {t : Ty} {a a' : Array Int} {mem : Nat → Obj} (hP : Has P Src.ntt_red) (hn : n < 4294967296)
    (hm : mem o = ⟨.i32, a⟩) (ha : Wf a) (h : NttRed.normalize_inv3 a n = .ok a') :
    Calls P G n!"normalize_inv3" [.ptr o 0 1, .int t n] mem (setMem mem o ⟨.i32, a'⟩) ∧ Wf a' := by
  refine Calls.loop2 (hP _ Src.ntt_red.normalize_inv3 (by rfl)) rfl (bind_an hn) (by simp only [crun, Nat.reduceEqDiff, reduceIte]) hn hm ha
    (fun i a a' st hI hi _ hab => ?_) h
  simp only [bind_ok, cassert_ok, Bool.and_eq_true] at hab
  obtain ⟨x, h1, m, h6, r, h2, z, h3, _, ⟨h4, h4'⟩, h5⟩ := hab
  have hx := hI.wf _ _ h1
  have hav : st.env n!"a" = some (.ptr o 0 1) := by
    rw [hI.keep _ (by decide)]; simp only [crun, Nat.reduceEqDiff, reduceIte]
  obtain ⟨v, hv⟩ := hI.decl (n!"x", .i32) (by simp)
  simp only at hv
  have h2' : r = m.tmod 12289 := by
    unfold crem at h2; rw [if_neg (by decide)] at h2; cases h2; rfl
  have hz : I32 z := by
    have h4 := of_decide_eq_true h4
    have h4' := of_decide_eq_true h4'
    unfold I32; omega
  have hy := I32_toI32 r
  have e0 := binop_mul64 (s := .i32) (Or.inl rfl) (I64_of_I32 hx) (show I64 (8193 : Nat) by decide)
  have e1 := binop_rem64 (i64_rng h6) (show I32 (12289 : Nat) by decide) (by decide)
  have e2 := binop_lt32 hy (show I32 (0 : Nat) by decide)
  have e3 := binop_add32 hy (show I32 (12289 : Nat) by decide)
  have e4 := binop_le32 (show I32 (0 : Nat) by decide) hz
  have e5 := binop_lt32 hz (show I32 (12289 : Nat) by decide)
  simp only [Nat.cast_ofNat, Nat.cast_zero] at e0 e1 e2 e3 e4 e5
  rw [← h2'] at e1
  by_cases hc : toI32 r < 0
  · rw [if_pos hc] at h3
    refine ⟨⟨setEnv (setEnv st.env n!"x" (.int .i32 (some (toI32 r)))) n!"x" (.int .i32 (some z)), setMem st.mem o ⟨.i32, a'⟩⟩, Ex.mk 20 fun f => ?_, ?_, ?_⟩
    · simp only [crun, Nat.reduceLeDiff, Nat.reduceEqDiff, reduceIte, hav, hi, hv, load_nat, storeAt_nat, hI.arr, h1, CLang.assign, Nat.cast_ofNat, Nat.cast_zero,
        toI64_of (I64_of_I32 hx), e0, h6, e1, e2, decide_eq_true hc, e3, h3, toI32_of hz, e4, h4, e5, h4', cassert, h5]
    · exact ((hI.assign (x := n!"x") (t := .i32) (by simp) _).assign (x := n!"x") (t := .i32) (by simp) z).store hz h5
    · simp only [crun, Nat.reduceEqDiff, reduceIte, hi]
  · rw [if_neg hc, pure_ok] at h3
    rw [h3] at hz h4 h4' e4 e5 h5
    refine ⟨⟨setEnv st.env n!"x" (.int .i32 (some (toI32 r))), setMem st.mem o ⟨.i32, a'⟩⟩, Ex.mk 20 fun f => ?_, ?_, ?_⟩
    · simp only [crun, Nat.reduceLeDiff, Nat.reduceEqDiff, reduceIte, hav, hi, hv, load_nat, storeAt_nat, hI.arr, h1, CLang.assign, Nat.cast_ofNat, Nat.cast_zero,
        toI64_of (I64_of_I32 hx), e0, h6, e1, e2, decide_eq_false hc, Bool.false_eq_true, e4, h4, e5, h4', cassert, toI32_of hz, h5]
    · exact (hI.assign (x := n!"x") (t := .i32) (by simp) _).store hz h5
    · simp only [crun, Nat.reduceEqDiff, reduceIte, hi]

theorem mul_reduce_array16_calls {o op n : Nat} {t tp : Ty} {a a' p : Array Int} {mem : Nat → Obj} (hP : Has P Src.ntt_red) (hn : n < 4294967296)
    (hm : mem o = ⟨.i32, a⟩) (ha : Wf a) (hop : op ≠ o) (hmp : mem op = ⟨tp, p⟩) (hp : Wf p) (h : NttRed.mul_reduce_array16 a n p = .ok a') :
    Calls P G n!"mul_reduce_array16" [.ptr o 0 1, .int t n, .ptr op 0 1] mem (setMem mem o ⟨.i32, a'⟩) ∧ Wf a' := by
  refine Calls.loop1 (hP _ Src.ntt_red.mul_reduce_array16 (by rfl)) rfl
    (env := setEnv (setEnv (setEnv (fun _ => none) n!"p" (.ptr op 0 1)) n!"n" (.int .u32 (some (n : Int)))) n!"a" (.ptr o 0 1))
    (by simp only [Src.ntt_red.mul_reduce_array16, bindParams, ok_bind, conv_u32_nat, u32_of hn, if_true])
    (by simp only [crun, Nat.reduceEqDiff, reduceIte]) hn hm ha
    (fun i a a' st hI hi _ hab => ?_) h
  simp only [bind_ok] at hab
  obtain ⟨x, h1, y, h2, z, h3, h4⟩ := hab
  have hav : st.env n!"a" = some (.ptr o 0 1) := by
    rw [hI.keep _ (by decide)]; simp only [crun, Nat.reduceEqDiff, reduceIte]
  have hpv : st.env n!"p" = some (.ptr op 0 1) := by
    rw [hI.keep _ (by decide)]; simp only [crun, Nat.reduceEqDiff, reduceIte]
  obtain ⟨h5, h6⟩ := hI.put hav (Ev.var hi rfl)
    (Ev.mul_red hP (Ev.elem hav hi hI.arr h1) (Ev.elem hpv hi ((hI.other hop).trans hmp) h2) (hI.wf _ _ h1) (hp _ _ h2) h3) (mul_red_rng h3) h4
  exact ⟨_, Ex.seq h5 (Ex.skip _), h6, hi⟩

theorem mul_reduce_array_calls {oc oa ob n : Nat} {t ta tb : Ty} {c c' a b : Array Int} {mem : Nat → Obj} (hP : Has P Src.ntt_red) (hn : n < 4294967296)
    (hm : mem oc = ⟨.i32, c⟩) (hc : Wf c) (hoa : oa ≠ oc) (hma : mem oa = ⟨ta, a⟩) (ha : Wf a) (hob : ob ≠ oc) (hmb : mem ob = ⟨tb, b⟩)
    (hb : Wf b) (h : NttRed.mul_reduce_array c n a b = .ok c') :
    Calls P G n!"mul_reduce_array" [.ptr oc 0 1, .int t n, .ptr oa 0 1, .ptr ob 0 1] mem (setMem mem oc ⟨.i32, c'⟩) ∧ Wf c' := by
  refine Calls.loop1 (hP _ Src.ntt_red.mul_reduce_array (by rfl)) rfl
    (env := setEnv (setEnv (setEnv (setEnv (fun _ => none) n!"b" (.ptr ob 0 1)) n!"a" (.ptr oa 0 1)) n!"n" (.int .u32 (some (n : Int)))) n!"c" (.ptr oc 0 1))
    (by simp only [Src.ntt_red.mul_reduce_array, bindParams, ok_bind, conv_u32_nat, u32_of hn, if_true])
    (by simp only [crun, Nat.reduceEqDiff, reduceIte]) hn hm hc
    (fun i c c' st hI hi _ hab => ?_) h
  simp only [bind_ok] at hab
  obtain ⟨x, h1, y, h2, z, h3, h4⟩ := hab
  have hcv : st.env n!"c" = some (.ptr oc 0 1) := by
    rw [hI.keep _ (by decide)]; simp only [crun, Nat.reduceEqDiff, reduceIte]
  have hav : st.env n!"a" = some (.ptr oa 0 1) := by
    rw [hI.keep _ (by decide)]; simp only [crun, Nat.reduceEqDiff, reduceIte]
  have hbv : st.env n!"b" = some (.ptr ob 0 1) := by
    rw [hI.keep _ (by decide)]; simp only [crun, Nat.reduceEqDiff, reduceIte]
  obtain ⟨h5, h6⟩ := hI.put hcv (Ev.var hi rfl)
    (Ev.mul_red hP (Ev.elem hav hi ((hI.other hoa).trans hma) h1) (Ev.elem hbv hi ((hI.other hob).trans hmb) h2) (ha _ _ h1) (hb _ _ h2) h3)
    (mul_red_rng h3) h4
  exact ⟨_, Ex.seq h5 (Ex.skip _), h6, hi⟩

theorem scalar_mul_reduce_array_calls {o n : Nat} {t tc : Ty} {a a' : Array Int} {c : Int} {mem : Nat → Obj} (hP : Has P Src.ntt_red) (hn : n < 4294967296)
    (hm : mem o = ⟨.i32, a⟩) (ha : Wf a) (hc : I32 c) (h : NttRed.scalar_mul_reduce_array a n c = .ok a') :
    Calls P G n!"scalar_mul_reduce_array" [.ptr o 0 1, .int t n, .int tc c] mem (setMem mem o ⟨.i32, a'⟩) ∧ Wf a' := by
  refine Calls.loop1 (hP _ Src.ntt_red.scalar_mul_reduce_array (by rfl)) rfl
    (env := setEnv (setEnv (setEnv (fun _ => none) n!"c" (.int .i32 (some c))) n!"n" (.int .u32 (some (n : Int)))) n!"a" (.ptr o 0 1))
    (by simp only [Src.ntt_red.scalar_mul_reduce_array, bindParams, ok_bind, conv_u32_nat, u32_of hn, conv_i32, toI32_of hc, if_true])
    (by simp only [crun, Nat.reduceEqDiff, reduceIte]) hn hm ha
    (fun i a a' st hI hi _ hab => ?_) h
  simp only [bind_ok] at hab
  obtain ⟨x, h1, z, h3, h4⟩ := hab
  have hav : st.env n!"a" = some (.ptr o 0 1) := by
    rw [hI.keep _ (by decide)]; simp only [crun, Nat.reduceEqDiff, reduceIte]
  have hcv : st.env n!"c" = some (.int .i32 (some c)) := by
    rw [hI.keep _ (by decide)]; simp only [crun, Nat.reduceEqDiff, reduceIte]
  obtain ⟨h5, h6⟩ := hI.put hav (Ev.var hi rfl)
    (Ev.mul_red hP (Ev.elem hav hi hI.arr h1) (Ev.var hcv rfl) (hI.wf _ _ h1) hc h3) (mul_red_rng h3) h4
  exact ⟨_, Ex.seq h5 (Ex.skip _), h6, hi⟩

end
end CLang
