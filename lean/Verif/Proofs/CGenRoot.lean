import Verif.Proofs.CGen

/-
`logtwo`, `is_primitive_root` and `build_power_table` of src/make_tables.c, as read from the text.
-/

namespace CLang.Gen
open C CLang Tables

set_option linter.unusedSimpArgs false

variable {P : Prog} {G : Name → Option Cell} {mem : Nat → Obj}

/-! ### Arrays -/

theorem store_nats {l : List (Name × Cell)} {o : Nat} {a a' : Array Nat} {t t' : Ty} {i v : Nat} (hm : mem o = nats .u32 a)
    (hv : v < 4294967296) (h : wr a i v = .ok a') :
    storeAt (E l mem) (.ptr o 0 1) (.int t (i : Int)) (.int t' (v : Int)) = .ok (E l (setMem mem o (nats .u32 a'))) := by
  rw [storeAt_nat]
  show (wr (mem o).data i (conv (mem o).ty v) >>= _) = _
  rw [hm]
  simp only [nats, conv_u32_nat, u32_of hv, wr_nats h, ok_bind]
  show Except.ok (E l (setMem mem o ⟨(mem o).ty, _⟩)) = _
  rw [hm]
  rfl

theorem store_nats' {l : List (Name × Cell)} {o : Nat} {a a' : Array Nat} {t t' : Ty} {i v : Nat}
    (hv : v < 4294967296) (h : wr a i v = .ok a') :
    storeAt (E l (setMem mem o (nats .u32 a))) (.ptr o 0 1) (.int t (i : Int)) (.int t' (v : Int)) =
      .ok (E l (setMem mem o (nats .u32 a'))) := by
  rw [store_nats (setMem_self _ _ _) hv h, setMem_setMem]

/-! ### logtwo -/

abbrev lg (n : Nat) (o : Nat) (i : Nat) : List (Name × Cell) := [(n!"k", .ptr o 0 1), (n!"n", uc n), (n!"i", uc i)]

theorem logtwo_loop {n o : Nat} {w : Nat × Nat} (hn : n < 4294967296)
    (h : cwhile (fun (st : Nat × Nat) => decide (st.2 &&& 1 = 0)) (fun st => pure (u32 (st.1 + 1), st.2 / 2)) 34 (0, n) = .ok w) :
    Ex P G (.while (.bin .eq (.bin .and (.var n!"n") (.num 1)) (.num 0))
      (.seq (.assign n!"i" (.bin .add (.var n!"i") (.num 1)))
      (.seq (.assign n!"n" (.bin .shr (.var n!"n") (.num 1))) .skip))) (E (lg n o 0) mem) (E (lg w.2 o w.1) mem) ∧
      w.1 < 4294967296 ∧ w.2 < 4294967296 := by
  obtain ⟨st', hw, rfl, h1, h2⟩ := Ex.while_cwhile (P := P) (G := G)
    (c := .bin .eq (.bin .and (.var n!"n") (.num 1)) (.num 0))
    (s := .seq (.assign n!"i" (.bin .add (.var n!"i") (.num 1)))
      (.seq (.assign n!"n" (.bin .shr (.var n!"n") (.num 1))) .skip))
    (fun (s : Nat × Nat) st => st = E (lg s.2 o s.1) mem ∧ s.1 < 4294967296 ∧ s.2 < 4294967296)
    (by
      rintro ⟨i, n⟩ st ⟨rfl, hi, hn⟩
      simp only at hi hn
      refine Ev.mk 4 fun f => ?_
      crs []
      rw [binop_uk (by simp) (by simp) hn (by decide), arith_andU hn (by decide)]
      crs []
      rw [binop_uk (by simp) (by simp) (and_one_lt n) (by decide), arithU_eq])
    (by
      rintro ⟨i, n⟩ ⟨i', n'⟩ st ⟨rfl, hi, hn⟩ _ hb
      simp only at hi hn
      simp only [pure_ok, Prod.mk.injEq] at hb
      obtain ⟨rfl, rfl⟩ := hb
      refine ⟨E (lg (n / 2) o (u32 (i + 1))) mem, Ex.mk 8 fun f => ?_, rfl, u32_lt _, half_lt hn⟩
      crs []
      rw [binop_uk (by simp) (by simp) hi (by decide), arith_addU]
      crs [u32_of (u32_lt _)]
      rw [binop_shrk hn]
      crs [u32_of (half_lt hn)])
    _ (0, n) w (E (lg n o 0) mem) ⟨rfl, show 0 < 4294967296 by decide, hn⟩ h
  exact ⟨hw, h1, h2⟩

theorem logtwo_rt {n o : Nat} {r : Option Nat} {a : Array Nat} (hn : n < 4294967296) (hm : mem o = nats .u32 a) (ha : 0 < a.size)
    (h : logtwo n = .ok r) :
    ∃ st', Rt P G Src.make_tables.logtwo.body (E [(n!"k", .ptr o 0 1), (n!"n", uc n)] mem)
      (.int .i32 (if r.isSome then (1 : Nat) else (0 : Nat))) st' ∧
      st'.mem = (r.elim mem fun k => setMem mem o (nats .u32 (a.setIfInBounds 0 k))) := by
  simp only [logtwo, bind_ok] at h
  obtain ⟨w, h1, h2⟩ := h
  obtain ⟨hw, hi, hn'⟩ := logtwo_loop (P := P) (G := G) (mem := mem) (o := o) hn h1
  have hpre : ∀ b v st', Rt P G b (E (lg w.2 o w.1) mem) v st' →
      Rt P G (.seq (.decl .u32 n!"i") (.seq (.assign n!"i" (.num 0)) (.seq (.while (.bin .eq (.bin .and (.var n!"n") (.num 1)) (.num 0))
      (.seq (.assign n!"i" (.bin .add (.var n!"i") (.num 1)))
      (.seq (.assign n!"n" (.bin .shr (.var n!"n") (.num 1))) .skip))) b))) (E [(n!"k", .ptr o 0 1), (n!"n", uc n)] mem) v st' := by
    intro b v st' hb
    refine Rt.seq (st₁ := E [(n!"k", .ptr o 0 1), (n!"n", uc n), (n!"i", .int .u32 none)] mem) (Ex.mk 1 fun f => by crs [])
      (Rt.seq (st₁ := E (lg n o 0) mem) (Ex.mk 3 fun f => by crs [u32_of (show 0 < 4294967296 by decide)]) (Rt.seq hw hb))
  have hc : Ev P G (.bin .eq (.var n!"n") (.num 1)) (E (lg w.2 o w.1) mem) (truth (decide (w.2 = 1))) := by
    refine Ev.mk 3 fun f => ?_
    crs []
    rw [binop_uk (by simp) (by simp) hn' (by decide), arithU_eq]
  by_cases h1 : w.2 = 1
  · rw [if_pos h1, pure_ok] at h2
    subst h2
    refine ⟨E (lg w.2 o w.1) (setMem mem o (nats .u32 (a.setIfInBounds 0 w.1))), hpre _ _ _ (Rt.left (Rt.ite hc ?_)), rfl⟩
    rw [decide_eq_true h1, if_pos rfl]
    refine Rt.seq (st₁ := E (lg w.2 o w.1) (setMem mem o (nats .u32 (a.setIfInBounds 0 w.1)))) (Ex.mk 3 fun f => ?_)
      (Rt.left (Rt.ret (Ev.mk 1 fun f => ?_)))
    · crs []
      rw [store_nats hm hi (by unfold wr; rw [if_pos ha])]
      crs []
    · crs [Option.isSome_some]
  · rw [if_neg h1, pure_ok] at h2
    subst h2
    refine ⟨E (lg w.2 o w.1) mem, hpre _ _ _ (Rt.seq (Ex.ite hc ?_) (Rt.left (Rt.ret (Ev.mk 1 fun f => ?_)))), rfl⟩
    · rw [decide_eq_false h1, if_neg (by simp)]
      exact Ex.skip _
    · crs [Option.isSome_none, Bool.false_eq_true]

theorem conv_bool (b : Bool) : conv .bool (if b then (1 : Nat) else (0 : Nat) : Nat) = if b then 1 else 0 := by cases b <;> rfl

theorem logtwo_returns {t : Ty} {n o : Nat} {r : Option Nat} {a : Array Nat} (hP : P.lookup n!"logtwo" = some Src.make_tables.logtwo)
    (hn : n < 4294967296) (hm : mem o = nats .u32 a) (ha : 0 < a.size) (h : logtwo n = .ok r) :
    Returns P G n!"logtwo" [.int t (n : Nat), .ptr o 0 1] mem (.int .bool (if r.isSome then 1 else 0))
      (r.elim mem fun k => setMem mem o (nats .u32 (a.setIfInBounds 0 k))) := by
  obtain ⟨st', hr, hm'⟩ := logtwo_rt (P := P) (G := G) hn hm ha h
  rw [← hm']
  refine Returns.mk hP (env := look [(n!"k", .ptr o 0 1), (n!"n", uc n)]) ?_ hr ?_
  · simp only [Src.make_tables.logtwo, bindParams, ok_bind, conv_u32_nat, u32_of hn, look_nil, setEnv_look, upd, if_true]
    rfl
  · simp only [Src.make_tables.logtwo, result, Except.ok.injEq, Val.int.injEq, true_and]
    cases r <;> rfl

/-! ### is_primitive_root -/

abbrev pr (x n q i : Nat) : List (Name × Cell) := [(n!"q", uc q), (n!"n", uc n), (n!"x", uc x), (n!"i", uc i)]

theorem found_stays {cond : Nat → Bool} {next : Nat → Nat} {x q : Nat} :
    ∀ fuel i r, cfor cond next (fun i found => do
      if found then pure true
      else do
        let p ← power x i q
        pure (decide (p = 1))) fuel i true = .ok r → r = true := by
  intro fuel
  induction fuel with
  | zero => intro i r h; simp [cfor] at h
  | succ fuel ih =>
    intro i r h
    rw [cfor] at h
    split at h
    · simp only [if_true, bind_ok, pure_ok] at h
      obtain ⟨_, rfl, h⟩ := h
      exact ih _ _ h
    · cases h; rfl

/-- The loop of `is_primitive_root`. -/
abbrev primLoop : Stmt := .while (.bin .lt (.var n!"i") (.var n!"n"))
    (.seq (.seq (.ite (.bin .eq (.call n!"power" (.cons (.var n!"x") (.cons (.var n!"i") (.cons (.var n!"q") .nil)))) (.num 1))
       (.seq (.ret (.num 0))
       .skip)
       .skip)
     .skip)
    (.assign n!"i" (.bin .add (.var n!"i") (.num 1))))

theorem prim_loop {x n q : Nat} (hP : P.lookup n!"power" = some Src.make_tables.power) (hx : x < 4294967296) (hn : n < 4294967296)
    (hq : q < 4294967296) :
    ∀ fuel i r, i < 4294967296 → cfor (fun i => decide (i < n)) (fun i => u32 (i + 1)) (fun i found => do
      if found then pure true
      else do
        let p ← power x i q
        pure (decide (p = 1))) fuel i false = .ok r →
      ∃ j, if r then Rt P G primLoop (E (pr x n q i) mem) (.int .i32 (0 : Nat)) (E (pr x n q j) mem)
        else Ex P G primLoop (E (pr x n q i) mem) (E (pr x n q j) mem) := by
  intro fuel
  induction fuel with
  | zero => intro i r _ h; simp [cfor] at h
  | succ fuel ih =>
    intro i r hi h
    have hc : Ev P G (.bin .lt (.var n!"i") (.var n!"n")) (E (pr x n q i) mem) (truth (decide (i < n))) := by
      refine Ev.mk 3 fun f => ?_
      crs []
      rw [binop_uu (by simp) (by simp) hi hn, arithU_lt]
    rw [cfor] at h
    by_cases hin : i < n
    · rw [if_pos (decide_eq_true hin), bind_ok] at h
      obtain ⟨b, hb, h⟩ := h
      simp only [Bool.false_eq_true, if_false, bind_ok, pure_ok] at hb
      obtain ⟨p, hp, rfl⟩ := hb
      obtain ⟨hv, hlt⟩ := power_ev (P := P) (G := G) (e1 := .var n!"x") (e2 := .var n!"i") (e3 := .var n!"q") (st := E (pr x n q i) mem)
        (t1 := .u32) (t2 := .u32) (t3 := .u32) hP (Ev.mk 1 fun f => by crs []) (Ev.mk 1 fun f => by crs []) (Ev.mk 1 fun f => by crs []) hx hi hq hp
      have hv1 : Ev P G (.bin .eq (.call n!"power" (.cons (.var n!"x") (.cons (.var n!"i") (.cons (.var n!"q") .nil)))) (.num 1))
          (E (pr x n q i) mem) (truth (decide (p = 1))) := by
        refine Ev.bin hv (Ev.mk (v := .int .i32 (1 : Nat)) 1 fun f => by crs []) ?_
        rw [binop_uk (by simp) (by simp) hlt (by decide), arithU_eq]
      rw [decide_eq_true hin] at hc
      by_cases hp1 : p = 1
      · rw [decide_eq_true hp1] at h hv1
        rw [found_stays _ _ _ h]
        refine ⟨i, ?_⟩
        rw [if_pos rfl]
        refine Rt.while_now hc (Rt.left (Rt.left (Rt.ite hv1 ?_)))
        rw [if_pos rfl]
        exact Rt.left (Rt.ret (Ev.mk 1 fun f => by crs []))
      · rw [decide_eq_false hp1] at h hv1
        obtain ⟨j, hj⟩ := ih _ _ (u32_lt _) h
        have hs : Ex P G (.seq (.seq (.ite (.bin .eq (.call n!"power" (.cons (.var n!"x") (.cons (.var n!"i") (.cons (.var n!"q") .nil)))) (.num 1))
           (.seq (.ret (.num 0))
           .skip)
           .skip)
         .skip)
        (.assign n!"i" (.bin .add (.var n!"i") (.num 1)))) (E (pr x n q i) mem) (E (pr x n q (u32 (i + 1))) mem) := by
          refine Ex.seq (st₁ := E (pr x n q i) mem) (Ex.seq (st₁ := E (pr x n q i) mem) (Ex.ite hv1 ?_) (Ex.skip _)) (Ex.mk 4 fun f => ?_)
          · rw [if_neg (by simp)]; exact Ex.skip _
          · crs []
            rw [binop_uk (by simp) (by simp) hi (by decide), arith_addU]
            crs [u32_of (u32_lt _)]
        refine ⟨j, ?_⟩
        cases r with
        | true => exact Rt.while_later hc hs hj
        | false => exact Ex.while_true hc hs hj
    · rw [if_neg (by simpa using hin)] at h
      cases h
      rw [decide_eq_false hin] at hc
      exact ⟨i, Ex.while_false hc⟩

theorem is_primitive_root_rt {x n q : Nat} {r : Bool} (hP : P.lookup n!"power" = some Src.make_tables.power) (hx : x < 4294967296)
    (hn : n < 4294967296) (hq : q < 4294967296) (h : is_primitive_root x n q = .ok r) :
    ∃ st', Rt P G Src.make_tables.is_primitive_root.body (E [(n!"q", uc q), (n!"n", uc n), (n!"x", uc x)] mem) (truth r) st' ∧ st'.mem = mem := by
  simp only [is_primitive_root, bind_ok] at h
  obtain ⟨found, h1, h2⟩ := h
  obtain ⟨j, hj⟩ := prim_loop (P := P) (G := G) (mem := mem) hP hx hn hq _ 1 found (by decide) h1
  have e0 : Ex P G (.decl .u32 n!"i") (E [(n!"q", uc q), (n!"n", uc n), (n!"x", uc x)] mem)
      (E [(n!"q", uc q), (n!"n", uc n), (n!"x", uc x), (n!"i", .int .u32 none)] mem) := Ex.mk 1 fun f => by crs []
  have e1 : Ex P G (.assign n!"i" (.num 1)) (E [(n!"q", uc q), (n!"n", uc n), (n!"x", uc x), (n!"i", .int .u32 none)] mem) (E (pr x n q 1) mem) :=
    Ex.mk 3 fun f => by crs [u32_of (show 1 < 4294967296 by decide)]
  cases found with
  | true =>
    rw [if_pos rfl, pure_ok] at h2
    subst h2
    exact ⟨E (pr x n q j) mem, Rt.seq e0 (Rt.left (Rt.seq e1 hj)), rfl⟩
  | false =>
    simp only [Bool.false_eq_true, if_false, bind_ok, pure_ok] at h2
    obtain ⟨p, hp, rfl⟩ := h2
    obtain ⟨hv, hlt⟩ := power_ev (P := P) (G := G) (e1 := .var n!"x") (e2 := .var n!"n") (e3 := .var n!"q") (st := E (pr x n q j) mem)
      (t1 := .u32) (t2 := .u32) (t3 := .u32) hP (Ev.mk 1 fun f => by crs []) (Ev.mk 1 fun f => by crs []) (Ev.mk 1 fun f => by crs []) hx hn hq hp
    refine ⟨E (pr x n q j) mem, Rt.seq e0 (Rt.seq (Ex.seq e1 hj) (Rt.left (Rt.ret (Ev.bin hv (Ev.mk (v := .int .i32 (1 : Nat)) 1 fun f => by crs []) ?_)))), rfl⟩
    rw [binop_uk (by simp) (by simp) hlt (by decide), arithU_eq]

theorem result_bool (b : Bool) : result (some .bool) (some (truth b)) = .ok (.int .bool (if b then 1 else 0)) := by cases b <;> rfl

theorem is_primitive_root_returns {t1 t2 t3 : Ty} {x n q : Nat} {r : Bool} (hP : P.lookup n!"power" = some Src.make_tables.power)
    (hR : P.lookup n!"is_primitive_root" = some Src.make_tables.is_primitive_root)
    (hx : x < 4294967296) (hn : n < 4294967296) (hq : q < 4294967296) (h : is_primitive_root x n q = .ok r) :
    Returns P G n!"is_primitive_root" [.int t1 (x : Nat), .int t2 (n : Nat), .int t3 (q : Nat)] mem (.int .bool (if r then 1 else 0)) mem := by
  obtain ⟨st', hr, hm⟩ := is_primitive_root_rt (P := P) (G := G) (mem := mem) hP hx hn hq h
  rw [← hm]
  exact Returns.mk (mem := st'.mem) hR (bind3 hx hn hq (by decide) (by decide) (by decide)) (hm ▸ hr) (result_bool r)

/-! ### build_power_table -/

theorem bindTab {a n q x y : Name} {o : Nat} {tn tq tx ty : Ty} {vn vq vx vy : Nat} (hn : vn < 4294967296) (hq : vq < 4294967296)
    (hx : vx < 4294967296) (hy : vy < 4294967296) (h : [a, n, q, x, y].Nodup) :
    bindParams [(a, .ptr 1), (n, .int .u32), (q, .int .u32), (x, .int .u32), (y, .int .u32)]
      [.ptr o 0 1, .int tn (vn : Int), .int tq (vq : Int), .int tx (vx : Int), .int ty (vy : Int)] =
      .ok (look [(y, uc vy), (x, uc vx), (q, uc vq), (n, uc vn), (a, .ptr o 0 1)]) := by
  simp only [List.nodup_cons, List.mem_cons, List.not_mem_nil, or_false, not_or, not_false_eq_true, List.nodup_nil, and_true] at h
  obtain ⟨⟨h1, h2, h3, h4⟩, ⟨h5, h6, h7⟩, ⟨h8, h9⟩, h10⟩ := h
  simp only [bindParams, ok_bind, conv_u32_nat, u32_of hn, u32_of hq, u32_of hx, u32_of hy, look_nil, setEnv_look, upd, if_true,
    if_neg h1, if_neg h2, if_neg h3, if_neg h4, if_neg h5, if_neg h6, if_neg h7, if_neg h8, if_neg h9, if_neg h10]

abbrev bp (y x q n o i : Nat) : List (Name × Cell) :=
  [(n!"y", uc y), (n!"x", uc x), (n!"q", uc q), (n!"n", uc n), (n!"a", .ptr o 0 1), (n!"i", uc i)]

theorem build_power_table_calls {tn tq tx ty : Ty} {n q x y o : Nat} {a a' : Array Nat}
    (hP : P.lookup n!"build_power_table" = some Src.make_tables.build_power_table) (hm : mem o = nats .u32 a)
    (hn : n < 4294967296) (hq : q < 4294967296) (hx : x < 4294967296) (hy : y < 4294967296) (h : build_power_table a n q x y = .ok a') :
    Calls P G n!"build_power_table" [.ptr o 0 1, .int tn (n : Nat), .int tq (q : Nat), .int tx (x : Nat), .int ty (y : Nat)] mem
      (setMem mem o (nats .u32 a')) := by
  simp only [build_power_table, bind_ok, pure_ok] at h
  obtain ⟨w, h1, rfl⟩ := h
  obtain ⟨st', j', hw, rfl, hx', hj'⟩ := Ex.while_cfor (P := P) (G := G)
    (c := .bin .lt (.var n!"i") (.var n!"n"))
    (s := (.seq (.seq (.store (.var n!"a") (.var n!"i") (.var n!"x"))
     (.seq (.assign n!"x" (.bin .rem (.bin .mul (.var n!"x") (.var n!"y")) (.var n!"q")))
     .skip))
    (.assign n!"i" (.bin .add (.var n!"i") (.num 1)))))
    (fun i (s : Nat × Array Nat) st => st = E (bp y s.1 q n o i) (setMem mem o (nats .u32 s.2)) ∧ s.1 < 4294967296 ∧ i < 4294967296)
    (by
      rintro i ⟨x, a⟩ st ⟨rfl, hx, hi⟩
      refine Ev.mk 3 fun f => ?_
      crs []
      rw [binop_uu (by simp) (by simp) hi hn, arithU_lt])
    (by
      rintro i ⟨x, a⟩ ⟨x', a'⟩ st ⟨rfl, hx, hi⟩ _ hb
      simp only at hx
      simp only [bind_ok, pure_ok, Prod.mk.injEq] at hb
      obtain ⟨a₁, h1, x₁, h2, rfl, rfl⟩ := hb
      have hx' := urem_lt (u32_lt _) h2
      refine ⟨E (bp y x' q n o (u32 (i + 1))) (setMem mem o (nats .u32 a')), Ex.mk 9 fun f => ?_, rfl, hx', u32_lt _⟩
      crs []
      rw [store_nats' hx h1]
      crs []
      rw [binop_uu (by simp) (by simp) hx hy, arith_mulU]
      crs []
      rw [binop_uu (by simp) (by simp) (u32_lt _) hq, arith_remU h2]
      crs [u32_of hx']
      rw [binop_uk (by simp) (by simp) hi (by decide), arith_addU]
      crs [u32_of (u32_lt _)])
    _ 0 (x, a) w (E (bp y x q n o 0) mem) ⟨by rw [setMem_eq _ _ hm], hx, by decide⟩ h1
  refine Calls.mk (st' := E (bp y w.1 q n o j') (setMem mem o (nats .u32 w.2))) hP (bindTab hn hq hx hy (by decide)) ?_
  refine Ex.seq (st₁ := E [(n!"y", uc y), (n!"x", uc x), (n!"q", uc q), (n!"n", uc n), (n!"a", .ptr o 0 1), (n!"i", .int .u32 none)] mem) ?_
    (Ex.seq (Ex.seq (st₁ := E (bp y x q n o 0) mem) ?_ hw) (Ex.skip _))
  · exact Ex.mk 1 fun f => by crs []
  · exact Ex.mk 3 fun f => by crs [u32_of (show 0 < 4294967296 by decide)]

end CLang.Gen
