import Verif.Proofs.CGenRoot

/-
`inverse` of src/make_tables.c, as read from the text.
-/

namespace CLang.Gen
open C CLang Tables

set_option linter.unusedSimpArgs false

variable {P : Prog} {G : Name → Option Cell} {mem : Nat → Obj}

theorem binop_div32 {x y : Int} (hx : I32 x) (hy : I32 y) (h0 : 0 < y) :
    binop .div (.int .i32 x) (.int .i32 y) = .ok (.int .i32 (x.tdiv y)) ∧ I32 (x.tdiv y) := by
  have hd : I32 (x.tdiv y) := by
    have h1 := Int.natAbs_tdiv_le_natAbs x y
    unfold I32 at *
    by_cases h : 0 ≤ x
    · have := Int.tdiv_nonneg h (le_of_lt h0)
      omega
    · have := Int.tdiv_nonneg (show 0 ≤ -x by omega) (le_of_lt h0)
      rw [Int.neg_tdiv] at this
      omega
  refine ⟨?_, hd⟩
  simp only [binop, common, promote, conv_i32, toI32_of hx, toI32_of hy, arith]
  rw [if_neg (by omega)]
  show (C.i32 _ >>= _) = _
  rw [i32_of hd]
  simp only [ok_bind]

theorem tmod_I32 {x y : Int} (hy : I32 y) (h0 : 0 < y) : I32 (x.tmod y) := by
  have h1 := Int.tmod_lt_of_pos x h0
  have h2 : -y < x.tmod y := by
    have := Int.tmod_lt_of_pos (-x) h0
    rw [Int.neg_tmod] at this
    omega
  unfold I32 at *
  omega

/-- Variables of `inverse`. -/
abbrev iv (o q x : Nat) (r1 r2 u1 u2 v1 v2 : Int) (g aux : Option Int) : List (Name × Cell) :=
  [(n!"inv_x", .ptr o 0 1), (n!"q", uc q), (n!"x", uc x), (n!"r1", ic r1), (n!"r2", ic r2), (n!"u1", ic u1), (n!"u2", ic u2), (n!"v1", ic v1),
    (n!"v2", ic v2), (n!"g", .int .i32 g), (n!"aux", .int .i32 aux)]

/-- `r == (int32_t) x * u + (int32_t) q * v` -/
theorem bezout_ev {l : List (Name × Cell)} {nr nu nv : Name} {x q : Nat} {r u v a b c : Int} (lr : look l nr = some (ic r)) (lu : look l nu = some (ic u))
    (lv : look l nv = some (ic v)) (lx : look l n!"x" = some (uc x)) (lq : look l n!"q" = some (uc q)) (hr : I32 r) (hu : I32 u) (hv : I32 v)
    (ha : C.i32 (toI32 x * u) = .ok a) (hb : C.i32 (toI32 q * v) = .ok b) (hc : C.i32 (a + b) = .ok c) (h : r = c) :
    Ev P G (.bin .eq (.var nr) (.bin .add (.bin .mul (.cast .i32 (.var n!"x")) (.var nu)) (.bin .mul (.cast .i32 (.var n!"q")) (.var nv)))) (E l mem)
      (truth true) := by
  have ex : Ev P G (.cast .i32 (.var n!"x")) (E l mem) (.int .i32 (toI32 x)) := Ev.mk 2 fun f => by crs [lx]
  have eq : Ev P G (.cast .i32 (.var n!"q")) (E l mem) (.int .i32 (toI32 q)) := Ev.mk 2 fun f => by crs [lq]
  refine Ev.bin (Ev.v lr rfl) (Ev.bin (v := .int .i32 c) (Ev.bin (v := .int .i32 a) ex (Ev.v lu rfl) ?_) (Ev.bin (v := .int .i32 b) eq (Ev.v lv rfl) ?_) ?_) ?_
  · rw [binop_mul32 (I32_toI32 _) hu, ha, ok_bind]
  · rw [binop_mul32 (I32_toI32 _) hv, hb, ok_bind]
  · rw [binop_add32 (i32_rng ha) (i32_rng hb), hc, ok_bind]
  · rw [binop_ii (by simp) (by simp) hr (i32_rng hc), arith_eq, h, decide_eq_true rfl]

/-- `b = a - g * b` -/
theorem euclid_ev {l : List (Name × Cell)} {nb : Name} {a b g m r : Int} (la : look l n!"aux" = some (ic a)) (lb : look l nb = some (ic b))
    (lg : look l n!"g" = some (ic g)) (ha : I32 a) (hb : I32 b) (hg : I32 g) (hm : C.i32 (g * b) = .ok m) (hr : C.i32 (a - m) = .ok r) :
    Ex P G (.assign nb (.bin .sub (.var n!"aux") (.bin .mul (.var n!"g") (.var nb)))) (E l mem) (E (upd l nb (ic r)) mem) := by
  refine Ex.asg (t' := .i32) (v := r) (Ev.bin (Ev.v la rfl) (Ev.bin (v := .int .i32 m) (Ev.v lg rfl) (Ev.v lb rfl) ?_) ?_) lb (toI32_of (i32_rng hr))
  · rw [binop_mul32 hg hb, hm, ok_bind]
  · rw [binop_sub32 ha (i32_rng hm), hr, ok_bind]

/-- `a = b` -/
theorem copy_ex {l : List (Name × Cell)} {na nb : Name} {o : Option Int} {b : Int} (la : look l na = some (.int .i32 o)) (lb : look l nb = some (ic b))
    (hb : I32 b) : Ex P G (.assign na (.var nb)) (E l mem) (E (upd l na (ic b)) mem) :=
  Ex.asg (t' := .i32) (v := b) (Ev.v lb rfl) la (toI32_of hb)

/-- The body of the loop of `inverse`. -/
abbrev invBody : Stmt :=
    (.seq (.assert (.bin .eq (.var n!"r1") (.bin .add (.bin .mul (.cast .i32 (.var n!"x")) (.var n!"u1")) (.bin .mul (.cast .i32 (.var n!"q")) (.var n!"v1")))))
    (.seq (.assert (.bin .eq (.var n!"r2") (.bin .add (.bin .mul (.cast .i32 (.var n!"x")) (.var n!"u2")) (.bin .mul (.cast .i32 (.var n!"q")) (.var n!"v2")))))
    (.seq (.assert (.bin .ge (.var n!"r1") (.num 0)))
    (.seq (.assign n!"g" (.bin .div (.var n!"r1") (.var n!"r2")))
    (.seq (.assign n!"aux" (.var n!"r1"))
    (.seq (.assign n!"r1" (.var n!"r2"))
    (.seq (.assign n!"r2" (.bin .sub (.var n!"aux") (.bin .mul (.var n!"g") (.var n!"r2"))))
    (.seq (.assign n!"aux" (.var n!"u1"))
    (.seq (.assign n!"u1" (.var n!"u2"))
    (.seq (.assign n!"u2" (.bin .sub (.var n!"aux") (.bin .mul (.var n!"g") (.var n!"u2"))))
    (.seq (.assign n!"aux" (.var n!"v1"))
    (.seq (.assign n!"v1" (.var n!"v2"))
    (.seq (.assign n!"v2" (.bin .sub (.var n!"aux") (.bin .mul (.var n!"g") (.var n!"v2"))))
    .skip)))))))))))))

/-- All variables are `int32_t` values. -/
structure Rng (s : Euclid) : Prop where
  r1 : I32 s.r1
  r2 : I32 s.r2
  u1 : I32 s.u1
  u2 : I32 s.u2
  v1 : I32 s.v1
  v2 : I32 s.v2

theorem inv_body {o q x : Nat} {s s' : Euclid} {g aux : Option Int} (hs : Rng s) (h0 : 0 < s.r2) (h : inverseStep x q s = .ok s') :
    ∃ g' aux', Ex P G invBody (E (iv o q x s.r1 s.r2 s.u1 s.u2 s.v1 s.v2 g aux) mem) (E (iv o q x s'.r1 s'.r2 s'.u1 s'.u2 s'.v1 s'.v2 g' aux') mem) ∧ Rng s' := by
  simp only [inverseStep, bind_ok, pure_ok] at h
  obtain ⟨a, ha, b, hb, c, hc, _, h1, a', ha', b', hb', c', hc', _, h2, _, h3, d, hd, m1, hm1, r, hr, m2, hm2, u, hu, m3, hm3, v, hv, rfl⟩ := h
  rw [cassert_ok, decide_eq_true_eq] at h1 h2 h3
  obtain ⟨hdv, hd32⟩ := binop_div32 hs.r1 hs.r2 h0
  have hd' : d = s.r1.tdiv s.r2 := by
    unfold cdiv at hd
    rw [if_neg (by omega)] at hd
    cases hd; rfl
  subst hd'
  refine ⟨some (s.r1.tdiv s.r2), some s.v1,
    Ex.seq (Ex.asserts (bezout_ev rfl rfl rfl rfl rfl hs.r1 hs.u1 hs.v1 ha hb hc h1))
    (Ex.seq (Ex.asserts (bezout_ev rfl rfl rfl rfl rfl hs.r2 hs.u2 hs.v2 ha' hb' hc' h2))
    (Ex.seq (st₁ := E (iv o q x s.r1 s.r2 s.u1 s.u2 s.v1 s.v2 g aux) mem) (Ex.asserts ?_)
    (Ex.seq (Ex.asg (t' := .i32) (w := s.r1.tdiv s.r2) (Ev.bin (Ev.v rfl rfl) (Ev.v rfl rfl) hdv) rfl (toI32_of hd32))
    (Ex.seq (copy_ex rfl rfl hs.r1)
    (Ex.seq (copy_ex rfl rfl hs.r2)
    (Ex.seq (euclid_ev rfl rfl rfl hs.r1 hs.r2 hd32 hm1 hr)
    (Ex.seq (copy_ex rfl rfl hs.u1)
    (Ex.seq (copy_ex rfl rfl hs.u2)
    (Ex.seq (euclid_ev rfl rfl rfl hs.u1 hs.u2 hd32 hm2 hu)
    (Ex.seq (copy_ex rfl rfl hs.v1)
    (Ex.seq (copy_ex rfl rfl hs.v2)
    (Ex.seq (euclid_ev rfl rfl rfl hs.v1 hs.v2 hd32 hm3 hv) (Ex.skip _))))))))))))), ⟨hs.r2, i32_rng hr, hs.u2, i32_rng hu, hs.v2, i32_rng hv⟩⟩
  refine Ev.bin (Ev.v (v := .int .i32 s.r1) rfl rfl) (Ev.mk (v := .int .i32 (0 : Nat)) 1 fun f => by crs []) ?_
  rw [binop_ii (by simp) (by simp) hs.r1 (by decide)]
  simp only [arith]
  rw [decide_eq_true (by exact_mod_cast h3)]

/-- The end of `inverse`. -/
abbrev invEnd : Stmt :=
  (.ite (.bin .eq (.var n!"r1") (.num 1))
    (.seq (.assign n!"u1" (.bin .rem (.var n!"u1") (.cast .i32 (.var n!"q"))))
    (.seq (.ite (.bin .lt (.var n!"u1") (.num 0))
      (.assign n!"u1" (.bin .add (.var n!"u1") (.var n!"q")))
      .skip)
    (.seq (.assert (.bin .eq (.bin .rem (.bin .mul (.cast .i32 (.var n!"x")) (.var n!"u1")) (.cast .i32 (.var n!"q"))) (.num 1)))
    (.seq (.store (.var n!"inv_x") (.num 0) (.var n!"u1"))
    (.seq (.ret (.num 1))
    .skip)))))
    (.seq (.ret (.num 0))
    .skip))

theorem conv_u32_int (x : Int) : conv .u32 x = ((toU32 x : Nat) : Int) := by
  show x % 4294967296 = _
  unfold toU32; omega

theorem toU32_lt (x : Int) : toU32 x < 4294967296 := by unfold toU32; omega

theorem inv_end {o q x : Nat} {s : Euclid} {g aux : Option Int} {a : Array Nat} {r : Option Nat} (hs : Rng s) (hq : q < 2147483648)
    (hm : mem o = nats .u32 a) (ha : 0 < a.size)
    (h : (if s.r1 = 1 then do
      let u ← crem s.u1 (toI32 q)
      let u := if u < 0 then toI32 (u32 (toU32 u + q) : Nat) else u
      let m ← C.i32 (toI32 x * u)
      let m ← crem m (toI32 q)
      cassert (decide (m = 1))
      pure (some (toU32 u))
    else pure none : M (Option Nat)) = .ok r) :
    ∃ st', Rt P G invEnd (E (iv o q x s.r1 s.r2 s.u1 s.u2 s.v1 s.v2 g aux) mem) (.int .i32 (if r.isSome then (1 : Nat) else (0 : Nat))) st' ∧
      st'.mem = (r.elim mem fun k => setMem mem o (nats .u32 (a.setIfInBounds 0 k))) := by
  have hqi : toI32 (q : Int) = q := toI32_of (by unfold I32; omega)
  have hc : Ev P G (.bin .eq (.var n!"r1") (.num 1)) (E (iv o q x s.r1 s.r2 s.u1 s.u2 s.v1 s.v2 g aux) mem) (truth (decide (s.r1 = 1))) := by
    refine Ev.bin (Ev.v (v := .int .i32 s.r1) rfl rfl) (Ev.mk (v := .int .i32 (1 : Nat)) 1 fun f => by crs []) ?_
    rw [binop_ii (by simp) (by simp) hs.r1 (by decide), arith_eq]
    rfl
  by_cases h1 : s.r1 = 1
  · rw [if_pos h1] at h
    simp only [bind_ok, pure_ok] at h
    obtain ⟨u, hu, m, hm1, m', hm2, _, hm3, rfl⟩ := h
    have h0 : 0 < q := by
      by_contra h0
      unfold crem at hu
      rw [hqi, if_pos (by omega)] at hu
      cases hu
    have hqI : I32 (q : Int) := by unfold I32; omega
    have hqp : (0 : Int) < q := by omega
    rw [hqi] at hu hm2
    unfold crem at hu hm2
    rw [if_neg (by omega)] at hu hm2
    cases hu
    cases hm2
    have huI := tmod_I32 (x := s.u1) hqI hqp
    rw [cassert_ok, decide_eq_true_eq] at hm3
    generalize hu' : (if s.u1.tmod ↑q < 0 then toI32 (u32 (toU32 (s.u1.tmod ↑q) + q) : Nat) else s.u1.tmod ↑q) = u' at *
    have hu'I : I32 u' := by
      rw [← hu']; split
      · exact I32_toI32 _
      · exact huI
    have eq : ∀ l, look l n!"q" = some (uc q) → Ev P G (.cast .i32 (.var n!"q")) (E l mem) (.int .i32 (q : Int)) :=
      fun l hl => Ev.mk 2 fun f => by crs [hl, hqi]
    refine ⟨E (iv o q x s.r1 s.r2 u' s.u2 s.v1 s.v2 g aux) (setMem mem o (nats .u32 (a.setIfInBounds 0 (toU32 u')))), Rt.ite hc ?_, rfl⟩
    rw [decide_eq_true h1, if_pos rfl]
    refine Rt.seq (Ex.asg (t' := .i32) (w := s.u1.tmod q) (Ev.bin (Ev.v rfl rfl) (eq _ rfl) (binop_rem32 hs.u1 hqI hqp)) rfl (toI32_of huI))
      (Rt.seq (st₁ := E (iv o q x s.r1 s.r2 u' s.u2 s.v1 s.v2 g aux) mem)
        (Ex.ite (v := decide (s.u1.tmod q < 0)) ?_ ?_)
      (Rt.seq (Ex.asserts (Ev.bin (Ev.bin (v := .int .i32 (m.tmod q)) (Ev.bin (v := .int .i32 m) (Ev.mk (v := .int .i32 (toI32 x)) 2 fun f => by crs [])
          (Ev.v (v := .int .i32 u') rfl rfl) ?_) (eq _ rfl) ?_)
        (Ev.mk (v := .int .i32 (1 : Nat)) 1 fun f => by crs []) ?_))
      (Rt.seq (Ex.store (Ev.v (v := .ptr o 0 1) rfl rfl) (Ev.mk (v := .int .i32 (0 : Nat)) 1 fun f => by crs []) (Ev.v (v := .int .i32 u') rfl rfl) ?_)
      (Rt.left (Rt.ret (Ev.mk 1 fun f => ?_))))))
    · refine Ev.bin (Ev.v (v := .int .i32 (s.u1.tmod q)) rfl rfl) (Ev.mk (v := .int .i32 (0 : Nat)) 1 fun f => by crs []) ?_
      rw [binop_ii (by simp) (by simp) huI (by decide), arith_lt]
      rfl
    · by_cases hneg : s.u1.tmod q < 0
      · rw [if_pos hneg] at hu'
        rw [decide_eq_true hneg, if_pos rfl]
        refine Ex.asg (t' := .u32) (v := (u32 (toU32 (s.u1.tmod q) + q) : Nat)) (w := u')
          (Ev.bin (Ev.v (v := .int .i32 (s.u1.tmod q)) rfl rfl) (Ev.v (v := .int .u32 (q : Int)) rfl rfl) ?_) rfl hu'
        simp only [binop, common, promote]
        rw [show conv .u32 (s.u1.tmod q) = ((toU32 (s.u1.tmod q) : Nat) : Int) from conv_u32_int _, conv_u32_nat, u32_of (by omega), arith_addU]
      · rw [if_neg hneg] at hu'
        subst hu'
        rw [decide_eq_false hneg, if_neg (by simp)]
        exact Ex.skip _
    · rw [binop_mul32 (I32_toI32 _) hu'I, hm1, ok_bind]
    · exact binop_rem32 (i32_rng hm1) hqI hqp
    · rw [binop_ii (by simp) (by simp) (tmod_I32 hqI hqp) (by decide), arith_eq, hm3]
      rfl
    · have := storeAt_nat (E (iv o q x s.r1 s.r2 u' s.u2 s.v1 s.v2 g aux) mem) o .i32 .i32 0 u'
      refine this.trans ?_
      show (wr (mem o).data 0 (conv (mem o).ty u') >>= fun d => Except.ok (E (iv o q x s.r1 s.r2 u' s.u2 s.v1 s.v2 g aux) (setMem mem o ⟨(mem o).ty, d⟩))) = _
      rw [hm]
      have hw : wr a 0 (toU32 u') = .ok (a.setIfInBounds 0 (toU32 u')) := by unfold wr; rw [if_pos ha]
      show (wr _ 0 (conv .u32 u') >>= _) = _
      rw [show conv .u32 u' = ((toU32 u' : Nat) : Int) from conv_u32_int _]
      simp only [nats, wr_nats hw, ok_bind]
    · crs [Option.isSome_some]
  · rw [if_neg h1, pure_ok] at h
    subst h
    refine ⟨E (iv o q x s.r1 s.r2 s.u1 s.u2 s.v1 s.v2 g aux) mem, Rt.ite hc ?_, rfl⟩
    rw [decide_eq_false h1, if_neg (by simp)]
    exact Rt.left (Rt.ret (Ev.mk 1 fun f => by crs [Option.isSome_none, Bool.false_eq_true]))

theorem inverse_returns {t1 t2 : Ty} {x q o : Nat} {a : Array Nat} {r : Option Nat} (hP : P.lookup n!"inverse" = some Src.make_tables.inverse)
    (hx : x < 4294967296) (hq : q < 2147483648) (hm : mem o = nats .u32 a) (ha : 0 < a.size) (h : inverse x q = .ok r) :
    Returns P G n!"inverse" [.int t1 (x : Nat), .int t2 (q : Nat), .ptr o 0 1] mem (.int .bool (if r.isSome then 1 else 0))
      (r.elim mem fun k => setMem mem o (nats .u32 (a.setIfInBounds 0 k))) := by
  unfold inverse at h
  rw [bind_ok] at h
  obtain ⟨s, h1, h2⟩ := h
  have hqi : toI32 (q : Int) = q := toI32_of (by unfold I32; omega)
  obtain ⟨st', hw, ⟨g', aux', hst⟩, hs⟩ := Ex.while_cwhile (P := P) (G := G) (c := .bin .gt (.var n!"r2") (.num 0)) (s := invBody)
    (fun (s : Euclid) st => (∃ g aux, st = E (iv o q x s.r1 s.r2 s.u1 s.u2 s.v1 s.v2 g aux) mem) ∧ Rng s)
    (by
      rintro s st ⟨⟨g, aux, rfl⟩, hs⟩
      refine Ev.bin (Ev.v (v := .int .i32 s.r2) rfl rfl) (Ev.mk (v := .int .i32 (0 : Nat)) 1 fun f => by crs []) ?_
      rw [binop_ii (by simp) (by simp) hs.r2 (by decide), arith_gt]
      rfl)
    (by
      rintro s s' st ⟨⟨g, aux, rfl⟩, hs⟩ hc hb
      obtain ⟨g', aux', e, hs'⟩ := inv_body (P := P) (G := G) (mem := mem) (o := o) (g := g) (aux := aux) hs (by simpa using hc) hb
      exact ⟨_, e, ⟨g', aux', rfl⟩, hs'⟩)
    _ ⟨toI32 x, toI32 q, 1, 0, 0, 1⟩ s (E (iv o q x (toI32 x) (toI32 q) 1 0 0 1 none none) mem)
      ⟨⟨none, none, rfl⟩, ⟨I32_toI32 _, I32_toI32 _, by show I32 1; decide, by show I32 0; decide, by show I32 0; decide, by show I32 1; decide⟩⟩ h1
  subst hst
  obtain ⟨st', hr, hm'⟩ := inv_end (P := P) (G := G) (g := g') (aux := aux') hs hq hm ha h2
  rw [← hm']
  refine Returns.mk hP (env := look [(n!"inv_x", .ptr o 0 1), (n!"q", uc q), (n!"x", uc x)]) ?_ ?_ (v := .int .i32 (if r.isSome then (1 : Nat) else (0 : Nat))) ?_
  · simp only [Src.make_tables.inverse, bindParams, ok_bind, conv_u32_nat, u32_of hx, u32_of (show q < 4294967296 by omega), look_nil, setEnv_look, upd, if_true]
    rfl
  · have hr' := Rt.seq hw (Rt.left (b := .skip) hr)
    refine Rt.seq (st₁ := E [(n!"inv_x", .ptr o 0 1), (n!"q", uc q), (n!"x", uc x), (n!"r1", .int .i32 none), (n!"r2", .int .i32 none),
        (n!"u1", .int .i32 none), (n!"u2", .int .i32 none), (n!"v1", .int .i32 none), (n!"v2", .int .i32 none), (n!"g", .int .i32 none),
        (n!"aux", .int .i32 none)] mem) (Ex.mk 9 fun f => ?_)
      (Rt.seq (st₁ := E [(n!"inv_x", .ptr o 0 1), (n!"q", uc q), (n!"x", uc x), (n!"r1", ic (toI32 x)), (n!"r2", .int .i32 none),
        (n!"u1", .int .i32 none), (n!"u2", .int .i32 none), (n!"v1", .int .i32 none), (n!"v2", .int .i32 none), (n!"g", .int .i32 none),
        (n!"aux", .int .i32 none)] mem) (Ex.mk 3 fun f => ?_)
      (Rt.seq (st₁ := E [(n!"inv_x", .ptr o 0 1), (n!"q", uc q), (n!"x", uc x), (n!"r1", ic (toI32 x)), (n!"r2", .int .i32 none),
        (n!"u1", ic 1), (n!"u2", .int .i32 none), (n!"v1", .int .i32 none), (n!"v2", .int .i32 none), (n!"g", .int .i32 none),
        (n!"aux", .int .i32 none)] mem) (Ex.mk 3 fun f => ?_)
      (Rt.seq (st₁ := E [(n!"inv_x", .ptr o 0 1), (n!"q", uc q), (n!"x", uc x), (n!"r1", ic (toI32 x)), (n!"r2", .int .i32 none),
        (n!"u1", ic 1), (n!"u2", .int .i32 none), (n!"v1", ic 0), (n!"v2", .int .i32 none), (n!"g", .int .i32 none),
        (n!"aux", .int .i32 none)] mem) (Ex.mk 3 fun f => ?_)
      (Rt.seq (st₁ := E [(n!"inv_x", .ptr o 0 1), (n!"q", uc q), (n!"x", uc x), (n!"r1", ic (toI32 x)), (n!"r2", ic (toI32 q)),
        (n!"u1", ic 1), (n!"u2", .int .i32 none), (n!"v1", ic 0), (n!"v2", .int .i32 none), (n!"g", .int .i32 none),
        (n!"aux", .int .i32 none)] mem) (Ex.mk 3 fun f => ?_)
      (Rt.seq (st₁ := E (iv o q x (toI32 x) (toI32 q) 1 0 0 1 none none) mem) (Ex.mk 4 fun f => ?_) hr')))))
    all_goals crs []
    all_goals rfl
  · simp only [Src.make_tables.inverse, result, Except.ok.injEq, Val.int.injEq, true_and]
    cases r <;> rfl

end CLang.Gen
