import Verif.Proofs.CGenRoot

/-
`build_table` and `build_rev_table` of src/make_tables.c, as read from the text.
-/

namespace CLang.Gen
open C CLang Tables

set_option linter.unusedSimpArgs false

variable {P : Prog} {G : Name → Option Cell} {mem : Nat → Obj}

/-! ### build_table -/

/-- Variables of `build_table`. -/
abbrev tb (y x q n o : Nat) (t j i b c : Cell) : List (Name × Cell) :=
  [(n!"y", uc y), (n!"x", uc x), (n!"q", uc q), (n!"n", uc n), (n!"a", .ptr o 0 1), (n!"t", t), (n!"j", j), (n!"i", i), (n!"b", b), (n!"c", c)]

/-- The inner loop. -/
abbrev tbInner : Stmt := (.while (.bin .lt (.var n!"j") (.var n!"t"))
       (.seq (.seq (.assert (.land (.bin .eq (.var n!"i") (.bin .add (.var n!"t") (.var n!"j"))) (.bin .lt (.var n!"i") (.var n!"n"))))
        (.seq (.store (.var n!"a") (.var n!"i") (.var n!"b"))
        (.seq (.assign n!"i" (.bin .add (.var n!"i") (.num 1)))
        (.seq (.assign n!"b" (.bin .rem (.bin .mul (.var n!"b") (.var n!"c")) (.var n!"q")))
        .skip))))
       (.assign n!"j" (.bin .add (.var n!"j") (.num 1)))))

theorem tb_inner {y x q n o t c i b : Nat} {a : Array Nat} {w : Nat × Nat × Array Nat} (hq : q < 4294967296) (hn : n < 4294967296) (ht : t < 4294967296)
    (hc : c < 4294967296) (hi : i < 4294967296) (hb : b < 4294967296) (h : buildInner n q t c (i, b, a) = .ok w) :
    ∃ j, Ex P G tbInner (E (tb y x q n o (uc t) (uc 0) (uc i) (uc b) (uc c)) (setMem mem o (nats .u32 a)))
      (E (tb y x q n o (uc t) (uc j) (uc w.1) (uc w.2.1) (uc c)) (setMem mem o (nats .u32 w.2.2))) ∧ w.1 < 4294967296 ∧ w.2.1 < 4294967296 := by
  obtain ⟨st', j', hw, rfl, h1, h2, h3⟩ := Ex.while_cfor (P := P) (G := G)
    (c := .bin .lt (.var n!"j") (.var n!"t"))
    (s := (.seq (.seq (.assert (.land (.bin .eq (.var n!"i") (.bin .add (.var n!"t") (.var n!"j"))) (.bin .lt (.var n!"i") (.var n!"n"))))
        (.seq (.store (.var n!"a") (.var n!"i") (.var n!"b"))
        (.seq (.assign n!"i" (.bin .add (.var n!"i") (.num 1)))
        (.seq (.assign n!"b" (.bin .rem (.bin .mul (.var n!"b") (.var n!"c")) (.var n!"q")))
        .skip))))
       (.assign n!"j" (.bin .add (.var n!"j") (.num 1)))))
    (fun j (s : Nat × Nat × Array Nat) st => st = E (tb y x q n o (uc t) (uc j) (uc s.1) (uc s.2.1) (uc c)) (setMem mem o (nats .u32 s.2.2)) ∧
      s.1 < 4294967296 ∧ s.2.1 < 4294967296 ∧ j < 4294967296)
    (by
      rintro j ⟨i, b, a⟩ st ⟨rfl, hi, hb, hj⟩
      refine Ev.mk 3 fun f => ?_
      crs []
      rw [binop_uu (by simp) (by simp) hj ht, arithU_lt])
    (by
      rintro j ⟨i, b, a⟩ ⟨i', b', a'⟩ st ⟨rfl, hi, hb, hj⟩ _ hs
      simp only at hi hb
      simp only [bind_ok, pure_ok, Prod.mk.injEq] at hs
      obtain ⟨_, h0, a₁, h1, b₁, h2, rfl, rfl, rfl⟩ := hs
      rw [cassert_ok] at h0
      have hb' := urem_lt (u32_lt _) h2
      refine ⟨E (tb y x q n o (uc t) (uc (u32 (j + 1))) (uc (u32 (i + 1))) (uc b') (uc c)) (setMem mem o (nats .u32 a')),
        Ex.seq (st₁ := E (tb y x q n o (uc t) (uc j) (uc (u32 (i + 1))) (uc b') (uc c)) (setMem mem o (nats .u32 a')))
          (Ex.seq (st₁ := E (tb y x q n o (uc t) (uc j) (uc i) (uc b) (uc c)) (setMem mem o (nats .u32 a))) (Ex.asserts ?_) (Ex.mk 9 fun f => ?_))
          (Ex.mk 5 fun f => ?_), rfl, u32_lt _, hb', u32_lt _⟩
      · rw [← h0]
        refine Ev.land (Ev.mk 4 fun f => ?_) fun _ => Ev.mk 4 fun f => ?_
        · crs []
          rw [binop_uu (by simp) (by simp) ht hj, arith_addU]
          crs []
          rw [binop_uu (by simp) (by simp) hi (u32_lt _), arithU_eq]
        · crs []
          rw [binop_uu (by simp) (by simp) hi hn, arithU_lt]
      · crs []
        rw [store_nats' hb h1]
        crs []
        rw [binop_uk (by simp) (by simp) hi (by decide), arith_addU]
        crs [u32_of (u32_lt _)]
        rw [binop_uu (by simp) (by simp) hb hc, arith_mulU]
        crs []
        rw [binop_uu (by simp) (by simp) (u32_lt _) hq, arith_remU h2]
        crs [u32_of hb']
      · crs []
        rw [binop_uk (by simp) (by simp) hj (by decide), arith_addU]
        crs [u32_of (u32_lt _)])
    _ 0 (i, b, a) w (E (tb y x q n o (uc t) (uc 0) (uc i) (uc b) (uc c)) (setMem mem o (nats .u32 a))) ⟨rfl, hi, hb, by decide⟩ h
  exact ⟨j', hw, h1, h2⟩

/-- `v = power(z, n/(2 * t), q)` -/
theorem tb_power {l : List (Name × Cell)} {z : Name} {n t q zv r e : Nat} (hP : P.lookup n!"power" = some Src.make_tables.power)
    (hn : n < 4294967296) (ht : t < 4294967296) (hq : q < 4294967296) (hz : zv < 4294967296)
    (lz : look l z = some (uc zv)) (ln : look l n!"n" = some (uc n)) (lt : look l n!"t" = some (uc t)) (lq : look l n!"q" = some (uc q))
    (he : udiv n (u32 (2 * t)) = .ok e) (h : power zv e q = .ok r) :
    Ev P G (.call n!"power" (.cons (.var z) (.cons (.bin .div (.var n!"n") (.bin .mul (.num 2) (.var n!"t"))) (.cons (.var n!"q") .nil))))
      (E l mem) (.int .u32 (r : Nat)) ∧ r < 4294967296 := by
  refine power_ev (t1 := .u32) (t2 := .u32) (t3 := .u32) hP (Ev.v lz rfl) ?_ (Ev.v lq rfl) hz (udiv_lt hn he) hq h
  refine Ev.bin (Ev.v ln rfl) (Ev.bin (v := .int .u32 (u32 (2 * t) : Nat)) (Ev.mk (v := .int .i32 (2 : Nat)) 1 fun f => by crs []) (Ev.v lt rfl) ?_) ?_
  · rw [binop_ku (by simp) (by simp) (by decide) ht, arith_mulU]
  · rw [binop_uu (by simp) (by simp) hn (u32_lt _), arith_divU hn he]

theorem build_table_calls {tn tq tx ty : Ty} {n q x y o : Nat} {a a' : Array Nat}
    (hP : P.lookup n!"power" = some Src.make_tables.power) (hB : P.lookup n!"build_table" = some Src.make_tables.build_table) (hm : mem o = nats .u32 a)
    (hn : n < 4294967296) (hq : q < 4294967296) (hx : x < 4294967296) (hy : y < 4294967296) (h : build_table a n q x y none = .ok a') :
    Calls P G n!"build_table" [.ptr o 0 1, .int tn (n : Nat), .int tq (q : Nat), .int tx (x : Nat), .int ty (y : Nat)] mem
      (setMem mem o (nats .u32 a')) := by
  simp only [build_table, bind_ok, pure_ok] at h
  obtain ⟨a₀, h0, w, h1, rfl⟩ := h
  obtain ⟨st', t', hw, ⟨j', b', c', hst⟩, hi', ht'⟩ := Ex.while_cfor (P := P) (G := G)
    (c := .bin .lt (.var n!"t") (.var n!"n"))
    (s := (.seq (.seq (.assign n!"b" (.call n!"power" (.cons (.var n!"x") (.cons (.bin .div (.var n!"n") (.bin .mul (.num 2) (.var n!"t"))) (.cons (.var n!"q") .nil)))))
     (.seq (.assign n!"c" (.call n!"power" (.cons (.var n!"y") (.cons (.bin .div (.var n!"n") (.bin .mul (.num 2) (.var n!"t"))) (.cons (.var n!"q") .nil)))))
     (.seq (.seq (.assign n!"j" (.num 0)) tbInner)
     .skip)))
    (.assign n!"t" (.bin .shl (.var n!"t") (.num 1)))))
    (fun t (s : Nat × Array Nat) st => (∃ j b c, st = E (tb y x q n o (uc t) (.int .u32 j) (uc s.1) (.int .u32 b) (.int .u32 c))
      (setMem mem o (nats .u32 s.2))) ∧ s.1 < 4294967296 ∧ t < 4294967296)
    (by
      rintro t ⟨i, a⟩ st ⟨⟨j, b, c, rfl⟩, hi, ht⟩
      refine Ev.mk 3 fun f => ?_
      crs []
      rw [binop_uu (by simp) (by simp) ht hn, arithU_lt])
    (by
      rintro t ⟨i, a⟩ ⟨i', a'⟩ st ⟨⟨j, b, c, rfl⟩, hi, ht⟩ _ hs
      simp only at hi
      simp only [bind_ok, pure_ok, Prod.mk.injEq] at hs
      obtain ⟨e, he, p1, h1, p2, h2, b₁, h3, w, h4, rfl, rfl⟩ := hs
      obtain ⟨e1, l1⟩ := tb_power (P := P) (G := G) (mem := setMem mem o (nats .u32 a))
        (l := tb y x q n o (uc t) (.int .u32 j) (uc i) (.int .u32 b) (.int .u32 c)) (z := n!"x") hP hn ht hq hx rfl rfl rfl rfl he h1
      obtain ⟨e2, l2⟩ := tb_power (P := P) (G := G) (mem := setMem mem o (nats .u32 a))
        (l := tb y x q n o (uc t) (.int .u32 j) (uc i) (uc b₁) (.int .u32 c)) (z := n!"y") hP hn ht hq hy rfl rfl rfl rfl he h2
      obtain rfl : b₁ = p1 := by cases h3; rfl
      have l3 := l1
      obtain ⟨j', e3, k1, k2⟩ := tb_inner (P := P) (G := G) (mem := mem) (y := y) (x := x) (o := o) hq hn ht l2 hi l3 h4
      refine ⟨E (tb y x q n o (uc (u32 (2 * t))) (uc j') (uc w.1) (uc w.2.1) (uc p2)) (setMem mem o (nats .u32 w.2.2)),
        Ex.seq (Ex.seq (Ex.asgu e1 rfl l1) (Ex.seq (Ex.asgu e2 rfl l2) (Ex.seq (Ex.seq
          (st₁ := E (tb y x q n o (uc t) (uc 0) (uc i) (uc b₁) (uc p2)) (setMem mem o (nats .u32 a)))
          (Ex.mk 3 fun f => ?_) e3) (Ex.skip _)))) (Ex.mk 4 fun f => ?_), ⟨_, _, _, rfl⟩, k1, u32_lt _⟩
      · crs [u32_of (show 0 < 4294967296 by decide)]
      · crs []
        rw [binop_shlk ht]
        crs [u32_of (u32_lt _)])
    _ 1 (1, a₀) w (E (tb y x q n o (uc 1) (.int .u32 none) (uc 1) (.int .u32 none) (.int .u32 none)) (setMem mem o (nats .u32 a₀)))
      ⟨⟨none, none, none, rfl⟩, show 1 < 4294967296 by decide, by decide⟩ h1
  subst hst
  refine Calls.mk (st' := E (tb y x q n o (uc t') (.int .u32 j') (uc w.1) (.int .u32 b') (.int .u32 c')) (setMem mem o (nats .u32 w.2))) hB
    (bindTab hn hq hx hy (by decide)) ?_
  refine Ex.seq (st₁ := E [(n!"y", uc y), (n!"x", uc x), (n!"q", uc q), (n!"n", uc n), (n!"a", .ptr o 0 1), (n!"t", .int .u32 none),
      (n!"j", .int .u32 none), (n!"i", .int .u32 none)] mem) (Ex.mk 4 fun f => ?_)
    (Ex.seq (st₁ := E (tb y x q n o (.int .u32 none) (.int .u32 none) (.int .u32 none) (.int .u32 none) (.int .u32 none)) mem) (Ex.mk 4 fun f => ?_)
    (Ex.seq (st₁ := E (tb y x q n o (.int .u32 none) (.int .u32 none) (.int .u32 none) (.int .u32 none) (.int .u32 none)) (setMem mem o (nats .u32 a₀)))
      (Ex.mk 3 fun f => ?_)
    (Ex.seq (st₁ := E (tb y x q n o (.int .u32 none) (.int .u32 none) (uc 1) (.int .u32 none) (.int .u32 none)) (setMem mem o (nats .u32 a₀)))
      (Ex.mk 3 fun f => ?_) (Ex.seq (Ex.seq (st₁ := E (tb y x q n o (uc 1) (.int .u32 none) (uc 1) (.int .u32 none) (.int .u32 none)) (setMem mem o (nats .u32 a₀)))
      (Ex.mk 3 fun f => ?_) hw) (Ex.skip _)))))
  · crs []
  · crs []
  · crs []
    rw [store_nats hm (by decide) h0]
    crs []
  · crs [u32_of (show 1 < 4294967296 by decide)]
  · crs [u32_of (show 1 < 4294967296 by decide)]

/-! ### build_rev_table -/

/-- Variables of `build_rev_table`. -/
abbrev rt (y x q n o : Nat) (t j i k b c : Cell) : List (Name × Cell) :=
  [(n!"y", uc y), (n!"x", uc x), (n!"q", uc q), (n!"n", uc n), (n!"a", .ptr o 0 1), (n!"t", t), (n!"j", j), (n!"i", i), (n!"k", k), (n!"b", b), (n!"c", c)]

/-- The inner loop. -/
abbrev rtInner : Stmt := (.while (.bin .lt (.var n!"j") (.var n!"t"))
       (.seq (.seq (.assign n!"i" (.bin .add (.var n!"t") (.call n!"reverse" (.cons (.var n!"j") (.cons (.var n!"k") .nil)))))
        (.seq (.assert (.land (.bin .le (.var n!"t") (.var n!"i")) (.bin .lt (.var n!"i") (.bin .mul (.num 2) (.var n!"t")))))
        (.seq (.store (.var n!"a") (.var n!"i") (.var n!"b"))
        (.seq (.assign n!"b" (.bin .rem (.bin .mul (.var n!"b") (.var n!"c")) (.var n!"q")))
        .skip))))
       (.assign n!"j" (.bin .add (.var n!"j") (.num 1)))))

theorem rt_inner {y x q n o t c k b : Nat} {i : Option Int} {a : Array Nat} {w : Nat × Array Nat} (hR : P.lookup n!"reverse" = some Src.make_tables.reverse)
    (hq : q < 4294967296) (ht : t < 4294967296)
    (hc : c < 4294967296) (hk : k < 4294967296) (hb : b < 4294967296) (h : buildRevInner q t k c (b, a) = .ok w) :
    ∃ j i', Ex P G rtInner (E (rt y x q n o (uc t) (uc 0) (.int .u32 i) (uc k) (uc b) (uc c)) (setMem mem o (nats .u32 a)))
      (E (rt y x q n o (uc t) (uc j) (.int .u32 i') (uc k) (uc w.1) (uc c)) (setMem mem o (nats .u32 w.2))) := by
  obtain ⟨st', j', hw, ⟨i', hst⟩, h1, h3⟩ := Ex.while_cfor (P := P) (G := G)
    (c := .bin .lt (.var n!"j") (.var n!"t"))
    (s := (.seq (.seq (.assign n!"i" (.bin .add (.var n!"t") (.call n!"reverse" (.cons (.var n!"j") (.cons (.var n!"k") .nil)))))
        (.seq (.assert (.land (.bin .le (.var n!"t") (.var n!"i")) (.bin .lt (.var n!"i") (.bin .mul (.num 2) (.var n!"t")))))
        (.seq (.store (.var n!"a") (.var n!"i") (.var n!"b"))
        (.seq (.assign n!"b" (.bin .rem (.bin .mul (.var n!"b") (.var n!"c")) (.var n!"q")))
        .skip))))
       (.assign n!"j" (.bin .add (.var n!"j") (.num 1)))))
    (fun j (s : Nat × Array Nat) st => (∃ i, st = E (rt y x q n o (uc t) (uc j) (.int .u32 i) (uc k) (uc s.1) (uc c)) (setMem mem o (nats .u32 s.2))) ∧
      s.1 < 4294967296 ∧ j < 4294967296)
    (by
      rintro j ⟨b, a⟩ st ⟨⟨i, rfl⟩, hb, hj⟩
      refine Ev.mk 3 fun f => ?_
      crs []
      rw [binop_uu (by simp) (by simp) hj ht, arithU_lt])
    (by
      rintro j ⟨b, a⟩ ⟨b', a'⟩ st ⟨⟨i, rfl⟩, hb, hj⟩ _ hs
      simp only at hb
      simp only [bind_ok, pure_ok, Prod.mk.injEq] at hs
      obtain ⟨r, hr, _, h0, a₁, h1, b₁, h2, rfl, rfl⟩ := hs
      rw [cassert_ok] at h0
      have hb' := urem_lt (u32_lt _) h2
      obtain ⟨er, lr⟩ := reverse_ev (P := P) (G := G) (e1 := .var n!"j") (e2 := .var n!"k") (t1 := .u32) (t2 := .u32)
        (st := E (rt y x q n o (uc t) (uc j) (.int .u32 i) (uc k) (uc b) (uc c)) (setMem mem o (nats .u32 a))) hR (Ev.v rfl rfl) (Ev.v rfl rfl) hj hk hr
      have ei := Ev.bin (o := .add) (a := .var n!"t") (v := .int .u32 (u32 (t + r) : Nat)) (Ev.v rfl rfl) er
        (by rw [binop_uu (by simp) (by simp) ht lr, arith_addU])
      refine ⟨E (rt y x q n o (uc t) (uc (u32 (j + 1))) (uc (u32 (t + r))) (uc k) (uc b') (uc c)) (setMem mem o (nats .u32 a')),
        Ex.seq (st₁ := E (rt y x q n o (uc t) (uc j) (uc (u32 (t + r))) (uc k) (uc b') (uc c)) (setMem mem o (nats .u32 a')))
          (Ex.seq (Ex.asgu ei rfl (u32_lt _)) (Ex.seq (Ex.asserts ?_) (Ex.mk 9 fun f => ?_)))
          (Ex.mk 5 fun f => ?_), ⟨_, rfl⟩, hb', u32_lt _⟩
      · rw [← h0]
        refine Ev.land (Ev.mk 4 fun f => ?_) fun _ => Ev.mk 4 fun f => ?_
        · crs []
          rw [binop_uu (by simp) (by simp) ht (u32_lt _), arithU_le]
        · crs []
          rw [binop_ku (by simp) (by simp) (by decide) ht, arith_mulU]
          crs []
          rw [binop_uu (by simp) (by simp) (u32_lt _) (u32_lt _), arithU_lt]
      · crs []
        rw [store_nats' hb h1]
        crs []
        rw [binop_uu (by simp) (by simp) hb hc, arith_mulU]
        crs []
        rw [binop_uu (by simp) (by simp) (u32_lt _) hq, arith_remU h2]
        crs [u32_of hb']
      · crs []
        rw [binop_uk (by simp) (by simp) hj (by decide), arith_addU]
        crs [u32_of (u32_lt _)])
    _ 0 (b, a) w (E (rt y x q n o (uc t) (uc 0) (.int .u32 i) (uc k) (uc b) (uc c)) (setMem mem o (nats .u32 a))) ⟨⟨i, rfl⟩, hb, by decide⟩ h
  subst hst
  exact ⟨j', i', hw⟩

theorem build_rev_table_calls {tn tq tx ty : Ty} {n q x y o : Nat} {a a' : Array Nat}
    (hP : P.lookup n!"power" = some Src.make_tables.power) (hR : P.lookup n!"reverse" = some Src.make_tables.reverse)
    (hB : P.lookup n!"build_rev_table" = some Src.make_tables.build_rev_table) (hm : mem o = nats .u32 a)
    (hn : n < 4294967296) (hq : q < 4294967296) (hx : x < 4294967296) (hy : y < 4294967296) (h : build_rev_table a n q x y none = .ok a') :
    Calls P G n!"build_rev_table" [.ptr o 0 1, .int tn (n : Nat), .int tq (q : Nat), .int tx (x : Nat), .int ty (y : Nat)] mem
      (setMem mem o (nats .u32 a')) := by
  simp only [build_rev_table, bind_ok, pure_ok] at h
  obtain ⟨a₀, h0, w, h1, rfl⟩ := h
  obtain ⟨st', t', hw, ⟨j', i', b', c', hst⟩, hk', ht'⟩ := Ex.while_cfor (P := P) (G := G)
    (c := .bin .lt (.var n!"t") (.var n!"n"))
    (s := (.seq (.seq (.assign n!"b" (.call n!"power" (.cons (.var n!"x") (.cons (.bin .div (.var n!"n") (.bin .mul (.num 2) (.var n!"t"))) (.cons (.var n!"q") .nil)))))
     (.seq (.assign n!"c" (.call n!"power" (.cons (.var n!"y") (.cons (.bin .div (.var n!"n") (.bin .mul (.num 2) (.var n!"t"))) (.cons (.var n!"q") .nil)))))
     (.seq (.seq (.assign n!"j" (.num 0)) rtInner)
     .skip)))
    (.seq (.assign n!"t" (.bin .shl (.var n!"t") (.num 1)))
    (.assign n!"k" (.bin .add (.var n!"k") (.num 1))))))
    (fun t (s : Nat × Array Nat) st => (∃ j i b c, st = E (rt y x q n o (uc t) (.int .u32 j) (.int .u32 i) (uc s.1) (.int .u32 b) (.int .u32 c))
      (setMem mem o (nats .u32 s.2))) ∧ s.1 < 4294967296 ∧ t < 4294967296)
    (by
      rintro t ⟨k, a⟩ st ⟨⟨j, i, b, c, rfl⟩, hk, ht⟩
      refine Ev.mk 3 fun f => ?_
      crs []
      rw [binop_uu (by simp) (by simp) ht hn, arithU_lt])
    (by
      rintro t ⟨k, a⟩ ⟨k', a'⟩ st ⟨⟨j, i, b, c, rfl⟩, hkk, ht⟩ _ hs
      simp only at hkk
      simp only [bind_ok, pure_ok, Prod.mk.injEq] at hs
      obtain ⟨e, he, p1, h1, p2, h2, b₁, h3, w, h4, rfl, rfl⟩ := hs
      obtain ⟨e1, l1⟩ := tb_power (P := P) (G := G) (mem := setMem mem o (nats .u32 a))
        (l := rt y x q n o (uc t) (.int .u32 j) (.int .u32 i) (uc k) (.int .u32 b) (.int .u32 c)) (z := n!"x") hP hn ht hq hx rfl rfl rfl rfl he h1
      obtain ⟨e2, l2⟩ := tb_power (P := P) (G := G) (mem := setMem mem o (nats .u32 a))
        (l := rt y x q n o (uc t) (.int .u32 j) (.int .u32 i) (uc k) (uc b₁) (.int .u32 c)) (z := n!"y") hP hn ht hq hy rfl rfl rfl rfl he h2
      obtain rfl : b₁ = p1 := by cases h3; rfl
      have l3 := l1
      obtain ⟨j', i', e3⟩ := rt_inner (P := P) (G := G) (mem := mem) (y := y) (x := x) (n := n) (o := o) (i := i) hR hq ht l2 hkk l3 h4
      refine ⟨E (rt y x q n o (uc (u32 (2 * t))) (uc j') (.int .u32 i') (uc (u32 (k + 1))) (uc w.1) (uc p2)) (setMem mem o (nats .u32 w.2)),
        Ex.seq (Ex.seq (Ex.asgu e1 rfl l1) (Ex.seq (Ex.asgu e2 rfl l2) (Ex.seq (Ex.seq
          (st₁ := E (rt y x q n o (uc t) (uc 0) (.int .u32 i) (uc k) (uc b₁) (uc p2)) (setMem mem o (nats .u32 a)))
          (Ex.mk 3 fun f => ?_) e3) (Ex.skip _)))) (Ex.mk 5 fun f => ?_), ⟨_, _, _, _, rfl⟩, u32_lt _, u32_lt _⟩
      · crs [u32_of (show 0 < 4294967296 by decide)]
      · crs []
        rw [binop_shlk ht]
        crs [u32_of (u32_lt _)]
        rw [binop_uk (by simp) (by simp) hkk (by decide), arith_addU]
        crs [u32_of (u32_lt _)])
    _ 1 (0, a₀) w (E (rt y x q n o (uc 1) (.int .u32 none) (.int .u32 none) (uc 0) (.int .u32 none) (.int .u32 none)) (setMem mem o (nats .u32 a₀)))
      ⟨⟨none, none, none, none, rfl⟩, show 0 < 4294967296 by decide, by decide⟩ h1
  subst hst
  refine Calls.mk (st' := E (rt y x q n o (uc t') (.int .u32 j') (.int .u32 i') (uc w.1) (.int .u32 b') (.int .u32 c')) (setMem mem o (nats .u32 w.2))) hB
    (bindTab hn hq hx hy (by decide)) ?_
  refine Ex.seq (st₁ := E [(n!"y", uc y), (n!"x", uc x), (n!"q", uc q), (n!"n", uc n), (n!"a", .ptr o 0 1), (n!"t", .int .u32 none),
      (n!"j", .int .u32 none), (n!"i", .int .u32 none), (n!"k", .int .u32 none)] mem) (Ex.mk 5 fun f => ?_)
    (Ex.seq (st₁ := E (rt y x q n o (.int .u32 none) (.int .u32 none) (.int .u32 none) (.int .u32 none) (.int .u32 none) (.int .u32 none)) mem)
      (Ex.mk 4 fun f => ?_)
    (Ex.seq (st₁ := E (rt y x q n o (.int .u32 none) (.int .u32 none) (.int .u32 none) (.int .u32 none) (.int .u32 none) (.int .u32 none))
        (setMem mem o (nats .u32 a₀)))
      (Ex.mk 3 fun f => ?_)
    (Ex.seq (Ex.seq (st₁ := E (rt y x q n o (uc 1) (.int .u32 none) (.int .u32 none) (uc 0) (.int .u32 none) (.int .u32 none)) (setMem mem o (nats .u32 a₀)))
      (Ex.mk 4 fun f => ?_) hw) (Ex.skip _))))
  · crs []
  · crs []
  · crs []
    rw [store_nats hm (by decide) h0]
    crs []
  · crs [u32_of (show 1 < 4294967296 by decide), u32_of (show 0 < 4294967296 by decide)]

end CLang.Gen
