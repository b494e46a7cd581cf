import Verif.Proofs.CGen
import Verif.Proofs.Sort
import Verif.Model.Src.Sort

/-
src/sort.c, as read from the text, does what the model says.
-/

namespace CLang.SortC
open C CLang CLang.Gen IntSort

set_option linter.unusedSimpArgs false

variable {P : Prog} {G : Name → Option Cell} {mem : Nat → Obj}

/-! ### Arrays of `uint64_t` -/

/-- An array of `uint64_t` values with this size. -/
structure W (sz : Nat) (a : Array Nat) : Prop where
  size : a.size = sz
  lt : ∀ i v, rd a i = .ok v → v < 18446744073709551616

theorem W.wr {sz : Nat} {a a' : Array Nat} {i v : Nat} (h : W sz a) (hv : v < 18446744073709551616) (hw : C.wr a i v = .ok a') : W sz a' := by
  unfold C.wr at hw
  split at hw
  · next hi =>
    cases hw
    refine ⟨by simpa using h.size, fun j w hj => ?_⟩
    unfold rd at hj
    rw [Array.getElem?_setIfInBounds] at hj
    by_cases hij : i = j
    · rw [if_pos hij] at hj
      by_cases hj' : j < a.size
      · simp only [hij, hj', if_true] at hj; cases hj; exact hv
      · simp [hij, hj'] at hj
    · rw [if_neg hij] at hj
      exact h.lt j w hj
  · simp at hw

theorem rd_lt {a : Array Nat} {i v : Nat} (h : rd a i = .ok v) : i < a.size := by
  unfold rd at h
  split at h
  · next hx =>
    exact (Array.getElem?_eq_some_iff.mp hx).1
  · simp at h

/-- An `uint64_t` variable. -/
abbrev lc (x : Nat) : Cell := .int .u64 (some (x : Int))

theorem ld_ev {l : List (Name × Cell)} {e : Expr} {t : Ty} {o b i v : Nat} {a : Array Nat} (la : look l n!"a" = some (.ptr o b 1))
    (he : Ev P G e (E l (setMem mem o (nats .u64 a))) (.int t (i : Nat))) (h : rd a (b + i) = .ok v) :
    Ev P G (.idx (.var n!"a") e) (E l (setMem mem o (nats .u64 a))) (.int .u64 (v : Nat)) := by
  refine Ev.idx (Ev.v (v := .ptr o b 1) la rfl) he ?_
  rw [load_off]
  show (rd (setMem mem o (nats .u64 a) o).data (b + i) >>= _) = _
  rw [setMem_self]
  simp only [nats, rd_nats h, ok_bind, setMem_self]

theorem st_ex {l : List (Name × Cell)} {e1 e2 : Expr} {t : Ty} {o b i v : Nat} {a a' : Array Nat} (la : look l n!"a" = some (.ptr o b 1))
    (h1 : Ev P G e1 (E l (setMem mem o (nats .u64 a))) (.int t (i : Nat)))
    (h2 : Ev P G e2 (E l (setMem mem o (nats .u64 a))) (.int .u64 (v : Nat))) (hv : v < 18446744073709551616) (h : C.wr a (b + i) v = .ok a') :
    Ex P G (.store (.var n!"a") e1 e2) (E l (setMem mem o (nats .u64 a))) (E l (setMem mem o (nats .u64 a'))) := by
  refine Ex.store (Ev.v (v := .ptr o b 1) la rfl) h1 h2 ?_
  rw [storeAt_off]
  show (C.wr (setMem mem o (nats .u64 a) o).data (b + i) (conv (setMem mem o (nats .u64 a) o).ty v) >>= fun d =>
    Except.ok (E l (setMem (setMem mem o (nats .u64 a)) o ⟨(setMem mem o (nats .u64 a) o).ty, d⟩))) = _
  rw [setMem_self]
  simp only [nats, conv_u64_nat hv, wr_nats h, ok_bind, setMem_setMem]

theorem asgl {l : List (Name × Cell)} {mem : Nat → Obj} {x : Name} {e : Expr} {t' : Ty} {v : Nat} {o : Option Int}
    (he : Ev P G e (E l mem) (.int t' (v : Int))) (hx : look l x = some (.int .u64 o)) (hv : v < 18446744073709551616) :
    Ex P G (.assign x e) (E l mem) (E (upd l x (lc v)) mem) :=
  Ex.asg he hx (conv_u64_nat hv)

theorem num_ev {st : State} {k : Nat} (h : k ≤ 2147483647) : Ev P G (.num k) st (.int .i32 (k : Nat)) := Ev.mk 1 fun _ => eval_num _ _ _ h

/-- `x ++` -/
theorem inc_ex {l : List (Name × Cell)} {mem : Nat → Obj} {x : Name} {v : Nat} (hx : look l x = some (uc v)) (hv : v < 4294967296) :
    Ex P G (.assign x (.bin .add (.var x) (.num 1))) (E l mem) (E (upd l x (uc (u32 (v + 1)))) mem) :=
  Ex.asgu (t' := .u32) (Ev.bin (Ev.v hx rfl) (num_ev (by decide)) (by rw [binop_uk (by simp) (by simp) hv (by decide), arith_addU])) hx (u32_lt _)

/-- `x --` -/
theorem dec_ex {l : List (Name × Cell)} {mem : Nat → Obj} {x : Name} {v : Nat} (hx : look l x = some (uc v)) (hv : v < 4294967296) :
    Ex P G (.assign x (.bin .sub (.var x) (.num 1))) (E l mem) (E (upd l x (uc (u32 (v + 4294967295)))) mem) :=
  Ex.asgu (t' := .u32) (Ev.bin (Ev.v hx rfl) (num_ev (by decide)) (by
    rw [binop_uk (by simp) (by simp) hv (by decide), arith_subW hv (by decide),
      show v + 4294967296 - 1 = v + 4294967295 by omega])) hx (u32_lt _)

theorem lt_ev {mem : Nat → Obj} {l : List (Name × Cell)} {x y : Name} {v w : Nat} (hx : look l x = some (uc v)) (hy : look l y = some (uc w))
    (hv : v < 4294967296) (hw : w < 4294967296) : Ev P G (.bin .lt (.var x) (.var y)) (E l mem) (truth (decide (v < w))) :=
  Ev.bin (Ev.v hx rfl) (Ev.v hy rfl) (by rw [binop_uu (by simp) (by simp) hv hw, arithU_lt])

/-- Variables of the functions. -/
abbrev so (n o b : Nat) (i j x y : Cell) : List (Name × Cell) :=
  [(n!"n", uc n), (n!"a", .ptr o b 1), (n!"i", i), (n!"j", j), (n!"x", x), (n!"y", y)]

section
variable {sz n o b : Nat} {a : Array Nat}

/-- `a[v] < x` -/
theorem less_ev {l : List (Name × Cell)} {k : Name} {i v x : Nat} (la : look l n!"a" = some (.ptr o b 1)) (lk : look l k = some (uc i))
    (lx : look l n!"x" = some (lc x)) (ha : W sz a) (hx : x < 18446744073709551616) (h : rd a (b + i) = .ok v) :
    Ev P G (.bin .lt (.idx (.var n!"a") (.var k)) (.var n!"x")) (E l (setMem mem o (nats .u64 a))) (truth (decide (v < x))) :=
  Ev.bin (ld_ev (t := .u32) la (Ev.v lk rfl) h) (Ev.v lx rfl) (by rw [binop_ll (by simp) (by simp) (ha.lt _ _ h) hx, arithU_lt])

/-- `a[v] > x` -/
theorem more_ev {l : List (Name × Cell)} {k : Name} {i v x : Nat} (la : look l n!"a" = some (.ptr o b 1)) (lk : look l k = some (uc i))
    (lx : look l n!"x" = some (lc x)) (ha : W sz a) (hx : x < 18446744073709551616) (h : rd a (b + i) = .ok v) :
    Ev P G (.bin .gt (.idx (.var n!"a") (.var k)) (.var n!"x")) (E l (setMem mem o (nats .u64 a))) (truth (decide (x < v))) :=
  Ev.bin (ld_ev (t := .u32) la (Ev.v lk rfl) h) (Ev.v lx rfl) (by rw [binop_ll (by simp) (by simp) (ha.lt _ _ h) hx, arithU_gt])

/-! ### isort_int_array -/

theorem scanLess_ex {i y : Cell} {x : Nat} (ha : W sz a) (hx : x < 18446744073709551616) :
    ∀ fuel j j', j < 4294967296 → scanLess a b x fuel j = .ok j' →
      Ex P G (.while (.bin .lt (.idx (.var n!"a") (.var n!"j")) (.var n!"x")) (.assign n!"j" (.bin .add (.var n!"j") (.num 1))))
        (E (so n o b i (uc j) (lc x) y) (setMem mem o (nats .u64 a))) (E (so n o b i (uc j') (lc x) y) (setMem mem o (nats .u64 a))) ∧
      j' < 4294967296 := by
  intro fuel
  induction fuel with
  | zero => intro j j' _ h; simp [scanLess] at h
  | succ fuel ih =>
    intro j j' hj h
    simp only [scanLess, bind_ok] at h
    obtain ⟨v, hv, h⟩ := h
    have hc := less_ev (P := P) (G := G) (mem := mem) (l := so n o b i (uc j) (lc x) y) (k := n!"j") rfl rfl rfl ha hx hv
    split at h
    · next hlt =>
      obtain ⟨e, l⟩ := ih _ _ (u32_lt _) h
      rw [decide_eq_true hlt] at hc
      exact ⟨Ex.while_true hc (inc_ex rfl hj) e, l⟩
    · next hlt =>
      rw [pure_ok] at h
      subst h
      rw [decide_eq_false hlt] at hc
      exact ⟨Ex.while_false hc, hj⟩

theorem insertShift_ex {i : Nat} (hi : i < 4294967296) :
    ∀ fuel (a : Array Nat) x j y r, W sz a → x < 18446744073709551616 → j < 4294967296 → insertShift b i fuel a x j = .ok r →
      ∃ y', Ex P G (.while (.bin .lt (.var n!"j") (.var n!"i"))
       (.seq (.assign n!"y" (.idx (.var n!"a") (.var n!"j")))
       (.seq (.store (.var n!"a") (.var n!"j") (.var n!"x"))
       (.seq (.assign n!"x" (.var n!"y"))
       (.seq (.assign n!"j" (.bin .add (.var n!"j") (.num 1)))
       .skip)))))
        (E (so n o b (uc i) (uc j) (lc x) (.int .u64 y)) (setMem mem o (nats .u64 a)))
        (E (so n o b (uc i) (uc r.2.2) (lc r.2.1) (.int .u64 y')) (setMem mem o (nats .u64 r.1))) ∧
      W sz r.1 ∧ r.2.1 < 18446744073709551616 ∧ r.2.2 < 4294967296 := by
  intro fuel
  induction fuel with
  | zero => intro a x j y r _ _ _ h; simp [insertShift] at h
  | succ fuel ih =>
    intro a x j y r ha hx hj h
    rw [insertShift] at h
    have hc := lt_ev (P := P) (G := G) (mem := setMem mem o (nats .u64 a)) (l := so n o b (uc i) (uc j) (lc x) (.int .u64 y)) (x := n!"j") (y := n!"i")
      rfl rfl hj hi
    split at h
    · next hlt =>
      rw [decide_eq_true hlt] at hc
      simp only [bind_ok] at h
      obtain ⟨v, hv, a₁, ha₁, h⟩ := h
      have hv' := ha.lt _ _ hv
      obtain ⟨y', e, w⟩ := ih a₁ v _ (some v) r (ha.wr hx ha₁) hv' (u32_lt _) h
      refine ⟨y', Ex.while_true hc (Ex.seq (asgl (ld_ev (t := .u32) rfl (Ev.v rfl rfl) hv) rfl hv')
        (Ex.seq (st_ex (t := .u32) rfl (Ev.v rfl rfl) (Ev.v rfl rfl) hx ha₁)
        (Ex.seq (asgl (t' := .u64) (v := v) (Ev.v rfl rfl) rfl hv') (Ex.seq (inc_ex rfl hj) (Ex.skip _))))) e, w⟩
    · next hlt =>
      rw [decide_eq_false hlt] at hc
      rw [pure_ok] at h
      subst h
      exact ⟨y, Ex.while_false hc, ha, hx, hj⟩

theorem bindSort {t : Ty} (hn : n < 4294967296) : bindParams [(n!"a", .ptr 1), (n!"n", .int .u32)] [.ptr o b 1, .int t (n : Int)] =
    .ok (look [(n!"n", uc n), (n!"a", .ptr o b 1)]) := by
  simp only [bindParams, ok_bind, conv_u32_nat, u32_of hn, look_nil, setEnv_look, upd, if_true]
  rfl

theorem decls_ex : Ex P G (.seq (.decl .u32 n!"i") (.decl .u32 n!"j")) (E [(n!"n", uc n), (n!"a", .ptr o b 1)] mem)
    (E [(n!"n", uc n), (n!"a", .ptr o b 1), (n!"i", .int .u32 none), (n!"j", .int .u32 none)] mem) ∧
    Ex P G (.seq (.decl .u64 n!"x") (.decl .u64 n!"y")) (E [(n!"n", uc n), (n!"a", .ptr o b 1), (n!"i", .int .u32 none), (n!"j", .int .u32 none)] mem)
    (E (so n o b (.int .u32 none) (.int .u32 none) (.int .u64 none) (.int .u64 none)) mem) :=
  ⟨Ex.mk 3 fun f => by crs [], Ex.mk 3 fun f => by crs []⟩

theorem isort_calls {t : Ty} {a' : Array Nat} (hP : P.lookup n!"isort_int_array" = some Src.sort.isort_int_array) (hn : n < 4294967296) (ha : W sz a)
    (h : isort_int_array a b n = .ok a') :
    Calls P G n!"isort_int_array" [.ptr o b 1, .int t (n : Nat)] (setMem mem o (nats .u64 a)) (setMem mem o (nats .u64 a')) ∧ W sz a' := by
  unfold isort_int_array at h
  obtain ⟨st', i', hw, ⟨j', x', y', hst⟩, hi', ha'⟩ := Ex.while_cfor (P := P) (G := G)
    (c := .bin .lt (.var n!"i") (.var n!"n"))
    (s := (.seq (.seq (.assign n!"x" (.idx (.var n!"a") (.var n!"i")))
     (.seq (.assign n!"j" (.num 0))
     (.seq (.while (.bin .lt (.idx (.var n!"a") (.var n!"j")) (.var n!"x"))
       (.assign n!"j" (.bin .add (.var n!"j") (.num 1))))
     (.seq (.while (.bin .lt (.var n!"j") (.var n!"i"))
       (.seq (.assign n!"y" (.idx (.var n!"a") (.var n!"j")))
       (.seq (.store (.var n!"a") (.var n!"j") (.var n!"x"))
       (.seq (.assign n!"x" (.var n!"y"))
       (.seq (.assign n!"j" (.bin .add (.var n!"j") (.num 1)))
       .skip)))))
     (.seq (.store (.var n!"a") (.var n!"j") (.var n!"x"))
     .skip)))))
    (.assign n!"i" (.bin .add (.var n!"i") (.num 1)))))
    (fun i (a : Array Nat) st => (∃ j x y, st = E (so n o b (uc i) (.int .u32 j) (.int .u64 x) (.int .u64 y)) (setMem mem o (nats .u64 a))) ∧
      i < 4294967296 ∧ W sz a)
    (by
      rintro i a st ⟨⟨j, x, y, rfl⟩, hi, ha⟩
      exact lt_ev rfl rfl hi hn)
    (by
      rintro i a a' st ⟨⟨j, x, y, rfl⟩, hi, ha⟩ _ hb
      simp only [bind_ok] at hb
      obtain ⟨x₁, hx₁, j₁, hj₁, r, hr, hw⟩ := hb
      have hx := ha.lt _ _ hx₁
      obtain ⟨e1, l1⟩ := scanLess_ex (P := P) (G := G) (mem := mem) (n := n) (o := o) (i := uc i) (y := .int .u64 y) ha hx _ _ _ (by decide) hj₁
      obtain ⟨y', e2, w2, hx2, hj2⟩ := insertShift_ex (P := P) (G := G) (mem := mem) (n := n) (o := o) hi _ _ _ _ y _ ha hx l1 hr
      refine ⟨E (so n o b (uc (u32 (i + 1))) (uc r.2.2) (lc r.2.1) (.int .u64 y')) (setMem mem o (nats .u64 a')), ?_,
        ⟨some r.2.2, some r.2.1, y', rfl⟩, u32_lt _, w2.wr hx2 hw⟩
      refine Ex.seq (st₁ := E (so n o b (uc i) (uc r.2.2) (lc r.2.1) (.int .u64 y')) (setMem mem o (nats .u64 a'))) ?_ (inc_ex rfl hi)
      refine Ex.seq (st₁ := E (so n o b (uc i) (.int .u32 j) (lc x₁) (.int .u64 y)) (setMem mem o (nats .u64 a)))
        (asgl (ld_ev (t := .u32) rfl (Ev.v rfl rfl) hx₁) rfl hx) ?_
      refine Ex.seq (st₁ := E (so n o b (uc i) (uc 0) (lc x₁) (.int .u64 y)) (setMem mem o (nats .u64 a)))
        (Ex.asgu (num_ev (by decide)) rfl (by decide)) ?_
      exact Ex.seq e1 (Ex.seq e2 (Ex.seq (st_ex (t := .u32) rfl (Ev.v rfl rfl) (Ev.v rfl rfl) hx2 hw) (Ex.skip _))))
    _ 1 a a' (E (so n o b (uc 1) (.int .u32 none) (.int .u64 none) (.int .u64 none)) (setMem mem o (nats .u64 a)))
      ⟨⟨none, none, none, rfl⟩, by decide, ha⟩ h
  subst hst
  refine ⟨Calls.mk (st' := E (so n o b (uc i') (.int .u32 j') (.int .u64 x') (.int .u64 y')) (setMem mem o (nats .u64 a'))) hP (bindSort hn)
    (Ex.seq decls_ex.1 (Ex.seq decls_ex.2 (Ex.seq (Ex.seq (Ex.asgu (num_ev (by decide)) rfl (by decide)) hw) (Ex.skip _)))), ha'⟩

/-! ### qsort_int_array -/

/-- `do { j--; } while (a[j] > x)` -/
abbrev downS : Stmt := .doWhile (.seq (.assign n!"j" (.bin .sub (.var n!"j") (.num 1))) .skip) (.bin .gt (.idx (.var n!"a") (.var n!"j")) (.var n!"x"))

theorem scanDown_ex {i y : Cell} {x : Nat} (ha : W sz a) (hx : x < 18446744073709551616) :
    ∀ fuel j j', j < 4294967296 → scanDown a b x fuel j = .ok j' →
      Ex P G downS (E (so n o b i (uc j) (lc x) y) (setMem mem o (nats .u64 a))) (E (so n o b i (uc j') (lc x) y) (setMem mem o (nats .u64 a))) ∧
      j' < 4294967296 := by
  intro fuel
  induction fuel with
  | zero => intro j j' _ h; simp [scanDown] at h
  | succ fuel ih =>
    intro j j' hj h
    simp only [scanDown, bind_ok] at h
    obtain ⟨v, hv, h⟩ := h
    have hc := more_ev (P := P) (G := G) (mem := mem) (l := so n o b i (uc (u32 (j + 4294967295))) (lc x) y) (k := n!"j") rfl rfl rfl ha hx hv
    have hs : Ex P G (.seq (.assign n!"j" (.bin .sub (.var n!"j") (.num 1))) .skip) (E (so n o b i (uc j) (lc x) y) (setMem mem o (nats .u64 a)))
        (E (so n o b i (uc (u32 (j + 4294967295))) (lc x) y) (setMem mem o (nats .u64 a))) := Ex.seq (dec_ex rfl hj) (Ex.skip _)
    split at h
    · next hlt =>
      obtain ⟨e, l⟩ := ih _ _ (u32_lt _) h
      rw [decide_eq_true hlt] at hc
      exact ⟨Ex.doWhile_true hs hc e, l⟩
    · next hlt =>
      rw [pure_ok] at h
      rw [h]
      rw [decide_eq_false hlt] at hc
      exact ⟨Ex.doWhile_false hs hc, u32_lt _⟩

theorem incI_ex {i : Nat} {j x y : Cell} (hi : i < 4294967296) :
    Ex P G (.seq (.assign n!"i" (.bin .add (.var n!"i") (.num 1))) .skip) (E (so n o b (uc i) j x y) mem)
      (E (so n o b (uc (u32 (i + 1))) j x y) mem) := Ex.seq (inc_ex rfl hi) (Ex.skip _)

/-- `do { i++; } while (i <= j && a[i] < x)` -/
abbrev upToS : Stmt := .doWhile (.seq (.assign n!"i" (.bin .add (.var n!"i") (.num 1)))
    .skip) (.land (.bin .le (.var n!"i") (.var n!"j")) (.bin .lt (.idx (.var n!"a") (.var n!"i")) (.var n!"x")))

theorem scanUpTo_ex {y : Cell} {x j : Nat} (ha : W sz a) (hx : x < 18446744073709551616) (hj : j < 4294967296) :
    ∀ fuel i i', i < 4294967296 → scanUpTo a b x j fuel i = .ok i' →
      Ex P G upToS (E (so n o b (uc i) (uc j) (lc x) y) (setMem mem o (nats .u64 a))) (E (so n o b (uc i') (uc j) (lc x) y) (setMem mem o (nats .u64 a))) ∧
      i' < 4294967296 := by
  intro fuel
  induction fuel with
  | zero => intro i i' _ h; simp [scanUpTo] at h
  | succ fuel ih =>
    intro i i' hi h
    simp only [scanUpTo] at h
    have hs := incI_ex (P := P) (G := G) (mem := setMem mem o (nats .u64 a)) (n := n) (o := o) (b := b) (j := uc j) (x := lc x) (y := y) hi
    have hc1 : Ev P G (.bin .le (.var n!"i") (.var n!"j")) (E (so n o b (uc (u32 (i + 1))) (uc j) (lc x) y) (setMem mem o (nats .u64 a)))
        (truth (decide (u32 (i + 1) ≤ j))) :=
      Ev.bin (Ev.v rfl rfl) (Ev.v rfl rfl) (by rw [binop_uu (by simp) (by simp) (u32_lt _) hj, arithU_le])
    split at h
    · next hle =>
      rw [decide_eq_true hle] at hc1
      rw [bind_ok] at h
      obtain ⟨v, hv, h⟩ := h
      have hc := Ev.land hc1 (fun _ => less_ev (P := P) (G := G) (mem := mem) (l := so n o b (uc (u32 (i + 1))) (uc j) (lc x) y) (k := n!"i")
        rfl rfl rfl ha hx hv)
      rw [Bool.true_and] at hc
      split at h
      · next hlt =>
        obtain ⟨e, l⟩ := ih _ _ (u32_lt _) h
        rw [decide_eq_true hlt] at hc
        exact ⟨Ex.doWhile_true hs hc e, l⟩
      · next hlt =>
        rw [pure_ok] at h
        subst h
        rw [decide_eq_false hlt] at hc
        exact ⟨Ex.doWhile_false hs hc, u32_lt _⟩
    · next hle =>
      rw [decide_eq_false hle] at hc1
      rw [pure_ok] at h
      subst h
      exact ⟨Ex.doWhile_false hs (Ev.land (y := false) hc1 (fun h => by simp at h)), u32_lt _⟩

/-- `do { i++; } while (a[i] < x)` -/
abbrev upS : Stmt := .doWhile (.seq (.assign n!"i" (.bin .add (.var n!"i") (.num 1)))
      .skip) (.bin .lt (.idx (.var n!"a") (.var n!"i")) (.var n!"x"))

theorem scanUp_ex {j y : Cell} {x : Nat} (ha : W sz a) (hx : x < 18446744073709551616) :
    ∀ fuel i i', i < 4294967296 → scanUp a b x fuel i = .ok i' →
      Ex P G upS (E (so n o b (uc i) j (lc x) y) (setMem mem o (nats .u64 a))) (E (so n o b (uc i') j (lc x) y) (setMem mem o (nats .u64 a))) ∧
      i' < 4294967296 := by
  intro fuel
  induction fuel with
  | zero => intro i i' _ h; simp [scanUp] at h
  | succ fuel ih =>
    intro i i' hi h
    simp only [scanUp, bind_ok] at h
    obtain ⟨v, hv, h⟩ := h
    have hs := incI_ex (P := P) (G := G) (mem := setMem mem o (nats .u64 a)) (n := n) (o := o) (b := b) (j := j) (x := lc x) (y := y) hi
    have hc := less_ev (P := P) (G := G) (mem := mem) (l := so n o b (uc (u32 (i + 1))) j (lc x) y) (k := n!"i") rfl rfl rfl ha hx hv
    split at h
    · next hlt =>
      obtain ⟨e, l⟩ := ih _ _ (u32_lt _) h
      rw [decide_eq_true hlt] at hc
      exact ⟨Ex.doWhile_true hs hc e, l⟩
    · next hlt =>
      rw [pure_ok] at h
      subst h
      rw [decide_eq_false hlt] at hc
      exact ⟨Ex.doWhile_false hs hc, u32_lt _⟩

/-- The loop of lines 53-58. -/
abbrev partS : Stmt := (.while (.bin .lt (.var n!"i") (.var n!"j"))
    (.seq (.assign n!"y" (.idx (.var n!"a") (.var n!"i")))
    (.seq (.store (.var n!"a") (.var n!"i") (.idx (.var n!"a") (.var n!"j")))
    (.seq (.store (.var n!"a") (.var n!"j") (.var n!"y"))
    (.seq downS
    (.seq upS
    .skip))))))

theorem partLoop_ex {m x : Nat} (hx : x < 18446744073709551616) :
    ∀ fuel (a : Array Nat) i j y r, W sz a → i < 4294967296 → j < 4294967296 → partLoop b m x fuel a i j = .ok r →
      ∃ i' y', Ex P G partS (E (so n o b (uc i) (uc j) (lc x) (.int .u64 y)) (setMem mem o (nats .u64 a)))
        (E (so n o b (uc i') (uc r.2) (lc x) (.int .u64 y')) (setMem mem o (nats .u64 r.1))) ∧ W sz r.1 ∧ r.2 < 4294967296 := by
  intro fuel
  induction fuel with
  | zero => intro a i j y r _ _ _ h; simp [partLoop] at h
  | succ fuel ih =>
    intro a i j y r ha hi hj h
    rw [partLoop] at h
    have hc := lt_ev (P := P) (G := G) (mem := setMem mem o (nats .u64 a)) (l := so n o b (uc i) (uc j) (lc x) (.int .u64 y)) (x := n!"i") (y := n!"j")
      rfl rfl hi hj
    split at h
    · next hlt =>
      rw [decide_eq_true hlt] at hc
      simp only [bind_ok] at h
      obtain ⟨v, hv, z, hz, a₁, ha₁, a₂, ha₂, j₁, hj₁, i₁, hi₁, h⟩ := h
      have hv' := ha.lt _ _ hv
      have hz' := ha.lt _ _ hz
      have w2 := (ha.wr hz' ha₁).wr hv' ha₂
      obtain ⟨e1, l1⟩ := scanDown_ex (P := P) (G := G) (mem := mem) (n := n) (o := o) (i := uc i) (y := lc v) w2 hx _ _ _ hj hj₁
      obtain ⟨e2, l2⟩ := scanUp_ex (P := P) (G := G) (mem := mem) (n := n) (o := o) (j := uc j₁) (y := lc v) w2 hx _ _ _ hi hi₁
      obtain ⟨i', y', e, w⟩ := ih a₂ i₁ j₁ (some v) r w2 l2 l1 h
      exact ⟨i', y', Ex.while_true hc (Ex.seq (asgl (ld_ev (t := .u32) rfl (Ev.v rfl rfl) hv) rfl hv')
        (Ex.seq (st_ex (t := .u32) rfl (Ev.v rfl rfl) (ld_ev (t := .u32) rfl (Ev.v rfl rfl) hz) hz' ha₁)
        (Ex.seq (st_ex (t := .u32) rfl (Ev.v rfl rfl) (Ev.v rfl rfl) hv' ha₂) (Ex.seq e1 (Ex.seq e2 (Ex.skip _)))))) e, w⟩
    · next hlt =>
      rw [decide_eq_false hlt] at hc
      rw [pure_ok] at h
      subst h
      exact ⟨i, y, Ex.while_false hc, ha, hj⟩

/-- Lines 39-62. -/
theorem partition_ex {r : Array Nat × Nat} (hn : n < 4294967296) (ha : W sz a) (h : partition a b n = .ok r) :
    W sz r.1 ∧ r.2 < 4294967296 ∧ b + r.2 < sz ∧ ∃ i' x' y', ∀ rest st',
      Ex P G rest (E (so n o b (uc i') (uc r.2) (.int .u64 x') (.int .u64 y')) (setMem mem o (nats .u64 r.1))) st' →
      Ex P G   (.seq (.seq (.decl .u32 n!"i")
   (.decl .u32 n!"j"))
  (.seq (.seq (.decl .u64 n!"x")
   (.decl .u64 n!"y"))
  (.seq (.assign n!"i" (.bin .div (.var n!"n") (.num 2)))
  (.seq (.assign n!"x" (.idx (.var n!"a") (.var n!"i")))
  (.seq (.store (.var n!"a") (.var n!"i") (.idx (.var n!"a") (.num 0)))
  (.seq (.store (.var n!"a") (.num 0) (.var n!"x"))
  (.seq (.assign n!"i" (.num 0))
  (.seq (.assign n!"j" (.var n!"n"))
  (.seq downS
  (.seq upToS
  (.seq partS
  (.seq (.store (.var n!"a") (.num 0) (.idx (.var n!"a") (.var n!"j")))
  (.seq (.store (.var n!"a") (.var n!"j") (.var n!"x"))
    rest)))))))))))))
      (E [(n!"n", uc n), (n!"a", .ptr o b 1)] (setMem mem o (nats .u64 a))) st' := by
  simp only [partition, bind_ok, pure_ok] at h
  obtain ⟨x, hx, a0, ha0, a₁, h1, a₂, h2, j, hj, i, hi, w, hw, aj, haj, a₃, h3, a₄, h4, rfl⟩ := h
  have hx' := ha.lt _ _ hx
  have h0' := ha.lt _ _ ha0
  have w1 := ha.wr h0' h1
  have w2 := w1.wr hx' h2
  obtain ⟨e1, l1⟩ := scanDown_ex (P := P) (G := G) (mem := mem) (n := n) (o := o) (i := uc 0) (y := .int .u64 none) w2 hx' _ _ _ hn hj
  obtain ⟨e2, l2⟩ := scanUpTo_ex (P := P) (G := G) (mem := mem) (n := n) (o := o) (y := .int .u64 none) w2 hx' l1 _ _ _ (by decide) hi
  obtain ⟨i', y', e3, w3, l3⟩ := partLoop_ex (P := P) (G := G) (mem := mem) (n := n) (o := o) hx' _ _ _ _ none _ w2 l2 l1 hw
  have hjl := w3.lt _ _ haj
  have w4 := w3.wr hjl h3
  have w5 := w4.wr hx' h4
  refine ⟨w5, l3, ?_, i', some x, y', fun rest st' hr => ?_⟩
  · have := rd_lt haj
    rw [w3.size] at this
    exact this
  rw [show b = b + 0 from rfl] at ha0 h2 h3
  refine Ex.seq decls_ex.1 (Ex.seq decls_ex.2
    (Ex.seq (Ex.asgu (t' := .u32) (v := n / 2) (Ev.bin (Ev.v rfl rfl) (num_ev (by decide)) ?_) rfl (half_lt hn))
    (Ex.seq (asgl (ld_ev (t := .u32) rfl (Ev.v rfl rfl) hx) rfl hx')
    (Ex.seq (st_ex (t := .u32) rfl (Ev.v rfl rfl) (ld_ev (t := .i32) rfl (num_ev (by decide)) ha0) h0' h1)
    (Ex.seq (st_ex (t := .i32) rfl (num_ev (by decide)) (Ev.v rfl rfl) hx' h2)
    (Ex.seq (Ex.asgu (num_ev (by decide)) rfl (by decide))
    (Ex.seq (Ex.asgu (t' := .u32) (v := n) (Ev.v rfl rfl) rfl hn)
    (Ex.seq e1 (Ex.seq e2 (Ex.seq e3
    (Ex.seq (st_ex (t := .i32) rfl (num_ev (by decide)) (ld_ev (t := .u32) rfl (Ev.v rfl rfl) haj) hjl h3)
    (Ex.seq (st_ex (t := .u32) rfl (Ev.v rfl rfl) (Ev.v rfl rfl) hx' h4) hr))))))))))))
  rw [binop_uk (by simp) (by simp) hn (by decide), arith_divU hn rfl]

/-! ### sort_array -/

/-- `a + j` -/
theorem ptr_ev {l : List (Name × Cell)} {e1 e2 : Expr} {t : Ty} {i : Nat} (ha : W sz a)
    (h1 : Ev P G e1 (E l (setMem mem o (nats .u64 a))) (.ptr o b 1))
    (h2 : Ev P G e2 (E l (setMem mem o (nats .u64 a))) (.int t (i : Nat))) (hi : b + i ≤ sz) :
    Ev P G (.bin .add e1 e2) (E l (setMem mem o (nats .u64 a))) (.ptr o (b + i) 1) := by
  obtain ⟨N, hN⟩ := h1
  obtain ⟨N', hN'⟩ := h2
  refine ⟨N + N' + 1, fun f hf => ?_⟩
  obtain ⟨g, rfl⟩ := Nat.exists_eq_add_of_le' hf
  have e1 := hN (g + (N + N')) (by omega)
  have e2 := hN' (g + (N + N')) (by omega)
  show (eval P G (g + (N + N')) _ _ >>= fun x => eval P G (g + (N + N')) _ _ >>= fun y => binopAt _ _ x y) = _
  rw [e1, ok_bind, e2, ok_bind]
  show binopAt (setMem mem o (nats .u64 a)) .add (.ptr o b 1) (.int t i) = _
  have hsz : (setMem mem o (nats .u64 a) o).data.size = sz := by
    rw [setMem_self]
    simp [nats, ha.size]
  simp only [binopAt, position_off, ok_bind]
  rw [hsz, if_pos hi]

theorem sort_array_calls (h1 : P.lookup n!"isort_int_array" = some Src.sort.isort_int_array)
    (h2 : P.lookup n!"qsort_int_array" = some Src.sort.qsort_int_array) (h3 : P.lookup n!"sort_array" = some Src.sort.sort_array) :
    ∀ fuel (a : Array Nat) b n t a', W sz a → n < 4294967296 → sort_array fuel a b n = .ok a' →
      Calls P G n!"sort_array" [.ptr o b 1, .int t (n : Nat)] (setMem mem o (nats .u64 a)) (setMem mem o (nats .u64 a')) ∧ W sz a' := by
  intro fuel
  induction fuel with
  | zero => intro a b n t a' _ _ h; simp [sort_array] at h
  | succ fuel ih =>
    intro a b n t a' ha hn h
    rw [sort_array] at h
    have hc : Ev P G (.bin .lt (.var n!"n") (.num 10)) (E [(n!"n", uc n), (n!"a", .ptr o b 1)] (setMem mem o (nats .u64 a))) (truth (decide (n < 10))) :=
      Ev.bin (Ev.v rfl rfl) (num_ev (by decide)) (by rw [binop_uk (by simp) (by simp) hn (by decide), arithU_lt])
    have hargs : ∀ {l : List (Name × Cell)} {mem : Nat → Obj} {k : Name} {v : Nat}, look l n!"a" = some (.ptr o b 1) → look l k = some (uc v) →
        EvA P G (.cons (.var n!"a") (.cons (.var k) .nil)) (E l mem) [.ptr o b 1, .int .u32 (v : Nat)] :=
      fun ha hk => EvA.cons (Ev.v ha rfl) (EvA.cons (Ev.v hk rfl) (EvA.nil _))
    by_cases h10 : n < 10
    · rw [if_pos h10] at h
      obtain ⟨hi, ha'⟩ := isort_calls (P := P) (G := G) (mem := mem) (o := o) (t := .u32) h1 hn ha h
      rw [decide_eq_true h10] at hc
      refine ⟨Calls.mk (st' := E [(n!"n", uc n), (n!"a", .ptr o b 1)] (setMem mem o (nats .u64 a'))) h3 (bindSort hn)
        (Ex.seq (Ex.ite hc ?_) (Ex.skip _)), ha'⟩
      rw [if_pos rfl]
      exact Ex.seq (Ex.call (st := E [(n!"n", uc n), (n!"a", .ptr o b 1)] (setMem mem o (nats .u64 a))) (hargs rfl rfl) hi) (Ex.skip _)
    · rw [if_neg h10] at h
      simp only [bind_ok] at h
      obtain ⟨r, hr, a₁, ha₁, h⟩ := h
      rw [decide_eq_false h10] at hc
      obtain ⟨w1, l1, lb, i', x', y', e1⟩ := partition_ex (P := P) (G := G) (mem := mem) (o := o) hn ha hr
      obtain ⟨c1, w2⟩ := ih _ _ _ .u32 _ w1 l1 ha₁
      have hq : Calls P G n!"qsort_int_array" [.ptr o b 1, .int .u32 (n : Nat)] (setMem mem o (nats .u64 a)) (setMem mem o (nats .u64 a')) ∧ W sz a' := by
        obtain ⟨c2, w3⟩ := ih _ _ _ .u32 _ w2 (u32_lt _) h
        refine ⟨Calls.mk (st' := E (so n o b (uc i') (uc (u32 (r.2 + 1))) (.int .u64 x') (.int .u64 y')) (setMem mem o (nats .u64 a'))) h2 (bindSort hn)
          (e1 _ _ ?_), w3⟩
        refine Ex.seq (Ex.call (st := E (so n o b (uc i') (uc r.2) (.int .u64 x') (.int .u64 y')) (setMem mem o (nats .u64 r.1))) (hargs rfl rfl) c1) ?_
        refine Ex.seq (st₁ := E (so n o b (uc i') (uc (u32 (r.2 + 1))) (.int .u64 x') (.int .u64 y')) (setMem mem o (nats .u64 a₁))) (inc_ex rfl l1) ?_
        refine Ex.seq (Ex.call (st := E (so n o b (uc i') (uc (u32 (r.2 + 1))) (.int .u64 x') (.int .u64 y')) (setMem mem o (nats .u64 a₁)))
          (EvA.cons (ptr_ev (t := .u32) w2 (Ev.v rfl rfl) (Ev.v rfl rfl) ?_)
            (EvA.cons (Ev.bin (Ev.v rfl rfl) (Ev.v rfl rfl) ?_) (EvA.nil _))) c2) (Ex.skip _)
        · have : u32 (r.2 + 1) ≤ r.2 + 1 := Nat.mod_le _ _
          omega
        · rw [binop_uu (by simp) (by simp) hn (u32_lt _), arith_subW hn (Nat.le_of_lt (u32_lt _))]
      refine ⟨Calls.mk (st' := E [(n!"n", uc n), (n!"a", .ptr o b 1)] (setMem mem o (nats .u64 a'))) h3 (bindSort hn)
        (Ex.seq (Ex.ite hc ?_) (Ex.skip _)), hq.2⟩
      rw [if_neg (by simp)]
      exact Ex.seq (Ex.call (st := E [(n!"n", uc n), (n!"a", .ptr o b 1)] (setMem mem o (nats .u64 a))) (hargs rfl rfl) hq.1) (Ex.skip _)

/-! ### sort -/

theorem sort_calls {t : Ty} {a' : Array Nat} (h1 : P.lookup n!"isort_int_array" = some Src.sort.isort_int_array)
    (h2 : P.lookup n!"qsort_int_array" = some Src.sort.qsort_int_array) (h3 : P.lookup n!"sort_array" = some Src.sort.sort_array)
    (h4 : P.lookup n!"sort" = some Src.sort.sort) (ha : W sz a) (hn : n < 4294967296) (hm : mem o = nats .u64 a) (h : IntSort.sort a n = .ok a') :
    Calls P G n!"sort" [.ptr o 0 1, .int t (n : Nat)] mem (setMem mem o (nats .u64 a')) := by
  obtain ⟨c, _⟩ := sort_array_calls (P := P) (G := G) (mem := mem) (o := o) h1 h2 h3 _ _ _ _ .u32 _ ha hn h
  rw [setMem_eq _ _ hm] at c
  exact Calls.mk (st' := E [(n!"n", uc n), (n!"a", .ptr o 0 1)] (setMem mem o (nats .u64 a'))) h4 (bindSort hn)
    (Ex.seq (Ex.call (st := E [(n!"n", uc n), (n!"a", .ptr o 0 1)] mem)
      (EvA.cons (Ev.v rfl rfl) (EvA.cons (Ev.v rfl rfl) (EvA.nil _))) c) (Ex.skip _))

end

end CLang.SortC
