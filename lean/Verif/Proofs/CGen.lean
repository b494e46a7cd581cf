import Verif.Proofs.CExact
import Verif.Model.Tables
import Verif.Model.Src.MakeTables

/-
The functions of src/make_tables.c that compute, as read from the text, do what the model says.
-/

namespace CLang.Gen
open C CLang Tables

set_option linter.unusedSimpArgs false

/-- Evaluation of the program. -/
macro "crs" "[" args:Lean.Parser.Tactic.simpLemma,* "]" : tactic =>
  `(tactic| simp only [crun, CLang.assign, Nat.reduceEqDiff, reduceIte, Nat.reduceLeDiff, conv_u32_nat, $args,*])

variable {P : Prog} {G : Name → Option Cell} {mem : Nat → Obj}

/-! ### power -/

abbrev pw (x k q y : Nat) : List (Name × Cell) := [(n!"q", uc q), (n!"k", uc k), (n!"x", uc x), (n!"y", uc y)]

theorem power_rt {x k q r : Nat} (hx : x < 4294967296) (hk : k < 4294967296) (hq : q < 4294967296) (h : power x k q = .ok r) :
    ∃ st', Rt P G Src.make_tables.power.body (E [(n!"q", uc q), (n!"k", uc k), (n!"x", uc x)] mem) (.int .u32 (r : Nat)) st' ∧ st'.mem = mem ∧
      r < 4294967296 := by
  simp only [power, bind_ok, pure_ok] at h
  obtain ⟨_, h0, w, h1, rfl⟩ := h
  rw [cassert_ok, decide_eq_true_eq] at h0
  obtain ⟨st', hw, hR⟩ := Ex.while_cwhile (P := P) (G := G)
    (c := .bin .ne (.var n!"k") (.num 0))
    (s := .seq (.ite (.bin .ne (.bin .and (.var n!"k") (.num 1)) (.num 0))
      (.seq (.assign n!"y" (.bin .rem (.bin .mul (.var n!"y") (.var n!"x")) (.var n!"q"))) .skip) .skip)
      (.seq (.assign n!"k" (.bin .shr (.var n!"k") (.num 1)))
      (.seq (.assign n!"x" (.bin .rem (.bin .mul (.var n!"x") (.var n!"x")) (.var n!"q"))) .skip)))
    (fun (s : Nat × Nat × Nat) st => st = E (pw s.1 s.2.2 q s.2.1) mem ∧ s.1 < 4294967296 ∧ s.2.1 < 4294967296 ∧ s.2.2 < 4294967296)
    (by
      rintro ⟨x, y, k⟩ st ⟨rfl, hx, hy, hk⟩
      simp only at hx hy hk
      refine Ev.mk 3 fun f => ?_
      crs []
      rw [binop_uk (by simp) (by simp) hk (by decide), arithU_ne])
    (by
      rintro ⟨x, y, k⟩ ⟨x', y', k'⟩ st ⟨rfl, hx, hy, hk⟩ _ hb
      simp only at hx hy hk
      simp only [bind_ok, pure_ok, Prod.mk.injEq] at hb
      obtain ⟨y₁, h1, x₁, h2, rfl, rfl, rfl⟩ := hb
      have hy' : y' < 4294967296 := by
        split at h1
        · exact urem_lt (u32_lt _) h1
        · cases h1; exact hy
      have hx' := urem_lt (u32_lt _) h2
      have hc : Ev P G (.bin .ne (.bin .and (.var n!"k") (.num 1)) (.num 0)) (E (pw x k q y) mem) (truth (decide (k &&& 1 ≠ 0))) := by
        refine Ev.mk 4 fun f => ?_
        crs []
        rw [binop_uk (by simp) (by simp) hk (by decide), arith_andU hk (by decide)]
        crs []
        rw [binop_uk (by simp) (by simp) (and_one_lt k) (by decide), arithU_ne]
      have e1 : Ex P G (.ite (.bin .ne (.bin .and (.var n!"k") (.num 1)) (.num 0))
          (.seq (.assign n!"y" (.bin .rem (.bin .mul (.var n!"y") (.var n!"x")) (.var n!"q"))) .skip) .skip) (E (pw x k q y) mem)
          (E (pw x k q y') mem) := by
        refine Ex.ite hc ?_
        by_cases hk1 : k &&& 1 ≠ 0
        · rw [if_pos hk1] at h1
          rw [decide_eq_true hk1, if_pos rfl]
          refine Ex.seq (st₁ := E (pw x k q y') mem) ?_ (Ex.skip _)
          refine Ex.mk 5 fun f => ?_
          crs []
          rw [binop_uu (by simp) (by simp) hy hx, arith_mulU]
          crs []
          rw [binop_uu (by simp) (by simp) (u32_lt _) hq, arith_remU h1]
          crs [u32_of hy']
        · rw [if_neg hk1] at h1
          cases h1
          rw [decide_eq_false hk1, if_neg (by simp)]
          exact Ex.skip _
      refine ⟨E (pw x' (k / 2) q y') mem, Ex.seq e1 (Ex.mk 8 fun f => ?_), rfl, hx', hy', half_lt hk⟩
      crs []
      rw [binop_shrk hk]
      crs [u32_of (half_lt hk)]
      rw [binop_uu (by simp) (by simp) hx hx, arith_mulU]
      crs []
      rw [binop_uu (by simp) (by simp) (u32_lt _) hq, arith_remU h2]
      crs [u32_of hx'])
    _ (x, 1, k) w (E (pw x k q 1) mem) ⟨rfl, hx, show 1 < 4294967296 by decide, hk⟩ h1
  obtain ⟨rfl, hx', hy', hk'⟩ := hR
  refine ⟨E (pw w.1 w.2.2 q w.2.1) mem, ?_, rfl, hy'⟩
  · refine Rt.seq (st₁ := E [(n!"q", uc q), (n!"k", uc k), (n!"x", uc x), (n!"y", .int .u32 none)] mem) ?_
      (Rt.seq (st₁ := E [(n!"q", uc q), (n!"k", uc k), (n!"x", uc x), (n!"y", .int .u32 none)] mem) (Ex.asserts ?_)
      (Rt.seq (st₁ := E (pw x k q 1) mem) ?_ (Rt.seq hw (Rt.left (Rt.ret (Ev.mk 3 fun f => ?_))))))
    · refine Ex.mk 1 fun f => ?_
      crs []
    · refine Ev.mk 3 fun f => ?_
      crs []
      rw [binop_uk (by simp) (by simp) hq (by decide), arithU_gt]
      simp only [h0, decide_true]
    · refine Ex.mk 3 fun f => ?_
      crs [u32_of (show 1 < 4294967296 by decide)]
    · crs []

theorem bind3 {a b c : Name} {ta tb tc : Ty} {x y z : Nat} (hx : x < 4294967296) (hy : y < 4294967296) (hz : z < 4294967296)
    (hab : a ≠ b) (hac : a ≠ c) (hbc : b ≠ c) :
    bindParams [(a, .int .u32), (b, .int .u32), (c, .int .u32)] [.int ta (x : Int), .int tb (y : Int), .int tc (z : Int)] =
      .ok (look [(c, uc z), (b, uc y), (a, uc x)]) := by
  simp only [bindParams, ok_bind, conv_u32_nat, u32_of hx, u32_of hy, u32_of hz, look_nil, setEnv_look, upd, if_neg hab, if_neg hac, if_neg hbc]

theorem power_ev {e1 e2 e3 : Expr} {t1 t2 t3 : Ty} {st : State} {x k q r : Nat} (hP : P.lookup n!"power" = some Src.make_tables.power)
    (h1 : Ev P G e1 st (.int t1 (x : Nat))) (h2 : Ev P G e2 st (.int t2 (k : Nat))) (h3 : Ev P G e3 st (.int t3 (q : Nat)))
    (hx : x < 4294967296) (hk : k < 4294967296) (hq : q < 4294967296) (h : power x k q = .ok r) :
    Ev P G (.call n!"power" (.cons e1 (.cons e2 (.cons e3 .nil)))) st (.int .u32 (r : Nat)) ∧ r < 4294967296 := by
  obtain ⟨st', hr, _, hlt⟩ := power_rt (P := P) (G := G) (mem := st.mem) hx hk hq h
  refine ⟨Ev.callv (EvA.cons h1 (EvA.cons h2 (EvA.cons h3 (EvA.nil _)))) hP (by decide) (bind3 hx hk hq (by decide) (by decide) (by decide)) hr ?_, hlt⟩
  simp only [Src.make_tables.power, result, conv_u32_nat, u32_of hlt]

theorem power_returns {t1 t2 t3 : Ty} {x k q r : Nat} (hP : P.lookup n!"power" = some Src.make_tables.power)
    (hx : x < 4294967296) (hk : k < 4294967296) (hq : q < 4294967296) (h : power x k q = .ok r) :
    Returns P G n!"power" [.int t1 (x : Nat), .int t2 (k : Nat), .int t3 (q : Nat)] mem (.int .u32 (r : Nat)) mem := by
  obtain ⟨st', hr, hm, hlt⟩ := power_rt (P := P) (G := G) (mem := mem) hx hk hq h
  rw [← hm]
  refine Returns.mk (mem := st'.mem) hP (bind3 hx hk hq (by decide) (by decide) (by decide)) (hm ▸ hr) ?_
  simp only [Src.make_tables.power, result, conv_u32_nat, u32_of hlt]

/-! ### reverse -/

theorem reverse_rt {i k r : Nat} (hi : i < 4294967296) (hk : k < 4294967296) (h : reverse i k = .ok r) :
    ∃ st', Rt P G Src.make_tables.reverse.body (E [(n!"k", uc k), (n!"i", uc i)] mem) (.int .u32 (r : Nat)) st' ∧ st'.mem = mem ∧
      r < 4294967296 := by
  simp only [reverse, bind_ok, pure_ok] at h
  obtain ⟨w, h1, rfl⟩ := h
  obtain ⟨st', j', hw, b', hst, hx', hi', hj'⟩ := Ex.while_cfor (P := P) (G := G)
    (c := .bin .lt (.var n!"j") (.var n!"k"))
    (s := .seq (.seq (.assign n!"b" (.bin .and (.var n!"i") (.num 1)))
     (.seq (.assign n!"x" (.bin .or (.bin .shl (.var n!"x") (.num 1)) (.var n!"b")))
     (.seq (.assign n!"i" (.bin .shr (.var n!"i") (.num 1))) .skip)))
    (.assign n!"j" (.bin .add (.var n!"j") (.num 1))))
    (fun j (s : Nat × Nat) st => ∃ b, st = E [(n!"k", uc k), (n!"i", uc s.2), (n!"x", uc s.1), (n!"b", .int .u32 b), (n!"j", uc j)] mem ∧
      s.1 < 4294967296 ∧ s.2 < 4294967296 ∧ j < 4294967296)
    (by
      rintro j ⟨x, i⟩ st ⟨b, rfl, hx, hi, hj⟩
      simp only at hx hi
      refine Ev.mk 3 fun f => ?_
      crs []
      rw [binop_uu (by simp) (by simp) hj hk, arithU_lt])
    (by
      rintro j ⟨x, i⟩ ⟨x', i'⟩ st ⟨b, rfl, hx, hi, hj⟩ _ hb
      simp only at hx hi
      simp only [pure_ok, Prod.mk.injEq] at hb
      obtain ⟨rfl, rfl⟩ := hb
      have hor : u32 (2 * x) ||| i &&& 1 < 4294967296 := Nat.or_lt_two_pow (n := 32) (u32_lt _) (and_one_lt i)
      refine ⟨E [(n!"k", uc k), (n!"i", uc (i / 2)), (n!"x", uc (u32 (2 * x) ||| i &&& 1)), (n!"b", uc (i &&& 1)), (n!"j", uc (u32 (j + 1)))] mem,
        Ex.mk 12 fun f => ?_, _, rfl, hor, half_lt hi, u32_lt _⟩
      crs []
      rw [binop_uk (by simp) (by simp) hi (by decide), arith_andU hi (by decide)]
      crs [u32_of (and_one_lt i)]
      rw [binop_shlk hx]
      crs []
      rw [binop_uu (by simp) (by simp) (u32_lt _) (and_one_lt i), arith_orU (u32_lt _) (and_one_lt i)]
      crs [u32_of hor]
      rw [binop_shrk hi]
      crs [u32_of (half_lt hi)]
      rw [binop_uk (by simp) (by simp) hj (by decide), arith_addU]
      crs [u32_of (u32_lt _)])
    _ 0 (0, i) w (E [(n!"k", uc k), (n!"i", uc i), (n!"x", uc 0), (n!"b", .int .u32 none), (n!"j", uc 0)] mem)
      ⟨none, rfl, show 0 < 4294967296 by decide, hi, by decide⟩ h1
  subst hst
  refine ⟨E [(n!"k", uc k), (n!"i", uc w.2), (n!"x", uc w.1), (n!"b", .int .u32 b'), (n!"j", uc j')] mem, ?_, rfl, hx'⟩
  · refine Rt.seq (st₁ := E [(n!"k", uc k), (n!"i", uc i), (n!"x", .int .u32 none), (n!"b", .int .u32 none), (n!"j", .int .u32 none)] mem) ?_
      (Rt.seq (st₁ := E [(n!"k", uc k), (n!"i", uc i), (n!"x", uc 0), (n!"b", .int .u32 none), (n!"j", .int .u32 none)] mem) ?_
      (Rt.seq (Ex.seq ?_ hw) (Rt.left (Rt.ret (Ev.mk 3 fun f => ?_)))))
    · refine Ex.mk 4 fun f => ?_
      crs []
    · refine Ex.mk 3 fun f => ?_
      crs [u32_of (show 0 < 4294967296 by decide)]
    · refine Ex.mk 3 fun f => ?_
      crs [u32_of (show 0 < 4294967296 by decide)]
    · crs []

theorem bind2 {a b : Name} {ta tb : Ty} {x y : Nat} (hx : x < 4294967296) (hy : y < 4294967296) (hab : a ≠ b) :
    bindParams [(a, .int .u32), (b, .int .u32)] [.int ta (x : Int), .int tb (y : Int)] = .ok (look [(b, uc y), (a, uc x)]) := by
  simp only [bindParams, ok_bind, conv_u32_nat, u32_of hx, u32_of hy, look_nil, setEnv_look, upd, if_neg hab]

theorem reverse_ev {e1 e2 : Expr} {t1 t2 : Ty} {st : State} {i k r : Nat} (hP : P.lookup n!"reverse" = some Src.make_tables.reverse)
    (h1 : Ev P G e1 st (.int t1 (i : Nat))) (h2 : Ev P G e2 st (.int t2 (k : Nat)))
    (hi : i < 4294967296) (hk : k < 4294967296) (h : reverse i k = .ok r) :
    Ev P G (.call n!"reverse" (.cons e1 (.cons e2 .nil))) st (.int .u32 (r : Nat)) ∧ r < 4294967296 := by
  obtain ⟨st', hr, _, hlt⟩ := reverse_rt (P := P) (G := G) (mem := st.mem) hi hk h
  refine ⟨Ev.callv (EvA.cons h1 (EvA.cons h2 (EvA.nil _))) hP (by decide) (bind2 hi hk (by decide)) hr ?_, hlt⟩
  simp only [Src.make_tables.reverse, result, conv_u32_nat, u32_of hlt]

theorem reverse_returns {t1 t2 : Ty} {i k r : Nat} (hP : P.lookup n!"reverse" = some Src.make_tables.reverse)
    (hi : i < 4294967296) (hk : k < 4294967296) (h : reverse i k = .ok r) :
    Returns P G n!"reverse" [.int t1 (i : Nat), .int t2 (k : Nat)] mem (.int .u32 (r : Nat)) mem := by
  obtain ⟨st', hr, hm, hlt⟩ := reverse_rt (P := P) (G := G) (mem := mem) hi hk h
  rw [← hm]
  refine Returns.mk (mem := st'.mem) hP (bind2 hi hk (by decide)) (hm ▸ hr) ?_
  simp only [Src.make_tables.reverse, result, conv_u32_nat, u32_of hlt]

end CLang.Gen
