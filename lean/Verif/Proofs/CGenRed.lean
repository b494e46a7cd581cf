import Verif.Proofs.CGenTabRed
import Verif.Proofs.CGenInv
import Verif.Model.Src.MakeBitrevTable

/-
The other functions of src/make_red_tables.c and src/make_bitrev_table.c, as read from the text.
-/

namespace CLang.GenRed
open C CLang Tables CLang.Gen

set_option linter.unusedSimpArgs false

variable {P : Prog} {G : Name → Option Cell} {mem : Nat → Obj}

/-! ### Functions that are the same in the three files -/

theorem power_same : Src.make_red_tables.power = Src.make_tables.power := by decide +kernel
theorem inverse_same : Src.make_red_tables.inverse = Src.make_tables.inverse := by decide +kernel
theorem logtwo_same : Src.make_red_tables.logtwo = Src.make_tables.logtwo := by decide +kernel
theorem reverse_same : Src.make_red_tables.reverse = Src.make_tables.reverse := by decide +kernel
theorem is_primitive_root_same : Src.make_red_tables.is_primitive_root = Src.make_tables.is_primitive_root := by decide +kernel
theorem build_power_table_same : Src.make_red_tables.build_power_table = Src.make_tables.build_power_table := by decide +kernel
theorem logtwo_same' : Src.make_bitrev_table.logtwo = Src.make_tables.logtwo := by decide +kernel
theorem reverse_same' : Src.make_bitrev_table.reverse = Src.make_tables.reverse := by decide +kernel

/-! ### find_k -/

theorem find_k_returns {t : Ty} {q r : Nat} (hP : P.lookup n!"find_k" = some Src.make_red_tables.find_k) (hq : q < 4294967296) (h1 : 1 ≤ q)
    (h : find_k q = .ok r) : Returns P G n!"find_k" [.int t (q : Nat)] mem (.int .u32 (r : Nat)) mem := by
  unfold find_k at h
  obtain ⟨st', hw, rfl, hx'⟩ := Ex.while_cwhile (P := P) (G := G)
    (c := .bin .eq (.bin .and (.var n!"x") (.num 1)) (.num 0))
    (s := .seq (.assign n!"x" (.bin .shr (.var n!"x") (.num 1))) .skip)
    (fun (x : Nat) st => st = E [(n!"q", uc q), (n!"x", uc x)] mem ∧ x < 4294967296)
    (by
      rintro x st ⟨rfl, hx⟩
      refine Ev.mk 4 fun f => ?_
      crs []
      rw [binop_uk (by simp) (by simp) hx (by decide), arith_andU hx (by decide)]
      crs []
      rw [binop_uk (by simp) (by simp) (and_one_lt x) (by decide), arithU_eq])
    (by
      rintro x x' st ⟨rfl, hx⟩ _ hb
      simp only [pure_ok] at hb
      subst hb
      refine ⟨E [(n!"q", uc q), (n!"x", uc (x / 2))] mem, Ex.mk 8 fun f => ?_, rfl, half_lt hx⟩
      crs []
      rw [binop_shrk hx]
      crs [u32_of (half_lt hx)])
    _ (q - 1) r (E [(n!"q", uc q), (n!"x", uc (q - 1))] mem) ⟨rfl, by omega⟩ h
  refine Returns.mk (st' := E [(n!"q", uc q), (n!"x", uc r)] mem) (v := .int .u32 (r : Nat)) hP (env := look [(n!"q", uc q)]) ?_
    (Rt.seq (st₁ := E [(n!"q", uc q), (n!"x", .int .u32 none)] mem) (Ex.mk 1 fun f => by crs [])
    (Rt.seq (st₁ := E [(n!"q", uc q), (n!"x", uc (q - 1))] mem) (Ex.mk 3 fun f => ?_) (Rt.seq hw (Rt.left (Rt.ret (Ev.mk 1 fun f => ?_)))))) ?_
  · simp only [Src.make_red_tables.find_k, bindParams, ok_bind, conv_u32_nat, u32_of hq, look_nil, setEnv_look, upd]
  · crs []
    rw [binop_uk (by simp) (by simp) hq (by decide), arith_subU h1]
    crs [u32_of (show q - 1 < 4294967296 by omega)]
  · crs []
  · simp only [Src.make_red_tables.find_k, result, conv_u32_nat, u32_of hx']

/-! ### rescale_factor8 and rescale_factor6 -/

theorem rescale_rt {e n k q r : Nat} (hp : P.lookup n!"power" = some Src.make_tables.power) (he : e ≤ 100)
    (hn : n < 4294967296) (hk : k < 4294967296) (hq : q < 4294967296) (h : rescale_factor e n k q = .ok r) :
    ∃ st', Rt P G (.seq (.decl .u32 n!"s")
  (.seq (.assign n!"s" (.call n!"power" (.cons (.var n!"inv_k") (.cons (.num e) (.cons (.var n!"q") .nil)))))
  (.seq (.ret (.bin .rem (.bin .mul (.var n!"s") (.var n!"inv_n")) (.var n!"q")))
  .skip))) (E [(n!"q", uc q), (n!"inv_k", uc k), (n!"inv_n", uc n)] mem) (.int .u32 (r : Nat)) st' ∧ st'.mem = mem ∧ r < 4294967296 := by
  simp only [rescale_factor, bind_ok] at h
  obtain ⟨s, h1, h2⟩ := h
  obtain ⟨e1, l1⟩ := power_ev (P := P) (G := G) (e1 := .var n!"inv_k") (e2 := .num e) (e3 := .var n!"q") (t1 := .u32) (t2 := .i32) (t3 := .u32)
    (st := E [(n!"q", uc q), (n!"inv_k", uc k), (n!"inv_n", uc n), (n!"s", .int .u32 none)] mem) hp (Ev.v rfl rfl)
    (Ev.mk 1 fun f => eval_num _ _ _ (by omega)) (Ev.v rfl rfl) hk (by omega) hq h1
  refine ⟨E [(n!"q", uc q), (n!"inv_k", uc k), (n!"inv_n", uc n), (n!"s", uc s)] mem,
    Rt.seq (Ex.mk 1 fun f => by crs []) (Rt.seq (Ex.asgu e1 rfl l1) (Rt.left (Rt.ret
      (Ev.bin (Ev.bin (v := .int .u32 (u32 (s * n) : Nat)) (Ev.v rfl rfl) (Ev.v rfl rfl) ?_) (Ev.v rfl rfl) ?_)))), rfl, urem_lt (u32_lt _) h2⟩
  · rw [binop_uu (by simp) (by simp) l1 hn, arith_mulU]
  · rw [binop_uu (by simp) (by simp) (u32_lt _) hq, arith_remU h2]

theorem rescale8_returns {t1 t2 t3 : Ty} {n k q r : Nat} (hp : P.lookup n!"power" = some Src.make_tables.power)
    (hP : P.lookup n!"rescale_factor8" = some Src.make_red_tables.rescale_factor8)
    (hn : n < 4294967296) (hk : k < 4294967296) (hq : q < 4294967296) (h : rescale_factor 8 n k q = .ok r) :
    Returns P G n!"rescale_factor8" [.int t1 (n : Nat), .int t2 (k : Nat), .int t3 (q : Nat)] mem (.int .u32 (r : Nat)) mem := by
  obtain ⟨st', hr, hm, hlt⟩ := rescale_rt (P := P) (G := G) (mem := mem) hp (by decide) hn hk hq h
  rw [← hm]
  refine Returns.mk (mem := st'.mem) hP (bind3 hn hk hq (by decide) (by decide) (by decide)) (hm ▸ hr) ?_
  simp only [Src.make_red_tables.rescale_factor8, result, conv_u32_nat, u32_of hlt]

theorem rescale6_returns {t1 t2 t3 : Ty} {n k q r : Nat} (hp : P.lookup n!"power" = some Src.make_tables.power)
    (hP : P.lookup n!"rescale_factor6" = some Src.make_red_tables.rescale_factor6)
    (hn : n < 4294967296) (hk : k < 4294967296) (hq : q < 4294967296) (h : rescale_factor 6 n k q = .ok r) :
    Returns P G n!"rescale_factor6" [.int t1 (n : Nat), .int t2 (k : Nat), .int t3 (q : Nat)] mem (.int .u32 (r : Nat)) mem := by
  obtain ⟨st', hr, hm, hlt⟩ := rescale_rt (P := P) (G := G) (mem := mem) hp (by decide) hn hk hq h
  rw [← hm]
  refine Returns.mk (mem := st'.mem) hP (bind3 hn hk hq (by decide) (by decide) (by decide)) (hm ▸ hr) ?_
  simp only [Src.make_red_tables.rescale_factor6, result, conv_u32_nat, u32_of hlt]

/-! ### shift -/

theorem shift_returns {t1 t2 : Ty} {x q : Nat} {r : Int} (hP : P.lookup n!"shift" = some Src.make_red_tables.shift)
    (hx : x < 4294967296) (hq : q < 4294967296) (h : Tables.shift x q = .ok r) :
    Returns P G n!"shift" [.int t1 (x : Nat), .int t2 (q : Nat)] mem (.int .i32 r) mem := by
  simp only [Tables.shift, bind_ok, pure_ok] at h
  obtain ⟨_, h0, h⟩ := h
  rw [cassert_ok] at h0
  have hxq : x < q := by simpa using h0
  have ec : Ev P G (.bin .le (.var n!"x") (.bin .div (.var n!"q") (.num 2))) (E [(n!"q", uc q), (n!"x", uc x)] mem) (truth (decide (x ≤ q / 2))) := by
    refine Ev.bin (Ev.v rfl rfl) (Ev.bin (v := .int .u32 (q / 2 : Nat)) (Ev.v rfl rfl) (Ev.mk (v := .int .i32 (2 : Nat)) 1 fun f => by crs []) ?_) ?_
    · rw [binop_uk (by simp) (by simp) hq (by decide), arith_divU hq rfl]
    · rw [binop_uu (by simp) (by simp) hx (by omega), arithU_le]
  have ev : Ev P G (.cond (.bin .le (.var n!"x") (.bin .div (.var n!"q") (.num 2))) (.var n!"x") (.bin .sub (.var n!"x") (.var n!"q")))
      (E [(n!"q", uc q), (n!"x", uc x)] mem) (.int .u32 (if x ≤ q / 2 then x else x + 4294967296 - q : Nat)) := by
    obtain ⟨N, hN⟩ := ec
    refine ⟨N + 3, fun f hf => ?_⟩
    obtain ⟨g, rfl⟩ := Nat.exists_eq_add_of_le' (show 3 ≤ f by omega)
    rw [eval_cond, hN _ (by omega)]
    simp only [ok_bind, test_truth]
    by_cases hc : x ≤ q / 2
    · rw [decide_eq_true hc, if_pos rfl, if_pos hc]
      crs []
    · rw [decide_eq_false hc, if_neg (by simp), if_neg hc]
      crs []
      rw [binop_uu (by simp) (by simp) hx hq, arith_subW hx (le_of_lt hq), u32_of (by omega)]
  have ha : Ev P G (.bin .lt (.var n!"x") (.var n!"q")) (E [(n!"q", uc q), (n!"x", uc x)] mem) (truth true) := by
    refine Ev.bin (Ev.v rfl rfl) (Ev.v rfl rfl) ?_
    rw [binop_uu (by simp) (by simp) hx hq, arithU_lt, decide_eq_true hxq]
  refine Returns.mk (st' := E [(n!"q", uc q), (n!"x", uc x)] mem) hP (bind2 hx hq (by decide)) (Rt.seq (Ex.asserts ha) (Rt.left (Rt.ret ev))) ?_
  simp only [Src.make_red_tables.shift, result, conv_i32, h, Except.ok.injEq, Val.int.injEq, true_and]
  split
  · unfold toI32; omega
  · rw [Nat.cast_sub (by omega)]
    unfold toI32; push_cast; omega

/-! ### rev_table_npairs -/

theorem truth_nat (b : Bool) : truth b = .int .i32 ((if b then 1 else 0 : Nat) : Int) := by cases b <;> rfl

theorem npairs_returns {t1 t2 : Ty} {n k r : Nat} (hR : P.lookup n!"reverse" = some Src.make_tables.reverse)
    (hP : P.lookup n!"rev_table_npairs" = some Src.make_bitrev_table.rev_table_npairs)
    (hn : n < 4294967296) (hk : k < 4294967296) (h : rev_table_npairs n k = .ok r) :
    Returns P G n!"rev_table_npairs" [.int t1 (n : Nat), .int t2 (k : Nat)] mem (.int .u32 (r : Nat)) mem := by
  unfold rev_table_npairs at h
  obtain ⟨st', i', hw, rfl, hc', hi'⟩ := Ex.while_cfor (P := P) (G := G)
    (c := .bin .lt (.var n!"i") (.var n!"n"))
    (s := (.seq (.seq (.assign n!"c" (.bin .add (.var n!"c") (.bin .lt (.var n!"i") (.call n!"reverse" (.cons (.var n!"i") (.cons (.var n!"k") .nil))))))
     .skip)
    (.assign n!"i" (.bin .add (.var n!"i") (.num 1)))))
    (fun i (c : Nat) st => st = E [(n!"k", uc k), (n!"n", uc n), (n!"i", uc i), (n!"c", uc c)] mem ∧ c < 4294967296 ∧ i < 4294967296)
    (by
      rintro i c st ⟨rfl, hc, hi⟩
      refine Ev.mk 3 fun f => ?_
      crs []
      rw [binop_uu (by simp) (by simp) hi hn, arithU_lt])
    (by
      rintro i c c' st ⟨rfl, hc, hi⟩ _ hb
      simp only [bind_ok, pure_ok] at hb
      obtain ⟨r, hr, rfl⟩ := hb
      obtain ⟨er, lr⟩ := reverse_ev (P := P) (G := G) (e1 := .var n!"i") (e2 := .var n!"k") (t1 := .u32) (t2 := .u32)
        (st := E [(n!"k", uc k), (n!"n", uc n), (n!"i", uc i), (n!"c", uc c)] mem) hR (Ev.v rfl rfl) (Ev.v rfl rfl) hi hk hr
      refine ⟨E [(n!"k", uc k), (n!"n", uc n), (n!"i", uc (u32 (i + 1))), (n!"c", uc (u32 (c + if i < r then 1 else 0)))] mem,
        Ex.seq (Ex.seq (Ex.asgu (t' := .u32) (v := u32 (c + if i < r then 1 else 0)) (Ev.bin (Ev.v rfl rfl)
          (Ev.bin (v := .int .i32 ((if i < r then 1 else 0 : Nat) : Int)) (Ev.v rfl rfl) er ?_) ?_) rfl (u32_lt _)) (Ex.skip _)) (Ex.mk 4 fun f => ?_), rfl, u32_lt _, u32_lt _⟩
      · rw [binop_uu (by simp) (by simp) hi lr, arithU_lt, truth_nat]
        simp only [decide_eq_true_eq]
      · rw [binop_uk (by simp) (by simp) hc (by split <;> decide), arith_addU]
      · crs []
        rw [binop_uk (by simp) (by simp) hi (by decide), arith_addU]
        crs [u32_of (u32_lt _)])
    _ 0 0 r (E [(n!"k", uc k), (n!"n", uc n), (n!"i", uc 0), (n!"c", uc 0)] mem) ⟨rfl, by decide, by decide⟩ h
  refine Returns.mk (st' := E [(n!"k", uc k), (n!"n", uc n), (n!"i", uc i'), (n!"c", uc r)] mem) (v := .int .u32 (r : Nat)) hP (bind2 hn hk (by decide))
    (Rt.seq (st₁ := E [(n!"k", uc k), (n!"n", uc n), (n!"i", .int .u32 none), (n!"c", .int .u32 none)] mem) (Ex.mk 4 fun f => by crs [])
    (Rt.seq (st₁ := E [(n!"k", uc k), (n!"n", uc n), (n!"i", .int .u32 none), (n!"c", uc 0)] mem)
      (Ex.mk 4 fun f => by crs [u32_of (show 0 < 4294967296 by decide)])
    (Rt.seq (Ex.seq (st₁ := E [(n!"k", uc k), (n!"n", uc n), (n!"i", uc 0), (n!"c", uc 0)] mem)
      (Ex.mk 4 fun f => by crs [u32_of (show 0 < 4294967296 by decide)]) hw) (Rt.left (Rt.ret (Ev.v rfl rfl)))))) ?_
  simp only [Src.make_bitrev_table.rev_table_npairs, result, conv_u32_nat, u32_of hc']

end CLang.GenRed
