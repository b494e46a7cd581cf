import Verif.Proofs.CGenRoot
import Verif.SpecSourceChecks
import Verif.Model.Src.TestNtt16

/-
The functions with which the test programs judge results, as read from the text, decide what they should.
-/

namespace CLang.Checks
open C CLang CLang.Gen

set_option linter.unusedSimpArgs false

variable {P : Prog} {G : Name → Option Cell} {mem : Nat → Obj}

theorem arith_ne (t : Ty) (x y : Int) : arith t x y .ne = .ok (truth (decide (x ≠ y))) := (rfl)

theorem lor_ev {a b : Expr} {st : State} {x y : Bool} (ha : Ev P G a st (truth x)) (hb : x = false → Ev P G b st (truth y)) :
    Ev P G (.lor a b) st (truth (x || y)) := by
  obtain ⟨N, hN⟩ := ha
  cases x with
  | true =>
    refine ⟨N + 1, fun f hf => ?_⟩
    obtain ⟨g, rfl⟩ := Nat.exists_eq_add_of_le' (show 1 ≤ f by omega)
    rw [eval]
    simp only [hN g (by omega), ok_bind, test_truth]
    rfl
  | false =>
    obtain ⟨N', hN'⟩ := hb rfl
    refine ⟨max N N' + 1, fun f hf => ?_⟩
    obtain ⟨g, rfl⟩ := Nat.exists_eq_add_of_le' (show 1 ≤ f by omega)
    rw [eval]
    simp only [hN g (by omega), hN' g (by omega), ok_bind, test_truth]
    rfl

theorem rd_of {a : Array Int} {i : Nat} (h : i < a.size) : ∃ v, a[i]? = some v ∧ rd a i = .ok v :=
  ⟨a[i], by simp [h], by unfold rd; simp [h]⟩

theorem I32_of {a : Array Int} (h : Int32s a) {i : Nat} {v : Int} (hv : a[i]? = some v) : I32 v := by
  have := h i v hv
  unfold I32; omega

/-- A loop that stops with `return false` at the first index that is not good. -/
theorem check_loop {c : Expr} {s : Stmt} {st : Nat → State} {ok : Nat → Prop} {n : Nat}
    (hc : ∀ i, i ≤ n → Ev P G c (st i) (truth (decide (i < n))))
    (hg : ∀ i, i < n → ok i → Ex P G s (st i) (st (i + 1)))
    (hb : ∀ i, i < n → ¬ ok i → Rt P G s (st i) (.int .i32 (0 : Nat)) (st i)) :
    ∀ d i, i + d = n → ((∀ j, i ≤ j → j < n → ok j) ∧ Ex P G (.while c s) (st i) (st n)) ∨
      (∃ j, i ≤ j ∧ j < n ∧ ¬ ok j ∧ Rt P G (.while c s) (st i) (.int .i32 (0 : Nat)) (st j)) := by
  intro d
  induction d with
  | zero =>
    intro i hi
    obtain rfl : i = n := by omega
    have h := hc i (le_refl i)
    rw [decide_eq_false (by omega)] at h
    exact Or.inl ⟨fun j _ _ => by omega, Ex.while_false h⟩
  | succ d ih =>
    intro i hi
    have h := hc i (by omega)
    rw [decide_eq_true (by omega)] at h
    by_cases ho : ok i
    · rcases ih (i + 1) (by omega) with ⟨h1, h2⟩ | ⟨j, h1, h2, h3, h4⟩
      · refine Or.inl ⟨fun j hj hj' => ?_, Ex.while_true h (hg i (by omega) ho) h2⟩
        by_cases e : i = j
        · exact e ▸ ho
        · exact h1 j (by omega) hj'
      · exact Or.inr ⟨j, by omega, h2, h3, Rt.while_later h (hg i (by omega) ho) h4⟩
    · exact Or.inr ⟨i, le_refl i, by omega, ho, Rt.while_now h (hb i (by omega) ho)⟩

/-- The end of such a function: the loop and `return true`. -/
theorem check_end {c : Expr} {s : Stmt} {st₀ : State} {l : Nat → List (Name × Cell)} {ok : Nat → Prop} {n : Nat}
    (h0 : Ex P G (.assign n!"i" (.num 0)) st₀ (E (l 0) mem))
    (hc : ∀ i, i ≤ n → Ev P G c (E (l i) mem) (truth (decide (i < n))))
    (hg : ∀ i, i < n → ok i → Ex P G s (E (l i) mem) (E (l (i + 1)) mem))
    (hb : ∀ i, i < n → ¬ ok i → Rt P G s (E (l i) mem) (.int .i32 (0 : Nat)) (E (l i) mem)) :
    ∃ (b : Bool) (st' : State), Rt P G (.seq (.seq (.assign n!"i" (.num 0)) (.while c s)) (.seq (.ret (.num 1)) .skip)) st₀ (truth b) st' ∧
      st'.mem = mem ∧ (b = true ↔ ∀ i, i < n → ok i) := by
  rcases check_loop (st := fun i => E (l i) mem) hc hg hb n 0 (by omega) with ⟨h1, h2⟩ | ⟨j, _, hj, h3, h4⟩
  · exact ⟨true, E (l n) mem, Rt.seq (Ex.seq h0 h2) (Rt.left (Rt.ret (Ev.mk (v := truth true) 1 fun f => by crs []; rfl))), rfl,
      fun _ i hi => h1 i (by omega) hi, fun _ => rfl⟩
  · exact ⟨false, E (l j) mem, Rt.left (Rt.seq h0 h4), rfl, fun h => by simp at h, fun h => absurd (h j hj) h3⟩

theorem judges_of {g : Name} {vs : List Val} {fn : Fun} {env : Name → Option Cell} {p : Prop} (hg : P.lookup g = some fn)
    (hr : fn.ret = some .bool) (hb : bindParams fn.params vs = .ok env)
    (h : ∀ G, ∃ (b : Bool) (st' : State), Rt P G fn.body ⟨env, mem⟩ (truth b) st' ∧ st'.mem = mem ∧ (b = true ↔ p)) :
    Judges P g vs mem p := by
  intro G
  obtain ⟨b, st', h1, h2, h3⟩ := h G
  have := Returns.mk hg hb h1 (w := .int .bool (if b then 1 else 0)) (by rw [hr]; exact result_bool b)
  rw [h2] at this
  refine ⟨fun hp => ?_, fun hp => ?_⟩
  · rw [h3.2 hp] at this; exact this
  · rw [Bool.eq_false_iff.2 fun e => hp (h3.1 e)] at this; exact this

/-- A loop body that only tests. -/
theorem body_good {c : Expr} {r : Stmt} {l : List (Name × Cell)} {l' : List (Name × Cell)} {b : Stmt}
    (hc : Ev P G c (E l mem) (truth false)) (hb : Ex P G b (E l mem) (E l' mem)) :
    Ex P G (.seq (.seq (.ite c r .skip) .skip) b) (E l mem) (E l' mem) :=
  Ex.seq (st₁ := E l mem) (Ex.seq (st₁ := E l mem) (Ex.ite hc (by rw [if_neg (by simp)]; exact Ex.skip _)) (Ex.skip _)) hb

theorem ret0 (st : State) : Rt P G (.ret (.num 0)) st (.int .i32 (0 : Nat)) st := Rt.ret (Ev.mk 1 fun f => by crs [])

/-! ### equal_arrays -/

abbrev ea (oa ob n i : Nat) : List (Name × Cell) := [(n!"n", uc n), (n!"b", .ptr ob 0 1), (n!"a", .ptr oa 0 1), (n!"i", uc i)]

theorem equal_arrays_of (hP : P.lookup n!"equal_arrays" = some Src.test_ntt16.equal_arrays) : JudgesEqual P := by
  intro mem oa ob a b n t ha hb wa wb hna hnb hn
  refine judges_of hP rfl (env := look [(n!"n", uc n), (n!"b", .ptr ob 0 1), (n!"a", .ptr oa 0 1)]) ?_ fun G => ?_
  · simp only [Src.test_ntt16.equal_arrays, bindParams, ok_bind, conv_u32_nat, u32_of hn, look_nil, setEnv_look, upd, Nat.reduceEqDiff, reduceIte]
  have hcond : ∀ i, i < n → Ev P G (.bin .ne (.idx (.var n!"a") (.var n!"i")) (.idx (.var n!"b") (.var n!"i"))) (E (ea oa ob n i) mem)
      (truth (decide (a[i]? ≠ b[i]?))) := by
    intro i hi
    obtain ⟨v, hv, hv'⟩ := rd_of (show i < a.size by omega)
    obtain ⟨w, hw, hw'⟩ := rd_of (show i < b.size by omega)
    refine Ev.bin (Ev.elem (ob := ⟨.i32, a⟩) (by crs []) (by crs []) ha hv') (Ev.elem (ob := ⟨.i32, b⟩) (by crs []) (by crs []) hb hw') ?_
    rw [binop_ii (by simp) (by simp) (I32_of wa hv) (I32_of wb hw), arith_ne, hv, hw]
    simp only [ne_eq, Option.some.injEq]
  obtain ⟨r, st', h1, h2, h3⟩ := check_end (P := P) (G := G) (mem := mem) (n := n) (l := ea oa ob n) (ok := fun i => a[i]? = b[i]?)
    (st₀ := E [(n!"n", uc n), (n!"b", .ptr ob 0 1), (n!"a", .ptr oa 0 1), (n!"i", .int .u32 none)] mem)
    (c := .bin .lt (.var n!"i") (.var n!"n"))
    (s := .seq (.seq (.ite (.bin .ne (.idx (.var n!"a") (.var n!"i")) (.idx (.var n!"b") (.var n!"i")))
       (.ret (.num 0)) .skip) .skip) (.assign n!"i" (.bin .add (.var n!"i") (.num 1))))
    (Ex.mk 3 fun f => by crs [u32_of (show 0 < 4294967296 by decide)])
    (fun i hi => Ev.mk 3 fun f => by
      crs []
      rw [binop_uu (by simp) (by simp) (by omega) hn, arithU_lt])
    (fun i hi hok => by
      have h := hcond i hi
      rw [decide_eq_false (by simpa using hok)] at h
      refine body_good h (Ex.mk 4 fun f => ?_)
      crs []
      rw [binop_uk (by simp) (by simp) (by omega) (by decide), arith_addU]
      crs [u32_of (show i + 1 < 4294967296 by omega)])
    (fun i hi hok => by
      have h := hcond i hi
      rw [decide_eq_true (by simpa using hok)] at h
      refine Rt.left (Rt.left (Rt.ite h ?_))
      rw [if_pos rfl]
      exact ret0 _)
  exact ⟨r, st', Rt.seq (Ex.mk 1 fun f => by crs []) h1, h2, h3⟩

/-! ### power -/

abbrev pc (x k y : Nat) : List (Name × Cell) := [(n!"k", uc k), (n!"x", ic (x : Nat)), (n!"y", ic (y : Nat))]

theorem I32_nat {x : Nat} (h : x < 2147483648) : I32 (x : Int) := by unfold I32; omega

theorem mulmod_ev {e e' : Expr} {st : State} {x y : Nat} (he : Ev P G e st (.int .i32 (x : Nat))) (he' : Ev P G e' st (.int .i32 (y : Nat)))
    (hx : x < 2147483648) (hy : y < 2147483648) (h : x * y < 2147483648) :
    Ev P G (.bin .rem (.bin .mul e e') (.num 12289)) st (.int .i32 (x * y % 12289 : Nat)) := by
  refine Ev.bin (y := .int .i32 (12289 : Nat)) (Ev.bin (v := .int .i32 (x * y : Nat)) he he' ?_) (Ev.mk 1 fun f => by crs []) ?_
  · rw [binop_ii (by simp) (by simp) (I32_nat hx) (I32_nat hy), arith_mul32, ← Int.natCast_mul, i32_of (I32_nat h)]
    rfl
  · rw [binop_rem32 (I32_nat h) (I32_nat (by decide)) (by decide)]
    rfl

theorem mul_lt31 {x y : Nat} (hx : x ≤ 46340) (hy : y ≤ 46340) : x * y < 2147483648 :=
  Nat.lt_of_le_of_lt (Nat.mul_le_mul hx hy) (by decide)

theorem toI32_nat {x : Nat} (h : x < 2147483648) : toI32 (x : Int) = x := toI32_of (I32_nat h)

theorem mod_le (x : Nat) : x % 12289 ≤ 46340 := by omega

abbrev powLoop : Stmt := .while (.bin .ne (.var n!"k") (.num 0))
    (.seq (.ite (.bin .ne (.bin .and (.var n!"k") (.num 1)) (.num 0))
      (.seq (.assign n!"y" (.bin .rem (.bin .mul (.var n!"y") (.var n!"x")) (.num 12289)))
      .skip)
      .skip)
    (.seq (.assign n!"k" (.bin .shr (.var n!"k") (.num 1)))
    (.seq (.assign n!"x" (.bin .rem (.bin .mul (.var n!"x") (.var n!"x")) (.num 12289)))
    .skip)))

theorem pow_half (x k y : Nat) : y * (x * x % 12289) ^ (k / 2) % 12289 = y * (x * x) ^ (k / 2) % 12289 := by
  rw [Nat.mul_mod, ← Nat.pow_mod, ← Nat.mul_mod]

theorem pow_loop : ∀ k x y : Nat, k < 4294967296 → x ≤ 46340 → y ≤ 46340 → y % 12289 = y →
    ∃ x', Ex P G powLoop (E (pc x k y) mem) (E (pc x' 0 (y * x ^ k % 12289)) mem) := by
  intro k
  induction k using Nat.strong_induction_on with
  | _ k ih =>
    intro x y hk hx hy hym
    have hc : Ev P G (.bin .ne (.var n!"k") (.num 0)) (E (pc x k y) mem) (truth (decide (k ≠ 0))) := by
      refine Ev.mk 3 fun f => ?_
      crs []
      rw [binop_uk (by simp) (by simp) hk (by decide), arithU_ne]
    by_cases h0 : k = 0
    · subst h0
      rw [decide_eq_false (by simp)] at hc
      refine ⟨x, ?_⟩
      rw [Nat.pow_zero, Nat.mul_one, hym]
      exact Ex.while_false hc
    · rw [decide_eq_true h0] at hc
      have hc1 : Ev P G (.bin .ne (.bin .and (.var n!"k") (.num 1)) (.num 0)) (E (pc x k y) mem) (truth (decide (k &&& 1 ≠ 0))) := by
        refine Ev.mk 4 fun f => ?_
        crs []
        rw [binop_uk (by simp) (by simp) hk (by decide), arith_andU hk (by decide)]
        crs []
        rw [binop_uk (by simp) (by simp) (and_one_lt k) (by decide), arithU_ne]
      have hrest : ∀ y', Ex P G (.seq (.assign n!"k" (.bin .shr (.var n!"k") (.num 1)))
          (.seq (.assign n!"x" (.bin .rem (.bin .mul (.var n!"x") (.var n!"x")) (.num 12289))) .skip)) (E (pc x k y') mem)
          (E (pc (x * x % 12289) (k / 2) y') mem) := by
        intro y'
        refine Ex.seq (st₁ := E (pc x (k / 2) y') mem) (Ex.mk 5 fun f => ?_) (Ex.seq (st₁ := E (pc (x * x % 12289) (k / 2) y') mem) ?_ (Ex.skip _))
        · crs []
          rw [binop_shrk hk]
          crs [u32_of (half_lt hk)]
        · have h := Ex.asg (P := P) (G := G) (l := pc x (k / 2) y') (mem := mem) (x := n!"x") (t := .i32) (o := some (x : Int))
            (mulmod_ev (e := .var n!"x") (e' := .var n!"x") (x := x) (y := x) (Ev.mk 1 fun f => by crs []) (Ev.mk 1 fun f => by crs [])
              (by omega) (by omega) (mul_lt31 hx hx)) (by crs []) (toI32_nat (by omega))
          simpa only [crun, Nat.reduceEqDiff, reduceIte] using h
      by_cases hk1 : k &&& 1 ≠ 0
      · rw [decide_eq_true hk1] at hc1
        have hkm : k % 2 = 1 := by rw [Nat.and_one_is_mod] at hk1; omega
        obtain ⟨x', h⟩ := ih (k / 2) (by omega) (x * x % 12289) (y * x % 12289) (by omega) (mod_le _) (mod_le _) (Nat.mod_mod _ _)
        refine ⟨x', Ex.while_true hc (Ex.seq (st₁ := E (pc x k (y * x % 12289)) mem) (Ex.ite hc1 ?_) (hrest _)) ?_⟩
        · rw [if_pos rfl]
          refine Ex.seq (st₁ := E (pc x k (y * x % 12289)) mem) ?_ (Ex.skip _)
          have h := Ex.asg (P := P) (G := G) (l := pc x k y) (mem := mem) (x := n!"y") (t := .i32) (o := some (y : Int))
            (mulmod_ev (e := .var n!"y") (e' := .var n!"x") (x := y) (y := x) (Ev.mk 1 fun f => by crs []) (Ev.mk 1 fun f => by crs [])
              (by omega) (by omega) (mul_lt31 hy hx)) (by crs []) (toI32_nat (by omega))
          simpa only [crun, Nat.reduceEqDiff, reduceIte] using h
        · have e : y * x % 12289 * (x * x % 12289) ^ (k / 2) % 12289 = y * x ^ k % 12289 := by
            rw [pow_half, Nat.mul_mod, Nat.mod_mod, ← Nat.mul_mod, Nat.mul_assoc]
            congr 2
            conv_rhs => rw [show k = 2 * (k / 2) + 1 by omega, Nat.pow_succ, Nat.pow_mul, Nat.pow_two]
            rw [Nat.mul_comm]
          rw [← e]
          exact h
      · rw [decide_eq_false hk1] at hc1
        have hkm : k % 2 = 0 := by rw [Nat.and_one_is_mod] at hk1; omega
        obtain ⟨x', h⟩ := ih (k / 2) (by omega) (x * x % 12289) y (by omega) (mod_le _) hy hym
        refine ⟨x', Ex.while_true hc (Ex.seq (st₁ := E (pc x k y) mem) (Ex.ite hc1 ?_) (hrest _)) ?_⟩
        · rw [if_neg (by simp)]; exact Ex.skip _
        · have e : y * (x * x % 12289) ^ (k / 2) % 12289 = y * x ^ k % 12289 := by
            rw [pow_half]
            conv_rhs => rw [show k = 2 * (k / 2) by omega, Nat.pow_mul, Nat.pow_two]
          rw [← e]
          exact h

theorem power_rt {x k : Nat} (hx : x ≤ 46340) (hk : k < 4294967296) :
    ∃ st', Rt P G Src.test_ntt16.power.body (E [(n!"k", uc k), (n!"x", ic (x : Nat))] mem) (.int .i32 (x ^ k % 12289 : Nat)) st' ∧ st'.mem = mem := by
  obtain ⟨x', h⟩ := pow_loop (P := P) (G := G) (mem := mem) k x 1 hk hx (by decide) (by decide)
  rw [Nat.one_mul] at h
  refine ⟨_, Rt.seq (st₁ := E [(n!"k", uc k), (n!"x", ic (x : Nat)), (n!"y", .int .i32 none)] mem) (Ex.mk 1 fun f => by crs [])
    (Rt.seq (st₁ := E (pc x k 1) mem) (Ex.mk 3 fun f => ?_) (Rt.seq h (Rt.left (Rt.ret (Ev.mk 1 fun f => by crs []))))), rfl⟩
  crs [conv_i32]
  rfl

theorem power_bind {t t' : Ty} {x k : Nat} (hx : x ≤ 46340) (hk : k < 4294967296) :
    bindParams Src.test_ntt16.power.params [.int t (x : Nat), .int t' (k : Nat)] = .ok (look [(n!"k", uc k), (n!"x", ic (x : Nat))]) := by
  simp only [Src.test_ntt16.power, bindParams, ok_bind, conv_u32_nat, u32_of hk, conv_i32, toI32_nat (show x < 2147483648 by omega),
    look_nil, setEnv_look, upd, Nat.reduceEqDiff, reduceIte]

theorem power_result (x k : Nat) : result Src.test_ntt16.power.ret (some (.int .i32 (x ^ k % 12289 : Nat))) = .ok (.int .i32 (x ^ k % 12289 : Nat)) := by
  simp only [Src.test_ntt16.power, result, conv_i32, toI32_nat (show x ^ k % 12289 < 2147483648 by omega)]

theorem power_computes (hP : P.lookup n!"power" = some Src.test_ntt16.power) {x k : Nat} {t t' : Ty} (hx : x ≤ 46340) (hk : k < 4294967296) :
    Computes P n!"power" [.int t (x : Nat), .int t' (k : Nat)] .i32 (x ^ k % 12289 : Nat) := by
  intro G mem
  obtain ⟨st', h, hm⟩ := power_rt (P := P) (G := G) (mem := mem) hx hk
  have := Returns.mk hP (power_bind (t := t) (t' := t') hx hk) h (power_result x k)
  rwa [hm] at this

/-! ### check_ntt_simple -/

abbrev cs (o n k w x y i : Nat) : List (Name × Cell) :=
  [(n!"omega", ic (w : Nat)), (n!"k", uc k), (n!"n", uc n), (n!"a", .ptr o 0 1), (n!"i", uc i), (n!"x", ic (x : Nat)), (n!"y", ic (y : Nat))]

theorem check_ntt_simple_of (hP : P.lookup n!"power" = some Src.test_ntt16.power)
    (hC : P.lookup n!"check_ntt_simple" = some Src.test_ntt16.check_ntt_simple)
    {o n k w : Nat} {a : Array Int} {t t' t'' : Ty} (hm : mem o = ⟨.i32, a⟩) (wa : Int32s a) (hna : n ≤ a.size) (hn : n < 4294967296)
    (hk : k < 4294967296) (hw : w ≤ 46340) :
    Judges P n!"check_ntt_simple" [.ptr o 0 1, .int t (n : Nat), .int t' (k : Nat), .int t'' (w : Nat)] mem
      (∀ i : Nat, i < n → a[i]? = some ((w ^ (k * i) % 12289 : Nat) : Int)) := by
  refine judges_of hC rfl (env := look [(n!"omega", ic (w : Nat)), (n!"k", uc k), (n!"n", uc n), (n!"a", .ptr o 0 1)]) ?_ fun G => ?_
  · simp only [Src.test_ntt16.check_ntt_simple, bindParams, ok_bind, conv_u32_nat, u32_of hn, u32_of hk, conv_i32,
      toI32_nat (show w < 2147483648 by omega), look_nil, setEnv_look, upd, Nat.reduceEqDiff, reduceIte]
  obtain ⟨y, hy⟩ : ∃ y, y = w ^ k % 12289 := ⟨_, rfl⟩
  have hy' : y < 12289 := by omega
  have hxi : ∀ i, w ^ (k * (i + 1)) % 12289 = w ^ (k * i) % 12289 * y % 12289 := fun i => by
    rw [hy, ← Nat.mul_mod, ← Nat.pow_add]; rfl
  have hx0 : w ^ (k * 0) % 12289 = 1 := by simp
  have hxl : ∀ i, w ^ (k * i) % 12289 < 12289 := fun i => Nat.mod_lt _ (by decide)
  generalize hX : (fun i => w ^ (k * i) % 12289) = X at *
  have hX' : ∀ i, w ^ (k * i) % 12289 = X i := fun i => congrFun hX i
  simp only [hX'] at hxi hx0 hxl ⊢
  have hcond : ∀ i, i < n → Ev P G (.bin .ne (.idx (.var n!"a") (.var n!"i")) (.var n!"x")) (E (cs o n k w (X i) y i) mem)
      (truth (decide (a[i]? ≠ some ((X i : Nat) : Int)))) := by
    intro i hi
    obtain ⟨v, hv, hv'⟩ := rd_of (show i < a.size by omega)
    refine Ev.bin (y := .int .i32 (X i : Nat)) (Ev.elem (ob := ⟨.i32, a⟩) (by crs []) (by crs []) hm hv') (Ev.mk 1 fun f => by crs []) ?_
    rw [binop_ii (by simp) (by simp) (I32_of wa hv) (I32_nat (by have := hxl i; omega)), arith_ne, hv]
    simp only [ne_eq, Option.some.injEq]
  obtain ⟨st', hp, hpm⟩ := power_rt (P := P) (G := G) (mem := mem) hw hk
  obtain ⟨r, st', h1, h2, h3⟩ := check_end (P := P) (G := G) (mem := mem) (n := n) (l := fun i => cs o n k w (X i) y i)
    (ok := fun i => a[i]? = some ((X i : Nat) : Int))
    (st₀ := E [(n!"omega", ic (w : Nat)), (n!"k", uc k), (n!"n", uc n), (n!"a", .ptr o 0 1), (n!"i", .int .u32 none), (n!"x", ic (X 0 : Nat)),
      (n!"y", ic (y : Nat))] mem)
    (c := .bin .lt (.var n!"i") (.var n!"n"))
    (s := .seq (.seq (.ite (.bin .ne (.idx (.var n!"a") (.var n!"i")) (.var n!"x")) (.ret (.num 0)) .skip)
     (.seq (.assign n!"x" (.bin .rem (.bin .mul (.var n!"x") (.var n!"y")) (.num 12289))) .skip))
    (.assign n!"i" (.bin .add (.var n!"i") (.num 1))))
    (Ex.mk 3 fun f => by crs [u32_of (show 0 < 4294967296 by decide)])
    (fun i hi => Ev.mk 3 fun f => by
      crs []
      rw [binop_uu (by simp) (by simp) (by omega) hn, arithU_lt])
    (fun i hi hok => by
      have h := hcond i hi
      rw [decide_eq_false (by simpa using hok)] at h
      refine Ex.seq (st₁ := E (cs o n k w (X (i + 1)) y i) mem) (Ex.seq (st₁ := E (cs o n k w (X i) y i) mem)
        (Ex.ite h (by rw [if_neg (by simp)]; exact Ex.skip _)) (Ex.seq (st₁ := E (cs o n k w (X (i + 1)) y i) mem) ?_ (Ex.skip _))) (Ex.mk 4 fun f => ?_)
      · have h := Ex.asg (P := P) (G := G) (l := cs o n k w (X i) y i) (mem := mem) (x := n!"x") (t := .i32) (o := some (X i : Int))
            (mulmod_ev (e := .var n!"x") (e' := .var n!"y") (x := X i) (y := y) (Ev.mk 1 fun f => by crs []) (Ev.mk 1 fun f => by crs [])
              (by have := hxl i; omega) (by omega) (mul_lt31 (by have := hxl i; omega) (by omega))) (by crs []) (toI32_nat (by omega))
        rw [← hxi] at h
        simpa only [crun, Nat.reduceEqDiff, reduceIte] using h
      · crs []
        rw [binop_uk (by simp) (by simp) (by omega) (by decide), arith_addU]
        crs [u32_of (show i + 1 < 4294967296 by omega)])
    (fun i hi hok => by
      have h := hcond i hi
      rw [decide_eq_true (by simpa using hok)] at h
      refine Rt.left (Rt.left (Rt.ite h ?_))
      rw [if_pos rfl]
      exact ret0 _)
  refine ⟨r, st', Rt.seq (st₁ := E [(n!"omega", ic (w : Nat)), (n!"k", uc k), (n!"n", uc n), (n!"a", .ptr o 0 1), (n!"i", .int .u32 none)] mem)
    (Ex.mk 1 fun f => by crs []) (Rt.seq (st₁ := E [(n!"omega", ic (w : Nat)), (n!"k", uc k), (n!"n", uc n), (n!"a", .ptr o 0 1),
      (n!"i", .int .u32 none), (n!"x", .int .i32 none), (n!"y", .int .i32 none)] mem) (Ex.mk 2 fun f => by crs [])
    (Rt.seq (st₁ := E [(n!"omega", ic (w : Nat)), (n!"k", uc k), (n!"n", uc n), (n!"a", .ptr o 0 1),
      (n!"i", .int .u32 none), (n!"x", .int .i32 none), (n!"y", ic (y : Nat))] mem) ?_
    (Rt.seq (Ex.mk 3 fun f => ?_) h1))), h2, h3⟩
  · have hv : Ev P G (.call n!"power" (.cons (.var n!"omega") (.cons (.var n!"k") .nil))) (E [(n!"omega", ic (w : Nat)), (n!"k", uc k), (n!"n", uc n), (n!"a", .ptr o 0 1),
      (n!"i", .int .u32 none), (n!"x", .int .i32 none), (n!"y", .int .i32 none)] mem) (.int .i32 (w ^ k % 12289 : Nat)) :=
      Ev.callv (EvA.cons (Ev.mk (v := .int .i32 (w : Nat)) 1 fun f => by crs []) (EvA.cons (Ev.mk (v := .int .u32 (k : Nat)) 1 fun f => by crs []) (EvA.nil _)))
        hP (by decide) (power_bind hw hk) hp (power_result w k)
    have h := Ex.asg (x := n!"y") (t := .i32) (o := none) hv (by crs []) (toI32_nat (by omega))
    rw [← hy] at h
    simpa only [crun, Nat.reduceEqDiff, reduceIte] using h
  · crs [conv_i32, hx0]
    rfl

/-! ### check_ntt_ntt_simple and equal_simple_poly -/

/-- The test of the two functions: element `i` is not as it should be. -/
abbrev bad (a v : Name) : Expr :=
  .lor (.land (.bin .eq (.var n!"i") (.var n!"j")) (.bin .ne (.idx (.var a) (.var n!"i")) (.var v)))
    (.land (.bin .ne (.var n!"i") (.var n!"j")) (.bin .ne (.idx (.var a) (.var n!"i")) (.num 0)))

theorem bad_ev {an vn : Name} {l : List (Name × Cell)} {o i j : Nat} {a : Array Int} {v w : Int} {val : Val}
    (hi : look l n!"i" = some (uc i)) (hj : look l n!"j" = some (uc j)) (ha : look l an = some (.ptr o 0 1))
    (hi' : i < 4294967296) (hj' : j < 4294967296) (hm : mem o = ⟨.i32, a⟩) (hv : rd a i = .ok v) (wv : I32 v)
    (hval : Ev P G (.var vn) (E l mem) val) (hne : binop .ne (.int .i32 v) val = .ok (truth (decide (v ≠ w)))) :
    Ev P G (bad an vn) (E l mem) (truth (decide (v ≠ if i = j then w else 0))) := by
  have ei : Ev P G (.var n!"i") (E l mem) (.int .u32 (i : Nat)) := Ev.v hi rfl
  have ej : Ev P G (.var n!"j") (E l mem) (.int .u32 (j : Nat)) := Ev.v hj rfl
  have ev : Ev P G (.idx (.var an) (.var n!"i")) (E l mem) (.int .i32 v) := Ev.elem (ob := ⟨.i32, a⟩) ha hi hm hv
  have e1 : Ev P G (.bin .eq (.var n!"i") (.var n!"j")) (E l mem) (truth (decide (i = j))) :=
    Ev.bin ei ej (by rw [binop_uu (by simp) (by simp) hi' hj', arithU_eq])
  have e2 : Ev P G (.bin .ne (.var n!"i") (.var n!"j")) (E l mem) (truth (decide (i ≠ j))) :=
    Ev.bin ei ej (by rw [binop_uu (by simp) (by simp) hi' hj', arithU_ne])
  have e3 : Ev P G (.bin .ne (.idx (.var an) (.var n!"i")) (.var vn)) (E l mem) (truth (decide (v ≠ w))) := Ev.bin ev hval hne
  have e4 : Ev P G (.bin .ne (.idx (.var an) (.var n!"i")) (.num 0)) (E l mem) (truth (decide (v ≠ 0))) :=
    Ev.bin ev (Ev.mk (v := .int .i32 (0 : Nat)) 1 fun f => by crs [])
      (by rw [binop_ii (by simp) (by simp) wv (I32_nat (by decide)), arith_ne]; rfl)
  have h := lor_ev (Ev.land e1 fun _ => e3) fun _ => Ev.land e2 fun _ => e4
  have e : (decide (i = j) && decide (v ≠ w) || decide (i ≠ j) && decide (v ≠ 0)) = decide (v ≠ if i = j then w else 0) := by
    by_cases hij : i = j <;> simp [hij]
  rwa [e] at h

abbrev badLoop (an vn : Name) : Stmt :=
  .seq (.seq (.ite (bad an vn) (.seq (.ret (.num 0)) .skip) .skip) .skip) (.assign n!"i" (.bin .add (.var n!"i") (.num 1)))

theorem ne_u32 {v : Int} {n : Nat} (hv : I32 v) (hn : n < 2147483648) :
    binop .ne (.int .i32 v) (.int .u32 (n : Int)) = .ok (truth (decide (v ≠ n))) := by
  simp only [binop, common, promote, arith_ne, conv_u32_nat, u32_of (show n < 4294967296 by omega)]
  have h : conv .u32 v = v % 4294967296 := rfl
  unfold I32 at hv
  have e : (v % 4294967296 ≠ (n : Int)) ↔ v ≠ n := by omega
  rw [h, decide_eq_decide.2 e]

abbrev cn (o n k j i : Nat) : List (Name × Cell) := [(n!"k", uc k), (n!"n", uc n), (n!"a", .ptr o 0 1), (n!"i", uc i), (n!"j", uc j)]

theorem check_ntt_ntt_simple_of (hC : P.lookup n!"check_ntt_ntt_simple" = some Src.test_ntt16.check_ntt_ntt_simple)
    {o n k : Nat} {a : Array Int} {t t' : Ty} (hm : mem o = ⟨.i32, a⟩) (wa : Int32s a) (hna : n ≤ a.size) (hn : n < 2147483648) (hk : k < n) :
    Judges P n!"check_ntt_ntt_simple" [.ptr o 0 1, .int t (n : Nat), .int t' (k : Nat)] mem
      (∀ i : Nat, i < n → a[i]? = some (if (i + k) % n = 0 then (n : Int) else 0)) := by
  have hn32 : n < 4294967296 := by omega
  have hk32 : k < 4294967296 := by omega
  refine judges_of hC rfl (env := look [(n!"k", uc k), (n!"n", uc n), (n!"a", .ptr o 0 1)]) ?_ fun G => ?_
  · simp only [Src.test_ntt16.check_ntt_ntt_simple, bindParams, ok_bind, conv_u32_nat, u32_of hn32, u32_of hk32,
      look_nil, setEnv_look, upd, Nat.reduceEqDiff, reduceIte]
  obtain ⟨j, hj⟩ : ∃ j, j = if k = 0 then 0 else n - k := ⟨_, rfl⟩
  have hj32 : j < 4294967296 := by split at hj <;> omega
  have hij : ∀ i, i < n → ((i + k) % n = 0 ↔ i = j) := by
    intro i hi
    by_cases h : i + k < n
    · rw [Nat.mod_eq_of_lt h]; split at hj <;> omega
    · rw [Nat.mod_eq_sub_mod (by omega), Nat.mod_eq_of_lt (by omega)]; split at hj <;> omega
  have hcond : ∀ i, i < n → Ev P G (bad n!"a" n!"n") (E (cn o n k j i) mem)
      (truth (decide (a[i]? ≠ some (if (i + k) % n = 0 then (n : Int) else 0)))) := by
    intro i hi
    obtain ⟨v, hv, hv'⟩ := rd_of (show i < a.size by omega)
    have h := bad_ev (P := P) (G := G) (mem := mem) (an := n!"a") (vn := n!"n") (l := cn o n k j i) (o := o) (i := i) (j := j) (v := v) (w := n)
      (val := .int .u32 (n : Nat)) (by crs []) (by crs []) (by crs []) (by omega) hj32 hm hv' (I32_of wa hv) (Ev.v (by crs []; rfl) rfl) (ne_u32 (I32_of wa hv) hn)
    simp only [hij i hi, hv, ne_eq, Option.some.injEq] at h ⊢
    exact h
  obtain ⟨r, st', h1, h2, h3⟩ := check_end (P := P) (G := G) (mem := mem) (n := n) (l := fun i => cn o n k j i)
    (ok := fun i => a[i]? = some (if (i + k) % n = 0 then (n : Int) else 0))
    (st₀ := E [(n!"k", uc k), (n!"n", uc n), (n!"a", .ptr o 0 1), (n!"i", .int .u32 none), (n!"j", uc j)] mem)
    (c := .bin .lt (.var n!"i") (.var n!"n")) (s := badLoop n!"a" n!"n")
    (Ex.mk 3 fun f => by crs [u32_of (show 0 < 4294967296 by decide)])
    (fun i hi => Ev.mk 3 fun f => by
      crs []
      rw [binop_uu (by simp) (by simp) (by omega) hn32, arithU_lt])
    (fun i hi hok => by
      have h := hcond i hi
      rw [decide_eq_false (by simpa using hok)] at h
      refine body_good h (Ex.mk 4 fun f => ?_)
      crs []
      rw [binop_uk (by simp) (by simp) (by omega) (by decide), arith_addU]
      crs [u32_of (show i + 1 < 4294967296 by omega)])
    (fun i hi hok => by
      have h := hcond i hi
      rw [decide_eq_true (by simpa using hok)] at h
      refine Rt.left (Rt.left (Rt.ite h ?_))
      rw [if_pos rfl]
      exact Rt.left (ret0 _))
  refine ⟨r, st', Rt.seq (st₁ := E [(n!"k", uc k), (n!"n", uc n), (n!"a", .ptr o 0 1), (n!"i", .int .u32 none), (n!"j", .int .u32 none)] mem)
    (Ex.mk 2 fun f => by crs []) (Rt.seq (Ex.asserts (Ev.mk 3 fun f => ?_)) (Rt.seq (Ex.mk 6 fun f => ?_) h1)), h2, h3⟩
  · crs []
    rw [binop_uu (by simp) (by simp) hk32 hn32, arithU_lt, decide_eq_true hk]
  · crs []
    rw [binop_uk (by simp) (by simp) hk32 (by decide), arithU_eq]
    by_cases h0 : k = 0
    · rw [if_pos h0] at hj
      crs [h0, decide_true, test_truth, hj, u32_of (show 0 < 4294967296 by decide)]
    · rw [if_neg h0] at hj
      crs [h0, decide_false, test_truth, Bool.false_eq_true]
      rw [binop_uu (by simp) (by simp) hn32 hk32, arith_subU (by omega), ← hj]
      crs [u32_of hj32]

abbrev ep (o n m j i : Nat) (w : Int) : List (Name × Cell) :=
  [(n!"m", uc m), (n!"n", uc n), (n!"c", .ptr o 0 1), (n!"i", uc i), (n!"j", uc j), (n!"val", ic w)]

theorem equal_simple_poly_of (hC : P.lookup n!"equal_simple_poly" = some Src.test_ntt16.equal_simple_poly)
    {o n m : Nat} {a : Array Int} {t t' : Ty} (hm : mem o = ⟨.i32, a⟩) (wa : Int32s a) (hna : n ≤ a.size) (hn : 2 * n < 4294967296) (hk : m < 2 * n) :
    Judges P n!"equal_simple_poly" [.ptr o 0 1, .int t (n : Nat), .int t' (m : Nat)] mem
      (∀ i : Nat, i < n → a[i]? = some (if i = m then 1 else if i + n = m then 12288 else 0)) := by
  have hn32 : n < 4294967296 := by omega
  have hk32 : m < 4294967296 := by omega
  refine judges_of hC rfl (env := look [(n!"m", uc m), (n!"n", uc n), (n!"c", .ptr o 0 1)]) ?_ fun G => ?_
  · simp only [Src.test_ntt16.equal_simple_poly, bindParams, ok_bind, conv_u32_nat, u32_of hn32, u32_of hk32,
      look_nil, setEnv_look, upd, Nat.reduceEqDiff, reduceIte]
  obtain ⟨j, hj⟩ : ∃ j, j = if n ≤ m then m - n else m := ⟨_, rfl⟩
  obtain ⟨w, hw⟩ : ∃ w : Int, w = if n ≤ m then 12288 else 1 := ⟨_, rfl⟩
  have hj32 : j < 4294967296 := by split at hj <;> omega
  have hw32 : I32 w := by unfold I32; split at hw <;> omega
  have hij : ∀ i, i < n → (if i = m then (1 : Int) else if i + n = m then 12288 else 0) = if i = j then w else 0 := by
    intro i hi
    by_cases h : n ≤ m
    · rw [if_pos h] at hj hw
      rw [if_neg (by omega), hw]
      by_cases h' : i = j
      · rw [if_pos h', if_pos (by omega)]
      · rw [if_neg h', if_neg (by omega)]
    · rw [if_neg h] at hj hw
      rw [hj, hw]
      by_cases h' : i = m
      · rw [if_pos h', if_pos h']
      · rw [if_neg h', if_neg h', if_neg (by omega)]
  have hcond : ∀ i, i < n → Ev P G (bad n!"c" n!"val") (E (ep o n m j i w) mem)
      (truth (decide (a[i]? ≠ some (if i = m then (1 : Int) else if i + n = m then 12288 else 0)))) := by
    intro i hi
    obtain ⟨v, hv, hv'⟩ := rd_of (show i < a.size by omega)
    have h := bad_ev (P := P) (G := G) (mem := mem) (an := n!"c") (vn := n!"val") (l := ep o n m j i w) (o := o) (i := i) (j := j) (v := v) (w := w)
      (val := .int .i32 w) (by crs []) (by crs []) (by crs []) (by omega) hj32 hm hv' (I32_of wa hv) (Ev.v (by crs []; rfl) rfl)
      (by rw [binop_ii (by simp) (by simp) (I32_of wa hv) hw32, arith_ne])
    simp only [hij i hi, hv, ne_eq, Option.some.injEq] at h ⊢
    exact h
  obtain ⟨r, st', h1, h2, h3⟩ := check_end (P := P) (G := G) (mem := mem) (n := n) (l := fun i => ep o n m j i w)
    (ok := fun i => a[i]? = some (if i = m then (1 : Int) else if i + n = m then 12288 else 0))
    (st₀ := E [(n!"m", uc m), (n!"n", uc n), (n!"c", .ptr o 0 1), (n!"i", .int .u32 none), (n!"j", uc j), (n!"val", ic w)] mem)
    (c := .bin .lt (.var n!"i") (.var n!"n")) (s := badLoop n!"c" n!"val")
    (Ex.mk 3 fun f => by crs [u32_of (show 0 < 4294967296 by decide)])
    (fun i hi => Ev.mk 3 fun f => by
      crs []
      rw [binop_uu (by simp) (by simp) (by omega) hn32, arithU_lt])
    (fun i hi hok => by
      have h := hcond i hi
      rw [decide_eq_false (by simpa only [ne_eq, not_not] using hok)] at h
      refine body_good h (Ex.mk 4 fun f => ?_)
      crs []
      rw [binop_uk (by simp) (by simp) (by omega) (by decide), arith_addU]
      crs [u32_of (show i + 1 < 4294967296 by omega)])
    (fun i hi hok => by
      have h := hcond i hi
      rw [decide_eq_true (by simpa only [ne_eq] using hok)] at h
      refine Rt.left (Rt.left (Rt.ite h ?_))
      rw [if_pos rfl]
      exact Rt.left (ret0 _))
  refine ⟨r, st', Rt.seq (st₁ := E [(n!"m", uc m), (n!"n", uc n), (n!"c", .ptr o 0 1), (n!"i", .int .u32 none), (n!"j", .int .u32 none)] mem)
    (Ex.mk 2 fun f => by crs []) (Rt.seq (st₁ := E [(n!"m", uc m), (n!"n", uc n), (n!"c", .ptr o 0 1), (n!"i", .int .u32 none), (n!"j", .int .u32 none), (n!"val", .int .i32 none)] mem)
    (Ex.mk 1 fun f => by crs []) (Rt.seq (Ex.asserts (Ev.mk 4 fun f => ?_)) (Rt.seq (Ex.ite (v := decide (n ≤ m)) (Ev.mk 3 fun f => ?_) ?_) h1))), h2, h3⟩
  · crs []
    rw [binop_ku (by simp) (by simp) (by decide) hn32, arith_mulU, u32_of hn]
    crs []
    rw [binop_uu (by simp) (by simp) hk32 hn, arithU_lt, decide_eq_true hk]
  · crs []
    rw [binop_uu (by simp) (by simp) hk32 hn32, arithU_ge]
  · by_cases h : n ≤ m
    · rw [if_pos h] at hj hw
      rw [decide_eq_true h, if_pos rfl]
      refine Ex.mk 6 fun f => ?_
      crs []
      rw [binop_uu (by simp) (by simp) hk32 hn32, arith_subU h, ← hj]
      crs [u32_of hj32]
      rw [hw]
      rfl
    · rw [if_neg h] at hj hw
      rw [decide_eq_false h, if_neg (by simp)]
      refine Ex.mk 6 fun f => ?_
      crs [hj, hw, u32_of hk32]
      rfl

/-! ### simple_poly -/

abbrev sp (o n k i : Nat) : List (Name × Cell) := [(n!"n", uc n), (n!"k", uc k), (n!"a", .ptr o 0 1), (n!"i", uc i)]

theorem store_i32 {l : List (Name × Cell)} {o : Nat} {a : Array Int} {t : Ty} {i v : Nat} (hi : i < a.size) (hv : v < 2147483648) :
    storeAt (E l (setMem mem o ⟨.i32, a⟩)) (.ptr o 0 1) (.int t (i : Int)) (.int .i32 (v : Int)) =
      .ok (E l (setMem mem o ⟨.i32, a.setIfInBounds i v⟩)) := by
  simp only [storeAt_nat, setMem_self, conv_i32, toI32_nat hv]
  unfold wr
  rw [if_pos hi, ok_bind, setMem_setMem]

theorem zero_loop {o n k : Nat} (hn : n < 4294967296) : ∀ (d i : Nat) (a : Array Int), i + d = n → n ≤ a.size →
    ∃ a' : Array Int, a'.size = a.size ∧ (∀ j : Nat, a'[j]? = if i ≤ j ∧ j < n then some 0 else a[j]?) ∧
      Ex P G (.while (.bin .lt (.var n!"i") (.var n!"n")) (.seq (.seq (.store (.var n!"a") (.var n!"i") (.num 0)) .skip)
        (.assign n!"i" (.bin .add (.var n!"i") (.num 1))))) (E (sp o n k i) (setMem mem o ⟨.i32, a⟩)) (E (sp o n k n) (setMem mem o ⟨.i32, a'⟩)) := by
  intro d
  induction d with
  | zero =>
    intro i a hi ha
    obtain rfl : i = n := by omega
    refine ⟨a, rfl, fun j => by rw [if_neg (by omega)], Ex.while_false (Ev.mk 3 fun f => ?_)⟩
    crs []
    rw [binop_uu (by simp) (by simp) (by omega) hn, arithU_lt, decide_eq_false (by omega)]
  | succ d ih =>
    intro i a hi ha
    obtain ⟨a', h1, h2, h3⟩ := ih (i + 1) (a.setIfInBounds i 0) (by omega) (by simpa using ha)
    refine ⟨a', by simpa using h1, fun j => ?_, Ex.while_true (st₁ := E (sp o n k (i + 1)) (setMem mem o ⟨.i32, a.setIfInBounds i 0⟩))
      (Ev.mk 3 fun f => ?_) (Ex.mk 7 fun f => ?_) h3⟩
    · rw [h2, Array.getElem?_setIfInBounds]
      by_cases e : i = j
      · subst e
        rw [if_neg (by omega), if_pos rfl, if_pos (by omega), if_pos (by omega)]
      · rw [if_neg e]
        by_cases h : i + 1 ≤ j ∧ j < n
        · rw [if_pos h, if_pos (by omega)]
        · rw [if_neg h, if_neg (by omega)]
    · crs []
      rw [binop_uu (by simp) (by simp) (by omega) hn, arithU_lt, decide_eq_true (by omega)]
    · crs []
      rw [store_i32 (by omega) (by decide)]
      crs []
      rw [binop_uk (by simp) (by simp) (by omega) (by decide), arith_addU]
      crs [u32_of (show i + 1 < 4294967296 by omega)]
      rfl

theorem simple_poly_of (hC : P.lookup n!"simple_poly" = some Src.test_ntt16.simple_poly)
    {o n k : Nat} {a : Array Int} {t t' : Ty} (hm : mem o = ⟨.i32, a⟩) (hk : k < n) (hna : n ≤ a.size) (hn : n < 4294967296) :
    ∃ a' : Array Int, a'.size = a.size ∧ (∀ i : Nat, i < n → a'[i]? = some (if i = k then 1 else 0)) ∧ (∀ i : Nat, n ≤ i → a'[i]? = a[i]?) ∧
      Calls P G n!"simple_poly" [.ptr o 0 1, .int t (k : Nat), .int t' (n : Nat)] mem (setMem mem o ⟨.i32, a'⟩) := by
  obtain ⟨a', h1, h2, h3⟩ := zero_loop (P := P) (G := G) (mem := mem) (o := o) (k := k) hn n 0 a (by omega) hna
  rw [setMem_eq _ _ hm] at h3
  refine ⟨a'.setIfInBounds k 1, by simpa using h1, fun i hi => ?_, fun i hi => ?_, ?_⟩
  · rw [Array.getElem?_setIfInBounds]
    by_cases e : k = i
    · rw [if_pos e, if_pos (by omega), if_pos e.symm]
    · rw [if_neg e, h2, if_pos (by omega), if_neg (fun h => e h.symm)]
  · rw [Array.getElem?_setIfInBounds, if_neg (by omega), h2, if_neg (by omega)]
  · refine Calls.mk (st' := E (sp o n k n) (setMem mem o ⟨.i32, a'.setIfInBounds k 1⟩)) hC
      (env := look [(n!"n", uc n), (n!"k", uc k), (n!"a", .ptr o 0 1)]) ?_ ?_
    · simp only [Src.test_ntt16.simple_poly, bindParams, ok_bind, conv_u32_nat, u32_of hn, u32_of (show k < 4294967296 by omega),
        look_nil, setEnv_look, upd, Nat.reduceEqDiff, reduceIte]
    · refine Ex.seq (st₁ := E [(n!"n", uc n), (n!"k", uc k), (n!"a", .ptr o 0 1), (n!"i", .int .u32 none)] mem) (Ex.mk 1 fun f => by crs [])
        (Ex.seq (Ex.asserts (Ev.mk 3 fun f => ?_)) (Ex.seq (Ex.seq (Ex.mk 3 fun f => ?_) h3) (Ex.mk 5 fun f => ?_)))
      · crs []
        rw [binop_uu (by simp) (by simp) (by omega) hn, arithU_lt, decide_eq_true hk]
      · crs [u32_of (show 0 < 4294967296 by decide)]
      · crs []
        rw [store_i32 (by omega) (by decide)]
        crs []
        rfl

/-! ### All -/

theorem judgesTransforms_of (h1 : P.lookup n!"power" = some Src.test_ntt16.power)
    (h2 : P.lookup n!"check_ntt_simple" = some Src.test_ntt16.check_ntt_simple)
    (h3 : P.lookup n!"check_ntt_ntt_simple" = some Src.test_ntt16.check_ntt_ntt_simple) : JudgesTransforms P where
  power _ _ _ _ hx hk := power_computes h1 hx hk
  check_ntt_simple _ _ _ _ _ _ _ _ _ hm wa hna hn hk hw := check_ntt_simple_of h1 h2 hm wa hna hn hk hw
  check_ntt_ntt_simple _ _ _ _ _ _ _ hm wa hna hn hk := check_ntt_ntt_simple_of h3 hm wa hna hn hk

theorem judgesProducts_of (h1 : P.lookup n!"simple_poly" = some Src.test_ntt16.simple_poly)
    (h2 : P.lookup n!"equal_simple_poly" = some Src.test_ntt16.equal_simple_poly) : JudgesProducts P where
  simple_poly _ _ _ _ _ _ _ _ hm hk hna hn := simple_poly_of h1 hm hk hna hn
  equal_simple_poly _ _ _ _ _ _ _ hm wa hna hn hk := equal_simple_poly_of h2 hm wa hna hn hk

end CLang.Checks
