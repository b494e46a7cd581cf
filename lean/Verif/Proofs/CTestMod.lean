import Verif.Proofs.CRedBounds
import Verif.Proofs.CTestChecks
import Verif.Proofs.TestMod
import Verif.SpecSourceMod
import Verif.Model.Src.TestMod

/-
The functions of src/test_mod.c, as read from the text, do what the model says.
-/

namespace CLang.Tm
open C CLang CLang.Gen CLang.RedB

set_option linter.unusedSimpArgs false

variable {P : Prog} {G : Name → Option Cell} {mem : Nat → Obj}

/-- A call, from outside or in an expression, gives this value. -/
def Gives (P : Prog) (G : Name → Option Cell) (g : Name) (vs : List Val) (v : Val) : Prop :=
  ∃ fn env w, P.lookup g = some fn ∧ fn.body.pure = true ∧ bindParams fn.params vs = .ok env ∧ result fn.ret (some w) = .ok v ∧
    ∀ mem, ∃ st', Rt P G fn.body ⟨env, mem⟩ w st' ∧ st'.mem = mem

theorem Gives.returns {g : Name} {vs : List Val} {v : Val} (h : Gives P G g vs v) : Returns P G g vs mem v mem := by
  obtain ⟨fn, env, w, h1, _, h3, h4, h5⟩ := h
  obtain ⟨st', h6, h7⟩ := h5 mem
  have := Returns.mk h1 h3 h6 h4
  rwa [h7] at this

theorem computes_of {g : Name} {vs : List Val} {t : Ty} {r : Int} (h : ∀ G, Gives P G g vs (.int t r)) : Computes P g vs t r :=
  fun G _ => (h G).returns

theorem Gives.ev {g : Name} {vs : List Val} {v : Val} {args : Expr} {st : State} (h : Gives P G g vs v) (ha : EvA P G args st vs) :
    Ev P G (.call g args) st v := by
  obtain ⟨fn, env, w, h1, h2, h3, h4, h5⟩ := h
  obtain ⟨st', h6, _⟩ := h5 st.mem
  exact Ev.callv ha h1 h2 h3 h6 h4

theorem cast_ev {e : Expr} {st : State} {t t' : Ty} {x : Int} (h : Ev P G e st (.int t x)) : Ev P G (.cast t' e) st (.int t' (conv t' x)) := by
  obtain ⟨N, hN⟩ := h
  refine ⟨N + 1, fun f hf => ?_⟩
  obtain ⟨g, rfl⟩ := Nat.exists_eq_add_of_le' (show 1 ≤ f by omega)
  rw [eval_cast, hN g (by omega), ok_bind]

/-! ### Operators on 64 bits without sign -/

theorem binopL {o : Bin} {s t : Ty} {x y : Nat} (hc : common s t = .u64) (h1 : o ≠ .shl) (h2 : o ≠ .shr) (hx : x < 18446744073709551616)
    (hy : y < 18446744073709551616) : binop o (.int s (x : Int)) (.int t (y : Int)) = arith .u64 (x : Int) (y : Int) o := by
  cases o <;> simp_all only [binop, conv_u64_nat, ne_eq, not_true_eq_false]

theorem conv_u64 (x : Nat) : conv .u64 (x : Int) = (u64 x : Nat) := by
  show (x : Int) % 18446744073709551616 = _
  unfold u64; omega

theorem arith_addL (x y : Nat) : arith .u64 (x : Int) (y : Int) .add = .ok (.int .u64 (u64 (x + y) : Nat)) := by
  simp only [arith, fit, ← Int.natCast_add, conv_u64, ok_bind]

theorem arith_mulL (x y : Nat) : arith .u64 (x : Int) (y : Int) .mul = .ok (.int .u64 (u64 (x * y) : Nat)) := by
  simp only [arith, fit, ← Int.natCast_mul, conv_u64, ok_bind]

theorem arith_divL {x y : Nat} (hx : x < 18446744073709551616) (hy : y ≠ 0) :
    arith .u64 (x : Int) (y : Int) .div = .ok (.int .u64 (x / y : Nat)) := by
  simp only [arith]
  rw [if_neg (by omega)]
  have : ((x : Int).tdiv (y : Int)) = ((x / y : Nat) : Int) := rfl
  simp only [fit, this, conv_u64, ok_bind]
  rw [show u64 (x / y) = x / y from Nat.mod_eq_of_lt (Nat.lt_of_le_of_lt (Nat.div_le_self _ _) hx)]

theorem binop_shlL {n : Nat} (hn : n < 64) :
    binop .shl (.int .u64 ((1 : Nat) : Int)) (.int .u32 (n : Int)) = .ok (.int .u64 (u64 (2 ^ n) : Nat)) := by
  show shift true .u64 (conv .u64 ((1 : Nat) : Int)) (conv .u32 (n : Int)) = _
  rw [conv_u32_nat, u32_of (by omega), conv_u64_nat (by decide)]
  unfold shift
  rw [if_neg (by simp [width]; omega), if_pos rfl]
  show Except.ok (Val.int .u64 (conv .u64 (((1 : Nat) : Int) * 2 ^ n))) = _
  rw [show (((1 : Nat) : Int) * 2 ^ n) = ((2 ^ n : Nat) : Int) by push_cast; ring, conv_u64]

theorem binop_shrL {x n : Nat} (hx : x < 18446744073709551616) (hn : n < 64) :
    binop .shr (.int .u64 (x : Int)) (.int .u32 (n : Int)) = .ok (.int .u64 (x / 2 ^ n : Nat)) := by
  show shift false .u64 (conv .u64 (x : Int)) (conv .u32 (n : Int)) = _
  rw [conv_u32_nat, u32_of (by omega), conv_u64_nat hx]
  unfold shift
  rw [if_neg (by simp [width]; omega), if_neg (by simp)]
  rfl

theorem binop_shl64 {n : Nat} {z : Int} (hn : n < 64) (h : C.i64 (2 ^ n) = .ok z) :
    binop .shl (.int .i64 ((1 : Nat) : Int)) (.int .u32 (n : Int)) = .ok (.int .i64 z) := by
  show shift true .i64 (conv .i64 ((1 : Nat) : Int)) (conv .u32 (n : Int)) = _
  rw [conv_u32_nat, u32_of (by omega), conv_i64, toI64_of (by decide)]
  unfold shift
  rw [if_neg (by simp [width]; omega), if_pos rfl]
  show (if ((1 : Nat) : Int) < 0 then _ else (C.i64 (((1 : Nat) : Int) * 2 ^ n) >>= _)) = _
  rw [if_neg (by decide), show (((1 : Nat) : Int) * 2 ^ n) = 2 ^ n by push_cast; ring, h, ok_bind]

theorem binop_sarv {x : Int} {n : Nat} (hx : I64 x) (hn : n < 64) :
    binop .shr (.int .i64 x) (.int .u32 (n : Int)) = .ok (.int .i64 (sar x n)) := by
  show shift false .i64 (conv .i64 x) (conv .u32 (n : Int)) = _
  rw [conv_u32_nat, u32_of (by omega), conv_i64, toI64_of hx]
  exact shift_right64 x n hn

/-! ### The functions -/

theorem num_nat {n : Nat} {st : State} (h : n ≤ 2147483647) : Ev P G (.num n) st (.int .i32 (n : Nat)) := num_ev h rfl

theorem bindI {t : Ty} {n : Name} {x : Int} (hx : I32 x) : bindParams [(n, .int .i32)] [.int t x] = .ok (look [(n, ic x)]) := by
  simp only [bindParams, ok_bind, conv_i32, toI32_of hx, look_nil, setEnv_look, upd]

theorem bindU {t : Ty} {n : Name} {x : Nat} (hx : x < 4294967296) : bindParams [(n, .int .u32)] [.int t (x : Nat)] = .ok (look [(n, uc x)]) := by
  simp only [bindParams, ok_bind, conv_u32_nat, u32_of hx, look_nil, setEnv_look, upd]

theorem bindUU {t t' : Ty} {n m : Name} {x y : Nat} (hx : x < 4294967296) (hy : y < 4294967296) (h : n ≠ m) :
    bindParams [(n, .int .u32), (m, .int .u32)] [.int t (x : Nat), .int t' (y : Nat)] = .ok (look [(m, uc y), (n, uc x)]) := by
  simp only [bindParams, ok_bind, conv_u32_nat, u32_of hx, u32_of hy, look_nil, setEnv_look, upd, if_neg h]

theorem bindIU {t t' : Ty} {n m : Name} {x : Int} {y : Nat} (hx : I32 x) (hy : y < 4294967296) (h : n ≠ m) :
    bindParams [(n, .int .i32), (m, .int .u32)] [.int t x, .int t' (y : Nat)] = .ok (look [(m, uc y), (n, ic x)]) := by
  simp only [bindParams, ok_bind, conv_i32, toI32_of hx, conv_u32_nat, u32_of hy, look_nil, setEnv_look, upd, if_neg h]

theorem resultU {t : Ty} (v : Nat) : result (some .u32) (some (.int t (v : Nat))) = .ok (.int .u32 (u32 v : Nat)) := by
  simp only [result, conv_u32_nat]

theorem resultI {t : Ty} (v : Int) : result (some .i32) (some (.int t v)) = .ok (.int .i32 (toI32 v)) := by
  simp only [result, conv_i32]

theorem u32_lt (x : Nat) : u32 x < 4294967296 := Nat.mod_lt _ (by decide)
theorem u64_lt (x : Nat) : u64 x < 18446744073709551616 := Nat.mod_lt _ (by decide)

theorem smodq_gives (hP : P.lookup n!"smodq" = some Src.test_mod.smodq) {x : Int} {t : Ty} (hx : I32 x) :
    Gives P G n!"smodq" [.int t x] (.int .i32 (x.tmod 12289)) := by
  have hi : I32 (x.tmod 12289) := by
    have := Int.tmod_lt_of_pos x (show (0 : Int) < 12289 by decide)
    have := Int.lt_tmod_of_pos x (show (0 : Int) < 12289 by decide)
    unfold I32; omega
  refine ⟨_, _, .int .i32 (x.tmod 12289), hP, rfl, bindI hx, by rw [show Src.test_mod.smodq.ret = some .i32 from rfl, resultI, toI32_of hi],
    fun mem => ⟨_, Rt.left (Rt.ret (Ev.bin (Ev.v rfl rfl) (num_ev (z := 12289) (by decide) rfl) ?_)), rfl⟩⟩
  rw [binop_rem32 hx (by decide) (by decide)]

theorem umodq_gives (hP : P.lookup n!"umodq" = some Src.test_mod.umodq) {x : Nat} {t : Ty} (hx : x < 4294967296) :
    Gives P G n!"umodq" [.int t (x : Nat)] (.int .u32 (x % 12289 : Nat)) := by
  refine ⟨_, _, .int .u32 (x % 12289 : Nat), hP, rfl, bindU hx,
    by rw [show Src.test_mod.umodq.ret = some .u32 from rfl, resultU, u32_of (by omega)],
    fun mem => ⟨_, Rt.left (Rt.ret (Ev.bin (Ev.v rfl rfl) (num_nat (by decide)) ?_)), rfl⟩⟩
  rw [binop_uk (by simp) (by simp) hx (by decide), arith_remU rfl]

theorem pmodq_gives (hS : P.lookup n!"smodq" = some Src.test_mod.smodq) (hP : P.lookup n!"pmodq" = some Src.test_mod.pmodq) {x : Int} {t : Ty}
    (hx : I32 x) : Gives P G n!"pmodq" [.int t x] (.int .i32 (x % 12289)) := by
  have h1 := Int.tmod_lt_of_pos x (show (0 : Int) < 12289 by decide)
  have h2 := Int.lt_tmod_of_pos x (show (0 : Int) < 12289 by decide)
  have h3 : x % 12289 = if x.tmod 12289 < 0 then x.tmod 12289 + 12289 else x.tmod 12289 := by
    have := Int.tmod_eq_emod (a := x) (b := 12289)
    split at this <;> split <;> omega
  have hi : I32 (x.tmod 12289) := by unfold I32; omega
  refine ⟨_, _, .int .i32 (x % 12289), hP, rfl, bindI hx,
    by rw [show Src.test_mod.pmodq.ret = some .i32 from rfl, resultI, toI32_of (by unfold I32; omega)], fun mem => ?_⟩
  refine ⟨_, Rt.seq (st₁ := E [(n!"x", ic x), (n!"r", .int .i32 none)] mem) (Ex.mk 1 fun f => by crs [])
    (Rt.seq (Ex.asg ((smodq_gives hS hx).ev (EvA.cons (Ev.v rfl rfl) (EvA.nil _))) rfl (toI32_of hi))
      (Rt.left (Rt.ret (cond_ev (r := decide (x.tmod 12289 < 0)) (Ev.bin (Ev.v rfl rfl) (num_ev (z := 0) (by decide) rfl) ?_) ?_)))), rfl⟩
  · rw [binop_ii (by simp) (by simp) hi (by decide), arith_lt]
  · rw [h3]
    by_cases h : x.tmod 12289 < 0
    · rw [if_pos h, if_pos (by simpa using h)]
      refine Ev.bin (Ev.v rfl rfl) (num_ev (z := 12289) (by decide) rfl) ?_
      rw [binop_ii (by simp) (by simp) hi (by decide), arith_add32, i32_of (by unfold I32; omega), ok_bind]
    · rw [if_neg h, if_neg (by simpa using h)]
      exact Ev.v rfl rfl

theorem approx_qinv_gives (hP : P.lookup n!"approx_qinv" = some Src.test_mod.approx_qinv) {n r : Nat} {t : Ty} (hn : n < 64)
    (h : TestMod.approx_qinv n = .ok r) : Gives P G n!"approx_qinv" [.int t (n : Nat)] (.int .u32 (r : Nat)) := by
  simp only [TestMod.approx_qinv, CLang.bind_ok, pure_ok] at h
  obtain ⟨y, hy, rfl⟩ := h
  cases hy
  refine ⟨_, _, .int .u64 (u64 (u64 (2 ^ n) / 12289 + 1) : Nat), hP, rfl, bindU (by omega),
    by rw [show Src.test_mod.approx_qinv.ret = some .u32 from rfl, resultU],
    fun mem => ⟨_, Rt.left (Rt.ret (Ev.bin (x := .int .u64 (u64 (2 ^ n) / 12289 : Nat)) (Ev.bin (x := .int .u64 (u64 (2 ^ n) : Nat))
      (Ev.bin (x := .int .u64 ((1 : Nat) : Int)) (cast_ev (num_nat (by decide))) (Ev.v rfl rfl) (binop_shlL hn)) (num_nat (by decide)) ?_)
      (num_nat (by decide)) ?_)), rfl⟩⟩
  · rw [binopL rfl (by simp) (by simp) (u64_lt _) (by decide), arith_divL (u64_lt _) (by decide)]
  · have := u64_lt (2 ^ n)
    rw [binopL rfl (by simp) (by simp) (by omega) (by decide), arith_addL]

theorem approx_divq_gives (hQ : P.lookup n!"approx_qinv" = some Src.test_mod.approx_qinv)
    (hP : P.lookup n!"approx_divq" = some Src.test_mod.approx_divq) {x n r : Nat} {t t' : Ty} (hx : x < 4294967296) (hn : n < 64)
    (h : TestMod.approx_divq x n = .ok r) : Gives P G n!"approx_divq" [.int t (x : Nat), .int t' (n : Nat)] (.int .u32 (r : Nat)) := by
  simp only [TestMod.approx_divq, CLang.bind_ok, pure_ok] at h
  obtain ⟨y, hy, rfl⟩ := h
  have hy' : y < 4294967296 := by
    have h1 := hy
    simp only [TestMod.approx_qinv, CLang.bind_ok, pure_ok] at h1
    obtain ⟨_, _, rfl⟩ := h1
    exact u32_lt _
  refine ⟨_, _, .int .u64 (u64 (x * y) / 2 ^ n : Nat), hP, rfl, bindUU hx (by omega) (by decide),
    by rw [show Src.test_mod.approx_divq.ret = some .u32 from rfl, resultU],
    fun mem => ⟨_, Rt.left (Rt.ret (Ev.bin (x := .int .u64 (u64 (x * y) : Nat)) (Ev.bin (x := .int .u64 (x : Nat)) ?_
      ((approx_qinv_gives hQ hn hy).ev (EvA.cons (Ev.v rfl rfl) (EvA.nil _))) ?_) (Ev.v rfl rfl) (binop_shrL (u64_lt _) hn))), rfl⟩⟩
  · have := cast_ev (t' := .u64) (Ev.v (P := P) (G := G) (l := [(n!"n", uc n), (n!"x", uc x)]) (mem := mem) (x := n!"x") rfl rfl)
    rwa [conv_u64_nat (by omega)] at this
  · rw [binopL rfl (by simp) (by simp) (by omega) (by omega), arith_mulL]

theorem approx_modq_gives (hQ : P.lookup n!"approx_qinv" = some Src.test_mod.approx_qinv)
    (hD : P.lookup n!"approx_divq" = some Src.test_mod.approx_divq) (hP : P.lookup n!"approx_modq" = some Src.test_mod.approx_modq)
    {x n r : Nat} {t t' : Ty} (hx : x < 4294967296) (hn : n < 64) (h : TestMod.approx_modq x n = .ok r) :
    Gives P G n!"approx_modq" [.int t (x : Nat), .int t' (n : Nat)] (.int .u32 (r : Nat)) := by
  simp only [TestMod.approx_modq, CLang.bind_ok, pure_ok] at h
  obtain ⟨y, hy, rfl⟩ := h
  have hy' : y < 4294967296 := by
    have h1 := hy
    simp only [TestMod.approx_divq, CLang.bind_ok, pure_ok] at h1
    obtain ⟨_, _, rfl⟩ := h1
    exact u32_lt _
  refine ⟨_, _, .int .u32 (u32 (x + (4294967296 - u32 (y * 12289))) : Nat), hP, rfl, bindUU hx (by omega) (by decide),
    by rw [show Src.test_mod.approx_modq.ret = some .u32 from rfl, resultU, u32_of (u32_lt _)],
    fun mem => ⟨_, Rt.left (Rt.ret (Ev.bin (y := .int .u32 (u32 (y * 12289) : Nat)) (Ev.v rfl rfl) (Ev.bin
      ((approx_divq_gives hQ hD hx hn hy).ev (EvA.cons (Ev.v rfl rfl) (EvA.cons (Ev.v rfl rfl) (EvA.nil _)))) (num_nat (by decide)) ?_) ?_)), rfl⟩⟩
  · rw [binop_uk (by simp) (by simp) hy' (by decide), arith_mulU]
  · rw [binop_uu (by simp) (by simp) hx (u32_lt _), arith_subW hx (u32_lt _).le, Nat.add_sub_assoc (u32_lt _).le]

theorem approx_pinv_gives (hP : P.lookup n!"approx_pinv" = some Src.test_mod.approx_pinv) {n : Nat} {r : Int} {t : Ty} (hn : n < 63)
    (h : TestMod.approx_pinv n = .ok r) : I64 r ∧ Gives P G n!"approx_pinv" [.int t (n : Nat)] (.int .i64 r) := by
  simp only [TestMod.approx_pinv, CLang.bind_ok] at h
  obtain ⟨y, hy, z, hz, hr⟩ := h
  have hy0 : 0 ≤ y := by
    obtain ⟨rfl, _⟩ := CLang.i64_ok.1 hy
    positivity
  have key : ∀ mem : Nat → Obj, _ := fun mem => div_ev (P := P) (G := G) (st := E [(n!"n", uc n)] mem) (s := .i64) (t := .i32) rfl
    (Ev.bin (cast_ev (t' := .i64) (num_nat (n := 1) (by decide))) (Ev.v (x := n!"n") rfl rfl) (binop_shl64 (show n < 64 by omega) hy))
    (num_ev (n := 12289) (z := 12289) (by decide) rfl) (i64_rng hy) (by omega) (by decide) hz
  refine ⟨i64_rng hr, _, _, .int .i64 r, hP, rfl, bindU (by omega), result64 (i64_rng hr),
    fun mem => ⟨_, Rt.left (Rt.ret (add_ev rfl (key mem).1 (num_ev (z := 1) (by decide) rfl) (key mem).2 (by decide) hr)), rfl⟩⟩

theorem approx_pdivq_gives (hQ : P.lookup n!"approx_pinv" = some Src.test_mod.approx_pinv)
    (hP : P.lookup n!"approx_pdivq" = some Src.test_mod.approx_pdivq) {x r : Int} {n : Nat} {t t' : Ty} (hx : I32 x) (hn : n < 63)
    (h : TestMod.approx_pdivq x n = .ok r) : I32 r ∧ Gives P G n!"approx_pdivq" [.int t x, .int t' (n : Nat)] (.int .i32 r) := by
  simp only [TestMod.approx_pdivq, CLang.bind_ok, pure_ok] at h
  obtain ⟨y, hy, z, hz, rfl⟩ := h
  have hg := fun t => approx_pinv_gives (G := G) (t := t) hQ hn hy
  refine ⟨I32_toI32 _, _, _, .int .i64 (sar z n), hP, rfl, bindIU hx (by omega) (by decide),
    by rw [show Src.test_mod.approx_pdivq.ret = some .i32 from rfl, resultI],
    fun mem => ⟨_, Rt.left (Rt.ret (Ev.bin (mul_ev (s := .i64) (t := .i64) rfl (x := x) ?_
      ((hg .u32).2.ev (EvA.cons (Ev.v rfl rfl) (EvA.nil _))) (I64_of_I32 hx) (hg .u32).1 hz) (Ev.v rfl rfl) (binop_sarv (i64_rng hz) (by omega)))), rfl⟩⟩
  have := cast_ev (t' := .i64) (Ev.v (P := P) (G := G) (l := [(n!"n", uc n), (n!"x", ic x)]) (mem := mem) (x := n!"x") rfl rfl)
  rwa [conv_i64, toI64_of (I64_of_I32 hx)] at this

theorem approx_pmodq_gives (hQ : P.lookup n!"approx_pinv" = some Src.test_mod.approx_pinv)
    (hD : P.lookup n!"approx_pdivq" = some Src.test_mod.approx_pdivq) (hP : P.lookup n!"approx_pmodq" = some Src.test_mod.approx_pmodq)
    {x r : Int} {n : Nat} {t t' : Ty} (hx : I32 x) (hn : n < 63) (h : TestMod.approx_pmodq x n = .ok r) :
    Gives P G n!"approx_pmodq" [.int t x, .int t' (n : Nat)] (.int .i32 r) := by
  simp only [TestMod.approx_pmodq, CLang.bind_ok, pure_ok] at h
  obtain ⟨y, hy, z, hz, w, hw, rfl⟩ := h
  have hg := approx_pdivq_gives (G := G) (t := .i32) (t' := .u32) hQ hD hx hn hy
  have hw' := i32_rng hw
  refine ⟨_, _, .int .i32 (if w < 12289 then w else 0), hP, rfl, bindIU hx (by omega) (by decide),
    by rw [show Src.test_mod.approx_pmodq.ret = some .i32 from rfl, resultI, toI32_of (by split <;> [exact hw'; decide])], fun mem => ?_⟩
  refine ⟨_, Rt.seq (st₁ := E [(n!"n", uc n), (n!"x", ic x), (n!"r", .int .i32 none)] mem) (Ex.mk 1 fun f => by crs [])
    (Rt.seq (Ex.asg (v := w) (t' := .i32) (Ev.bin (Ev.v rfl rfl) (Ev.bin (v := .int .i32 z)
      (hg.2.ev (EvA.cons (Ev.v rfl rfl) (EvA.cons (Ev.v rfl rfl) (EvA.nil _)))) (num_ev (z := 12289) (by decide) rfl) ?_) ?_) rfl (toI32_of hw'))
      (Rt.left (Rt.ret (cond_ev (r := decide (w < 12289)) (Ev.bin (Ev.v rfl rfl) (num_ev (z := 12289) (by decide) rfl) ?_) ?_)))), rfl⟩
  · rw [binop_ii (by simp) (by simp) hg.1 (by decide), arith_mul32, hz, ok_bind]
  · rw [binop_ii (by simp) (by simp) hx (i32_rng hz), arith_sub32, hw, ok_bind]
  · rw [binop_ii (by simp) (by simp) hw' (by decide), arith_lt]
  · by_cases hc : w < 12289
    · rw [if_pos hc, if_pos (by simpa using hc)]
      exact Ev.v rfl rfl
    · rw [if_neg hc, if_neg (by simpa using hc)]
      exact num_ev (by decide) rfl

end CLang.Tm
