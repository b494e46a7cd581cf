import Verif.Model.CRead
import Verif.SpecSource
import Verif.Proofs.CAttr
import Mathlib.Tactic.Ring
import Mathlib.Tactic.Linarith
import Mathlib.Data.Nat.Bitwise

/-
Execution of programs of `CLang`: equations for symbolic execution, and the relation between loops and `C.cfor`.
-/

namespace CLang
open C

/-! ### Ranges -/

theorem toI32_of {x : Int} (h : I32 x) : toI32 x = x := by
  unfold I32 at h; unfold toI32; omega

theorem toI64_of {x : Int} (h : I64 x) : toI64 x = x := by
  unfold I64 at h; unfold toI64; omega

theorem I64_of_I32 {x : Int} (h : I32 x) : I64 x := by
  unfold I32 at h; unfold I64; omega

theorem I32_toI32 (x : Int) : I32 (toI32 x) := by
  unfold I32 toI32; omega

theorem I64_toI64 (x : Int) : I64 (toI64 x) := by
  unfold I64 toI64; omega

theorem I32_land32 (x y : Int) : I32 (land32 x y) := I32_toI32 _
theorem I64_land64 (x y : Int) : I64 (land64 x y) := I64_toI64 _

theorem I32_sar {x : Int} (k : Nat) (h : I32 x) : I32 (sar x k) := by
  unfold I32 at *
  unfold sar
  have hp : (1 : Int) ≤ ((2 ^ k : Nat) : Int) := by exact_mod_cast Nat.one_le_two_pow
  constructor
  · rw [Int.le_ediv_iff_mul_le (by omega)]
    nlinarith
  · by_cases hx : 0 ≤ x
    · have := Int.ediv_le_self ((2 ^ k : Nat) : Int) hx
      omega
    · have := Int.ediv_neg_of_neg_of_pos (by omega : x < 0) (by omega : (0 : Int) < ((2 ^ k : Nat) : Int))
      omega

theorem i32_of {x : Int} (h : I32 x) : C.i32 x = .ok x := by simp [C.i32, h]
theorem i64_of {x : Int} (h : I64 x) : C.i64 x = .ok x := by simp [C.i64, h]

theorem i32_ok {x y : Int} : C.i32 x = .ok y ↔ y = x ∧ I32 x := by
  unfold C.i32; split <;> simp_all [eq_comm]
theorem i64_ok {x y : Int} : C.i64 x = .ok y ↔ y = x ∧ I64 x := by
  unfold C.i64; split <;> simp_all [eq_comm]

theorem i32_rng {x y : Int} (h : C.i32 x = .ok y) : I32 y := by
  obtain ⟨h, h'⟩ := i32_ok.mp h; rw [h]; exact h'
theorem i64_rng {x y : Int} (h : C.i64 x = .ok y) : I64 y := by
  obtain ⟨h, h'⟩ := i64_ok.mp h; rw [h]; exact h'

theorem cassert_ok {b : Bool} {u : Unit} : C.cassert b = .ok u ↔ b = true := by
  unfold C.cassert; split <;> simp_all

theorem bind_ok {α β : Type} {x : M α} {f : α → M β} {y : β} : x >>= f = .ok y ↔ ∃ a, x = .ok a ∧ f a = .ok y := by
  cases x <;> simp [bind, Except.bind]

theorem pure_ok {α : Type} {x y : α} : (pure x : M α) = .ok y ↔ y = x := by
  simp [pure, Except.pure, eq_comm]

theorem ok_bind {α β : Type} (x : α) (f : α → M β) : (Except.ok x >>= f) = f x := (rfl)

theorem u32_of {x : Nat} (h : x < 4294967296) : u32 x = x := Nat.mod_eq_of_lt h
theorem u32_lt (x : Nat) : u32 x < 4294967296 := Nat.mod_lt _ (by decide)

/-! ### Variables and memory -/

theorem setEnv_self (env : Name → Option Cell) (x : Name) (c : Cell) : setEnv env x c x = some c := by simp [setEnv]
theorem setEnv_ne {env : Name → Option Cell} {x y : Name} {c : Cell} (h : y ≠ x) : setEnv env x c y = env y := by simp [setEnv, h]
theorem setMem_self (mem : Nat → Obj) (o : Nat) (d : Obj) : setMem mem o d o = d := by simp [setMem]
theorem setMem_ne {mem : Nat → Obj} {o o' : Nat} {d : Obj} (h : o' ≠ o) : setMem mem o d o' = mem o' := by simp [setMem, h]
theorem setMem_setMem (mem : Nat → Obj) (o : Nat) (d e : Obj) : setMem (setMem mem o d) o e = setMem mem o e := by
  funext o'; simp only [setMem]; split <;> rfl
theorem setMem_eq (mem : Nat → Obj) (o : Nat) {d : Obj} (h : mem o = d) : setMem mem o d = mem := by
  funext o'; simp only [setMem]; split
  · next h' => rw [h', h]
  · rfl

theorem position_nat (i : Nat) : position 0 1 (i : Int) = .ok i := by
  unfold position; rw [if_neg (by omega)]; simp

theorem load_nat (mem : Nat → Obj) (o : Nat) (t : Ty) (i : Nat) :
    load mem (.ptr o 0 1) (.int t (i : Int)) = (rd (mem o).data i >>= fun v => .ok (.int (mem o).ty v)) := by
  simp only [load, position_nat]; rfl

theorem storeAt_nat (st : State) (o : Nat) (t t' : Ty) (i : Nat) (v : Int) :
    storeAt st (.ptr o 0 1) (.int t (i : Int)) (.int t' v) =
      (wr (st.mem o).data i (conv (st.mem o).ty v) >>= fun d => .ok { st with mem := setMem st.mem o ⟨(st.mem o).ty, d⟩ }) := by
  simp only [storeAt, position_nat]; rfl

/-! ### Operators -/

theorem conv_u32_nat (x : Nat) : conv .u32 (x : Int) = (u32 x : Nat) := by
  simp [conv, u32]

theorem conv_i32 (x : Int) : conv .i32 x = toI32 x := (rfl)
theorem conv_i64 (x : Int) : conv .i64 x = toI64 x := (rfl)

theorem test_truth (b : Bool) : test (truth b) = .ok b := by cases b <;> rfl

theorem arith_and32 (x y : Int) : arith .i32 x y .and = .ok (.int .i32 (land32 x y)) := (rfl)
theorem arith_and64 (x y : Int) : arith .i64 x y .and = .ok (.int .i64 (land64 x y)) := (rfl)
theorem arith_add32 (x y : Int) : arith .i32 x y .add = (C.i32 (x + y) >>= fun z => .ok (.int .i32 z)) := (rfl)
theorem arith_sub32 (x y : Int) : arith .i32 x y .sub = (C.i32 (x - y) >>= fun z => .ok (.int .i32 z)) := (rfl)
theorem arith_mul32 (x y : Int) : arith .i32 x y .mul = (C.i32 (x * y) >>= fun z => .ok (.int .i32 z)) := (rfl)
theorem arith_add64 (x y : Int) : arith .i64 x y .add = (C.i64 (x + y) >>= fun z => .ok (.int .i64 z)) := (rfl)
theorem arith_sub64 (x y : Int) : arith .i64 x y .sub = (C.i64 (x - y) >>= fun z => .ok (.int .i64 z)) := (rfl)
theorem arith_mul64 (x y : Int) : arith .i64 x y .mul = (C.i64 (x * y) >>= fun z => .ok (.int .i64 z)) := (rfl)
theorem arith_lt (t : Ty) (x y : Int) : arith t x y .lt = .ok (truth (decide (x < y))) := (rfl)
theorem arith_le (t : Ty) (x y : Int) : arith t x y .le = .ok (truth (decide (x ≤ y))) := (rfl)
theorem arith_gt (t : Ty) (x y : Int) : arith t x y .gt = .ok (truth (decide (y < x))) := (rfl)
theorem arith_eq (t : Ty) (x y : Int) : arith t x y .eq = .ok (truth (decide (x = y))) := (rfl)

theorem arith_addU (x y : Nat) : arith .u32 (x : Int) (y : Int) .add = .ok (.int .u32 (u32 (x + y) : Nat)) := by
  simp only [arith, fit, conv, u32]; norm_cast
theorem arith_mulU (x y : Nat) : arith .u32 (x : Int) (y : Int) .mul = .ok (.int .u32 (u32 (x * y) : Nat)) := by
  simp only [arith, fit, conv, u32]; norm_cast
theorem arith_subU {x y : Nat} (h : y ≤ x) : arith .u32 (x : Int) (y : Int) .sub = .ok (.int .u32 (u32 (x - y) : Nat)) := by
  simp only [arith, fit, conv, u32]; rw [← Nat.cast_sub h]; norm_cast
theorem arith_andU {x y : Nat} (hx : x < 4294967296) (hy : y < 4294967296) :
    arith .u32 (x : Int) (y : Int) .and = .ok (.int .u32 (x &&& y : Nat)) := by
  have h : x &&& y < 4294967296 := lt_of_le_of_lt Nat.and_le_left hx
  simp only [arith, conv, bits, toU32, Int.ofNat_eq_natCast]
  norm_cast
  rw [Nat.mod_eq_of_lt hx, Nat.mod_eq_of_lt hy, Int.toNat_natCast, Int.toNat_natCast, Nat.mod_eq_of_lt h]
theorem arith_xorU {x y : Nat} (hx : x < 4294967296) (hy : y < 4294967296) :
    arith .u32 (x : Int) (y : Int) .xor = .ok (.int .u32 (x ^^^ y : Nat)) := by
  have h : x ^^^ y < 4294967296 := Nat.xor_lt_two_pow (n := 32) hx hy
  simp only [arith, conv, bits, toU32, Int.ofNat_eq_natCast]
  norm_cast
  rw [Nat.mod_eq_of_lt hx, Nat.mod_eq_of_lt hy, Int.toNat_natCast, Int.toNat_natCast, Nat.mod_eq_of_lt h]

theorem binop_sar32 {x : Int} (k : Nat) (hx : I32 x) (h : k < 32) :
    binop .shr (.int .i32 x) (.int .i32 (k : Int)) = .ok (.int .i32 (sar x k)) := by
  simp only [binop, shift, width, promote, conv_i32, toI32_of hx]
  rw [toI32_of (by unfold I32; omega), if_neg (by push_cast; omega)]
  simp
theorem binop_sar64 {x : Int} (k : Nat) (hx : I64 x) (h : k < 64) :
    binop .shr (.int .i64 x) (.int .i32 (k : Int)) = .ok (.int .i64 (sar x k)) := by
  simp only [binop, shift, width, promote, conv_i64, conv_i32, toI64_of hx]
  rw [toI32_of (by unfold I32; omega), if_neg (by push_cast; omega)]
  simp

theorem shift_right32 (x : Int) (k : Nat) (h : k < 32) : shift false .i32 x (k : Int) = .ok (.int .i32 (sar x k)) := by
  simp only [shift, width]
  rw [if_neg (by push_cast; omega)]
  simp
theorem shift_right64 (x : Int) (k : Nat) (h : k < 64) : shift false .i64 x (k : Int) = .ok (.int .i64 (sar x k)) := by
  simp only [shift, width]
  rw [if_neg (by push_cast; omega)]
  simp
theorem shift_right1 (x : Nat) : shift false .u32 (x : Int) 1 = .ok (.int .u32 (x / 2 : Nat)) := by
  simp [shift, width, sar]
theorem shift_left1 (x : Nat) : shift true .u32 (x : Int) 1 = .ok (.int .u32 (u32 (2 * x) : Nat)) := by
  simp only [shift, width, conv, u32]
  rw [if_neg (by decide)]
  simp [mul_comm]

theorem binop_and32 {x y : Int} (hx : I32 x) (hy : I32 y) : binop .and (.int .i32 x) (.int .i32 y) = .ok (.int .i32 (land32 x y)) := by
  simp only [binop, common, promote, conv_i32, toI32_of hx, toI32_of hy, arith_and32]
theorem binop_add32 {x y : Int} (hx : I32 x) (hy : I32 y) :
    binop .add (.int .i32 x) (.int .i32 y) = (C.i32 (x + y) >>= fun z => .ok (.int .i32 z)) := by
  simp only [binop, common, promote, conv_i32, toI32_of hx, toI32_of hy, arith_add32]
theorem binop_sub32 {x y : Int} (hx : I32 x) (hy : I32 y) :
    binop .sub (.int .i32 x) (.int .i32 y) = (C.i32 (x - y) >>= fun z => .ok (.int .i32 z)) := by
  simp only [binop, common, promote, conv_i32, toI32_of hx, toI32_of hy, arith_sub32]
theorem binop_mul32 {x y : Int} (hx : I32 x) (hy : I32 y) :
    binop .mul (.int .i32 x) (.int .i32 y) = (C.i32 (x * y) >>= fun z => .ok (.int .i32 z)) := by
  simp only [binop, common, promote, conv_i32, toI32_of hx, toI32_of hy, arith_mul32]
theorem binop_lt32 {x y : Int} (hx : I32 x) (hy : I32 y) : binop .lt (.int .i32 x) (.int .i32 y) = .ok (truth (decide (x < y))) := by
  simp only [binop, common, promote, conv_i32, toI32_of hx, toI32_of hy, arith_lt]
theorem binop_le32 {x y : Int} (hx : I32 x) (hy : I32 y) : binop .le (.int .i32 x) (.int .i32 y) = .ok (truth (decide (x ≤ y))) := by
  simp only [binop, common, promote, conv_i32, toI32_of hx, toI32_of hy, arith_le]
theorem binop_gt32 {x y : Int} (hx : I32 x) (hy : I32 y) : binop .gt (.int .i32 x) (.int .i32 y) = .ok (truth (decide (y < x))) := by
  simp only [binop, common, promote, conv_i32, toI32_of hx, toI32_of hy, arith_gt]
theorem binop_rem32 {x y : Int} (hx : I32 x) (hy : I32 y) (h0 : 0 < y) :
    binop .rem (.int .i32 x) (.int .i32 y) = .ok (.int .i32 (x.tmod y)) := by
  have hd : I32 (x.tdiv y) := by
    have h1 := Int.natAbs_tdiv_le_natAbs x y
    unfold I32 at *
    by_cases h : 0 ≤ x
    · have := Int.tdiv_nonneg h (le_of_lt h0)
      omega
    · have := Int.tdiv_nonneg (show 0 ≤ -x by omega) (le_of_lt h0)
      rw [Int.neg_tdiv] at this
      omega
  simp only [binop, common, promote, conv_i32, toI32_of hx, toI32_of hy, arith]
  rw [if_neg (by omega)]
  show (C.i32 _ >>= _) = _
  rw [i32_of hd]
  simp only [ok_bind]

/-- One operand is `int32_t` or an `int16_t`, the other `int64_t`. -/
theorem binop_mul64 {s : Ty} {x y : Int} (hs : s = .i32 ∨ s = .i16 ∨ s = .u16) (hx : I64 x) (hy : I64 y) :
    binop .mul (.int .i64 x) (.int s y) = (C.i64 (x * y) >>= fun z => .ok (.int .i64 z)) := by
  rcases hs with rfl | rfl | rfl <;>
  simp only [binop, common, promote, conv_i64, toI64_of hx, toI64_of hy, arith_mul64]
theorem binop_rem64 {x y : Int} (hx : I64 x) (hy : I32 y) (h0 : 0 < y) :
    binop .rem (.int .i64 x) (.int .i32 y) = .ok (.int .i64 (x.tmod y)) := by
  have hd : I64 (x.tdiv y) := by
    have h1 := Int.natAbs_tdiv_le_natAbs x y
    unfold I64 at *
    by_cases h : 0 ≤ x
    · have := Int.tdiv_nonneg h (le_of_lt h0)
      omega
    · have := Int.tdiv_nonneg (show 0 ≤ -x by omega) (le_of_lt h0)
      rw [Int.neg_tdiv] at this
      omega
  simp only [binop, common, promote, conv_i64, toI64_of hx, toI64_of (I64_of_I32 hy), arith]
  rw [if_neg (by omega)]
  show (C.i64 _ >>= _) = _
  rw [i64_of hd]
  simp only [ok_bind]
theorem binop_and64 {x y : Int} (hx : I64 x) (hy : I32 y) : binop .and (.int .i64 x) (.int .i32 y) = .ok (.int .i64 (land64 x y)) := by
  simp only [binop, common, promote, conv_i64, toI64_of hx, toI64_of (I64_of_I32 hy), arith_and64]
theorem binop_le64 {x y : Int} (hx : I64 x) (hy : I64 y) : binop .le (.int .i64 x) (.int .i64 y) = .ok (truth (decide (x ≤ y))) := by
  simp only [binop, common, promote, conv_i64, toI64_of hx, toI64_of hy, arith_le]

theorem binop_addU {x y : Nat} (hx : x < 4294967296) (hy : y < 4294967296) :
    binop .add (.int .u32 (x : Int)) (.int .u32 (y : Int)) = .ok (.int .u32 (u32 (x + y) : Nat)) := by
  simp only [binop, common, promote, conv_u32_nat, u32_of hx, u32_of hy, arith_addU]
theorem binop_mulU {x y : Nat} (hx : x < 4294967296) (hy : y < 4294967296) :
    binop .mul (.int .u32 (x : Int)) (.int .u32 (y : Int)) = .ok (.int .u32 (u32 (x * y) : Nat)) := by
  simp only [binop, common, promote, conv_u32_nat, u32_of hx, u32_of hy, arith_mulU]
theorem binop_incU {x : Nat} (hx : x < 4294967296) :
    binop .add (.int .u32 (x : Int)) (.int .i32 1) = .ok (.int .u32 (u32 (x + 1) : Nat)) := by
  have h := conv_u32_nat 1
  rw [Nat.cast_one] at h
  have h' := arith_addU x 1
  rw [Nat.cast_one] at h'
  simp only [binop, common, promote, conv_u32_nat, u32_of hx, h, u32_of (show 1 < 4294967296 by decide), Nat.cast_one, h']
theorem binop_dblU {x : Nat} (hx : x < 4294967296) :
    binop .mul (.int .i32 2) (.int .u32 (x : Int)) = .ok (.int .u32 (u32 (2 * x) : Nat)) := by
  have h := conv_u32_nat 2
  rw [Nat.cast_ofNat] at h
  have h' := arith_mulU 2 x
  rw [Nat.cast_ofNat] at h'
  simp only [binop, common, promote, conv_u32_nat, u32_of hx, h, u32_of (show 2 < 4294967296 by decide), Nat.cast_ofNat, h']
theorem binop_ltU {x y : Nat} (hx : x < 4294967296) (hy : y < 4294967296) :
    binop .lt (.int .u32 (x : Int)) (.int .u32 (y : Int)) = .ok (truth (decide (x < y))) := by
  simp only [binop, common, promote, conv_u32_nat, u32_of hx, u32_of hy, arith_lt, Nat.cast_lt]
theorem binop_posU {x : Nat} (hx : x < 4294967296) :
    binop .gt (.int .u32 (x : Int)) (.int .i32 0) = .ok (truth (decide (0 < x))) := by
  have h := conv_u32_nat 0
  rw [Nat.cast_zero] at h
  simp only [binop, common, promote, conv_u32_nat, u32_of hx, arith_gt, h, u32_of (show 0 < 4294967296 by decide), Nat.cast_lt]
theorem binop_shrU {x : Nat} (hx : x < 4294967296) :
    binop .shr (.int .u32 (x : Int)) (.int .i32 1) = .ok (.int .u32 (x / 2 : Nat)) := by
  simp only [binop, promote, conv_u32_nat, u32_of hx, conv_i32, toI32_of (show I32 1 by decide), shift_right1]
theorem binop_shlU {x : Nat} (hx : x < 4294967296) :
    binop .shl (.int .u32 (x : Int)) (.int .i32 1) = .ok (.int .u32 (u32 (2 * x) : Nat)) := by
  simp only [binop, promote, conv_u32_nat, u32_of hx, conv_i32, toI32_of (show I32 1 by decide), shift_left1]

@[crun] theorem binopAt_int (mem : Nat → Obj) (o : Bin) (t : Ty) (x : Int) (y : Val) : binopAt mem o (.int t x) y = binop o (.int t x) y := by
  cases y <;> rfl
@[crun] theorem binopAt_truth (mem : Nat → Obj) (o : Bin) (b : Bool) (y : Val) : binopAt mem o (truth b) y = binop o (truth b) y := by
  cases y <;> rfl
theorem binopAt_of_ok {mem : Nat → Obj} {o : Bin} {x y v : Val} (h : binop o x y = .ok v) : binopAt mem o x y = .ok v := by
  cases x with
  | int t x => rw [binopAt_int, h]
  | ptr => simp [binop] at h
  | brk => simp [binop] at h

/-! ### Fuel -/

section
variable {P : Prog} {G : Name → Option Cell}

/-- The statement runs to its end, with sufficient fuel. -/
def Ex (P : Prog) (G : Name → Option Cell) (s : Stmt) (st st' : State) : Prop :=
  ∃ N, ∀ f, N ≤ f → exec P G f s st = .ok (none, st')

/-- The expression has the value, with sufficient fuel. -/
def Ev (P : Prog) (G : Name → Option Cell) (e : Expr) (st : State) (v : Val) : Prop :=
  ∃ N, ∀ f, N ≤ f → eval P G f e st = .ok v

section
variable (f : Nat) (st : State)

@[crun] theorem eval_num (n : Nat) (h : n ≤ 2147483647) : eval P G (f + 1) (.num n) st = .ok (.int .i32 n) := by
  rw [eval, if_pos h]
@[crun] theorem eval_num64 (n : Nat) (h : ¬ n ≤ 2147483647) : eval P G (f + 1) (.num n) st = .ok (.int .i64 n) := by
  rw [eval, if_neg h]
@[crun] theorem eval_var (x : Name) :
    eval P G (f + 1) (.var x) st = cellVal ((st.env x).or (G x)) := by rw [eval]
@[crun] theorem eval_idx (a i : Expr) : eval P G (f + 1) (.idx a i) st =
    (eval P G f a st >>= fun p => eval P G f i st >>= fun i => load st.mem p i) := by rw [eval]
@[crun] theorem eval_neg (e : Expr) : eval P G (f + 1) (.neg e) st =
    (eval P G f e st >>= fun v => binop .sub (.int .i32 0) v) := by rw [eval]
@[crun] theorem eval_bin (o : Bin) (a b : Expr) : eval P G (f + 1) (.bin o a b) st =
    (eval P G f a st >>= fun x => eval P G f b st >>= fun y => binopAt st.mem o x y) := by rw [eval]
@[crun] theorem eval_land (a b : Expr) : eval P G (f + 1) (.land a b) st =
    (eval P G f a st >>= fun x => test x >>= fun r => if r then (eval P G f b st >>= fun y => test y >>= fun r => .ok (truth r))
      else .ok (truth false)) := by rw [eval]
@[crun] theorem eval_cast (t : Ty) (e : Expr) : eval P G (f + 1) (.cast t e) st =
    (eval P G f e st >>= fun v => match v with | .int _ v => .ok (.int t (conv t v)) | _ => .error .abort) := by
  rw [eval]; congr 1
@[crun] theorem eval_cond (c a b : Expr) : eval P G (f + 1) (.cond c a b) st =
    (eval P G f c st >>= fun x => test x >>= fun r => if r then eval P G f a st else eval P G f b st) := by rw [eval]

@[crun] theorem exec_skip : exec P G (f + 1) .skip st = .ok (none, st) := by rw [exec]
@[crun] theorem exec_seq (a b : Stmt) : exec P G (f + 1) (.seq a b) st =
    (exec P G f a st >>= fun r => match r.1 with | none => exec P G f b r.2 | some _ => .ok r) := by
  rw [exec]; congr 1
@[crun] theorem exec_decl (t : Ty) (x : Name) : exec P G (f + 1) (.decl t x) st =
    .ok (none, ⟨setEnv st.env x (.int t none), st.mem⟩) := by rw [exec]
@[crun] theorem exec_assign (x : Name) (e : Expr) : exec P G (f + 1) (.assign x e) st =
    (eval P G f e st >>= fun v => assign st x v >>= fun st => .ok (none, st)) := by rw [exec]
@[crun] theorem exec_store (a i e : Expr) : exec P G (f + 1) (.store a i e) st =
    (eval P G f a st >>= fun p => eval P G f i st >>= fun i => eval P G f e st >>= fun v => storeAt st p i v >>= fun st => .ok (none, st)) := by
  rw [exec]
@[crun] theorem exec_ite (c : Expr) (a b : Stmt) : exec P G (f + 1) (.ite c a b) st =
    (eval P G f c st >>= fun v => test v >>= fun r => if r then exec P G f a st else exec P G f b st) := by rw [exec]
@[crun] theorem exec_ret (e : Expr) : exec P G (f + 1) (.ret e) st = (eval P G f e st >>= fun v => .ok (some v, st)) := by rw [exec]
@[crun] theorem exec_assert (e : Expr) : exec P G (f + 1) (.assert e) st =
    (eval P G f e st >>= fun v => test v >>= fun b => cassert b >>= fun _ => .ok (none, st)) := by rw [exec]

end

theorem assign_int {st : State} {x : Name} {t t' : Ty} {v : Int} {o : Option Int} (h : st.env x = some (.int t o)) :
    CLang.assign st x (.int t' v) = .ok ⟨setEnv st.env x (.int t (some (conv t v))), st.mem⟩ := by
  simp only [CLang.assign, h]

theorem cellVal_int (t : Ty) (v : Int) : cellVal (some (.int t (some v))) = .ok (.int t v) := (rfl)
theorem cellVal_ptr (o off w : Nat) : cellVal (some (.ptr o off w)) = .ok (.ptr o off w) := (rfl)

theorem setEnv_apply (env : Name → Option Cell) (x y : Name) (c : Cell) : setEnv env x c y = if y = x then some c else env y := (rfl)

attribute [crun] not_false_eq_true setEnv_apply Option.some_or Option.none_or ok_bind cellVal_int cellVal_ptr setEnv_self test_truth conv_i32 conv_i64

theorem Ev.mk {e : Expr} {st : State} {v : Val} (k : Nat) (h : ∀ f, eval P G (f + k) e st = .ok v) : Ev P G e st v :=
  ⟨k, fun f hf => by obtain ⟨g, rfl⟩ := Nat.exists_eq_add_of_le' hf; exact h g⟩

theorem Ex.mk {s : Stmt} {st st' : State} (k : Nat) (h : ∀ f, exec P G (f + k) s st = .ok (none, st')) : Ex P G s st st' :=
  ⟨k, fun f hf => by obtain ⟨g, rfl⟩ := Nat.exists_eq_add_of_le' hf; exact h g⟩

theorem Ex.skip (st : State) : Ex P G .skip st st := Ex.mk 1 fun _ => rfl

theorem Ex.seq {a b : Stmt} {st st₁ st₂ : State} (ha : Ex P G a st st₁) (hb : Ex P G b st₁ st₂) : Ex P G (.seq a b) st st₂ := by
  obtain ⟨N, hN⟩ := ha
  obtain ⟨N', hN'⟩ := hb
  refine ⟨max N N' + 1, fun f hf => ?_⟩
  obtain ⟨g, rfl⟩ := Nat.exists_eq_add_of_le' hf
  show exec P G (g + max N N' + 1) (.seq a b) st = _
  simp only [exec, hN _ (show N ≤ g + max N N' by omega), ok_bind, hN' _ (show N' ≤ g + max N N' by omega)]

theorem Ex.while_false {c : Expr} {s : Stmt} {st : State} (hc : Ev P G c st (truth false)) : Ex P G (.while c s) st st := by
  obtain ⟨N, hN⟩ := hc
  refine ⟨N + 1, fun f hf => ?_⟩
  obtain ⟨g, rfl⟩ := Nat.exists_eq_add_of_le' hf
  show exec P G (g + N + 1) (.while c s) st = _
  simp only [exec, hN _ (show N ≤ g + N by omega), ok_bind, test_truth]
  rfl

theorem Ex.while_true {c : Expr} {s : Stmt} {st st₁ st₂ : State} (hc : Ev P G c st (truth true)) (hs : Ex P G s st st₁)
    (hw : Ex P G (.while c s) st₁ st₂) : Ex P G (.while c s) st st₂ := by
  obtain ⟨N, hN⟩ := hc
  obtain ⟨N', hN'⟩ := hs
  obtain ⟨N'', hN''⟩ := hw
  refine ⟨N + N' + N'' + 1, fun f hf => ?_⟩
  obtain ⟨g, rfl⟩ := Nat.exists_eq_add_of_le' hf
  show exec P G (g + (N + N' + N'') + 1) (.while c s) st = _
  rw [exec, hN _ (show N ≤ g + (N + N' + N'') by omega)]
  simp only [ok_bind, test_truth, if_true, hN' _ (show N' ≤ g + (N + N' + N'') by omega)]
  exact hN'' _ (by omega)

theorem Ev.bin {o : Bin} {a b : Expr} {st : State} {x y v : Val} (ha : Ev P G a st x) (hb : Ev P G b st y) (h : binop o x y = .ok v) :
    Ev P G (.bin o a b) st v := by
  have h := binopAt_of_ok (mem := st.mem) h
  obtain ⟨N, hN⟩ := ha
  obtain ⟨N', hN'⟩ := hb
  refine ⟨N + N' + 1, fun f hf => ?_⟩
  obtain ⟨g, rfl⟩ := Nat.exists_eq_add_of_le' hf
  show eval P G (g + (N + N') + 1) (.bin o a b) st = _
  simp only [eval, hN _ (show N ≤ g + (N + N') by omega), hN' _ (show N' ≤ g + (N + N') by omega), ok_bind, h]

theorem Ev.idx {a i : Expr} {st : State} {x y v : Val} (ha : Ev P G a st x) (hi : Ev P G i st y) (h : load st.mem x y = .ok v) :
    Ev P G (.idx a i) st v := by
  obtain ⟨N, hN⟩ := ha
  obtain ⟨N', hN'⟩ := hi
  refine ⟨N + N' + 1, fun f hf => ?_⟩
  obtain ⟨g, rfl⟩ := Nat.exists_eq_add_of_le' hf
  show eval P G (g + (N + N') + 1) (.idx a i) st = _
  simp only [eval, hN _ (show N ≤ g + (N + N') by omega), hN' _ (show N' ≤ g + (N + N') by omega), ok_bind, h]

/-- The values of arguments, with sufficient fuel. -/
def EvA (P : Prog) (G : Name → Option Cell) (e : Expr) (st : State) (vs : List Val) : Prop :=
  ∃ N, ∀ f, N ≤ f → evalArgs P G f e st = .ok vs

theorem EvA.nil (st : State) : EvA P G .nil st [] :=
  ⟨1, fun f hf => by obtain ⟨g, rfl⟩ := Nat.exists_eq_add_of_le' hf; rfl⟩

theorem EvA.cons {e es : Expr} {st : State} {v : Val} {vs : List Val} (he : Ev P G e st v) (hes : EvA P G es st vs) :
    EvA P G (.cons e es) st (v :: vs) := by
  obtain ⟨N, hN⟩ := he
  obtain ⟨N', hN'⟩ := hes
  refine ⟨N + N' + 1, fun f hf => ?_⟩
  obtain ⟨g, rfl⟩ := Nat.exists_eq_add_of_le' hf
  show evalArgs P G (g + (N + N') + 1) (.cons e es) st = _
  simp only [evalArgs, hN _ (show N ≤ g + (N + N') by omega), hN' _ (show N' ≤ g + (N + N') by omega), ok_bind]

/-- A call of a function without effects. -/
theorem Ev.call {g : Name} {args : Expr} {st : State} {fn : Fun} {vs : List Val} {env : Name → Option Cell} {r : Option Val × State}
    {v : Val} (ha : EvA P G args st vs) (hg : P.lookup g = some fn) (hp : fn.body.pure = true) (hb : bindParams fn.params vs = .ok env)
    (hr : ∃ N, ∀ f, N ≤ f → exec P G f fn.body ⟨env, st.mem⟩ = .ok r) (hv : result fn.ret r.1 = .ok v) :
    Ev P G (.call g args) st v := by
  obtain ⟨N, hN⟩ := ha
  obtain ⟨N', hN'⟩ := hr
  refine ⟨N + N' + 1, fun f hf => ?_⟩
  obtain ⟨k, rfl⟩ := Nat.exists_eq_add_of_le' hf
  show eval P G (k + (N + N') + 1) (.call g args) st = _
  rw [eval, hN _ (show N ≤ k + (N + N') by omega)]
  simp only [ok_bind, hg, hp, if_true, hb, hN' _ (show N' ≤ k + (N + N') by omega), hv]

theorem Ex.assign {x : Name} {e : Expr} {st st' : State} {v : Val} (he : Ev P G e st v) (h : CLang.assign st x v = .ok st') :
    Ex P G (.assign x e) st st' := by
  obtain ⟨N, hN⟩ := he
  refine ⟨N + 1, fun f hf => ?_⟩
  obtain ⟨g, rfl⟩ := Nat.exists_eq_add_of_le' hf
  show exec P G (g + N + 1) (.assign x e) st = _
  simp only [exec, hN _ (show N ≤ g + N by omega), ok_bind, h]

theorem Ex.store {a i e : Expr} {st st' : State} {p k v : Val} (ha : Ev P G a st p) (hi : Ev P G i st k) (he : Ev P G e st v)
    (h : storeAt st p k v = .ok st') : Ex P G (.store a i e) st st' := by
  obtain ⟨N, hN⟩ := ha
  obtain ⟨N', hN'⟩ := hi
  obtain ⟨N'', hN''⟩ := he
  refine ⟨N + N' + N'' + 1, fun f hf => ?_⟩
  obtain ⟨g, rfl⟩ := Nat.exists_eq_add_of_le' hf
  show exec P G (g + (N + N' + N'') + 1) (.store a i e) st = _
  simp only [exec, hN _ (show N ≤ g + (N + N' + N'') by omega), hN' _ (show N' ≤ g + (N + N' + N'') by omega),
    hN'' _ (show N'' ≤ g + (N + N' + N'') by omega), ok_bind, h]

/-- A call of a function for its effects. -/
theorem Ex.call {g : Name} {args : Expr} {st : State} {vs : List Val} {mem' : Nat → Obj} (ha : EvA P G args st vs)
    (hc : Calls P G g vs st.mem mem') : Ex P G (.expr (.call g args)) st ⟨st.env, mem'⟩ := by
  obtain ⟨N, hN⟩ := ha
  obtain ⟨N', hN'⟩ := hc
  refine ⟨N + N' + 1, fun f hf => ?_⟩
  obtain ⟨k, rfl⟩ := Nat.exists_eq_add_of_le' hf
  show exec P G (k + (N + N') + 1) (.expr (.call g args)) st = _
  rw [exec, hN _ (show N ≤ k + (N + N') by omega)]
  have h := hN' (k + (N + N')) (by omega)
  rw [CLang.call] at h
  simp only [ok_bind]
  cases hg : P.lookup g with
  | none => simp [hg] at h
  | some fn =>
    simp only [hg] at h ⊢
    rw [bind_ok] at h
    obtain ⟨env, henv, h⟩ := h
    rw [bind_ok] at h
    obtain ⟨r, hr, h⟩ := h
    cases h
    simp only [henv, ok_bind, hr]

/-- A call from outside. -/
theorem Calls.mk {g : Name} {vs : List Val} {mem : Nat → Obj} {fn : Fun} {env : Name → Option Cell} {st' : State}
    (hg : P.lookup g = some fn) (hb : bindParams fn.params vs = .ok env) (hr : Ex P G fn.body ⟨env, mem⟩ st') :
    Calls P G g vs mem st'.mem := by
  obtain ⟨N, hN⟩ := hr
  refine ⟨N, fun f hf => ?_⟩
  simp only [CLang.call, hg, hb, ok_bind, hN f hf]

/-- Loops of the model are loops of the program: `R i x st` relates the counter and the state of the model with the state of the
program. -/
theorem Ex.while_cfor {σ : Type} {cond : Nat → Bool} {next : Nat → Nat} {body : Nat → σ → M σ} {c : Expr} {s : Stmt}
    (R : Nat → σ → State → Prop) (hc : ∀ i x st, R i x st → Ev P G c st (truth (cond i)))
    (hb : ∀ i x x' st, R i x st → cond i = true → body i x = .ok x' → ∃ st', Ex P G s st st' ∧ R (next i) x' st') :
    ∀ fuel i x x' st, R i x st → cfor cond next body fuel i x = .ok x' → ∃ st' j, Ex P G (.while c s) st st' ∧ R j x' st' := by
  intro fuel
  induction fuel with
  | zero => intro i x x' st _ h; simp [cfor] at h
  | succ fuel ih =>
    intro i x x' st hR h
    rw [cfor] at h
    by_cases hi : cond i = true
    · rw [if_pos hi, bind_ok] at h
      obtain ⟨y, hy, h⟩ := h
      obtain ⟨st₁, h₁, hR₁⟩ := hb i x y st hR hi hy
      obtain ⟨st₂, j, h₂, hR₂⟩ := ih _ _ _ _ hR₁ h
      refine ⟨st₂, j, Ex.while_true ?_ h₁ h₂, hR₂⟩
      have := hc i x st hR
      rwa [hi] at this
    · rw [if_neg hi] at h
      cases h
      refine ⟨st, i, Ex.while_false ?_, hR⟩
      have := hc i x st hR
      rwa [Bool.eq_false_iff.mpr hi] at this

/-! ### Functions that update an array -/

/-- All values are `int32_t` values. -/
def Wf (a : Array Int) : Prop := ∀ i v, rd a i = .ok v → I32 v

theorem Wf.wr {a a' : Array Int} {i : Nat} {v : Int} (h : Wf a) (hv : I32 v) (hw : wr a i v = .ok a') : Wf a' := by
  unfold C.wr at hw
  split at hw
  · cases hw
    intro j w hj
    unfold rd at hj
    rw [Array.getElem?_setIfInBounds] at hj
    by_cases hij : i = j
    · subst hij
      split at hj
      · next h1 =>
        split at h1
        · cases h1; cases hj; exact hv
        · contradiction
      · simp at hj
    · rw [if_neg hij] at hj
      exact h j w hj
  · simp at hw

/-- The cell of an `uint32_t` variable. -/
abbrev cu (i : Nat) : Option Cell := some (.int .u32 (some (i : Int)))

/-- What the loops keep: the variables other than those of `D` have the values they have in `st₀`; those of `D` are declared; object
`o` contains `a`; the other objects contain what they contain in `st₀`. -/
structure Inv (D : List (Name × Ty)) (st₀ : State) (o : Nat) (a : Array Int) (st : State) : Prop where
  keep : ∀ y, y ∉ D.map Prod.fst → st.env y = st₀.env y
  decl : ∀ d ∈ D, ∃ v, st.env d.1 = some (.int d.2 v)
  mem : st.mem = setMem st₀.mem o ⟨.i32, a⟩
  wf : Wf a

theorem Inv.refl {D : List (Name × Ty)} {st : State} {o : Nat} {a : Array Int} (hd : ∀ d ∈ D, ∃ v, st.env d.1 = some (.int d.2 v))
    (hm : st.mem o = ⟨.i32, a⟩) (hw : Wf a) : Inv D st o a st := ⟨fun _ _ => rfl, hd, (setMem_eq _ _ hm).symm, hw⟩

theorem Inv.arr {D : List (Name × Ty)} {st₀ st : State} {o : Nat} {a : Array Int} (h : Inv D st₀ o a st) : st.mem o = ⟨.i32, a⟩ := by
  rw [h.mem, setMem_self]

theorem Inv.other {D : List (Name × Ty)} {st₀ st : State} {o o' : Nat} {a : Array Int} (h : Inv D st₀ o a st) (ho : o' ≠ o) :
    st.mem o' = st₀.mem o' := by
  rw [h.mem, setMem_ne ho]

theorem Inv.assign {D : List (Name × Ty)} {st₀ st : State} {o : Nat} {a : Array Int} (h : Inv D st₀ o a st) {x : Name} {t : Ty}
    (hx : (x, t) ∈ D) (v : Int) : Inv D st₀ o a ⟨setEnv st.env x (.int t (some v)), st.mem⟩ := by
  refine ⟨fun y hy => ?_, fun d hd => ?_, h.mem, h.wf⟩
  · have hyx : y ≠ x := fun e => hy (List.mem_map.mpr ⟨_, hx, e.symm⟩)
    simp only [setEnv_ne hyx, h.keep y hy]
  · by_cases hdx : d.1 = x
    · obtain ⟨v₁, h₁⟩ := h.decl d hd
      obtain ⟨v₂, h₂⟩ := h.decl _ hx
      rw [hdx] at h₁
      rw [h₁] at h₂
      simp only [Option.some.injEq, Cell.int.injEq] at h₂
      exact ⟨some v, by simp only [hdx, setEnv_self, h₂.1]⟩
    · simp only [setEnv_ne hdx]
      exact h.decl d hd

theorem Inv.store {D : List (Name × Ty)} {st₀ st : State} {o : Nat} {a a' : Array Int} (h : Inv D st₀ o a st) {i : Nat} {v : Int}
    (hv : I32 v) (hw : C.wr a i v = .ok a') : Inv D st₀ o a' ⟨st.env, setMem st.mem o ⟨.i32, a'⟩⟩ :=
  ⟨h.keep, h.decl, by simp only [h.mem, setMem_setMem], h.wf.wr hv hw⟩

theorem Inv.trans {D D' : List (Name × Ty)} {st₀ st st' : State} {o : Nat} {a a' : Array Int} (h : Inv D st₀ o a st)
    (h' : Inv D' st o a' st') (hD : ∀ d ∈ D', d ∈ D) : Inv D st₀ o a' st' := by
  refine ⟨fun y hy => ?_, fun d hd => ?_, by rw [h'.mem, h.mem, setMem_setMem], h'.wf⟩
  · rw [h'.keep y fun hy' => ?_, h.keep y hy]
    obtain ⟨d, hd, rfl⟩ := List.mem_map.mp hy'
    exact hy (List.mem_map.mpr ⟨d, hD d hd, rfl⟩)
  · by_cases hdx : d.1 ∈ D'.map Prod.fst
    · obtain ⟨d', hd', e⟩ := List.mem_map.mp hdx
      obtain ⟨v, hv⟩ := h'.decl d' hd'
      obtain ⟨v₁, h₁⟩ := h.decl d hd
      obtain ⟨v₂, h₂⟩ := h.decl d' (hD d' hd')
      rw [e] at h₂ hv
      rw [h₁] at h₂
      simp only [Option.some.injEq, Cell.int.injEq] at h₂
      exact ⟨v, by rw [hv, h₂.1]⟩
    · rw [h'.keep _ hdx]
      exact h.decl d hd

/-- The state of a statement as that of the next. -/
theorem Inv.weaken {D D' : List (Name × Ty)} {st₀ st : State} {o : Nat} {a : Array Int} (h : Inv D st₀ o a st)
    (hD : ∀ d ∈ D', d ∈ D) : Inv D' st o a st := ⟨fun _ _ => rfl, fun d hd => h.decl d (hD d hd), (setMem_eq _ _ h.arr).symm, h.wf⟩

theorem Inv.set {D : List (Name × Ty)} {st₀ st : State} {o : Nat} {a : Array Int} (h : Inv D st₀ o a st) {x : Name} {t t' : Ty}
    {e : Expr} {v : Int} (hx : (x, t) ∈ D) (he : Ev P G e st (.int t' v)) :
    Ex P G (.assign x e) st ⟨setEnv st.env x (.int t (some (conv t v))), st.mem⟩ := by
  obtain ⟨o, ho⟩ := h.decl _ hx
  exact Ex.assign he (assign_int ho)

/-- A loop with one counter. -/
theorem Inv.loop {D : List (Name × Ty)} {st₀ : State} {o : Nat} {iv : Name} {c e : Expr} {b : Stmt} {cond : Nat → Bool}
    {next : Nat → Nat} {body : Nat → Array Int → M (Array Int)} (hD : (iv, .u32) ∈ D)
    (hc : ∀ i a st, Inv D st₀ o a st → st.env iv = cu i → i < 4294967296 → Ev P G c st (truth (cond i)))
    (he : ∀ i a st, Inv D st₀ o a st → st.env iv = cu i → i < 4294967296 → Ev P G e st (.int .u32 (next i : Nat)) ∧ next i < 4294967296)
    (hb : ∀ i a a' st, Inv D st₀ o a st → st.env iv = cu i → i < 4294967296 → cond i = true → body i a = .ok a' →
      ∃ st', Ex P G b st st' ∧ Inv D st₀ o a' st' ∧ st'.env iv = cu i)
    {fuel lo : Nat} {a a' : Array Int} {st : State} {e₀ : Expr} {t₀ : Ty} (hst : Inv D st₀ o a st)
    (he₀ : Ev P G e₀ st (.int t₀ (lo : Nat))) (hlo : lo < 4294967296) (h : cfor cond next body fuel lo a = .ok a') :
    ∃ st', Ex P G (.seq (.assign iv e₀) (.while c (.seq b (.assign iv e)))) st st' ∧ Inv D st₀ o a' st' := by
  have h₀ := hst.set hD he₀
  rw [conv_u32_nat, u32_of hlo] at h₀
  obtain ⟨st', j, hw, hI, _⟩ := Ex.while_cfor (P := P) (G := G) (c := c) (s := .seq b (.assign iv e))
    (fun i a st => Inv D st₀ o a st ∧ st.env iv = cu i ∧ i < 4294967296) (fun i a st hR => hc i a st hR.1 hR.2.1 hR.2.2)
    (fun i a a' st hR hi hab => by
      obtain ⟨st₁, h₁, hI₁, hi₁⟩ := hb i a a' st hR.1 hR.2.1 hR.2.2 hi hab
      obtain ⟨h₂, h₃⟩ := he i a' st₁ hI₁ hi₁ hR.2.2
      have h₄ := hI₁.set hD h₂
      rw [conv_u32_nat, u32_of h₃] at h₄
      exact ⟨_, Ex.seq h₁ h₄, hI₁.assign hD _, setEnv_self _ _ _, h₃⟩)
    fuel lo a a' _ ⟨hst.assign hD _, setEnv_self _ _ _, hlo⟩ h
  exact ⟨st', Ex.seq h₀ hw, hI⟩

/-- `for (i=0; i<n; i++) b` -/
theorem Inv.elementwise {D : List (Name × Ty)} {st₀ : State} {o n : Nat} {b : Stmt} {body : Nat → Array Int → M (Array Int)}
    (hD : (n!"i", .u32) ∈ D) (hn : n < 4294967296) (hn' : st₀.env n!"n" = cu n) (hnD : n!"n" ∉ D.map Prod.fst)
    (hb : ∀ i a a' st, Inv D st₀ o a st → st.env n!"i" = cu i → i < n → body i a = .ok a' →
      ∃ st', Ex P G b st st' ∧ Inv D st₀ o a' st' ∧ st'.env n!"i" = cu i)
    {a a' : Array Int} {st : State} (hst : Inv D st₀ o a st) (h : forUp 0 n 1 body a = .ok a') :
    ∃ st', Ex P G (.seq (.assign n!"i" (.num 0)) (.while (.bin .lt (.var n!"i") (.var n!"n"))
      (.seq b (.assign n!"i" (.bin .add (.var n!"i") (.num 1)))))) st st' ∧ Inv D st₀ o a' st' := by
  refine Inv.loop hD (fun i a st hI hi hi' => ?_) (fun i a st hI hi hi' => ⟨?_, u32_lt _⟩) (fun i a a' st hI hi _ hlt hab => ?_) hst
    (t₀ := .i32) ?_ (by decide) h
  · have hk := hI.keep _ hnD
    refine Ev.mk 3 fun f => ?_
    simp only [crun, hi, hk, hn', binop_ltU hi' hn]
  · refine Ev.mk 3 fun f => ?_
    simp only [crun, hi, Nat.reduceLeDiff, Nat.cast_one, binop_incU hi']
  · exact hb i a a' st hI hi (of_decide_eq_true hlt) hab
  · refine Ev.mk 3 fun f => ?_
    simp only [crun, Nat.reduceLeDiff]

end

end CLang
