import Verif.Proofs.CRunShuffle
import Verif.SpecSourceGen

/-
Symbolic execution of programs of `CLang` with the variables given as a list.
-/

namespace CLang
open C

/-! ### Variables -/

/-- The value of a variable in a list. -/
def look : List (Name × Cell) → Name → Option Cell
  | [], _ => none
  | (x, c) :: l, y => if y = x then some c else look l y

/-- Assignment. -/
def upd : List (Name × Cell) → Name → Cell → List (Name × Cell)
  | [], x, c => [(x, c)]
  | (y, d) :: l, x, c => if x = y then (y, c) :: l else (y, d) :: upd l x c

theorem look_nil : (fun _ => none : Name → Option Cell) = look [] := by funext y; rfl

@[crun] theorem look_cons (x y : Name) (c : Cell) (l : List (Name × Cell)) : look ((x, c) :: l) y = if y = x then some c else look l y := (rfl)
@[crun] theorem look_empty (y : Name) : look [] y = none := (rfl)
@[crun] theorem upd_cons (x y : Name) (c d : Cell) (l : List (Name × Cell)) :
    upd ((y, d) :: l) x c = if x = y then (y, c) :: l else (y, d) :: upd l x c := (rfl)
@[crun] theorem upd_nil (x : Name) (c : Cell) : upd [] x c = [(x, c)] := (rfl)

@[crun] theorem setEnv_look (l : List (Name × Cell)) (x : Name) (c : Cell) : setEnv (look l) x c = look (upd l x c) := by
  induction l with
  | nil => funext y; simp [setEnv, upd, look]
  | cons p l ih =>
    obtain ⟨y, d⟩ := p
    funext z
    have h := congrFun ih z
    simp only [setEnv, upd, look] at h ⊢
    by_cases hzx : z = x
    · subst hzx
      rw [if_pos rfl] at h ⊢
      by_cases hzy : z = y
      · rw [if_pos hzy]; simp only [look, hzy, if_true]
      · rw [if_neg hzy]; simp only [look, if_neg hzy]; exact h
    · rw [if_neg hzx] at h ⊢
      by_cases hxy : x = y
      · subst hxy
        rw [if_pos rfl]; simp only [look, if_neg hzx]
      · rw [if_neg hxy]; simp only [look]; rw [← h]

/-- A state with these variables. -/
abbrev E (l : List (Name × Cell)) (mem : Nat → Obj) : State := ⟨look l, mem⟩

/-- An `uint32_t` variable. -/
abbrev uc (x : Nat) : Cell := .int .u32 (some (x : Int))

/-- An `int32_t` variable. -/
abbrev ic (x : Int) : Cell := .int .i32 (some x)

/-! ### Operators -/

section
variable {x y : Nat}

theorem binop_uu {o : Bin} (h1 : o ≠ .shl) (h2 : o ≠ .shr) (hx : x < 4294967296) (hy : y < 4294967296) :
    binop o (.int .u32 (x : Int)) (.int .u32 (y : Int)) = arith .u32 (x : Int) (y : Int) o := by
  cases o <;> simp_all only [binop, common, promote, conv_u32_nat, u32_of, ne_eq, not_true_eq_false]

theorem binop_uk {o : Bin} (h1 : o ≠ .shl) (h2 : o ≠ .shr) (hx : x < 4294967296) (hy : y < 4294967296) :
    binop o (.int .u32 (x : Int)) (.int .i32 (y : Int)) = arith .u32 (x : Int) (y : Int) o := by
  cases o <;> simp_all only [binop, common, promote, conv_u32_nat, u32_of, ne_eq, not_true_eq_false]

theorem binop_ku {o : Bin} (h1 : o ≠ .shl) (h2 : o ≠ .shr) (hx : x < 4294967296) (hy : y < 4294967296) :
    binop o (.int .i32 (x : Int)) (.int .u32 (y : Int)) = arith .u32 (x : Int) (y : Int) o := by
  cases o <;> simp_all only [binop, common, promote, conv_u32_nat, u32_of, ne_eq, not_true_eq_false]

theorem conv_u64_nat (hx : x < 18446744073709551616) : conv .u64 (x : Int) = x := by
  unfold conv; exact Int.emod_eq_of_lt (by omega) (by omega)

theorem binop_ll {o : Bin} (h1 : o ≠ .shl) (h2 : o ≠ .shr) (hx : x < 18446744073709551616) (hy : y < 18446744073709551616) :
    binop o (.int .u64 (x : Int)) (.int .u64 (y : Int)) = arith .u64 (x : Int) (y : Int) o := by
  cases o <;> simp_all only [binop, common, promote, conv_u64_nat, ne_eq, not_true_eq_false]

theorem binop_ii {o : Bin} {x y : Int} (h1 : o ≠ .shl) (h2 : o ≠ .shr) (hx : I32 x) (hy : I32 y) :
    binop o (.int .i32 x) (.int .i32 y) = arith .i32 x y o := by
  cases o <;> simp_all only [binop, common, promote, conv_i32, toI32_of, ne_eq, not_true_eq_false]

theorem arithU_lt (t : Ty) (x y : Nat) : arith t (x : Int) (y : Int) .lt = .ok (truth (decide (x < y))) := by simp [arith]
theorem arithU_gt (t : Ty) (x y : Nat) : arith t (x : Int) (y : Int) .gt = .ok (truth (decide (y < x))) := by simp [arith]
theorem arithU_le (t : Ty) (x y : Nat) : arith t (x : Int) (y : Int) .le = .ok (truth (decide (x ≤ y))) := by simp [arith]
theorem arithU_ge (t : Ty) (x y : Nat) : arith t (x : Int) (y : Int) .ge = .ok (truth (decide (y ≤ x))) := by simp [arith]
theorem arithU_eq (t : Ty) (x y : Nat) : arith t (x : Int) (y : Int) .eq = .ok (truth (decide (x = y))) := by simp [arith]
theorem arithU_ne (t : Ty) (x y : Nat) : arith t (x : Int) (y : Int) .ne = .ok (truth (decide (x ≠ y))) := by simp [arith]

theorem arith_remU {z : Nat} (h : urem x y = .ok z) : arith .u32 (x : Int) (y : Int) .rem = .ok (.int .u32 (z : Nat)) := by
  unfold urem at h
  split at h
  · simp at h
  · next h0 =>
    cases h
    simp only [arith]
    rw [if_neg (by omega)]
    simp only [fit, ok_bind]
    rfl

theorem arith_divU {z : Nat} (hx : x < 4294967296) (h : udiv x y = .ok z) : arith .u32 (x : Int) (y : Int) .div = .ok (.int .u32 (z : Nat)) := by
  unfold udiv at h
  split at h
  · simp at h
  · next h0 =>
    cases h
    simp only [arith]
    rw [if_neg (by omega)]
    simp only [fit, ok_bind]
    rw [show ((x : Int).tdiv (y : Int)) = ((x / y : Nat) : Int) from rfl, conv_u32_nat, u32_of (lt_of_le_of_lt (Nat.div_le_self _ _) hx)]

theorem arith_orU (hx : x < 4294967296) (hy : y < 4294967296) :
    arith .u32 (x : Int) (y : Int) .or = .ok (.int .u32 (x ||| y : Nat)) := by
  have h : x ||| y < 4294967296 := Nat.or_lt_two_pow (n := 32) hx hy
  simp only [arith, conv, bits, toU32, Int.ofNat_eq_natCast]
  norm_cast
  rw [Nat.mod_eq_of_lt hx, Nat.mod_eq_of_lt hy, Int.toNat_natCast, Int.toNat_natCast, Nat.mod_eq_of_lt h]

theorem arith_subW (hx : x < 4294967296) (hy : y ≤ 4294967296) :
    arith .u32 (x : Int) (y : Int) .sub = .ok (.int .u32 (u32 (x + 4294967296 - y) : Nat)) := by
  simp only [arith, fit, conv, u32, ok_bind]
  congr 2
  omega

theorem binop_shrk (hx : x < 4294967296) : binop .shr (.int .u32 (x : Int)) (.int .i32 ((1 : Nat) : Int)) = .ok (.int .u32 (x / 2 : Nat)) :=
  binop_shrU hx
theorem binop_shlk (hx : x < 4294967296) : binop .shl (.int .u32 (x : Int)) (.int .i32 ((1 : Nat) : Int)) = .ok (.int .u32 (u32 (2 * x) : Nat)) :=
  binop_shlU hx

theorem and_one_lt (x : Nat) : x &&& 1 < 4294967296 := by rw [Nat.and_one_is_mod]; omega
theorem half_lt (h : x < 4294967296) : x / 2 < 4294967296 := by omega
theorem urem_lt {z : Nat} (hx : x < 4294967296) (h : urem x y = .ok z) : z < 4294967296 := by
  unfold urem at h
  split at h
  · simp at h
  · cases h; exact lt_of_le_of_lt (Nat.mod_le _ _) hx
theorem udiv_lt {z : Nat} (hx : x < 4294967296) (h : udiv x y = .ok z) : z < 4294967296 := by
  unfold udiv at h
  split at h
  · simp at h
  · cases h; exact lt_of_le_of_lt (Nat.div_le_self _ _) hx

end

/-! ### Statements -/

section
variable {P : Prog} {G : Name → Option Cell}

/-- The statement executes a `return`. -/
def Rt (P : Prog) (G : Name → Option Cell) (s : Stmt) (st : State) (v : Val) (st' : State) : Prop :=
  ∃ N, ∀ f, N ≤ f → exec P G f s st = .ok (some v, st')

theorem Rt.ret {e : Expr} {st : State} {v : Val} (he : Ev P G e st v) : Rt P G (.ret e) st v st := by
  obtain ⟨N, hN⟩ := he
  refine ⟨N + 1, fun f hf => ?_⟩
  obtain ⟨g, rfl⟩ := Nat.exists_eq_add_of_le' hf
  show exec P G (g + N + 1) _ st = _
  simp only [crun, hN (g + N) (by omega)]

theorem Rt.left {a b : Stmt} {st st' : State} {v : Val} (h : Rt P G a st v st') : Rt P G (.seq a b) st v st' := by
  obtain ⟨N, hN⟩ := h
  refine ⟨N + 1, fun f hf => ?_⟩
  obtain ⟨g, rfl⟩ := Nat.exists_eq_add_of_le' hf
  show exec P G (g + N + 1) _ st = _
  simp only [crun, hN (g + N) (by omega)]

theorem Rt.seq {a b : Stmt} {st st₁ st' : State} {v : Val} (ha : Ex P G a st st₁) (h : Rt P G b st₁ v st') : Rt P G (.seq a b) st v st' := by
  obtain ⟨N, hN⟩ := ha
  obtain ⟨N', hN'⟩ := h
  refine ⟨max N N' + 1, fun f hf => ?_⟩
  obtain ⟨g, rfl⟩ := Nat.exists_eq_add_of_le' (show 1 ≤ f by omega)
  simp only [crun, hN g (by omega), hN' g (by omega)]

theorem Rt.ite {c : Expr} {a b : Stmt} {st st' : State} {b' : Bool} {v : Val} (hc : Ev P G c st (truth b'))
    (h : Rt P G (if b' then a else b) st v st') : Rt P G (.ite c a b) st v st' := by
  obtain ⟨N, hN⟩ := hc
  obtain ⟨N', hN'⟩ := h
  refine ⟨max N N' + 1, fun f hf => ?_⟩
  obtain ⟨g, rfl⟩ := Nat.exists_eq_add_of_le' (show 1 ≤ f by omega)
  have h2 := hN' g (by omega)
  simp only [exec_ite, hN g (by omega), ok_bind, test_truth]
  cases b' <;> simpa using h2

theorem Rt.while_now {c : Expr} {s : Stmt} {st st' : State} {t : Ty} {v : Int} (hc : Ev P G c st (truth true)) (h : Rt P G s st (.int t v) st') :
    Rt P G (.while c s) st (.int t v) st' := by
  obtain ⟨N, hN⟩ := hc
  obtain ⟨N', hN'⟩ := h
  refine ⟨max N N' + 1, fun f hf => ?_⟩
  obtain ⟨g, rfl⟩ := Nat.exists_eq_add_of_le' (show 1 ≤ f by omega)
  rw [exec]
  simp only [hN g (by omega), ok_bind, test_truth, if_true, hN' g (by omega)]

theorem Rt.while_later {c : Expr} {s : Stmt} {st st₁ st' : State} {v : Val} (hc : Ev P G c st (truth true)) (hs : Ex P G s st st₁)
    (h : Rt P G (.while c s) st₁ v st') : Rt P G (.while c s) st v st' := by
  obtain ⟨N, hN⟩ := hc
  obtain ⟨N', hN'⟩ := hs
  obtain ⟨N'', hN''⟩ := h
  refine ⟨max (max N N') N'' + 1, fun f hf => ?_⟩
  obtain ⟨g, rfl⟩ := Nat.exists_eq_add_of_le' (show 1 ≤ f by omega)
  rw [exec]
  simp only [hN g (by omega), ok_bind, test_truth, if_true, hN' g (by omega), hN'' g (by omega)]

/-- A call of a function without effects. -/
theorem Ev.callv {g : Name} {args : Expr} {st st' : State} {fn : Fun} {vs : List Val} {env : Name → Option Cell} {v w : Val}
    (ha : EvA P G args st vs) (hg : P.lookup g = some fn) (hp : fn.body.pure = true) (hb : bindParams fn.params vs = .ok env)
    (hr : Rt P G fn.body ⟨env, st.mem⟩ v st') (hv : result fn.ret (some v) = .ok w) : Ev P G (.call g args) st w :=
  Ev.call ha hg hp hb hr hv

/-- A call from outside of a function that returns a value. -/
theorem Returns.mk {g : Name} {vs : List Val} {mem : Nat → Obj} {fn : Fun} {env : Name → Option Cell} {st' : State} {v w : Val}
    (hg : P.lookup g = some fn) (hb : bindParams fn.params vs = .ok env) (hr : Rt P G fn.body ⟨env, mem⟩ v st')
    (hv : result fn.ret (some v) = .ok w) : Returns P G g vs mem w st'.mem := by
  obtain ⟨N, hN⟩ := hr
  refine ⟨N, fun f hf => ?_⟩
  simp only [callValue, hg, hb, ok_bind, hN f hf, hv]

/-- Loops of the model are loops of the program. -/
theorem Ex.while_cwhile {σ : Type} {cond : σ → Bool} {body : σ → M σ} {c : Expr} {s : Stmt} (R : σ → State → Prop)
    (hc : ∀ x st, R x st → Ev P G c st (truth (cond x)))
    (hb : ∀ x x' st, R x st → cond x = true → body x = .ok x' → ∃ st', Ex P G s st st' ∧ R x' st') :
    ∀ fuel x x' st, R x st → cwhile cond body fuel x = .ok x' → ∃ st', Ex P G (.while c s) st st' ∧ R x' st' := by
  intro fuel
  induction fuel with
  | zero => intro x x' st _ h; simp [cwhile] at h
  | succ fuel ih =>
    intro x x' st hR h
    rw [cwhile] at h
    by_cases hi : cond x = true
    · rw [if_pos hi, bind_ok] at h
      obtain ⟨y, hy, h⟩ := h
      obtain ⟨st₁, h₁, hR₁⟩ := hb x y st hR hi hy
      obtain ⟨st₂, h₂, hR₂⟩ := ih _ _ _ hR₁ h
      refine ⟨st₂, Ex.while_true ?_ h₁ h₂, hR₂⟩
      have := hc x st hR
      rwa [hi] at this
    · rw [if_neg hi] at h
      cases h
      refine ⟨st, Ex.while_false ?_, hR⟩
      have := hc x st hR
      rwa [Bool.eq_false_iff.mpr hi] at this

theorem Ev.v {l : List (Name × Cell)} {mem : Nat → Obj} {x : Name} {c : Cell} {v : Val} (h : look l x = some c) (hc : cellVal (some c) = .ok v) :
    Ev P G (.var x) (E l mem) v := Ev.var (st := E l mem) h hc

/-- `x = e` -/
theorem Ex.asg {l : List (Name × Cell)} {mem : Nat → Obj} {x : Name} {e : Expr} {t t' : Ty} {v w : Int} {o : Option Int}
    (he : Ev P G e (E l mem) (.int t' v)) (hx : look l x = some (.int t o)) (hv : conv t v = w) :
    Ex P G (.assign x e) (E l mem) (E (upd l x (.int t (some w))) mem) := by
  subst hv
  have h := Ex.assign he (assign_int hx)
  simpa only [setEnv_look] using h

/-- `x = e` for a variable of type `uint32_t` -/
theorem Ex.asgu {l : List (Name × Cell)} {mem : Nat → Obj} {x : Name} {e : Expr} {t' : Ty} {v : Nat} {o : Option Int}
    (he : Ev P G e (E l mem) (.int t' (v : Int))) (hx : look l x = some (.int .u32 o)) (hv : v < 4294967296) :
    Ex P G (.assign x e) (E l mem) (E (upd l x (uc v)) mem) :=
  Ex.asg he hx (by rw [conv_u32_nat, u32_of hv])

theorem Ex.asserts {e : Expr} {st : State} (he : Ev P G e st (truth true)) : Ex P G (.assert e) st st := by
  obtain ⟨N, hN⟩ := he
  refine ⟨N + 1, fun f hf => ?_⟩
  obtain ⟨g, rfl⟩ := Nat.exists_eq_add_of_le' hf
  show exec P G (g + N + 1) _ st = _
  simp only [crun, hN (g + N) (by omega)]
  rfl

theorem Ev.land {a b : Expr} {st : State} {x y : Bool} (ha : Ev P G a st (truth x)) (hb : x = true → Ev P G b st (truth y)) :
    Ev P G (.land a b) st (truth (x && y)) := by
  obtain ⟨N, hN⟩ := ha
  cases x with
  | false =>
    refine ⟨N + 1, fun f hf => ?_⟩
    obtain ⟨g, rfl⟩ := Nat.exists_eq_add_of_le' (show 1 ≤ f by omega)
    simp only [eval_land, hN g (by omega), ok_bind, test_truth]
    rfl
  | true =>
    obtain ⟨N', hN'⟩ := hb rfl
    refine ⟨max N N' + 1, fun f hf => ?_⟩
    obtain ⟨g, rfl⟩ := Nat.exists_eq_add_of_le' (show 1 ≤ f by omega)
    simp only [eval_land, hN g (by omega), hN' g (by omega), ok_bind, test_truth]
    rfl

end

/-! ### Arrays of numbers -/

/-- An object that contains natural numbers. -/
theorem rd_nats {a : Array Nat} {i v : Nat} (h : rd a i = .ok v) : rd (a.map fun x : Nat => (x : Int)) i = .ok (v : Int) := by
  unfold rd at *
  rw [Array.getElem?_map]
  split at h
  · next h1 => cases h; rw [h1]; rfl
  · simp at h

theorem wr_nats {a a' : Array Nat} {i v : Nat} (h : wr a i v = .ok a') :
    wr (a.map fun x : Nat => (x : Int)) i (v : Int) = .ok (a'.map fun x : Nat => (x : Int)) := by
  unfold wr at *
  rw [Array.size_map]
  split at h
  · next h1 =>
    cases h
    rw [if_pos h1]
    congr 1
    apply Array.ext_getElem?
    intro j
    simp only [Array.getElem?_setIfInBounds, Array.getElem?_map, Array.size_map]
    by_cases hij : i = j
    · subst hij; simp [h1]
    · simp [hij]
  · simp at h

theorem position_off (b i : Nat) : position b 1 (i : Int) = .ok (b + i) := by
  unfold position
  rw [if_neg (by omega)]
  congr 1
  omega

theorem load_off (mem : Nat → Obj) (o b : Nat) (t : Ty) (i : Nat) :
    load mem (.ptr o b 1) (.int t (i : Int)) = (rd (mem o).data (b + i) >>= fun v => .ok (.int (mem o).ty v)) := by
  simp only [load, position_off]; rfl

theorem storeAt_off (st : State) (o b : Nat) (t t' : Ty) (i : Nat) (v : Int) :
    storeAt st (.ptr o b 1) (.int t (i : Int)) (.int t' v) =
      (wr (st.mem o).data (b + i) (conv (st.mem o).ty v) >>= fun d => .ok { st with mem := setMem st.mem o ⟨(st.mem o).ty, d⟩ }) := by
  simp only [storeAt, position_off]; rfl

end CLang
