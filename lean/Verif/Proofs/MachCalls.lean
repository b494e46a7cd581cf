import Verif.SpecCalls
import Verif.Proofs.MachCall
import Verif.Proofs.MachElem
import Verif.Proofs.MachMul
import Verif.Proofs.MachCtR
import Verif.Proofs.MachCtS
import Verif.Proofs.MachGsR
import Verif.Proofs.MachGsS
import Verif.Model.AsmProducts

/-
Sequences of calls on the machine follow the products of `Verif/Model/AsmProducts.lean`.
-/

namespace X86
open C Avx Spec AsmCalls Tables

/-! ### The calls as functions on arrays -/

def sem1 (f : Code.Label) (a : Array Int) (n : Nat) : M (Array Int) :=
  match f with
  | .reduce_array_asm => Asm.reduce_array_asm a n
  | .reduce_array_twice_asm => Asm.reduce_array_twice_asm a n
  | .correct_asm => Asm.correct_asm a n
  | .shift_array_asm => Asm.shift_array_asm a n
  | _ => .error .abort

def sem2 (f : Code.Label) (a : Array Int) (n : Nat) (p : Array Int) : M (Array Int) :=
  match f with
  | .mul_reduce_array16_asm => Asm.mul_reduce_array16_asm a n p
  | .ntt_red_ct_rev2std_asm => Asm.ntt_red_ct_rev2std_asm a n p
  | .ntt_red_ct_std2rev_asm => Asm.ntt_red_ct_std2rev_asm a n p
  | .ntt_red_gs_rev2std_asm => Asm.ntt_red_gs_rev2std_asm a n p
  | .ntt_red_gs_std2rev_asm => Asm.ntt_red_gs_std2rev_asm a n p
  | .mulntt_red_ct_std2rev_asm => Asm.mulntt_red_ct_std2rev_asm a n p
  | .nttmul_red_gs_rev2std_asm => Asm.nttmul_red_gs_rev2std_asm a n p
  | _ => .error .abort

/-- Contents of `c`, `a`, `b`. -/
abbrev St := Array Int × Array Int × Array Int

def get (st : St) : Arg → Array Int
  | .c => st.1
  | .a => st.2.1
  | .b => st.2.2

def set (st : St) (x : Arg) (v : Array Int) : St :=
  match x with
  | .c => (v, st.2.1, st.2.2)
  | .a => (st.1, v, st.2.2)
  | .b => (st.1, st.2.1, v)

def sem (t : RedTables) (n : Nat) (op : Op) (st : St) : M (Array Int) :=
  match op with
  | .one f x => sem1 f (get st x) n
  | .table f x p => sem2 f (get st x) n (tableOf t p)
  | .mul x y z => Asm.mul_reduce_array_asm (get st x) n (get st y) (get st z)
  | .scalar x v => Asm.scalar_mul_reduce_array_asm (get st x) n v

def sems (t : RedTables) (n : Nat) : List Op → St → M St
  | [], st => pure st
  | op :: l, st => do
    let v ← sem t n op st
    sems t n l (set st (dest op) v)

theorem get_set (st : St) (x y : Arg) (v : Array Int) : get (set st x v) y = if y = x then v else get st y := by
  cases x <;> cases y <;> rfl

/-! ### One call -/

/-- Memory holds the arrays of a set `S`, the tables and the data section. -/
structure Has (K : Machine) (L : Place) (n : Nat) (t : RedTables) (S : List Arg) (st : St) (m : Memory) : Prop where
  loaded : Loaded K m
  size : ∀ x ∈ S, (get st x).size = n
  arr : ∀ x ∈ S, Holds32 m (L.arr x) (get st x)
  tsize : ∀ p, (tableOf t p).size = n
  tab : ∀ p, Holds16 m (L.tab p) (tableOf t p)

variable {K : Machine} {L : Place} {n : Nat} {t : RedTables} {S : List Arg} {st : St} {m m' : Memory} {s : State} {op : Op}

theorem bytes_val {k : Nat} {B : Word} (h : ∀ i < k, m' (B + BitVec.ofNat 64 i) = m (B + BitVec.ofNat 64 i)) {o l : Nat}
    (hl : o + l ≤ k) : val m' (B + BitVec.ofNat 64 o) l = val m (B + BitVec.ofNat 64 o) l := by
  apply val_congr
  intro j hj
  rw [BitVec.add_assoc, ← BitVec.ofNat_add]
  exact h _ (by omega)

theorem Holds32.congr {B : Word} {a : Array Int} (h : ∀ i < 4 * a.size, m' (B + BitVec.ofNat 64 i) = m (B + BitVec.ofNat 64 i))
    (H : Holds32 m B a) : Holds32 m' B a := by
  intro i hi
  rw [← H i hi]
  unfold int32At
  rw [bytes_val h (by omega)]

theorem Holds16.congr {B : Word} {a : Array Int} (h : ∀ i < 2 * a.size, m' (B + BitVec.ofNat 64 i) = m (B + BitVec.ofNat 64 i))
    (H : Holds16 m B a) : Holds16 m' B a := by
  intro i hi
  rw [← H i hi]
  unfold int16At
  rw [bytes_val h (by omega)]

theorem Loaded.congr (h : ∀ i < 512, m' (K.data + BitVec.ofNat 64 i) = m (K.data + BitVec.ofNat 64 i)) (H : Loaded K m) :
    Loaded K m' where
  align := H.align
  readable := H.readable
  longs := by
    intro c j hj
    have := addr_le c
    rw [← H.longs c j hj]
    unfold int32At
    rw [bytes_val h (by omega)]

theorem Has.kept (H : Has K L n t S st m) (h : Kept K L n m m') : Has K L n t S st m' where
  loaded := H.loaded.congr h.data
  size := H.size
  arr := fun x hx => (H.arr x hx).congr (by rw [H.size x hx]; exact h.arr x)
  tsize := H.tsize
  tab := fun p => (H.tab p).congr (by rw [H.tsize]; exact h.tab p)

/-- A call on an array with contents `w`. -/
theorem call_of (F : Fits K L n) (R : Ready K L n op m s) (hn : n < 2 ^ 32) (hl : Loaded K s.mem) {w : Array Int} (hw : w.size = n)
    (hh : Holds32 s.mem (L.arr (dest op)) w) : Call K (L.arr (dest op)) w s where
  size := by rw [hw]; exact hn
  low := F.low _
  readable := by rw [hw]; exact F.readable _
  writable := by rw [hw]; exact F.writable _
  holds := hh
  loaded := hl
  data_apart := by rw [hw]; exact F.data_apart _
  stack := R.stack
  stack_apart := by rw [hw]; exact R.stack_apart _
  arg1 := R.arg1
  arg2 := by rw [hw]; exact R.arg2
  lanes := R.lanes

theorem Has.table (H : Has K L n t S st s.mem) (F : Fits K L n) (x : Arg) {w : Array Int} (hw : w.size = n) (p : Tbl) :
    Table K (L.arr x) w s (L.tab p) (tableOf t p) where
  readable := by rw [H.tsize]; exact F.tab_readable p
  apart := by rw [hw, H.tsize]; exact F.tab_apart x p
  holds := H.tab p

theorem Has.operand (H : Has K L n t S st s.mem) (F : Fits K L n) {x y : Arg} {w : Array Int} (hw : w.size = n) (hy : y ∈ S)
    (h : Apart (L.arr x) (4 * n) (L.arr y) (4 * n)) : Operand K (L.arr x) w s (L.arr y) (get st y) where
  readable := by rw [H.size y hy]; exact F.readable y
  apart := by rw [hw, H.size y hy]; exact h
  holds := H.arr y hy

/-- After a call that has changed the array `x`: `x` and the arrays apart from it. -/
theorem Has.after (H : Has K L n t S st m) (F : Fits K L n) {x : Arg} {v : Array Int} (hv : v.size = n) (hh : Holds32 m' (L.arr x) v)
    (h : ∀ b, (∀ i < 4 * n, b ≠ L.arr x + BitVec.ofNat 64 i) → m' b = m b) {S' : List Arg}
    (hS : ∀ y ∈ S', y = x ∨ y ∈ S ∧ Apart (L.arr x) (4 * n) (L.arr y) (4 * n)) : Has K L n t S' (set st x v) m' where
  loaded := H.loaded.congr fun i hi => h _ fun j hj e => F.data_apart x j hj i hi e.symm
  size := by
    intro y hy
    rw [get_set]
    split
    · exact hv
    · next e => exact H.size y ((hS y hy).resolve_left e).1
  arr := by
    intro y hy
    rw [get_set]
    split
    · next e => rw [e]; exact hh
    · next e =>
      obtain ⟨hy, ha⟩ := (hS y hy).resolve_left e
      exact (H.arr y hy).congr fun i hi => h _ fun j hj e' => ha j hj i (by rw [← H.size y hy]; exact hi) e'.symm
  tsize := H.tsize
  tab := fun p => (H.tab p).congr fun i hi => h _ fun j hj e => F.tab_apart x p j hj i (by rw [← H.tsize p]; exact hi) e.symm

private theorem at0 {A x : Word} (h : x = A) : x = A + BitVec.ofNat 64 0 := by
  rw [h]
  simp

theorem scalar_congr {a : Array Int} {u v : Int} (h : toI32 u = toI32 v) :
    Asm.scalar_mul_reduce_array_asm a n u = Asm.scalar_mul_reduce_array_asm a n v := by
  have e : Asm.scalar_mul_reduce_array_asm_blk_1 (vmovd u) = Asm.scalar_mul_reduce_array_asm_blk_1 (vmovd v) := by
    show V8.splat (toI32 u) = V8.splat (toI32 v)
    rw [h]
  unfold Asm.scalar_mul_reduce_array_asm
  simp only []
  rw [e]

/-- An operation on one array. -/
def unary (t : RedTables) (n : Nat) (op : Op) (w : Array Int) : M (Array Int) :=
  match op with
  | .one f _ => sem1 f w n
  | .table f _ p => sem2 f w n (tableOf t p)
  | .mul _ _ _ => .error .abort
  | .scalar _ v => Asm.scalar_mul_reduce_array_asm w n v

def isMul : Op → Bool
  | .mul _ _ _ => true
  | _ => false

theorem sem_unary (h : isMul op = false) : sem t n op st = unary t n op (get st (dest op)) := by
  cases op with
  | mul x y z => cases h
  | _ => rfl

theorem Has.returns (H : Has K L n t S st s.mem) (F : Fits K L n) (R : Ready K L n op m s) (hn : n < 2 ^ 32) {v w : Array Int}
    (hw : w.size = n) (hh : Holds32 s.mem (L.arr (dest op)) w) (hv : unary t n op w = .ok v) :
    Returns K (label op) (L.arr (dest op)) w s v := by
  have C := call_of F R hn H.loaded hw hh
  have h0 := at0 C.arg1
  have h1 := C.arg2
  cases op with
  | one f x =>
    have hv : sem1 f (w) n = .ok v := hv
    rw [← hw] at hv
    show Returns K f _ _ _ _
    unfold sem1 at hv
    split at hv
    · exact C.returns codeAt_reduce_array_asm hv (reduce_array_asm_sim C.host h0 h1 .refl C.env)
    · exact C.returns codeAt_reduce_array_twice_asm hv (reduce_array_twice_asm_sim C.host h0 h1 .refl C.env)
    · exact C.returns codeAt_correct_asm hv (correct_asm_sim C.host h0 h1 .refl C.env)
    · exact C.returns codeAt_shift_array_asm hv (shift_array_asm_sim C.host h0 h1 .refl C.env)
    · cases hv
  | table f x p =>
    have hv : sem2 f (w) n (tableOf t p) = .ok v := hv
    rw [← hw] at hv
    have T := (H.table F x hw p).tab
    have h2 := at0 R.args
    show Returns K f _ _ _ _
    unfold sem2 at hv
    split at hv
    · exact C.returns codeAt_mul_reduce_array16_asm hv (mul_reduce_array16_asm_sim C.host h0 h1 T h2 .refl C.env)
    · exact C.returns codeAt_ntt_red_ct_rev2std_asm hv (ntt_red_ct_rev2std_asm_sim C.host h0 h1 T h2 .refl C.env)
    · exact C.returns codeAt_ntt_red_ct_std2rev_asm hv (ntt_red_ct_std2rev_asm_sim C.host h0 h1 T h2 .refl C.env)
    · exact C.returns codeAt_ntt_red_gs_rev2std_asm hv (ntt_red_gs_rev2std_asm_sim C.host h0 h1 T h2 .refl C.env)
    · exact C.returns codeAt_ntt_red_gs_std2rev_asm hv (ntt_red_gs_std2rev_asm_sim C.host h0 h1 T h2 .refl C.env)
    · exact C.returns codeAt_mulntt_red_ct_std2rev_asm hv (mulntt_red_ct_std2rev_asm_sim C.host h0 h1 T h2 .refl C.env)
    · exact C.returns codeAt_nttmul_red_gs_rev2std_asm hv (nttmul_red_gs_rev2std_asm_sim C.host h0 h1 T h2 .refl C.env)
    · cases hv
  | mul x y z => cases hv
  | scalar x u =>
    have hv : Asm.scalar_mul_reduce_array_asm (w) n u = .ok v := hv
    have hu : toI32 (s.gpr rdx).toNat = u := R.args
    have hi := I32_toI32 (s.gpr rdx).toNat
    rw [← scalar_congr (u := ((s.gpr rdx).toNat : Int)) (by rw [← hu]; unfold toI32; omega), ← hw] at hv
    exact C.returns codeAt_scalar_mul_reduce_array_asm hv (scalar_mul_reduce_array_asm_sim C.host h0 h1 rfl .refl C.env)

theorem Has.returns_mul (H : Has K L n t [.a, .b] st s.mem) (F : Fits K L n) (R : Ready K L n (.mul .c .a .b) m s) (hn : n < 2 ^ 32)
    {v w : Array Int} (hw : w.size = n) (hv : Asm.mul_reduce_array_asm w n (get st .a) (get st .b) = .ok v) :
    ∃ w', w'.size = n ∧ Returns K .mul_reduce_array_asm (L.arr .c) w' s v := by
  have key : ∀ w', w'.size = n → Holds32 s.mem (L.arr .c) w' → Opnd K (L.arr .c) w'.size s.mem w' (L.arr .a) (get st .a) →
      Opnd K (L.arr .c) w'.size s.mem w' (L.arr .b) (get st .b) → Returns K .mul_reduce_array_asm (L.arr .c) w' s v := by
    intro w' hw' hh T1 T2
    have C := call_of F R hn H.loaded hw' hh
    have hv := mul_same hw hw' hv
    rw [← hw'] at hv
    exact C.returns codeAt_mul_reduce_array_asm hv
      (mul_reduce_array_asm_simO C.host (at0 C.arg1) C.arg2 T1 (at0 R.args.1) T2 (at0 R.args.2) .refl C.env)
  have ha : Arg.a ∈ [Arg.a, Arg.b] := by decide
  have hb : Arg.b ∈ [Arg.a, Arg.b] := by decide
  rcases F.apart_c .a with e | e1
  · refine ⟨get st .a, H.size _ ha, key _ (H.size _ ha) (by rw [e]; exact H.arr _ ha) (.inr ⟨e.symm, rfl⟩) (.inl ?_)⟩
    exact (H.operand F (H.size _ ha) hb (by rw [e]; exact F.apart)).src
  rcases F.apart_c .b with e | e2
  · refine ⟨get st .b, H.size _ hb, key _ (H.size _ hb) (by rw [e]; exact H.arr _ hb) (.inl ?_) (.inr ⟨e.symm, rfl⟩)⟩
    exact (H.operand F (H.size _ hb) ha e1).src
  let w' : Array Int := Array.ofFn (n := n) fun i => int32At s.mem (L.arr .c + BitVec.ofNat 64 (4 * i))
  have hw' : w'.size = n := Array.size_ofFn
  refine ⟨w', hw', key w' hw' ?_ (.inl (H.operand F hw' ha e1).src) (.inl (H.operand F hw' hb e2).src)⟩
  intro i hi
  show _ = elt w' i
  unfold elt
  rw [Array.getD_eq_getD_getElem?, Array.getElem?_eq_getElem hi, Option.getD_some]
  simp only [w', Array.getElem_ofFn]

/-! ### Lists of calls -/

/-- Calls on one array each, of some that are apart. -/
theorem calls_unary (F : Fits K L n) (hn : n < 2 ^ 32) {Q : Memory → Prop} {st' : St}
    (hS : ∀ x ∈ S, ∀ y ∈ S, x = y ∨ Apart (L.arr x) (4 * n) (L.arr y) (4 * n)) {l' : List Op}
    (hQ : ∀ m, Has K L n t S st' m → Calls K L n l' m Q) :
    ∀ (l : List Op), (∀ op ∈ l, isMul op = false ∧ dest op ∈ S) → ∀ (st : St) (m : Memory), Has K L n t S st m →
      sems t n l st = .ok st' → Calls K L n (l ++ l') m Q
  | [], _, st, m, H, h => by
    cases h
    exact hQ m H
  | op :: l, hl, st, m, H, h => by
    intro s R
    obtain ⟨v, hv, h⟩ := bind_ok' h
    have H' := H.kept R.kept
    obtain ⟨h1, hd⟩ := hl op List.mem_cons_self
    rw [sem_unary h1] at hv
    obtain ⟨N, s', hsz, h1, h2, h3, h4, h5, h6⟩ := H'.returns F R hn (H'.size _ hd) (H'.arr _ hd) hv
    rw [H'.size _ hd] at hsz h5
    refine ⟨N, s', h1, h2, h3, h5, h6, calls_unary F hn hS hQ l (fun op h => hl op (List.mem_cons_of_mem _ h)) _ _
      (H'.after F hsz h4 h5 fun y hy => ?_) h⟩
    rcases hS _ hd y hy with e | e
    · exact .inl e.symm
    · exact .inr ⟨hy, e⟩

theorem sems_append (l l' : List Op) : ∀ st, sems t n (l ++ l') st = (sems t n l st >>= fun st => sems t n l' st) := by
  induction l with
  | nil => intro st; rfl
  | cons op l ih =>
    intro st
    show (sem t n op st >>= fun v => sems t n (l ++ l') _) = ((sem t n op st >>= fun v => sems t n l _) >>= _)
    cases sem t n op st with
    | error e => rfl
    | ok v => exact ih _

/-- Calls on `a` and `b`, the product of these in `c`, calls on `c`. -/
theorem calls_of (F : Fits K L n) (hn : n < 2 ^ 32) {Q : Memory → Prop} {st st' : St} (hQ : ∀ m, Has K L n t [.c] st' m → Q m)
    {l1 l2 : List Op} (h1 : ∀ op ∈ l1, isMul op = false ∧ dest op ∈ [Arg.a, .b]) (h2 : ∀ op ∈ l2, isMul op = false ∧ dest op ∈ [Arg.c])
    (H : Has K L n t [.a, .b] st m) (hc : (get st .c).size = n) (h : sems t n (l1 ++ .mul .c .a .b :: l2) st = .ok st') :
    Calls K L n (l1 ++ .mul .c .a .b :: l2) m Q := by
  rw [sems_append] at h
  obtain ⟨st1, e1, h⟩ := bind_ok' h
  obtain ⟨v, hv, h⟩ := bind_ok' h
  have hc1 : ∀ (l : List Op) (st st1 : St), (∀ op ∈ l, isMul op = false ∧ dest op ∈ [Arg.a, .b]) → sems t n l st = .ok st1 →
      get st1 .c = get st .c := by
    intro l
    induction l with
    | nil => intro st st1 _ h; cases h; rfl
    | cons op l ih =>
      intro st st1 hl h
      obtain ⟨v, hv, h⟩ := bind_ok' h
      rw [ih _ _ (fun op h => hl op (List.mem_cons_of_mem _ h)) h, get_set, if_neg]
      intro e
      have := (hl op List.mem_cons_self).2
      rw [← e] at this
      exact absurd this (by decide)
  refine calls_unary F hn ?_ ?_ l1 h1 st m H e1
  · intro x hx y hy
    simp only [List.mem_cons, List.not_mem_nil, or_false] at hx hy
    rcases hx with rfl | rfl <;> rcases hy with rfl | rfl
    · exact .inl rfl
    · exact .inr F.apart
    · exact .inr F.apart.symm
    · exact .inl rfl
  · intro m H s R
    have H' := H.kept R.kept
    obtain ⟨w', hw', N, s', hsz, h3, h4, h5, h6, h7, h8⟩ := H'.returns_mul F R hn (by rw [hc1 _ _ _ h1 e1]; exact hc) hv
    rw [hw'] at hsz h7
    refine ⟨N, s', h3, h4, h5, h7, h8, ?_⟩
    have key := calls_unary (l' := []) F hn (S := [.c]) (Q := Q) (st' := st') (t := t) ?_ (fun m H => hQ m H) l2 h2 (set st1 .c v) s'.mem
      (H'.after F hsz h6 h7 fun y hy => .inl (by simpa using hy)) h
    · rw [List.append_nil] at key
      exact key
    · intro x hx y hy
      simp only [List.mem_cons, List.not_mem_nil, or_false] at hx hy
      exact .inl (hx.trans hy.symm)

/-- The form of the products. -/
def shaped : List Op → Bool
  | [] => false
  | .mul .c .a .b :: l => l.all fun op => !isMul op && decide (dest op ∈ [Arg.c])
  | op :: l => !isMul op && decide (dest op ∈ [Arg.a, .b]) && shaped l

theorem shaped_split : ∀ l, shaped l = true → ∃ l1 l2, l = l1 ++ .mul .c .a .b :: l2 ∧
    (∀ op ∈ l1, isMul op = false ∧ dest op ∈ [Arg.a, .b]) ∧ ∀ op ∈ l2, isMul op = false ∧ dest op ∈ [Arg.c] := by
  intro l
  induction l with
  | nil => intro h; cases h
  | cons op l ih =>
    intro h
    unfold shaped at h
    split at h
    · cases ‹_ = _›
    · next e =>
      cases e
      refine ⟨[], l, rfl, fun op h => absurd h List.not_mem_nil, fun op ho => ?_⟩
      have := List.all_eq_true.mp h op ho
      simp only [Bool.and_eq_true, Bool.not_eq_true', decide_eq_true_eq] at this
      exact this
    · next e =>
      cases e
      simp only [Bool.and_eq_true, Bool.not_eq_true', decide_eq_true_eq] at h
      obtain ⟨l1, l2, rfl, h1, h2⟩ := ih h.2
      refine ⟨op :: l1, l2, rfl, fun op' ho => ?_, h2⟩
      rcases List.mem_cons.mp ho with rfl | ho
      · exact h.1
      · exact h1 op' ho

/-! ### The products -/

section
variable {c a b : Array Int}

theorem sems_shift (sh : Bool) (x : Arg) (l : List Op) :
    sems t n (shift sh x ++ l) st = (AsmProducts.shiftInput n sh (get st x) >>= fun v => sems t n l (set st x v)) := by
  cases sh with
  | true => rfl
  | false => cases x <;> rfl

theorem sems_product1 (sh : Bool) : sems t n (product1 sh) (c, a, b) = AsmProducts.product1 t n sh c a b := by
  unfold product1 AsmProducts.product1
  rw [List.append_assoc, List.append_assoc, sems_shift]
  refine bind_congr fun a => bind_congr fun a => bind_congr fun a => bind_congr fun a => ?_
  exact (sems_shift _ _ _).trans rfl

theorem sems_product1_1024 : sems t n product1_1024 (c, a, b) = AsmProducts.product1_1024 t n c a b := rfl

theorem sems_product2 (sh : Bool) : sems t n (product2 sh) (c, a, b) = AsmProducts.product2 t n sh c a b := by
  unfold product2 AsmProducts.product2
  rw [List.append_assoc, List.append_assoc, sems_shift]
  refine bind_congr fun a => bind_congr fun a => bind_congr fun a => bind_congr fun a => ?_
  exact (sems_shift _ _ _).trans rfl

theorem sems_product3 (sh : Bool) : sems t n (product3 sh) (c, a, b) = AsmProducts.product3 t n sh c a b := by
  unfold product3 AsmProducts.product3
  rw [List.append_assoc, List.append_assoc, sems_shift]
  refine bind_congr fun a => bind_congr fun a => bind_congr fun a => bind_congr fun a => ?_
  exact (sems_shift _ _ _).trans rfl

theorem sems_product4 (sh : Bool) : sems t n (product4 sh) (c, a, b) = AsmProducts.product4 t n sh c a b := by
  unfold product4 AsmProducts.product4
  rw [List.append_assoc, List.append_assoc, sems_shift]
  refine bind_congr fun a => bind_congr fun a => bind_congr fun a => bind_congr fun a => ?_
  exact (sems_shift _ _ _).trans rfl

theorem sems_product5 (sh : Bool) : sems t n (product5 t.rescale8 sh) (c, a, b) = AsmProducts.product5 t n 0 sh c a b := by
  unfold product5 AsmProducts.product5
  rw [List.append_assoc, List.append_assoc, sems_shift, Int.mul_zero, Int.add_zero]
  refine bind_congr fun a => bind_congr fun a => bind_congr fun a => ?_
  exact (sems_shift _ _ _).trans rfl

end

end X86
