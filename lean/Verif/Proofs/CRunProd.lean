import Verif.Proofs.CRunRed
import Verif.SpecSource

/-
Execution of the products read from the text: a sequence of calls on the three arrays `c`, `a` and `b`.
-/

namespace CLang
open C

theorem Has.of_all {P Q : Prog} (h : Q.all (fun x => decide (P.lookup x.1 = some x.2)) = true) : Has P Q := by
  intro g fn hg
  rw [List.all_eq_true] at h
  have : ∀ L : Prog, L.lookup g = some fn → (g, fn) ∈ L := by
    intro L
    induction L with
    | nil => simp
    | cons x L ih =>
      obtain ⟨k, v⟩ := x
      rw [List.lookup_cons]
      split
      · next hk =>
        intro hv
        have := eq_of_beq hk
        cases hv
        subst this
        simp
      · intro hv
        exact List.mem_cons_of_mem _ (ih hv)
  exact of_decide_eq_true (h _ (this _ hg))

theorem EvA.one {P : Prog} {G : Name → Option Cell} {e : Expr} {st : State} {v : Val} (h : Ev P G e st v) : EvA P G (.cons e .nil) st [v] :=
  EvA.cons h (EvA.nil st)

theorem Ev.num {P : Prog} {G : Name → Option Cell} {st : State} {n : Nat} (h : n ≤ 2147483647) : Ev P G (.num n) st (.int .i32 n) := by
  refine Ev.mk 1 fun f => ?_
  simp only [crun, h]

theorem Ev.ptr {P : Prog} {G : Name → Option Cell} {st : State} {x : Name} {o : Nat} (h : st.env x = some (.ptr o 0 1)) : Ev P G (.var x) st (.ptr o 0 1) :=
  Ev.var h rfl

theorem Ev.glob {P : Prog} {G : Name → Option Cell} {st : State} {x : Name} {c : Cell} {v : Val} (hx : st.env x = none) (hg : G x = some c)
    (hc : cellVal (some c) = .ok v) : Ev P G (.var x) st v := by
  refine Ev.mk 1 fun f => ?_
  simp only [crun, hx, hg, Option.none_or, hc]

/-- The variables other than `a`, `b` and `c` do not exist. -/
def Locals (env : Name → Option Cell) : Prop := ∀ x, x ≠ n!"a" → x ≠ n!"b" → x ≠ n!"c" → env x = none

/-- A name that is none of the parameters of the products. -/
def Fresh (x : Name) : Prop := x ≠ n!"a" ∧ x ≠ n!"b" ∧ x ≠ n!"c"

instance (x : Name) : Decidable (Fresh x) := inferInstanceAs (Decidable (_ ∧ _ ∧ _))

/-- The function `g` with `rest` as its arguments after the array does what `F` says, on each of the three arrays `X`. -/
def Op (P : Prog) (G : Name → Option Cell) (mem₀ : Nat → Obj) (X : List Nat) (g : Name) (rest : Expr) (F : Array Int → M (Array Int)) : Prop :=
  ∀ (st : State) (o : Nat) (a a' : Array Int), Locals st.env → (∀ o', o' ∉ X → st.mem o' = mem₀ o') → o ∈ X → st.mem o = ⟨.i32, a⟩ → Wf a →
    F a = .ok a' → (∃ vs, EvA P G rest st vs ∧ Calls P G g (.ptr o 0 1 :: vs) st.mem (setMem st.mem o ⟨.i32, a'⟩)) ∧ Wf a'

section
variable {P : Prog} {G : Name → Option Cell} {mem₀ : Nat → Obj} {X : List Nat} {g : Name} {F : Array Int → M (Array Int)} {n : Nat}

theorem Op.plain (hn : n ≤ 2147483647)
    (h : ∀ (o : Nat) (a a' : Array Int) (mem : Nat → Obj), mem o = ⟨.i32, a⟩ → Wf a → F a = .ok a' →
      Calls P G g [.ptr o 0 1, .int .i32 n] mem (setMem mem o ⟨.i32, a'⟩) ∧ Wf a') :
    Op P G mem₀ X g (.cons (.num n) .nil) F := by
  intro st o a a' _ _ _ hm ha hF
  obtain ⟨h1, h2⟩ := h o a a' st.mem hm ha hF
  exact ⟨⟨_, EvA.one (Ev.num hn), h1⟩, h2⟩

theorem Op.table {x : Name} {tp : Ty} {p : Array Int} (hn : n ≤ 2147483647) (hx : Fresh x) (hT : Tab G mem₀ X x tp p)
    (h : ∀ (o op : Nat) (a a' : Array Int) (mem : Nat → Obj), mem o = ⟨.i32, a⟩ → Wf a → op ≠ o → mem op = ⟨tp, p⟩ → F a = .ok a' →
      Calls P G g [.ptr o 0 1, .int .i32 n, .ptr op 0 1] mem (setMem mem o ⟨.i32, a'⟩) ∧ Wf a') :
    Op P G mem₀ X g (.cons (.num n) (.cons (.var x) .nil)) F := by
  intro st o a a' hl hk ho hm ha hF
  obtain ⟨op, hg, hop, hmp⟩ := hT
  obtain ⟨h1, h2⟩ := h o op a a' st.mem hm ha (fun e => hop (e ▸ ho)) ((hk op hop).trans hmp) hF
  exact ⟨⟨_, EvA.cons (Ev.num hn) (EvA.one (Ev.glob (hl _ hx.1 hx.2.1 hx.2.2) hg rfl)), h1⟩, h2⟩

theorem Op.tableQ {x : Name} {tp : Ty} {p : Array Int} {q : Nat} (hn : n ≤ 2147483647) (hq : q ≤ 2147483647) (hx : Fresh x) (hT : Tab G mem₀ X x tp p)
    (h : ∀ (o op : Nat) (a a' : Array Int) (mem : Nat → Obj), mem o = ⟨.i32, a⟩ → Wf a → op ≠ o → mem op = ⟨tp, p⟩ → F a = .ok a' →
      Calls P G g [.ptr o 0 1, .int .i32 n, .ptr op 0 1, .int .i32 q] mem (setMem mem o ⟨.i32, a'⟩) ∧ Wf a') :
    Op P G mem₀ X g (.cons (.num n) (.cons (.var x) (.cons (.num q) .nil))) F := by
  intro st o a a' hl hk ho hm ha hF
  obtain ⟨op, hg, hop, hmp⟩ := hT
  obtain ⟨h1, h2⟩ := h o op a a' st.mem hm ha (fun e => hop (e ▸ ho)) ((hk op hop).trans hmp) hF
  exact ⟨⟨_, EvA.cons (Ev.num hn) (EvA.cons (Ev.glob (hl _ hx.1 hx.2.1 hx.2.2) hg rfl) (EvA.one (Ev.num hq))), h1⟩, h2⟩

theorem Op.scalar {x : Name} {t : Ty} {v : Int} (hn : n ≤ 2147483647) (hx : Fresh x) (hT : G x = some (.int t (some v)))
    (h : ∀ (o : Nat) (a a' : Array Int) (mem : Nat → Obj), mem o = ⟨.i32, a⟩ → Wf a → F a = .ok a' →
      Calls P G g [.ptr o 0 1, .int .i32 n, .int t v] mem (setMem mem o ⟨.i32, a'⟩) ∧ Wf a') :
    Op P G mem₀ X g (.cons (.num n) (.cons (.var x) .nil)) F := by
  intro st o a a' hl hk ho hm ha hF
  obtain ⟨h1, h2⟩ := h o a a' st.mem hm ha hF
  exact ⟨⟨_, EvA.cons (Ev.num hn) (EvA.one (Ev.glob (hl _ hx.1 hx.2.1 hx.2.2) hT rfl)), h1⟩, h2⟩

theorem Op.scalarQ {x : Name} {t : Ty} {v : Int} {q : Nat} (hn : n ≤ 2147483647) (hq : q ≤ 2147483647) (hx : Fresh x) (hT : G x = some (.int t (some v)))
    (h : ∀ (o : Nat) (a a' : Array Int) (mem : Nat → Obj), mem o = ⟨.i32, a⟩ → Wf a → F a = .ok a' →
      Calls P G g [.ptr o 0 1, .int .i32 n, .int t v, .int .i32 q] mem (setMem mem o ⟨.i32, a'⟩) ∧ Wf a') :
    Op P G mem₀ X g (.cons (.num n) (.cons (.var x) (.cons (.num q) .nil))) F := by
  intro st o a a' hl hk ho hm ha hF
  obtain ⟨h1, h2⟩ := h o a a' st.mem hm ha hF
  exact ⟨⟨_, EvA.cons (Ev.num hn) (EvA.cons (Ev.glob (hl _ hx.1 hx.2.1 hx.2.2) hT rfl) (EvA.one (Ev.num hq))), h1⟩, h2⟩

/-- The functions of the headers: `static inline void w(int32_t *a) { g(a, rest); }`. -/
abbrev wrapper (g : Name) (rest : Expr) : Fun :=
  ⟨none, [(n!"a", .ptr 1)], .seq (.expr (.call g (.cons (.var n!"a") rest))) .skip⟩

theorem Op.wrap {w : Name} {rest : Expr} (hw : P.lookup w = some (wrapper g rest)) (h : Op P G mem₀ X g rest F) : Op P G mem₀ X w .nil F := by
  intro st o a a' hl hk ho hm ha hF
  have he : Locals (setEnv (fun _ => none) n!"a" (.ptr o 0 1)) := by
    intro x hx _ _
    rw [setEnv_ne hx]
  obtain ⟨⟨vs, h1, h2⟩, h3⟩ := h ⟨setEnv (fun _ => none) n!"a" (.ptr o 0 1), st.mem⟩ o a a' he hk ho hm ha hF
  refine ⟨⟨[], EvA.nil _, ?_⟩, h3⟩
  exact Calls.mk (st' := ⟨setEnv (fun _ => none) n!"a" (.ptr o 0 1), setMem st.mem o ⟨.i32, a'⟩⟩) hw (by simp only [bindParams, ok_bind, if_true])
    (Ex.seq (Ex.call (EvA.cons (Ev.ptr (by simp only [setEnv_self])) h1) h2) (Ex.skip _))

/-! ### Sequences of calls -/

/-- The parameters of a product. -/
def prodEnv (oc oa ob : Nat) : Name → Option Cell :=
  setEnv (setEnv (setEnv (fun _ => none) n!"b" (.ptr ob 0 1)) n!"a" (.ptr oa 0 1)) n!"c" (.ptr oc 0 1)

/-- The memory with new contents of the three arrays. -/
def prodMem (mem : Nat → Obj) (oc oa ob : Nat) (c a b : Array Int) : Nat → Obj :=
  setMem (setMem (setMem mem oa ⟨.i32, a⟩) ob ⟨.i32, b⟩) oc ⟨.i32, c⟩

/-- Execution of `s` changes the arrays from `x` to `y`. -/
def Run (P : Prog) (G : Name → Option Cell) (mem : Nat → Obj) (oc oa ob : Nat) (s : Stmt) (x y : Array Int × Array Int × Array Int) : Prop :=
  Wf x.1 → Wf x.2.1 → Wf x.2.2 →
    Ex P G s ⟨prodEnv oc oa ob, prodMem mem oc oa ob x.1 x.2.1 x.2.2⟩ ⟨prodEnv oc oa ob, prodMem mem oc oa ob y.1 y.2.1 y.2.2⟩ ∧
    Wf y.1 ∧ Wf y.2.1 ∧ Wf y.2.2

end

section
variable {P : Prog} {G : Name → Option Cell} {mem : Nat → Obj} {oc oa ob : Nat} {s s' : Stmt} {x y z : Array Int × Array Int × Array Int}
  {g : Name} {rest : Expr} {F : Array Int → M (Array Int)} {c a b a' : Array Int}

theorem Run.skip : Run P G mem oc oa ob .skip x x := fun h1 h2 h3 => ⟨Ex.skip _, h1, h2, h3⟩

theorem Run.seq (h : Run P G mem oc oa ob s x y) (h' : Run P G mem oc oa ob s' y z) : Run P G mem oc oa ob (.seq s s') x z := by
  intro h1 h2 h3
  obtain ⟨e, h1, h2, h3⟩ := h h1 h2 h3
  obtain ⟨e', h1, h2, h3⟩ := h' h1 h2 h3
  exact ⟨Ex.seq e e', h1, h2, h3⟩

theorem prodEnv_locals : Locals (prodEnv oc oa ob) := by
  intro x h1 h2 h3
  rw [prodEnv, setEnv_ne h3, setEnv_ne h1, setEnv_ne h2]

theorem prodMem_out (o : Nat) (h : o ∉ [oc, oa, ob]) : prodMem mem oc oa ob c a b o = mem o := by
  simp only [List.mem_cons, List.not_mem_nil, or_false, not_or] at h
  rw [prodMem, setMem_ne h.1, setMem_ne h.2.2, setMem_ne h.2.1]

theorem prodMem_c : prodMem mem oc oa ob c a b oc = ⟨.i32, c⟩ := setMem_self _ _ _
theorem prodMem_b (h : ob ≠ oc) : prodMem mem oc oa ob c a b ob = ⟨.i32, b⟩ := by rw [prodMem, setMem_ne h, setMem_self]
theorem prodMem_a (h : oa ≠ oc) (h' : oa ≠ ob) : prodMem mem oc oa ob c a b oa = ⟨.i32, a⟩ := by rw [prodMem, setMem_ne h, setMem_ne h', setMem_self]

theorem setMem_comm (mem : Nat → Obj) {o o' : Nat} (h : o ≠ o') (d d' : Obj) : setMem (setMem mem o d) o' d' = setMem (setMem mem o' d') o d := by
  funext k
  simp only [setMem]
  by_cases h1 : k = o
  · subst h1; simp [h]
  · simp [h1]

theorem prodMem_setC : setMem (prodMem mem oc oa ob c a b) oc ⟨.i32, a'⟩ = prodMem mem oc oa ob a' a b := setMem_setMem _ _ _ _
theorem prodMem_setB (h : ob ≠ oc) : setMem (prodMem mem oc oa ob c a b) ob ⟨.i32, a'⟩ = prodMem mem oc oa ob c a a' := by
  rw [prodMem, setMem_comm _ h.symm, setMem_setMem]; rfl
theorem prodMem_setA (h : oa ≠ oc) (h' : oa ≠ ob) : setMem (prodMem mem oc oa ob c a b) oa ⟨.i32, a'⟩ = prodMem mem oc oa ob c a' b := by
  rw [prodMem, setMem_comm _ h.symm, setMem_comm _ h'.symm, setMem_setMem]; rfl

theorem prodMem_self (hc : mem oc = ⟨.i32, c⟩) (ha : mem oa = ⟨.i32, a⟩) (hb : mem ob = ⟨.i32, b⟩) :
    prodMem mem oc oa ob c a b = mem := by
  rw [prodMem, setMem_eq mem oa ha, setMem_eq mem ob hb, setMem_eq mem oc hc]

theorem env_c (oc oa ob : Nat) : prodEnv oc oa ob n!"c" = some (.ptr oc 0 1) := setEnv_self _ _ _
theorem env_a (oc oa ob : Nat) : prodEnv oc oa ob n!"a" = some (.ptr oa 0 1) := by rw [prodEnv, setEnv_ne (by decide), setEnv_self]
theorem env_b (oc oa ob : Nat) : prodEnv oc oa ob n!"b" = some (.ptr ob 0 1) := by rw [prodEnv, setEnv_ne (by decide), setEnv_ne (by decide), setEnv_self]

theorem Run.opC (h : Op P G mem [oc, oa, ob] g rest F) (hF : F c = .ok a') :
    Run P G mem oc oa ob (.expr (.call g (.cons (.var n!"c") rest))) (c, a, b) (a', a, b) := by
  intro h1 h2 h3
  obtain ⟨⟨vs, e1, e2⟩, h4⟩ := h ⟨prodEnv oc oa ob, prodMem mem oc oa ob c a b⟩ oc c a' prodEnv_locals (fun o ho => prodMem_out o ho) (by simp)
    prodMem_c h1 hF
  rw [prodMem_setC] at e2
  exact ⟨Ex.call (EvA.cons (Ev.ptr (env_c oc oa ob)) e1) e2, h4, h2, h3⟩

theorem Run.opB (hbc : ob ≠ oc) (h : Op P G mem [oc, oa, ob] g rest F) (hF : F b = .ok a') :
    Run P G mem oc oa ob (.expr (.call g (.cons (.var n!"b") rest))) (c, a, b) (c, a, a') := by
  intro h1 h2 h3
  obtain ⟨⟨vs, e1, e2⟩, h4⟩ := h ⟨prodEnv oc oa ob, prodMem mem oc oa ob c a b⟩ ob b a' prodEnv_locals (fun o ho => prodMem_out o ho) (by simp)
    (prodMem_b hbc) h3 hF
  rw [prodMem_setB hbc] at e2
  exact ⟨Ex.call (EvA.cons (Ev.ptr (env_b oc oa ob)) e1) e2, h1, h2, h4⟩

theorem Run.opA (hac : oa ≠ oc) (hab : oa ≠ ob) (h : Op P G mem [oc, oa, ob] g rest F) (hF : F a = .ok a') :
    Run P G mem oc oa ob (.expr (.call g (.cons (.var n!"a") rest))) (c, a, b) (c, a', b) := by
  intro h1 h2 h3
  obtain ⟨⟨vs, e1, e2⟩, h4⟩ := h ⟨prodEnv oc oa ob, prodMem mem oc oa ob c a b⟩ oa a a' prodEnv_locals (fun o ho => prodMem_out o ho) (by simp)
    (prodMem_a hac hab) h2 hF
  rw [prodMem_setA hac hab] at e2
  exact ⟨Ex.call (EvA.cons (Ev.ptr (env_a oc oa ob)) e1) e2, h1, h4, h3⟩

/-- The call that computes `c` from `a` and `b`. -/
theorem Run.mul {n : Nat} {tail : Expr} {vs : List Val} {c' : Array Int} (hn : n ≤ 2147483647) (hac : oa ≠ oc) (hab : oa ≠ ob) (hbc : ob ≠ oc)
    (ht : ∀ st, EvA P G tail st vs)
    (h : ∀ mem : Nat → Obj, mem oc = ⟨.i32, c⟩ → Wf c → mem oa = ⟨.i32, a⟩ → Wf a → mem ob = ⟨.i32, b⟩ → Wf b →
      Calls P G g (.ptr oc 0 1 :: .int .i32 n :: .ptr oa 0 1 :: .ptr ob 0 1 :: vs) mem (setMem mem oc ⟨.i32, c'⟩) ∧ Wf c') :
    Run P G mem oc oa ob (.expr (.call g (.cons (.var n!"c") (.cons (.num n) (.cons (.var n!"a") (.cons (.var n!"b") tail)))))) (c, a, b) (c', a, b) := by
  intro h1 h2 h3
  obtain ⟨e2, h4⟩ := h (prodMem mem oc oa ob c a b) prodMem_c h1 (prodMem_a hac hab) h2 (prodMem_b hbc) h3
  rw [prodMem_setC] at e2
  exact ⟨Ex.call (EvA.cons (Ev.ptr (env_c oc oa ob)) (EvA.cons (Ev.num hn) (EvA.cons (Ev.ptr (env_a oc oa ob)) (EvA.cons (Ev.ptr (env_b oc oa ob)) (ht _))))) e2, h4, h2, h3⟩

/-- A product. -/
theorem Calls.prod {pr : Name} {body : Stmt} (hl : P.lookup pr = some ⟨none, [(n!"c", .ptr 1), (n!"a", .ptr 1), (n!"b", .ptr 1)], body⟩)
    (hc : mem oc = ⟨.i32, x.1⟩) (ha : mem oa = ⟨.i32, x.2.1⟩) (hb : mem ob = ⟨.i32, x.2.2⟩)
    (wc : Wf x.1) (wa : Wf x.2.1) (wb : Wf x.2.2) (h : Run P G mem oc oa ob body x y) :
    Calls P G pr [.ptr oc 0 1, .ptr oa 0 1, .ptr ob 0 1] mem (prodMem mem oc oa ob y.1 y.2.1 y.2.2) := by
  obtain ⟨e, _⟩ := h wc wa wb
  rw [prodMem_self hc ha hb] at e
  exact Calls.mk (st' := ⟨prodEnv oc oa ob, prodMem mem oc oa ob y.1 y.2.1 y.2.2⟩) hl (by simp only [bindParams, ok_bind, if_true]; rfl) e

end
end CLang
