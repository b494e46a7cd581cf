import Verif.Proofs.AsmText
import Verif.SpecAsm
import Verif.Props.Machine
import Verif.Props.MachineProducts
import Verif.Model.Src.NttRedAsm16
import Verif.Model.Src.NttRedAsm256
import Verif.Model.Src.NttRedAsm512
import Verif.Model.Src.NttRedAsm1024

/-
From the program of `Verif/Model/Code.lean` and the lists of calls of `Verif/Model/AsmCalls.lean` to the texts.
-/

namespace X86
open C Avx Spec AsmRead AsmCalls CLang Tables

theorem longs_length : 4 * Src.ntt_asm.longs.length = 512 := by decide +kernel

theorem mem_globals {f : Code.Label} (hf : f ∈ Src.globals) : Src.labelName f ∈ Src.ntt_asm.globals := List.mem_map_of_mem hf

attribute [local irreducible] Src.ntt_asm

theorem AsmLoaded.loaded {K : Machine} {m : Memory} (h : AsmLoaded Src.ntt_asm K m) : Loaded K m := by
  obtain ⟨h1, h2, h3⟩ := h
  rw [longs_length] at h2
  refine ⟨h1, h2, fun c j hj => ?_⟩
  obtain ⟨v, h4, h5⟩ := Src.ntt_asm_longs c j hj
  exact (h3 _ h4).trans h5

theorem AsmCall.call {K : Machine} {A : Word} {a : Array Int} {s : State} (h : AsmCall Src.ntt_asm K A a s) : Call K A a s where
  size := h.size
  low := h.low
  readable := h.readable
  writable := h.writable
  holds := h.holds
  loaded := h.loaded.loaded
  data_apart := by rw [← longs_length]; exact h.data_apart
  stack := h.stack
  stack_apart := h.stack_apart
  arg1 := h.arg1
  arg2 := h.arg2
  lanes := h.lanes

theorem Returns.asm {K : Machine} {f : Code.Label} {A : Word} {a : Array Int} {s : State} {a' : Array Int} (hf : f ∈ Src.globals)
    (h : Returns K f A a s a') : AsmReturns Src.ntt_asm K (Src.labelName f) A a s a' := by
  obtain ⟨N, s', h1, h2, h3⟩ := h
  exact ⟨mem_globals hf, N, s', h1, fun fuel hN => (Src.ntt_asm_run K f fuel s).trans (h2 fuel hN), h3⟩

/-- The text of a call. -/
def textOf (N : TableNames) (n : Nat) : Op → Name × List Expr
  | .one f x => (Src.labelName f, [.var (argName x), .num n])
  | .table f x p => (Src.labelName f, [.var (argName x), .num n, .var (N.tab p)])
  | .mul x y z => (n!"mul_reduce_array_asm", [.var (argName x), .num n, .var (argName y), .var (argName z)])
  | .scalar x _ => (n!"scalar_mul_reduce_array_asm", [.var (argName x), .num n, .var N.rescale8])

theorem textOf_fst (N : TableNames) (n : Nat) (op : Op) : (textOf N n op).1 = Src.labelName (label op) := by cases op <;> rfl

theorem textOf_head (N : TableNames) (n : Nat) (op : Op) : (textOf N n op).2.head? = some (.var (argName (dest op))) := by cases op <;> rfl

theorem HasArg.arr {L : Place} {N : TableNames} {v : Int} {s : State} {r : Nat} {y : Arg} (h : HasArg L N v s r (.var (argName y))) :
    s.gpr r = L.arr y := h.1 y rfl

theorem HasArg.tab {L : Place} {N : TableNames} {v : Int} {s : State} {r : Nat} {p : Tbl} (h : HasArg L N v s r (.var (N.tab p))) :
    s.gpr r = L.tab p := h.2.1 p rfl

theorem HasArg.rescale8 {L : Place} {N : TableNames} {v : Int} {s : State} {r : Nat} (h : HasArg L N v s r (.var N.rescale8)) :
    toI32 (s.gpr r).toNat = v := h.2.2 rfl

theorem AsmReady.ready {K : Machine} {L : Place} {N : TableNames} {v : Int} {n : Nat} {op : Op} {m : Memory} {s : State}
    (hv : ∀ x w, op = .scalar x w → w = v) (h : AsmReady K L N v n (textOf N n op).2 m s) : Ready K L n op m s := by
  have h1 : ∀ x es, (textOf N n op).2 = x :: es → HasArg L N v s rdi x := fun x es e => h.args (rdi, x) (by rw [e]; exact List.mem_cons_self)
  have h2 : ∀ x y es, (textOf N n op).2 = x :: y :: es → HasArg L N v s rsi y :=
    fun x y es e => h.args (rsi, y) (by rw [e]; exact List.mem_cons_of_mem _ List.mem_cons_self)
  have h3 : ∀ x y z es, (textOf N n op).2 = x :: y :: z :: es → HasArg L N v s rdx z :=
    fun x y z es e => h.args (rdx, z) (by rw [e]; exact List.mem_cons_of_mem _ (List.mem_cons_of_mem _ List.mem_cons_self))
  have h4 : ∀ x y z w es, (textOf N n op).2 = x :: y :: z :: w :: es → HasArg L N v s rcx w := fun x y z w es e =>
    h.args (rcx, w) (by rw [e]; exact List.mem_cons_of_mem _ (List.mem_cons_of_mem _ (List.mem_cons_of_mem _ List.mem_cons_self)))
  refine ⟨h.kept, ?_, ?_, ?_, h.stack, h.stack_apart, h.lanes⟩
  · cases op <;> exact (h1 _ _ rfl).arr
  · cases op <;> exact h2 _ _ _ rfl
  · cases op with
    | one f x => trivial
    | table f x p => exact (h3 _ _ _ _ rfl).tab
    | mul x y z => exact ⟨(h3 _ _ _ _ rfl).arr, (h4 _ _ _ _ _ rfl).arr⟩
    | scalar x w =>
      rw [hv x w rfl]
      exact (h3 _ _ _ _ rfl).rescale8

theorem calls_asm {K : Machine} {L : Place} {N : TableNames} {v : Int} {n : Nat} {Q Q' : Memory → Prop} (hQ : ∀ m, Q m → Q' m) :
    ∀ {l : List Op} {m : Memory}, (∀ op ∈ l, label op ∈ Src.globals ∧ ∀ x w, op = .scalar x w → w = v) → X86.Calls K L n l m Q →
      AllReturn Src.ntt_asm K L N v n (l.map (textOf N n)) m Q'
  | [], _, _, h => hQ _ h
  | op :: l, m, hl, h => by
    obtain ⟨hg, hv⟩ := hl op List.mem_cons_self
    refine ⟨textOf_fst N n op ▸ mem_globals hg, fun s hs => ?_⟩
    obtain ⟨N', s', h1, h2, h3, h4, h5, h6⟩ := h s (hs.ready hv)
    refine ⟨N', s', fun fuel hf => ?_, h2, h3, fun x hx => h4 x fun i hi => ?_, h5,
      calls_asm hQ (fun o ho => hl o (List.mem_cons_of_mem _ ho)) h6⟩
    · have e := (Src.ntt_asm_run K (label op) fuel s).trans (h1 fuel hf)
      rw [← textOf_fst N n op] at e
      exact e
    · exact hx (dest op) (textOf_head N n op) i hi

theorem AsmStart.start {K : Machine} {L : Place} {n : Nat} {t : RedTables} {a b : Array Int} {m : Memory}
    (h : AsmStart Src.ntt_asm K L n t a b m) : Props.Start K L n t a b m where
  fits := h.fits
  loaded := h.loaded.loaded
  tables := h.tables
  size_a := h.size_a
  size_b := h.size_b
  holds_a := h.holds_a
  holds_b := h.holds_b

theorem multiplies_asm {P : Prog} {N : TableNames} {n : Nat} {t : RedTables} {g : Name} {l : List Op}
    (hl : callsOf P g [n!"c", n!"a", n!"b"] = some (l.map (textOf N n)))
    (hs : ∀ op ∈ l, label op ∈ Src.globals ∧ ∀ x w, op = .scalar x w → w = t.rescale8)
    (h : ∀ (K : Machine) (L : Place) (m : Memory) (a b : Array Int), Props.Start K L n t a b m → Reduced a → Reduced b →
      X86.Calls K L n l m (Props.StoresProduct L n a b)) : AsmMultiplies Src.ntt_asm P N n t g :=
  ⟨_, hl, fun K L m a b S ha hb => calls_asm (fun _ h => h) hs (h K L m a b S.start ha hb)⟩

/-- No constant is passed. -/
def noScalar : Op → Bool
  | .scalar _ _ => false
  | _ => true

/-- The functions called are global, and the constant passed is `v`. -/
abbrev OpsOk (v : Int) (l : List Op) : Prop := ∀ op ∈ l, label op ∈ Src.globals ∧ ∀ x w, op = .scalar x w → w = v

theorem OpsOk.of_noScalar {v : Int} {l : List Op} (h : ∀ op ∈ l, label op ∈ Src.globals ∧ noScalar op = true) : OpsOk v l :=
  fun op ho => ⟨(h op ho).1, fun x w e => absurd (h op ho).2 (by rw [e]; exact Bool.false_ne_true)⟩

theorem opsOk_1024 (v : Int) : OpsOk v product1_1024 := .of_noScalar (by decide)
theorem opsOk1 (v : Int) (sh : Bool) : OpsOk v (product1 sh) := .of_noScalar (by cases sh <;> decide)
theorem opsOk2 (v : Int) (sh : Bool) : OpsOk v (product2 sh) := .of_noScalar (by cases sh <;> decide)
theorem opsOk3 (v : Int) (sh : Bool) : OpsOk v (product3 sh) := .of_noScalar (by cases sh <;> decide)
theorem opsOk4 (v : Int) (sh : Bool) : OpsOk v (product4 sh) := .of_noScalar (by cases sh <;> decide)

theorem opsOk5 (v : Int) (sh : Bool) : OpsOk v (product5 v sh) := by
  have h : ∀ op ∈ product5 0 sh, label op ∈ Src.globals := by cases sh <;> decide
  intro op ho
  refine ⟨?_, fun x w e => ?_⟩
  · have e : (product5 v sh).map label = (product5 0 sh).map label := by cases sh <;> rfl
    have hm : label op ∈ (product5 0 sh).map label := e ▸ List.mem_map_of_mem ho
    obtain ⟨o, h1, h2⟩ := List.mem_map.mp hm
    exact h2 ▸ h o h1
  · subst e
    cases sh
    all_goals
      simp only [product5, AsmCalls.shift, List.mem_append, List.mem_cons, List.not_mem_nil, or_false, false_or, if_true, if_false, reduceCtorEq,
        Op.scalar.injEq, Bool.false_eq_true] at ho
      exact ho.2

theorem textOf5 (N : TableNames) (n : Nat) (v : Int) (sh : Bool) : (product5 v sh).map (textOf N n) = (product5 0 sh).map (textOf N n) := by
  cases sh <;> rfl

end X86
