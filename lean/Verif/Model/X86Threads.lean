import Verif.SpecCalls

/-
Several threads of one process on the machine of `Verif/Model/X86.lean`: each makes a list of calls of functions of src/ntt_asm.S (such
as the calls of a product, `Verif/Model/AsmCalls.lean`) with its own registers, in a memory shared with the other threads.  The
instructions of the threads are interleaved arbitrarily.

Simplification: an instruction is executed as a whole (in reality a store of 32 bytes can become visible in parts).
-/

namespace X86
open C Avx AsmCalls

section
variable {L S : Type} [DecidableEq L]

/-- One instruction of `run`: the return address if it is `ret`, the rest of the program and the state. -/
def next (K : Machine) (addr : S → Nat) (prog : List (Instr L S)) :
    List (Instr L S) → State → M (Option Word × List (Instr L S) × State)
  | [], _ => .error .abort
  | i :: c, s =>
    match i with
    | .label _ => .ok (none, c, s)
    | .jmp l => .ok (none, codeAt l prog, s)
    | .jcc cc l => .ok (none, if cc.holds s.cf s.zf then codeAt l prog else c, s)
    | .ret => do
      let a ← ld64 K s.mem (s.gpr rsp)
      .ok (some a, c, { s with gpr := upd s.gpr rsp (s.gpr rsp + 8) })
    | i => do
      let s ← step K addr i s
      .ok (none, c, s)

end

/-- What a thread is doing. -/
inductive Phase where
  /-- in the code of the caller, with these calls to make -/
  | outside (l : List Op)
  /-- in a call: the state when the call was made, the instructions to execute, the registers (the memory in `s` is not used), and the
  calls to make afterwards -/
  | inside (s0 : State) (c : List (Instr Code.Label Code.Const)) (s : State) (l : List Op)
  /-- after a fault, or a return to another address than the caller's or with other values in the registers to be preserved -/
  | crashed

/-- All threads, and the memory. -/
structure System (ι : Type) where
  mem : Memory
  phase : ι → Phase

/-- What the process consists of: for each thread, the place and size of the arrays and tables, and its part of the stack. -/
structure Process (ι : Type) where
  place : ι → Place
  size : ι → Nat
  stack : ι → Word → Prop

variable {ι : Type}

/-- The byte at `x` is one of the `k` bytes from `B`. -/
def Within (B : Word) (k : Nat) (x : Word) : Prop := ∃ j < k, x = B + BitVec.ofNat 64 j

/-- What a call of thread `i` may write: its arrays. -/
def Process.Writes (P : Process ι) (i : ι) (x : Word) : Prop := ∃ y, Within ((P.place i).arr y) (4 * P.size i) x

/-- What a call of thread `i` may read: its arrays, its tables, the data section and its stack. -/
def Process.Reads (K : Machine) (P : Process ι) (i : ι) (x : Word) : Prop :=
  P.Writes i x ∨ (∃ t, Within ((P.place i).tab t) (2 * P.size i) x) ∨ Within K.data 512 x ∨ P.stack i x

/-- The return of a call made in the state `s0`, to address `a` in state `s`. -/
def Proper (s0 : State) (a : Word) (s : State) : Prop :=
  a = BitVec.ofNat 64 (val s0.mem (s0.gpr rsp) 8) ∧ s.gpr rsp = s0.gpr rsp + 8 ∧
    ∀ r ∈ [rbx, rbp, r12, r13, r14, r15], s.gpr r = s0.gpr r

open Classical in
/-- The phase after an instruction. -/
noncomputable def after (s0 : State) (l : List Op) : M (Option Word × List (Instr Code.Label Code.Const) × State) → Phase
  | .error _ => .crashed
  | .ok (none, c, s) => .inside s0 c s l
  | .ok (some a, _, s) => if Proper s0 a s then .outside l else .crashed

/-- The memory after an instruction. -/
def memAfter (m : Memory) : M (Option Word × List (Instr Code.Label Code.Const) × State) → Memory
  | .error _ => m
  | .ok (_, _, s) => s.mem

/-- What happens in a step: a thread makes a call or executes an instruction, or something else. -/
inductive Event (ι : Type) where
  | call (i : ι)
  | instr (i : ι)
  | other
  deriving DecidableEq

/-- The steps of the process.
* `call`: a thread makes its next call.  The arguments are in their registers, and its caller may have changed its stack; everything
  else in the registers is arbitrary.
* `instr`: a thread executes the next instruction of the call it is in.
* `other`: bytes of memory change that none of the calls of the threads may read: these are changes made by the callers and other
  threads. -/
inductive Step [DecidableEq ι] (K : Machine) (P : Process ι) : Event ι → System ι → System ι → Prop
  | call (σ : System ι) (i : ι) (op : Op) (l : List Op) (s : State) (h : σ.phase i = .outside (op :: l))
      (hm : ∀ x, ¬ P.stack i x → s.mem x = σ.mem x) (h1 : s.gpr rdi = (P.place i).arr (dest op))
      (h2 : s.gpr rsi = BitVec.ofNat 64 (P.size i)) (h3 : Args (P.place i) s op)
      (hs : ∀ j < 8, P.stack i (s.gpr rsp + BitVec.ofNat 64 j)) (hl : LanesOk s) :
      Step K P (.call i) σ ⟨s.mem, Function.update σ.phase i (.inside s (codeAt (label op) Code.prog) s l)⟩
  | instr (σ : System ι) (i : ι) (s0 : State) (c : List (Instr Code.Label Code.Const)) (s : State) (l : List Op)
      (h : σ.phase i = .inside s0 c s l) :
      Step K P (.instr i) σ ⟨memAfter σ.mem (next K Code.addr Code.prog c { s with mem := σ.mem }),
        Function.update σ.phase i (after s0 l (next K Code.addr Code.prog c { s with mem := σ.mem }))⟩
  | other (σ : System ι) (m : Memory) (hm : ∀ i x, P.Reads K i x → m x = σ.mem x) :
      Step K P .other σ ⟨m, σ.phase⟩

/-- Finitely many steps, with the list of what happens. -/
inductive Steps [DecidableEq ι] (K : Machine) (P : Process ι) : List (Event ι) → System ι → System ι → Prop
  | nil (σ : System ι) : Steps K P [] σ σ
  | cons {e : Event ι} {l : List (Event ι)} {σ σ' σ'' : System ι} : Step K P e σ σ' → Steps K P l σ' σ'' → Steps K P (e :: l) σ σ''

/-- The threads do not disturb each other: what a call of one thread may write and its stack are not read by the calls of another
thread, and no thread has its stack in its arrays, its tables or the data section. -/
structure Separated (K : Machine) (P : Process ι) : Prop where
  writes : ∀ i j, i ≠ j → ∀ x, P.Writes i x → ¬ P.Reads K j x
  frames : ∀ i j, i ≠ j → ∀ x, P.stack i x → ¬ P.Reads K j x
  own_arr : ∀ i x, P.stack i x → ¬ P.Writes i x
  own_tab : ∀ i x t, P.stack i x → ¬ Within ((P.place i).tab t) (2 * P.size i) x
  own_data : ∀ i x, P.stack i x → ¬ Within K.data 512 x

end X86
