import Verif.Trace
import Verif.Model.Avx

/-
Execution of the functions of src/ntt_asm.S with a record of the memory accesses and of the conditional
jumps.

The functions are written once more in `Verif/Model/AsmPoly.lean`, over the operations `Ops` (memory accesses,
loops, branches).  `plain` gives the semantics of `Verif/Model/NttAsm.lean`, `traced` the same with a list of
events.
-/

namespace TraceAsm
open C Avx
open Trace (Named)

/-- An access to `bytes` bytes at a byte offset from the start of an array, or a conditional jump. -/
inductive Event where
  | read (array : String) (offset bytes : Nat)
  | write (array : String) (offset bytes : Nat)
  | jump (taken : Bool)
  deriving DecidableEq, Repr

/-- Runs with a list of events. -/
def TM (α : Type) : Type := Except Err (α × List Event)

namespace TM

protected def pure {α : Type} (a : α) : TM α := .ok (a, [])

protected def bind {α β : Type} (x : TM α) (f : α → TM β) : TM β :=
  match x with
  | .error e => .error e
  | .ok (a, s) =>
    match f a with
    | .error e => .error e
    | .ok (b, t) => .ok (b, s ++ t)

instance : Monad TM where
  pure := TM.pure
  bind := TM.bind

/-- The outcome with its trace. -/
def run {α : Type} (x : TM α) : Except Err (α × List Event) := x

/-- The run without its trace. -/
def result {α : Type} (x : TM α) : M α :=
  match x with
  | .error e => .error e
  | .ok (a, _) => .ok a

/-- A run with one event after it. -/
def emit {α β : Type} (x : M α) (f : α → β) (e : Event) : TM β :=
  match x with
  | .error e => .error e
  | .ok a => .ok (f a, [e])

end TM

/-- What the instructions need: loads and stores (see `Verif/Model/Avx.lean`), backward jumps (`jloop`) and
forward jumps (`branch`).  `A` is the type of arrays. -/
structure Ops (m : Type → Type) (A : Type) where
  load : A → Nat → m V8
  load_sxdq : A → Nat → m V8
  load_sxwd : A → Nat → m V8
  load_sxwq : A → Nat → m V8
  load_sxwq128 : A → Nat → m V8
  load_bdcstw : A → Nat → m V8
  store : A → Nat → V8 → m A
  store128 : A → Nat → V8 → m A
  jloop : {σ : Type} → (σ → m (σ × Bool)) → Nat → σ → m σ
  branch : {α : Type} → (c : Prop) → [Decidable c] → m α → m α → m α

/-- The semantics without trace. -/
def plain : Ops M (Array Int) where
  load := Avx.load
  load_sxdq := Avx.load_sxdq
  load_sxwd := Avx.load_sxwd
  load_sxwq := Avx.load_sxwq
  load_sxwq128 := Avx.load_sxwq128
  load_bdcstw := Avx.load_bdcstw
  store := Avx.store
  store128 := Avx.store128
  jloop := Avx.jloop
  branch := fun c _ x y => if c then x else y

/-- One jump. -/
def tjump (b : Bool) : TM Unit := .ok ((), [.jump b])

/-- A read. -/
def tread (f : Array Int → Nat → M V8) (bytes : Nat) (a : Named Int) (r : Nat) : TM V8 :=
  TM.emit (f a.data r) id (.read a.name r bytes)

/-- A write. -/
def twrite (f : Array Int → Nat → V8 → M (Array Int)) (bytes : Nat) (a : Named Int) (r : Nat) (v : V8) :
    TM (Named Int) :=
  TM.emit (f a.data r v) (fun d => ⟨a.name, d⟩) (.write a.name r bytes)

/-- See `Avx.jloop`: the jump at the end of each iteration is recorded. -/
def tjloop {σ : Type} (body : σ → TM (σ × Bool)) : Nat → σ → TM σ
  | 0, _ => .error .nonterm
  | fuel + 1, s => do
    let r ← body s
    tjump r.2
    if r.2 then tjloop body fuel r.1 else pure r.1

/-- The semantics with trace. -/
def traced : Ops TM (Named Int) where
  load := tread Avx.load 32
  load_sxdq := tread Avx.load_sxdq 16
  load_sxwd := tread Avx.load_sxwd 16
  load_sxwq := tread Avx.load_sxwq 8
  load_sxwq128 := tread Avx.load_sxwq128 4
  load_bdcstw := tread Avx.load_bdcstw 2
  store := twrite Avx.store 32
  store128 := twrite Avx.store128 16
  jloop := tjloop
  branch := fun c _ x y => do
    tjump (decide c)
    if c then x else y

end TraceAsm
