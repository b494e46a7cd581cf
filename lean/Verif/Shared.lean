import Verif.Trace

/-
Programs that access arrays in a shared memory.

In `Verif/Model/*.lean` the functions take arrays and return arrays.  Here an array argument is a reference to
an array in memory, as in C: two arguments can be the same array, and several threads can run at the same time.
-/

namespace Shared
open C

/-- A reference to an array (the name of the array). -/
abbrev Ref : Type := String

/-- The contents of all arrays. -/
abbrev Mem : Type := Ref → Array Int

/-- The memory `μ` with `a` stored at `h`. -/
def upd (μ : Mem) (h : Ref) (a : Array Int) : Mem := fun k => if k = h then a else μ k

/-- A program: it returns, fails, reads `h[i]` or writes `h[i] = x`. -/
inductive Prog (α : Type) : Type where
  | pure (a : α) : Prog α
  | fail (e : Err) : Prog α
  | read (h : Ref) (i : Nat) (k : Int → Prog α) : Prog α
  | write (h : Ref) (i : Nat) (x : Int) (k : Prog α) : Prog α

namespace Prog

/-- Sequence of two programs. -/
protected def bind {α β : Type} (x : Prog α) (f : α → Prog β) : Prog β :=
  match x with
  | .pure a => f a
  | .fail e => .fail e
  | .read h i k => .read h i (fun v => (k v).bind f)
  | .write h i v k => .write h i v (k.bind f)

instance : Monad Prog where
  pure := Prog.pure
  bind := Prog.bind

/-- A computation without array accesses. -/
protected def lift {α : Type} (x : M α) : Prog α :=
  match x with
  | .error e => .fail e
  | .ok a => .pure a

instance : MonadLift M Prog where
  monadLift := Prog.lift

end Prog

/-- Array read `h[i]`. -/
def prd (h : Ref) (i : Nat) : Prog Int := .read h i .pure

/-- Array write `h[i] = x`; the reference is returned. -/
def pwr (h : Ref) (i : Nat) (x : Int) : Prog Ref := .write h i x (.pure h)

/-- See `C.cfor`. -/
def pfor {σ : Type} (cond : Nat → Bool) (next : Nat → Nat) (body : Nat → σ → Prog σ) :
    Nat → Nat → σ → Prog σ
  | 0, _, _ => .fail .nonterm
  | fuel + 1, i, s =>
    if cond i then do
      let s ← body i s
      pfor cond next body fuel (next i) s
    else pure s

/-- See `C.forUp`. -/
def pforUp {σ : Type} (lo hi step : Nat) (body : Nat → σ → Prog σ) (s : σ) : Prog σ :=
  pfor (fun i => decide (i < hi)) (fun i => u32 (i + step)) body (hi + 1) lo s

/-- See `C.forShl`. -/
def pforShl {σ : Type} (lo hi : Nat) (body : Nat → σ → Prog σ) (s : σ) : Prog σ :=
  pfor (fun t => decide (t < hi)) (fun t => u32 (2 * t)) body 34 lo s

/-- See `C.forShr`. -/
def pforShr {σ : Type} (hi : Nat) (body : Nat → σ → Prog σ) (s : σ) : Prog σ :=
  pfor (fun t => decide (0 < t)) (fun t => t / 2) body 34 hi s

/-- One step of a program in a memory; a program that has returned or failed stays as it is. -/
def step {α : Type} (x : Prog α) (μ : Mem) : Prog α × Mem :=
  match x with
  | .pure a => (.pure a, μ)
  | .fail e => (.fail e, μ)
  | .read h i k =>
    match rd (μ h) i with
    | .error e => (.fail e, μ)
    | .ok v => (k v, μ)
  | .write h i v k =>
    match wr (μ h) i v with
    | .error e => (.fail e, μ)
    | .ok a => (k, upd μ h a)

/-- A program alone in a memory: the error, or the result and the final memory. -/
def run {α : Type} (x : Prog α) (μ : Mem) : Except Err (α × Mem) :=
  match x with
  | .pure a => .ok (a, μ)
  | .fail e => .error e
  | .read h i k =>
    match rd (μ h) i with
    | .error e => .error e
    | .ok v => run (k v) μ
  | .write h i v k =>
    match wr (μ h) i v with
    | .error e => .error e
    | .ok a => run k (upd μ h a)

/-- Threads `ι` with a shared memory: one step of thread `i`. -/
def stepThread {ι α : Type} [DecidableEq ι] (s : (ι → Prog α) × Mem) (i : ι) : (ι → Prog α) × Mem :=
  ((fun j => if j = i then (step (s.1 i) s.2).1 else s.1 j), (step (s.1 i) s.2).2)

/-- The threads `P` run in the memory `μ` in the order given by the schedule. -/
def exec {ι α : Type} [DecidableEq ι] (sched : List ι) (P : ι → Prog α) (μ : Mem) : (ι → Prog α) × Mem :=
  sched.foldl stepThread (P, μ)

end Shared
