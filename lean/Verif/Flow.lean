import Verif.Trace

/-
Execution with a record of the array accesses and of the outcome of every test (of `if`, `?:` and of the loops).

The same semantics as `Verif/CSem.lean`.  A run that returns yields the list of its events in order.
-/

namespace Flow
open C
open Trace (Named)

/-- An array access, or the outcome of the test of an `if`, a `?:` or a loop. -/
inductive Event where
  | read (array : String) (index : Nat)
  | write (array : String) (index : Nat)
  | test (outcome : Bool)
  deriving DecidableEq, Repr

/-- Runs with a list of events. -/
def TM (α : Type) : Type := Except Err (α × List Event)

namespace TM

protected def pure {α : Type} (a : α) : TM α := .ok (a, [])

protected def bind {α β : Type} (x : TM α) (f : α → TM β) : TM β :=
  match x with
  | .error e => .error e
  | .ok (a, s) =>
    match f a with
    | .error e => .error e
    | .ok (b, t) => .ok (b, s ++ t)

instance : Monad TM where
  pure := TM.pure
  bind := TM.bind

/-- A computation without array accesses and tests. -/
protected def lift {α : Type} (x : M α) : TM α :=
  match x with
  | .error e => .error e
  | .ok a => .ok (a, [])

instance : MonadLift M TM where
  monadLift := TM.lift

/-- The run with its events. -/
def run {α : Type} (x : TM α) : Except Err (α × List Event) := x

/-- The run without its events. -/
def result {α : Type} (x : TM α) : M α :=
  match x with
  | .error e => .error e
  | .ok (a, _) => .ok a

end TM

/-- Array read `a[i]`. -/
def trd {α : Type} (a : Named α) (i : Nat) : TM α :=
  match rd a.data i with
  | .error e => .error e
  | .ok x => .ok (x, [.read a.name i])

/-- Array write `a[i] = x`. -/
def twr {α : Type} (a : Named α) (i : Nat) (x : α) : TM (Named α) :=
  match wr a.data i x with
  | .error e => .error e
  | .ok d => .ok (⟨a.name, d⟩, [.write a.name i])

/-- A test with outcome `b`. -/
def ttest (b : Bool) : TM Unit := .ok ((), [.test b])

/-- `if (c) x else y`, `c ? x : y`. -/
def tif {α : Type} (c : Prop) [Decidable c] (x y : TM α) : TM α := do
  ttest (decide c)
  if c then x else y

/-- See `C.cfor`. -/
def tfor {σ : Type} (cond : Nat → Bool) (next : Nat → Nat) (body : Nat → σ → TM σ) :
    Nat → Nat → σ → TM σ
  | 0, _, _ => .error .nonterm
  | fuel + 1, i, s => do
    ttest (cond i)
    if cond i then do
      let s ← body i s
      tfor cond next body fuel (next i) s
    else pure s

/-- See `C.forUp`. -/
def tforUp {σ : Type} (lo hi step : Nat) (body : Nat → σ → TM σ) (s : σ) : TM σ :=
  tfor (fun i => decide (i < hi)) (fun i => u32 (i + step)) body (hi + 1) lo s

/-- See `C.forShl`. -/
def tforShl {σ : Type} (lo hi : Nat) (body : Nat → σ → TM σ) (s : σ) : TM σ :=
  tfor (fun t => decide (t < hi)) (fun t => u32 (2 * t)) body 34 lo s

/-- See `C.forShr`. -/
def tforShr {σ : Type} (hi : Nat) (body : Nat → σ → TM σ) (s : σ) : TM σ :=
  tfor (fun t => decide (0 < t)) (fun t => t / 2) body 34 hi s

end Flow
