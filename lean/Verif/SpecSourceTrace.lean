import Verif.SpecSource

/-
Specification for C93: the memory accesses and tests that a call makes, for programs executed from their text.
-/

namespace CLang
open C Spec

/-- What can be observed: the outcome of a test (`if`, `?:`, `&&`, `||`, loops), and the accesses to elements of arrays. -/
inductive Obs where
  | test (b : Bool)
  | read (o k : Nat)
  | write (o k : Nat)
  deriving DecidableEq, Repr

/-- The access to `p[i]`, for an element that is an integer. -/
def access (obs : Nat → Nat → Obs) : Val → Val → List Obs
  | .ptr o off w, .int _ i =>
    if w = 1 then
      match position off w i with
      | .ok k => [obs o k]
      | .error _ => []
    else []
  | _, _ => []

section
variable (P : Prog) (G : Name → Option Cell)

mutual
/-- What the evaluation of an expression shows, in order.  Assertions show nothing: `-DNDEBUG` removes them. -/
def traceE : Nat → Expr → State → List Obs
  | 0, _, _ => []
  | f + 1, .idx a i, st =>
    traceE f a st ++ traceE f i st ++
      (match eval P G f a st, eval P G f i st with
       | .ok p, .ok k => access .read p k
       | _, _ => [])
  | f + 1, .neg e, st => traceE f e st
  | f + 1, .not e, st => traceE f e st
  | f + 1, .bin _ a b, st => traceE f a st ++ traceE f b st
  | f + 1, .land a b, st =>
    traceE f a st ++
      (match eval P G f a st >>= test with
       | .ok true => .test true :: (traceE f b st ++
          (match eval P G f b st >>= test with
           | .ok t => [.test t]
           | .error _ => []))
       | .ok false => [.test false]
       | .error _ => [])
  | f + 1, .lor a b, st =>
    traceE f a st ++
      (match eval P G f a st >>= test with
       | .ok false => .test false :: (traceE f b st ++
          (match eval P G f b st >>= test with
           | .ok t => [.test t]
           | .error _ => []))
       | .ok true => [.test true]
       | .error _ => [])
  | f + 1, .cast _ e, st => traceE f e st
  | f + 1, .cond c a b, st =>
    traceE f c st ++
      (match eval P G f c st >>= test with
       | .ok t => .test t :: (if t then traceE f a st else traceE f b st)
       | .error _ => [])
  | f + 1, .call g args, st =>
    traceA f args st ++
      (match evalArgs P G f args st, P.lookup g with
       | .ok vs, some fn =>
         (match bindParams fn.params vs with
          | .ok env => traceS f fn.body ⟨env, st.mem⟩
          | .error _ => [])
       | _, _ => [])
  | _ + 1, _, _ => []

/-- The same for arguments. -/
def traceA : Nat → Expr → State → List Obs
  | f + 1, .cons e es, st => traceE f e st ++ traceA f es st
  | _, _, _ => []

/-- The same for statements. -/
def traceS : Nat → Stmt → State → List Obs
  | 0, _, _ => []
  | f + 1, .seq a b, st =>
    traceS f a st ++
      (match exec P G f a st with
       | .ok (none, st') => traceS f b st'
       | _ => [])
  | f + 1, .assign _ e, st => traceE f e st
  | f + 1, .store a i e, st =>
    traceE f a st ++ traceE f i st ++ traceE f e st ++
      (match eval P G f a st, eval P G f i st with
       | .ok p, .ok k => access .write p k
       | _, _ => [])
  | f + 1, .ite c a b, st =>
    traceE f c st ++
      (match eval P G f c st >>= test with
       | .ok t => .test t :: (if t then traceS f a st else traceS f b st)
       | .error _ => [])
  | f + 1, .while c s, st =>
    traceE f c st ++
      (match eval P G f c st >>= test with
       | .ok true => .test true :: (traceS f s st ++
          (match exec P G f s st with
           | .ok (none, st') => traceS f (.while c s) st'
           | _ => []))
       | .ok false => [.test false]
       | .error _ => [])
  | f + 1, .doWhile s c, st =>
    traceS f s st ++
      (match exec P G f s st with
       | .ok (none, st') =>
         traceE f c st' ++
          (match eval P G f c st' >>= test with
           | .ok true => .test true :: traceS f (.doWhile s c) st'
           | .ok false => [.test false]
           | .error _ => [])
       | _ => [])
  | f + 1, .ret e, st => traceE f e st
  | f + 1, .expr (.call g args), st =>
    traceA f args st ++
      (match evalArgs P G f args st, P.lookup g with
       | .ok vs, some fn =>
         (match bindParams fn.params vs with
          | .ok env => traceS f fn.body ⟨env, st.mem⟩
          | .error _ => [])
       | _, _ => [])
  | f + 1, .callAt _ g args outs, st =>
    traceA f args st ++
      (match evalArgs P G f args st, P.lookup g, st.env 0 with
       | .ok vs, some fn, some (.ptr sp _ _) =>
         (match pushOuts st.env sp outs st.mem with
          | .ok ps =>
            (match bindParams fn.params (vs ++ ps.1) with
             | .ok env => traceS f fn.body ⟨withStack fn (sp + outs.length) env, ps.2⟩
             | .error _ => [])
          | .error _ => [])
       | _, _, _ => [])
  | f + 1, .print e _ args, st => traceE f e st ++ traceA f args st
  | f + 1, .alloc _ _ e, st => traceE f e st
  | _ + 1, _, _ => []
end

/-- What a call from outside shows. -/
def callTrace (fuel : Nat) (g : Name) (vs : List Val) (mem : Nat → Obj) : List Obs :=
  match P.lookup g with
  | some fn =>
    (match bindParams fn.params vs with
     | .ok env => traceS P G fuel fn.body ⟨env, mem⟩
     | .error _ => [])
  | none => []

/-- The call shows `t`, with sufficient fuel. -/
def Shows (g : Name) (vs : List Val) (mem : Nat → Obj) (t : List Obs) : Prop := ∃ N, ∀ f, N ≤ f → callTrace P G f g vs mem = t

end

/-- The names of the tables. -/
def ConstNames.arrays (N : ConstNames) : List Name :=
  [N.psi_powers, N.scaled_inv_psi_powers, N.omega_powers, N.omega_powers_rev, N.inv_omega_powers, N.inv_omega_powers_rev, N.mixed_powers,
    N.mixed_powers_rev, N.inv_mixed_powers, N.inv_mixed_powers_rev]

/-- There are no other global arrays. -/
def OnlyTables (N : ConstNames) (G : Name → Option Cell) : Prop := ∀ x o i w, G x = some (.ptr o i w) → x ∈ N.arrays

/-- The product `g` of the program `P`, for size `2^k`: once the program is loaded (`G`) and it is known where the three arrays are, all calls with
reduced operands show the same `t`, whatever the operands are, and whatever is in `c` and in the rest of the memory. -/
def SameTrace (k : Nat) (P : Prog) (N : ConstNames) (ty : Ty) (T : Consts) (g : Name) : Prop :=
  ∀ (G : Name → Option Cell) (oc oa ob : Nat), oa ≠ oc → oa ≠ ob → ob ≠ oc → OnlyTables N G →
    ∃ t, ∀ (mem : Nat → Obj) (c a b : Array Int), Globals N ty T G mem [oc, oa, ob] → mem oc = ⟨.i32, c⟩ → mem oa = ⟨.i32, a⟩ → mem ob = ⟨.i32, b⟩ →
      c.size = 2 ^ k → a.size = 2 ^ k → b.size = 2 ^ k → InRange (-2147483648) 2147483647 c → Reduced a → Reduced b →
      (∃ mem', Calls P G g [.ptr oc 0 1, .ptr oa 0 1, .ptr ob 0 1] mem mem') ∧ Shows P G g [.ptr oc 0 1, .ptr oa 0 1, .ptr ob 0 1] mem t

/-- The same for a function `g` with one argument, an array, and the inputs on which `F` does not fail. -/
def SameTraceOn (P : Prog) (N : ConstNames) (ty : Ty) (T : Consts) (g : Name) (F : Array Int → M (Array Int)) : Prop :=
  ∀ (G : Name → Option Cell) (o : Nat), OnlyTables N G →
    ∃ t, ∀ (mem : Nat → Obj) (a a' : Array Int), Globals N ty T G mem [o] → mem o = ⟨.i32, a⟩ → InRange (-2147483648) 2147483647 a → F a = .ok a' →
      (∃ mem', Calls P G g [.ptr o 0 1] mem mem') ∧ Shows P G g [.ptr o 0 1] mem t

/-- Calls of `g` with the arguments `vs` and with `vs'` that return show the same, whatever is in the memory; only the types of the objects are the
same.  The file has no global arrays. -/
def SameFrom (P : Prog) (g : Name) (vs vs' : List Val) : Prop :=
  ∀ (G : Name → Option Cell) (f : Nat) (mem mem' r r' : Nat → Obj), (∀ x o i w, G x ≠ some (.ptr o i w)) → (∀ o, (mem o).ty = (mem' o).ty) →
    call P G f g vs mem = .ok r → call P G f g vs' mem' = .ok r' → callTrace P G f g vs mem = callTrace P G f g vs' mem'

end CLang
