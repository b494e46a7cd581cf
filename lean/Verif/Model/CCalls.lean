import Verif.Model.CLang

/-
C functions that only call functions: the calls they make of functions that are defined elsewhere.  This is for src/ntt_red_asm<n>.c,
where these functions are in assembly.
-/

namespace CLang

/-- Arguments that are variables or numbers, with parameters replaced by their values. -/
def args (σ : List (Name × Expr)) : Expr → Option (List Expr)
  | .nil => some []
  | .cons (.num n) es => do
    let l ← args σ es
    some (.num n :: l)
  | .cons (.var x) es => do
    let l ← args σ es
    some ((σ.lookup x).getD (.var x) :: l)
  | _ => none

/-- The calls made by a statement, in order: calls of functions of the program are replaced by the calls these make.  `none` if there is
anything but calls. -/
def calls (P : Prog) : Nat → List (Name × Expr) → Stmt → Option (List (Name × List Expr))
  | 0, _, _ => none
  | _ + 1, _, .skip => some []
  | f + 1, σ, .seq a b => do
    let l ← calls P f σ a
    let r ← calls P f σ b
    some (l ++ r)
  | f + 1, σ, .expr (.call g es) => do
    let vs ← args σ es
    match P.lookup g with
    | none => some [(g, vs)]
    | some d => if d.ret = none ∧ d.params.length = vs.length then calls P f ((d.params.map (·.1)).zip vs) d.body else none
  | _ + 1, _, _ => none

/-- The calls made by the function `g` with parameters `xs`. -/
def callsOf (P : Prog) (g : Name) (xs : List Name) : Option (List (Name × List Expr)) := do
  let d ← P.lookup g
  if d.ret = none ∧ d.params.map (·.1) = xs then calls P 100 [] d.body else none

end CLang
