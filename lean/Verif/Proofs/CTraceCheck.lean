import Verif.Model.CLang

/-
Labels for C93: which variables of a function are public, and a check that tests and indices are public.  Not part of the specification.
-/

namespace CLang
open C

/-- `int`: an integer that is public; `sec`: an integer; `tab w`: a pointer to public data (arrays of `w` integers); `out`: a pointer to data that are
not public; `arr`: a pointer. -/
inductive Lab where
  | int
  | sec
  | tab (w : Nat)
  | out
  | arr
  deriving DecidableEq, Repr

/-- A value with the first label can be used where the second is expected. -/
def Lab.sub (a b : Lab) : Bool := a = b || (a = .int && b = .sec) || (a = .tab 1 && b = .arr) || (a = .out && b = .arr)

def Lab.isInt (a : Lab) : Bool := a = .int || a = .sec

/-- The label of the result of an operator on integers. -/
def Lab.join (a b : Lab) : Lab := if a = .int && b = .int then .int else .sec

/-- The labels of the variables of a function, and of its result. -/
structure Sig where
  vars : List (Name × Lab)
  ret : Lab
  deriving DecidableEq, Repr

section
variable (P : Prog) (A : List (Name × Sig)) (D : Name → Lab) (L : List (Name × Lab))

/-- The arguments fit the parameters. -/
def fits (L : List (Name × Lab)) : List (Name × PTy) → List Lab → Bool
  | [], [] => true
  | (x, _) :: ps, l :: ls => (match L.lookup x with | some l' => l.sub l' | none => false) && fits L ps ls
  | _, _ => false

mutual
/-- The label of an expression, `none` if it is not accepted. -/
def labE : Expr → Option Lab
  | .num _ => some .int
  | .var x => match L.lookup x with
    | some l => some l
    | none => some (D x)
  | .idx a i => do
    let la ← labE a
    let li ← labE i
    if li = .int then
      match la with
      | .tab w => some (if w = 1 then .int else .tab 1)
      | .out => some .sec
      | .arr => some .sec
      | _ => none
    else none
  | .neg e => do
    let l ← labE e
    if l.isInt then some l else none
  | .not e => do
    let l ← labE e
    if l.isInt then some l else none
  | .bin o a b => do
    let la ← labE a
    let lb ← labE b
    if la.isInt && lb.isInt then some (la.join lb)
    else if o = .add && lb = .int && !la.isInt then some la
    else none
  | .land a b => do
    let la ← labE a
    let lb ← labE b
    if la = .int && lb = .int then some .int else none
  | .lor a b => do
    let la ← labE a
    let lb ← labE b
    if la = .int && lb = .int then some .int else none
  | .cast _ e => do
    let l ← labE e
    if l.isInt then some l else none
  | .cond c a b => do
    let lc ← labE c
    let la ← labE a
    let lb ← labE b
    if lc = .int && la.isInt && lb.isInt then some (la.join lb) else none
  | .call g args => do
    let ls ← labA args
    let fn ← P.lookup g
    let s ← A.lookup g
    if fits s.vars fn.params ls && s.ret.isInt then some s.ret else none
  | .nil => none
  | .cons _ _ => none

def labA : Expr → Option (List Lab)
  | .nil => some []
  | .cons e es => do
    let l ← labE e
    let ls ← labA es
    some (l :: ls)
  | _ => none
end

/-- A statement of a function with a result of label `r` is accepted. -/
def okS (r : Lab) : Stmt → Bool
  | .skip => true
  | .seq a b => okS r a && okS r b
  | .decl _ x => match L.lookup x with
    | some l => l.isInt
    | none => false
  | .assign x e => match L.lookup x, labE P A D L e with
    | some l, some l' => l.isInt && l'.isInt && l'.sub l
    | _, _ => false
  | .store a i e => match labE P A D L a, labE P A D L i, labE P A D L e with
    | some la, some li, some le => la = .out && li = .int && le.isInt
    | _, _, _ => false
  | .ite c a b => decide (labE P A D L c = some .int) && okS r a && okS r b
  | .while c s => decide (labE P A D L c = some .int) && okS r s
  | .doWhile s c => decide (labE P A D L c = some .int) && okS r s
  | .ret e => match labE P A D L e with
    | some l => l.isInt && l.sub r
    | none => false
  | .brk => true
  | .expr (.call g args) => match labA P A D L args, P.lookup g, A.lookup g with
    | some ls, some fn, some s => fits s.vars fn.params ls
    | _, _, _ => false
  | .assert _ => true
  | _ => false

end

/-- A function is accepted: only parameters are pointers, no variable has the name of a table, the body is accepted. -/
def okFun (P : Prog) (A : List (Name × Sig)) (D : Name → Lab) (s : Sig) (fn : Fun) : Bool :=
  s.ret.isInt && fn.params.all (fun p => (s.vars.lookup p.1).isSome) && s.vars.all (fun v => D v.1 = .int && (v.2.isInt || fn.params.any fun p => p.1 = v.1)) &&
    okS P A D s.vars s.ret fn.body

/-- All functions with labels are accepted. -/
def okAll (P : Prog) (A : List (Name × Sig)) (D : Name → Lab) : Bool :=
  A.all fun a => match P.lookup a.1 with
    | some fn => okFun P A D a.2 fn
    | none => false

/-! ### Finding labels -/

/-- Variables declared in a statement. -/
def declared : Stmt → List (Name × Ty)
  | .decl t x => [(x, t)]
  | .seq a b => declared a ++ declared b
  | .ite _ a b => declared a ++ declared b
  | .while _ s => declared s
  | .doWhile s _ => declared s
  | _ => []

/-- The arguments that are variables, with the labels of the parameters. -/
def passed (L : List (Name × Lab)) : List (Name × PTy) → Expr → List Name
  | (p, _) :: ps, .cons (.var x) es => if L.lookup p = some .out then x :: passed L ps es else passed L ps es
  | _ :: ps, .cons _ es => passed L ps es
  | _, _ => []

/-- The pointers through which a statement writes. -/
def writes (P : Prog) (A : List (Name × Sig)) : Stmt → List Name
  | .store (.var a) _ _ => [a]
  | .seq a b => writes P A a ++ writes P A b
  | .ite _ a b => writes P A a ++ writes P A b
  | .while _ s => writes P A s
  | .doWhile s _ => writes P A s
  | .expr (.call g args) => match P.lookup g, A.lookup g with
    | some fn, some s => passed s.vars fn.params args
    | _, _ => []
  | _ => []

/-- Integers of signed types and those in `X` are secret. -/
def tyLab (X : List Name) (x : Name) (t : Ty) : Lab :=
  if X.contains x then .sec else match t with
    | .i16 | .i32 | .i64 | .bool => .sec
    | _ => .int

def findSig (P : Prog) (A : List (Name × Sig)) (X : List Name) (fn : Fun) : Sig :=
  let ws := writes P A fn.body
  { vars := fn.params.map (fun p => (p.1, match p.2 with
      | .int t => tyLab X p.1 t
      | .ptr w => if w = 1 then (if ws.contains p.1 then .out else .arr) else .tab w)) ++
      (declared fn.body).map fun d => (d.1, tyLab X d.1 d.2)
    ret := match fn.ret with
      | some t => tyLab X 0 t
      | none => .sec }

/-- Labels for the functions of a program, in the order of their definition, of those that are accepted with these labels.  `X` says which other
variables (and results, under the name 0) are secret. -/
def findAll (P : Prog) (D : Name → Lab) (X : List (Name × List Name)) : List (Name × Sig) :=
  P.foldl (fun A g =>
    let s := findSig P A ((X.lookup g.1).getD []) g.2
    if okFun P A D s g.2 then A ++ [(g.1, s)] else A) []

end CLang
