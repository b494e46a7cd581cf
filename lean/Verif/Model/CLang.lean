import Verif.CSem

/-
The part of the C language in which src/ntt.c, src/ntt_red.c, src/naive_ntt.c, the products of src/ntt<n>.c, src/ntt_red<n>.c and
src/naive_ntt<n>.c (with their headers), src/sort.c, src/red_bounds.c and the functions of src/make_tables.c,
src/make_red_tables.c and src/make_bitrev_table.c that compute or print (not `main` and `open_file`) are written: syntax
and meaning.  `Verif/Model/CRead.lean` reads the
text of a file into this syntax.

Meaning: that of the C standard for gcc/clang on x86-64 (LP64), with an error for each undefined behaviour.  Integers have the
types below; operands are promoted and converted as the standard says.  Memory consists of objects (arrays); a pointer is an element
of an object.  Differences from C: the address of a variable is only an argument, behind the other arguments, in a statement
`x = f(..., &y, &z)`; there is no assignment inside an expression, no `continue` or `goto` (the functions have none); a function called in an expression must not write memory (the functions called in expressions are `red`,
`mul_red`, `sub_mod`, `add_mod`, `divq`, `modq`, `power`, `reverse`, `divd`, `remd`, `gcd4096`, `lmax` and `lmin`).
-/

namespace CLang
open C

/-- Names are numbers (the bytes of the name). -/
abbrev Name := Nat

/-- Integer types: `int16_t`, `uint16_t`, `int32_t`, `uint32_t`, `int64_t`, `uint64_t`, `bool`. -/
inductive Ty where
  | i16 | u16 | i32 | u32 | i64 | u64 | bool
  deriving DecidableEq, Repr

/-- Binary operators. -/
inductive Bin where
  | add | sub | mul | div | rem | and | or | xor | shl | shr | lt | gt | le | ge | eq | ne
  deriving DecidableEq, Repr

/-- Expressions; the arguments of a call are a list made of `nil` and `cons`. -/
inductive Expr where
  | num (n : Nat)
  | var (x : Name)
  | idx (a i : Expr)
  | neg (e : Expr)
  | not (e : Expr)
  | bin (o : Bin) (a b : Expr)
  | land (a b : Expr)
  | lor (a b : Expr)
  | cast (t : Ty) (e : Expr)
  | cond (c a b : Expr)
  | call (f : Name) (args : Expr)
  | nil
  | cons (e es : Expr)
  deriving DecidableEq, Repr

/-- Parts of the format of `fprintf`: text as it is, `%u`, `%d` (with a minimal width, 0 if there is none), `%s`. -/
inductive Fmt where
  | lit (t : Nat)
  | u (w : Nat)
  | d (w : Nat)
  | s
  deriving DecidableEq, Repr

/-- Statements.  `for (i; c; s) b` is `i; while (c) { b; s }`, `x += e` is `x = x + e`, and so on.  `callAt x g args outs` is
`x = g(args, &y, ...)` for the variables `y` of `outs`.  `print f fmt args` is `fprintf(f, fmt, args)`.
`alloc x t e` is `x = (t *) malloc(e * sizeof(t))`, `free x` is `free(x)`. -/
inductive Stmt where
  | skip
  | seq (a b : Stmt)
  | decl (t : Ty) (x : Name)
  | assign (x : Name) (e : Expr)
  | store (a i e : Expr)
  | ite (c : Expr) (a b : Stmt)
  | while (c : Expr) (s : Stmt)
  | doWhile (s : Stmt) (c : Expr)
  | ret (e : Expr)
  | brk
  | expr (e : Expr)
  | assert (e : Expr)
  | callAt (x : Name) (g : Name) (args : Expr) (outs : List Name)
  | print (f : Expr) (fmt : List Fmt) (args : Expr)
  | alloc (x : Name) (t : Ty) (e : Expr)
  | free (x : Name)
  deriving DecidableEq, Repr

/-- The type of a parameter: an integer, or a pointer to integers (`*a`), or to arrays of `w` integers (`p[][w]`). -/
inductive PTy where
  | int (t : Ty)
  | ptr (w : Nat)
  deriving DecidableEq, Repr

/-- A function; `ret` is `none` for `void`. -/
structure Fun where
  ret : Option Ty
  params : List (Name × PTy)
  body : Stmt
  deriving DecidableEq, Repr

/-- A program: its functions with their names. -/
abbrev Prog := List (Name × Fun)

/-- Values: integers, and pointers to element `off` of object `o`, the elements being arrays of `w` integers (or integers if `w = 1`).
`brk` is not a value, it says that a `break` has been executed. -/
inductive Val where
  | int (t : Ty) (v : Int)
  | ptr (o off w : Nat)
  | brk
  deriving DecidableEq, Repr

/-- What a variable contains: `int t none` before the first assignment. -/
inductive Cell where
  | int (t : Ty) (v : Option Int)
  | ptr (o off w : Nat)
  deriving DecidableEq, Repr

/-- An object: an array of integers of type `ty`. -/
structure Obj where
  ty : Ty
  data : Array Int

/-- The state of a function: its variables, and the memory. -/
structure State where
  env : Name → Option Cell
  mem : Nat → Obj

/-! ### Integers -/

/-- Conversion to a type (6.3.1.3): modulo `2^width`; to `bool` (6.3.1.2): 0 or 1. -/
def conv : Ty → Int → Int
  | .i16, x => (x + 32768) % 65536 - 32768
  | .u16, x => x % 65536
  | .i32, x => toI32 x
  | .u32, x => x % 4294967296
  | .i64, x => toI64 x
  | .u64, x => x % 18446744073709551616
  | .bool, x => if x = 0 then 0 else 1

/-- The result of an operation in a type with exact result `x` (6.5: overflow of a signed type is undefined; 6.2.5: unsigned types
wrap around). -/
def fit : Ty → Int → M Int
  | .i32, x => C.i32 x
  | .i64, x => C.i64 x
  | t, x => .ok (conv t x)

/-- Integer promotion (6.3.1.1). -/
def promote : Ty → Ty
  | .i16 => .i32
  | .u16 => .i32
  | .bool => .i32
  | t => t

/-- The usual arithmetic conversions (6.3.1.8). -/
def common (s t : Ty) : Ty :=
  match promote s, promote t with
  | .u64, _ => .u64
  | _, .u64 => .u64
  | .i64, _ => .i64
  | _, .i64 => .i64
  | .u32, _ => .u32
  | _, .u32 => .u32
  | _, _ => .i32

def width : Ty → Nat
  | .bool => 8
  | .i16 | .u16 => 16
  | .i32 | .u32 => 32
  | .i64 | .u64 => 64

/-- The bits of a value, as a number. -/
def bits : Ty → Int → Nat
  | .i16, x | .u16, x => (x % 65536).toNat
  | .i32, x | .u32, x => toU32 x
  | .i64, x | .u64, x => toU64 x
  | .bool, x => x.toNat

/-- `int` value of a comparison. -/
def truth (b : Bool) : Val := .int .i32 (if b then 1 else 0)

/-- Operators on operands converted to the common type `t`. -/
def arith (t : Ty) (x y : Int) : Bin → M Val
  | .add => do let z ← fit t (x + y); .ok (.int t z)
  | .sub => do let z ← fit t (x - y); .ok (.int t z)
  | .mul => do let z ← fit t (x * y); .ok (.int t z)
  | .div => do
    if y = 0 then .error .divZero
    else let z ← fit t (x.tdiv y); .ok (.int t z)
  | .rem => do
    if y = 0 then .error .divZero
    else let _ ← fit t (x.tdiv y); .ok (.int t (x.tmod y))
  | .and => .ok (.int t (conv t (Int.ofNat (bits t x &&& bits t y))))
  | .or => .ok (.int t (conv t (Int.ofNat (bits t x ||| bits t y))))
  | .xor => .ok (.int t (conv t (Int.ofNat (bits t x ^^^ bits t y))))
  | .lt => .ok (truth (decide (x < y)))
  | .gt => .ok (truth (decide (x > y)))
  | .le => .ok (truth (decide (x ≤ y)))
  | .ge => .ok (truth (decide (x ≥ y)))
  | .eq => .ok (truth (decide (x = y)))
  | .ne => .ok (truth (decide (x ≠ y)))
  | .shl | .shr => .error .abort

/-- Shifts (6.5.7): the type is that of the left operand; the number of places must be less than the width; a right shift of a negative
value is arithmetic; a left shift must not lose bits of a signed value. -/
def shift (left : Bool) (t : Ty) (x y : Int) : M Val :=
  if y < 0 ∨ (width t : Int) ≤ y then .error .overflow
  else if left then
    match t with
    | .i32 | .i64 => if x < 0 then .error .overflow else do let z ← fit t (x * 2 ^ y.toNat); .ok (.int t z)
    | _ => .ok (.int t (conv t (x * 2 ^ y.toNat)))
  else .ok (.int t (sar x y.toNat))

/-- Binary operators (except `&&` and `||`). -/
def binop (o : Bin) : Val → Val → M Val
  | .int s x, .int t y =>
    match o with
    | .shl => shift true (promote s) (conv (promote s) x) (conv (promote t) y)
    | .shr => shift false (promote s) (conv (promote s) x) (conv (promote t) y)
    | o => arith (common s t) (conv (common s t) x) (conv (common s t) y) o
  | _, _ => .error .abort

/-- The operator `~` (6.5.3.3): `-x - 1` is in the range of a signed type. -/
def complement : Val → M Val
  | .int t x => .ok (.int (promote t) (conv (promote t) (-x - 1)))
  | _ => .error .abort

/-- Test of a condition. -/
def test : Val → M Bool
  | .int _ x => .ok (decide (x ≠ 0))
  | _ => .error .abort

/-! ### Variables and memory -/

def setEnv (env : Name → Option Cell) (x : Name) (c : Cell) : Name → Option Cell := fun y => if y = x then some c else env y

def setMem (mem : Nat → Obj) (o : Nat) (d : Obj) : Nat → Obj := fun o' => if o' = o then d else mem o'

/-- The value of a variable; reading it before it is assigned is an error. -/
def cellVal : Option Cell → M Val
  | some (.int t (some v)) => .ok (.int t v)
  | some (.ptr o off w) => .ok (.ptr o off w)
  | _ => .error .abort

/-- Assignment: the value is converted to the type of the variable. -/
def assign (st : State) (x : Name) : Val → M State
  | .int _ v =>
    match st.env x with
    | some (.int t _) => .ok { st with env := setEnv st.env x (.int t (some (conv t v))) }
    | _ => .error .abort
  | _ => .error .abort

/-- The element of `o` that `p[i]` denotes, for a pointer to element `off`. -/
def position (off w : Nat) (i : Int) : M Nat := if (off : Int) + i * w < 0 then .error .oob else .ok ((off : Int) + i * w).toNat

/-- The value of `p[i]`: an integer, or the address of the first element of an array. -/
def load (mem : Nat → Obj) : Val → Val → M Val
  | .ptr o off w, .int _ i => do
    let k ← position off w i
    if w = 1 then do
      let v ← rd (mem o).data k
      .ok (.int (mem o).ty v)
    else .ok (.ptr o k 1)
  | _, _ => .error .abort

/-- `p[i] = v` -/
def storeAt (st : State) : Val → Val → Val → M State
  | .ptr o off 1, .int _ i, .int _ v => do
    let k ← position off 1 i
    let d ← wr (st.mem o).data k (conv (st.mem o).ty v)
    .ok { st with mem := setMem st.mem o ⟨(st.mem o).ty, d⟩ }
  | _, _, _ => .error .abort

/-- Binary operators, with the sum of a pointer and an integer (6.5.6: the result must point into the array or just behind it) and
the comparison of a pointer to an object with the null pointer `0` (6.5.9: it is not equal). -/
def binopAt (mem : Nat → Obj) (op : Bin) : Val → Val → M Val
  | .ptr o off w, .int _ i =>
    match op with
    | .add => do
      let k ← position off w i
      if k ≤ (mem o).data.size then .ok (.ptr o k w) else .error .oob
    | .eq => if i = 0 then .ok (truth false) else .error .abort
    | _ => .error .abort
  | x, y => binop op x y

/-- The parameters at the start of a call: integers are converted to the type of the parameter. -/
def bindParams : List (Name × PTy) → List Val → M (Name → Option Cell)
  | [], [] => .ok fun _ => none
  | (x, .int t) :: ps, .int _ v :: vs => do
    let env ← bindParams ps vs
    .ok (setEnv env x (.int t (some (conv t v))))
  | (x, .ptr w) :: ps, .ptr o off w' :: vs => do
    let env ← bindParams ps vs
    if w = w' then .ok (setEnv env x (.ptr o off w)) else .error .abort
  | _, _ => .error .abort

/-- The statement writes no memory and calls no function that might. -/
def Stmt.pure : Stmt → Bool
  | .store _ _ _ => false
  | .expr _ => false
  | .callAt _ _ _ _ => false
  | .print _ _ _ => false
  | .alloc _ _ _ => false
  | .free _ => false
  | .seq a b => a.pure && b.pure
  | .ite _ a b => a.pure && b.pure
  | .while _ s => s.pure
  | .doWhile s _ => s.pure
  | _ => true

/-- The statement has a call with addresses of variables, or of a function that might, or of `malloc`. -/
def Stmt.addr : Stmt → Bool
  | .callAt _ _ _ _ => true
  | .alloc _ _ _ => true
  | .seq a b => a.addr || b.addr
  | .ite _ a b => a.addr || b.addr
  | .while _ s => s.addr
  | .doWhile s _ => s.addr
  | _ => false

/-- The value of a variable that has none: whatever was in the memory. -/
def junk (t : Ty) (o : Obj) : Int := conv t (o.data.getD 0 0)

/-- New memory for `n` integers of type `t`: it contains whatever was in the memory. -/
def fresh (t : Ty) (n : Nat) (o : Obj) : Obj := ⟨t, (Array.range n).map fun i => conv t (o.data.getD i 0)⟩

/-- The addresses of variables in a call: while the function runs, the variables are objects from `sp` on.  The result are the addresses
and the memory. -/
def pushOuts (env : Name → Option Cell) : Nat → List Name → (Nat → Obj) → M (List Val × (Nat → Obj))
  | _, [], mem => .ok ([], mem)
  | sp, x :: xs, mem =>
    match env x with
    | some (.int t v) => do
      let r ← pushOuts env (sp + 1) xs (setMem mem sp ⟨t, #[v.getD (junk t (mem sp))]⟩)
      .ok (.ptr sp 0 1 :: r.1, r.2)
    | _ => .error .abort

/-- The variables after the call. -/
def popOuts (mem : Nat → Obj) : Nat → List Name → (Name → Option Cell) → Name → Option Cell
  | _, [], env => env
  | sp, x :: xs, env => popOuts mem (sp + 1) xs (setEnv env x (.int (mem sp).ty (some ((mem sp).data.getD 0 0))))

/-- The variables of a function at its start; the variable with the empty name (0) says where the free objects begin, if the function
needs to know. -/
def withStack (fn : Fun) (sp : Nat) (env : Name → Option Cell) : Name → Option Cell := if fn.body.addr then setEnv env 0 (.ptr sp 0 1) else env

/-! ### Printing -/

/-- The bytes of a text. -/
def bytes : Nat → Nat → List Int
  | 0, _ => []
  | f + 1, n => if n = 0 then [] else (n % 256 : Nat) :: bytes f (n / 256)

/-- Decimal digits. -/
def digits (n : Nat) : List Int := (Nat.toDigits 10 n).map fun c => (c.toNat : Int)

/-- Blanks on the left, up to width `w`. -/
def padTo (w : Nat) (t : List Int) : List Int := List.replicate (w - t.length) 32 ++ t

/-- The characters of a string, up to the null character that ends it. -/
def cstring : List Int → M (List Int)
  | [] => .error .oob
  | c :: l => if c = 0 then .ok [] else do
    let t ← cstring l
    .ok (c :: t)

/-- The text that `fprintf` writes (7.21.6.1): `%u` is for arguments of type `unsigned int` (`uint32_t`), `%d` for `int` (`int32_t`), `%s` for
pointers to strings.  Any other argument is an error; so are more or fewer arguments than the format needs. -/
def format (mem : Nat → Obj) : List Fmt → List Val → M (List Int)
  | [], [] => .ok []
  | .lit t :: fs, vs => do
    let r ← format mem fs vs
    .ok (bytes (Nat.log2 t + 1) t ++ r)
  | .u w :: fs, .int .u32 v :: vs => do
    let r ← format mem fs vs
    .ok (padTo w (digits v.toNat) ++ r)
  | .d w :: fs, .int .i32 v :: vs => do
    let r ← format mem fs vs
    .ok (padTo w (if v < 0 then 45 :: digits v.natAbs else digits v.natAbs) ++ r)
  | .s :: fs, .ptr o off 1 :: vs => do
    let t ← cstring ((mem o).data.toList.drop off)
    let r ← format mem fs vs
    .ok (t ++ r)
  | _, _ => .error .abort

/-- An open file is an object, the characters written so far; a `FILE *` is a pointer to it. -/
def writeTo (st : State) (t : List Int) : Val → M State
  | .ptr o 0 1 => .ok { st with mem := setMem st.mem o ⟨(st.mem o).ty, (st.mem o).data ++ t.toArray⟩ }
  | _ => .error .abort

/-- The result of a call: the returned value converted to the type of the function. -/
def result : Option Ty → Option Val → M Val
  | some t, some (.int _ v) => .ok (.int t (conv t v))
  | _, _ => .error .abort

/-! ### Execution -/

section
variable (P : Prog) (G : Name → Option Cell)

mutual
/-- The value of an expression.  The first argument bounds the depth of the recursion; `G` are the global constants. -/
def eval : Nat → Expr → State → M Val
  | 0, _, _ => .error .nonterm
  | _ + 1, .num n, _ => .ok (.int (if n ≤ 2147483647 then .i32 else .i64) n)
  | _ + 1, .var x, st => cellVal ((st.env x).or (G x))
  | f + 1, .idx a i, st => do
    let p ← eval f a st
    let i ← eval f i st
    load st.mem p i
  | f + 1, .neg e, st => do
    let v ← eval f e st
    binop .sub (.int .i32 0) v
  | f + 1, .not e, st => do
    let v ← eval f e st
    complement v
  | f + 1, .bin o a b, st => do
    let x ← eval f a st
    let y ← eval f b st
    binopAt st.mem o x y
  | f + 1, .land a b, st => do
    let x ← eval f a st
    if ← test x then do
      let y ← eval f b st
      let r ← test y
      .ok (truth r)
    else .ok (truth false)
  | f + 1, .lor a b, st => do
    let x ← eval f a st
    if ← test x then .ok (truth true)
    else do
      let y ← eval f b st
      let r ← test y
      .ok (truth r)
  | f + 1, .cast t e, st => do
    match ← eval f e st with
    | .int _ v => .ok (.int t (conv t v))
    | _ => .error .abort
  | f + 1, .cond c a b, st => do
    let x ← eval f c st
    if ← test x then eval f a st else eval f b st
  | f + 1, .call g args, st => do
    let vs ← evalArgs f args st
    match P.lookup g with
    | some fn => do
      if fn.body.pure then do
        let env ← bindParams fn.params vs
        let r ← exec f fn.body ⟨env, st.mem⟩
        result fn.ret r.1
      else .error .abort
    | none => .error .abort
  | _ + 1, .nil, _ => .error .abort
  | _ + 1, .cons _ _, _ => .error .abort

/-- The values of arguments. -/
def evalArgs : Nat → Expr → State → M (List Val)
  | 0, _, _ => .error .nonterm
  | _ + 1, .nil, _ => .ok []
  | f + 1, .cons e es, st => do
    let v ← eval f e st
    let vs ← evalArgs f es st
    .ok (v :: vs)
  | _ + 1, _, _ => .error .abort

/-- Execution of a statement: the value of `return`, if it was executed (`brk` for `break`), and the state. -/
def exec : Nat → Stmt → State → M (Option Val × State)
  | 0, _, _ => .error .nonterm
  | _ + 1, .skip, st => .ok (none, st)
  | f + 1, .seq a b, st => do
    let r ← exec f a st
    match r.1 with
    | none => exec f b r.2
    | some _ => .ok r
  | _ + 1, .decl t x, st => .ok (none, { st with env := setEnv st.env x (.int t none) })
  | f + 1, .assign x e, st => do
    let v ← eval f e st
    let st ← assign st x v
    .ok (none, st)
  | f + 1, .store a i e, st => do
    let p ← eval f a st
    let i ← eval f i st
    let v ← eval f e st
    let st ← storeAt st p i v
    .ok (none, st)
  | f + 1, .ite c a b, st => do
    let v ← eval f c st
    if ← test v then exec f a st else exec f b st
  | f + 1, .while c s, st => do
    let v ← eval f c st
    if ← test v then do
      let r ← exec f s st
      match r.1 with
      | none => exec f (.while c s) r.2
      | some .brk => .ok (none, r.2)
      | some _ => .ok r
    else .ok (none, st)
  | f + 1, .doWhile s c, st => do
    let r ← exec f s st
    match r.1 with
    | none => do
      let v ← eval f c r.2
      if ← test v then exec f (.doWhile s c) r.2 else .ok (none, r.2)
    | some .brk => .ok (none, r.2)
    | some _ => .ok r
  | f + 1, .ret e, st => do
    let v ← eval f e st
    .ok (some v, st)
  | _ + 1, .brk, st => .ok (some .brk, st)
  | f + 1, .expr (.call g args), st => do
    let vs ← evalArgs f args st
    match P.lookup g with
    | some fn => do
      let env ← bindParams fn.params vs
      let r ← exec f fn.body ⟨env, st.mem⟩
      .ok (none, { st with mem := r.2.mem })
    | none => .error .abort
  | _ + 1, .expr _, _ => .error .abort
  | f + 1, .assert e, st => do
    let v ← eval f e st
    let b ← test v
    cassert b
    .ok (none, st)
  | f + 1, .callAt x g args outs, st => do
    let vs ← evalArgs f args st
    match P.lookup g, st.env 0 with
    | some fn, some (.ptr sp _ _) => do
      cassert (decide outs.Nodup)
      let ps ← pushOuts st.env sp outs st.mem
      let env ← bindParams fn.params (vs ++ ps.1)
      let r ← exec f fn.body ⟨withStack fn (sp + outs.length) env, ps.2⟩
      let v ← result fn.ret r.1
      let st ← assign ⟨popOuts r.2.mem sp outs st.env, fun o => if sp ≤ o then st.mem o else r.2.mem o⟩ x v
      .ok (none, st)
    | _, _ => .error .abort
  | f + 1, .print e fmt args, st => do
    let p ← eval f e st
    let vs ← evalArgs f args st
    let t ← format st.mem fmt vs
    let st ← writeTo st t p
    .ok (none, st)
  | f + 1, .alloc x t e, st => do
    let v ← eval f e st
    match v, st.env 0 with
    | .int .u32 n, some (.ptr sp _ _) =>
      .ok (none, ⟨setEnv (setEnv st.env 0 (.ptr (sp + 1) 0 1)) x (.ptr sp 0 1), setMem st.mem sp (fresh t n.toNat (st.mem sp))⟩)
    | _, _ => .error .abort
  | _ + 1, .free x, st =>
    match st.env x with
    | some (.ptr o 0 1) => .ok (none, ⟨setEnv st.env x (.int (st.mem o).ty none), setMem st.mem o ⟨(st.mem o).ty, #[]⟩⟩)
    | _ => .error .abort
end

/-- A call of a function from outside that returns a value: the value and the memory. -/
def callValue (fuel : Nat) (g : Name) (vs : List Val) (mem : Nat → Obj) : M (Val × (Nat → Obj)) := do
  match P.lookup g with
  | some fn => do
    let env ← bindParams fn.params vs
    let r ← exec P G fuel fn.body ⟨env, mem⟩
    let v ← result fn.ret r.1
    .ok (v, r.2.mem)
  | none => .error .abort

/-- A call from outside of a function that takes addresses of its variables; the objects from `sp` on are free. -/
def callValueAt (sp fuel : Nat) (g : Name) (vs : List Val) (mem : Nat → Obj) : M (Val × (Nat → Obj)) := do
  match P.lookup g with
  | some fn => do
    let env ← bindParams fn.params vs
    let r ← exec P G fuel fn.body ⟨withStack fn sp env, mem⟩
    let v ← result fn.ret r.1
    .ok (v, r.2.mem)
  | none => .error .abort

/-- A call from outside of a function of type `void` that calls `malloc`; the objects from `sp` on are free. -/
def callFrom (sp fuel : Nat) (g : Name) (vs : List Val) (mem : Nat → Obj) : M (Nat → Obj) := do
  match P.lookup g with
  | some fn => do
    let env ← bindParams fn.params vs
    let r ← exec P G fuel fn.body ⟨withStack fn sp env, mem⟩
    .ok r.2.mem
  | none => .error .abort

/-- A call of a function of type `void` from outside. -/
def call (fuel : Nat) (g : Name) (vs : List Val) (mem : Nat → Obj) : M (Nat → Obj) := do
  match P.lookup g with
  | some fn => do
    let env ← bindParams fn.params vs
    let r ← exec P G fuel fn.body ⟨env, mem⟩
    .ok r.2.mem
  | none => .error .abort

end

/-! ### Programs -/

/-- Calls `x = g(args)` of functions that write memory are statements of their own. -/
def Stmt.direct (P : Prog) : Stmt → Stmt
  | .assign x (.call g args) =>
    match P.lookup g with
    | some fn => if fn.body.pure then .assign x (.call g args) else .callAt x g args []
    | none => .assign x (.call g args)
  | .seq a b => .seq (a.direct P) (b.direct P)
  | .ite c a b => .ite c (a.direct P) (b.direct P)
  | .while c s => .while c (s.direct P)
  | .doWhile s c => .doWhile (s.direct P) c
  | s => s

def direct (P : Prog) : Prog := P.map fun g => (g.1, { g.2 with body := g.2.body.direct P })

/-- Compiled with `-DNDEBUG`, `assert(e);` is an empty statement. -/
def Stmt.release : Stmt → Stmt
  | .assert _ => .skip
  | .seq a b => .seq a.release b.release
  | .ite c a b => .ite c a.release b.release
  | .while c s => .while c s.release
  | .doWhile s c => .doWhile s.release c
  | s => s

/-- The program compiled with `-DNDEBUG`. -/
def release (P : Prog) : Prog := P.map fun g => (g.1, { g.2 with body := g.2.body.release })

end CLang
