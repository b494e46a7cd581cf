import Verif.Model.CLang
import Lean

/-
Reading the text of a C file into the syntax of `Verif/Model/CLang.lean`: tokens, preprocessor directives, functions.

A text is a number: its bytes, the first being the lowest.  `text! "..."` is that number for a literal.
-/

namespace CLang

open Lean Elab Term in
/-- The number of a text. -/
elab "text! " s:str : term =>
  return mkRawNatLit (s.getString.toUTF8.toList.foldr (fun b n => b.toNat + 256 * n) 0)

open Lean Elab Term in
/-- The number of a name. -/
elab:max "n!" s:str : term =>
  return mkNatLit (s.getString.toUTF8.toList.foldr (fun b n => b.toNat + 256 * n) 0)

/-- Tokens: names and keywords, numbers, operators and other characters, strings, ends of lines.  Names, operators and strings are texts. -/
inductive Tok where
  | id (n : Nat)
  | num (n : Nat)
  | op (n : Nat)
  | str (n : Nat)
  | nl
  deriving DecidableEq, Repr

/-! ### Tokens -/

def isDigit (c : Nat) : Bool := Nat.ble 48 c && Nat.ble c 57

/-- Letters, digits and `_`. -/
def isWord (c : Nat) : Bool := isDigit c || (Nat.ble 65 c && Nat.ble c 90) || (Nat.ble 97 c && Nat.ble c 122) || Nat.beq c 95

/-- Skip a comment, up to `*/`. -/
def skipComment : Nat → Nat → Nat
  | 0, n => n
  | f + 1, n => if Nat.beq n 0 then 0 else if Nat.beq (n % 65536) (text! "*/") then n / 65536 else skipComment f (n / 256)

/-- Skip a comment, up to the end of the line. -/
def skipLine : Nat → Nat → Nat
  | 0, n => n
  | f + 1, n => if Nat.beq n 0 then 0 else if Nat.beq (n % 256) 10 then n else skipLine f (n / 256)

/-- The word at the beginning of a text (its characters before the others, `p` being `256^length`), and the rest. -/
def word : Nat → Nat → Nat → Nat → Nat × Nat
  | 0, n, w, _ => (w, n)
  | f + 1, n, w, p => if isWord (n % 256) then word f (n / 256) (w + p * (n % 256)) (256 * p) else (w, n)

/-- The number at the beginning of a text, and the rest. -/
def number : Nat → Nat → Nat → Nat × Nat
  | 0, n, v => (v, n)
  | f + 1, n, v => if isDigit (n % 256) then number f (n / 256) (10 * v + (n % 256 - 48)) else (v, n)

/-- Operators of three and two characters. -/
def isOp3 (n : Nat) : Bool := Nat.beq n (text! "<<=") || Nat.beq n (text! ">>=")
def isOp2 (n : Nat) : Bool :=
  Nat.beq n (text! "<<") || Nat.beq n (text! ">>") || Nat.beq n (text! "<=") || Nat.beq n (text! ">=") || Nat.beq n (text! "==") ||
  Nat.beq n (text! "!=") || Nat.beq n (text! "&&") || Nat.beq n (text! "||") || Nat.beq n (text! "+=") || Nat.beq n (text! "-=") ||
  Nat.beq n (text! "*=") || Nat.beq n (text! "/=") || Nat.beq n (text! "%=") || Nat.beq n (text! "&=") || Nat.beq n (text! "^=") ||
  Nat.beq n (text! "|=") || Nat.beq n (text! "++") || Nat.beq n (text! "--") || Nat.beq n (text! "->")

/-- The character that stands behind a backslash: `\n`, `\"` or `\\`. -/
def escaped (c : Nat) : Option Nat := if Nat.beq c 110 then some 10 else if Nat.beq c 34 || Nat.beq c 92 then some c else none

/-- The string behind a quote (`w` are its characters before the others, `p` is `256^length`), and the rest behind the string. -/
def string : Nat → Nat → Nat → Nat → Option (Nat × Nat)
  | 0, _, _, _ => none
  | f + 1, n, w, p =>
    if Nat.beq n 0 then none
    else if Nat.beq (n % 256) 34 then some (w, n / 256)
    else if Nat.beq (n % 256) 92 then
      match escaped (n / 256 % 256) with
      | some c => string f (n / 65536) (w + p * c) (256 * p)
      | none => none
    else string f (n / 256) (w + p * (n % 256)) (256 * p)

def tokens : Nat → Nat → List Tok
  | 0, _ => []
  | f + 1, n =>
    if Nat.beq n 0 then []
    else
      let c := n % 256
      if Nat.beq c 10 then .nl :: tokens f (n / 256)
      else if Nat.ble c 32 then tokens f (n / 256)
      else if Nat.beq (n % 65536) (text! "/*") then tokens f (skipComment f (n / 65536))
      else if Nat.beq (n % 65536) (text! "//") then tokens f (skipLine f n)
      else if Nat.beq c 34 then
        match string f (n / 256) 0 1 with
        | some (w, n) => .str w :: tokens f n
        | none => []
      else if isDigit c then
        let (v, n) := number f n 0
        .num v :: tokens f n
      else if isWord c then
        let (w, n) := word f n 0 1
        .id w :: tokens f n
      else if isOp3 (n % 16777216) then .op (n % 16777216) :: tokens f (n / 16777216)
      else if isOp2 (n % 65536) then .op (n % 65536) :: tokens f (n / 65536)
      else .op c :: tokens f (n / 256)

/-! ### Preprocessor -/

/-- The rest after the current line. -/
def dropLine : List Tok → List Tok
  | [] => []
  | .nl :: l => l
  | _ :: l => dropLine l

/-- Directives: `#include` is ignored, `#define NAME number` defines a constant (without a number: ignored), `#if 0`, `#if 1`,
`#ifndef` (taken to be true), `#else` and `#endif` select text.  `stack` has an element for each open `#if`: whether its text is
used.  The result has no ends of lines. -/
def preprocess : Nat → List (Nat × Nat) → List Bool → List Tok → List Tok
  | 0, _, _, _ => []
  | _, _, _, [] => []
  | f + 1, defs, stack, .op 35 :: l =>
    match l with
    | .id w :: l =>
      if Nat.beq w (text! "if") then
        match l with
        | .num v :: l => preprocess f defs (Nat.beq v 1 :: stack) (dropLine l)
        | _ => []
      else if Nat.beq w (text! "ifndef") then preprocess f defs (true :: stack) (dropLine l)
      else if Nat.beq w (text! "else") then
        match stack with
        | b :: stack => preprocess f defs ((!b) :: stack) (dropLine l)
        | [] => []
      else if Nat.beq w (text! "endif") then
        match stack with
        | _ :: stack => preprocess f defs stack (dropLine l)
        | [] => []
      else if Nat.beq w (text! "define") then
        match l with
        | .id x :: .num v :: .nl :: l => preprocess f (if stack.all id then (x, v) :: defs else defs) stack l
        | l => preprocess f defs stack (dropLine l)
      else preprocess f defs stack (dropLine l)
    | _ => []
  | f + 1, defs, stack, .nl :: l => preprocess f defs stack l
  | f + 1, defs, stack, t :: l =>
    if stack.all id then
      match t with
      | .id x =>
        match defs.lookup x with
        | some v => .num v :: preprocess f defs stack l
        | none => t :: preprocess f defs stack l
      | t => t :: preprocess f defs stack l
    else preprocess f defs stack l

/-! ### Expressions -/

/-- The names of the integer types. -/
def tyOf (w : Nat) : Option Ty :=
  if Nat.beq w (text! "int16_t") then some .i16
  else if Nat.beq w (text! "uint16_t") then some .u16
  else if Nat.beq w (text! "int32_t") then some .i32
  else if Nat.beq w (text! "uint32_t") then some .u32
  else if Nat.beq w (text! "int64_t") then some .i64
  else if Nat.beq w (text! "uint64_t") then some .u64
  else if Nat.beq w (text! "bool") then some .bool
  else none

/-- Binary operators with their precedence. -/
def binOf (o : Nat) : Option (Bin × Nat) :=
  if Nat.beq o (text! "*") then some (.mul, 10)
  else if Nat.beq o (text! "/") then some (.div, 10)
  else if Nat.beq o (text! "%") then some (.rem, 10)
  else if Nat.beq o (text! "+") then some (.add, 9)
  else if Nat.beq o (text! "-") then some (.sub, 9)
  else if Nat.beq o (text! "<<") then some (.shl, 8)
  else if Nat.beq o (text! ">>") then some (.shr, 8)
  else if Nat.beq o (text! "<") then some (.lt, 7)
  else if Nat.beq o (text! ">") then some (.gt, 7)
  else if Nat.beq o (text! "<=") then some (.le, 7)
  else if Nat.beq o (text! ">=") then some (.ge, 7)
  else if Nat.beq o (text! "==") then some (.eq, 6)
  else if Nat.beq o (text! "!=") then some (.ne, 6)
  else if Nat.beq o (text! "&") then some (.and, 5)
  else if Nat.beq o (text! "^") then some (.xor, 4)
  else if Nat.beq o (text! "|") then some (.or, 3)
  else none

/-- The next token must be `o`. -/
def expect (o : Nat) : List Tok → Option (List Tok)
  | .op p :: l => if Nat.beq p o then some l else none
  | _ => none

/-- A string literal is a constant of the program, under a name that begins with a quote. -/
def stringName (t : Nat) : Name := 34 + 256 * t

mutual
/-- An expression: a binary expression, or `c ? a : b`. -/
def readExpr : Nat → List Tok → Option (Expr × List Tok)
  | 0, _ => none
  | f + 1, l => do
    let (e, l) ← readUnary f l
    let (e, l) ← readRest f 1 e l
    match l with
    | .op 63 :: l => do
      let (a, l) ← readExpr f l
      let l ← expect (text! ":") l
      let (b, l) ← readExpr f l
      some (.cond e a b, l)
    | l => some (e, l)

/-- Operators of precedence at least `m` behind the operand `e`; all associate to the left; `&&` has precedence 2,
`||` has precedence 1. -/
def readRest : Nat → Nat → Expr → List Tok → Option (Expr × List Tok)
  | 0, _, _, _ => none
  | f + 1, m, e, .op o :: l =>
    if Nat.beq o (text! "&&") then
      if Nat.ble m 2 then do
        let (b, l) ← readUnary f l
        let (b, l) ← readRest f 3 b l
        readRest f m (.land e b) l
      else some (e, .op o :: l)
    else if Nat.beq o (text! "||") then
      if Nat.ble m 1 then do
        let (b, l) ← readUnary f l
        let (b, l) ← readRest f 2 b l
        readRest f m (.lor e b) l
      else some (e, .op o :: l)
    else
      match binOf o with
      | some (p, k) =>
        if Nat.ble m k then do
          let (b, l) ← readUnary f l
          let (b, l) ← readRest f (k + 1) b l
          readRest f m (.bin p e b) l
        else some (e, .op o :: l)
      | none => some (e, .op o :: l)
  | _ + 1, _, e, l => some (e, l)

/-- An operand: a cast, `-e`, `~e`, or something followed by indices. -/
def readUnary : Nat → List Tok → Option (Expr × List Tok)
  | 0, _ => none
  | f + 1, .op 45 :: l => do
    let (e, l) ← readUnary f l
    some (.neg e, l)
  | f + 1, .op 126 :: l => do
    let (e, l) ← readUnary f l
    some (.not e, l)
  | f + 1, .op 40 :: .id w :: l =>
    match tyOf w with
    | some t => do
      let l ← expect (text! ")") l
      let (e, l) ← readUnary f l
      some (.cast t e, l)
    | none => do
      let (e, l) ← readExpr f (.id w :: l)
      let l ← expect (text! ")") l
      readIndex f e l
  | f + 1, .op 40 :: l => do
    let (e, l) ← readExpr f l
    let l ← expect (text! ")") l
    readIndex f e l
  | f + 1, .id w :: .op 40 :: l => do
    let (es, l) ← readArgs f l
    readIndex f (.call w es) l
  | f + 1, .id w :: l =>
    if Nat.beq w (text! "true") then some (.num 1, l)
    else if Nat.beq w (text! "false") || Nat.beq w (text! "NULL") then some (.num 0, l)
    else readIndex f (.var w) l
  | _ + 1, .num v :: l => some (.num v, l)
  | _ + 1, .str t :: l => some (.var (stringName t), l)
  | _ + 1, _ => none

/-- Indices behind an operand. -/
def readIndex : Nat → Expr → List Tok → Option (Expr × List Tok)
  | 0, _, _ => none
  | f + 1, e, .op 91 :: l => do
    let (i, l) ← readExpr f l
    let l ← expect (text! "]") l
    readIndex f (.idx e i) l
  | _ + 1, e, l => some (e, l)

/-- The arguments of a call, behind `(`, with the `)`. -/
def readArgs : Nat → List Tok → Option (Expr × List Tok)
  | 0, _ => none
  | _ + 1, .op 41 :: l => some (.nil, l)
  | f + 1, l => do
    let (e, l) ← readExpr f l
    match l with
    | .op 44 :: l => do
      let (es, l) ← readArgs f l
      some (.cons e es, l)
    | .op 41 :: l => some (.cons e .nil, l)
    | _ => none
end

/-! ### Statements -/

/-- The operator of `x += e` and so on. -/
def compoundOf (o : Nat) : Option Bin :=
  if Nat.beq o (text! "+=") then some .add
  else if Nat.beq o (text! "-=") then some .sub
  else if Nat.beq o (text! "*=") then some .mul
  else if Nat.beq o (text! "&=") then some .and
  else if Nat.beq o (text! "^=") then some .xor
  else if Nat.beq o (text! "<<=") then some .shl
  else if Nat.beq o (text! ">>=") then some .shr
  else none

/-- The arguments of a call, behind `(`, with the `)`: expressions, then addresses `&x`. -/
def readArgsAt : Nat → List Tok → Option ((Expr × List Name) × List Tok)
  | 0, _ => none
  | f + 1, .op 38 :: .id x :: l =>
    match l with
    | .op 41 :: l => some ((.nil, [x]), l)
    | .op 44 :: l => do
      let (r, l) ← readArgsAt f l
      match r.1 with
      | .nil => some ((.nil, x :: r.2), l)
      | _ => none
    | _ => none
  | f + 1, l => do
    let (e, l) ← readExpr f l
    let l ← expect (text! ",") l
    let (r, l) ← readArgsAt f l
    some ((.cons e r.1, r.2), l)

/-- `x = g(..., &y, ...)`, behind the `=`. -/
def readCallAt (f : Nat) (x : Name) : List Tok → Option (Stmt × List Tok)
  | .id g :: .op 40 :: l => do
    let (r, l) ← readArgsAt f l
    some (.callAt x g r.1 r.2, l)
  | _ => none

/-- `x = (t *) malloc(n * sizeof(t))`, behind the `=`. -/
def readAlloc (x : Name) : List Tok → Option (Stmt × List Tok)
  | .op 40 :: .id w :: .op 42 :: .op 41 :: .id m :: .op 40 :: .id n :: .op 42 :: .id s :: .op 40 :: .id w' :: .op 41 :: .op 41 :: l =>
    if Nat.beq m (text! "malloc") && Nat.beq s (text! "sizeof") && Nat.beq w w' then do
      let t ← tyOf w
      some (.alloc x t (.var n), l)
    else none
  | _ => none

/-- `free(x)`, behind the `(`, with the `)`. -/
def readFree : List Tok → Option (Stmt × List Tok)
  | .id x :: .op 41 :: l => some (.free x, l)
  | _ => none

/-- The bytes of a text. -/
def textBytes : Nat → Nat → List Nat
  | 0, _ => []
  | f + 1, n => if Nat.beq n 0 then [] else n % 256 :: textBytes f (n / 256)

/-- Adjacent strings and the macros `PRIu32` ("u") and `PRId32` ("d"): the bytes of the string they make together. -/
def readFormat : List Tok → List Nat × List Tok
  | .str t :: l =>
    let (r, l) := readFormat l
    (textBytes 1000 t ++ r, l)
  | .id w :: l =>
    if Nat.beq w (text! "PRIu32") then
      let (r, l) := readFormat l
      (117 :: r, l)
    else if Nat.beq w (text! "PRId32") then
      let (r, l) := readFormat l
      (100 :: r, l)
    else ([], .id w :: l)
  | l => ([], l)

/-- The parts of a format; `t` is the text before (`p` is `256^length`), `w` is the width if a `%` has been read. -/
def fmtOf : List Nat → Nat → Nat → Option Nat → Option (List Fmt)
  | [], t, _, none => some (if Nat.beq t 0 then [] else [.lit t])
  | [], _, _, some _ => none
  | c :: l, t, p, none => if Nat.beq c 37 then do
      let r ← fmtOf l 0 1 (some 0)
      some (if Nat.beq t 0 then r else .lit t :: r)
    else fmtOf l (t + p * c) (256 * p) none
  | c :: l, _, _, some w =>
    if isDigit c then fmtOf l 0 1 (some (10 * w + (c - 48)))
    else if Nat.beq c 117 then do
      let r ← fmtOf l 0 1 none
      some (.u w :: r)
    else if Nat.beq c 100 then do
      let r ← fmtOf l 0 1 none
      some (.d w :: r)
    else if Nat.beq c 115 && Nat.beq w 0 then do
      let r ← fmtOf l 0 1 none
      some (.s :: r)
    else none

/-- `fprintf(f, format, ...)`, behind the `(`, with the `)`. -/
def readPrint (f : Nat) : List Tok → Option (Stmt × List Tok)
  | .id x :: .op 44 :: l => do
    let (bs, l) := readFormat l
    let fmt ← fmtOf bs 0 1 none
    match l with
    | .op 41 :: l => some (.print (.var x) fmt .nil, l)
    | .op 44 :: l => do
      let (es, l) ← readArgs f l
      some (.print (.var x) fmt es, l)
    | _ => none
  | _ => none

/-- An assignment, `x++`, `x--`, a call, `fprintf`, `malloc`, `free`, or `*x = e`. -/
def readSimple (f : Nat) : List Tok → Option (Stmt × List Tok)
  | .id x :: .op o :: l =>
    if Nat.beq o (text! "=") then
      match readExpr f l with
      | some (e, l) => some (.assign x e, l)
      | none =>
        match readCallAt f x l with
        | some r => some r
        | none => readAlloc x l
    else if Nat.beq o (text! "++") then some (.assign x (.bin .add (.var x) (.num 1)), l)
    else if Nat.beq o (text! "--") then some (.assign x (.bin .sub (.var x) (.num 1)), l)
    else if Nat.beq o (text! "(") then
      if Nat.beq x (text! "fprintf") then readPrint f l
      else if Nat.beq x (text! "free") then readFree l
      else do
        let (es, l) ← readArgs f l
        some (.expr (.call x es), l)
    else if Nat.beq o (text! "[") then do
      let (i, l) ← readExpr f l
      let l ← expect (text! "]") l
      let l ← expect (text! "=") l
      let (e, l) ← readExpr f l
      some (.store (.var x) i e, l)
    else
      match compoundOf o with
      | some b => do
        let (e, l) ← readExpr f l
        some (.assign x (.bin b (.var x) e), l)
      | none => none
  | .op 42 :: .id x :: l => do
    let l ← expect (text! "=") l
    let (e, l) ← readExpr f l
    some (.store (.var x) (.num 0) e, l)
  | _ => none

/-- Simple statements separated by commas. -/
def readSimples : Nat → List Tok → Option (Stmt × List Tok)
  | 0, _ => none
  | f + 1, l => do
    let (s, l) ← readSimple f l
    match l with
    | .op 44 :: l => do
      let (s', l) ← readSimples f l
      some (.seq s s', l)
    | l => some (s, l)

/-- The names of a declaration, behind the type, with the `;`.  A pointer has no value either, `malloc` gives it one. -/
def readDecls (t : Ty) : Nat → List Tok → Option (Stmt × List Tok)
  | 0, _ => none
  | _ + 1, .id x :: .op 59 :: l => some (.decl t x, l)
  | _ + 1, .op 42 :: .id x :: .op 59 :: l => some (.decl t x, l)
  | f + 1, .id x :: .op 44 :: l => do
    let (s, l) ← readDecls t f l
    some (.seq (.decl t x) s, l)
  | _ + 1, _ => none

mutual
/-- A statement. -/
def readStmt : Nat → List Tok → Option (Stmt × List Tok)
  | 0, _ => none
  | f + 1, .op 123 :: l => readBlock f l
  | f + 1, .id w :: l =>
    if Nat.beq w (text! "for") then do
      let l ← expect (text! "(") l
      match l with
      | .op 59 :: .op 59 :: .op 41 :: l => do
        let (b, l) ← readStmt f l
        some (.while (.num 1) b, l)
      | l => do
        let (i, l) ← readSimples f l
        let l ← expect (text! ";") l
        let (c, l) ← readExpr f l
        let l ← expect (text! ";") l
        let (s, l) ← readSimples f l
        let l ← expect (text! ")") l
        let (b, l) ← readStmt f l
        some (.seq i (.while c (.seq b s)), l)
    else if Nat.beq w (text! "while") then do
      let l ← expect (text! "(") l
      let (c, l) ← readExpr f l
      let l ← expect (text! ")") l
      let (b, l) ← readStmt f l
      some (.while c b, l)
    else if Nat.beq w (text! "do") then do
      let (b, l) ← readStmt f l
      match l with
      | .id w :: l =>
        if Nat.beq w (text! "while") then do
          let l ← expect (text! "(") l
          let (c, l) ← readExpr f l
          let l ← expect (text! ")") l
          let l ← expect (text! ";") l
          some (.doWhile b c, l)
        else none
      | _ => none
    else if Nat.beq w (text! "if") then do
      let l ← expect (text! "(") l
      let (c, l) ← readExpr f l
      let l ← expect (text! ")") l
      let (a, l) ← readStmt f l
      match l with
      | .id w :: l' =>
        if Nat.beq w (text! "else") then do
          let (b, l) ← readStmt f l'
          some (.ite c a b, l)
        else some (.ite c a .skip, l)
      | l => some (.ite c a .skip, l)
    else if Nat.beq w (text! "return") then do
      let (e, l) ← readExpr f l
      let l ← expect (text! ";") l
      some (.ret e, l)
    else if Nat.beq w (text! "break") then do
      let l ← expect (text! ";") l
      some (.brk, l)
    else if Nat.beq w (text! "assert") then do
      let l ← expect (text! "(") l
      let (e, l) ← readExpr f l
      let l ← expect (text! ")") l
      let l ← expect (text! ";") l
      some (.assert e, l)
    else
      match tyOf w with
      | some t => readDecls t f l
      | none => do
        let (s, l) ← readSimples f (.id w :: l)
        let l ← expect (text! ";") l
        some (s, l)
  | f + 1, l => do
    let (s, l) ← readSimples f l
    let l ← expect (text! ";") l
    some (s, l)

/-- The statements of a block, behind `{`, with the `}`. -/
def readBlock : Nat → List Tok → Option (Stmt × List Tok)
  | 0, _ => none
  | _ + 1, .op 125 :: l => some (.skip, l)
  | f + 1, l => do
    let (s, l) ← readStmt f l
    let (s', l) ← readBlock f l
    some (.seq s s', l)
end

/-! ### Functions -/

/-- Skip the words `static`, `inline`, `extern` and `const`. -/
def skipWords : List Tok → List Tok
  | .id w :: l =>
    if Nat.beq w (text! "static") || Nat.beq w (text! "inline") || Nat.beq w (text! "extern") || Nat.beq w (text! "const")
    then skipWords l else .id w :: l
  | l => l

/-- Other types to which there are pointers: files, strings, the structure of the generators. -/
def isPointee (w : Nat) : Bool := Nat.beq w (text! "FILE") || Nat.beq w (text! "char") || Nat.beq w (text! "parameters_t")

/-- The parameters of a function, behind `(`, with the `)`. -/
def readParams : Nat → List Tok → Option (List (Name × PTy) × List Tok)
  | 0, _ => none
  | f + 1, l =>
    match skipWords l with
    | .id w :: l => do
      let (p, l) ← (match tyOf w, l with
        | some _, .op 42 :: .id x :: l => some ((x, PTy.ptr 1), l)
        | some _, .id x :: .op 91 :: .op 93 :: .op 91 :: .num k :: .op 93 :: l => some ((x, PTy.ptr k), l)
        | some t, .id x :: l => some ((x, PTy.int t), l)
        | none, .op 42 :: .id x :: l => if isPointee w then some ((x, PTy.ptr 1), l) else none
        | _, _ => none)
      match l with
      | .op 44 :: l => do
        let (ps, l) ← readParams f l
        some (p :: ps, l)
      | .op 41 :: l => some ([p], l)
      | _ => none
    | _ => none

/-- The functions of a file, without prototypes. -/
def readFuns : Nat → List Tok → Option Prog
  | 0, _ => none
  | f + 1, l =>
    match skipWords l with
    | [] => some []
    | .id w :: .id g :: .op 40 :: l => do
      let (ps, l) ← readParams f l
      match l with
      | .op 59 :: l => readFuns f l
      | .op 123 :: l => do
        let (b, l) ← readBlock f l
        let r ← (if Nat.beq w (text! "void") then some none else do let t ← tyOf w; some (some t))
        let fs ← readFuns f l
        some ((g, ⟨r, ps, b⟩) :: fs)
      | _ => none
    | _ => none

/-- The rest behind the block that is open `d + 1` times. -/
def skipBlock : Nat → Nat → List Tok → List Tok
  | 0, _, _ => []
  | _, _, [] => []
  | f + 1, d, .op o :: l =>
    if Nat.beq o 123 then skipBlock f (d + 1) l
    else if Nat.beq o 125 then
      match d with
      | 0 => l
      | d + 1 => skipBlock f d l
    else skipBlock f d l
  | f + 1, d, _ :: l => skipBlock f d l

/-- The rest behind a function or declaration: behind its block `{ ... }`, or behind the next `;` if that comes first. -/
def skipItem : Nat → List Tok → List Tok
  | 0, _ => []
  | _, [] => []
  | f + 1, .op o :: l => if Nat.beq o 123 then skipBlock f 0 l else if Nat.beq o 59 then l else skipItem f l
  | f + 1, _ :: l => skipItem f l

/-- A function, if what comes next is a function of the language. -/
def readFun (f : Nat) (l : List Tok) : Option ((Name × Fun) × List Tok) :=
  match skipWords l with
  | .id w :: .id g :: .op 40 :: l => do
    let (ps, l) ← readParams f l
    match l with
    | .op 123 :: l => do
      let (b, l) ← readBlock f l
      let r ← (if Nat.beq w (text! "void") then some none else do let t ← tyOf w; some (some t))
      some ((g, ⟨r, ps, b⟩), l)
    | _ => none
  | _ => none

/-- The functions of a file that are written in the language; what is not is skipped. -/
def someFuns : Nat → List Tok → Prog
  | 0, _ => []
  | _, [] => []
  | f + 1, l =>
    match readFun 10000 l with
    | some (g, l) => g :: someFuns f l
    | none => someFuns f (skipItem 100000 l)

/-! ### The structure of the generators -/

/-- The members of a structure, all of type `uint32_t`, behind the `{`. -/
def members : List Tok → List Name
  | .id t :: .id x :: .op 59 :: l => if Nat.beq t (text! "uint32_t") then x :: members l else []
  | _ => []

/-- The members of the structures of a file, `typedef struct s { ... } t;`. -/
def structs : List Tok → List Name
  | [] => []
  | .id w :: .id _ :: .op 123 :: l => if Nat.beq w (text! "struct") then members l ++ structs l else structs (.op 123 :: l)
  | _ :: l => structs l

/-- The position of a name in a list. -/
def posOf (x : Name) : List Name → Nat → Option Nat
  | [], _ => none
  | y :: l, k => if Nat.beq x y then some k else posOf x l (k + 1)

/-- A structure of members of type `uint32_t` is an array: `->x` is `[k]` for the position `k` of the member `x`. -/
def arrows (ms : List Name) : List Tok → List Tok
  | [] => []
  | .op o :: .id x :: l =>
    if Nat.beq o (text! "->") then
      match posOf x ms 0 with
      | some k => .op 91 :: .num k :: .op 93 :: arrows ms l
      | none => .op o :: .id x :: arrows ms l
    else .op o :: arrows ms (.id x :: l)
  | t :: l => t :: arrows ms l

/-- The tokens of a file in which structures are arrays. -/
def tokensOf (text : Nat) : List Tok :=
  let l := preprocess 100000 [] [] (tokens 100000 text)
  arrows (structs l) l

/-- The functions of a file that are written in the language. -/
def readSome (text : Nat) : Prog := someFuns 1000 (tokensOf text)

/-- The functions of a file. -/
def read (text : Nat) : Option Prog := readFuns 10000 (preprocess 100000 [] [] (tokens 100000 text))

end CLang
