import Verif.CSem

/-
A reader for the small part of C that occurs in generated table files: comments, preprocessor lines and
declarations of constants and arrays.  Whatever the reader rejects may still be C; what it accepts has the
meaning it returns.
-/

/-- `c!"abc"` is the list of characters `['a', 'b', 'c']`. -/
syntax:max "c!" str : term

open Lean in
macro_rules
  | `(c! $s:str) => do
    let cs := s.getString.toList.map (fun c => Syntax.mkCharLit c)
    `([$(cs.toArray),*])

namespace Spec.CText

abbrev Text := List Char

/-- Decimal notation, without leading zeros. -/
def decimal (n : Nat) : Text := Nat.toDigits 10 n

inductive Tok where
  /-- identifier or keyword -/
  | ident (w : Text)
  /-- decimal constant -/
  | num (v : Nat)
  | punct (c : Char)
  /-- preprocessor line, without `#` and the end of line -/
  | directive (line : Text)
  deriving DecidableEq, Repr

/-- State of the tokenizer.  `first` says whether a `#` would be the first token of its line. -/
inductive State where
  | ready (first : Bool)
  | word (w : Text)
  | number (ds : Text)
  | line (l : Text)
  | slash (first : Bool)
  | comment (first : Bool)
  | star (first : Bool)
  | bad
  deriving DecidableEq, Repr

def wordChar (c : Char) : Bool := c.isAlpha || c.isDigit || c == '_'

def punctuation : Text := c!"[]{}=;,-"

/-- Next character, outside of tokens. -/
def fresh (first : Bool) (c : Char) : State × List Tok :=
  if c = '\n' then (.ready true, [])
  else if c = ' ' then (.ready first, [])
  else if c = '#' then (if first then .line [] else .bad, [])
  else if c = '/' then (.slash first, [])
  else if c.isDigit then (.number [c], [])
  else if wordChar c then (.word [c], [])
  else if c ∈ punctuation then (.ready false, [.punct c])
  else (.bad, [])

/-- One character.  A constant with a leading zero is octal in C: it is rejected. -/
def step : State → Char → State × List Tok
  | .ready first, c => fresh first c
  | .word w, c =>
    if wordChar c then (.word (w ++ [c]), [])
    else ((fresh false c).1, .ident w :: (fresh false c).2)
  | .number ds, c =>
    if c.isDigit then (.number (ds ++ [c]), [])
    else if wordChar c then (.bad, [])
    else if ds.head? = some '0' ∧ ds.length ≠ 1 then (.bad, [])
    else ((fresh false c).1, .num (Nat.ofDigitChars 10 ds 0) :: (fresh false c).2)
  | .line l, c => if c = '\n' then (.ready true, [.directive l]) else (.line (l ++ [c]), [])
  | .slash first, c => if c = '*' then (.comment first, []) else (.bad, [])
  | .comment first, c => if c = '*' then (.star first, []) else (.comment first, [])
  | .star first, c =>
    if c = '/' then (.ready first, [])
    else if c = '*' then (.star first, [])
    else (.comment first, [])
  | .bad, _ => (.bad, [])

def lexFrom : State → Text → State × List Tok
  | s, [] => (s, [])
  | s, c :: cs =>
    let r := lexFrom (step s c).1 cs
    (r.1, (step s c).2 ++ r.2)

/-- The tokens of a complete file (it must end with an end of line). -/
def lex (t : Text) : Option (List Tok) :=
  match lexFrom (.ready true) t with
  | (.ready true, ts) => some ts
  | _ => none

/-- Value of the constant `v` stored in an object of the given type. -/
def stored (type : Text) (v : Int) : Option Int :=
  if type = c!"uint16_t" then some (v % 65536)
  else if type = c!"int16_t" then some ((v + 32768) % 65536 - 32768)
  else if type = c!"int32_t" then some ((v + 2147483648) % 4294967296 - 2147483648)
  else none

inductive Item where
  | directive (line : Text)
  /-- `static const type name = value;` -/
  | param (type name : Text) (value : Int)
  /-- `extern const type name[dim]...;` -/
  | extern (type name : Text) (dims : List Tok)
  /-- `const type name[dim] = { values };` -/
  | array (type name : Text) (dim : Tok) (values : List Int)
  /-- `const type name[dim][2] = { { x, y }, ... };` -/
  | pairs (type name : Text) (dim : Tok) (values : List (Int × Int))
  deriving DecidableEq, Repr

/-- `v, v, ... v, }`, returns the values stored. -/
def readNums (type : Text) : List Tok → Option (List Int × List Tok)
  | .punct '}' :: r => some ([], r)
  | .num v :: .punct ',' :: r => do
    let (vs, r) ← readNums type r
    let v ← stored type v
    pure (v :: vs, r)
  | .punct '-' :: .num v :: .punct ',' :: r => do
    let (vs, r) ← readNums type r
    let v ← stored type (-v)
    pure (v :: vs, r)
  | _ => none

/-- `{ x, y }, ... { x, y }, }`, returns the values stored. -/
def readPairs (type : Text) : List Tok → Option (List (Int × Int) × List Tok)
  | .punct '}' :: r => some ([], r)
  | .punct '{' :: .num x :: .punct ',' :: .num y :: .punct '}' :: .punct ',' :: r => do
    let (vs, r) ← readPairs type r
    let x ← stored type x
    let y ← stored type y
    pure ((x, y) :: vs, r)
  | _ => none

def isDim : Tok → Bool
  | .ident _ => true
  | .num _ => true
  | _ => false

/-- What follows `const type name`. -/
def readBody (type name : Text) : List Tok → Option (Item × List Tok)
  | .punct '[' :: d :: .punct ']' :: .punct '=' :: .punct '{' :: r => do
    let (vs, r) ← readNums type r
    match r with
    | .punct ';' :: r => if isDim d then some (.array type name d vs, r) else none
    | _ => none
  | .punct '[' :: d :: .punct ']' :: .punct '[' :: .num 2 :: .punct ']' :: .punct '=' ::
      .punct '{' :: r => do
    let (vs, r) ← readPairs type r
    match r with
    | .punct ';' :: r => if isDim d then some (.pairs type name d vs, r) else none
    | _ => none
  | _ => none

/-- What follows `extern const type name`. -/
def readExtern (type name : Text) : List Tok → Option (Item × List Tok)
  | .punct '[' :: d :: .punct ']' :: .punct ';' :: r =>
    if isDim d then some (.extern type name [d], r) else none
  | .punct '[' :: d :: .punct ']' :: .punct '[' :: d' :: .punct ']' :: .punct ';' :: r =>
    if isDim d ∧ isDim d' then some (.extern type name [d, d'], r) else none
  | _ => none

/-- One preprocessor line or declaration. -/
def readItem : List Tok → Option (Item × List Tok)
  | .directive l :: r => some (.directive l, r)
  | .ident w :: .ident type :: .ident name :: .punct '[' :: r =>
    if w = c!"const" then readBody type name (.punct '[' :: r) else none
  | .ident w :: .ident w' :: .ident type :: .ident name :: .punct '[' :: r =>
    if w = c!"extern" ∧ w' = c!"const" then readExtern type name (.punct '[' :: r) else none
  | .ident w :: .ident w' :: .ident type :: .ident name :: .punct '=' :: .num v :: .punct ';' :: r =>
    if w = c!"static" ∧ w' = c!"const" then do
      let v ← stored type v
      pure (.param type name v, r)
    else none
  | _ => none

def readItems : Nat → List Tok → Option (List Item)
  | _, [] => some []
  | 0, _ => none
  | fuel + 1, t => do
    let (i, r) ← readItem t
    let is ← readItems fuel r
    pure (i :: is)

/-- The contents of a file. -/
def readC (t : Text) : Option (List Item) := do
  let ts ← lex t
  readItems ts.length ts

-- An example with all the features, and examples of rejected or different files.
example : readC c!"/* x */\n#include <a.h>\nstatic const int32_t a_b1 = 12;\n\
    const uint16_t t[2] = {\n  1,  70000,\n};\n" =
    some [.directive c!"include <a.h>", .param c!"int32_t" c!"a_b1" 12,
      .array c!"uint16_t" c!"t" (.num 2) [1, 4464]] := by decide +kernel
example : readC c!"const int16_t t[2] = { -1, 012, };\n" = none := by decide +kernel
example : readC c!"const int16_t t[2] = { -1 /* 2, */, 12, };\n" =
    some [.array c!"int16_t" c!"t" (.num 2) [-1, 12]] := by decide +kernel
example : readC c!"const int16_t t[2] = { 1, 2, }\n" = none := by decide +kernel
example : readC c!"const uint16_t t[M][2] = { { 1, 2 }, };\n" =
    some [.pairs c!"uint16_t" c!"t" (.ident c!"M") [(1, 2)]] := by decide +kernel

end Spec.CText
