import Verif.Model.CRead
import Verif.Model.X86

/-
Reading the text of an assembly file (GNU assembler, Intel syntax, with C comments and preprocessor lines) into the instructions of
`Verif/Model/X86.lean`: what src/ntt_asm.S uses.  As in `Verif/Model/CRead.lean`, a text is a number, and so is a name; labels and
constants are known by their names.
-/

namespace AsmRead
open CLang X86

/-! ### Tokens -/

/-- Hexadecimal digits. -/
def hexDigit (c : Nat) : Option Nat :=
  if isDigit c then some (c - 48)
  else if Nat.ble 97 c && Nat.ble c 102 then some (c - 87)
  else if Nat.ble 65 c && Nat.ble c 70 then some (c - 55)
  else none

/-- The hexadecimal number at the beginning of a text, and the rest. -/
def hexNumber : Nat → Nat → Nat → Nat × Nat
  | 0, n, v => (v, n)
  | f + 1, n, v =>
    match hexDigit (n % 256) with
    | some d => hexNumber f (n / 256) (16 * v + d)
    | none => (v, n)

/-- Tokens: as in C, with hexadecimal numbers, and every operator is one character. -/
def tokens : Nat → Nat → List Tok
  | 0, _ => []
  | f + 1, n =>
    if Nat.beq n 0 then []
    else
      let c := n % 256
      if Nat.beq c 10 then .nl :: tokens f (n / 256)
      else if Nat.ble c 32 then tokens f (n / 256)
      else if Nat.beq (n % 65536) (text! "/*") then tokens f (skipComment f (n / 65536))
      else if Nat.beq (n % 65536) (text! "//") then tokens f (skipLine f n)
      else if Nat.beq (n % 65536) (text! "0x") then
        let (v, n) := hexNumber f (n / 65536) 0
        .num v :: tokens f n
      else if isDigit c then
        let (v, n) := number f n 0
        .num v :: tokens f n
      else if isWord c then
        let (w, n) := word f n 0 1
        .id w :: tokens f n
      else .op c :: tokens f (n / 256)

/-! ### Preprocessor -/

/-- A token that is in no line of a correct file. -/
def bad : Tok := .op 0

/-- Directives: `#if defined(__APPLE__)` (taken to be false), `#else`, `#endif`, and `#define M(x) x`, where `M` is added to `macros`; in
used text `M(y)` is then `y`.  Anything else gives `bad`.  `stack` is as in `CLang.preprocess`. -/
def preprocess : Nat → List Nat → List Bool → List Tok → List Tok
  | 0, _, _, _ => [bad]
  | _, _, _, [] => []
  | f + 1, macros, stack, .op 35 :: .id w :: l =>
    if Nat.beq w (text! "if") then
      match l with
      | .id d :: .op 40 :: .id x :: .op 41 :: .nl :: l =>
        if Nat.beq d (text! "defined") && Nat.beq x (text! "__APPLE__") then preprocess f macros (false :: stack) l else [bad]
      | _ => [bad]
    else if Nat.beq w (text! "else") then
      match stack, l with
      | b :: stack, .nl :: l => preprocess f macros ((!b) :: stack) l
      | _, _ => [bad]
    else if Nat.beq w (text! "endif") then
      match stack, l with
      | _ :: stack, .nl :: l => preprocess f macros stack l
      | _, _ => [bad]
    else if Nat.beq w (text! "define") then
      if stack.all id then
        match l with
        | .id m :: .op 40 :: .id x :: .op 41 :: .id y :: .nl :: l => if Nat.beq x y then preprocess f (m :: macros) stack l else [bad]
        | _ => [bad]
      else preprocess f macros stack (dropLine l)
    else [bad]
  | f + 1, macros, stack, t :: l =>
    if stack.all id then
      match t, l with
      | .id m, .op 40 :: .id y :: .op 41 :: l => (if macros.any (Nat.beq m) then .id y else bad) :: preprocess f macros stack l
      | t, l => t :: preprocess f macros stack l
    else preprocess f macros stack l

/-- The lines, without the empty ones; `cur` is the current line, backwards. -/
def lines : List Tok → List Tok → List (List Tok)
  | cur, [] => if cur.isEmpty then [] else [cur.reverse]
  | cur, .nl :: l => if cur.isEmpty then lines [] l else cur.reverse :: lines [] l
  | cur, t :: l => lines (t :: cur) l

/-! ### Operands -/

/-- 64-bit registers. -/
def gprOf (w : Nat) : Option Nat :=
  if Nat.beq w (text! "rax") then some rax
  else if Nat.beq w (text! "rcx") then some rcx
  else if Nat.beq w (text! "rdx") then some rdx
  else if Nat.beq w (text! "rbx") then some rbx
  else if Nat.beq w (text! "rsp") then some rsp
  else if Nat.beq w (text! "rbp") then some rbp
  else if Nat.beq w (text! "rsi") then some rsi
  else if Nat.beq w (text! "rdi") then some rdi
  else if Nat.beq w (text! "r8") then some r8
  else if Nat.beq w (text! "r9") then some r9
  else if Nat.beq w (text! "r10") then some r10
  else if Nat.beq w (text! "r11") then some r11
  else if Nat.beq w (text! "r12") then some r12
  else if Nat.beq w (text! "r13") then some r13
  else if Nat.beq w (text! "r14") then some r14
  else if Nat.beq w (text! "r15") then some r15
  else none

/-- 32-bit registers. -/
def r32Of (w : Nat) : Option Nat :=
  if Nat.beq w (text! "eax") then some rax
  else if Nat.beq w (text! "ecx") then some rcx
  else if Nat.beq w (text! "edx") then some rdx
  else if Nat.beq w (text! "ebx") then some rbx
  else none

inductive Opd where
  | ymm (k : Nat)
  | xmm (k : Nat)
  | r64 (r : Nat)
  | r32 (r : Nat)
  | imm (n : Nat)
  | mem (a : Addr)
  /-- `[x + rip]` -/
  | rip (x : Nat)
  | name (x : Nat)
  deriving DecidableEq, Repr

/-- A word as operand: `ymm` and `xmm` are followed by the number of the register. -/
def wordOpd (w : Nat) : Opd :=
  match gprOf w with
  | some r => .r64 r
  | none =>
    match r32Of w with
    | some r => .r32 r
    | none =>
      if Nat.beq (w % 16777216) (text! "ymm") then .ymm (number 3 (w / 16777216) 0).1
      else if Nat.beq (w % 16777216) (text! "xmm") then .xmm (number 3 (w / 16777216) 0).1
      else .name w

/-- An operand and the rest of the line. -/
def opd : List Tok → Option (Opd × List Tok)
  | .num n :: l => some (.imm n, l)
  | .id w :: l => some (wordOpd w, l)
  | .op 91 :: .id b :: .op 93 :: l => do
    let b ← gprOf b
    some (.mem (.at b 0), l)
  | .op 91 :: .id b :: .op 43 :: .num d :: .op 93 :: l => do
    let b ← gprOf b
    some (.mem (.at b d), l)
  | .op 91 :: .id b :: .op 43 :: .id i :: .op 93 :: l =>
    if Nat.beq i (text! "rip") then some (.rip b, l)
    else do
      let b ← gprOf b
      let i ← gprOf i
      some (.mem (.ix b 1 i 0), l)
  | .op 91 :: .id b :: .op 43 :: .id i :: .op 43 :: .num d :: .op 93 :: l => do
    let b ← gprOf b
    let i ← gprOf i
    some (.mem (.ix b 1 i d), l)
  | .op 91 :: .id b :: .op 43 :: .num k :: .op 42 :: .id i :: .op 93 :: l => do
    let b ← gprOf b
    let i ← gprOf i
    some (.mem (.ix b k i 0), l)
  | .op 91 :: .id b :: .op 43 :: .num k :: .op 42 :: .id i :: .op 43 :: .num d :: .op 93 :: l => do
    let b ← gprOf b
    let i ← gprOf i
    some (.mem (.ix b k i d), l)
  | _ => none

/-- Operands separated by commas, up to the end of the line. -/
def opds : Nat → List Tok → Option (List Opd)
  | 0, _ => none
  | _, [] => some []
  | f + 1, l => do
    let (o, l) ← opd l
    match l with
    | [] => some [o]
    | .op 44 :: l => do
      let os ← opds f l
      some (o :: os)
    | _ => none

/-! ### Instructions -/

def look {α : Type} (w : Nat) : List (Nat × α) → Option α
  | [] => none
  | (x, y) :: l => if Nat.beq w x then some y else look w l

/-- `op ymm, ymm, ymm` -/
def three : List (Nat × (Nat → Nat → Nat → VInstr)) := [
  (text! "vpaddd", .vpaddd), (text! "vpsubd", .vpsubd), (text! "vpand", .vpand), (text! "vpcmpgtd", .vpcmpgtd), (text! "vpmuldq", .vpmuldq),
  (text! "vpermd", .vpermd)]

/-- `op ymm, ymm, imm` -/
def shifts : List (Nat × (Nat → Nat → Nat → VInstr)) := [
  (text! "vpslld", .vpslld), (text! "vpsrad", .vpsrad), (text! "vpsrlq", .vpsrlq), (text! "vpslldq", .vpslldq), (text! "vpsrldq", .vpsrldq),
  (text! "vpshufd", .vpshufd)]

/-- `op ymm, ymm, ymm, imm` -/
def four : List (Nat × (Nat → Nat → Nat → Nat → VInstr)) := [
  (text! "vpblendd", .vpblendd), (text! "vshufps", .vshufps), (text! "vshufpd", .vshufpd), (text! "vperm2i128", .vperm2i128)]

/-- `op ymm, xmm` -/
def widen : List (Nat × (Nat → Nat → VInstr)) := [
  (text! "vpmovsxwq", .vpmovsxwq), (text! "vpbroadcastd", .vpbroadcastd), (text! "vpbroadcastq", .vpbroadcastq)]

/-- `op ymm, [..]` -/
def loads256 : List (Nat × Load) := [
  (text! "vmovdqu", .dqu), (text! "vpmovsxdq", .sxdq), (text! "vpmovsxwd", .sxwd), (text! "vpmovsxwq", .sxwq)]

/-- `op xmm, [..]` -/
def loads128 : List (Nat × Load) := [(text! "vpmovsxwq", .sxwq128), (text! "vpbroadcastw", .bdcstw)]

/-- `op label` -/
def jumps : List (Nat × Cond) := [
  (text! "jb", .b), (text! "jae", .ae), (text! "jbe", .be), (text! "ja", .a), (text! "je", .e), (text! "jne", .ne)]

abbrev I := X86.Instr Nat Nat

/-- `op r64, r64` -/
def regs : List (Nat × (Nat → Nat → I)) := [(text! "mov", .mov), (text! "add", .add), (text! "cmp", .cmp)]

/-- `op r64, imm` -/
def imms : List (Nat × (Nat → Nat → I)) := [
  (text! "mov", .movi), (text! "add", .addi), (text! "cmp", .cmpi), (text! "shl", .shl), (text! "shr", .shr)]

/-- `op r32, imm` -/
def imms32 : List (Nat × (Nat → Nat → I)) := [(text! "mov", .movi32), (text! "and", .andi32), (text! "cmp", .cmpi32)]

/-- An instruction: the word and the operands. -/
def instr (w : Nat) : List Opd → Option I
  | [] =>
    if Nat.beq w (text! "ret") then some .ret
    else if Nat.beq w (text! "cpuid") then some .cpuid
    else if Nat.beq w (text! "xgetbv") then some .xgetbv
    else none
  | [.r64 r] => if Nat.beq w (text! "push") then some (.push r) else if Nat.beq w (text! "pop") then some (.pop r) else none
  | [.name x] => if Nat.beq w (text! "jmp") then some (.jmp x) else (look w jumps).map fun c => .jcc c x
  | [.r64 d, .r64 r] => (look w regs).map fun i => i d r
  | [.r64 d, .imm n] => (look w imms).map fun i => i d n
  | [.r64 d, .mem a] => if Nat.beq w (text! "lea") then some (.lea d a) else none
  | [.r32 d, .imm n] => (look w imms32).map fun i => i d n
  | [.r32 d, .r32 r] => if Nat.beq w (text! "xor") then some (.xor32 d r) else none
  | [.ymm d, .rip x] => if Nat.beq w (text! "vmovdqa") then some (.const d x) else none
  | [.ymm d, .mem a] => (look w loads256).map fun l => .load l d a
  | [.xmm d, .mem a] => (look w loads128).map fun l => .load l d a
  | [.mem a, .ymm s] => if Nat.beq w (text! "vmovdqu") then some (.store a s) else none
  | [.mem a, .xmm s] => if Nat.beq w (text! "vmovdqu") then some (.store128 a s) else none
  | [.xmm d, .r64 r] => if Nat.beq w (text! "vmovd") then some (.vmovd d r) else none
  | [.ymm d, .xmm s] => (look w widen).map fun i => .vec (i d s)
  | [.ymm d, .ymm s] => if Nat.beq w (text! "vmovdqu") then some (.vec (.vmovdqu d s)) else none
  | [.ymm d, .ymm s, .ymm t] => (look w three).map fun i => .vec (i d s t)
  | [.ymm d, .ymm s, .imm n] => (look w shifts).map fun i => .vec (i d s n)
  | [.ymm d, .ymm s, .ymm t, .imm n] => (look w four).map fun i => .vec (i d s t n)
  | _ => none

/-! ### Files -/

/-- Numbers separated by commas, up to the end of the line. -/
def numbers : Nat → List Tok → Option (List Nat)
  | 0, _ => none
  | _ + 1, [.num n] => some [n]
  | f + 1, .num n :: .op 44 :: l => do
    let ns ← numbers f l
    some (n :: ns)
  | _ + 1, _ => none

/-- The lines of a file. -/
inductive Item where
  /-- `.data` (`true`) and `.text` (`false`) -/
  | section (data : Bool)
  | balign (k : Nat)
  | global (x : Nat)
  | long (ns : List Nat)
  | label (x : Nat)
  | instr (i : I)
  /-- `.intel_syntax noprefix` -/
  | syntax
  /-- anything else -/
  | bad

def item : List Tok → Item
  | [.op 46, .id w] => if Nat.beq w (text! "data") then .section true else if Nat.beq w (text! "text") then .section false else .bad
  | [.op 46, .id w, .id x] =>
    if Nat.beq w (text! "global") then .global x
    else if Nat.beq w (text! "intel_syntax") && Nat.beq x (text! "noprefix") then .syntax
    else .bad
  | .op 46 :: .id w :: l =>
    match numbers 100 l with
    | some ns =>
      if Nat.beq w (text! "long") then .long ns
      else if Nat.beq w (text! "balign") then
        match ns with
        | [k] => .balign k
        | _ => .bad
      else .bad
    | none => .bad
  | [.id x, .op 58] => .label x
  | .id w :: l =>
    match opds 10 l with
    | some os =>
      match instr w os with
      | some i => .instr i
      | none => .bad
    | none => .bad
  | _ => .bad

/-- No line is bad; numbers are in the data section, instructions in the text section (`data`: the current section is the data section). -/
def wellFormed : Bool → List Item → Bool
  | _, [] => true
  | _, .section b :: l => wellFormed b l
  | data, .long _ :: l => data && wellFormed data l
  | data, .instr _ :: l => !data && wellFormed data l
  | _, .bad :: _ => false
  | data, _ :: l => wellFormed data l

/-- `.long` at position `pos` -/
def place : Nat → List Nat → List (Nat × Nat)
  | _, [] => []
  | pos, n :: l => (pos, n) :: place (pos + 4) l

/-- The 32-bit words of the data section, with their positions; `pos` is the current position there. -/
def longs : Bool → Nat → List Item → List (Nat × Nat)
  | _, _, [] => []
  | _, pos, .section b :: l => longs b pos l
  | true, pos, .balign k :: l => longs true ((pos + k - 1) / k * k) l
  | true, pos, .long ns :: l => place pos ns ++ longs true (pos + 4 * ns.length) l
  | data, pos, _ :: l => longs data pos l

/-- The labels of the data section, with their positions. -/
def positions : Bool → Nat → List Item → List (Nat × Nat)
  | _, _, [] => []
  | _, pos, .section b :: l => positions b pos l
  | true, pos, .balign k :: l => positions true ((pos + k - 1) / k * k) l
  | true, pos, .long ns :: l => positions true (pos + 4 * ns.length) l
  | true, pos, .label x :: l => (x, pos) :: positions true pos l
  | data, pos, _ :: l => positions data pos l

/-- The labels other files can use. -/
def exports : List Item → List Nat
  | [] => []
  | .global x :: l => x :: exports l
  | _ :: l => exports l

/-- The instructions and labels of the text section (where `.balign` is ignored: it adds instructions that do nothing). -/
def instrs : Bool → List Item → List I
  | _, [] => []
  | _, .section b :: l => instrs b l
  | false, .label x :: l => .label x :: instrs false l
  | false, .instr i :: l => i :: instrs false l
  | data, _ :: l => instrs data l

/-- What an assembly file contains, in the order of the file. -/
structure Asm where
  labels : List (Nat × Nat)
  longs : List (Nat × Nat)
  globals : List Nat
  code : List I
  deriving DecidableEq

/-- The lines of a file, the text of which is given in parts, each of which ends at the end of a line and not inside a comment. -/
def items (text : List Nat) : List Item := (lines [] (preprocess 100000 [] [] (text.flatMap (tokens 10000)))).map item

/-- The contents of an assembly file. -/
def readAsm (text : List Nat) : Option Asm :=
  if wellFormed false (items text) then
    some ⟨positions false 0 (items text), longs false 0 (items text), exports (items text), instrs false (items text)⟩
  else none

/-- The position of a constant in the data section. -/
def Asm.addr (F : Asm) (x : Nat) : Nat := (look x F.labels).getD 0

end AsmRead
