#!/usr/bin/env python3
"""Writes lean/Verif/Model/Src/<Name>.lean: the text of C files of /repo/src as literals, and what CLang.read gives for them, as terms.

The terms are printed by Lean itself (evaluation of CLang.read); the written files contain the proof, by evaluation in the kernel, that
the functions of the text are these terms."""
import os, re, subprocess, sys

SRC = os.environ.get("NTT_SRC", "/repo/src")
HERE = os.path.dirname(os.path.abspath(__file__))
LEAN = os.path.join(HERE, "..", "lean")
OUT = os.path.join(LEAN, "Verif", "Model", "Src")

# module -> [(definition, file)]
FILES = {
    "Ntt": [("ntt", "ntt.c")],
    "NttRed": [("ntt_red", "ntt_red.c")],
    "NaiveNtt": [("naive_ntt", "naive_ntt.c")],
}
for m, f in [("Ntt", "ntt"), ("NttRed", "ntt_red"), ("NaiveNtt", "naive_ntt")]:
    for n in [16, 256, 512, 1024]:
        FILES[m + str(n)] = [(f"{f}{n}_h", f"{f}{n}.h"), (f"{f}{n}_c", f"{f}{n}.c")]

for n in [16, 256, 512, 1024]:
    FILES["NttRedAsm" + str(n)] = [(f"ntt_red_asm{n}_h", f"ntt_red_asm{n}.h"), (f"ntt_red_asm{n}_c", f"ntt_red_asm{n}.c")]

# only the functions written in the language
SOME = {
    "Sort": [("sort", "sort.c")],
    "MakeTables": [("make_tables", "make_tables.c")],
    "MakeRedTables": [("make_red_tables", "make_red_tables.c")],
    "MakeBitrevTable": [("make_bitrev_table", "make_bitrev_table.c")],
    "RedBounds": [("red_bounds", "red_bounds.c")],
    "TestNtt16": [("test_ntt16", "test_ntt16.c")],
    "TestMod": [("test_mod", "test_mod.c")],
    "TestRed": [("test_red", "test_red.c")],
    "TestAvx": [("test_avx", "test_avx.c")],
    "TestNttAvx": [("test_ntt_avx", "test_ntt_avx.c")],
    "TestRedBounds": [("test_red_bounds", "test_red_bounds.c")],
}
FILES.update(SOME)

PRINT = r'''
open CLang
def chars : Nat → Nat → List Char
  | 0, _ => []
  | f + 1, n => if n = 0 then [] else Char.ofNat (n % 256) :: chars f (n / 256)
def esc : List Char → List Char
  | [] => []
  | '\n' :: l => '\\' :: 'n' :: esc l
  | '"' :: l => '\\' :: '"' :: esc l
  | '\\' :: l => '\\' :: '\\' :: esc l
  | c :: l => c :: esc l
def nm (n : Nat) : String := "n!\"" ++ String.ofList (esc (chars 1000 n)) ++ "\""
def fm : Fmt → String
  | .lit t => s!".lit {nm t}"
  | .u w => s!".u {w}"
  | .d w => s!".d {w}"
  | .s => ".s"
def ty : Ty → String
  | .i16 => ".i16" | .u16 => ".u16" | .i32 => ".i32" | .u32 => ".u32" | .i64 => ".i64" | .u64 => ".u64" | .bool => ".bool"
def bn : Bin → String
  | .add => ".add" | .sub => ".sub" | .mul => ".mul" | .div => ".div" | .rem => ".rem" | .and => ".and" | .or => ".or" | .xor => ".xor" | .shl => ".shl"
  | .shr => ".shr" | .lt => ".lt" | .gt => ".gt" | .le => ".le" | .ge => ".ge" | .eq => ".eq" | .ne => ".ne"
def ex : Expr → String
  | .num n => s!"(.num {n})"
  | .var x => s!"(.var {nm x})"
  | .idx a i => s!"(.idx {ex a} {ex i})"
  | .neg e => s!"(.neg {ex e})"
  | .not e => s!"(.not {ex e})"
  | .bin o a b => s!"(.bin {bn o} {ex a} {ex b})"
  | .land a b => s!"(.land {ex a} {ex b})"
  | .lor a b => s!"(.lor {ex a} {ex b})"
  | .cast t e => s!"(.cast {ty t} {ex e})"
  | .cond c a b => s!"(.cond {ex c} {ex a} {ex b})"
  | .call f es => s!"(.call {nm f} {ex es})"
  | .nil => ".nil"
  | .cons e es => s!"(.cons {ex e} {ex es})"
def ind (k : Nat) : String := "\n" ++ String.ofList (List.replicate k ' ')
def sm (k : Nat) : Stmt → String
  | .skip => ".skip"
  | .seq a b => s!"(.seq {sm (k+1) a}" ++ ind k ++ s!"{sm k b})"
  | .decl t x => s!"(.decl {ty t} {nm x})"
  | .assign x e => s!"(.assign {nm x} {ex e})"
  | .store a i e => s!"(.store {ex a} {ex i} {ex e})"
  | .ite c a b => s!"(.ite {ex c}" ++ ind (k+1) ++ s!"{sm (k+1) a}" ++ ind (k+1) ++ s!"{sm (k+1) b})"
  | .while c s => s!"(.while {ex c}" ++ ind (k+1) ++ s!"{sm (k+1) s})"
  | .doWhile s c => s!"(.doWhile {sm (k+1) s} {ex c})"
  | .ret e => s!"(.ret {ex e})"
  | .brk => ".brk"
  | .expr e => s!"(.expr {ex e})"
  | .assert e => s!"(.assert {ex e})"
  | .callAt x g es outs => s!"(.callAt {nm x} {nm g} {ex es} [{String.intercalate ", " (outs.map nm)}])"
  | .alloc x t e => s!"(.alloc {nm x} {ty t} {ex e})"
  | .free x => s!"(.free {nm x})"
  | .print f l es => s!"(.print {ex f} [{String.intercalate ", " (l.map fm)}] {ex es})"
def pt : PTy → String
  | .int t => s!"(.int {ty t})"
  | .ptr w => s!"(.ptr {w})"
def fn (name : String) (f : Name × Fun) : String :=
  let r := match f.2.ret with | none => "none" | some t => s!"(some {ty t})"
  let ps := String.intercalate ", " (f.2.params.map fun p => s!"({nm p.1}, {pt p.2})")
  s!"def {name}.{String.ofList (chars 200 f.1)} : Fun := ⟨{r}, [{ps}],\n  {sm 2 f.2.body}⟩\n"
def pr (name : String) (p : Option Prog) : IO Unit := do
  match p with
  | none => IO.println "FAILED"
  | some p => do
    for f in p do
      IO.println s!"/-- `{String.ofList (chars 200 f.1)}` -/"
      IO.println (fn name f)
    IO.println s!"/-- The functions of the file. -/\ndef {name} : Prog := ["
    IO.println (String.intercalate ",\n" (p.map fun f => s!"  ({nm f.1}, {name}.{String.ofList (chars 200 f.1)})") ++ "]")
'''

def literal(text):
    h = "#"
    while '"' + h in text:
        h += "#"
    return "r" + h + '"' + text + '"' + h

def asm():
    """The text of ntt_asm.S, and the names of the labels and constants of Code.lean in it."""
    text = open(SRC + "/ntt_asm.S").read()
    code = open(os.path.join(LEAN, "Verif", "Model", "Code.lean")).read()
    names = lambda what: [x.strip() for x in re.search(r"inductive %s where\n(.*?)  deriving" % what, code, re.S).group(1).split("|")[1:]]
    wrap = lambda l: ",\n  ".join(", ".join("." + x for x in l[i:i + 5]) for i in range(0, len(l), 5))
    out = "import Verif.Model.AsmRead\nimport Verif.Model.Code\n\n/-\nThe text of src/ntt_asm.S, and the names of the labels and constants of " \
        "`Verif/Model/Code.lean` in it.\nWritten by tools/gensrc.py.\n-/\n\nnamespace CLang.Src\nopen X86 AsmRead\n\n"
    parts, cur, comment = [], "", False
    for line in text.splitlines(keepends=True):
        cur += line
        for x in re.findall(r"//|/\*|\*/", line):
            if x == "//" and not comment:
                break
            comment = x == "/*" if x != "//" else comment
        if len(cur) > 1500 and not comment:
            parts.append(cur)
            cur = ""
    parts += [cur] if cur else []
    assert "".join(parts) == text and all(p.endswith("\n") for p in parts)
    for i, p in enumerate(parts):
        out += f"/-- src/ntt_asm.S, part {i + 1} of {len(parts)} -/\ndef ntt_asm_text{i + 1} : Nat := text! {literal(p)}\n\n"
    out += "/-- src/ntt_asm.S -/\ndef ntt_asm_text : List Nat := [\n  " + \
        ",\n  ".join(", ".join(f"ntt_asm_text{i + 1}" for i in range(j, min(j + 6, len(parts)))) for j in range(0, len(parts), 6)) + "]\n"
    for what, d, doc in [("Const", "constName", "constants"), ("Label", "labelName", "labels")]:
        out += f"\n/-- The names of the {doc}. -/\ndef {d} : Code.{what} → Nat\n"
        out += "".join(f'  | .{x} => n!"{x}"\n' for x in names(what))
    out += f"\n/-- The constants, in the order of the data section. -/\ndef consts : List Code.Const := [\n  {wrap(names('Const'))}]\n"
    out += "\n/-- The labels, in the order of the text section. -/\ndef labels : List Code.Label := [\n  " + wrap(names("Label")) + "]\n"
    glob = [re.sub(r"_G\((\w+)\)", r"\1", x) for x in re.findall(r"^\s*\.global\s+(\S+)", text, re.M)]
    out += "\n/-- The global labels. -/\ndef globals : List Code.Label := [\n  " + wrap(glob) + "]\n\nend CLang.Src\n"
    open(os.path.join(OUT, "NttAsm.lean"), "w").write(out)
    print("NttAsm", len(out))

# texts of other test programs: the functions that judge results are those of test_ntt16.c
TESTS = {f"Test{m}Texts": [f"test_{f}{n}.c" for n in [16, 256, 512, 1024] if f + str(n) != "ntt16"]
         for m, f in [("Ntt", "ntt"), ("NaiveNtt", "naive_ntt"), ("NttRed", "ntt_red"), ("NttRedAsm", "ntt_red_asm")]}
TESTS["TestNttText"] = ["test_ntt.c"]
TESTS["TestNttRedText"] = ["test_ntt_red.c"]
JUDGES = ["equal_arrays", "power", "check_ntt_simple", "check_ntt_ntt_simple", "simple_poly", "equal_simple_poly"]

def tests(mod):
    files = TESTS[mod]
    out = "import Verif.Model.Src.TestNtt16\n\n/-\nThe text of " + ", ".join("src/" + f for f in files) + \
        ": the functions that judge results are the same as in src/test_ntt16.c.\nWritten by tools/gensrc.py.\n-/\n\nnamespace CLang.Src\n"
    for f in files:
        name, text = f[:-2], open(SRC + "/" + f).read()
        # in test_ntt_red.c, equal_arrays is in a part removed by #if 0
        fs = JUDGES[:4] if f == "test_ntt.c" else JUDGES[1:4] if f == "test_ntt_red.c" else JUDGES
        out += f"\n/-- src/{f} -/\ndef {name}_text : Nat := text! {literal(text)}\n\n"
        out += f"/-- The functions that are read from the text. -/\ntheorem {name}_reads : ∀ p ∈ [" + ", ".join(f'(n!"{g}", test_ntt16.{g})' for g in fs) + \
            f"],\n    (readSome {name}_text).lookup p.1 = some p.2 := by decide +kernel\n"
    out += "\nend CLang.Src\n"
    open(os.path.join(OUT, mod + ".lean"), "w").write(out)
    print(mod, len(out))

def main():
    os.makedirs(OUT, exist_ok=True)
    only = sys.argv[1:]
    for mod in TESTS:
        if not only or mod in only:
            tests(mod)
    if not only or "NttAsm" in only:
        asm()
    for mod, files in FILES.items():
        if only and mod not in only:
            continue
        src = "import Verif.Model.CRead\n" + PRINT
        for name, f in files:
            text = open(SRC + "/" + f).read()
            src += f"#eval pr \"{name}\" ({'some (readSome' if mod in SOME else '(read'} (text! {literal(text)})))\n#eval IO.println \"=====\"\n"
        tmp = "/tmp/gensrc_tmp.lean"
        open(tmp, "w").write(src)
        r = subprocess.run(["lake", "env", "lean", tmp], cwd=LEAN, capture_output=True, text=True)
        assert r.returncode == 0 and "FAILED" not in r.stdout, (mod, r.stdout[-3000:])
        parts = r.stdout.split("=====\n")
        out = "import Verif.Model.CRead\n\n/-\n" + "The text of " + " and ".join("src/" + f for _, f in files) + \
            f", and its functions as read by `CLang.{'readSome' if mod in SOME else 'read'}`.\nWritten by tools/gensrc.py.\n-/\n\nnamespace CLang.Src\n"
        for (name, f), ast in zip(files, parts):
            text = open(SRC + "/" + f).read()
            out += f"\n/-- src/{f} -/\ndef {name}_text : Nat := text! {literal(text)}\n\n{ast}\n"
            what = f"readSome {name}_text = {name}" if mod in SOME else f"read {name}_text = some {name}"
            out += f"/-- What is read from the text. -/\ntheorem {name}_read : {what} := by decide +kernel\n"
        out += "\nend CLang.Src\n"
        open(os.path.join(OUT, mod + ".lean"), "w").write(out)
        print(mod, len(out))

main()
