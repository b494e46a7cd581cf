"""Writes lean/Verif/Model/TestTablesData.lean and lean/Verif/Model/TestTables.lean from the text of
src/test_ntt_tables.c, src/test_ntt_red_tables.c, src/test_bitrev_tables.c and src/ntt32_tables.c."""
import re, sys
REPO = '/repo/src/'
OUT = '/verif/lean/Verif/Model/'

def load(f):
    s = open(REPO + f).read()
    blank = lambda m: re.sub(r'[^\n]', ' ', m[0])
    s = re.sub(r'/\*.*?\*/', blank, s, flags=re.S)
    s = re.sub(r'//[^\n]*', blank, s)
    for m in re.finditer(r'const\s+(u?int16_t)\s+(\w+)\[(\w+)\](\[2\])?[^=;]*=\s*\{(.*?)\};', s, flags=re.S):
        nums = [int(x) for x in re.findall(r'-?\d+', m[5])]
        yield m[2], m[1], m[3], bool(m[4]), nums, s.count('\n', 0, m.start()) + 1, s.count('\n', 0, m.end()) + 1

data = ['''/-
The tables of src/test_ntt_tables.c, src/test_ntt_red_tables.c and src/ntt32_tables.c, written by
tools/gentesttables.py.  An array of 16-bit integers is one number: entry `i` is the four hexadecimal digits of weight
`16^(4i)`, in two's complement for `int16_t` (see `TestTables.u16`, `TestTables.s16` in Model/TestTables.lean), so that
the entries of the C text appear from right to left.
-/

namespace TestTables.Data
''']
defs = ['''import Verif.Model.TestTablesData

/-
The tables checked in to the repository for the test programs: src/test_ntt_tables.c, src/test_ntt_red_tables.c,
src/test_bitrev_tables.c, and src/ntt32_tables.c (except `ntt32_bitrev`, which is in Model/BitrevTables.lean).
Written by tools/gentesttables.py.
-/

namespace TestTables

/-- The array of `n` unsigned 16-bit integers represented by `x` (Model/TestTablesData.lean). -/
def u16 (n x : Nat) : Array Int :=
  Array.ofFn (n := n) fun i => (((x >>> (16 * i.val)) % 65536 : Nat) : Int)

/-- The array of `n` signed 16-bit integers represented by `x` (Model/TestTablesData.lean). -/
def s16 (n x : Nat) : Array Int :=
  Array.ofFn (n := n) fun i =>
    if (x >>> (16 * i.val)) % 65536 < 32768 then (((x >>> (16 * i.val)) % 65536 : Nat) : Int)
    else (((x >>> (16 * i.val)) % 65536 : Nat) : Int) - 65536
''']
for f in ['test_ntt_tables.c', 'test_ntt_red_tables.c', 'ntt32_tables.c']:
    for name, ty, n, pairs, nums, l0, l1 in load(f):
        if pairs: continue
        assert len(nums) == int(n)
        x = sum((v % 65536) << (16 * i) for i, v in enumerate(nums))
        data.append(f'/-- src/{f}:{l0}-{l1} -/\ndef {name} : Nat :=\n  {hex(x)}\n')
        u = 'u16' if ty == 'uint16_t' else 's16'
        defs.append(f'/-- `{name}` (src/{f}:{l0}-{l1}). -/\ndef {name} : Array Int := {u} {n} Data.{name}\n')
hdr = open(REPO + 'test_bitrev_tables.h').read().split('\n')
for name, ty, n, pairs, nums, l0, l1 in load('test_bitrev_tables.c'):
    line = next(i for i, s in enumerate(hdr) if s.startswith('#define ' + n))
    defs.append(f'/-- `{n}` (src/test_bitrev_tables.h:{line + 1}). -/\ndef {n} : Nat := {hdr[line].split()[2]}\n')
    ps = list(zip(nums[::2], nums[1::2]))
    rows = [', '.join(f'({a}, {b})' for a, b in ps[i:i + 8]) for i in range(0, len(ps), 8)]
    defs.append(f'/-- `{name}` (src/test_bitrev_tables.c:{l0}-{l1}). -/\ndef {name} : Array (Nat × Nat) := #[\n  ' + ',\n  '.join(rows) + '\n]\n')
data.append('end TestTables.Data\n')
defs.append('end TestTables\n')
open(OUT + 'TestTablesData.lean', 'w').write('\n'.join(data))
open(OUT + 'TestTables.lean', 'w').write('\n'.join(defs))
