#!/usr/bin/env python3
"""Write lean/Verif/Model/KatData.lean from the arrays of /repo/src/data_poly1024.c: each array of 1024
entries becomes one number, four hexadecimal digits per entry, entry 0 last."""
import re, os
HERE = os.path.dirname(os.path.abspath(__file__))
SRC = open('/repo/src/data_poly1024.c').read()
rows = {}
for m in re.finditer(r'static int32_t ([abc])(\d+) \[1024\]=\{([^}]*)\}', SRC):
    v = [int(x) for x in m[3].split(',')]
    assert len(v) == 1024 and all(0 <= x < 65536 for x in v)
    rows[m[1], int(m[2])] = (v, SRC.count('\n', 0, m.start()) + 1)
assert len(rows) == 300
out = ['''/-
The arrays of src/data_poly1024.c:19-617, written by tools/genkat.py.  An array of 1024 entries is one
number: entry `i` is the four hexadecimal digits of weight `16^(4i)` (see `Kat.row` in Model/Kat.lean), so
that the entries of the C text appear from right to left.
-/

namespace Kat.Data
''']
for i in range(100):
    for x in 'abc':
        v, line = rows[x, i]
        out.append(f'/-- src/data_poly1024.c:{line} -/\ndef {x}{i} : Nat :=\n  0x' +
                   ''.join('%04x' % e for e in reversed(v)) + '\n')
for x in 'abc':
    names = ', '.join(f'{x}{i}' for i in range(100))
    lines, cur = [], ' '
    for w in names.split(' '):
        if len(cur) + len(w) + 1 > 98:
            lines.append(cur)
            cur = ' '
        cur += ' ' + w
    lines.append(cur)
    body = '\n'.join(lines).strip()
    out.append(f'/-- The arrays {x}0, ..., {x}99 of src/data_poly1024.c. -/\ndef {x} : List Nat :=\n  [{body}]\n')
out.append('end Kat.Data\n')
open(os.path.join(HERE, '../lean/Verif/Model/KatData.lean'), 'w').write('\n'.join(out))
