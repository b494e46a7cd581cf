"""Write lean/Verif/Model/Code.lean: the text of src/ntt_asm.S as a list of instructions (see lean/Verif/Model/X86.lean).

Each source line becomes one element; nothing is added, removed or reordered.
Usage: python3 tools/gencode.py [/repo/src/ntt_asm.S]
"""
import re, sys

src = sys.argv[1] if len(sys.argv) > 1 else '/repo/src/ntt_asm.S'
GPR = {r: r for r in 'rax rcx rdx rbx rsp rbp rsi rdi r8 r9 r10 r11 r12 r13 r14 r15'.split()}
R32 = {'eax': 'rax', 'ebx': 'rbx', 'ecx': 'rcx', 'edx': 'rdx'}
LOADS = {('vmovdqu', 'ymm'): 'dqu', ('vpmovsxdq', 'ymm'): 'sxdq', ('vpmovsxwd', 'ymm'): 'sxwd', ('vpmovsxwq', 'ymm'): 'sxwq',
         ('vpmovsxwq', 'xmm'): 'sxwq128', ('vpbroadcastw', 'xmm'): 'bdcstw'}
THREE = 'vpaddd vpsubd vpand vpcmpgtd vpmuldq vpermd'.split()
SHIFT = 'vpslld vpsrad vpsrlq vpslldq vpsrldq vpshufd'.split()
FOUR = 'vpblendd vshufps vshufpd vperm2i128'.split()


def lines():
    """(line number, text) without comments, preprocessor lines and directives other than .long."""
    comment = False
    for k, l in enumerate(open(src), 1):
        t = l.rstrip('\n')
        if not comment and '/*' in t:
            comment = True
        if comment:
            if '*/' in t:
                comment = False
            continue
        t = t.split('//')[0].strip()
        if not t or t[0] == '#':
            continue
        yield k, t


def vreg(t, kind='ymm'):
    assert t.startswith(kind), t
    return int(t[3:])


def addr(t):
    b = t[1:-1].replace(' ', '').split('+')
    if len(b) == 1:
        return f'(.at {GPR[b[0]]} 0)'
    if len(b) == 2 and b[1].isdigit():
        return f'(.at {GPR[b[0]]} {b[1]})'
    disp = 0
    if len(b) == 3:
        disp = int(b[2])
    m = re.fullmatch(r'(?:(\d+)\*)?(\w+)', b[1])
    return f'(.ix {GPR[b[0]]} {m.group(1) or 1} {GPR[m.group(2)]} {disp})'


def instr(t):
    op, _, rest = t.partition(' ')
    a = [x.strip() for x in rest.split(',')] if rest.strip() else []
    num = lambda x: str(int(x, 0))
    isnum = lambda x: re.fullmatch(r'0x[0-9a-fA-F]+|\d+', x)
    if op in THREE:
        return f'.vec (.{op} {vreg(a[0])} {vreg(a[1])} {vreg(a[2])})'
    if op in SHIFT:
        return f'.vec (.{op} {vreg(a[0])} {vreg(a[1])} {num(a[2])})'
    if op in FOUR:
        return f'.vec (.{op} {vreg(a[0])} {vreg(a[1])} {vreg(a[2])} {num(a[3])})'
    if op == 'vmovdqa':
        m = re.fullmatch(r'\[(\w+)\+rip\]', a[1])
        return f'.const {vreg(a[0])} .{m.group(1)}'
    if op == 'vmovdqu' and a[0][0] == '[':
        return f'.store {addr(a[0])} {vreg(a[1])}' if a[1][0] == 'y' else f'.store128 {addr(a[0])} {vreg(a[1], "xmm")}'
    if len(a) == 2 and a[1][0] == '[' and (op, a[0][:3]) in LOADS:
        return f'.load .{LOADS[op, a[0][:3]]} {a[0][3:]} {addr(a[1])}'
    if op in ('vpmovsxwq', 'vpbroadcastd', 'vpbroadcastq'):
        return f'.vec (.{op} {vreg(a[0])} {vreg(a[1], "xmm")})'
    if op == 'vmovdqu':
        return f'.vec (.vmovdqu {vreg(a[0])} {vreg(a[1])})'
    if op == 'vmovd':
        return f'.vmovd {vreg(a[0], "xmm")} {GPR[a[1]]}'
    if op == 'lea':
        return f'.lea {GPR[a[0]]} {addr(a[1])}'
    if op in ('shl', 'shr'):
        return f'.{op} {GPR[a[0]]} {num(a[1])}'
    if op in ('mov', 'add', 'cmp', 'and', 'xor') and a[0] in R32:
        if isnum(a[1]):
            return f'.{op}i32 {R32[a[0]]} {num(a[1])}'
        return f'.{op}32 {R32[a[0]]} {R32[a[1]]}'
    if op in ('mov', 'add', 'cmp'):
        if isnum(a[1]):
            return f'.{op}i {GPR[a[0]]} {num(a[1])}'
        return f'.{op} {GPR[a[0]]} {GPR[a[1]]}'
    if op in ('push', 'pop'):
        return f'.{op} {GPR[a[0]]}'
    if op in ('ret', 'cpuid', 'xgetbv'):
        return f'.{op}'
    if op == 'jmp':
        return f'.jmp .{a[0]}'
    if op[0] == 'j' and op[1:] in ('b', 'ae', 'be', 'a', 'e', 'ne'):
        return f'.jcc .{op[1:]} .{a[0]}'
    raise ValueError(t)


def parse():
    """Constants [(name, line, values)] and pieces [(label, is function, line, [(line, instruction)])]."""
    data, pieces = [], []
    text = False
    for k, t in lines():
        if t == '.text':
            text = True
            continue
        if t == '.data' or t.startswith(('.balign', '.global', '.intel_syntax')):
            continue
        m = re.fullmatch(r'_G\((\w+)\):|(\w+):', t)
        if m:
            name = m.group(1) or m.group(2)
            if text:
                pieces.append((name, bool(m.group(1)), k, []))
            else:
                data.append([name, k, None])
        elif t.startswith('.long'):
            data[-1][2] = [int(x.strip(), 0) for x in t[5:].split(',')]
            assert len(data[-1][2]) == 8
        else:
            pieces[-1][3].append((k, instr(re.sub(r'\s+', ' ', t))))
    return data, pieces


def main():
    data, pieces = parse()
    out = ['''import Verif.Model.X86

/-
The text of src/ntt_asm.S.  Generated by tools/gencode.py: one element of the lists for each label and instruction of the file, in
the order of the file.
-/

namespace Code
open X86
''']
    out.append('/-- The constants in the data section (src/ntt_asm.S:26-78), in the order of the file. -/')
    out.append('inductive Const where')
    out.append('\n'.join(f'  | {d[0]}' for d in data))
    out.append('  deriving DecidableEq, Repr\n')
    out.append('/-- The position of a constant in the data section: each takes 32 bytes. -/')
    out.append('def addr : Const → Nat')
    out.append('\n'.join(f'  | .{d[0]} => {32 * i}' for i, d in enumerate(data)) + '\n')
    out.append('/-- The eight integers of a constant. -/')
    out.append('def longs : Const → List Int')
    out.append('\n'.join(f'  | .{d[0]} => {d[2]}  -- line {d[1]}' for d in data) + '\n')
    out.append('/-- The labels of the text section. -/')
    out.append('inductive Label where')
    out.append('\n'.join(f'  | {p[0]}' for p in pieces))
    out.append('  deriving DecidableEq, Repr\n')
    out.append('abbrev Instr := X86.Instr Label Const\n')
    for p in pieces:
        last = p[3][-1][0] if p[3] else p[2]
        out.append(f'/-- src/ntt_asm.S:{p[2]}-{last} -/')
        out.append(f'def {p[0]} : List Instr := [')
        body = [f'  .label .{p[0]}'] + [f'  {i}' for _, i in p[3]]
        out.append(',\n'.join(body) + ']\n')
    names = [p[0] for p in pieces]
    out.append('/-- The program. -/')
    out.append('def prog : List Instr :=')
    out.append('  ' + ' ++ (\n  '.join(names) + ')' * (len(names) - 1) + '\n')
    out.append('end Code')
    open('lean/Verif/Model/Code.lean', 'w').write('\n'.join(out) + '\n')


if __name__ == '__main__':
    main()
