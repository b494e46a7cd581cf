#!/usr/bin/env python3
"""Expand the '@@ from-to' lines of tools/ntt_asm.tmpl with the instructions on these lines of
/repo/src/ntt_asm.S, and write lean/Verif/Model/NttAsm.lean.

Loads, stores and instructions on general registers become one line each.  A run of vector
instructions without memory operand becomes a pure function of the registers it reads, emitted
before the definition that contains it.  'keep=r,s' lists vector registers needed after the range."""
import re, os
HERE = os.path.dirname(os.path.abspath(__file__))
SRC = open('/repo/src/ntt_asm.S').read().split('\n')

ALU = {'vpaddd', 'vpsubd', 'vpand', 'vpcmpgtd', 'vpmuldq', 'vpermd'}
IMM2 = {'vpslld', 'vpsrad', 'vpsrlq', 'vpslldq', 'vpsrldq', 'vpshufd'}
IMM3 = {'vpblendd', 'vshufps', 'vshufpd', 'vperm2i128'}
UN = {'vpbroadcastd', 'vpbroadcastq'}


def reg(s):
    return s.replace('xmm', 'ymm')


def addr(s):
    s = s[1:-1]
    if s.endswith('+rip'):
        return None, s[:-4]
    parts = [x.replace('*', ' * ') for x in s.split('+')]
    e = ' + '.join(parts)
    return parts[0], e if len(parts) == 1 else '(' + e + ')'


def instr(line, arrays):
    """-> (kind, text, reads, writes); kind is 'pure' (vector), 'mem' or 'gpr'"""
    line = line.split('//')[0].strip()
    op, _, rest = line.partition(' ')
    args = [x.strip() for x in rest.split(',')]
    if op in ALU:
        d, a, b = map(reg, args)
        return 'pure', f'let {d} := {op} {a} {b}', [a, b], d
    if op in IMM2:
        d, a = reg(args[0]), reg(args[1])
        return 'pure', f'let {d} := {op} {a} {args[2].lower()}', [a], d
    if op in IMM3:
        d, a, b = map(reg, args[:3])
        return 'pure', f'let {d} := {op} {a} {b} {args[3].lower()}', [a, b], d
    if op in UN:
        d, a = map(reg, args)
        return 'pure', f'let {d} := {op} {a}', [a], d
    if op == 'vpmovsxwq' and not args[1].startswith('['):
        assert args[0].startswith('ymm') and args[1].startswith('xmm')
        d, a = map(reg, args)
        return 'pure', f'let {d} := vpmovsxwq {a}', [a], d
    if op == 'vmovd':
        return 'mem', f'let {reg(args[0])} := vmovd {args[1]}', [], reg(args[0])
    if op == 'vmovdqa':
        base, e = addr(args[1])
        assert base is None and args[0].startswith('ymm')
        return 'mem', f'let {args[0]} := {e}', [], args[0]
    if op == 'vmovdqu':
        if args[0].startswith('['):
            b, e = addr(args[0])
            f = 'store' if args[1].startswith('ymm') else 'store128'
            m = arrays.get(b, 'a')
            return 'mem', f'let {m} ← {f} {m} {e} {reg(args[1])}', [reg(args[1])], None
        if args[1].startswith('['):
            assert args[0].startswith('ymm')
            b, e = addr(args[1])
            return 'mem', f'let {args[0]} ← load {arrays.get(b, "a")} {e}', [], args[0]
        d, a = args
        return 'pure', f'let {d} := {a}', [a], d
    if op in ('vpmovsxwd', 'vpmovsxdq', 'vpmovsxwq', 'vpbroadcastw'):
        b, e = addr(args[1])
        f = {'vpmovsxwd': 'load_sxwd', 'vpmovsxdq': 'load_sxdq', 'vpbroadcastw': 'load_bdcstw',
             'vpmovsxwq': 'load_sxwq' if args[0].startswith('ymm') else 'load_sxwq128'}[op]
        assert args[0].startswith('xmm' if op == 'vpbroadcastw' or f.endswith('128') else 'ymm')
        return 'mem', f'let {reg(args[0])} ← {f} {"a" if op == "vpmovsxdq" else "p"} {e}', [], reg(args[0])
    if op == 'mov':
        return 'gpr', f'let {args[0]} := {args[1]}', [], None
    if op == 'lea':
        return 'gpr', f'let {args[0]} := {addr(args[1])[1].strip("()")}', [], None
    if op == 'add':
        return 'gpr', f'let {args[0]} := {args[0]} + {args[1]}', [], None
    if op == 'shr':
        assert args[1] == '1'
        return 'gpr', f'let {args[0]} := {args[0]} / 2', [], None
    if op == 'shl':
        assert args[1] == '1'
        return 'gpr', f'let {args[0]} := 2 * {args[0]}', [], None
    raise SystemExit('unknown instruction: ' + line)


def code(lo, hi):
    out, comment = [], False
    for i in range(lo, hi + 1):
        l = SRC[i - 1].strip().expandtabs()
        if comment:
            comment = '*/' not in l
            continue
        if l.startswith('/*'):
            comment = '*/' not in l
            continue
        l = l.split('//')[0].strip()
        if not l:
            continue
        assert not l.endswith(':'), (i, l)
        out.append((i, re.sub(r'\s+', ' ', l)))
    return out


def expand(lo, hi, name, keep, arrays, indent):
    ins = [(i, instr(l, arrays)) for i, l in code(lo, hi)]
    blocks, lines, k, nb = [], [], 0, 0
    while k < len(ins):
        if ins[k][1][0] != 'pure':
            lines.append(indent + ins[k][1][1])
            k += 1
            continue
        j = k
        while j < len(ins) and ins[j][1][0] == 'pure':
            j += 1
        blk = ins[k:j]
        written, inputs = [], []
        for _, (_, _, rs, w) in blk:
            for r in rs:
                if r not in written and r not in inputs:
                    inputs.append(r)
            if w not in written:
                written.append(w)
        outs = []
        for r in written:
            live = r in keep
            for _, (_, _, rs, w) in ins[j:]:
                if r in rs:
                    live = True
                    break
                if w == r:
                    live = False
                    break
            if live:
                outs.append(r)
        inputs.sort(key=lambda r: int(r[3:]))
        outs.sort(key=lambda r: int(r[3:]))
        assert outs, blk
        nb += 1
        fn = f'{name}_{nb}'
        ty = ' × '.join(['V8'] * len(outs))
        body = '\n'.join('  ' + t for _, (_, t, _, _) in blk)
        ret = outs[0] if len(outs) == 1 else '(' + ', '.join(outs) + ')'
        blocks.append(f'/-- src/ntt_asm.S:{blk[0][0]}-{blk[-1][0]} -/\n'
                      f'def {fn} ({" ".join(inputs)} : V8) : {ty} :=\n{body}\n  {ret}\n')
        lines.append(f'{indent}let {ret} := {fn} {" ".join(inputs)}')
        k = j
    return blocks, lines


def main():
    t = open(os.path.join(HERE, 'ntt_asm.tmpl')).read()
    out = []
    for part in re.split(r'\n(?=/--)', t):
        m = re.search(r'^(?:def) (\w+)', part, re.M)
        blocks, res, cnt = [], [], 0
        for l in part.split('\n'):
            d = re.match(r'(\s*)@@ (\d+)-(\d+)(.*)$', l)
            if not d:
                res.append(l)
                continue
            cnt += 1
            opt = dict(x.split('=') for x in d.group(4).split())
            arrays = dict(x.split(':') for x in opt.get('arrays', '').split(',') if x)
            nm = opt.get('name', m.group(1) + ('' if cnt == 1 else f'_{cnt}') + '_blk')
            b, ls = expand(int(d.group(2)), int(d.group(3)), nm,
                           [x for x in opt.get('keep', '').split(',') if x], arrays, d.group(1))
            blocks += b
            res += ls
        out += blocks
        out.append('\n'.join(res))
    open(os.path.join(HERE, '..', 'lean', 'Verif', 'Model', 'NttAsm.lean'), 'w').write('\n'.join(out))


main()
