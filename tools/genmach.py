#!/usr/bin/env python3
"""Generate Verif/Proofs/MachText.lean and Verif/Proofs/Mach*.lean from Verif/Model/Code.lean and Verif/Model/NttAsm.lean.

MachText.lean: the text of src/ntt_asm.S from each label, and from behind each loop, on.
Mach*.lean: for each loop and each function, execution of the text follows the model, one line for each instruction."""
import os
import re

ROOT = os.path.join(os.path.dirname(os.path.abspath(__file__)), '..', 'lean', 'Verif')

# ---- the program
code = open(os.path.join(ROOT, 'Model/Code.lean')).read()
pieces = {}
for m in re.finditer(r'\ndef (\w+) : List Instr := \[\n(.*?)\]\n', code, re.S):
    pieces[m.group(1)] = [x.strip() for x in m.group(2).split(',\n')]
order = re.findall(r'^  (\w+)(?: \+\+ \(|\)*$)', code[code.index('def prog'):], re.M)
prog = []
pos = {}
for name in order:
    for ins in pieces[name]:
        mm = re.match(r'\.label \.(\w+)$', ins)
        if mm:
            pos[mm.group(1)] = len(prog)
        prog.append(ins)
assert len(pos) == len(order)

REGS = ['rax', 'rcx', 'rdx', 'rbx', 'rsp', 'rbp', 'rsi', 'rdi'] + ['r%d' % i for i in range(8, 16)]

# ---- the model
model = open(os.path.join(ROOT, 'Model/NttAsm.lean')).read()
model = re.sub(r'/-.*?-/\n?', '', model, flags=re.S)
sigs = {}
pairblks = []
for d in re.split(r'\n(?=def )', model):
    m = re.match(r'def (\w+)\s*(.*?):=', d, re.S)
    if not m:
        continue
    head = ' '.join(m.group(2).split())
    if '_blk_' in m.group(1):
        if 'V8 × V8' in head:
            pairblks.append(m.group(1))
        continue
    params = []
    for names, ty in re.findall(r'\(([\w ]+) : ([^()]*)\)', head):
        for nm in names.split():
            params.append((nm, ty))
    st = re.search(r'let \(([^)]*)\) := s\n', d)
    sigs[m.group(1)] = (params, [x.strip() for x in st.group(1).split(',')] if st else None, d)

# ---- what the generator is told: kinds of registers, bounds
A, N, P, B, C, W = 'A', 'N', 'P', 'B', 'C', 'W'
BASE = {'rax': A, 'rcx': A, 'rdi': A, 'rdx': P, 'rsi': N, 'r8': A, 'r9': P, 'r10': A, 'r11': A}
LOOPS = {}


def L(name, kinds=None, I=None, J=None, bnd=None, lo=False, exit=None, call=None):
    k = dict(BASE)
    k.update(kinds or {})
    LOOPS[name] = dict(kinds=k, I=I, J=J, bnd=bnd or {}, lo=lo, exit=exit, call=call or {})


for l in ['loop0', 'loop0b', 'loop1', 'loop1b', 'loop2', 'loop_shift', 'loop3', 'loop4', 'loop6', 'ct_r2s_size8_loop',
          'ct_r2s_size16_loop', 'mct_r2s_size8_loop2']:
    L(l, dict(rsi=A))
L('loop5', dict(rsi=A, rdx=B, rcx=C))
CT = dict(rsi=A, r9=N, r10=N, r11=P)
L('ct_r2s_inner_loop', CT, bnd=dict(r8='2 ^ 39'))
L('ct_r2s_loop_aux1', CT, I='xrax < 2 ^ 37')
L('ct_r2s_size32_loop', CT, I='xr10 < 2 ^ 34')
S2R = dict(r9=A)
L('ct_s2r_loop1', S2R)
L('ct_s2r_loop2_inner1', S2R, J='xrcx ≤ 4 * n')
L('ct_s2r_loop2_inner2', S2R, J='xrcx ≤ 4 * n')
L('ct_s2r_loop2_aux', S2R, I='xrcx < 2 ^ 36')
L('ct_s2r_loop2', S2R, I='xrsi < 2 ^ 34')
for l in ['ct_s2r_finish_size4', 'ct_s2r_finish_size2', 'ct_s2r_finish_size1']:
    L(l, S2R)
L('mct_s2r_loop_inner', S2R, J='xrcx ≤ 4 * n')
L('mct_s2r_loop_aux', S2R, I='xr9 < 2 ^ 37')
L('mct_s2r_loop', S2R, I='xrsi < 2 ^ 34')
for q in ['', 'm']:
    L(q + 'gs_r2s_loop0', dict(r8=P, r10=P))
    L(q + 'gs_r2s_size16_loop')
R11 = dict(r11=N)
L('gs_r2s_size32_first_blocks', R11, I='lo ≤ xrcx', J='lo ≤ xrcx ∧ xrcx ≤ 4 * n', lo=True)
L('gs_r2s_size32_inner_loop', R11, J='xrcx ≤ 4 * n')
L('gs_r2s_size32_other_blocks', R11, I='xrcx < 2 ^ 36')
L('gs_r2s_size32_loop', R11, I='xr11 < 2 ^ 36 ∧ xrsi < 2 ^ 34', exit='gs_r2s_done', call={'gs_r2s_size32_first_blocks': 'xr11'})
L('mgs_r2s_size32_inner_loop', R11, I='lo ≤ xrcx', J='lo ≤ xrcx ∧ xrcx ≤ 4 * n', lo=True)
L('mgs_r2s_size32_blocks', R11, I='lo ≤ xrcx ∧ xrcx < 2 ^ 37 ∧ xr8 < 2 ^ 37', J='lo ≤ xrax ∧ xrax ≤ 4 * n', lo=True,
  bnd=dict(r11='2 ^ 36'), call={'mgs_r2s_size32_inner_loop': 'lo'})
L('mgs_r2s_size32_loop', R11, I='xr11 < 2 ^ 36 ∧ xrsi < 2 ^ 34', call={'mgs_r2s_size32_blocks': 'xr11'})
for q in ['', 'm']:
    L(q + 'gs_s2r_inner_loop')
    L(q + 'gs_s2r_loop', I='xr8 < 2 ^ 37')
    L(q + 'gs_s2r_main', I='xrsi < 2 ^ 34')
    L(q + 'gs_s2r_finish_loop')

FUNS = ['reduce_array_asm', 'reduce_array_asm2', 'reduce_array_twice_asm', 'reduce_array_twice_asm2', 'correct_asm', 'shift_array_asm',
        'mul_reduce_array16_asm', 'mul_reduce_array16_asm2', 'mul_reduce_array_asm', 'scalar_mul_reduce_array_asm',
        'ntt_red_ct_rev2std_asm', 'mulntt_red_ct_rev2std_asm', 'ntt_red_ct_std2rev_asm', 'mulntt_red_ct_std2rev_asm',
        'ntt_red_gs_rev2std_asm', 'nttmul_red_gs_rev2std_asm', 'ntt_red_gs_std2rev_asm', 'nttmul_red_gs_std2rev_asm']
# parts of functions with an own definition in the model: label of the text, registers with kinds
TAILS = {'ct_r2s_tail': ('ct_r2s_size16_loop', dict(rdi=A, rsi=A, rdx=P, r9=N, rax=A)),
         'ct_s2r_finish': ('ct_s2r_finish', dict(rdi=A, r8=A, rdx=P))}
TAIL_AT = {'ct_r2s_tail': ['ntt_red_ct_rev2std_asm', 'mulntt_red_ct_rev2std_asm'],
           'ct_s2r_finish': ['ntt_red_ct_std2rev_asm', 'mulntt_red_ct_std2rev_asm']}
FILES = [('Elem', FUNS[:10]), ('CtR', FUNS[10:12]), ('CtS', FUNS[12:14]), ('GsR', FUNS[14:16]), ('GsS', FUNS[16:18])]

# ---- positions: text from a position on
loop_end = {}   # loop -> position behind its jump
for i, ins in enumerate(prog):
    m = re.match(r'\.jcc \.\w+ \.(\w+)$', ins)
    if m and m.group(1) in LOOPS and pos[m.group(1)] < i:
        loop_end[m.group(1)] = i + 1
    m = re.match(r'\.jmp \.(\w+)$', ins)
    if m and m.group(1) in LOOPS and pos[m.group(1)] < i and LOOPS[m.group(1)]['exit']:
        loop_end[m.group(1)] = i + 1
names = {}
for l, i in pos.items():
    names.setdefault(i, []).append('at_' + l)
    names.setdefault(i + 1, []).append(l)
for l, i in loop_end.items():
    names.setdefault(i, []).append(l + '_exit')


def textname(i):
    return 'Text.' + names[i][0]


def gen_text():
    out = ['import Verif.Proofs.X86Sim', '', '/-', 'The text of src/ntt_asm.S from its labels and from behind its loops on.  Generated by tools/genmach.py.',
           '-/', '', 'namespace X86', '', 'namespace Text', '']
    ps = sorted(names, reverse=True)
    nxt = None
    for p in ps:
        if p == len(prog):
            body = '[]'
        else:
            end = nxt if nxt is not None else len(prog)
            body = ' ::\n  '.join(prog[p:end]) + (' ::\n  ' + names[nxt][0] if nxt is not None and nxt < len(prog) else ' :: []')
        out.append('def %s : Text :=\n  %s\n' % (names[p][0], body))
        for other in names[p][1:]:
            out.append('abbrev %s : Text := %s\n' % (other, names[p][0]))
        nxt = p
    out += ['end Text', '']
    for l in order:
        out.append('theorem codeAt_%s : codeAt .%s Code.prog = %s := by krfl\n' % (l, l, 'Text.' + names[pos[l] + 1][0]))
    out += ['end X86', '']
    return '\n'.join(out)


# ---- registers written between positions
def writes(lo, hi):
    g, y = [], []
    for ins in prog[lo:hi]:
        m = re.match(r'\.(mov|movi|lea|add|addi|shl|shr) (\w+)', ins)
        if m:
            g.append(m.group(2))
        m = re.match(r'\.vec \(\.\w+ (\d+)', ins) or re.match(r'\.load \.\w+ (\d+)', ins) or re.match(r'\.(?:const|vmovd) (\d+)', ins)
        if m:
            y.append(int(m.group(1)))
    key = lambda r: REGS.index(r)
    return sorted(set(g), key=key), sorted(set(y))


def ptr(kind, x):
    if kind == N:
        return 'BitVec.ofNat 64 ' + x
    return kind + ' + BitVec.ofNat 64 ' + x


class Walk:
    """Proof of one routine."""

    def __init__(self, name):
        self.out = []
        self.name = name
        self.ind = '  '

    def emit(self, s):
        self.out.append(self.ind + s)

    def gen(self, kinds):
        self.emit('refine Sim.gen fun g hgg => ?_')
        for r in kinds:
            self.emit('replace h_%s := (congrFun hgg %s).trans h_%s' % (r, r, r))
        self.emit('replace hg : Agree %s g0 g := Agree.of_eq hgg (by agree hg)' % self.gl)
        self.emit('clear hgg')

    def run(self, p, kinds, vfacts, head=None, tailmode=None):
        """`kinds`: kind of each register with a fact; `vfacts`: registers with a fact on their value."""
        kinds = dict(kinds)
        vfacts = set(vfacts)
        while True:
            ins = prog[p]
            m = re.match(r'\.label \.(\w+)$', ins)
            if m:
                l = m.group(1)
                self.emit('refine Sim.label ?_')
                p += 1
                if self.at_label(l, p, kinds, vfacts, head) == 'end':
                    return
                if l in LOOPS and not (p - 1 == self.start_label):
                    p = self.loop(l, kinds, vfacts)
                continue
            if p - 1 in pos.values() and self.jumped(p, head):
                pass
            m = re.match(r'\.vec \(\.\w+ (\d+)', ins)
            if m:
                self.emit('refine Sim.vec ?_')
                vfacts.discard(int(m.group(1)))
                p += 1
                continue
            m = re.match(r'\.load \.(\w+) (\d+) \(\.at (\w+) (\d+)\)$', ins)
            if m:
                k, d, r, disp = m.groups()
                kind = kinds[r]
                if kind == A:
                    rule = {'dqu': 'load', 'sxdq': 'load_sxdq'}[k]
                    self.emit('refine Sim.%s H E (ea_at h_%s) fun v b_%d => ?_' % (rule, r, p))
                elif k == 'dqu':
                    self.emit('refine Sim.loadS T%s E (ea_at h_%s) fun v b_%d => ?_' % (kind, r, p))
                else:
                    self.emit('refine Sim.load_%s T%s E (ea_at h_%s) fun v _ => ?_' % (k, kind, r))
                vfacts.discard(int(d))
                p += 1
                continue
            m = re.match(r'\.const (\d+) \.(\w+)$', ins)
            if m:
                self.emit('refine Sim.const H E ?_')
                vfacts.discard(int(m.group(1)))
                p += 1
                continue
            m = re.match(r'\.vmovd (\d+) (\w+)$', ins)
            if m:
                self.emit('refine Sim.vmovd h_%s ?_' % m.group(2))
                vfacts.discard(int(m.group(1)))
                p += 1
                continue
            m = re.match(r'\.(store|store128) \(\.at (\w+) (\d+)\) (\d+)$', ins)
            if m:
                rule, r, disp, d = m.groups()
                assert kinds[r] == A
                self.emit('refine Sim.%s H E (ea_at h_%s) (by krfl) fun a m E b_%d => ?_' % (rule, r, p))
                p += 1
                continue
            m = re.match(r'\.mov (\w+) (\w+)$', ins)
            if m:
                d, r = m.groups()
                self.emit('refine Sim.mov ?_')
                self.emit('have h_%s := h_%s' % (d, r))
                kinds[d] = kinds[r]
                self.gen(kinds)
                p += 1
                continue
            m = re.match(r'\.movi (\w+) (\d+)$', ins)
            if m:
                d, k = m.groups()
                self.emit('refine Sim.movi ?_')
                self.emit('have h_%s : BitVec.ofNat 64 %s = BitVec.ofNat 64 %s := rfl' % (d, k, k))
                kinds[d] = N
                self.gen(kinds)
                p += 1
                continue
            m = re.match(r'\.lea (\w+) \(\.at (\w+) (\d+)\)$', ins)
            if m:
                d, r, k = m.groups()
                self.emit('refine Sim.lea ?_')
                self.emit('have h_%s := ea_at (k := %s) h_%s' % (d, k, r))
                kinds[d] = kinds[r]
                self.gen(kinds)
                p += 1
                continue
            m = re.match(r'\.lea (\w+) \(\.ix (\w+) (\d+) (\w+) (\d+)\)$', ins)
            if m:
                d, r, k, i, c = m.groups()
                assert kinds[i] == N and kinds[r] != N, (self.name, ins, kinds)
                self.emit('refine Sim.lea ?_')
                if k == '1':
                    self.emit('have h_%s := ea_ix1 (c := %s) h_%s h_%s' % (d, c, r, i))
                else:
                    self.emit('have h_%s := ea_ix (k := %s) (c := %s) h_%s h_%s' % (d, k, c, r, i))
                kinds[d] = kinds[r]
                self.gen(kinds)
                p += 1
                continue
            m = re.match(r'\.add (\w+) (\w+)$', ins)
            if m:
                d, r = m.groups()
                assert kinds[r] == N and kinds[d] != N, (self.name, ins, kinds)
                self.emit('refine Sim.add fun cf zf => ?_')
                self.emit('have h_%s := ptr_add h_%s h_%s' % (d, d, r))
                self.gen(kinds)
                p += 1
                continue
            m = re.match(r'\.addi (\w+) (\d+)$', ins)
            if m:
                d, k = m.groups()
                assert kinds[d] != N
                self.emit('refine Sim.addi fun cf zf => ?_')
                self.emit('have h_%s := ptr_addi (k := %s) h_%s' % (d, k, d))
                self.gen(kinds)
                p += 1
                continue
            m = re.match(r'\.(shl|shr) (\w+) 1$', ins)
            if m:
                k, d = m.groups()
                assert kinds[d] == N
                self.emit('refine Sim.%s fun cf zf => ?_' % k)
                self.emit('have h_%s := cnt_%s1 h_%s%s' % (d, k, d, ' (by omega)' if k == 'shr' else ''))
                self.gen(kinds)
                p += 1
                continue
            m = re.match(r'\.(cmp|cmpi) (\w+) (\w+)$', ins)
            if m:
                k, r, r2 = m.groups()
                mj = re.match(r'\.jcc \.(\w+) \.(\w+)$', prog[p + 1])
                cc, l = mj.groups()
                if k == 'cmpi':
                    assert kinds[r] == N
                    cmp = 'Cmp.cnt (by omega) (by omega) h_%s rfl' % r
                elif kinds[r] == N:
                    assert kinds[r2] == N
                    cmp = 'Cmp.cnt (by omega) (by omega) h_%s h_%s' % (r, r2)
                else:
                    assert kinds[r] == A and kinds[r2] == A
                    cmp = 'Cmp.ptr H.hA (by omega) (by omega) h_%s h_%s' % (r, r2)
                rel = {'b': '_ < _', 'ae': '_ ≥ _', 'be': '_ ≤ _', 'a': '_ > _', 'e': '_ = _', 'ne': '_ ≠ _'}[cc]
                self.emit('refine Sim.%s_jcc codeAt_%s (%s) (fun hc cf zf => ?_) (fun hc cf zf => ?_)' % (k, l, cmp))
                ind = self.ind
                if l == head:
                    for taken in (True, False):
                        self.ind = ind + '· '
                        self.emit('have hc\' : %s := hc' % (rel if taken else '¬ (%s)' % rel))
                        self.ind = ind + '  '
                        self.finish(taken, kinds, vfacts, 'decide_eq_true hc' if taken else 'decide_eq_false hc')
                    self.ind = ind
                    return
                for taken in (True, False):
                    self.ind = ind + '· '
                    self.emit('have hc\' : %s := hc' % (rel if taken else '¬ (%s)' % rel))
                    self.ind = ind + '  '
                    self.emit('refine Sim.%s hc ?_' % ('if_pos' if taken else 'if_neg'))
                    if taken:
                        self.jump_to(l, kinds, vfacts, head)
                    else:
                        self.run(p + 2, kinds, vfacts, head)
                self.ind = ind
                return
            m = re.match(r'\.jmp \.(\w+)$', ins)
            if m:
                self.emit('refine Sim.jmp codeAt_%s ?_' % m.group(1))
                if m.group(1) == head:
                    self.finish(True, kinds, vfacts, 'rfl')
                else:
                    self.jump_to(m.group(1), kinds, vfacts, head)
                return
            if ins == '.ret':
                assert head is None
                self.emit('exact Sim.stop ⟨⟨_, rfl⟩, E, by agree hg⟩')
                return
            raise Exception('no rule: ' + ins)

    start_label = -1

    def jumped(self, p, head):
        return False

    def at_label(self, l, p, kinds, vfacts, head):
        """Behind label l (its instruction done)."""
        for t, (tl, regs) in TAILS.items():
            if l == tl and self.name in TAIL_AT[t]:
                self.tail(t, kinds, vfacts)
                return 'end'
        return None

    def jump_to(self, l, kinds, vfacts, head):
        for t, (tl, regs) in TAILS.items():
            if l == tl and self.name in TAIL_AT[t]:
                self.tail(t, kinds, vfacts)
                return
        if head is not None and LOOPS[head]['exit'] == l:
            self.finish(False, kinds, vfacts, 'rfl')
            return
        p = pos[l] + 1
        if l in LOOPS:
            p = self.loop(l, kinds, vfacts)
        self.run(p, kinds, vfacts, head)

    def geny(self, vfacts):
        self.emit('refine Sim.geny fun y hyy => ?_')
        for k in sorted(self.yused):
            if k in vfacts:
                self.emit('replace hv%d := (congrFun hyy %d).trans hv%d' % (k, k, k))
            else:
                self.emit('have hv%d := congrFun hyy %d' % (k, k))
            vfacts.add(k)
        if self.track_y:
            self.emit('replace hy : Agree %s y0 y := Agree.of_eq hyy (by agree hy)' % self.yl)
        self.emit('clear hyy')

    def vfact(self, k, vfacts):
        return '(hv%d.trans (by krfl))' % k

    def loop(self, l, kinds, vfacts):
        spec = LOOPS[l]
        params, st, _ = sigs[l]
        self.geny(vfacts)
        args = ['H']
        for nm, ty in params:
            if nm == 's' or nm == 'n':
                continue
            if ty == 'Array Int':
                args.append({'p': 'TP', 'b': 'TB', 'c': 'TC'}[nm])
            elif ty == 'V8':
                args.append(self.vfact(int(nm[3:]), vfacts))
            else:
                assert kinds[nm] == spec['kinds'][nm], (self.name, l, nm, kinds[nm])
                args.append('h_' + nm)
                if kinds[nm] in (A, N):
                    args.append('(by omega)')
        if spec['lo']:
            args.append('(lo := %s)' % LOOPS[self.name]['call'][l])
        for r in st[1:]:
            assert kinds[r] == spec['kinds'][r], (self.name, l, r, kinds[r])
        inits = ', '.join('h_' + r for r in st[1:])
        self.emit('refine Sim.loop (%s_sim %s) ⟨.refl, .refl, E, %s, %s⟩ ?_' % (l, ' '.join(args), inits, 'by omega' if spec['I'] else 'trivial'))
        cnt = self.cnt = getattr(self, 'cnt', 0) + 1
        pat = ', '.join(['a'] + ['x' + r + str(cnt) for r in st[1:]])
        self.emit('rintro ⟨%s⟩ ⟨g%d, y%d, cf, zf, m⟩ ⟨hg%d, hy%d, E, %s, b_J%d⟩' % (pat, cnt, cnt, cnt, cnt, ', '.join('h_' + r for r in st[1:]), cnt))
        gw, yw = writes(pos[l], loop_end[l])
        for r in list(kinds):
            if r in gw:
                if r not in st:
                    del kinds[r]
            else:
                self.emit('have h_%s := (hg%d %s rfl).trans h_%s' % (r, cnt, r, r))
        for k in range(16):
            if k in yw:
                vfacts.discard(k)
            elif k in vfacts:
                self.emit('have hv%d := (hy%d %d rfl).trans hv%d' % (k, cnt, k, k))
            elif k in self.yused:
                self.emit('have hv%d := hy%d %d rfl' % (k, cnt, k))
                vfacts.add(k)
        self.emit('replace hg : Agree %s g0 g%d := Agree.trans rfl (by agree hg) hg%d' % (self.gl, cnt, cnt))
        if self.track_y:
            self.emit('replace hy : Agree %s y0 y%d := Agree.trans rfl (by agree hy) hy%d' % (self.yl, cnt, cnt))
        self.emit('clear hg%d hy%d' % (cnt, cnt))
        if spec['exit']:
            return pos[spec['exit']] + 1
        return loop_end[l]

    def tail(self, t, kinds, vfacts):
        params, _, _ = sigs[t]
        self.geny(vfacts)
        args = ['H']
        for nm, ty in params:
            if nm in ('n', 'a'):
                continue
            if ty == 'Array Int':
                args.append('TP')
            elif ty == 'V8':
                args.append(self.vfact(int(nm[3:]), vfacts))
            else:
                assert kinds[nm] == TAILS[t][1][nm]
                args.append('h_' + nm)
                if kinds[nm] in (A, N):
                    args.append('(by omega)')
        self.emit('exact %s_sim %s (by agree hg) E' % (t, ' '.join(args)))

    def finish(self, taken, kinds, vfacts, why):
        params, st, _ = sigs[self.name]
        spec = LOOPS[self.name]
        ext = spec['I'] if taken else spec['J']
        for r in st[1:]:
            assert kinds[r] == spec['kinds'][r], (self.name, r, kinds[r])
        self.emit('exact Sim.%s (%s) ⟨by agree hg, by agree hy, E, %s, %s⟩' % (
            'again' if taken else 'done', why, ', '.join('h_' + r for r in st[1:]), 'by omega' if ext else 'trivial'))


def used_ymm(lo, hi):
    """Vector registers that loops and tails between two positions take as parameters."""
    out = set()
    for j in range(lo, hi):
        m = re.match(r'\.label \.(\w+)$', prog[j]) or re.match(r'\.jmp \.(\w+)$', prog[j])
        if not m:
            continue
        for nm in [m.group(1)] + [t for t, (tl, _) in TAILS.items() if tl == m.group(1)]:
            if nm in LOOPS or nm in TAILS:
                out |= {int(q[3:]) for q, ty in sigs[nm][0] if ty == 'V8'}
    return out


def hyps(params, kinds, bnd):
    out = []
    for nm, ty in params:
        if nm in ('s', 'n', 'a'):
            continue
        if ty == 'Array Int':
            if nm == 'p':
                out.append('{P : Word} {p : Array Int} (TP : Tab K A n m0 P p)')
            else:
                out.append('{%s : Word} {%s : Array Int} (T%s : Src K A n m0 %s %s)' % (nm.upper(), nm, nm.upper(), nm.upper(), nm))
        elif ty == 'V8':
            k = nm[3:]
            out.append('{v%s : V8} (hv%s : y0 %s = v%s)' % (k, k, k, k))
        else:
            s = '{x%s : Nat} (h_%s : g0 %s = %s)' % (nm, nm, nm, ptr(kinds[nm], 'x' + nm))
            if kinds[nm] in (A, N):
                s += ' (b_%s : x%s < %s)' % (nm, nm, bnd.get(nm, '2 ^ 36' if nm == 'rdi' else '2 ^ 37' if kinds[nm] == A else '2 ^ 34'))
            out.append(s)
    return out


def wrap(s, ind, width=132):
    words = s.split(' ')
    lines, cur = [], ''
    for w in words:
        if len(cur) + len(w) + 1 > width:
            lines.append(cur)
            cur = ind + w
        else:
            cur = cur + ' ' + w if cur else w
    lines.append(cur)
    return '\n'.join(lines)


def model_args(params):
    out = []
    for nm, ty in params:
        if nm == 's':
            continue
        if ty == 'Array Int' or nm == 'n':
            out.append(nm)
        elif ty == 'V8':
            out.append('v' + nm[3:])
        else:
            out.append('x' + nm)
    return ' '.join(out)


def gen_loop(l):
    spec = LOOPS[l]
    params, st, src = sigs[l]
    gw, yw = writes(pos[l], loop_end[l])
    gl = '[' + ', '.join(gw) + ']'
    yl = '[' + ', '.join(map(str, yw)) + ']'
    sty = ' × '.join(['Array Int'] + ['Nat'] * (len(st) - 1))
    needs = []
    for nm, ty in params:
        pass
    kset = sorted({spec['kinds'][r] for r in st[1:]} - {A, N})
    res = []
    kp = ' '.join('(%s : Word)' % k for k in kset)
    ka = ' '.join(kset)
    lo = ' (lo : Nat)' if spec['lo'] else ''
    for q in ('I', 'J'):
        res.append('def %s_%s (A : Word) (n : Nat) (m0 : Memory) (g0 : Nat → Word) (y0 : Nat → V8)%s%s :\n    %s → State → Prop' % (
            l, q, ' ' + kp if kp else '', lo, sty))
        ext = spec[q] or 'True'
        res.append('  | (%s), s =>' % ', '.join(['a'] + [('x' + r) for r in st[1:]]))
        res.append('    Agree %s g0 s.gpr ∧ Agree %s y0 s.ymm ∧ Env A n m0 s.mem a ∧' % (gl, yl))
        res.append('    %s ∧ %s' % (' ∧ '.join('s.gpr %s = %s' % (r, ptr(spec['kinds'][r], 'x' + r)) for r in st[1:]), ext))
        res.append('')
    hs = ['(H : Host K A n m0)'] + hyps(params, spec['kinds'], spec['bnd'])
    if spec['lo']:
        hs.append('{lo : Nat}')
    for k in kset:
        if k == P and not any(nm == 'p' for nm, _ in params):
            hs.append('{P : Word}')
    margs = model_args(params)
    ia = 'A n m0 g0 y0' + (' ' + ka if ka else '') + (' lo' if spec['lo'] else '')
    exitname = 'Text.' + names[pos[spec['exit']] + 1][0] if spec['exit'] else textname(loop_end[l])
    entry = 'Text.' + names[pos[l] + 1][0]
    stmt = 'theorem %s_sim {K : Machine} {A : Word} {n : Nat} {m0 : Memory} {g0 : Nat → Word} {y0 : Nat → V8} %s :' % (l, ' '.join(hs))
    res.append(wrap(stmt, '    '))
    res.append('    ∀ st s, %s_I %s st s →' % (l, ia))
    res.append('      Sim K (Asm.%s %s st) %s s (LoopPost (%s_I %s) (%s_J %s) %s %s) := by' % (l, margs, entry, l, ia, l, ia, entry, exitname))
    res.append('  have hn := H.hn')
    res.append('  rintro ⟨%s⟩ ⟨g, y, cf, zf, m⟩ ⟨hg, hy, E, %s, b_I⟩' % (
        ', '.join(['a'] + ['x' + r for r in st[1:]]), ', '.join('h_' + r for r in st[1:])))
    kinds = {}
    for r in st[1:]:
        kinds[r] = spec['kinds'][r]
    w = Walk(l)
    w.track_y = True
    w.gl, w.yl = gl, yl
    w.start_label = pos[l]
    w.yused = used_ymm(pos[l] + 1, loop_end[l])
    for nm, ty in params:
        if ty == 'Nat' and nm != 'n':
            kinds[nm] = spec['kinds'][nm]
            res.append('  replace h_%s := (hg %s rfl).trans h_%s' % (nm, nm, nm))
        if ty == 'V8':
            k = nm[3:]
            res.append('  obtain rfl := (hy %s rfl).trans hv%s' % (k, k))
    res.append('  unfold Asm.%s' % l)
    w.run(pos[l] + 1, kinds, set(), head=l)
    return '\n'.join(res + w.out) + '\n'


CALLER = '[rax, rcx, rdx, rsi, rdi, r8, r9, r10, r11]'


def gen_fun(f, tail=False):
    params, _, src = sigs[f]
    w = Walk(f)
    w.track_y = False
    w.gl = CALLER
    lo = pos[TAILS[f][0] if tail else f]
    nxts = [pos[q] for q in order if pos[q] > lo and q in FUNS]
    w.yused = used_ymm(lo, min(nxts) if nxts else len(prog))
    if tail:
        label, kinds = TAILS[f]
        hs = ['(H : Host K A n m0)'] + [h.replace('g0', 'g').replace('y0', 'y') for h in hyps([q for q in params], kinds, {})]
        margs = model_args(params)
        kinds = dict(kinds)
        vf = set()
    else:
        label = f
        kinds = {'rdi': A, 'rsi': N}
        hs = ['(H : Host K A n m0)', '(h_rdi : g rdi = A + BitVec.ofNat 64 0)', '(h_rsi : g rsi = BitVec.ofNat 64 n)']
        margs = 'a n'
        for nm, ty in params:
            if nm == 'p':
                hs.append('{P : Word} {p : Array Int} (TP : Tab K A n m0 P p) (h_rdx : g rdx = P + BitVec.ofNat 64 0)')
                kinds['rdx'] = P
                margs += ' p'
            if nm == 'b':
                hs.append('{B : Word} {b : Array Int} (TB : Src K A n m0 B b) (h_rdx : g rdx = B + BitVec.ofNat 64 0)')
                kinds['rdx'] = B
                margs += ' b'
            if nm == 'c':
                hs.append('{C : Word} {c : Array Int} (TC : Src K A n m0 C c) (h_rcx : g rcx = C + BitVec.ofNat 64 0)')
                kinds['rcx'] = C
                margs += ' c'
            if nm == 'rdx':
                hs.append('{w : Word} (h_rdx : g rdx = w)')
                kinds['rdx'] = W
                margs += ' w.toNat'
        vf = set()
    hs += ['{a : Array Int} {g0 : Nat → Word} {cf zf : Bool} {m : Memory}']
    hs += ['(hg : Agree %s g0 g)' % CALLER, '(E : Env A n m0 m a)']
    entry = 'Text.' + names[pos[label] + 1][0]
    stmt = 'theorem %s_sim {K : Machine} {A : Word} {n : Nat} {m0 : Memory} {g : Nat → Word} {y : Nat → V8} %s :' % (f, ' '.join(hs))
    res = [wrap(stmt, '    ')]
    res.append('    Sim K (Asm.%s %s) %s ⟨g, y, cf, zf, m⟩ (RetPost A n m0 g0) := by' % (f, margs, entry))
    res.append('  have hn := H.hn')
    if tail:
        for nm, ty in params:
            if ty == 'V8':
                res.append('  subst hv%s' % nm[3:])
    res.append('  unfold Asm.%s' % f)
    if tail and label in LOOPS:
        p = w.loop(label, kinds, vf)
    else:
        p = pos[label] + 1
    w.run(p, kinds, vf, head=None)
    return '\n'.join(res + w.out) + '\n'


def loops_of(f):
    """Loops and tails used by a function, inner ones first."""
    seen = []

    def visit(lo, hi):
        i = lo
        for j in range(lo, hi):
            m = re.match(r'\.label \.(\w+)$', prog[j])
            if m and m.group(1) in LOOPS and m.group(1) not in seen:
                seen.append(m.group(1))
    lo = pos[f]
    nxts = [pos[g] for g in order if pos[g] > lo and (g in FUNS)]
    hi = min(nxts) if nxts else len(prog)
    visit(lo, hi)
    # inner first: a loop whose span is contained in another comes before it
    seen.sort(key=lambda l: (loop_end[l] - pos[l]))
    return seen


def main():
    open(os.path.join(ROOT, 'Proofs/MachText.lean'), 'w').write(gen_text())
    for fn, funs in FILES:
        out = ['import Verif.Proofs.MachText', '', '/-', 'Execution of the text of src/ntt_asm.S follows the model.  Generated by tools/genmach.py.',
               '-/', '', 'namespace X86', 'open C Avx Spec', '']
        done = set()
        blks = []
        body = []
        for f in funs:
            todo = []
            for l in loops_of(f):
                if l not in done:
                    done.add(l)
                    todo.append(l)
            for l in todo:
                blks += [b for b in pairblks if re.match(re.escape(l) + r'_blk_\d+$', b)]
                body.append(gen_loop(l))
            blks += [b for b in pairblks if re.match(re.escape(f) + r'(_2)?_blk_\d+$', b)]
            for t in TAILS:
                if f == TAIL_AT[t][0]:
                    body.append(gen_fun(t, tail=True))
            body.append(gen_fun(f))
        out += body
        out += ['end X86', '']
        open(os.path.join(ROOT, 'Proofs/Mach%s.lean' % fn), 'w').write('\n'.join(out))


main()
