#!/usr/bin/env python3
"""From lean/Verif/Model/NttAsm.lean write
  lean/Verif/Model/AsmPoly.lean   the same functions over the operations `Ops` of Verif/TraceAsm.lean
  lean/Verif/Proofs/AsmPoly.lean  for each function: it is the function of NttAsm.lean for `plain`, and
                                  it preserves logical relations."""
import re, os
HERE = os.path.dirname(os.path.abspath(__file__))
L = os.path.join(HERE, '..', 'lean', 'Verif')
src = open(os.path.join(L, 'Model', 'NttAsm.lean')).read()

OPS = ['load_sxwq128', 'load_sxdq', 'load_sxwd', 'load_sxwq', 'load_bdcstw', 'load', 'store128', 'store']
defs = {}      # name -> list of (var, kind); kind in A (array), G (register), V (data), S (loop state)


def kind(ty, var):
    ty = ty.strip()
    if ty == 'Array Int':
        return 'A'
    if ty in ('V8', 'Int'):
        return 'V'
    if ty == 'Nat':
        return 'G'
    assert ty.startswith('Array Int ×'), (ty, var)
    return 'S'


def parse_sig(sig):
    """binders and result type"""
    i, bs = 0, []
    while True:
        while sig[i].isspace():
            i += 1
        if sig[i] == ':':
            break
        assert sig[i] == '(', sig[i:]
        d, j = 0, i
        while True:
            d += {'(': 1, ')': -1}.get(sig[j], 0)
            j += 1
            if d == 0:
                break
        inner = sig[i + 1:j - 1]
        names, ty = inner.split(':', 1)
        for n in names.split():
            bs.append((n, kind(ty, n), ty.strip()))
        i = j
    return bs, sig[i + 1:].strip()


def split_top(s):
    """split an application into words, keeping parentheses together"""
    out, d, cur = [], 0, ''
    for c in s:
        if c == ' ' and d == 0:
            if cur:
                out.append(cur)
            cur = ''
        else:
            d += {'(': 1, ')': -1}.get(c, 0)
            cur += c
    if cur:
        out.append(cur)
    return out


def proj(base, k, n):
    """component k of an n-tuple"""
    s = base
    for _ in range(k):
        s += '.2'
    return s + ('.1' if k < n - 1 else '')


def hyp(v):
    return 'h' + v


class Gen:
    def __init__(self, name, bs):
        self.kinds = {n: k for n, k, _ in bs}
        self.poly, self.proof = [], []

    def both(self, ind, poly, pind, proof):
        self.poly.append('  ' * ind + poly)
        for p in proof:
            self.proof.append('  ' * pind + p)

    def vec_pf(self, args):
        vs = [x for x in dict.fromkeys(re.findall(r'\b(?:ymm\d+|rdx)\b', args)) if self.kinds.get(x) == 'V']
        return 'fun h => by rw [' + ', '.join(f'{hyp(v)} h' for v in vs) + ']' if vs else 'fun _ => rfl'

    def gpr(self, ind, pind, v, e):
        self.kinds[v] = 'G'
        self.both(ind, f'let {v} ← pure ({e} : Nat)', pind, [f'refine L.bind (R := Eq) (L.pure rfl) ?_; rintro {v} _ rfl'])

    def vec(self, ind, pind, v, e, pf):
        self.kinds[v] = 'V'
        self.both(ind, f'let {v} ← pure ({e})', pind,
                  [f'refine L.bind (R := RE L.b) (L.pure ({pf})) ?_; intro {v} {v}\' {hyp(v)}'])

    def arr(self, ind, pind, v, e, pf):
        self.kinds[v] = 'A'
        self.both(ind, f'let {v} ← pure {e}', pind,
                  [f'refine L.bind (R := L.RA) (L.pure {pf}) ?_; intro {v} {v}\' {hyp(v)}'])

    def call_pf(self, words):
        f, args = words[0], words[1:]
        out = [f'{f}_rel L']
        for (n, k, _), a in zip(defs[f], args):
            if k == 'G':
                out.append(a if re.match(r'^[\w(]', a) else a)
            elif k in 'AV':
                out.append(hyp(a))
        return ' '.join(out)

    def stmts(self, lines, ind, pind):
        i = 0
        while i < len(lines):
            l = lines[i].strip()
            i += 1
            m = re.match(r'let \((.*)\) := s$', l)
            if m:
                vs = [x.strip() for x in m.group(1).split(',')]
                self.both(ind, '-- the state', pind, ['obtain ⟨a, g⟩ := s', "obtain ⟨a', g'⟩ := s'",
                          'obtain ⟨ha, hg⟩ := hs', "obtain rfl : g = g' := hg"])
                for k, v in enumerate(vs):
                    if k == 0:
                        self.arr(ind, pind, v, proj('s', 0, len(vs)), 'ha')
                    else:
                        self.gpr(ind, pind, v, proj('s', k, len(vs)))
                continue
            m = re.match(r'let (\w+) ← (\w+) (\w+) (.*)$', l)
            if m and m.group(2) in OPS:
                v, op, a, rest = m.groups()
                if op.startswith('store'):
                    w = split_top(rest)
                    self.kinds[v] = 'A'
                    self.both(ind, f'let {v} ← O.{op} {a} {rest}', pind,
                              [f'refine L.bind (L.{op} {hyp(a)} _ {hyp(w[1])}) ?_; intro {v} {v}\' {hyp(v)}'])
                else:
                    self.kinds[v] = 'V'
                    self.both(ind, f'let {v} ← O.{op} {a} {rest}', pind,
                              [f'refine L.bind (L.{op} {hyp(a)} _) ?_; intro {v} {v}\' {hyp(v)}'])
                continue
            m = re.match(r'let \((.*)\) ← jloop \((.*?)\) n \((.*)\)$', l)
            if m:
                vs = [x.strip() for x in m.group(1).split(',')]
                words = split_top(m.group(2))
                init = [x.strip() for x in m.group(3).split(',')]
                # number of components of the state is that of init
                n = len(init)
                self.both(ind, f'let st ← O.jloop ({words[0]} O {" ".join(words[1:])}) n ({m.group(3)})', pind, [
                    f'refine L.bind (L.jloop (R := RS L.RA) (fun s s\' hs => {self.call_pf(words)} hs) _ _ _ ⟨{hyp(init[0])}, rfl⟩) ?_',
                    'rintro ⟨a, st⟩ ⟨a\', st\'⟩ ⟨ha, he⟩', 'obtain rfl : st = st\' := he'])
                for k, v in enumerate(vs):
                    if v == '_':
                        continue
                    if k == 0:
                        self.arr(ind, pind, v, 'st.1', 'ha')
                    else:
                        self.gpr(ind, pind, v, proj('st', k, n))
                continue
            m = re.match(r'let \((.*)\) := (\w+_blk_\d+) (.*)$', l)
            if m:
                vs = [x.strip() for x in m.group(1).split(',')]
                self.vec(ind, pind, 't', f'Asm.{m.group(2)} {m.group(3)}', self.vec_pf(m.group(3)))
                for k, v in enumerate(vs):
                    self.vec(ind, pind, v, proj('t', k, len(vs)), 'fun h => by rw [ht h]')
                continue
            m = re.match(r'let (\w+) := (\w+_blk_\d+) (.*)$', l)
            if m:
                self.vec(ind, pind, m.group(1), f'Asm.{m.group(2)} {m.group(3)}', self.vec_pf(m.group(3)))
                continue
            m = re.match(r'let (ymm\d+) := (.*)$', l)
            if m:
                e = m.group(2)
                if e.startswith('vmovd'):
                    self.vec(ind, pind, m.group(1), e, self.vec_pf(e))
                else:
                    assert re.match(r'^\w+$', e), e
                    self.vec(ind, pind, m.group(1), f'Asm.{e}', 'fun _ => rfl')
                continue
            m = re.match(r'let (r\w+) := (.*)$', l)
            if m:
                self.gpr(ind, pind, m.group(1), m.group(2))
                continue
            m = re.match(r'if (.*) then (.*)$', l)
            if m:
                assert lines[i].strip() == 'else do', lines[i]
                self.both(ind, f'O.branch ({m.group(1)})', pind, ['refine L.branch _ ?_ ?_'])
                sv = dict(self.kinds)
                self.poly.append('  ' * (ind + 1) + '(do')
                np = len(self.proof)
                self.stmts([m.group(2)], ind + 2, pind + 1)
                self.proof[np] = '  ' * pind + '· ' + self.proof[np].strip()
                self.poly[-1] += ')'
                self.kinds = sv
                self.poly.append('  ' * (ind + 1) + '(do')
                np = len(self.proof)
                self.stmts(lines[i + 1:], ind + 2, pind + 1)
                self.proof[np] = '  ' * pind + '· ' + self.proof[np].strip()
                self.poly[-1] += ')'
                return
            m = re.match(r'pure (\(\((.*)\), (.*)\))$', l)
            if m:
                v = m.group(2).split(',')[0].strip()
                self.both(ind, f'pure ({"(" + m.group(2) + ")"}, {m.group(3)})', pind, [f'exact L.pure ⟨⟨{hyp(v)}, rfl⟩, rfl⟩'])
                assert i == len(lines)
                return
            m = re.match(r'pure (\w+)$', l)
            if m:
                if self.poly and self.poly[-1].startswith('  ' * ind + f'let {m.group(1)} ←'):
                    # the do notation contracts `let x ← e; pure x` to `e`
                    q = re.match(r'refine L\.bind (?:\(R := [^)]*\) )?\((.*)\) \?_; intro [^;]*$', self.proof[-1].strip())
                    self.proof[-1] = '  ' * pind + 'exact ' + q.group(1)
                    self.poly.append('  ' * ind + l)
                else:
                    self.both(ind, l, pind, [f'exact L.pure {hyp(m.group(1))}'])
                assert i == len(lines)
                return
            words = split_top(l)
            assert words[0] in defs, l
            self.both(ind, f'{words[0]} O {" ".join(words[1:])}', pind, [f'exact {self.call_pf(words)}'])
            assert i == len(lines)
            return


poly = ['''import Verif.TraceAsm
import Verif.Model.NttAsm

/-
The functions of src/ntt_asm.S over the operations of `Verif/TraceAsm.lean`.

Generated by tools/genasmtrace.py from `Verif/Model/NttAsm.lean`: the same lines, with loads, stores, loops and
branches replaced by those of `O`, and every other instruction written `let x ← pure ...`.  For the operations
`plain` the functions are those of `Verif/Model/NttAsm.lean` (`plain_eq` in `Verif/Proofs/AsmPoly.lean`).
-/

namespace AsmPoly
open C Avx TraceAsm

variable {m : Type → Type} [Monad m] {A : Type} (O : Ops m A)
''']
proofs = ['''import Verif.Proofs.AsmRel

/-
Generated by tools/genasmtrace.py.  For every function `f` of `Verif/Model/AsmPoly.lean`: `f_plain` says that it is
the function of `Verif/Model/NttAsm.lean` for the operations `plain`, and `f_rel` that it preserves the
relations of `Verif/Proofs/AsmRel.lean`.
-/

namespace AsmPoly
open C Avx TraceAsm
open Trace (Named)

section
variable {m m' : Type → Type} [Monad m] [Monad m'] {A A' : Type} {O : Ops m A} {O' : Ops m' A'}
  (L : LR O O')
''']
for part in re.split(r'\n(?=/--|/-!)', src):
    m = re.search(r'^def (\w+) (.*?):= do\n(.*)$', part, re.M | re.S)
    if not m:
        continue
    name, sig, body = m.groups()
    body = [l for l in body.split('\n') if l.strip() and not l.startswith('end')]
    bs, ret = parse_sig(sig)
    assert ret.startswith('M ')
    defs[name] = bs
    g = Gen(name, bs)
    g.stmts(body, 1, 1)
    doc = re.match(r'/--.*?-/', part, re.S).group(0)
    T = lambda t: t.replace('Array Int', 'A')
    poly.append(doc + f'\ndef {name} ' + ' '.join(f'({n} : {T(t)})' for n, _, t in bs) +
                f' : m {T(ret[2:])} := do\n' + '\n'.join(g.poly) + '\n')
    hs, l1, l2 = [], [], []
    for n, k, t in bs:
        if k == 'G':
            hs.append(f'({n} : Nat)'); l1.append(n); l2.append(n)
        elif k == 'A':
            hs.append(f"{{{n} : A}} {{{n}' : A'}} (h{n} : L.RA {n} {n}')"); l1.append(n); l2.append(n + "'")
        elif k == 'V':
            hs.append(f"{{{n} {n}' : {t}}} (h{n} : RE L.b {n} {n}')"); l1.append(n); l2.append(n + "'")
        else:
            t1 = t.replace('Array Int', 'A'); t2 = t.replace('Array Int', "A'")
            hs.append(f"{{{n} : {t1}}} {{{n}' : {t2}}} (h{n} : RS L.RA {n} {n}')"); l1.append(n); l2.append(n + "'")
    R = 'L.RA' if ret == 'M (Array Int)' else '(RSB L.RA)'
    proofs.append(f'theorem {name}_plain : {name} plain = Asm.{name} := rfl\n')
    proofs.append(f'theorem {name}_rel ' + ' '.join(hs) + f' :\n    L.Rel {R} ({name} O {" ".join(l1)}) ({name} O\' {" ".join(l2)}) := by\n  unfold {name}\n' +
                  '\n'.join(x for x in g.proof) + '\n')
proofs.append('end\n')
for name, bs in defs.items():
    if not re.search(r'_asm2?$', name):
        continue
    b, b2, hyps = [], [], []
    e1, e2, s1, s2, ea, sa = [], [], [], [], [], []
    for n, k, t in bs:
        if k == 'G':
            b.append(f'({n} : Nat)'); b2.append(f'({n} : Nat)')
            e1.append(n); e2.append(n); s1.append(n); s2.append(n); ea.append(n); sa.append(n)
        elif k == 'A':
            b.append(f'({n} : Named Int)'); b2.append(f"{{{n} {n}' : Named Int}} (h{n} : {n}.name = {n}'.name)")
            e1.append(n); e2.append(n + '.data'); s1.append(n); s2.append(n + "'")
            ea.append(f'({n} := {n}) rfl'); sa.append('h' + n)
        else:
            b.append(f'({n} : {t})'); b2.append(f"({n} {n}' : {t})")
            e1.append(n); e2.append(n); s1.append(n); s2.append(n + "'")
            ea.append(f'({n} := {n}) (fun _ => rfl)'); sa.append('(fun h => nomatch h)')
    proofs.append(f"""theorem {name}_er {' '.join(b)} :
    ErP (fun x y => x.data = y) ({name} traced {' '.join(e1)}) (Asm.{name} {' '.join(e2)}) := by
  have := {name}_rel erL {' '.join(ea)}
  rw [{name}_plain] at this
  exact this

theorem {name}_sm {' '.join(b2)} :
    SmP (fun x y => x.name = y.name) ({name} traced {' '.join(s1)}) ({name} traced {' '.join(s2)}) :=
  {name}_rel smL {' '.join(sa)}
""")
poly.append('end AsmPoly\n')
proofs.append('end AsmPoly\n')
open(os.path.join(L, 'Model', 'AsmPoly.lean'), 'w').write('\n'.join(poly))
open(os.path.join(L, 'Proofs', 'AsmPoly.lean'), 'w').write('\n'.join(proofs))

# ---- the products -------------------------------------------------------------------------------------------
src = open(os.path.join(L, 'Model', 'AsmProducts.lean')).read()
poly = ['''import Verif.Model.AsmPoly
import Verif.Model.AsmProducts

/-
The products of src/ntt_red_asm16.c, src/ntt_red_asm256.c, src/ntt_red_asm512.c and src/ntt_red_asm1024.c over
the operations of `Verif/TraceAsm.lean`.  `tab` makes an array from the name of a table and its contents.

Generated by tools/genasmtrace.py from `Verif/Model/AsmProducts.lean`.
-/

namespace AsmPoly
open C Tables TraceAsm
open Trace (Named)

/-- A table under its name. -/
def nameTable (name : String) (p : Array Int) : Named Int := ⟨name, p⟩

section
variable {m : Type → Type} [Monad m] {A : Type} (O : Ops m A) (tab : String → Array Int → A) (t : RedTables)
  (n : Nat)
''']
proofs = ['''import Verif.Proofs.AsmPoly
import Verif.Model.AsmPolyProducts

/-
Generated by tools/genasmtrace.py: as `Verif/Proofs/AsmPoly.lean`, for the products.
-/

namespace AsmPoly
open C Tables TraceAsm
open Trace (Named)

/-- Triples of arrays. -/
def R3 {A A' : Type} (R : A → A' → Prop) (x : A × A × A) (y : A' × A' × A') : Prop :=
  R x.1 y.1 ∧ R x.2.1 y.2.1 ∧ R x.2.2 y.2.2

section
variable {m m' : Type → Type} [Monad m] [Monad m'] {A A' : Type} {O : Ops m A} {O' : Ops m' A'}
  (L : LR O O') {tab : String → Array Int → A} {tab' : String → Array Int → A'}
  (htab : ∀ s {p p' : Array Int}, RE L.b p p' → L.RA (tab s p) (tab' s p')) {t t' : RedTables}
  (ht : RE L.b t t') (n : Nat)
include htab ht
''']
wr = set()
TBL = r't\.(\w+)'
for part in re.split(r'\n(?=/--|/-!)', src):
    m = re.search(r'^def (\w+) (.*?):=(?: do)?\n(.*)$', part, re.M | re.S)
    if not m:
        continue
    name, sig, body = m.groups()
    doc = re.match(r'/--.*?-/', part, re.S).group(0)
    body = [l.strip() for l in body.split('\n') if l.strip() and not l.startswith('end')]
    if name == 'shiftInput':
        poly.append(doc + '''
def shiftInput (sh : Bool) (a : A) : m A := if sh then shift_array_asm O a n else pure a
''')
        proofs.append('''omit htab ht in
theorem shiftInput_rel (sh : Bool) {a : A} {a' : A'} (ha : L.RA a a') :
    L.Rel L.RA (shiftInput O n sh a) (shiftInput O' n sh a') := by
  unfold shiftInput
  cases sh with
  | false => exact L.pure ha
  | true => exact shift_array_asm_rel L ha n
''')
        continue
    if not name.startswith('product'):
        wr.add(name)
        m = re.match(r'(\w+) a n t\.(\w+)$', body[0])
        f, tb = m.groups()
        poly.append(doc + f'\ndef {name} (a : A) : m A := {f} O a n (tab "{tb}" t.{tb})\n')
        proofs.append(f'''theorem {name}_rel {{a : A}} {{a' : A'}} (ha : L.RA a a') :
    L.Rel L.RA ({name} O tab t n a) ({name} O' tab' t' n a') :=
  {f}_rel L ha n (htab _ fun h => by rw [ht h])
''')
        continue
    up = '(up : Int) ' if 'up' in sig else ''
    sh = '(sh : Bool) ' if 'sh' in sig else ''
    ps, pr = [], []
    for l in body[:-1]:
        v, e = re.match(r'let (\w) ← (.*)$', l).groups()
        w = split_top(e)
        pf = None
        if w[0] == 'shiftInput':
            ne, pf = f'shiftInput O n sh {v}', f'shiftInput_rel L n sh h{v}'
        elif w[0] in wr:
            assert w[1:] == ['t', 'n', v]
            ne, pf = f'{w[0]} O tab t n {v}', f'{w[0]}_rel L htab ht n h{v}'
        elif w[0] == 'mul_reduce_array16_asm':
            tb = w[3][2:]
            ne, pf = f'{w[0]} O {v} n (tab "{tb}" t.{tb})', f'{w[0]}_rel L h{v} n (htab _ fun h => by rw [ht h])'
        elif w[0] == 'mul_reduce_array_asm':
            ne, pf = f'{w[0]} O {" ".join(w[1:])}', f'{w[0]}_rel L hc n ha hb'
        elif w[0] == 'scalar_mul_reduce_array_asm':
            ne, pf = f'{w[0]} O {" ".join(w[1:])}', f'{w[0]}_rel L hc n (fun h => by rw [ht h, hup h])'
        else:
            assert w[1:] == [v, 'n'], l
            ne, pf = f'{w[0]} O {v} n', f'{w[0]}_rel L h{v} n'
        ps.append(f'  let {v} ← {ne}')
        pr.append(f"  refine L.bind ({pf}) ?_; intro {v} {v}' h{v}")
    assert body[-1] == 'pure (c, a, b)'
    poly.append(doc + f'\ndef {name} {up}{sh}(c a b : A) : m (A × A × A) := do\n' + '\n'.join(ps) + '\n  pure (c, a, b)\n')
    u, s = ('up ' if up else ''), ('sh ' if sh else '')
    rup, u2 = ("{up up' : Int} (hup : RE L.b up up') ", "up' ") if up else ('', '')
    proofs.append(f"theorem {name}_rel {rup}{sh}{{c a b : A}} {{c' a' b' : A'}} (hc : L.RA c c') (ha : L.RA a a') (hb : L.RA b b') :\n"
                  f"    L.Rel (R3 L.RA) ({name} O tab t n {u}{s}c a b) ({name} O' tab' t' n {u2}{s}c' a' b') := by\n  unfold {name}\n"
                  + '\n'.join(pr) + '\n  exact L.pure ⟨hc, ha, hb⟩\n')
proofs.append('end\n')
for name in ['product1', 'product1_1024', 'product2', 'product3', 'product4', 'product5']:
    u, u2, uh, us = ('(up : Int) ', '(up up\' : Int) ', ' (up := up) (fun _ => rfl)', ' (fun h => nomatch h)') if name == 'product5' else [''] * 4
    x, x2 = ('up ', "up' ") if u else ('', '')
    s, ss = ('', '') if name == 'product1_1024' else ('(sh : Bool) ', 'sh ')
    proofs.append(f'''theorem {name}_plain : {name} plain (fun _ p => p) = AsmProducts.{name} := rfl

theorem {name}_er (t : RedTables) (n : Nat) {u}{s}(c a b : Named Int) :
    ErP (R3 fun x y => x.data = y) ({name} traced nameTable t n {x}{ss}c a b)
      (AsmProducts.{name} t n {x}{ss}c.data a.data b.data) := by
  have := {name}_rel erL (tab := nameTable) (tab' := fun _ p => p) (fun _ _ _ h => h rfl) (t := t) (fun _ => rfl)
    n{uh} {ss}(c := c) (a := a) (b := b) rfl rfl rfl
  rw [{name}_plain] at this
  exact this

theorem {name}_sm (t t' : RedTables) (n : Nat) {u2}{s}{{c a b c' a' b' : Named Int}} (hc : c.name = c'.name)
    (ha : a.name = a'.name) (hb : b.name = b'.name) :
    SmP (R3 fun x y => x.name = y.name) ({name} traced nameTable t n {x}{ss}c a b)
      ({name} traced nameTable t' n {x2}{ss}c' a' b') :=
  {name}_rel smL (tab := nameTable) (tab' := nameTable) (fun _ _ _ _ => rfl) (fun h => nomatch h)
    n{us} {ss}hc ha hb
''')
poly.append('end\nend AsmPoly\n')
proofs.append('end AsmPoly\n')
open(os.path.join(L, 'Model', 'AsmPolyProducts.lean'), 'w').write('\n'.join(poly))
open(os.path.join(L, 'Proofs', 'AsmPolyProducts.lean'), 'w').write('\n'.join(proofs))
