#!/usr/bin/env python3
"""From lean/Verif/Model/AsmPoly.lean and lean/Verif/Model/AsmPolyProducts.lean write lean/Verif/Proofs/SharedAsm.lean:
for each function f, the simulation `f_sim` between the function on array values and the function on references."""
import re, os
HERE = os.path.dirname(os.path.abspath(__file__))
L = os.path.join(HERE, '..', 'lean', 'Verif')
src = open(os.path.join(L, 'Model', 'AsmPoly.lean')).read()
out = ['''import Verif.Proofs.SharedAsmRules

/-
Generated by tools/genasmshared.py.  For every function `f` of `Verif/Model/AsmPoly.lean` and
`Verif/Model/AsmPolyProducts.lean`: `f_sim` says that the function on references does what the function on array
values does (see `Verif/Proofs/SharedRules.lean`).  `mul_reduce_array_asm` is in `Verif/Proofs/SharedAsmRules.lean`.
-/

namespace Shared.Asm
open C Avx TraceAsm AsmPoly Tables

variable {S W : Ref → Prop} {μ : Mem} {h : Ref}
''']
hasp = {}


def call(f):
    return f'{f}_sim hW' + (' hp hne' if hasp[f] else '')


def emit(lines, ind, pf):
    """lines: list of stripped statements (nested lists for branches)"""
    for i, l in enumerate(lines):
        P = lambda x: pf.append('  ' * ind + x)
        last = i + 2 == len(lines) and re.match(r'pure (\w+)$', lines[-1] if isinstance(lines[-1], str) else '') \
            and re.match(r'let ' + lines[-1].split()[1] + r' ←', l if isinstance(l, str) else '')
        if l == '-- the state':
            continue
        m = re.match(r'let (\w+) ← pure (.*)$', l)
        if m:
            if m.group(1) == 'a':
                if last:
                    P('exact Sim.pure ⟨rfl, rfl⟩')
                    return
                P('refine Sim.next (Sim.pure ⟨rfl, rfl⟩) fun a => ?_')
            else:
                P(f'refine Sim.val (Sim.pure ⟨rfl, rfl⟩) fun {m.group(1)} => ?_')
            continue
        m = re.match(r'let (\w+) ← O\.(load\w*) (\w+) ', l)
        if m:
            v, op, a = m.groups()
            if a == 'a':
                P(f'refine Sim.val (Sim.a{op} hW _) fun {v} => ?_')
            else:
                P(f'refine Sim.val (Sim.p{op} hp hne _) fun {v} => ?_')
            continue
        m = re.match(r'let (\w+) ← O\.(store\w*) (\w+) ', l)
        if m:
            v, op, a = m.groups()
            assert v == a == 'a'
            if last:
                P(f'exact Sim.a{op} hW _ _')
                return
            P(f'refine Sim.next (Sim.a{op} hW _ _) fun a => ?_')
            continue
        m = re.match(r'let st ← O\.jloop \((\w+) O', l)
        if m:
            P(f'refine Sim.nextS (Sim.jloop fun v g => {call(m.group(1))}) fun a st => ?_')
            continue
        m = re.match(r'O\.branch', l)
        if m:
            P('refine Sim.branch _ ?_ ?_')
            for sub in lines[i + 1]:
                n = len(pf)
                emit(sub, ind + 1, pf)
                pf[n] = '  ' * ind + '· ' + pf[n].strip()
            return
        if re.match(r'pure ', l):
            P('exact Sim.pure ⟨rfl, rfl⟩')
            return
        m = re.match(r'(\w+) O ', l)
        assert m and m.group(1) in hasp, l
        P('exact ' + call(m.group(1)))
        return


def parse(body):
    """body lines -> nested statements"""
    res, i = [], 0
    lines = body.split('\n')
    while i < len(lines):
        l = lines[i].rstrip()
        if not l.strip():
            i += 1
            continue
        if l.strip().startswith('O.branch'):
            res.append(l.strip())
            subs, i = [], i + 1
            for _ in range(2):
                assert lines[i].strip() == '(do', lines[i]
                d, sub = 1, []
                i += 1
                while True:
                    t = lines[i].rstrip()
                    d += t.count('(') - t.count(')')
                    i += 1
                    if d == 0:
                        sub.append(t[:-1])
                        break
                    sub.append(t)
                subs.append(parse('\n'.join(sub)))
            res.append(subs)
            continue
        res.append(l.strip())
        i += 1
    return res


for part in re.split(r'\n(?=/--)', src):
    m = re.search(r'^def (\w+) (.*?) : m \((.*)\) := do\n(.*)$', part, re.M | re.S)
    if not m:
        continue
    name, sig, ret, body = m.groups()
    body = body.split('\nend ')[0]
    if name in ('loop5', 'mul_reduce_array_asm'):
        continue
    bs = re.findall(r'\((\w+) : ([^()]*)\)', sig)
    hasp[name] = any(n == 'p' for n, _ in bs)
    binders, l1, l2 = [], [], []
    for n, t in bs:
        if n == 'p':
            l1.append('(μ p)'); l2.append('p')
        elif t == 'A':
            assert n == 'a'
            binders.append('{v : Array Int}'); l1.append('v'); l2.append('h')
        elif t.startswith('A ×'):
            binders.append('{v : Array Int} {g : ' + t[3:].strip() + '}'); l1.append('(v, g)'); l2.append('(h, g)')
        else:
            binders.append(f'{{{n} : {t}}}'); l1.append(n); l2.append(n)
    pre = '(hW : W h)' + (' {p : Ref} (hp : S p) (hne : p ≠ h)' if hasp[name] else '')
    Q = 'Post' if ret == 'A' else 'PostSB'
    pf = []
    emit(parse(body), 1, pf)
    out.append(f'theorem {name}_sim {pre} {" ".join(binders)} :\n    Sim S W (upd μ h v) ({Q} μ h) ({name} plain {" ".join(l1)})\n'
               f'      ({name} shared {" ".join(l2)}) := by\n  unfold {name}\n' + '\n'.join(pf) + '\n')

# ---- products -----------------------------------------------------------------------------------------------
src = open(os.path.join(L, 'Model', 'AsmPolyProducts.lean')).read()
out.append('''/-- The tables of a function on references. -/
abbrev refTab (tb : String → Ref) (x : String) (_ : Array Int) : Ref := tb x

/-- The tables of a function on array values. -/
abbrev valTab (_ : String) (p : Array Int) : Array Int := p
''')
wr = set()
for part in re.split(r'\n(?=/--)', src):
    m = re.search(r'^def (\w+) (.*?) : m (.*?) := (.*)$', part, re.M | re.S)
    if not m:
        continue
    name, sig, ret, body = m.groups()
    if name == 'shiftInput':
        out.append('''theorem shiftInput_sim (hW : W h) (n : Nat) (sh : Bool) (v : Array Int) :
    Sim S W (upd μ h v) (Post μ h) (shiftInput plain n sh v) (shiftInput shared n sh h) := by
  unfold shiftInput
  cases sh with
  | false => exact Sim.pure ⟨rfl, rfl⟩
  | true => exact shift_array_asm_sim hW
''')
        continue
    if not name.startswith('product'):
        f, tb = re.match(r'(\w+) O a n \(tab "(\w+)"', body).groups()
        wr.add(name)
        out.append(f'''theorem {name}_sim {{t : RedTables}} {{tb : String → Ref}} (hW : W h) (hS : ∀ x ∈ tableNames, S (tb x))
    (hT : Fresh tb h) (htb : RedTablesAt μ tb t) (n : Nat) (v : Array Int) :
    Sim S W (upd μ h v) (Post μ h) ({name} plain valTab t n v) ({name} shared (refTab tb) t n h) := by
  unfold {name} valTab refTab
  rw [← htb.{tb}]
  exact {f}_sim hW (hS _ (by decide)) (hT _ (by decide))
''')
        continue
    up = '{up : Int} ' if 'up' in sig else ''
    sh = '{sh : Bool} ' if 'sh' in sig else ''
    u, s = ('up ' if up else ''), ('sh ' if sh else '')
    lines = [l.strip() for l in body.split('\n') if l.strip().startswith('let')]
    pf = ['have fr0 : ∀ k, k ≠ c → k ≠ a → k ≠ b → μ k = μ k := fun _ _ _ _ => rfl']
    done = False
    for i, l in enumerate(lines):
        x, f = re.match(r'let (\w) ← (\w+) ', l).groups()
        j = i + 1
        if f == 'mul_reduce_array_asm':
            done = True
            pf.append(f'refine Sim.stepMul (mul_reduce_array_asm_sim hWa hWb hWc hn h0 ea eb hvc hc) fun vc m{j} ec ne sz => ?_')
            pf.append('have htb := htb.frame hTc ne')
            for y in 'ab':
                pf.append(f'have e{y} : {y} ≠ c → m{j} {y} = _ := fun h => (ne {y} h).trans e{y}')
        else:
            if f == 'shiftInput':
                h = f'shiftInput_sim hW{x} _ _ _'
            elif f in wr:
                h = f'{f}_sim hW{x} hS hT{x} htb _ _'
            elif f == 'mul_reduce_array16_asm':
                tb = re.search(r'tab "(\w+)"', l).group(1)
                h = f'by unfold valTab refTab; rw [← htb.{tb}]; exact {f}_sim hW{x} (hS _ (by decide)) (hT{x} _ (by decide))'
            else:
                h = f'{f}_sim hW{x}'
            pf.append(f'refine Sim.step e{x} ({h}) fun v{x} m{j} e{x} ne sz => ?_')
            pf.append(f'have htb := htb.frame hT{x} ne')
            if not done:
                y = 'b' if x == 'a' else 'a'
                pf.append(f'have e{y} := (ne {y} {"hab.symm" if y == "b" else "hab"}).trans e{y}')
                pf.append('have hc := (sz c).trans hc')
            else:
                for y in 'ab':
                    pf.append(f'have e{y} : {y} ≠ c → m{j} {y} = _ := fun h => (ne {y} h).trans (e{y} h)')
        hx = {'a': 'h2', 'b': 'h3', 'c': 'h1'}[x]
        pf.append(f'have fr{j} : ∀ k, k ≠ c → k ≠ a → k ≠ b → m{j} k = μ k := fun k h1 h2 h3 => (ne k {hx}).trans (fr{i} k h1 h2 h3)')
    pf.append(f'exact Sim.pure ⟨rfl, ec, ea, eb, fr{len(lines)}⟩')
    out.append(f'''theorem {name}_sim {{t : RedTables}} {{tb : String → Ref}} {{a b c : Ref}} (hWa : W a) (hWb : W b) (hWc : W c)
    (hS : ∀ x ∈ tableNames, S (tb x)) (hTa : Fresh tb a) (hTb : Fresh tb b) (hTc : Fresh tb c) (hab : a ≠ b)
    {{n : Nat}} {up}{sh}(hn : 8 ∣ n) (h0 : 0 < n) {{va vb vc : Array Int}} (htb : RedTablesAt μ tb t) (ea : μ a = va)
    (eb : μ b = vb) (hvc : vc.size = n) (hc : (μ c).size = n) :
    Sim S W μ (ProductPost μ c a b) ({name} plain valTab t n {u}{s}vc va vb)
      ({name} shared (refTab tb) t n {u}{s}c a b) := by
  unfold {name}
''' + '\n'.join('  ' + p for p in pf) + '\n')
out.append('end Shared.Asm\n')
open(os.path.join(L, 'Proofs', 'SharedAsm.lean'), 'w').write('\n'.join(out))
