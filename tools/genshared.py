#!/usr/bin/env python3
"""From lean/Verif/Model/Traced.lean write lean/Verif/Model/Shared.lean: the same functions on references to
arrays in a shared memory (Verif/Shared.lean)."""
import re, os
HERE = os.path.dirname(os.path.abspath(__file__))
L = os.path.join(HERE, '..', 'lean', 'Verif')
s = open(os.path.join(L, 'Model', 'Traced.lean')).read()
i = s.index('namespace Traced')
head = '''import Verif.Shared
import Verif.Model.Products
import Verif.Model.RedProducts
import Verif.Model.Naive

/-
The functions of src/ntt.c, src/ntt_red.c, src/naive_ntt.c and the products, on references to arrays in a shared
memory.

Every definition is the definition of the same name in `Verif/Model/{Skeleton,Ntt,NttRed,Naive,
Products,RedProducts}.lean`, written with the accesses of `Verif/Shared.lean`; the comments cite the lines of
the C code.  `tb` gives the reference to each table.  Generated by tools/genshared.py.
-/

'''
b = s[i:]
b = b.replace('Traced', 'Shared').replace('open C Trace Tables', 'open C Tables')
b = b.replace('variable {α τ : Type}\n', '')
b = b.replace('{α : Type} ', '')
b = b.replace('(p : Named (Nat × Nat))', '(p : Array (Nat × Nat))').replace('let jk ← trd p i', 'let jk ← rd p i')
b = b.replace('⟨"', '(tb "')
b = re.sub(r'\(tb "(\w+)", t\.\w+⟩', r'(tb "\1")', b)
b = re.sub(r'Named (α|τ|Int)', 'Ref', b)
b = b.replace('τ →', 'Int →')
b = b.replace('TM (Ref)', 'Prog Ref').replace('TM (', 'Prog (')
b = re.sub(r'\bt(rd|wr|forUp|forShl|forShr)\b', r'p\1', b)
b = b.replace(', for `c` distinct from `a` and `b`', '')
b = re.sub(r'variable \(t : (\w+)\) \(n : Nat\)', r'variable (t : \1) (tb : String → Ref) (n : Nat)', b)
b = re.sub(r'((?:fwd|intt|fwdmul|inttmul)_\w+) t n', r'\1 tb n', b)
open(os.path.join(L, 'Model', 'Shared.lean'), 'w').write(head + b)

# Proofs/SharedSkeleton.lean and Proofs/Shared.lean, from the proofs for traces
s = open(os.path.join(L, 'Proofs', 'TraceSkeleton.lean')).read()
sk='''import Verif.Proofs.SharedRules

/-
The loop nests on references to arrays simulate the loop nests on arrays.  Written by tools/genshared.py.
-/

namespace Shared
open C

section
variable {S W : Ref → Prop} {μ : Mem} {h p : Ref}
  {bf0 : Nat → Nat → Ref → Prog Ref} {bf0' : Nat → Nat → Array Int → M (Array Int)}
  {bf : Int → Nat → Nat → Ref → Prog Ref} {bf' : Int → Nat → Nat → Array Int → M (Array Int)}
  (h0 : ∀ s k v, Sim S W (upd μ h v) (Post μ h) (bf0' s k v) (bf0 s k h))
  (h1 : ∀ w s k v, Sim S W (upd μ h v) (Post μ h) (bf' w s k v) (bf w s k h))
  (hp : S p) (hne : p ≠ h)

'''
body={
'roundA':'''  refine Sim.next (Sim.up fun _ v => h0 _ _ v) fun v => ?_
  exact Sim.up fun _ v => Sim.val (Sim.rdRo hp hne _) fun _ => Sim.up fun _ v => h1 _ _ _ v
''',
'roundAMul':'''  exact Sim.up fun _ v => Sim.val (Sim.rdRo hp hne _) fun _ => Sim.up fun _ v => h1 _ _ _ v
''',
'roundBCt':'''  refine Sim.next (Sim.up fun _ v => h0 _ _ v) fun v => ?_
  exact Sim.up2 fun _ _ v => Sim.val (Sim.rdRo hp hne _) fun _ =>
    Sim.next (Sim.up fun _ v => h1 _ _ _ v) fun _ => Sim.pure ⟨rfl, rfl, rfl⟩
''',
'roundBMul':'''  exact Sim.up2 fun _ _ v => Sim.val (Sim.rdRo hp hne _) fun _ =>
    Sim.next (Sim.up fun _ v => h1 _ _ _ v) fun _ => Sim.pure ⟨rfl, rfl, rfl⟩
''',
'ctRev2std':'''  exact Sim.shl fun _ v => roundA_sim h0 h1 hp hne _ _ v
''',
'mulCtRev2std':'''  exact Sim.shl fun _ v => roundAMul_sim h1 hp hne _ _ v
''',
'gsStd2rev':'''  exact Sim.shr fun _ v => roundA_sim h0 h1 hp hne _ _ v
''',
'gsMulStd2rev':'''  exact Sim.shr fun _ v => roundAMul_sim h1 hp hne _ _ v
''',
'ctStd2rev':'''  exact Sim.shl2 fun _ _ v => Sim.next (roundBCt_sim h0 h1 hp hne _ _ v) fun _ => Sim.pure ⟨rfl, rfl, rfl⟩
''',
'mulCtStd2rev':'''  exact Sim.shl2 fun _ _ v => Sim.next (roundBMul_sim h1 hp hne _ _ v) fun _ => Sim.pure ⟨rfl, rfl, rfl⟩
''',
'gsRev2std':'''  exact Sim.shl2 fun _ _ v => Sim.next (roundBGs_sim h0 h1 hp hne _ _ v) fun _ => Sim.pure ⟨rfl, rfl, rfl⟩
''',
'gsMulRev2std':'''  exact Sim.shl2 fun _ _ v => Sim.next (roundBMul_sim h1 hp hne _ _ v) fun _ => Sim.pure ⟨rfl, rfl, rfl⟩
''',
'ctRev2stdV1':'''  exact Sim.shl2 fun _ _ v => Sim.next (Sim.up fun _ v => h0 _ _ v) fun v =>
    Sim.next (Sim.up fun _ v => Sim.val (Sim.rdRo hp hne _) fun _ => Sim.up fun _ v => h1 _ _ _ v) fun _ =>
      Sim.pure ⟨rfl, rfl, rfl⟩
''',
}
body['roundBGs']=body['roundBCt']
ths=re.findall(r'include ((?:h0 )?h1) in\ntheorem (\w+)_er (.*?) \{p : Named τ\}.*?\n    Er D \((.*?)\) \((.*?)\) := by',s)
for inc,nm,args,l,r in ths:
    l=re.sub(r'\ba\b','h',l)
    r=re.sub(r"a'(?!\w)",'v',r).replace("p'",'(μ p)')
    sk+=f'include {inc} hp hne in\ntheorem {nm}_sim {args} (v : Array Int) :\n    Sim S W (upd μ h v) (Post μ h) ({r}) ({l}) := by\n  unfold {nm} NTT.{nm}\n{body[nm]}\n'
sk+='end\n\nend Shared\n'
open(os.path.join(L, 'Proofs', 'SharedSkeleton.lean'), 'w').write(sk)
t = open(os.path.join(L, 'Proofs', 'Trace.lean')).read()
t = t[t.index('namespace Traced'):]
out = '''import Verif.Proofs.SharedMul

/-
Every function on references to arrays simulates the function on arrays.  Written by tools/genshared.py.
-/

namespace Shared
open C

variable {S W : Ref → Prop} {μ : Mem}

'''
ns = None
for blk in re.split(r'\n(?=theorem |namespace |end )', t):
    m = re.match(r'namespace (\w+)', blk)
    if m and m.group(1) != 'Traced':
        ns = m.group(1)
        out += f'namespace {ns}\n\n'
        continue
    m = re.match(r'end (\w+)', blk)
    if m and m.group(1) != 'Traced':
        out += f'end {ns}\n\n'
        continue
    m = re.match(r'theorem (\w+)_er (.*?) :\n    Er (D|D3) \((.*?)\) \((.*?)\) := by\n(.*)', blk, re.S)
    if not m:
        continue
    f, args, _, lhs, rhs, body = m.groups()
    args = args.replace('{α : Type} ', '').replace('Named α', 'Named Int')
    args = re.findall(r'\((\w+) : ([^()]*(?:\([^()]*\))?[^()]*)\)', args)
    lines = [l.strip() for l in body.strip().split('\n')]
    refs = [a for a, ty in args if ty == 'Named Int']
    others = [(a, ty) for a, ty in args if ty != 'Named Int']
    res = []
    if f.startswith('product'):
        T = dict(args)['t']
        TA = 'TablesAt' if 'Ntt' in T else 'RedTablesAt'
        sh = ' sh' if ns == 'NttRed' else ''
        shb = ' (sh : Bool)' if ns == 'NttRed' else ''
        tt = 't ' if f == 'product5' else ''
        res.append(f'theorem {f}_sim {{t : {T}}} {{tb : String → Ref}} {{a b c : Ref}} (hWa : W a) (hWb : W b) (hWc : W c)')
        res.append(f'    (hS : ∀ x ∈ tableNames, S (tb x)) (hTa : Fresh tb a) (hTb : Fresh tb b) (hTc : Fresh tb c) (hab : a ≠ b)')
        res.append(f'    {{n : Nat}}{shb} (hn : n < 2 ^ 32) {{va vb vc : Array Int}} (htb : {TA} μ tb t) (ea : μ a = va) (eb : μ b = vb)')
        res.append(f'    (hvc : vc.size = n) (hc : (μ c).size = n) :')
        res.append(f'    Sim S W μ (ProductPost μ c a b) (_root_.{ns}.{f} t n{sh} vc va vb) ({f} {tt}tb n{sh} c a b) := by')
        res.append(f'  unfold {f} _root_.{ns}.{f}')
        res.append('  have fr0 : ∀ k, k ≠ c → k ≠ a → k ≠ b → μ k = μ k := fun _ _ _ _ => rfl')
        prev = 'μ'; k = 0; after = False
        for l in lines[1:]:
            mm = re.match(r'refine Er.bind \((\w+)_er (.*?)\) \?_; rintro (\w) _ rfl', l)
            if not mm:
                assert l == 'exact Er.pure ⟨rfl, rfl, rfl⟩', l
                ea = 'ea' if after else 'fun _ => ea'
                eb = 'eb' if after else 'fun _ => eb'
                res.append(f'  exact Sim.pure ⟨rfl, ec, {ea}, {eb}, fr{k}⟩')
                continue
            g, _, x = mm.groups()
            k += 1
            mem = f'm{k}'
            if g in ('mul_array', 'mul_reduce_array'):
                res.append(f'  refine Sim.stepMul ({g}_sim hWa hWb hWc hn ea eb hvc hc) fun vc {mem} ec ne sz => ?_')
                res.append(f'  have htb := htb.frame hTc ne')
                res.append(f'  have ea : a ≠ c → {mem} a = _ := fun h => (ne a h).trans ea')
                res.append(f'  have eb : b ≠ c → {mem} b = _ := fun h => (ne b h).trans eb')
                res.append(f'  have fr{k} : ∀ k, k ≠ c → k ≠ a → k ≠ b → {mem} k = μ k := fun k h1 h2 h3 => (ne k h1).trans (fr{k-1} k h1 h2 h3)')
                after = True
                continue
            H = 'hW' + x
            if g.startswith(('mul_array16', 'mul_reduce_array16')):
                arg = f'(by tabs htb; exact {g}_sim {H} (hS _ (by decide)) (hT{x} _ (by decide)) _ _' + (' _' if ns == 'Naive' else '') + ')'
            elif re.match(r'(fwd|intt|fwdmul|inttmul)_', g):
                arg = f'({g}_sim {H} hS hT{x} htb _ _)'
            elif g == 'shiftInput':
                arg = f'(shiftInput_sim {H} _ _ _)'
            elif g.startswith('scalar'):
                arg = f'({g}_sim {H} _ _' + (' _' if ns == 'Naive' else '') + ' _)'
            else:
                arg = f'({g}_sim {H} _ _)'
            res.append(f'  refine Sim.step e{x} {arg} fun v{x} {mem} e{x} ne sz => ?_')
            res.append(f'  have htb := htb.frame hT{x} ne')
            if after:
                res.append(f'  have ea : a ≠ c → {mem} a = _ := fun h => (ne a h).trans (ea h)')
                res.append(f'  have eb : b ≠ c → {mem} b = _ := fun h => (ne b h).trans (eb h)')
            else:
                y, h = ('b', 'hab.symm') if x == 'a' else ('a', 'hab')
                res.append(f'  have e{y} := (ne {y} {h}).trans e{y}')
                res.append(f'  have hc := (sz c).trans hc')
            pos = {'c': 'h1', 'a': 'h2', 'b': 'h3'}[x]
            res.append(f'  have fr{k} : ∀ k, k ≠ c → k ≠ a → k ≠ b → {mem} k = μ k := fun k h1 h2 h3 => (ne k {pos}).trans (fr{k-1} k h1 h2 h3)')
        out += '\n'.join(res) + '\n\n'
        continue
    if f in ('mul_array', 'mul_reduce_array'):
        q = ' (q : Int)' if ns == 'Naive' else ''
        qq = ' q' if ns == 'Naive' else ''
        qi = ' {q : Int}' if ns == 'Naive' else ''
        res.append(f'theorem {f}_sim {{a b c : Ref}} (hWa : W a) (hWb : W b) (hWc : W c) {{n : Nat}}{qi} (hn : n < 2 ^ 32)')
        res.append('    {va vb vc : Array Int} (ea : μ a = va) (eb : μ b = vb) (hvc : vc.size = n) (hc : (μ c).size = n) :')
        res.append(f'    Sim S W μ (Post μ c) (_root_.{ns}.{f} vc n va vb{qq}) ({f} c n a b{qq}) := by')
        res.append('  subst ea eb')
        res.append(f'  unfold {f} _root_.{ns}.{f}')
        res.append('  refine half_loop (a := a) (b := b) hn hvc hc (fun i f x hi hf hx hhi hw => ?_) hWc')
        res.append('  refine Sim.val (Sim.rdHalf hWa hhi) fun x => ?_')
        res.append('  refine Sim.val (Sim.rdHalf hWb hhi) fun y => ?_')
        for l in lines[5:-1]:
            assert 'Er.lift' in l, l
            res.append('  refine Sim.val (Sim.lift _) fun z => ?_')
        res.append('  exact hw _')
        out += '\n'.join(res) + '\n\n'
        continue
    main = refs[0]
    if re.match(r'(fwd|intt|fwdmul|inttmul)_', f):
        T = dict(args)['t']
        TA = 'TablesAt' if 'Ntt' in T else 'RedTablesAt'
        mm = re.match(r'exact (\w+)_er a n ⟨"(\w+)", t\.\w+⟩( 12289)?', lines[1])
        g, tab, q = mm.groups()
        res.append(f'theorem {f}_sim {{t : {T}}} {{tb : String → Ref}} {{a : Ref}} (hW : W a) (hS : ∀ x ∈ tableNames, S (tb x))')
        res.append(f'    (hT : Fresh tb a) (htb : {TA} μ tb t) (n : Nat) (v : Array Int) :')
        res.append(f'    Sim S W (upd μ a v) (Post μ a) (_root_.{ns}.{f} t n v) ({f} tb n a) := by')
        res.append(f'  unfold {f} _root_.{ns}.{f}')
        res.append(f'  rw [← htb.{tab}]')
        res.append(f'  exact {g}_sim hW (hS _ (by decide)) (hT _ (by decide)) n{q or ""} v')
        out += '\n'.join(res) + '\n\n'
        continue
    ro = refs[1:]
    hyp = ''.join(f' (h{p} : S {p}) (hne : {p} ≠ {main})' for p in ro)
    ob = ''.join(f' ({a} : {ty})' for a, ty in others)
    ob = ob.replace('(p : Named (Nat × Nat))', '(p : Array (Nat × Nat))')
    l2 = lhs
    r2 = rhs.replace(main + '.data', 'v').replace('p.data', '(μ p)' if ro else 'p')
    res.append(f'theorem {f}_sim {{{" ".join(refs)} : Ref}} (hW : W {main}){hyp}{ob} (v : Array Int) :')
    res.append(f'    Sim S W (upd μ {main} v) (Post μ {main}) ({r2}) ({l2}) := by')
    i = 0
    while i < len(lines):
        l = lines[i]
        i += 1
        if l.startswith('unfold') or l.startswith('generalize'):
            res.append('  ' + l)
        elif l == 'refine Er.forUp rfl ?_':
            i += 1
            res.append('  refine Sim.up fun i v => ?_')
        elif (mm := re.match(r'refine Er.bind \((.*)\) \?_; rintro (\w+) _ rfl', l)):
            e, x = mm.groups()
            if e == 'Er.rd rfl _':
                if x == 'jk':
                    res.append('  refine Sim.val (Sim.lift _) fun jk => ?_')
                elif ro:
                    res.append(f'  refine Sim.val (by first | exact Sim.rd hW _ | exact Sim.rdRo hp hne _) fun {x} => ?_')
                else:
                    res.append(f'  refine Sim.val (Sim.rd hW _) fun {x} => ?_')
            elif e == 'Er.wr rfl _ _':
                res.append('  refine Sim.next (Sim.wr hW _ _) fun v => ?_')
            elif e.startswith('Er.lift') or e.startswith('Er.ifLift'):
                res.append(f'  refine Sim.val ({e.replace("Er.", "Sim.")}) fun {x} => ?_')
            else:
                raise Exception(l)
        elif l == 'refine Er.bind (Er.lift _) fun _ _ _ => ?_':
            res.append('  refine Sim.val (Sim.lift _) fun _ => ?_')
        elif l == 'exact Er.wr rfl _ _':
            res.append('  exact Sim.wr hW _ _')
        elif l == 'exact swap_er _ _ _':
            res.append('  exact swap_sim hW _ _ _')
        elif l == 'exact Er.ite (shift_array_er _ _) (Er.pure rfl)':
            res.append('  exact Sim.ite (shift_array_sim hW _ _) (Sim.pure ⟨rfl, rfl⟩)')
        elif f == 'bitrev_shuffle':
            res.append('  refine Sim.up2 fun i j v => ?_')
            res.append('  refine Sim.next (Sim.ite (swap_sim hW _ _ _) (Sim.pure ⟨rfl, rfl⟩)) fun v => ?_')
            res.append('  refine Sim.val (Sim.lift _) fun j => ?_')
            res.append('  exact Sim.pure ⟨rfl, rfl, rfl⟩')
            break
        elif (mm := re.match(r'exact (\w+)_er (.*) n rfl rfl', l)):
            g, rest = mm.groups()
            rest = re.sub(r'\(by rintro (.*?) A _ rfl; exact (\w+)_er (.*?) A\)', r'(fun \1 v => \2_sim hW \3 v)', rest)
            res.append(f'  exact {g}_sim {rest} hp hne n v')
        else:
            raise Exception(f + ': ' + l)
    out += '\n'.join(res) + '\n\n'
out += 'end Shared\n'
open(os.path.join(L, 'Proofs', 'Shared.lean'), 'w').write(out)
