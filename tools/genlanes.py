#!/usr/bin/env python3
"""Write lean/Verif/Proofs/AsmLanes.lean: the effect of each instruction on explicit lanes.

The statements are checked by Lean; this script only saves typing."""
import os
root = os.path.join(os.path.dirname(os.path.abspath(__file__)), '..')
A = ['a%d' % i for i in range(8)]
B = ['b%d' % i for i in range(8)]
def mk(l): return '⟨' + ', '.join(l) + '⟩'
out, names = [], []
def lem(name, lhs, rhs, b=False, extra='', prf='Eq.trans rfl rfl'):
    vs = ' '.join(A + (B if b else []))
    out.append(f"theorem {name} ({vs} : Int){extra} :\n    {lhs} =\n      {mk(rhs)} := {prf}\n")
    names.append(name)
out.append('theorem L_ofFn (f : Nat → Int) : V8.ofFn f = ⟨f 0, f 1, f 2, f 3, f 4, f 5, f 6, f 7⟩ :=\n  Eq.trans rfl rfl\n')
out.append('theorem L_splat (x : Int) : V8.splat x = ⟨x, x, x, x, x, x, x, x⟩ := Eq.trans rfl rfl\n')
out.append('theorem L_mask : mask = ⟨4095, 4095, 4095, 4095, 4095, 4095, 4095, 4095⟩ := Eq.trans rfl rfl\n')
out.append('theorem L_wide (f : Nat → Int) : wide f =\n    ⟨f 0, sxHi (f 0), f 1, sxHi (f 1), f 2, sxHi (f 2), f 3, sxHi (f 3)⟩ := Eq.trans rfl rfl\n')
names += ['L_ofFn', 'L_splat', 'L_mask', 'L_wide']
for op, f in [('vpaddd', 'add32'), ('vpsubd', 'sub32'), ('vpand', 'land32')]:
    lem(f'L_{op}', f'{op} {mk(A)} {mk(B)}', [f'{f} {x} {y}' for x, y in zip(A, B)], True)
lem('L_vpcmpgtd', f'vpcmpgtd {mk(A)} {mk(B)}', [f'if {x} > {y} then -1 else 0' for x, y in zip(A, B)], True)
lem('L_vpslld', f'vpslld {mk(A)} k', [f'sll32 {x} k' for x in A], False, ' (k : Nat)')
lem('L_vpsrad', f'vpsrad {mk(A)} k', [f'sar {x} k' for x in A], False, ' (k : Nat)')
lem('L_vpmuldq', f'vpmuldq {mk(A)} {mk(B)}',
    [(f'mulLo {A[i]} {B[i]}' if i % 2 == 0 else f'mulHi {A[i-1]} {B[i-1]}') for i in range(8)], True)
lem('L_vpsrlq', f'vpsrlq {mk(A)} k',
    [(f'srlLo {A[i]} {A[i+1]} k' if i % 2 == 0 else f'srlHi {A[i-1]} {A[i]} k') for i in range(8)],
    False, ' (k : Nat)', 'by simp [vpsrlq, V8.ofFn, V8.get]')
lem('L_vpslldq_4', f'vpslldq {mk(A)} 4', ['0' if i % 4 < 1 else A[i-1] for i in range(8)])
for b in (4, 12):
    lem(f'L_vpsrldq_{b}', f'vpsrldq {mk(A)} {b}', [A[i+b//4] if i % 4 + b//4 < 4 else '0' for i in range(8)])
for imm in (0x31,):
    lem(f'L_vpshufd_{imm:x}', f'vpshufd {mk(A)} {imm:#x}', [A[4*(i//4) + (imm >> (2*(i % 4))) % 4] for i in range(8)])
for imm in (0x55, 0xaa):
    lem(f'L_vpblendd_{imm:x}', f'vpblendd {mk(A)} {mk(B)} {imm:#x}', [B[i] if imm >> i & 1 else A[i] for i in range(8)], True)
for imm in (0x44, 0x88, 0xee):
    lem(f'L_vshufps_{imm:x}', f'vshufps {mk(A)} {mk(B)} {imm:#x}',
        [(A if i % 4 < 2 else B)[4*(i//4) + (imm >> (2*(i % 4))) % 4] for i in range(8)], True)
for imm in (0x00, 0x0f):
    lem(f'L_vshufpd_{imm:x}', f'vshufpd {mk(A)} {mk(B)} {imm:#04x}',
        [(A if i//2 % 2 == 0 else B)[4*(i//4) + 2*(imm >> (i//2) & 1) + i % 2] for i in range(8)], True)
for imm in (0x11, 0x20, 0x31):
    lem(f'L_vperm2i128_{imm:x}', f'vperm2i128 {mk(A)} {mk(B)} {imm:#x}',
        [(A if (imm >> 4*(i//4)) % 4 < 2 else B)[4*((imm >> 4*(i//4)) % 2) + i % 4] for i in range(8)], True)
perms = {'perm0246': [0,2,4,6,0,0,0,0], 'perm5': [4,0,5,0,6,0,7,0], 'perm4': [2,0,3,0,2,0,3,0],
  'perm3': [1,0]*4, 'perm2020': [0,0,0,0,2,0,2,0], 'perm0426': [0,0,4,0,2,0,6,0],
  'perm04152637': [0,4,1,5,2,6,3,7], 'perm5070': [5,0,7,0,5,0,7,0], 'perm4060': [4,0,6,0,4,0,6,0],
  'perm_bdcst1': [1,0]*4, 'perm_bdcst2': [2,0]*4, 'perm_bdcst3': [3,0]*4}
for p, l in perms.items():
    lem(f'L_{p}', f'vpermd {p} {mk(A)}', [A[i] for i in l])
lem('L_vpbroadcastq', f'vpbroadcastq {mk(A)}', [A[i % 2] for i in range(8)])
src = '''import Verif.Proofs.AsmBasic

/-
The effect of each AVX2 instruction on explicit lanes, and the tactic `lanes`, which computes the
lanes of a sequence of instructions.  Written by tools/genlanes.py.
-/

namespace Asm
open Avx C

theorem fold_mr (x w : Int) :
    sub32 (add32 (land32 (mulLo x w) 4095) (sll32 (land32 (mulLo x w) 4095) 1))
      (srlLo (mulLo x w) (mulHi x w) 12) = mr x w := mrRaw_eq x w

''' + '\n'.join(out) + '''
/-- Compute lanes. -/
syntax "lanes" "[" Lean.Parser.Tactic.simpLemma,* "]" : tactic

macro_rules
  | `(tactic| lanes [$ls,*]) => `(tactic| simp only [fold_mr,
    Nat.reduceMod, Nat.reduceDiv, Nat.reduceAdd, Nat.reduceSub, Nat.reduceMul, OfNat.ofNat_ne_zero,
    OfNat.zero_ne_ofNat, OfNat.one_ne_ofNat, OfNat.ofNat_ne_one, one_ne_zero, zero_ne_one,
    Nat.zero_mod, Nat.zero_div, Nat.add_zero, Nat.zero_add, if_true, if_false, reduceIte,
    ''' + ',\n    '.join(', '.join(names[i:i+5]) for i in range(0, len(names), 5)) + ''', $ls,*])

end Asm
'''
open(os.path.join(root, 'lean/Verif/Proofs/AsmLanes.lean'), 'w').write(src)
