psi={16:1212,128:1022,256:1002,512:1003,1024:1014,2048:1016}
om={n:psi[n]**2%12289 for n in psi}
L={n:n.bit_length()-1 for n in psi}
o=['''import Verif.Proofs.TestTables

/-
Every checked-in test table meets its specification.  Written by tools/gentesttablechecks.py.
-/

namespace TestTables
open Spec Tables
''']
def std(name,pk,kap,lo,hi,k,c,s,rng,cz,sz):
    o.append(f'''theorem {name}_chk : stdCheck Data.{name} {kap} {c} {s} {k} = true := by decide +kernel
theorem {name}_packed : Packed {lo} {hi} (2 ^ {k}) Data.{name} {name} := {pk} (by decide +kernel : {rng} Data.{name} (2 ^ {k}) = true)
theorem {name}_ok : StdTable {kap} {cz} {sz} {lo} {hi} {k} {name} := by
  have := std_table {name}_packed {name}_chk
  exact_mod_cast this
''')
def rev(name,base,pk,kap,lo,hi,k,rng,cz,sz):
    o.append(f'''theorem {name}_packed : Packed {lo} {hi} (2 ^ {k}) Data.{name} {name} := {pk} (by decide +kernel : {rng} Data.{name} (2 ^ {k}) = true)
theorem {name}_ok : RevTable {kap} {cz} {sz} {lo} {hi} {k} {name} := by
  have := rev_table {name}_packed {base}_chk (by decide +kernel : revCheck Data.{name} Data.{base} {k} = true)
  exact_mod_cast this
''')
def pw(name,pk,kap,lo,hi,k,v,s,rng,vz,sz):
    o.append(f'''theorem {name}_packed : Packed {lo} {hi} (2 ^ {k}) Data.{name} {name} := {pk} (by decide +kernel : {rng} Data.{name} (2 ^ {k}) = true)
theorem {name}_ok : PowTable {kap} {vz} {sz} {lo} {hi} (2 ^ {k}) {name} := by
  have := pow_table (κ := {kap}) (s := {s}) (v := {v}) {name}_packed (by decide +kernel)
  exact_mod_cast this
''')
for n in [16,256,512,1024]:
    k=L[n]; S=f'ntt{n}_12289'
    pw('psi_powers_'+S,'packed_u',1,0,12288,k,1,psi[n],'rangeU',1,psi[n])
    std('shoup_'+S,'packed_u',1,0,12288,k,1,om[n],'rangeU',1,om[n])
    rev('rev_shoup_'+S,'shoup_'+S,'packed_u',1,0,12288,k,'rangeU',1,om[n])
    std('shoup_scaled_'+S,'packed_u',1,0,12288,k,psi[n],om[n],'rangeU',psi[n],om[n])
    rev('rev_shoup_scaled_'+S,'shoup_scaled_'+S,'packed_u',1,0,12288,k,'rangeU',psi[n],om[n])
for n in [16,128,256,512,1024,2048]:
    k=L[n]
    for r in ['red','sred']:
        lo,hi,pk,rg=(0,12288,'packed_su','rangeU') if r=='red' else ('(-6144)',6144,'packed_s','rangeS')
        for sc,c in [('',1),('scaled_',psi[n])]:
            S=f'{r}_{sc}ntt{n}_12289'
            std('shoup_'+S,pk,3,lo,hi,k,c,om[n],rg,c,om[n])
            rev('rev_shoup_'+S,'shoup_'+S,pk,3,lo,hi,k,rg,c,om[n])
for n in [128,256,512,1024,2048]:
    k=L[n]
    o.append(f'''theorem bitrev{n}_pair_ok : PairTable {k} TestTables.BITREV{n}_NPAIRS bitrev{n}_pair :=
  pair_table (by decide +kernel) (by decide +kernel)
''')
o.append('end TestTables\n')
open('/verif/lean/Verif/Proofs/TestTableChecks.lean','w').write('\n'.join(o))
