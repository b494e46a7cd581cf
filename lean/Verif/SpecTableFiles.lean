import Verif.Model.Tables
import Verif.SpecCText

/-
The files written by the table generators: which preprocessor lines, constants and tables they contain, in
order.
-/

namespace Spec
open Tables CText

/-- The contents of the generated file ntt<n>_tables.h. -/
def nttHeader (t : Nttables) : List Item :=
  let param (name : Text) (v : Nat) : Item :=
    .param c!"int32_t" (c!"ntt" ++ decimal t.n ++ c!"_" ++ name) v
  let table (name : Text) : Item :=
    .extern c!"uint16_t" (c!"ntt" ++ decimal t.n ++ c!"_" ++ name) [.num t.n]
  [.directive (c!"ifndef __NTT" ++ decimal t.n ++ c!"_TABLES_H"),
    .directive (c!"define __NTT" ++ decimal t.n ++ c!"_TABLES_H"),
    .directive c!"include <stdint.h>",
    param c!"psi" t.psi,
    param c!"omega" t.omega,
    param c!"inv_psi" t.inv_psi,
    param c!"inv_omega" t.inv_omega,
    param c!"inv_n" t.inv_n,
    table c!"psi_powers",
    table c!"inv_psi_powers",
    table c!"scaled_inv_psi_powers",
    table c!"omega_powers",
    table c!"omega_powers_rev",
    table c!"inv_omega_powers",
    table c!"inv_omega_powers_rev",
    table c!"mixed_powers",
    table c!"mixed_powers_rev",
    table c!"inv_mixed_powers",
    table c!"inv_mixed_powers_rev",
    .directive (c!"endif /* __NTT" ++ decimal t.n ++ c!"_TABLES_H */")]

/-- The contents of the generated file ntt<n>_tables.c. -/
def nttSource (t : Nttables) : List Item :=
  let table (name : Text) (a : Array Int) : Item :=
    .array c!"uint16_t" (c!"ntt" ++ decimal t.n ++ c!"_" ++ name) (.num t.n) a.toList
  [.directive (c!"include \"ntt" ++ decimal t.n ++ c!"_tables.h\""),
    table c!"psi_powers" t.psi_powers,
    table c!"inv_psi_powers" t.inv_psi_powers,
    table c!"inv_psi_powers_rev" t.inv_psi_powers_rev,
    table c!"scaled_inv_psi_powers" t.scaled_inv_psi_powers,
    table c!"omega_powers" t.omega_powers,
    table c!"omega_powers_rev" t.omega_powers_rev,
    table c!"inv_omega_powers" t.inv_omega_powers,
    table c!"inv_omega_powers_rev" t.inv_omega_powers_rev,
    table c!"mixed_powers" t.mixed_powers,
    table c!"mixed_powers_rev" t.mixed_powers_rev,
    table c!"inv_mixed_powers" t.inv_mixed_powers,
    table c!"inv_mixed_powers_rev" t.inv_mixed_powers_rev]

/-- The contents of the generated file ntt_red<n>_tables.h. -/
def redHeader (t : RedTables) : List Item :=
  let param (name : Text) (v : Nat) : Item :=
    .param c!"int32_t" (c!"ntt_red" ++ decimal t.n ++ c!"_" ++ name) v
  let table (name : Text) : Item :=
    .extern c!"int16_t" (c!"ntt_red" ++ decimal t.n ++ c!"_" ++ name) [.num t.n]
  [.directive (c!"ifndef __NTT_RED" ++ decimal t.n ++ c!"_TABLES_H"),
    .directive (c!"define __NTT_RED" ++ decimal t.n ++ c!"_TABLES_H"),
    .directive c!"include <stdint.h>",
    param c!"psi" t.psi,
    param c!"omega" t.omega,
    param c!"inv_psi" t.inv_psi,
    param c!"inv_omega" t.inv_omega,
    param c!"inv_n" t.inv_n,
    param c!"inv_k" t.inv_k,
    param c!"rescale8" t.rescale8,
    param c!"rescale6" t.rescale6,
    table c!"psi_powers",
    table c!"inv_psi_powers",
    table c!"scaled_inv_psi_powers",
    table c!"scaled_inv_psi_powers_var",
    table c!"omega_powers",
    table c!"omega_powers_rev",
    table c!"inv_omega_powers",
    table c!"inv_omega_powers_rev",
    table c!"mixed_powers",
    table c!"mixed_powers_rev",
    table c!"inv_mixed_powers",
    table c!"inv_mixed_powers_rev",
    .directive (c!"endif /* __NTT_RED" ++ decimal t.n ++ c!"_TABLES_H */")]

/-- The contents of the generated file ntt_red<n>_tables.c. -/
def redSource (t : RedTables) : List Item :=
  let table (name : Text) (a : Array Int) : Item :=
    .array c!"int16_t" (c!"ntt_red" ++ decimal t.n ++ c!"_" ++ name) (.num t.n) a.toList
  [.directive (c!"include \"ntt_red" ++ decimal t.n ++ c!"_tables.h\""),
    table c!"psi_powers" t.psi_powers,
    table c!"psi_powers_rev" t.psi_powers_rev,
    table c!"inv_psi_powers" t.inv_psi_powers,
    table c!"scaled_inv_psi_powers" t.scaled_inv_psi_powers,
    table c!"scaled_inv_psi_powers_var" t.scaled_inv_psi_powers_var,
    table c!"omega_powers" t.omega_powers,
    table c!"omega_powers_rev" t.omega_powers_rev,
    table c!"inv_omega_powers" t.inv_omega_powers,
    table c!"inv_omega_powers_rev" t.inv_omega_powers_rev,
    table c!"mixed_powers" t.mixed_powers,
    table c!"mixed_powers_rev" t.mixed_powers_rev,
    table c!"inv_mixed_powers" t.inv_mixed_powers,
    table c!"inv_mixed_powers_rev" t.inv_mixed_powers_rev]

/-- The contents of the generated file bitrev<n>_table.h, for a table of `m` pairs. -/
def bitrevHeader (n m : Nat) : List Item :=
  [.directive (c!"ifndef __BITREV" ++ decimal n ++ c!"_TABLE_H"),
    .directive (c!"define __BITREV" ++ decimal n ++ c!"_TABLE_H"),
    .directive c!"include <stdint.h>",
    .directive (c!"define BITREV" ++ decimal n ++ c!"_NPAIRS " ++ decimal m),
    .extern c!"uint16_t" (c!"bitrev" ++ decimal n) [.ident (c!"BITREV" ++ decimal n ++ c!"_NPAIRS"), .num 2],
    .directive (c!"endif /* __BITREV" ++ decimal n ++ c!"_TABLE_H */")]

/-- The contents of the generated file bitrev<n>_table.c. -/
def bitrevSource (n : Nat) (t : Array (Nat × Nat)) : List Item :=
  [.directive (c!"include \"bitrev" ++ decimal n ++ c!"_table.h\""),
    .pairs c!"uint16_t" (c!"bitrev" ++ decimal n) (.ident (c!"BITREV" ++ decimal n ++ c!"_NPAIRS"))
      (t.toList.map (fun z => ((z.1 : Int), (z.2 : Int))))]

end Spec
