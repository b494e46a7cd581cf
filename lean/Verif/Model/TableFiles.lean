import Verif.Model.Tables
import Verif.SpecCText

/-
The generators src/make_tables.c, src/make_red_tables.c and src/make_bitrev_table.c from the command line to
the text of the files they write.  Model/Tables.lean has the same programs without text.

Not modelled: failure of `malloc`, `fopen` and `fprintf`, the texts of error messages.
-/

namespace TableFiles
open C Tables Spec.CText

/-- `%"PRIu32"` of `fprintf`. -/
def pu32 (n : Nat) : Text := Nat.toDigits 10 n

/-- `%"PRId32"` of `fprintf`. -/
def pd32 (x : Int) : Text := if x < 0 then '-' :: Nat.toDigits 10 x.natAbs else Nat.toDigits 10 x.natAbs

/-- Minimal field width 5 (`%5`): blanks on the left. -/
def pad5 (t : Text) : Text := List.replicate (5 - t.length) ' ' ++ t

/-- Characters skipped by `atol` (`isspace` in the C locale). -/
def isSpace (c : Char) : Bool :=
  c == ' ' || c == '\t' || c == '\n' || c == '\x0b' || c == '\x0c' || c == '\r'

/-- Optional sign in front of a number. -/
def sign : Text → Bool × Text
  | '-' :: s => (true, s)
  | '+' :: s => (false, s)
  | s => (false, s)

/-- `atol` of the standard library: blanks, an optional sign, digits; the rest is ignored.  A value that
is not a `long` is undefined behaviour (here: `overflow`). -/
def atol (s : Text) : M Int :=
  let p := sign (s.dropWhile isSpace)
  let v : Int := Nat.ofDigitChars 10 (p.2.takeWhile Char.isDigit) 0
  i64 (if p.1 then -v else v)

/-- Loop of `print_table` (src/make_tables.c:201-210, src/make_red_tables.c:248-257): `entry i` is the
text of `a[i]`.  The state is `k` and the text written so far. -/
def printLoop (n : Nat) (entry : Nat → M Text) (t : Text) : M Text := do
  let (k, t) ← forUp 0 n 1 (fun i (st : Nat × Text) => do
    let (k, t) := st
    let t := if k = 0 then t ++ c!"   " else t
    let e ← entry i
    let t := t ++ c!" " ++ pad5 e ++ c!","
    let k := u32 (k + 1)
    if k = 8 then pure (0, t ++ c!"\n") else pure (k, t)) (0, t)
  pure (if k > 0 then t ++ c!"\n" else t)

/-- `print_table` (src/make_tables.c:196-213). -/
def print_table (name : Text) (a : Array Nat) (n : Nat) : M Text := do
  let t := c!"const uint16_t ntt" ++ pu32 n ++ c!"_" ++ name ++ c!"[" ++ pu32 n ++ c!"] = {\n"
  let t ← printLoop n (fun i => do
    let x ← rd a i
    pure (pu32 x)) t
  pure (t ++ c!"};\n\n")

/-- `print_header` (src/make_tables.c:218-232). -/
def print_header (q n psi phi inv_psi inv_phi inv_n : Nat) : Text :=
  c!"/*\n * Parameters:\n * - q = " ++ pu32 q ++
  c!"\n * - n = " ++ pu32 n ++
  c!"\n * - psi = " ++ pu32 psi ++
  c!"\n * - omega = psi^2 = " ++ pu32 phi ++
  c!"\n * - inverse of psi = " ++ pu32 inv_psi ++
  c!"\n * - inverse of omega = " ++ pu32 inv_phi ++
  c!"\n * - inverse of n = " ++ pu32 inv_n ++
  c!"\n */\n\n"

/-- `print_comment` (src/make_tables.c:237-239, src/make_red_tables.c:286-288). -/
def print_comment (what : Text) : Text := c!"/*\n * " ++ what ++ c!"\n */\n"

/-- `print_param_def` (src/make_tables.c:241-243). -/
def print_param_def (name : Text) (n val : Nat) : Text :=
  c!"static const int32_t ntt" ++ pu32 n ++ c!"_" ++ name ++ c!" = " ++ pu32 val ++ c!";\n"

/-- `print_table_decl` (src/make_tables.c:245-247). -/
def print_table_decl (name : Text) (n : Nat) : Text :=
  c!"extern const uint16_t ntt" ++ pu32 n ++ c!"_" ++ name ++ c!"[" ++ pu32 n ++ c!"];\n"

/-- `print_declarations` (src/make_tables.c:249-284). -/
def print_declarations (q n psi phi inv_psi inv_phi inv_n : Nat) : Text :=
  print_header q n psi phi inv_psi inv_phi inv_n ++
  (c!"#ifndef __NTT" ++ pu32 n ++ c!"_TABLES_H\n") ++
  (c!"#define __NTT" ++ pu32 n ++ c!"_TABLES_H\n\n") ++
  c!"#include <stdint.h>\n\n" ++
  print_comment c!"PARAMETERS" ++
  print_param_def c!"psi" n psi ++
  print_param_def c!"omega" n phi ++
  print_param_def c!"inv_psi" n inv_psi ++
  print_param_def c!"inv_omega" n inv_phi ++
  print_param_def c!"inv_n" n inv_n ++
  c!"\n" ++
  print_comment c!"POWERS OF PSI" ++
  print_table_decl c!"psi_powers" n ++
  print_table_decl c!"inv_psi_powers" n ++
  print_table_decl c!"scaled_inv_psi_powers" n ++
  c!"\n" ++
  print_comment c!"TABLES FOR NTT COMPUTATION" ++
  print_table_decl c!"omega_powers" n ++
  print_table_decl c!"omega_powers_rev" n ++
  print_table_decl c!"inv_omega_powers" n ++
  print_table_decl c!"inv_omega_powers_rev" n ++
  print_table_decl c!"mixed_powers" n ++
  print_table_decl c!"mixed_powers_rev" n ++
  print_table_decl c!"inv_mixed_powers" n ++
  print_table_decl c!"inv_mixed_powers_rev" n ++
  c!"\n" ++
  (c!"#endif /* __NTT" ++ pu32 n ++ c!"_TABLES_H */\n")

/-- `print_tables` (src/make_tables.c:289-337): all tables are built in the same buffer. -/
def print_tables (buf : Array Nat) (q n inv_n psi phi inv_psi inv_phi : Nat) : M Text := do
  let h := print_header q n psi phi inv_psi inv_phi inv_n ++
    (c!"#include \"ntt" ++ pu32 n ++ c!"_tables.h\"\n\n")
  let t1 ← build_power_table buf n q 1 psi
  let p1 ← print_table c!"psi_powers" t1 n
  let t2 ← build_power_table t1 n q 1 inv_psi
  let p2 ← print_table c!"inv_psi_powers" t2 n
  let t3 ← build_rev_table t2 n q 1 inv_psi none
  let p3 ← print_table c!"inv_psi_powers_rev" t3 n
  let t4 ← build_power_table t3 n q inv_n inv_psi
  let p4 ← print_table c!"scaled_inv_psi_powers" t4 n
  let t5 ← build_table t4 n q 1 phi none
  let p5 ← print_table c!"omega_powers" t5 n
  let t6 ← build_rev_table t5 n q 1 phi none
  let p6 ← print_table c!"omega_powers_rev" t6 n
  let t7 ← build_table t6 n q 1 inv_phi none
  let p7 ← print_table c!"inv_omega_powers" t7 n
  let t8 ← build_rev_table t7 n q 1 inv_phi none
  let p8 ← print_table c!"inv_omega_powers_rev" t8 n
  let t9 ← build_table t8 n q psi phi none
  let p9 ← print_table c!"mixed_powers" t9 n
  let t10 ← build_rev_table t9 n q psi phi none
  let p10 ← print_table c!"mixed_powers_rev" t10 n
  let t11 ← build_table t10 n q inv_psi inv_phi none
  let p11 ← print_table c!"inv_mixed_powers" t11 n
  let t12 ← build_rev_table t11 n q inv_psi inv_phi none
  let p12 ← print_table c!"inv_mixed_powers_rev" t12 n
  pure (h ++ p1 ++ p2 ++ p3 ++ p4 ++ p5 ++ p6 ++ p7 ++ p8 ++ p9 ++ p10 ++ p11 ++ p12)

/-- `open_file` (src/make_tables.c:345-356, src/make_red_tables.c:406-417,
src/make_bitrev_table.c:112-123): the name of the file; names of 100 or more characters are refused. -/
def open_file (before : Text) (n : Nat) (after : Text) : M Text :=
  let name := before ++ pu32 n ++ after
  if name.length < 100 then .ok name else .error .abort

/-- The checks of the first argument, before the second one is read (src/make_tables.c:371-384,
src/make_red_tables.c:438-451). -/
def checkSize (xn : Int) : M Nat := do
  if xn ≤ 1 then .error .abort
  else if xn ≥ 100000 then .error .abort
  else
    match ← logtwo xn.toNat with
    | none => .error .abort
    | some _ => pure xn.toNat

/-- `main` of make_tables for two arguments (src/make_tables.c:358-441), with `q` the constant of line 359:
from the command-line arguments (without the name of the program) to the names and contents of the files.
Every `exit(EXIT_FAILURE)` is the error `abort`; they all precede the creation of the first file, except those
for a failing `fopen`.  (`checkArgs` repeats the checks of `checkSize`, to no effect.) -/
def make_tables_run (q : Nat) (buf : Nat → Array Nat) (s1 s2 : Text) : M (List (Text × Text)) := do
  let xn ← atol s1
  let _ ← checkSize xn
  let xpsi ← atol s2
  let (n, psi, phi) ← checkArgs q xn xpsi
  let inv_psi ← inverseOrExit psi q
  let inv_phi ← inverseOrExit phi q
  let inv_n ← inverseOrExit n q
  let f ← open_file c!"ntt" n c!"_tables.h"
  let d := print_declarations q n psi phi inv_psi inv_phi inv_n
  let g ← open_file c!"ntt" n c!"_tables.c"
  let t ← print_tables (buf n) q n inv_n psi phi inv_psi inv_phi
  pure [(f, d), (g, t)]

/-- `main` of make_tables (src/make_tables.c:358-441). -/
def make_tables_main (buf : Nat → Array Nat) : List Text → M (List (Text × Text))
  | [s1, s2] => make_tables_run 12289 buf s1 s2
  | _ => .error .abort

/-! ### src/make_red_tables.c -/

/-- `print_table` (src/make_red_tables.c:243-260). -/
def print_red_table (name : Text) (a : Array Nat) (n q : Nat) : M Text := do
  let t := c!"const int16_t ntt_red" ++ pu32 n ++ c!"_" ++ name ++ c!"[" ++ pu32 n ++ c!"] = {\n"
  let t ← printLoop n (fun i => do
    let x ← rd a i
    let y ← shift x q
    pure (pd32 y)) t
  pure (t ++ c!"};\n\n")

/-- `print_header` (src/make_red_tables.c:266-282). -/
def print_red_header (q k n psi phi inv_psi inv_phi inv_n inv_k : Nat) : Text :=
  c!"/*\n * Parameters:\n * - q = " ++ pu32 q ++
  c!"\n * - k = " ++ pu32 k ++
  c!"\n * - n = " ++ pu32 n ++
  c!"\n * - psi = " ++ pu32 psi ++
  c!"\n * - omega = psi^2 = " ++ pu32 phi ++
  c!"\n * - inverse of psi = " ++ pu32 inv_psi ++
  c!"\n * - inverse of omega = " ++ pu32 inv_phi ++
  c!"\n * - inverse of n = " ++ pu32 inv_n ++
  c!"\n * - inverse of k = " ++ pu32 inv_k ++
  c!"\n */\n\n"

/-- `print_param_def` (src/make_red_tables.c:290-292). -/
def print_red_param_def (name : Text) (n val : Nat) : Text :=
  c!"static const int32_t ntt_red" ++ pu32 n ++ c!"_" ++ name ++ c!" = " ++ pu32 val ++ c!";\n"

/-- `print_table_decl` (src/make_red_tables.c:294-296). -/
def print_red_table_decl (name : Text) (n : Nat) : Text :=
  c!"extern const int16_t ntt_red" ++ pu32 n ++ c!"_" ++ name ++ c!"[" ++ pu32 n ++ c!"];\n"

/-- `print_declarations` (src/make_red_tables.c:298-337). -/
def print_red_declarations (q k n psi phi inv_psi inv_phi inv_n inv_k : Nat) : M Text := do
  let r8 ← rescale_factor 8 inv_n inv_k q
  let r6 ← rescale_factor 6 inv_n inv_k q
  pure (
    print_red_header q k n psi phi inv_psi inv_phi inv_n inv_k ++
    (c!"#ifndef __NTT_RED" ++ pu32 n ++ c!"_TABLES_H\n") ++
    (c!"#define __NTT_RED" ++ pu32 n ++ c!"_TABLES_H\n\n") ++
    c!"#include <stdint.h>\n\n" ++
    print_comment c!"PARAMETERS" ++
    print_red_param_def c!"psi" n psi ++
    print_red_param_def c!"omega" n phi ++
    print_red_param_def c!"inv_psi" n inv_psi ++
    print_red_param_def c!"inv_omega" n inv_phi ++
    print_red_param_def c!"inv_n" n inv_n ++
    print_red_param_def c!"inv_k" n inv_k ++
    print_red_param_def c!"rescale8" n r8 ++
    print_red_param_def c!"rescale6" n r6 ++
    c!"\n" ++
    print_comment c!"POWERS OF PSI" ++
    print_red_table_decl c!"psi_powers" n ++
    print_red_table_decl c!"inv_psi_powers" n ++
    print_red_table_decl c!"scaled_inv_psi_powers" n ++
    print_red_table_decl c!"scaled_inv_psi_powers_var" n ++
    c!"\n" ++
    print_comment c!"TABLES FOR NTT COMPUTATION" ++
    print_red_table_decl c!"omega_powers" n ++
    print_red_table_decl c!"omega_powers_rev" n ++
    print_red_table_decl c!"inv_omega_powers" n ++
    print_red_table_decl c!"inv_omega_powers_rev" n ++
    print_red_table_decl c!"mixed_powers" n ++
    print_red_table_decl c!"mixed_powers_rev" n ++
    print_red_table_decl c!"inv_mixed_powers" n ++
    print_red_table_decl c!"inv_mixed_powers_rev" n ++
    c!"\n" ++
    (c!"#endif /* __NTT_RED" ++ pu32 n ++ c!"_TABLES_H */\n"))

/-- `print_tables` (src/make_red_tables.c:342-398). -/
def print_red_tables (buf : Array Nat) (q k n inv_n psi phi inv_psi inv_phi inv_k : Nat) : M Text := do
  let h := print_red_header q k n psi phi inv_psi inv_phi inv_n inv_k ++
    (c!"#include \"ntt_red" ++ pu32 n ++ c!"_tables.h\"\n\n")
  let t1 ← build_power_table buf n q inv_k psi
  let p1 ← print_red_table c!"psi_powers" t1 n q
  let t2 ← build_rev_table t1 n q 1 psi (some inv_k)
  let p2 ← print_red_table c!"psi_powers_rev" t2 n q
  let t3 ← build_power_table t2 n q inv_k inv_psi
  let p3 ← print_red_table c!"inv_psi_powers" t3 n q
  let s8 ← rescale_factor 8 inv_n inv_k q
  let t4 ← build_power_table t3 n q s8 inv_psi
  let p4 ← print_red_table c!"scaled_inv_psi_powers" t4 n q
  let s6 ← rescale_factor 6 inv_n inv_k q
  let t5 ← build_power_table t4 n q s6 inv_psi
  let p5 ← print_red_table c!"scaled_inv_psi_powers_var" t5 n q
  let t6 ← build_table t5 n q 1 phi (some inv_k)
  let p6 ← print_red_table c!"omega_powers" t6 n q
  let t7 ← build_rev_table t6 n q 1 phi (some inv_k)
  let p7 ← print_red_table c!"omega_powers_rev" t7 n q
  let t8 ← build_table t7 n q 1 inv_phi (some inv_k)
  let p8 ← print_red_table c!"inv_omega_powers" t8 n q
  let t9 ← build_rev_table t8 n q 1 inv_phi (some inv_k)
  let p9 ← print_red_table c!"inv_omega_powers_rev" t9 n q
  let t10 ← build_table t9 n q psi phi (some inv_k)
  let p10 ← print_red_table c!"mixed_powers" t10 n q
  let t11 ← build_rev_table t10 n q psi phi (some inv_k)
  let p11 ← print_red_table c!"mixed_powers_rev" t11 n q
  let t12 ← build_table t11 n q inv_psi inv_phi (some inv_k)
  let p12 ← print_red_table c!"inv_mixed_powers" t12 n q
  let t13 ← build_rev_table t12 n q inv_psi inv_phi (some inv_k)
  let p13 ← print_red_table c!"inv_mixed_powers_rev" t13 n q
  pure (h ++ p1 ++ p2 ++ p3 ++ p4 ++ p5 ++ p6 ++ p7 ++ p8 ++ p9 ++ p10 ++ p11 ++ p12 ++ p13)

/-- `main` of make_red_tables for two arguments (src/make_red_tables.c:419-514). -/
def make_red_tables_run (q : Nat) (buf : Nat → Array Nat) (s1 s2 : Text) : M (List (Text × Text)) := do
  let k ← find_k q
  if k = 0 ∨ k ≥ q then .error .abort
  else do
    let xn ← atol s1
    let _ ← checkSize xn
    let xpsi ← atol s2
    let (n, psi, phi) ← checkArgs q xn xpsi
    let inv_psi ← inverseOrExit psi q
    let inv_k ← inverseOrExit k q
    let inv_phi ← inverseOrExit phi q
    let inv_n ← inverseOrExit n q
    let f ← open_file c!"ntt_red" n c!"_tables.h"
    let d ← print_red_declarations q k n psi phi inv_psi inv_phi inv_n inv_k
    let g ← open_file c!"ntt_red" n c!"_tables.c"
    let t ← print_red_tables (buf n) q k n inv_n psi phi inv_psi inv_phi inv_k
    pure [(f, d), (g, t)]

/-- `main` of make_red_tables (src/make_red_tables.c:419-514). -/
def make_red_tables_main (buf : Nat → Array Nat) : List Text → M (List (Text × Text))
  | [s1, s2] => make_red_tables_run 12289 buf s1 s2
  | _ => .error .abort

/-! ### src/make_bitrev_table.c -/

/-- `print_bitrev_table` (src/make_bitrev_table.c:66-86). -/
def print_bitrev_table (n k : Nat) : M Text := do
  let t := (c!"#include \"bitrev" ++ pu32 n ++ c!"_table.h\"\n\n") ++
    (c!"const uint16_t bitrev" ++ pu32 n ++ c!"[BITREV" ++ pu32 n ++ c!"_NPAIRS][2] = {\n")
  let (z, t) ← forUp 0 n 1 (fun i (st : Nat × Text) => do
    let (z, t) := st
    let j ← reverse i k
    if i < j then do
      let t := if z = 0 then t ++ c!"   " else t
      let t := t ++ c!" { " ++ pad5 (pu32 i) ++ c!", " ++ pad5 (pu32 j) ++ c!" },"
      let z := u32 (z + 1)
      if z = 4 then pure (0, t ++ c!"\n") else pure (z, t)
    else pure (z, t)) (0, t)
  let t := if z > 0 then t ++ c!"\n" else t
  pure (t ++ c!"};\n\n")

/-- `print_bitrev_declarations` (src/make_bitrev_table.c:92-104). -/
def print_bitrev_declarations (n k : Nat) : M Text := do
  let m ← rev_table_npairs n k
  pure (
    (c!"#ifndef __BITREV" ++ pu32 n ++ c!"_TABLE_H\n") ++
    (c!"#define __BITREV" ++ pu32 n ++ c!"_TABLE_H\n\n") ++
    c!"#include <stdint.h>\n\n" ++
    (c!"#define BITREV" ++ pu32 n ++ c!"_NPAIRS " ++ pu32 m ++ c!"\n\n") ++
    (c!"extern const uint16_t bitrev" ++ pu32 n ++ c!"[BITREV" ++ pu32 n ++ c!"_NPAIRS][2];\n\n") ++
    (c!"#endif /* __BITREV" ++ pu32 n ++ c!"_TABLE_H */\n"))

/-- `main` of make_bitrev_table (src/make_bitrev_table.c:125-168). -/
def make_bitrev_table_main (args : List Text) : M (List (Text × Text)) :=
  match args with
  | [s1] => do
    let xn ← atol s1
    if xn ≤ 1 then .error .abort
    else if xn ≥ 65535 then .error .abort
    else do
      let n := xn.toNat
      match ← logtwo n with
      | none => .error .abort
      | some log_n => do
        let f ← open_file c!"bitrev" n c!"_table.h"
        let d ← print_bitrev_declarations n log_n
        let g ← open_file c!"bitrev" n c!"_table.c"
        let t ← print_bitrev_table n log_n
        pure [(f, d), (g, t)]
  | _ => .error .abort

end TableFiles
