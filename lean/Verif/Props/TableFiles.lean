import Verif.Proofs.Buffer
import Verif.Proofs.TableFilesMain
import Verif.Props.Products

/-
C48: the files written by the three generators, from the command-line arguments to the text.

`readC` (SpecCText.lean) reads the text of a C file made of comments, preprocessor lines, constants and
tables; `nttHeader`, `nttSource`, `redHeader`, `redSource`, `bitrevHeader` and `bitrevSource`
(SpecTableFiles.lean) list what the files must contain; `TablesOK`, `RedTablesOK` and `PairTable` (Spec.lean)
say what the tables must be.
-/

namespace Props
open C Spec Spec.CText Tables TableFiles

/-- The values of the arguments: blanks, an optional sign, a decimal number, then anything that does not
start with a digit. -/
theorem C48_argument {ws rest : Text} {n : Nat} (hws : ∀ c ∈ ws, c ∈ c!" \t\n\r") (hr : ∀ c ∈ rest.head?, c.isDigit = false)
    (hn : n < 2 ^ 63) :
    atol (ws ++ (decimal n ++ rest)) = .ok n ∧ atol (ws ++ '+' :: (decimal n ++ rest)) = .ok n ∧
      atol (ws ++ '-' :: (decimal n ++ rest)) = .ok (-(n : Int)) := by
  refine atol_dec ?_ hr (by norm_num at hn; exact hn)
  intro c hc
  have := hws c hc
  simp only [List.mem_cons, List.not_mem_nil, or_false] at this
  rcases this with rfl | rfl | rfl | rfl <;> decide

example : atol c!" 1024" = .ok 1024 ∧ atol c!"+16" = .ok 16 ∧ atol c!"-16x" = .ok (-16) ∧ atol c!"x" = .ok 0 := by
  decide +kernel

/-- `make_tables n psi` on good arguments writes exactly two files, ntt<n>_tables.h and ntt<n>_tables.c, whose
text is that of the declarations and of the tables, and the tables are correct. -/
theorem C48_make_tables {k : Nat} {xn xpsi : Int} (h : GoodParams k xn xpsi) {buf : Nat → Array Nat}
    (hb : ∀ n, (buf n).size = n) {s1 s2 : Text} (h1 : atol s1 = .ok xn) (h2 : atol s2 = .ok xpsi) :
    ∃ t hd src, make_tables_main buf [s1, s2] = .ok [(c!"ntt" ++ decimal (2 ^ k) ++ c!"_tables.h", hd),
        (c!"ntt" ++ decimal (2 ^ k) ++ c!"_tables.c", src)] ∧
      readC hd = some (nttHeader t) ∧ readC src = some (nttSource t) ∧ TablesOK k (xpsi : Zq) t := by
  obtain ⟨t, e, ok⟩ := wp_total.1 (wp_make_tables (E := NoErr) h hb)
  obtain ⟨hd, src, g1, g2, g3⟩ := make_tables_files h hb h1 h2 e
  exact ⟨t, hd, src, g1, g2, g3, ok⟩

/-- The same for `make_red_tables n psi` and the files ntt_red<n>_tables.h and ntt_red<n>_tables.c. -/
theorem C48_make_red_tables {k : Nat} {xn xpsi : Int} (h : GoodParams k xn xpsi) {buf : Nat → Array Nat}
    (hb : ∀ n, (buf n).size = n) {s1 s2 : Text} (h1 : atol s1 = .ok xn) (h2 : atol s2 = .ok xpsi) :
    ∃ t hd src, make_red_tables_main buf [s1, s2] = .ok [(c!"ntt_red" ++ decimal (2 ^ k) ++ c!"_tables.h", hd),
        (c!"ntt_red" ++ decimal (2 ^ k) ++ c!"_tables.c", src)] ∧
      readC hd = some (redHeader t) ∧ readC src = some (redSource t) ∧ RedTablesOK k (xpsi : Zq) t := by
  obtain ⟨t, e, ok⟩ := wp_total.1 (wp_make_red_tables (E := NoErr) h hb)
  obtain ⟨hd, src, g1, g2, g3⟩ := make_red_tables_files h hb h1 h2 e
  exact ⟨t, hd, src, g1, g2, g3, ok⟩

/-- The same for `make_bitrev_table n` and the files bitrev<n>_table.h and bitrev<n>_table.c; the constant
BITREV<n>_NPAIRS is the number of pairs of the table. -/
theorem C48_make_bitrev_table {k : Nat} (hk1 : 1 ≤ k) (hk : k ≤ 15) {s : Text} (h : atol s = .ok (2 ^ k)) :
    ∃ t hd src, make_bitrev_table_main [s] = .ok [(c!"bitrev" ++ decimal (2 ^ k) ++ c!"_table.h", hd),
        (c!"bitrev" ++ decimal (2 ^ k) ++ c!"_table.c", src)] ∧
      readC hd = some (bitrevHeader (2 ^ k) t.size) ∧ readC src = some (bitrevSource (2 ^ k) t) ∧
      PairTable k t.size t := by
  obtain ⟨m, t, e, hs, ok⟩ := run_make_bitrev hk1 hk
  obtain ⟨hd, src, g1, g2, g3⟩ := make_bitrev_files hk1 hk h e
  rw [← hs] at g2 ok
  exact ⟨t, hd, src, g1, g2, g3, ok⟩

/-- Anything else is rejected with an error before any file is created: a wrong number of arguments, a size
that is not one of 2, 4, ..., 65536 (whatever the second argument), or a `psi` that is not a primitive root
of that size; for `make_bitrev_table` a size that is not one of 2, 4, ..., 32768. -/
theorem C48_rejects (buf : Nat → Array Nat) :
    (∀ args, args.length ≠ 2 → make_tables_main buf args = .error .abort ∧
      make_red_tables_main buf args = .error .abort) ∧
    (∀ s1 s2 xn, atol s1 = .ok xn → (∀ k : Nat, 1 ≤ k → xn = 2 ^ k → ¬ xn < 100000) →
      make_tables_main buf [s1, s2] = .error .abort ∧ make_red_tables_main buf [s1, s2] = .error .abort) ∧
    (∀ s1 s2 xn xpsi, atol s1 = .ok xn → atol s2 = .ok xpsi → (∀ k, ¬ GoodParams k xn xpsi) →
      make_tables_main buf [s1, s2] = .error .abort ∧ make_red_tables_main buf [s1, s2] = .error .abort) ∧
    (∀ args, args.length ≠ 1 → make_bitrev_table_main args = .error .abort) ∧
    (∀ s xn, atol s = .ok xn → (∀ k : Nat, xn = 2 ^ k → k = 0 ∨ 15 < k) →
      make_bitrev_table_main [s] = .error .abort) := by
  refine ⟨?_, fun s1 s2 xn h1 h => make_tables_main_size h1 h, fun s1 s2 xn xpsi h1 h2 h =>
    make_tables_main_abort h1 h2 h, ?_, fun s xn h1 h => make_bitrev_main_abort h1 h⟩
  · intro args h
    match args, h with
    | [], _ => exact ⟨rfl, rfl⟩
    | [_], _ => exact ⟨rfl, rfl⟩
    | [_, _], h => exact absurd rfl h
    | _ :: _ :: _ :: _, _ => exact ⟨rfl, rfl⟩
  · intro args h
    match args, h with
    | [], _ => rfl
    | [_], h => exact absurd rfl h
    | _ :: _ :: _, _ => rfl

-- The arguments used to make the tables of the library and of the tests are good, and a short file is shown
-- in full.
example : atol c!"16" = .ok 16 ∧ atol c!"1212" = .ok 1212 ∧ GoodParams 4 16 1212 := by
  refine ⟨by decide +kernel, by decide +kernel, ?_⟩
  exact libraryParams_good (4, 16, 1212) (by simp [libraryParams])

example : make_bitrev_table_main [c!"8"] = .ok [(c!"bitrev8_table.h",
    c!"#ifndef __BITREV8_TABLE_H\n#define __BITREV8_TABLE_H\n\n#include <stdint.h>\n\n#define BITREV8_NPAIRS 2\n\n\
      extern const uint16_t bitrev8[BITREV8_NPAIRS][2];\n\n#endif /* __BITREV8_TABLE_H */\n"),
    (c!"bitrev8_table.c", c!"#include \"bitrev8_table.h\"\n\nconst uint16_t bitrev8[BITREV8_NPAIRS][2] = {\n\
         \x20   {     1,     4 }, {     3,     6 },\n};\n\n")] := by
  decide +kernel

-- Rejected arguments: 24 is not a power of two, 3 is not a root.
example (buf : Nat → Array Nat) : make_tables_main buf [c!"24", c!"3"] = .error .abort ∧
    make_tables_main buf [c!"16", c!"3"] = .error .abort ∧ make_bitrev_table_main [c!"65536"] = .error .abort ∧
    make_bitrev_table_main [c!"x"] = .error .abort := by
  refine ⟨by rfl, by rfl, by decide +kernel, by decide +kernel⟩

/-- The tables do not depend on the contents of the buffer in which they are computed. -/
theorem C48_buffer {buf buf' : Nat → Array Nat} (hb : ∀ n, (buf n).size = n) (hb' : ∀ n, (buf' n).size = n)
    (args : List Text) :
    TableFiles.make_tables_main buf args = TableFiles.make_tables_main buf' args ∧
      TableFiles.make_red_tables_main buf args = TableFiles.make_red_tables_main buf' args :=
  ⟨TableFiles.make_tables_main_buf hb hb' args, TableFiles.make_red_tables_main_buf hb hb' args⟩

-- Both generators succeed on the arguments of the library, so that the equality is not between two failures.
example : (∃ r, make_tables_main someBuf [c!"16", c!"1212"] = .ok r) ∧
    ∃ r, make_red_tables_main someBuf [c!"16", c!"1212"] = .ok r := by
  have h : GoodParams 4 16 1212 := libraryParams_good (4, 16, 1212) (by simp [libraryParams])
  have h1 : atol c!"16" = .ok 16 := by decide +kernel
  have h2 : atol c!"1212" = .ok 1212 := by decide +kernel
  obtain ⟨t, hd, src, e, -⟩ := C48_make_tables h someBuf_size h1 h2
  obtain ⟨t', hd', src', e', -⟩ := C48_make_red_tables h someBuf_size h1 h2
  exact ⟨⟨_, e⟩, ⟨_, e'⟩⟩

end Props
