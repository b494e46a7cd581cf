import Verif.Model.CRead

/-
The text of src/make_bitrev_table.c, and its functions as read by `CLang.readSome`.
Written by tools/gensrc.py.
-/

namespace CLang.Src

/-- src/make_bitrev_table.c -/
def make_bitrev_table_text : Nat := text! r##"/*
 * Table for bitverse shuffle.
 *
 * Input: n = table size.
 */

#include <assert.h>
#include <stdbool.h>
#include <stdlib.h>
#include <stdio.h>
#include <stdint.h>
#include <inttypes.h>

/*
 * Check that n is a power of two and return k such that n=2^k.
 */
static bool logtwo(uint32_t n, uint32_t *k) {
  uint32_t i;

  i = 0;
  while ((n & 1) == 0) {
    i ++;
    n >>= 1;
  }
  if (n == 1) {
    *k = i;
    return true;
  }
  return false;
}

/*
 * Bitreverse of i, interpreted as a k-bit integer
 */
static uint32_t reverse(uint32_t i, uint32_t k) {
  uint32_t x, b, j;

  x = 0;
  for (j=0; j<k; j++) {
    b = i & 1;
    x = (x<<1) | b;
    i >>= 1;
  }

  return x;
}

/*
 * Count the number of i such that i < bitrev(i, k), where n=2^k.
 */
static uint32_t rev_table_npairs(uint32_t n, uint32_t k) {
  uint32_t i, c;

  c = 0;
  for (i=0; i<n; i++) {
    c += (i < reverse(i, k));
  }
  return c;
}


/*
 * Print the table of pairs (i, reverse(i)) where i < reverse(i)
 * - n = 2^k
 */
static void print_bitrev_table(FILE *f, uint32_t n, uint32_t k) {
  uint32_t i, j, z;

  fprintf(f, "#include \"bitrev%"PRIu32"_table.h\"\n\n", n);
  fprintf(f, "const uint16_t bitrev%"PRIu32"[BITREV%"PRIu32"_NPAIRS][2] = {\n", n, n);
  z = 0;
  for (i=0; i<n; i++) {
    j = reverse(i, k);
    if (i < j) {
      if (z == 0) fprintf(f, "   ");
      fprintf(f, " { %5"PRIu32", %5"PRIu32" },", i, j);
      z ++;
      if (z == 4) {
	fprintf(f, "\n");
	z = 0;
      }
    }
  }
  if (z > 0) fprintf(f, "\n");
  fprintf(f, "};\n\n");
}


/*
 * Declarations in file f
 */
static void print_bitrev_declarations(FILE *f, uint32_t n, uint32_t k) {
  uint32_t m;

  m = rev_table_npairs(n, k);

  fprintf(f, "#ifndef __BITREV%"PRIu32"_TABLE_H\n", n);
  fprintf(f, "#define __BITREV%"PRIu32"_TABLE_H\n\n", n);
  fprintf(f, "#include <stdint.h>\n\n");
  fprintf(f, "#define BITREV%"PRIu32"_NPAIRS %"PRIu32"\n\n", n, m);
  fprintf(f, "extern const uint16_t bitrev%"PRIu32"[BITREV%"PRIu32"_NPAIRS][2];\n\n", n, n);

  fprintf(f, "#endif /* __BITREV%"PRIu32"_TABLE_H */\n", n);
}

/*
 * Open file: name is "bitrev<size>_table.h" or "bitrev<size>_table.c"
 * - return NULL if we can't create the file
 */
#define BUFFER_SIZE 100

static FILE *open_file(uint32_t n, const char *suffix) {
  char filename[BUFFER_SIZE];
  int len;
  FILE *f;

  f = NULL;
  len = snprintf(filename, BUFFER_SIZE, "bitrev%"PRIu32"_table.%s", n, suffix);
  if (len < BUFFER_SIZE) {
    f = fopen(filename, "w");
  }
  return f;
}

int main(int argc, char *argv[]) {
  uint32_t n, log_n;
  long x;
  FILE *f;

  if (argc != 2) {
    fprintf(stderr, "Usage: %s <size>\n", argv[0]);
    exit(EXIT_FAILURE);
  }

  // size
  x = atol(argv[1]);
  if (x <= 1) {
    fprintf(stderr, "Invalid size %ld: must be at least 2\n", x);
    exit(EXIT_FAILURE);
  }
  if (x >= UINT16_MAX) {
    fprintf(stderr, "The size is too large: max = %"PRIu32"\n", (uint32_t)UINT16_MAX);
    exit(EXIT_FAILURE);
  }
  n = (uint32_t) x;
  if (!logtwo(n, &log_n)) {
    fprintf(stderr, "Invalid size: %"PRIu32" is not a power of two\n", n);
    exit(EXIT_FAILURE);
  }

  f = open_file(n, "h");
  if (f == NULL) {
    fprintf(stderr, "failed to open file 'bitrev%"PRIu32"_tables.h'\n", n);
    exit(EXIT_FAILURE);
  }
  print_bitrev_declarations(f, n, log_n);
  fclose(f);

  f = open_file(n, "c");
  if (f == NULL) {
    fprintf(stderr, "failed to open file 'bitrev%"PRIu32"_tables.h'\n", n);
    exit(EXIT_FAILURE);
  }
  print_bitrev_table(f, n, log_n);
  fclose(f);
  
  return 0;
}
"##

/-- `logtwo` -/
def make_bitrev_table.logtwo : Fun := ⟨(some .bool), [(n!"n", (.int .u32)), (n!"k", (.ptr 1))],
  (.seq (.decl .u32 n!"i")
  (.seq (.assign n!"i" (.num 0))
  (.seq (.while (.bin .eq (.bin .and (.var n!"n") (.num 1)) (.num 0))
    (.seq (.assign n!"i" (.bin .add (.var n!"i") (.num 1)))
    (.seq (.assign n!"n" (.bin .shr (.var n!"n") (.num 1)))
    .skip)))
  (.seq (.ite (.bin .eq (.var n!"n") (.num 1))
    (.seq (.store (.var n!"k") (.num 0) (.var n!"i"))
    (.seq (.ret (.num 1))
    .skip))
    .skip)
  (.seq (.ret (.num 0))
  .skip)))))⟩

/-- `reverse` -/
def make_bitrev_table.reverse : Fun := ⟨(some .u32), [(n!"i", (.int .u32)), (n!"k", (.int .u32))],
  (.seq (.seq (.decl .u32 n!"x")
   (.seq (.decl .u32 n!"b")
   (.decl .u32 n!"j")))
  (.seq (.assign n!"x" (.num 0))
  (.seq (.seq (.assign n!"j" (.num 0))
   (.while (.bin .lt (.var n!"j") (.var n!"k"))
    (.seq (.seq (.assign n!"b" (.bin .and (.var n!"i") (.num 1)))
     (.seq (.assign n!"x" (.bin .or (.bin .shl (.var n!"x") (.num 1)) (.var n!"b")))
     (.seq (.assign n!"i" (.bin .shr (.var n!"i") (.num 1)))
     .skip)))
    (.assign n!"j" (.bin .add (.var n!"j") (.num 1))))))
  (.seq (.ret (.var n!"x"))
  .skip))))⟩

/-- `rev_table_npairs` -/
def make_bitrev_table.rev_table_npairs : Fun := ⟨(some .u32), [(n!"n", (.int .u32)), (n!"k", (.int .u32))],
  (.seq (.seq (.decl .u32 n!"i")
   (.decl .u32 n!"c"))
  (.seq (.assign n!"c" (.num 0))
  (.seq (.seq (.assign n!"i" (.num 0))
   (.while (.bin .lt (.var n!"i") (.var n!"n"))
    (.seq (.seq (.assign n!"c" (.bin .add (.var n!"c") (.bin .lt (.var n!"i") (.call n!"reverse" (.cons (.var n!"i") (.cons (.var n!"k") .nil))))))
     .skip)
    (.assign n!"i" (.bin .add (.var n!"i") (.num 1))))))
  (.seq (.ret (.var n!"c"))
  .skip))))⟩

/-- `print_bitrev_table` -/
def make_bitrev_table.print_bitrev_table : Fun := ⟨none, [(n!"f", (.ptr 1)), (n!"n", (.int .u32)), (n!"k", (.int .u32))],
  (.seq (.seq (.decl .u32 n!"i")
   (.seq (.decl .u32 n!"j")
   (.decl .u32 n!"z")))
  (.seq (.print (.var n!"f") [.lit n!"#include \"bitrev", .u 0, .lit n!"_table.h\"\n\n"] (.cons (.var n!"n") .nil))
  (.seq (.print (.var n!"f") [.lit n!"const uint16_t bitrev", .u 0, .lit n!"[BITREV", .u 0, .lit n!"_NPAIRS][2] = {\n"] (.cons (.var n!"n") (.cons (.var n!"n") .nil)))
  (.seq (.assign n!"z" (.num 0))
  (.seq (.seq (.assign n!"i" (.num 0))
   (.while (.bin .lt (.var n!"i") (.var n!"n"))
    (.seq (.seq (.assign n!"j" (.call n!"reverse" (.cons (.var n!"i") (.cons (.var n!"k") .nil))))
     (.seq (.ite (.bin .lt (.var n!"i") (.var n!"j"))
       (.seq (.ite (.bin .eq (.var n!"z") (.num 0))
         (.print (.var n!"f") [.lit n!"   "] .nil)
         .skip)
       (.seq (.print (.var n!"f") [.lit n!" { ", .u 5, .lit n!", ", .u 5, .lit n!" },"] (.cons (.var n!"i") (.cons (.var n!"j") .nil)))
       (.seq (.assign n!"z" (.bin .add (.var n!"z") (.num 1)))
       (.seq (.ite (.bin .eq (.var n!"z") (.num 4))
         (.seq (.print (.var n!"f") [.lit n!"\n"] .nil)
         (.seq (.assign n!"z" (.num 0))
         .skip))
         .skip)
       .skip))))
       .skip)
     .skip))
    (.assign n!"i" (.bin .add (.var n!"i") (.num 1))))))
  (.seq (.ite (.bin .gt (.var n!"z") (.num 0))
    (.print (.var n!"f") [.lit n!"\n"] .nil)
    .skip)
  (.seq (.print (.var n!"f") [.lit n!"};\n\n"] .nil)
  .skip)))))))⟩

/-- `print_bitrev_declarations` -/
def make_bitrev_table.print_bitrev_declarations : Fun := ⟨none, [(n!"f", (.ptr 1)), (n!"n", (.int .u32)), (n!"k", (.int .u32))],
  (.seq (.decl .u32 n!"m")
  (.seq (.assign n!"m" (.call n!"rev_table_npairs" (.cons (.var n!"n") (.cons (.var n!"k") .nil))))
  (.seq (.print (.var n!"f") [.lit n!"#ifndef __BITREV", .u 0, .lit n!"_TABLE_H\n"] (.cons (.var n!"n") .nil))
  (.seq (.print (.var n!"f") [.lit n!"#define __BITREV", .u 0, .lit n!"_TABLE_H\n\n"] (.cons (.var n!"n") .nil))
  (.seq (.print (.var n!"f") [.lit n!"#include <stdint.h>\n\n"] .nil)
  (.seq (.print (.var n!"f") [.lit n!"#define BITREV", .u 0, .lit n!"_NPAIRS ", .u 0, .lit n!"\n\n"] (.cons (.var n!"n") (.cons (.var n!"m") .nil)))
  (.seq (.print (.var n!"f") [.lit n!"extern const uint16_t bitrev", .u 0, .lit n!"[BITREV", .u 0, .lit n!"_NPAIRS][2];\n\n"] (.cons (.var n!"n") (.cons (.var n!"n") .nil)))
  (.seq (.print (.var n!"f") [.lit n!"#endif /* __BITREV", .u 0, .lit n!"_TABLE_H */\n"] (.cons (.var n!"n") .nil))
  .skip))))))))⟩

/-- The functions of the file. -/
def make_bitrev_table : Prog := [
  (n!"logtwo", make_bitrev_table.logtwo),
  (n!"reverse", make_bitrev_table.reverse),
  (n!"rev_table_npairs", make_bitrev_table.rev_table_npairs),
  (n!"print_bitrev_table", make_bitrev_table.print_bitrev_table),
  (n!"print_bitrev_declarations", make_bitrev_table.print_bitrev_declarations)]

/-- What is read from the text. -/
theorem make_bitrev_table_read : readSome make_bitrev_table_text = make_bitrev_table := by decide +kernel

end CLang.Src
