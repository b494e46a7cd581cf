import Verif.Model.CRead

/-
The text of src/make_red_tables.c, and its functions as read by `CLang.readSome`.
Written by tools/gensrc.py.
-/

namespace CLang.Src

/-- src/make_red_tables.c -/
def make_red_tables_text : Nat := text! r##"/*
 * Build tables for ntts.h (using Q=12289)
 *
 * Input: n and psi such that
 * - psi^n = -1 modulo Q
 * - n is a power of two
 */

#include <assert.h>
#include <stdbool.h>
#include <stdlib.h>
#include <stdio.h>
#include <stdint.h>
#include <inttypes.h>

typedef struct parameters_s {
  uint32_t q;        // modulus
  uint32_t k;        // q is (k * 2^m + 1)
  uint32_t inv_k;    // inverse of k modulo q
  uint32_t n;        // size
  uint32_t inv_n;    // inverse of n
  uint32_t log_n;    // log base 2
  uint32_t psi;      // psi^n = -1
  uint32_t phi;      // psi^2: primitive n-th root of 1
  uint32_t inv_psi;  // inverse of psi
  uint32_t inv_phi;  // inverse of phi
} parameters_t;

/*
 * x^k modulo q
 */
static uint32_t power(uint32_t x, uint32_t k, uint32_t q) {
  uint32_t y;

  assert(q > 0);

  y = 1;
  while (k != 0) {
    if ((k & 1) != 0) {
      y = (y * x) % q;
    }
    k >>= 1;
    x = (x * x) % q;
  }
  return y;
}

/*
 * Check whether x is invertible modulo q and return the inverse in *inv_x
 */
static bool inverse(uint32_t x, uint32_t q, uint32_t *inv_x) {
  int32_t r1, r2, u1, u2, v1, v2, g, aux;

  // invariant: r1 = n * u1 + q * v1
  //            r2 = n * u2 + q * v2
  r1 = x; u1 = 1; v1 = 0;
  r2 = q; u2 = 0, v2 = 1;
  while (r2 > 0) {
    assert(r1 == (int32_t) x * u1 + (int32_t) q * v1);
    assert(r2 == (int32_t) x * u2 + (int32_t) q * v2);
    assert(r1 >= 0);
    g = r1/r2;

    aux = r1; r1 = r2; r2 = aux - g * r2;
    aux = u1; u1 = u2; u2 = aux - g * u2;
    aux = v1; v1 = v2; v2 = aux - g * v2;
  }

  // r1 is gcd(x, q) = x * u1 + q * v1
  if (r1 == 1) {
    u1 = u1 % (int32_t) q;
    if (u1 < 0) u1 += q;
    assert(((((int32_t) x) * u1) % (int32_t) q) == 1);
    *inv_x = u1;
    return true;
  } else {
    return false;
  }
}


/*
 * Check that n is a power of two and return k such that n=2^k.
 */
static bool logtwo(uint32_t n, uint32_t *k) {
  uint32_t i;

  i = 0;
  while ((n & 1) == 0) {
    i ++;
    n >>= 1;
  }
  if (n == 1) {
    *k = i;
    return true;
  }
  return false;
}

/*
 * Bitreverse of i, interpreted as a k-bit integer
 */
static uint32_t reverse(uint32_t i, uint32_t k) {
  uint32_t x, b, j;

  x = 0;
  for (j=0; j<k; j++) {
    b = i & 1;
    x = (x<<1) | b;
    i >>= 1;
  }

  return x;
}

/*
 * Search for k such that q-1 = k * a power of 2
 */
static uint32_t find_k(uint32_t q) {
  uint32_t x;

  x = q-1;
  while ((x & 1) == 0) {
    x >>= 1;
  }
  return x;
}

/*
 * Check that x is a primitive n-th root of unity
 * Brute force check. For debugging.
 */
static bool is_primitive_root(uint32_t x, uint32_t n, uint32_t q) {
  uint32_t i;

  for (i=1; i<n; i++) {
    if (power(x, i, q) == 1) {
      return false;
    }
  }

  return power(x, n, q) == 1;
}  


/*
 * Factor for final scaling: inv_k^8 * inv_n
 */
static uint32_t rescale_factor8(uint32_t inv_n, uint32_t inv_k, uint32_t q) {
  uint32_t s;

  s = power(inv_k, 8, q);
  return (s * inv_n) % q;
}

/*
 * Factor for final scaling: inv_k^6 * inv_n
 */
static uint32_t rescale_factor6(uint32_t inv_n, uint32_t inv_k, uint32_t q) {
  uint32_t s;

  s = power(inv_k, 6, q);
  return (s * inv_n) % q;
}



/*
 * Store a[i] = (x * y^i) mod q for i=0 to n-1
 */
static void build_power_table(uint32_t *a, uint32_t n, uint32_t q, uint32_t x, uint32_t y) {
  uint32_t i;

  for (i=0; i<n; i++) {
    a[i] = x;
    x = (x * y) % q;
  }
}

/*
 * Store a[t + j] = x^(n/2t) * y^(n/2t)^j * inverse(k)
 * for t=1, 2, ..., n/2 and j=0, ..., t-1
 *
 * a[0] is unused. It's set to 0.
 */
static void build_table(uint32_t *a, uint32_t n, uint32_t q, uint32_t x, uint32_t y, uint32_t inv_k) {
  uint32_t t, j, i;
  uint32_t b, c;

  a[0] = 0;
  i = 1;
  for (t=1; t<n; t <<= 1) {
    b = power(x, n/(2*t), q);
    b = (b * inv_k) % q;
    c = power(y, n/(2*t), q);
    for (j=0; j<t; j++) {
      assert(i == t+j && i < n);
      a[i] = b;
      i ++;
      b = (b * c) % q;
    }
  }
}

/*
 * Store  a[t + j] = x^(n/2t) * y^(n/2t)^ bitrev(j) * inverse(k)
 * for t=1, 2, ..., n/2 and j=0, ..., t-1
 *
 * a[0] is unused. It's set to 0.
 */
static void build_rev_table(uint32_t *a, uint32_t n, uint32_t q, uint32_t x, uint32_t y, uint32_t inv_k) {
  uint32_t t, j, i, k;
  uint32_t b, c;

  a[0] = 0;
  for (t=1, k=0; t<n; t <<= 1, k++) {
    // t is 2^k
    b = power(x, n/(2*t), q);
    b = (b * inv_k) % q;
    c = power(y, n/(2*t), q);
    for (j=0; j<t; j++) {
      i = t + reverse(j, k);
      assert(t <=i && i < 2*t);
      a[i] = b;
      b = (b * c) % q;
    }
  }
}

/*
 * Convert from [0 .. q-1] to [-(q-1)/2, +(q-1)/2]
 */
static int32_t shift(uint32_t x, uint32_t q) {
  assert(x < q);
  return (x <= q/2) ? x : x-q;
}


/*
 * Print table a:
 * - name = string to use for the array + we add the prefix ntt_red<n>
 */
static void print_table(FILE *f, const char* name, uint32_t *a, uint32_t n, uint32_t q) {
  uint32_t i, k;

  k = 0;
  fprintf(f, "const int16_t ntt_red%"PRIu32"_%s[%"PRIu32"] = {\n", n, name, n);
  for (i=0; i<n; i++) {
    if (k == 0) fprintf(f, "   ");
    fprintf(f, " %5"PRId32",", shift(a[i], q));
    k ++;
    if (k == 8) {
      fprintf(f, "\n");
      k = 0;
    }
  }
  if (k > 0) fprintf(f, "\n");
  fprintf(f, "};\n\n");
}


/*
 * Header:
 */
static void print_header(FILE *f, parameters_t *p) {
  fprintf(f,
	  "/*\n"
	  " * Parameters:\n"
	  " * - q = %"PRIu32"\n"
	  " * - k = %"PRIu32"\n"
	  " * - n = %"PRIu32"\n"
	  " * - psi = %"PRIu32"\n"
	  " * - omega = psi^2 = %"PRIu32"\n"
	  " * - inverse of psi = %"PRIu32"\n"
	  " * - inverse of omega = %"PRIu32"\n"
	  " * - inverse of n = %"PRIu32"\n"
	  " * - inverse of k = %"PRIu32"\n"
	  " */\n\n", 
	  p->q, p->k, p->n, p->psi, p->phi,
	  p->inv_psi, p->inv_phi, p->inv_n, p->inv_k);
}

/*
 * Print declarations in file f
 */
static void print_comment(FILE *f, const char *what) {
  fprintf(f, "/*\n * %s\n */\n", what);
}

static void print_param_def(FILE *f, const char *name, uint32_t n, uint32_t val) {
  fprintf(f, "static const int32_t ntt_red%"PRIu32"_%s = %"PRIu32";\n", n, name, val);
}

static void print_table_decl(FILE *f, const char *name, uint32_t n) {
  fprintf(f, "extern const int16_t ntt_red%"PRIu32"_%s[%"PRIu32"];\n", n, name, n);
}

static void print_declarations(FILE *f, parameters_t *p) {
  uint32_t n;

  print_header(f, p);
  n = p->n;

  fprintf(f, "#ifndef __NTT_RED%"PRIu32"_TABLES_H\n", n);
  fprintf(f, "#define __NTT_RED%"PRIu32"_TABLES_H\n\n", n);
  fprintf(f, "#include <stdint.h>\n\n");

  print_comment(f, "PARAMETERS");
  print_param_def(f, "psi", n, p->psi);
  print_param_def(f, "omega", n, p->phi);
  print_param_def(f, "inv_psi", n, p->inv_psi);
  print_param_def(f, "inv_omega", n, p->inv_phi);
  print_param_def(f, "inv_n", n, p->inv_n);
  print_param_def(f, "inv_k", n, p->inv_k);
  print_param_def(f, "rescale8", n, rescale_factor8(p->inv_n, p->inv_k, p->q));
  print_param_def(f, "rescale6", n, rescale_factor6(p->inv_n, p->inv_k, p->q));
  fprintf(f, "\n");

  print_comment(f, "POWERS OF PSI");
  print_table_decl(f, "psi_powers", n);
  print_table_decl(f, "inv_psi_powers", n);
  print_table_decl(f, "scaled_inv_psi_powers", n);
  print_table_decl(f, "scaled_inv_psi_powers_var", n);
  fprintf(f, "\n");

  print_comment(f, "TABLES FOR NTT COMPUTATION");
  print_table_decl(f, "omega_powers", n);
  print_table_decl(f, "omega_powers_rev", n);
  print_table_decl(f, "inv_omega_powers", n);
  print_table_decl(f, "inv_omega_powers_rev", n);
  print_table_decl(f, "mixed_powers", n);
  print_table_decl(f, "mixed_powers_rev", n);
  print_table_decl(f, "inv_mixed_powers", n);
  print_table_decl(f, "inv_mixed_powers_rev", n);
  fprintf(f, "\n");

  fprintf(f, "#endif /* __NTT_RED%"PRIu32"_TABLES_H */\n", n);
}

/*
 * Print table definitions in file f
 */
static void print_tables(FILE *f, parameters_t *p) {
  uint32_t *table;
  uint32_t n, q, s;

  n = p->n;
  q = p->q;

  // allocate the table
  table = (uint32_t *) malloc(n * sizeof(uint32_t));
  if (table == NULL) {
    fprintf(stderr, "failed to allocate table of size %"PRIu32"\n", n);
    exit(EXIT_FAILURE);
  }

  print_header(f, p);

  fprintf(f, "#include \"ntt_red%"PRIu32"_tables.h\"\n\n", n);

  // powers of psi * inverse(k)
  build_power_table(table, n, q, p->inv_k, p->psi);
  print_table(f, "psi_powers", table, n, q);
  build_rev_table(table, n, q, 1, p->psi, p->inv_k);
  print_table(f, "psi_powers_rev", table, n, q);
  build_power_table(table, n, q, p->inv_k, p->inv_psi);
  print_table(f, "inv_psi_powers", table, n, q);

  // scaled table: powers of inv_psi * inverse(n) * inverse(k)^8
  s = rescale_factor8(p->inv_n, p->inv_k, q);
  build_power_table(table, n, q, s, p->inv_psi);
  print_table(f, "scaled_inv_psi_powers", table, n, q);
  // variant: powers of inv_psi * inverse(n) * inverse(k)^6
  s = rescale_factor6(p->inv_n, p->inv_k, q);
  build_power_table(table, n, q, s, p->inv_psi);
  print_table(f, "scaled_inv_psi_powers_var", table, n, q);

  // NTT tables
  build_table(table, n, q, 1, p->phi, p->inv_k);
  print_table(f, "omega_powers", table, n, q);
  build_rev_table(table, n, q, 1, p->phi, p->inv_k);
  print_table(f, "omega_powers_rev", table, n, q);
  build_table(table, n, q, 1, p->inv_phi, p->inv_k);
  print_table(f, "inv_omega_powers", table, n, q);
  build_rev_table(table, n, q, 1, p->inv_phi, p->inv_k);
  print_table(f, "inv_omega_powers_rev", table, n, q);

  build_table(table, n, q, p->psi, p->phi, p->inv_k);
  print_table(f, "mixed_powers", table, n, q);
  build_rev_table(table, n, q, p->psi, p->phi, p->inv_k);
  print_table(f, "mixed_powers_rev", table, n, q);
  build_table(table, n, q, p->inv_psi, p->inv_phi, p->inv_k);
  print_table(f, "inv_mixed_powers", table, n, q);
  build_rev_table(table, n, q, p->inv_psi, p->inv_phi, p->inv_k);
  print_table(f, "inv_mixed_powers_rev", table, n, q);

  free(table);
}

/*
 * Open file: name is "ntt<size>_tables.h" or "ntt<size>_tables.c"
 * - return NULL if we can't create the file
 */
#define BUFFER_SIZE 100

static FILE *open_file(uint32_t n, const char *suffix) {
  char filename[BUFFER_SIZE];
  int len;
  FILE *f;

  f = NULL;
  len = snprintf(filename, BUFFER_SIZE, "ntt_red%"PRIu32"_tables.%s", n, suffix);
  if (len < BUFFER_SIZE) {
    f = fopen(filename, "w");
  }
  return f;
}

int main(int argc, char *argv[]) {
  uint32_t q, k, inv_k, psi, phi, n, log_n, i, inv_n, inv_psi, inv_phi;
  long x;
  parameters_t params;
  FILE *f;

  if (argc != 3) {
    fprintf(stderr, "Usage: %s <size> <psi>\n", argv[0]);
    exit(EXIT_FAILURE);
  }
  q = 12289;

  k = find_k(q);
  if (k == 0 || k >= q) {
    fprintf(stderr, "Extracted k = %"PRIu32", not between 1 and q-1\n", k);
    exit(EXIT_FAILURE);
  }

  // size
  x = atol(argv[1]);
  if (x <= 1) {
    fprintf(stderr, "Invalid size %ld: must be at least 2\n", x);
    exit(EXIT_FAILURE);
  }
  if (x >= 100000) {
    fprintf(stderr, "The size is too large: max = %"PRIu32"\n", (uint32_t)100000);
    exit(EXIT_FAILURE);
  }
  n = (uint32_t) x;
  if (!logtwo(n, &log_n)) {
    fprintf(stderr, "Invalid size: %"PRIu32" is not a power of two\n", n);
    exit(EXIT_FAILURE);
  }

  // psi
  x = atol(argv[2]);
  if (x <= 1 || x >= q) {
    fprintf(stderr, "psi must be between 2 and %"PRIu32"\n", q-1);
    exit(EXIT_FAILURE);
  }
  psi = (uint32_t) x;

  i = power(psi, n, q);
  if (power(psi, n, q) != q-1) {
    fprintf(stderr, "invalid psi: %"PRIu32" is not an n-th root of -1  (%"PRIu32"^n = %"PRIu32")\n", psi, psi, i);
    exit(EXIT_FAILURE);
  }

  phi = (psi * psi) % q;
  assert(is_primitive_root(phi, n, q));
  if (!inverse(psi, q, &inv_psi)) {
    fprintf(stderr, "BUG: failed to compute the inverse of %"PRIu32" modulo %"PRIu32"\n", psi, q);
    exit(EXIT_FAILURE);
  }
  if (!inverse(k, q, &inv_k)) {
    fprintf(stderr, "BUG: failed to compute the inverse of %"PRIu32" modulo %"PRIu32"\n", k, q);
    exit(EXIT_FAILURE);
  }
  if (!inverse(phi, q, &inv_phi)) {
    fprintf(stderr, "BUG: failed to compute the inverse of %"PRIu32" modulo %"PRIu32"\n", phi, q);
    exit(EXIT_FAILURE);
  }
  if (!inverse(n, q, &inv_n)) {
    fprintf(stderr, "BUG: failed to compute the inverse of %"PRIu32" modulo %"PRIu32"\n", n, q);
    exit(EXIT_FAILURE);
  }

  params.q = q;
  params.k = k;
  params.inv_k = inv_k;
  params.n = n;
  params.inv_n = inv_n;
  params.log_n = log_n;
  params.psi = psi;
  params.phi = phi;
  params.inv_psi = inv_psi;
  params.inv_phi = inv_phi;

  f = open_file(n, "h");
  if (f == NULL) {
    fprintf(stderr, "failed to open file 'ntt_red%"PRIu32"_tables.h'\n", n);
    exit(EXIT_FAILURE);
  }
  print_declarations(f, &params);
  fclose(f);

  f = open_file(n, "c");
  if (f == NULL) {
    fprintf(stderr, "failed to open file 'ntt_red%"PRIu32"_tables.h'\n", n);
    exit(EXIT_FAILURE);
  }
  print_tables(f, &params);
  fclose(f);
  
  return 0;
}
"##

/-- `power` -/
def make_red_tables.power : Fun := ⟨(some .u32), [(n!"x", (.int .u32)), (n!"k", (.int .u32)), (n!"q", (.int .u32))],
  (.seq (.decl .u32 n!"y")
  (.seq (.assert (.bin .gt (.var n!"q") (.num 0)))
  (.seq (.assign n!"y" (.num 1))
  (.seq (.while (.bin .ne (.var n!"k") (.num 0))
    (.seq (.ite (.bin .ne (.bin .and (.var n!"k") (.num 1)) (.num 0))
      (.seq (.assign n!"y" (.bin .rem (.bin .mul (.var n!"y") (.var n!"x")) (.var n!"q")))
      .skip)
      .skip)
    (.seq (.assign n!"k" (.bin .shr (.var n!"k") (.num 1)))
    (.seq (.assign n!"x" (.bin .rem (.bin .mul (.var n!"x") (.var n!"x")) (.var n!"q")))
    .skip))))
  (.seq (.ret (.var n!"y"))
  .skip)))))⟩

/-- `inverse` -/
def make_red_tables.inverse : Fun := ⟨(some .bool), [(n!"x", (.int .u32)), (n!"q", (.int .u32)), (n!"inv_x", (.ptr 1))],
  (.seq (.seq (.decl .i32 n!"r1")
   (.seq (.decl .i32 n!"r2")
   (.seq (.decl .i32 n!"u1")
   (.seq (.decl .i32 n!"u2")
   (.seq (.decl .i32 n!"v1")
   (.seq (.decl .i32 n!"v2")
   (.seq (.decl .i32 n!"g")
   (.decl .i32 n!"aux"))))))))
  (.seq (.assign n!"r1" (.var n!"x"))
  (.seq (.assign n!"u1" (.num 1))
  (.seq (.assign n!"v1" (.num 0))
  (.seq (.assign n!"r2" (.var n!"q"))
  (.seq (.seq (.assign n!"u2" (.num 0))
   (.assign n!"v2" (.num 1)))
  (.seq (.while (.bin .gt (.var n!"r2") (.num 0))
    (.seq (.assert (.bin .eq (.var n!"r1") (.bin .add (.bin .mul (.cast .i32 (.var n!"x")) (.var n!"u1")) (.bin .mul (.cast .i32 (.var n!"q")) (.var n!"v1")))))
    (.seq (.assert (.bin .eq (.var n!"r2") (.bin .add (.bin .mul (.cast .i32 (.var n!"x")) (.var n!"u2")) (.bin .mul (.cast .i32 (.var n!"q")) (.var n!"v2")))))
    (.seq (.assert (.bin .ge (.var n!"r1") (.num 0)))
    (.seq (.assign n!"g" (.bin .div (.var n!"r1") (.var n!"r2")))
    (.seq (.assign n!"aux" (.var n!"r1"))
    (.seq (.assign n!"r1" (.var n!"r2"))
    (.seq (.assign n!"r2" (.bin .sub (.var n!"aux") (.bin .mul (.var n!"g") (.var n!"r2"))))
    (.seq (.assign n!"aux" (.var n!"u1"))
    (.seq (.assign n!"u1" (.var n!"u2"))
    (.seq (.assign n!"u2" (.bin .sub (.var n!"aux") (.bin .mul (.var n!"g") (.var n!"u2"))))
    (.seq (.assign n!"aux" (.var n!"v1"))
    (.seq (.assign n!"v1" (.var n!"v2"))
    (.seq (.assign n!"v2" (.bin .sub (.var n!"aux") (.bin .mul (.var n!"g") (.var n!"v2"))))
    .skip))))))))))))))
  (.seq (.ite (.bin .eq (.var n!"r1") (.num 1))
    (.seq (.assign n!"u1" (.bin .rem (.var n!"u1") (.cast .i32 (.var n!"q"))))
    (.seq (.ite (.bin .lt (.var n!"u1") (.num 0))
      (.assign n!"u1" (.bin .add (.var n!"u1") (.var n!"q")))
      .skip)
    (.seq (.assert (.bin .eq (.bin .rem (.bin .mul (.cast .i32 (.var n!"x")) (.var n!"u1")) (.cast .i32 (.var n!"q"))) (.num 1)))
    (.seq (.store (.var n!"inv_x") (.num 0) (.var n!"u1"))
    (.seq (.ret (.num 1))
    .skip)))))
    (.seq (.ret (.num 0))
    .skip))
  .skip))))))))⟩

/-- `logtwo` -/
def make_red_tables.logtwo : Fun := ⟨(some .bool), [(n!"n", (.int .u32)), (n!"k", (.ptr 1))],
  (.seq (.decl .u32 n!"i")
  (.seq (.assign n!"i" (.num 0))
  (.seq (.while (.bin .eq (.bin .and (.var n!"n") (.num 1)) (.num 0))
    (.seq (.assign n!"i" (.bin .add (.var n!"i") (.num 1)))
    (.seq (.assign n!"n" (.bin .shr (.var n!"n") (.num 1)))
    .skip)))
  (.seq (.ite (.bin .eq (.var n!"n") (.num 1))
    (.seq (.store (.var n!"k") (.num 0) (.var n!"i"))
    (.seq (.ret (.num 1))
    .skip))
    .skip)
  (.seq (.ret (.num 0))
  .skip)))))⟩

/-- `reverse` -/
def make_red_tables.reverse : Fun := ⟨(some .u32), [(n!"i", (.int .u32)), (n!"k", (.int .u32))],
  (.seq (.seq (.decl .u32 n!"x")
   (.seq (.decl .u32 n!"b")
   (.decl .u32 n!"j")))
  (.seq (.assign n!"x" (.num 0))
  (.seq (.seq (.assign n!"j" (.num 0))
   (.while (.bin .lt (.var n!"j") (.var n!"k"))
    (.seq (.seq (.assign n!"b" (.bin .and (.var n!"i") (.num 1)))
     (.seq (.assign n!"x" (.bin .or (.bin .shl (.var n!"x") (.num 1)) (.var n!"b")))
     (.seq (.assign n!"i" (.bin .shr (.var n!"i") (.num 1)))
     .skip)))
    (.assign n!"j" (.bin .add (.var n!"j") (.num 1))))))
  (.seq (.ret (.var n!"x"))
  .skip))))⟩

/-- `find_k` -/
def make_red_tables.find_k : Fun := ⟨(some .u32), [(n!"q", (.int .u32))],
  (.seq (.decl .u32 n!"x")
  (.seq (.assign n!"x" (.bin .sub (.var n!"q") (.num 1)))
  (.seq (.while (.bin .eq (.bin .and (.var n!"x") (.num 1)) (.num 0))
    (.seq (.assign n!"x" (.bin .shr (.var n!"x") (.num 1)))
    .skip))
  (.seq (.ret (.var n!"x"))
  .skip))))⟩

/-- `is_primitive_root` -/
def make_red_tables.is_primitive_root : Fun := ⟨(some .bool), [(n!"x", (.int .u32)), (n!"n", (.int .u32)), (n!"q", (.int .u32))],
  (.seq (.decl .u32 n!"i")
  (.seq (.seq (.assign n!"i" (.num 1))
   (.while (.bin .lt (.var n!"i") (.var n!"n"))
    (.seq (.seq (.ite (.bin .eq (.call n!"power" (.cons (.var n!"x") (.cons (.var n!"i") (.cons (.var n!"q") .nil)))) (.num 1))
       (.seq (.ret (.num 0))
       .skip)
       .skip)
     .skip)
    (.assign n!"i" (.bin .add (.var n!"i") (.num 1))))))
  (.seq (.ret (.bin .eq (.call n!"power" (.cons (.var n!"x") (.cons (.var n!"n") (.cons (.var n!"q") .nil)))) (.num 1)))
  .skip)))⟩

/-- `rescale_factor8` -/
def make_red_tables.rescale_factor8 : Fun := ⟨(some .u32), [(n!"inv_n", (.int .u32)), (n!"inv_k", (.int .u32)), (n!"q", (.int .u32))],
  (.seq (.decl .u32 n!"s")
  (.seq (.assign n!"s" (.call n!"power" (.cons (.var n!"inv_k") (.cons (.num 8) (.cons (.var n!"q") .nil)))))
  (.seq (.ret (.bin .rem (.bin .mul (.var n!"s") (.var n!"inv_n")) (.var n!"q")))
  .skip)))⟩

/-- `rescale_factor6` -/
def make_red_tables.rescale_factor6 : Fun := ⟨(some .u32), [(n!"inv_n", (.int .u32)), (n!"inv_k", (.int .u32)), (n!"q", (.int .u32))],
  (.seq (.decl .u32 n!"s")
  (.seq (.assign n!"s" (.call n!"power" (.cons (.var n!"inv_k") (.cons (.num 6) (.cons (.var n!"q") .nil)))))
  (.seq (.ret (.bin .rem (.bin .mul (.var n!"s") (.var n!"inv_n")) (.var n!"q")))
  .skip)))⟩

/-- `build_power_table` -/
def make_red_tables.build_power_table : Fun := ⟨none, [(n!"a", (.ptr 1)), (n!"n", (.int .u32)), (n!"q", (.int .u32)), (n!"x", (.int .u32)), (n!"y", (.int .u32))],
  (.seq (.decl .u32 n!"i")
  (.seq (.seq (.assign n!"i" (.num 0))
   (.while (.bin .lt (.var n!"i") (.var n!"n"))
    (.seq (.seq (.store (.var n!"a") (.var n!"i") (.var n!"x"))
     (.seq (.assign n!"x" (.bin .rem (.bin .mul (.var n!"x") (.var n!"y")) (.var n!"q")))
     .skip))
    (.assign n!"i" (.bin .add (.var n!"i") (.num 1))))))
  .skip))⟩

/-- `build_table` -/
def make_red_tables.build_table : Fun := ⟨none, [(n!"a", (.ptr 1)), (n!"n", (.int .u32)), (n!"q", (.int .u32)), (n!"x", (.int .u32)), (n!"y", (.int .u32)), (n!"inv_k", (.int .u32))],
  (.seq (.seq (.decl .u32 n!"t")
   (.seq (.decl .u32 n!"j")
   (.decl .u32 n!"i")))
  (.seq (.seq (.decl .u32 n!"b")
   (.decl .u32 n!"c"))
  (.seq (.store (.var n!"a") (.num 0) (.num 0))
  (.seq (.assign n!"i" (.num 1))
  (.seq (.seq (.assign n!"t" (.num 1))
   (.while (.bin .lt (.var n!"t") (.var n!"n"))
    (.seq (.seq (.assign n!"b" (.call n!"power" (.cons (.var n!"x") (.cons (.bin .div (.var n!"n") (.bin .mul (.num 2) (.var n!"t"))) (.cons (.var n!"q") .nil)))))
     (.seq (.assign n!"b" (.bin .rem (.bin .mul (.var n!"b") (.var n!"inv_k")) (.var n!"q")))
     (.seq (.assign n!"c" (.call n!"power" (.cons (.var n!"y") (.cons (.bin .div (.var n!"n") (.bin .mul (.num 2) (.var n!"t"))) (.cons (.var n!"q") .nil)))))
     (.seq (.seq (.assign n!"j" (.num 0))
      (.while (.bin .lt (.var n!"j") (.var n!"t"))
       (.seq (.seq (.assert (.land (.bin .eq (.var n!"i") (.bin .add (.var n!"t") (.var n!"j"))) (.bin .lt (.var n!"i") (.var n!"n"))))
        (.seq (.store (.var n!"a") (.var n!"i") (.var n!"b"))
        (.seq (.assign n!"i" (.bin .add (.var n!"i") (.num 1)))
        (.seq (.assign n!"b" (.bin .rem (.bin .mul (.var n!"b") (.var n!"c")) (.var n!"q")))
        .skip))))
       (.assign n!"j" (.bin .add (.var n!"j") (.num 1))))))
     .skip))))
    (.assign n!"t" (.bin .shl (.var n!"t") (.num 1))))))
  .skip)))))⟩

/-- `build_rev_table` -/
def make_red_tables.build_rev_table : Fun := ⟨none, [(n!"a", (.ptr 1)), (n!"n", (.int .u32)), (n!"q", (.int .u32)), (n!"x", (.int .u32)), (n!"y", (.int .u32)), (n!"inv_k", (.int .u32))],
  (.seq (.seq (.decl .u32 n!"t")
   (.seq (.decl .u32 n!"j")
   (.seq (.decl .u32 n!"i")
   (.decl .u32 n!"k"))))
  (.seq (.seq (.decl .u32 n!"b")
   (.decl .u32 n!"c"))
  (.seq (.store (.var n!"a") (.num 0) (.num 0))
  (.seq (.seq (.seq (.assign n!"t" (.num 1))
    (.assign n!"k" (.num 0)))
   (.while (.bin .lt (.var n!"t") (.var n!"n"))
    (.seq (.seq (.assign n!"b" (.call n!"power" (.cons (.var n!"x") (.cons (.bin .div (.var n!"n") (.bin .mul (.num 2) (.var n!"t"))) (.cons (.var n!"q") .nil)))))
     (.seq (.assign n!"b" (.bin .rem (.bin .mul (.var n!"b") (.var n!"inv_k")) (.var n!"q")))
     (.seq (.assign n!"c" (.call n!"power" (.cons (.var n!"y") (.cons (.bin .div (.var n!"n") (.bin .mul (.num 2) (.var n!"t"))) (.cons (.var n!"q") .nil)))))
     (.seq (.seq (.assign n!"j" (.num 0))
      (.while (.bin .lt (.var n!"j") (.var n!"t"))
       (.seq (.seq (.assign n!"i" (.bin .add (.var n!"t") (.call n!"reverse" (.cons (.var n!"j") (.cons (.var n!"k") .nil)))))
        (.seq (.assert (.land (.bin .le (.var n!"t") (.var n!"i")) (.bin .lt (.var n!"i") (.bin .mul (.num 2) (.var n!"t")))))
        (.seq (.store (.var n!"a") (.var n!"i") (.var n!"b"))
        (.seq (.assign n!"b" (.bin .rem (.bin .mul (.var n!"b") (.var n!"c")) (.var n!"q")))
        .skip))))
       (.assign n!"j" (.bin .add (.var n!"j") (.num 1))))))
     .skip))))
    (.seq (.assign n!"t" (.bin .shl (.var n!"t") (.num 1)))
    (.assign n!"k" (.bin .add (.var n!"k") (.num 1)))))))
  .skip))))⟩

/-- `shift` -/
def make_red_tables.shift : Fun := ⟨(some .i32), [(n!"x", (.int .u32)), (n!"q", (.int .u32))],
  (.seq (.assert (.bin .lt (.var n!"x") (.var n!"q")))
  (.seq (.ret (.cond (.bin .le (.var n!"x") (.bin .div (.var n!"q") (.num 2))) (.var n!"x") (.bin .sub (.var n!"x") (.var n!"q"))))
  .skip))⟩

/-- `print_table` -/
def make_red_tables.print_table : Fun := ⟨none, [(n!"f", (.ptr 1)), (n!"name", (.ptr 1)), (n!"a", (.ptr 1)), (n!"n", (.int .u32)), (n!"q", (.int .u32))],
  (.seq (.seq (.decl .u32 n!"i")
   (.decl .u32 n!"k"))
  (.seq (.assign n!"k" (.num 0))
  (.seq (.print (.var n!"f") [.lit n!"const int16_t ntt_red", .u 0, .lit n!"_", .s, .lit n!"[", .u 0, .lit n!"] = {\n"] (.cons (.var n!"n") (.cons (.var n!"name") (.cons (.var n!"n") .nil))))
  (.seq (.seq (.assign n!"i" (.num 0))
   (.while (.bin .lt (.var n!"i") (.var n!"n"))
    (.seq (.seq (.ite (.bin .eq (.var n!"k") (.num 0))
       (.print (.var n!"f") [.lit n!"   "] .nil)
       .skip)
     (.seq (.print (.var n!"f") [.lit n!" ", .d 5, .lit n!","] (.cons (.call n!"shift" (.cons (.idx (.var n!"a") (.var n!"i")) (.cons (.var n!"q") .nil))) .nil))
     (.seq (.assign n!"k" (.bin .add (.var n!"k") (.num 1)))
     (.seq (.ite (.bin .eq (.var n!"k") (.num 8))
       (.seq (.print (.var n!"f") [.lit n!"\n"] .nil)
       (.seq (.assign n!"k" (.num 0))
       .skip))
       .skip)
     .skip))))
    (.assign n!"i" (.bin .add (.var n!"i") (.num 1))))))
  (.seq (.ite (.bin .gt (.var n!"k") (.num 0))
    (.print (.var n!"f") [.lit n!"\n"] .nil)
    .skip)
  (.seq (.print (.var n!"f") [.lit n!"};\n\n"] .nil)
  .skip))))))⟩

/-- `print_header` -/
def make_red_tables.print_header : Fun := ⟨none, [(n!"f", (.ptr 1)), (n!"p", (.ptr 1))],
  (.seq (.print (.var n!"f") [.lit n!"/*\n * Parameters:\n * - q = ", .u 0, .lit n!"\n * - k = ", .u 0, .lit n!"\n * - n = ", .u 0, .lit n!"\n * - psi = ", .u 0, .lit n!"\n * - omega = psi^2 = ", .u 0, .lit n!"\n * - inverse of psi = ", .u 0, .lit n!"\n * - inverse of omega = ", .u 0, .lit n!"\n * - inverse of n = ", .u 0, .lit n!"\n * - inverse of k = ", .u 0, .lit n!"\n */\n\n"] (.cons (.idx (.var n!"p") (.num 0)) (.cons (.idx (.var n!"p") (.num 1)) (.cons (.idx (.var n!"p") (.num 3)) (.cons (.idx (.var n!"p") (.num 6)) (.cons (.idx (.var n!"p") (.num 7)) (.cons (.idx (.var n!"p") (.num 8)) (.cons (.idx (.var n!"p") (.num 9)) (.cons (.idx (.var n!"p") (.num 4)) (.cons (.idx (.var n!"p") (.num 2)) .nil))))))))))
  .skip)⟩

/-- `print_comment` -/
def make_red_tables.print_comment : Fun := ⟨none, [(n!"f", (.ptr 1)), (n!"what", (.ptr 1))],
  (.seq (.print (.var n!"f") [.lit n!"/*\n * ", .s, .lit n!"\n */\n"] (.cons (.var n!"what") .nil))
  .skip)⟩

/-- `print_param_def` -/
def make_red_tables.print_param_def : Fun := ⟨none, [(n!"f", (.ptr 1)), (n!"name", (.ptr 1)), (n!"n", (.int .u32)), (n!"val", (.int .u32))],
  (.seq (.print (.var n!"f") [.lit n!"static const int32_t ntt_red", .u 0, .lit n!"_", .s, .lit n!" = ", .u 0, .lit n!";\n"] (.cons (.var n!"n") (.cons (.var n!"name") (.cons (.var n!"val") .nil))))
  .skip)⟩

/-- `print_table_decl` -/
def make_red_tables.print_table_decl : Fun := ⟨none, [(n!"f", (.ptr 1)), (n!"name", (.ptr 1)), (n!"n", (.int .u32))],
  (.seq (.print (.var n!"f") [.lit n!"extern const int16_t ntt_red", .u 0, .lit n!"_", .s, .lit n!"[", .u 0, .lit n!"];\n"] (.cons (.var n!"n") (.cons (.var n!"name") (.cons (.var n!"n") .nil))))
  .skip)⟩

/-- `print_declarations` -/
def make_red_tables.print_declarations : Fun := ⟨none, [(n!"f", (.ptr 1)), (n!"p", (.ptr 1))],
  (.seq (.decl .u32 n!"n")
  (.seq (.expr (.call n!"print_header" (.cons (.var n!"f") (.cons (.var n!"p") .nil))))
  (.seq (.assign n!"n" (.idx (.var n!"p") (.num 3)))
  (.seq (.print (.var n!"f") [.lit n!"#ifndef __NTT_RED", .u 0, .lit n!"_TABLES_H\n"] (.cons (.var n!"n") .nil))
  (.seq (.print (.var n!"f") [.lit n!"#define __NTT_RED", .u 0, .lit n!"_TABLES_H\n\n"] (.cons (.var n!"n") .nil))
  (.seq (.print (.var n!"f") [.lit n!"#include <stdint.h>\n\n"] .nil)
  (.seq (.expr (.call n!"print_comment" (.cons (.var n!"f") (.cons (.var n!"\"PARAMETERS") .nil))))
  (.seq (.expr (.call n!"print_param_def" (.cons (.var n!"f") (.cons (.var n!"\"psi") (.cons (.var n!"n") (.cons (.idx (.var n!"p") (.num 6)) .nil))))))
  (.seq (.expr (.call n!"print_param_def" (.cons (.var n!"f") (.cons (.var n!"\"omega") (.cons (.var n!"n") (.cons (.idx (.var n!"p") (.num 7)) .nil))))))
  (.seq (.expr (.call n!"print_param_def" (.cons (.var n!"f") (.cons (.var n!"\"inv_psi") (.cons (.var n!"n") (.cons (.idx (.var n!"p") (.num 8)) .nil))))))
  (.seq (.expr (.call n!"print_param_def" (.cons (.var n!"f") (.cons (.var n!"\"inv_omega") (.cons (.var n!"n") (.cons (.idx (.var n!"p") (.num 9)) .nil))))))
  (.seq (.expr (.call n!"print_param_def" (.cons (.var n!"f") (.cons (.var n!"\"inv_n") (.cons (.var n!"n") (.cons (.idx (.var n!"p") (.num 4)) .nil))))))
  (.seq (.expr (.call n!"print_param_def" (.cons (.var n!"f") (.cons (.var n!"\"inv_k") (.cons (.var n!"n") (.cons (.idx (.var n!"p") (.num 2)) .nil))))))
  (.seq (.expr (.call n!"print_param_def" (.cons (.var n!"f") (.cons (.var n!"\"rescale8") (.cons (.var n!"n") (.cons (.call n!"rescale_factor8" (.cons (.idx (.var n!"p") (.num 4)) (.cons (.idx (.var n!"p") (.num 2)) (.cons (.idx (.var n!"p") (.num 0)) .nil)))) .nil))))))
  (.seq (.expr (.call n!"print_param_def" (.cons (.var n!"f") (.cons (.var n!"\"rescale6") (.cons (.var n!"n") (.cons (.call n!"rescale_factor6" (.cons (.idx (.var n!"p") (.num 4)) (.cons (.idx (.var n!"p") (.num 2)) (.cons (.idx (.var n!"p") (.num 0)) .nil)))) .nil))))))
  (.seq (.print (.var n!"f") [.lit n!"\n"] .nil)
  (.seq (.expr (.call n!"print_comment" (.cons (.var n!"f") (.cons (.var n!"\"POWERS OF PSI") .nil))))
  (.seq (.expr (.call n!"print_table_decl" (.cons (.var n!"f") (.cons (.var n!"\"psi_powers") (.cons (.var n!"n") .nil)))))
  (.seq (.expr (.call n!"print_table_decl" (.cons (.var n!"f") (.cons (.var n!"\"inv_psi_powers") (.cons (.var n!"n") .nil)))))
  (.seq (.expr (.call n!"print_table_decl" (.cons (.var n!"f") (.cons (.var n!"\"scaled_inv_psi_powers") (.cons (.var n!"n") .nil)))))
  (.seq (.expr (.call n!"print_table_decl" (.cons (.var n!"f") (.cons (.var n!"\"scaled_inv_psi_powers_var") (.cons (.var n!"n") .nil)))))
  (.seq (.print (.var n!"f") [.lit n!"\n"] .nil)
  (.seq (.expr (.call n!"print_comment" (.cons (.var n!"f") (.cons (.var n!"\"TABLES FOR NTT COMPUTATION") .nil))))
  (.seq (.expr (.call n!"print_table_decl" (.cons (.var n!"f") (.cons (.var n!"\"omega_powers") (.cons (.var n!"n") .nil)))))
  (.seq (.expr (.call n!"print_table_decl" (.cons (.var n!"f") (.cons (.var n!"\"omega_powers_rev") (.cons (.var n!"n") .nil)))))
  (.seq (.expr (.call n!"print_table_decl" (.cons (.var n!"f") (.cons (.var n!"\"inv_omega_powers") (.cons (.var n!"n") .nil)))))
  (.seq (.expr (.call n!"print_table_decl" (.cons (.var n!"f") (.cons (.var n!"\"inv_omega_powers_rev") (.cons (.var n!"n") .nil)))))
  (.seq (.expr (.call n!"print_table_decl" (.cons (.var n!"f") (.cons (.var n!"\"mixed_powers") (.cons (.var n!"n") .nil)))))
  (.seq (.expr (.call n!"print_table_decl" (.cons (.var n!"f") (.cons (.var n!"\"mixed_powers_rev") (.cons (.var n!"n") .nil)))))
  (.seq (.expr (.call n!"print_table_decl" (.cons (.var n!"f") (.cons (.var n!"\"inv_mixed_powers") (.cons (.var n!"n") .nil)))))
  (.seq (.expr (.call n!"print_table_decl" (.cons (.var n!"f") (.cons (.var n!"\"inv_mixed_powers_rev") (.cons (.var n!"n") .nil)))))
  (.seq (.print (.var n!"f") [.lit n!"\n"] .nil)
  (.seq (.print (.var n!"f") [.lit n!"#endif /* __NTT_RED", .u 0, .lit n!"_TABLES_H */\n"] (.cons (.var n!"n") .nil))
  .skip)))))))))))))))))))))))))))))))))⟩

/-- `print_tables` -/
def make_red_tables.print_tables : Fun := ⟨none, [(n!"f", (.ptr 1)), (n!"p", (.ptr 1))],
  (.seq (.decl .u32 n!"table")
  (.seq (.seq (.decl .u32 n!"n")
   (.seq (.decl .u32 n!"q")
   (.decl .u32 n!"s")))
  (.seq (.assign n!"n" (.idx (.var n!"p") (.num 3)))
  (.seq (.assign n!"q" (.idx (.var n!"p") (.num 0)))
  (.seq (.alloc n!"table" .u32 (.var n!"n"))
  (.seq (.ite (.bin .eq (.var n!"table") (.num 0))
    (.seq (.print (.var n!"stderr") [.lit n!"failed to allocate table of size ", .u 0, .lit n!"\n"] (.cons (.var n!"n") .nil))
    (.seq (.expr (.call n!"exit" (.cons (.var n!"EXIT_FAILURE") .nil)))
    .skip))
    .skip)
  (.seq (.expr (.call n!"print_header" (.cons (.var n!"f") (.cons (.var n!"p") .nil))))
  (.seq (.print (.var n!"f") [.lit n!"#include \"ntt_red", .u 0, .lit n!"_tables.h\"\n\n"] (.cons (.var n!"n") .nil))
  (.seq (.expr (.call n!"build_power_table" (.cons (.var n!"table") (.cons (.var n!"n") (.cons (.var n!"q") (.cons (.idx (.var n!"p") (.num 2)) (.cons (.idx (.var n!"p") (.num 6)) .nil)))))))
  (.seq (.expr (.call n!"print_table" (.cons (.var n!"f") (.cons (.var n!"\"psi_powers") (.cons (.var n!"table") (.cons (.var n!"n") (.cons (.var n!"q") .nil)))))))
  (.seq (.expr (.call n!"build_rev_table" (.cons (.var n!"table") (.cons (.var n!"n") (.cons (.var n!"q") (.cons (.num 1) (.cons (.idx (.var n!"p") (.num 6)) (.cons (.idx (.var n!"p") (.num 2)) .nil))))))))
  (.seq (.expr (.call n!"print_table" (.cons (.var n!"f") (.cons (.var n!"\"psi_powers_rev") (.cons (.var n!"table") (.cons (.var n!"n") (.cons (.var n!"q") .nil)))))))
  (.seq (.expr (.call n!"build_power_table" (.cons (.var n!"table") (.cons (.var n!"n") (.cons (.var n!"q") (.cons (.idx (.var n!"p") (.num 2)) (.cons (.idx (.var n!"p") (.num 8)) .nil)))))))
  (.seq (.expr (.call n!"print_table" (.cons (.var n!"f") (.cons (.var n!"\"inv_psi_powers") (.cons (.var n!"table") (.cons (.var n!"n") (.cons (.var n!"q") .nil)))))))
  (.seq (.assign n!"s" (.call n!"rescale_factor8" (.cons (.idx (.var n!"p") (.num 4)) (.cons (.idx (.var n!"p") (.num 2)) (.cons (.var n!"q") .nil)))))
  (.seq (.expr (.call n!"build_power_table" (.cons (.var n!"table") (.cons (.var n!"n") (.cons (.var n!"q") (.cons (.var n!"s") (.cons (.idx (.var n!"p") (.num 8)) .nil)))))))
  (.seq (.expr (.call n!"print_table" (.cons (.var n!"f") (.cons (.var n!"\"scaled_inv_psi_powers") (.cons (.var n!"table") (.cons (.var n!"n") (.cons (.var n!"q") .nil)))))))
  (.seq (.assign n!"s" (.call n!"rescale_factor6" (.cons (.idx (.var n!"p") (.num 4)) (.cons (.idx (.var n!"p") (.num 2)) (.cons (.var n!"q") .nil)))))
  (.seq (.expr (.call n!"build_power_table" (.cons (.var n!"table") (.cons (.var n!"n") (.cons (.var n!"q") (.cons (.var n!"s") (.cons (.idx (.var n!"p") (.num 8)) .nil)))))))
  (.seq (.expr (.call n!"print_table" (.cons (.var n!"f") (.cons (.var n!"\"scaled_inv_psi_powers_var") (.cons (.var n!"table") (.cons (.var n!"n") (.cons (.var n!"q") .nil)))))))
  (.seq (.expr (.call n!"build_table" (.cons (.var n!"table") (.cons (.var n!"n") (.cons (.var n!"q") (.cons (.num 1) (.cons (.idx (.var n!"p") (.num 7)) (.cons (.idx (.var n!"p") (.num 2)) .nil))))))))
  (.seq (.expr (.call n!"print_table" (.cons (.var n!"f") (.cons (.var n!"\"omega_powers") (.cons (.var n!"table") (.cons (.var n!"n") (.cons (.var n!"q") .nil)))))))
  (.seq (.expr (.call n!"build_rev_table" (.cons (.var n!"table") (.cons (.var n!"n") (.cons (.var n!"q") (.cons (.num 1) (.cons (.idx (.var n!"p") (.num 7)) (.cons (.idx (.var n!"p") (.num 2)) .nil))))))))
  (.seq (.expr (.call n!"print_table" (.cons (.var n!"f") (.cons (.var n!"\"omega_powers_rev") (.cons (.var n!"table") (.cons (.var n!"n") (.cons (.var n!"q") .nil)))))))
  (.seq (.expr (.call n!"build_table" (.cons (.var n!"table") (.cons (.var n!"n") (.cons (.var n!"q") (.cons (.num 1) (.cons (.idx (.var n!"p") (.num 9)) (.cons (.idx (.var n!"p") (.num 2)) .nil))))))))
  (.seq (.expr (.call n!"print_table" (.cons (.var n!"f") (.cons (.var n!"\"inv_omega_powers") (.cons (.var n!"table") (.cons (.var n!"n") (.cons (.var n!"q") .nil)))))))
  (.seq (.expr (.call n!"build_rev_table" (.cons (.var n!"table") (.cons (.var n!"n") (.cons (.var n!"q") (.cons (.num 1) (.cons (.idx (.var n!"p") (.num 9)) (.cons (.idx (.var n!"p") (.num 2)) .nil))))))))
  (.seq (.expr (.call n!"print_table" (.cons (.var n!"f") (.cons (.var n!"\"inv_omega_powers_rev") (.cons (.var n!"table") (.cons (.var n!"n") (.cons (.var n!"q") .nil)))))))
  (.seq (.expr (.call n!"build_table" (.cons (.var n!"table") (.cons (.var n!"n") (.cons (.var n!"q") (.cons (.idx (.var n!"p") (.num 6)) (.cons (.idx (.var n!"p") (.num 7)) (.cons (.idx (.var n!"p") (.num 2)) .nil))))))))
  (.seq (.expr (.call n!"print_table" (.cons (.var n!"f") (.cons (.var n!"\"mixed_powers") (.cons (.var n!"table") (.cons (.var n!"n") (.cons (.var n!"q") .nil)))))))
  (.seq (.expr (.call n!"build_rev_table" (.cons (.var n!"table") (.cons (.var n!"n") (.cons (.var n!"q") (.cons (.idx (.var n!"p") (.num 6)) (.cons (.idx (.var n!"p") (.num 7)) (.cons (.idx (.var n!"p") (.num 2)) .nil))))))))
  (.seq (.expr (.call n!"print_table" (.cons (.var n!"f") (.cons (.var n!"\"mixed_powers_rev") (.cons (.var n!"table") (.cons (.var n!"n") (.cons (.var n!"q") .nil)))))))
  (.seq (.expr (.call n!"build_table" (.cons (.var n!"table") (.cons (.var n!"n") (.cons (.var n!"q") (.cons (.idx (.var n!"p") (.num 8)) (.cons (.idx (.var n!"p") (.num 9)) (.cons (.idx (.var n!"p") (.num 2)) .nil))))))))
  (.seq (.expr (.call n!"print_table" (.cons (.var n!"f") (.cons (.var n!"\"inv_mixed_powers") (.cons (.var n!"table") (.cons (.var n!"n") (.cons (.var n!"q") .nil)))))))
  (.seq (.expr (.call n!"build_rev_table" (.cons (.var n!"table") (.cons (.var n!"n") (.cons (.var n!"q") (.cons (.idx (.var n!"p") (.num 8)) (.cons (.idx (.var n!"p") (.num 9)) (.cons (.idx (.var n!"p") (.num 2)) .nil))))))))
  (.seq (.expr (.call n!"print_table" (.cons (.var n!"f") (.cons (.var n!"\"inv_mixed_powers_rev") (.cons (.var n!"table") (.cons (.var n!"n") (.cons (.var n!"q") .nil)))))))
  (.seq (.free n!"table")
  .skip)))))))))))))))))))))))))))))))))))))⟩

/-- The functions of the file. -/
def make_red_tables : Prog := [
  (n!"power", make_red_tables.power),
  (n!"inverse", make_red_tables.inverse),
  (n!"logtwo", make_red_tables.logtwo),
  (n!"reverse", make_red_tables.reverse),
  (n!"find_k", make_red_tables.find_k),
  (n!"is_primitive_root", make_red_tables.is_primitive_root),
  (n!"rescale_factor8", make_red_tables.rescale_factor8),
  (n!"rescale_factor6", make_red_tables.rescale_factor6),
  (n!"build_power_table", make_red_tables.build_power_table),
  (n!"build_table", make_red_tables.build_table),
  (n!"build_rev_table", make_red_tables.build_rev_table),
  (n!"shift", make_red_tables.shift),
  (n!"print_table", make_red_tables.print_table),
  (n!"print_header", make_red_tables.print_header),
  (n!"print_comment", make_red_tables.print_comment),
  (n!"print_param_def", make_red_tables.print_param_def),
  (n!"print_table_decl", make_red_tables.print_table_decl),
  (n!"print_declarations", make_red_tables.print_declarations),
  (n!"print_tables", make_red_tables.print_tables)]

/-- What is read from the text. -/
theorem make_red_tables_read : readSome make_red_tables_text = make_red_tables := by decide +kernel

end CLang.Src
