import Verif.Model.CRead

/-
The text of src/sort.c, and its functions as read by `CLang.readSome`.
Written by tools/gensrc.py.
-/

namespace CLang.Src

/-- src/sort.c -/
def sort_text : Nat := text! r#"/*
 * BASIC SORT FOR INTEGER ARRAYS
 */

#include "sort.h"

static void qsort_int_array(uint64_t *a, uint32_t n);

// insertion sort
static void isort_int_array(uint64_t *a, uint32_t n) {
  uint32_t i, j;
  uint64_t x, y;

  for (i=1; i<n; i++) {
    x = a[i];
    j = 0;
    while (a[j] < x) j ++;
    while (j < i) {
      y = a[j]; a[j] = x; x = y;
      j ++;
    }
    a[j] = x;
  }
}

static inline void sort_array(uint64_t *a, uint32_t n) {
  if (n < 10) {
    isort_int_array(a, n);
  } else {
    qsort_int_array(a, n);
  }
}

// quick sort: requires n > 1
static void qsort_int_array(uint64_t *a, uint32_t n) {
  uint32_t i, j;
  uint64_t x, y;

  // x = random pivot
  i = n/2;
  x = a[i];

  // swap x and a[0]
  a[i] = a[0];
  a[0] = x;

  i = 0;
  j = n;

  do { j--; } while (a[j] > x);
  do { i++; } while (i <= j && a[i] < x);

  while (i < j) {
    y = a[i]; a[i] = a[j]; a[j] = y;

    do { j--; } while (a[j] > x);
    do { i++; } while (a[i] < x);
  }

  // pivot goes into a[j]
  a[0] = a[j];
  a[j] = x;

  // sort a[0...j-1] and a[j+1 .. n-1]
  sort_array(a, j);
  j++;
  sort_array(a + j, n - j);
}


/*
 * External call
 */
void sort(uint64_t *a, uint32_t n) {
  sort_array(a, n);
}
"#

/-- `isort_int_array` -/
def sort.isort_int_array : Fun := ⟨none, [(n!"a", (.ptr 1)), (n!"n", (.int .u32))],
  (.seq (.seq (.decl .u32 n!"i")
   (.decl .u32 n!"j"))
  (.seq (.seq (.decl .u64 n!"x")
   (.decl .u64 n!"y"))
  (.seq (.seq (.assign n!"i" (.num 1))
   (.while (.bin .lt (.var n!"i") (.var n!"n"))
    (.seq (.seq (.assign n!"x" (.idx (.var n!"a") (.var n!"i")))
     (.seq (.assign n!"j" (.num 0))
     (.seq (.while (.bin .lt (.idx (.var n!"a") (.var n!"j")) (.var n!"x"))
       (.assign n!"j" (.bin .add (.var n!"j") (.num 1))))
     (.seq (.while (.bin .lt (.var n!"j") (.var n!"i"))
       (.seq (.assign n!"y" (.idx (.var n!"a") (.var n!"j")))
       (.seq (.store (.var n!"a") (.var n!"j") (.var n!"x"))
       (.seq (.assign n!"x" (.var n!"y"))
       (.seq (.assign n!"j" (.bin .add (.var n!"j") (.num 1)))
       .skip)))))
     (.seq (.store (.var n!"a") (.var n!"j") (.var n!"x"))
     .skip)))))
    (.assign n!"i" (.bin .add (.var n!"i") (.num 1))))))
  .skip)))⟩

/-- `sort_array` -/
def sort.sort_array : Fun := ⟨none, [(n!"a", (.ptr 1)), (n!"n", (.int .u32))],
  (.seq (.ite (.bin .lt (.var n!"n") (.num 10))
    (.seq (.expr (.call n!"isort_int_array" (.cons (.var n!"a") (.cons (.var n!"n") .nil))))
    .skip)
    (.seq (.expr (.call n!"qsort_int_array" (.cons (.var n!"a") (.cons (.var n!"n") .nil))))
    .skip))
  .skip)⟩

/-- `qsort_int_array` -/
def sort.qsort_int_array : Fun := ⟨none, [(n!"a", (.ptr 1)), (n!"n", (.int .u32))],
  (.seq (.seq (.decl .u32 n!"i")
   (.decl .u32 n!"j"))
  (.seq (.seq (.decl .u64 n!"x")
   (.decl .u64 n!"y"))
  (.seq (.assign n!"i" (.bin .div (.var n!"n") (.num 2)))
  (.seq (.assign n!"x" (.idx (.var n!"a") (.var n!"i")))
  (.seq (.store (.var n!"a") (.var n!"i") (.idx (.var n!"a") (.num 0)))
  (.seq (.store (.var n!"a") (.num 0) (.var n!"x"))
  (.seq (.assign n!"i" (.num 0))
  (.seq (.assign n!"j" (.var n!"n"))
  (.seq (.doWhile (.seq (.assign n!"j" (.bin .sub (.var n!"j") (.num 1)))
    .skip) (.bin .gt (.idx (.var n!"a") (.var n!"j")) (.var n!"x")))
  (.seq (.doWhile (.seq (.assign n!"i" (.bin .add (.var n!"i") (.num 1)))
    .skip) (.land (.bin .le (.var n!"i") (.var n!"j")) (.bin .lt (.idx (.var n!"a") (.var n!"i")) (.var n!"x"))))
  (.seq (.while (.bin .lt (.var n!"i") (.var n!"j"))
    (.seq (.assign n!"y" (.idx (.var n!"a") (.var n!"i")))
    (.seq (.store (.var n!"a") (.var n!"i") (.idx (.var n!"a") (.var n!"j")))
    (.seq (.store (.var n!"a") (.var n!"j") (.var n!"y"))
    (.seq (.doWhile (.seq (.assign n!"j" (.bin .sub (.var n!"j") (.num 1)))
      .skip) (.bin .gt (.idx (.var n!"a") (.var n!"j")) (.var n!"x")))
    (.seq (.doWhile (.seq (.assign n!"i" (.bin .add (.var n!"i") (.num 1)))
      .skip) (.bin .lt (.idx (.var n!"a") (.var n!"i")) (.var n!"x")))
    .skip))))))
  (.seq (.store (.var n!"a") (.num 0) (.idx (.var n!"a") (.var n!"j")))
  (.seq (.store (.var n!"a") (.var n!"j") (.var n!"x"))
  (.seq (.expr (.call n!"sort_array" (.cons (.var n!"a") (.cons (.var n!"j") .nil))))
  (.seq (.assign n!"j" (.bin .add (.var n!"j") (.num 1)))
  (.seq (.expr (.call n!"sort_array" (.cons (.bin .add (.var n!"a") (.var n!"j")) (.cons (.bin .sub (.var n!"n") (.var n!"j")) .nil))))
  .skip))))))))))))))))⟩

/-- `sort` -/
def sort.sort : Fun := ⟨none, [(n!"a", (.ptr 1)), (n!"n", (.int .u32))],
  (.seq (.expr (.call n!"sort_array" (.cons (.var n!"a") (.cons (.var n!"n") .nil))))
  .skip)⟩

/-- The functions of the file. -/
def sort : Prog := [
  (n!"isort_int_array", sort.isort_int_array),
  (n!"sort_array", sort.sort_array),
  (n!"qsort_int_array", sort.qsort_int_array),
  (n!"sort", sort.sort)]

/-- What is read from the text. -/
theorem sort_read : readSome sort_text = sort := by decide +kernel

end CLang.Src
