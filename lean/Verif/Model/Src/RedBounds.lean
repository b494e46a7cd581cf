import Verif.Model.CRead

/-
The text of src/red_bounds.c, and its functions as read by `CLang.readSome`.
Written by tools/gensrc.py.
-/

namespace CLang.Src

/-- src/red_bounds.c -/
def red_bounds_text : Nat := text! r#"#include <assert.h>
#include <stdio.h>
#include <inttypes.h>

#include "red_bounds.h"

/*
 * 12289 is 3 * 2^12 + 1
 * MASK = 2^12 - 1
 */
#define Q 12289
#define K 3
#define MASK 4095


static int64_t red(int64_t x) {
  return (3 * (x & 4095)) - (x >> 12);
}

static int64_t divd(int64_t x) {
  return x >> 12;
}

static int64_t remd(int64_t x) {
  return x & 4095;
}


/*
 * BOUNDS ON RED(x)
 */

/*
 * Maximum of red(x) for a <= x <= b
 * - red(x) is returned, x is stored in *m
 */
int64_t max_red(int64_t a, int64_t b, int64_t *m) {
  int64_t d, r;
  
  assert(a <= b);

  d = a | 4095;
  d = (d <= b) ? d : b;
  r = red(d);
  *m = d;

  return r;
}

/*
 * Minimum of red(x) for a <= x <= b
 */
int64_t min_red(int64_t a, int64_t b, int64_t *m) {
  int64_t d, r;

  assert(a <= b);

  d = b & ~4095;
  d = (d >= a) ? d : a;
  r = red(d);
  *m = d;
  return r;
}



/*
 * BOUNDS ON RED(w * x)
 */

/*
 * GCD of w and 4096
 */
static int64_t gcd4096(int64_t w) {
  int64_t g;

  g = 1;
  while ((w & 1) == 0) {
    g <<= 1;
    w >>= 1;
  }
  // g is the largest power of two that divides w
  return (g < 4096) ? g : 4096;
}

/*
 * Largest y such that (w x)>>12 == (w y)>>12 are equal.
 * So, for any z such that x <= z <= y, we have red(w y) >= red(w z).
 */
static int64_t lmax(int64_t w, int64_t x) {
  int64_t y, k;

  k = (4095 - ((w * x) & 4095))/w;  // floor((4096 - 1 - r0)/w) where r0 = (w * x) & 4095
  y =  x + k;
  assert((w * y) >> 12 == (w * x) >> 12);
  assert((w * (y+1)) >> 12 > (w * x) >> 12);

  return y;
}


/*
 * Maximum of red(w x) for a <= x <= b
 */
int64_t max_red_mul(int64_t a, int64_t b, int64_t w, int64_t *m) {
  int64_t pw, g, h, x, r, x_max, r_max;
  
  assert(a <= b);

  // pw = |w|. 
  // If w<0, we change a <= x <= b to -b <= -x <= -a
  pw = w;
  if (w < 0) {
    x = -a; a = -b; b = x;
    pw = -w;
  }

  x_max = b;
  r_max = red(pw * b);

  // The remainder of (w * x) by 4096 is a multiple of gcd(4096, w)
  // so it's at most h = 4096 - gcd(4096, w).
  // We then have red(w * x) <= - divd(w * x) + g,
  h = 4096 - gcd4096(w);
  g = 3 * h;

  x = a;
  for (;;) {
    x = lmax(pw, x);
    if (x >= b || - divd(pw * x) + g <= r_max) break;
    r = red(pw * x);
    if (r > r_max) {
      x_max = x;
      r_max = r;
      if (remd(pw * x) == h) {
	// this is the largest possible remainder
	// so r_max >= red(pw * y) when y >= x.
	break;
      }
    }
    x ++;
  }

  if (w < 0) x_max = - x_max;

  *m = x_max;
  return r_max;
}


/*
 * Smallest y such that (w x) >> 12 == (w y) >> 12.
 * For any z such that y <= z <= x, we have red(w y) <= red(w z).
 */
static int64_t lmin(int64_t w, int64_t x) {
  int64_t y, k;

  k = ((w * x) & 4095)/w;
  y = x - k;
  assert((w * y) >> 12 == (w * x) >> 12);
  assert((w * (y - 1)) >> 12 < (w * x) >> 12);

  return y;
}

/*
 * Minimum of red(w*x) for a <= x <= b
 */
int64_t min_red_mul(int64_t a, int64_t b, int64_t w, int64_t *m) {
  int64_t pw, x, r, x_min, r_min;
  
  assert(a <= b);

  // pw = |w|. 
  // If w<0, we change a <= x <= b to -b <= -x <= -a
  pw = w;
  if (w < 0) {
    x = -a; a = -b; b = x;
    pw = -w;
  }

  x_min = a;
  r_min = red(pw * a);

  x = b;
  for (;;) {
    x = lmin(pw, x);
    if (x <= a || -divd(pw * x) >= r_min) break;
    r = red(pw * x);
    if (r < r_min) {
      x_min = x;
      r_min = r;
      if (remd(pw * x) == 0) {	
	break;
      }
    }
    x --;
  }

  if (w < 0) x_min = - x_min;

  *m = x_min;
  return r_min;
}



/*
 * Maximum of red(w * x) for a <= x <= b and low <= w <= high.
 */
int64_t max_red_mul_interval(int64_t a, int64_t b, int64_t low, int64_t high, int64_t *m, int64_t *mw) {
  int64_t r_max, x_max, w_max, r, x, w, d, l, h;

  assert(a <= b && low <= high);

  r_max = 0;
  x_max = 0;
  w_max = 0;

  // negative values of w: l <= w < h
  l = low < 0 ? low : 0;
  h = high >= 0 ? 0 : high + 1;
  for (w = l; w < h;  w++) {
    assert(w < 0);

    // d = min (w*x)/2^m for |x| <= b
    // so red(w*x) <= -d + 3*4095 for |x| <= b
    // also for any w' such that w <= w' < 0
    d = divd(w * b);
    if ( -d + 3 * 4095 <= r_max) {
      break;
    }
    r = max_red_mul(a, b, w, &x);
    if (r > r_max) {
      r_max = r;
      x_max = x;
      w_max = w;
    }
  }

  // positive values of w: l < w <= h
  l = low <= 0 ? 0 : low - 1;
  h = high > 0 ? high : 0;
  for (w = h; w > l; w --) {
    assert(w > 0);

    // min of (w*x)/2^m is -(w * b)/2^m
    d = divd(- w * b);
    if ( -d + 3 * 4095 <= r_max) {
      break;
    }
    r = max_red_mul(a, b, w, &x);
    if (r > r_max) {
      r_max = r;
      x_max = x;
      w_max = w;
    }
  }

  *m = x_max;
  *mw = w_max;

  return r_max;
}

 /*
  * Minimum of red(x * w) for a <= x <= b and low <= w <= high
  */
int64_t min_red_mul_interval(int64_t a, int64_t b, int64_t low, int64_t high, int64_t *m, int64_t *wm) {
   int64_t r_min, x_min, w_min, r, x, w, d, l, h;

   assert(a <= b && low <= high);

   r_min = 0;
   x_min = 0;
   w_min = 0;

   // negative values of w
   l = low < 0 ? low : 0;
   h = high > 0 ? 0 : high + 1;
   for (w = l; w < h; w++) {
     assert(w < 0);
     // d = max of (w * b)/2^m
     // -b <= x ==> w * x <= -b w ==> divd(w * x) <= divd(-w * b) ==> - div(w * x) >= - d
     // ==> red(wx) >= -d
     d = divd(- w * b);
     if (-d >= r_min) {
       break;
     }
     r = min_red_mul(a, b, w, &x);
     if (r < r_min) {
       r_min = r;
       x_min = x;
       w_min = w;
     }
   }

   // positive values of w
   l = low < 0 ? 0 : low - 1;
   h = high > 0 ? high : 0;
   for (w=h; w>l; w--) {
     assert(w > 0);

     d = divd(w * b); // max of (w * b)/2^m for |x| <= b
     if (-d >= r_min) {
       break;
     }
     r = min_red_mul(a, b, w, &x);
     if (r < r_min) {
       r_min = r;
       x_min = x;
       w_min = w;
     }
   }

   *m = x_min;
   *wm = w_min;

   return r_min;
}


/*
 * BOUND INCREASE IN NTT ALGORITHMS
 */

/*
 * Bound after CT step
 * - we assume |x| <= b and |y| <= b
 * - we want b' such that |x'| <= b' and |y'| <= b'  after executing
 *      x' = x + red(w * y)
 *      y' = x - red(w * y)
 *  for the worst-case w in interval [low, high].
 */
int64_t ct_bound(int64_t b, int64_t low, int64_t high) {
  int64_t min_r, max_r, min_y, min_w, max_y, max_w, b1, b2;

  assert(b >= 0 && low <= high);

  // min and max of red(w * y)
  min_r = min_red_mul_interval(-b, b, low, high, &min_y, &min_w);
  max_r = max_red_mul_interval(-b, b, low, high, &max_y, &max_w);

  // we have -b + min_r <= x' <= b + max_r
  // and     -b - max_r <= y' <= b - min_r
  b1 = b + max_r;
  b2 = b - min_r;
  if (b1 < 0) b1 = -b1;
  if (b2 < 0) b2 = -b2;

  return (b1 < b2) ? b2 : b1;
}


/*
 * Bounds after GS step: same as CT but the updates are
 *  x' = x + y
 *  y' = (x - y) * w.
 */
int64_t gs_bound(int64_t b, int64_t low, int64_t high) {
  int64_t min_r, max_r, min_w, max_w, min_d, max_d, b1, b2;

  assert(b >= 0 && low <= high);

  // | x - y| <= 2b
  min_r = min_red_mul_interval(-2 * b, 2 * b, low, high, &min_d, &min_w);
  max_r = max_red_mul_interval(-2 * b, 2 * b, low, high, &max_d, &max_w);

  // we have min_r <= y' <= max_r and -2b <= x <= 2b 
  // b1 = bound on |y'|, b2 = boud on |x'|
  b1 = (max_r < 0) ? -min_r : (min_r > 0) ? max_r : (max_r > -min_r) ? max_r : -min_r;
  b2 = 2 * b;

  return (b1 < b2) ? b2 : b1;
}

/*
 * Bounds after a CT step with a fixed w
 */
int64_t ct_bound_fixed(int64_t b, int64_t w) {
  int64_t min_r, max_r, min_y, max_y, b1, b2;

  assert(b >= 0);

  // min and max or red(w * y) for -b <= y <= b
  min_r = min_red_mul(-b, b, w, &min_y);
  max_r = max_red_mul(-b, b, w, &max_y);

  // we have -b + min_r <= x' <= b + max_r
  // and     -b - max_r <= y' <= b - min_r
  b1 = b + max_r;
  b2 = b - min_r;
  if (b1 < 0) b1 = -b1;
  if (b2 < 0) b2 = -b2;

  return (b1 < b2) ? b2 : b1;
}


/*
 * Bounds after a GS step with a fixed w
 */
int64_t gs_bound_fixed(int64_t b, int64_t w) {
  int64_t min_r, max_r, min_y, max_y, b1, b2;

  assert(b >= 0);

  // min and max or red(w * (x -y)) given |x - y| <= 2b
  min_r = min_red_mul(-2*b, 2*b, w, &min_y);
  max_r = max_red_mul(-2*b, 2*b, w, &max_y);

  // we have min_r <= y' <= max_r and -2b <= x <= 2b 
  // b1 = bound on |y'|, b2 = boud on |x'|
  b1 = (max_r < 0) ? -min_r : (min_r > 0) ? max_r : (max_r > -min_r) ? max_r : -min_r;
  b2 = 2 * b;

  return (b1 < b2) ? b2 : b1;
}


/*
 * Bounds after ntt computations based on Cooley Tukey
 * - b0 = bound on the input
 * - p = array of coefficients used in the algorithm
 *   p[t + i] = omega^(n/2t)^i (or a variant of this).
 * We assume the input coefficients a[i] satisfy |a[i]| <= b0,
 */
int64_t ntt_ct_bounds(int64_t b0, uint32_t n, const int16_t *p, int64_t *bound) {
  uint32_t j, t, k;
  int64_t b, c, d;

  b = b0;
  k = 0;
  bound[k] = b0;
  for (t=1; t<n; t<<=1) {
    k ++;
    /*
     * Each iteration modifies array a[0 ... n-1] in place. For
     * i=0...n-1, we have |a[i]| <= b on entry to the iteration.
     *
     * c is the max of ct_bound for j=0 .. t-1
     */
    c = ct_bound_fixed(b, p[t]);
    for (j=1; j<t; j++) {
      d = ct_bound_fixed(b, p[t + j]);
      if (d > c) c = d;
    }
    bound[k] = c;
    b = c;
  }

  return b;
}


/*
 * Bounds after ntt computations based on Gentleman Sande
 * - b0 = bound on the input
 * - p = array of coefficients used in the algorithm
 *   p[t + i] = omega^(n/2t)^i (or a variant of this).
 * We assume the input coefficients a[i] satisfy |a[i]| <= b0,
 */
int64_t ntt_gs_bounds(int64_t b0, uint32_t n, const int16_t *p, int64_t *bound) {
  uint32_t t, j, k;
  int64_t b, c, d;

  b = b0;
  k = 0;
  bound[k] = b0;
  for (t=n/2; t>0; t>>=1) {
    k ++;
    c = gs_bound_fixed(b, p[t]);
    for (j=1; j<t; j++) {
      d = gs_bound_fixed(b, p[t + j]);
      if (d > c) c = d;
    }
    bound[k] = c;
    b = c;
  }

  return b;
}
"#

/-- `red` -/
def red_bounds.red : Fun := ⟨(some .i64), [(n!"x", (.int .i64))],
  (.seq (.ret (.bin .sub (.bin .mul (.num 3) (.bin .and (.var n!"x") (.num 4095))) (.bin .shr (.var n!"x") (.num 12))))
  .skip)⟩

/-- `divd` -/
def red_bounds.divd : Fun := ⟨(some .i64), [(n!"x", (.int .i64))],
  (.seq (.ret (.bin .shr (.var n!"x") (.num 12)))
  .skip)⟩

/-- `remd` -/
def red_bounds.remd : Fun := ⟨(some .i64), [(n!"x", (.int .i64))],
  (.seq (.ret (.bin .and (.var n!"x") (.num 4095)))
  .skip)⟩

/-- `max_red` -/
def red_bounds.max_red : Fun := ⟨(some .i64), [(n!"a", (.int .i64)), (n!"b", (.int .i64)), (n!"m", (.ptr 1))],
  (.seq (.seq (.decl .i64 n!"d")
   (.decl .i64 n!"r"))
  (.seq (.assert (.bin .le (.var n!"a") (.var n!"b")))
  (.seq (.assign n!"d" (.bin .or (.var n!"a") (.num 4095)))
  (.seq (.assign n!"d" (.cond (.bin .le (.var n!"d") (.var n!"b")) (.var n!"d") (.var n!"b")))
  (.seq (.assign n!"r" (.call n!"red" (.cons (.var n!"d") .nil)))
  (.seq (.store (.var n!"m") (.num 0) (.var n!"d"))
  (.seq (.ret (.var n!"r"))
  .skip)))))))⟩

/-- `min_red` -/
def red_bounds.min_red : Fun := ⟨(some .i64), [(n!"a", (.int .i64)), (n!"b", (.int .i64)), (n!"m", (.ptr 1))],
  (.seq (.seq (.decl .i64 n!"d")
   (.decl .i64 n!"r"))
  (.seq (.assert (.bin .le (.var n!"a") (.var n!"b")))
  (.seq (.assign n!"d" (.bin .and (.var n!"b") (.not (.num 4095))))
  (.seq (.assign n!"d" (.cond (.bin .ge (.var n!"d") (.var n!"a")) (.var n!"d") (.var n!"a")))
  (.seq (.assign n!"r" (.call n!"red" (.cons (.var n!"d") .nil)))
  (.seq (.store (.var n!"m") (.num 0) (.var n!"d"))
  (.seq (.ret (.var n!"r"))
  .skip)))))))⟩

/-- `gcd4096` -/
def red_bounds.gcd4096 : Fun := ⟨(some .i64), [(n!"w", (.int .i64))],
  (.seq (.decl .i64 n!"g")
  (.seq (.assign n!"g" (.num 1))
  (.seq (.while (.bin .eq (.bin .and (.var n!"w") (.num 1)) (.num 0))
    (.seq (.assign n!"g" (.bin .shl (.var n!"g") (.num 1)))
    (.seq (.assign n!"w" (.bin .shr (.var n!"w") (.num 1)))
    .skip)))
  (.seq (.ret (.cond (.bin .lt (.var n!"g") (.num 4096)) (.var n!"g") (.num 4096)))
  .skip))))⟩

/-- `lmax` -/
def red_bounds.lmax : Fun := ⟨(some .i64), [(n!"w", (.int .i64)), (n!"x", (.int .i64))],
  (.seq (.seq (.decl .i64 n!"y")
   (.decl .i64 n!"k"))
  (.seq (.assign n!"k" (.bin .div (.bin .sub (.num 4095) (.bin .and (.bin .mul (.var n!"w") (.var n!"x")) (.num 4095))) (.var n!"w")))
  (.seq (.assign n!"y" (.bin .add (.var n!"x") (.var n!"k")))
  (.seq (.assert (.bin .eq (.bin .shr (.bin .mul (.var n!"w") (.var n!"y")) (.num 12)) (.bin .shr (.bin .mul (.var n!"w") (.var n!"x")) (.num 12))))
  (.seq (.assert (.bin .gt (.bin .shr (.bin .mul (.var n!"w") (.bin .add (.var n!"y") (.num 1))) (.num 12)) (.bin .shr (.bin .mul (.var n!"w") (.var n!"x")) (.num 12))))
  (.seq (.ret (.var n!"y"))
  .skip))))))⟩

/-- `max_red_mul` -/
def red_bounds.max_red_mul : Fun := ⟨(some .i64), [(n!"a", (.int .i64)), (n!"b", (.int .i64)), (n!"w", (.int .i64)), (n!"m", (.ptr 1))],
  (.seq (.seq (.decl .i64 n!"pw")
   (.seq (.decl .i64 n!"g")
   (.seq (.decl .i64 n!"h")
   (.seq (.decl .i64 n!"x")
   (.seq (.decl .i64 n!"r")
   (.seq (.decl .i64 n!"x_max")
   (.decl .i64 n!"r_max")))))))
  (.seq (.assert (.bin .le (.var n!"a") (.var n!"b")))
  (.seq (.assign n!"pw" (.var n!"w"))
  (.seq (.ite (.bin .lt (.var n!"w") (.num 0))
    (.seq (.assign n!"x" (.neg (.var n!"a")))
    (.seq (.assign n!"a" (.neg (.var n!"b")))
    (.seq (.assign n!"b" (.var n!"x"))
    (.seq (.assign n!"pw" (.neg (.var n!"w")))
    .skip))))
    .skip)
  (.seq (.assign n!"x_max" (.var n!"b"))
  (.seq (.assign n!"r_max" (.call n!"red" (.cons (.bin .mul (.var n!"pw") (.var n!"b")) .nil)))
  (.seq (.assign n!"h" (.bin .sub (.num 4096) (.call n!"gcd4096" (.cons (.var n!"w") .nil))))
  (.seq (.assign n!"g" (.bin .mul (.num 3) (.var n!"h")))
  (.seq (.assign n!"x" (.var n!"a"))
  (.seq (.while (.num 1)
    (.seq (.assign n!"x" (.call n!"lmax" (.cons (.var n!"pw") (.cons (.var n!"x") .nil))))
    (.seq (.ite (.lor (.bin .ge (.var n!"x") (.var n!"b")) (.bin .le (.bin .add (.neg (.call n!"divd" (.cons (.bin .mul (.var n!"pw") (.var n!"x")) .nil))) (.var n!"g")) (.var n!"r_max")))
      .brk
      .skip)
    (.seq (.assign n!"r" (.call n!"red" (.cons (.bin .mul (.var n!"pw") (.var n!"x")) .nil)))
    (.seq (.ite (.bin .gt (.var n!"r") (.var n!"r_max"))
      (.seq (.assign n!"x_max" (.var n!"x"))
      (.seq (.assign n!"r_max" (.var n!"r"))
      (.seq (.ite (.bin .eq (.call n!"remd" (.cons (.bin .mul (.var n!"pw") (.var n!"x")) .nil)) (.var n!"h"))
        (.seq .brk
        .skip)
        .skip)
      .skip)))
      .skip)
    (.seq (.assign n!"x" (.bin .add (.var n!"x") (.num 1)))
    .skip))))))
  (.seq (.ite (.bin .lt (.var n!"w") (.num 0))
    (.assign n!"x_max" (.neg (.var n!"x_max")))
    .skip)
  (.seq (.store (.var n!"m") (.num 0) (.var n!"x_max"))
  (.seq (.ret (.var n!"r_max"))
  .skip)))))))))))))⟩

/-- `lmin` -/
def red_bounds.lmin : Fun := ⟨(some .i64), [(n!"w", (.int .i64)), (n!"x", (.int .i64))],
  (.seq (.seq (.decl .i64 n!"y")
   (.decl .i64 n!"k"))
  (.seq (.assign n!"k" (.bin .div (.bin .and (.bin .mul (.var n!"w") (.var n!"x")) (.num 4095)) (.var n!"w")))
  (.seq (.assign n!"y" (.bin .sub (.var n!"x") (.var n!"k")))
  (.seq (.assert (.bin .eq (.bin .shr (.bin .mul (.var n!"w") (.var n!"y")) (.num 12)) (.bin .shr (.bin .mul (.var n!"w") (.var n!"x")) (.num 12))))
  (.seq (.assert (.bin .lt (.bin .shr (.bin .mul (.var n!"w") (.bin .sub (.var n!"y") (.num 1))) (.num 12)) (.bin .shr (.bin .mul (.var n!"w") (.var n!"x")) (.num 12))))
  (.seq (.ret (.var n!"y"))
  .skip))))))⟩

/-- `min_red_mul` -/
def red_bounds.min_red_mul : Fun := ⟨(some .i64), [(n!"a", (.int .i64)), (n!"b", (.int .i64)), (n!"w", (.int .i64)), (n!"m", (.ptr 1))],
  (.seq (.seq (.decl .i64 n!"pw")
   (.seq (.decl .i64 n!"x")
   (.seq (.decl .i64 n!"r")
   (.seq (.decl .i64 n!"x_min")
   (.decl .i64 n!"r_min")))))
  (.seq (.assert (.bin .le (.var n!"a") (.var n!"b")))
  (.seq (.assign n!"pw" (.var n!"w"))
  (.seq (.ite (.bin .lt (.var n!"w") (.num 0))
    (.seq (.assign n!"x" (.neg (.var n!"a")))
    (.seq (.assign n!"a" (.neg (.var n!"b")))
    (.seq (.assign n!"b" (.var n!"x"))
    (.seq (.assign n!"pw" (.neg (.var n!"w")))
    .skip))))
    .skip)
  (.seq (.assign n!"x_min" (.var n!"a"))
  (.seq (.assign n!"r_min" (.call n!"red" (.cons (.bin .mul (.var n!"pw") (.var n!"a")) .nil)))
  (.seq (.assign n!"x" (.var n!"b"))
  (.seq (.while (.num 1)
    (.seq (.assign n!"x" (.call n!"lmin" (.cons (.var n!"pw") (.cons (.var n!"x") .nil))))
    (.seq (.ite (.lor (.bin .le (.var n!"x") (.var n!"a")) (.bin .ge (.neg (.call n!"divd" (.cons (.bin .mul (.var n!"pw") (.var n!"x")) .nil))) (.var n!"r_min")))
      .brk
      .skip)
    (.seq (.assign n!"r" (.call n!"red" (.cons (.bin .mul (.var n!"pw") (.var n!"x")) .nil)))
    (.seq (.ite (.bin .lt (.var n!"r") (.var n!"r_min"))
      (.seq (.assign n!"x_min" (.var n!"x"))
      (.seq (.assign n!"r_min" (.var n!"r"))
      (.seq (.ite (.bin .eq (.call n!"remd" (.cons (.bin .mul (.var n!"pw") (.var n!"x")) .nil)) (.num 0))
        (.seq .brk
        .skip)
        .skip)
      .skip)))
      .skip)
    (.seq (.assign n!"x" (.bin .sub (.var n!"x") (.num 1)))
    .skip))))))
  (.seq (.ite (.bin .lt (.var n!"w") (.num 0))
    (.assign n!"x_min" (.neg (.var n!"x_min")))
    .skip)
  (.seq (.store (.var n!"m") (.num 0) (.var n!"x_min"))
  (.seq (.ret (.var n!"r_min"))
  .skip)))))))))))⟩

/-- `max_red_mul_interval` -/
def red_bounds.max_red_mul_interval : Fun := ⟨(some .i64), [(n!"a", (.int .i64)), (n!"b", (.int .i64)), (n!"low", (.int .i64)), (n!"high", (.int .i64)), (n!"m", (.ptr 1)), (n!"mw", (.ptr 1))],
  (.seq (.seq (.decl .i64 n!"r_max")
   (.seq (.decl .i64 n!"x_max")
   (.seq (.decl .i64 n!"w_max")
   (.seq (.decl .i64 n!"r")
   (.seq (.decl .i64 n!"x")
   (.seq (.decl .i64 n!"w")
   (.seq (.decl .i64 n!"d")
   (.seq (.decl .i64 n!"l")
   (.decl .i64 n!"h")))))))))
  (.seq (.assert (.land (.bin .le (.var n!"a") (.var n!"b")) (.bin .le (.var n!"low") (.var n!"high"))))
  (.seq (.assign n!"r_max" (.num 0))
  (.seq (.assign n!"x_max" (.num 0))
  (.seq (.assign n!"w_max" (.num 0))
  (.seq (.assign n!"l" (.cond (.bin .lt (.var n!"low") (.num 0)) (.var n!"low") (.num 0)))
  (.seq (.assign n!"h" (.cond (.bin .ge (.var n!"high") (.num 0)) (.num 0) (.bin .add (.var n!"high") (.num 1))))
  (.seq (.seq (.assign n!"w" (.var n!"l"))
   (.while (.bin .lt (.var n!"w") (.var n!"h"))
    (.seq (.seq (.assert (.bin .lt (.var n!"w") (.num 0)))
     (.seq (.assign n!"d" (.call n!"divd" (.cons (.bin .mul (.var n!"w") (.var n!"b")) .nil)))
     (.seq (.ite (.bin .le (.bin .add (.neg (.var n!"d")) (.bin .mul (.num 3) (.num 4095))) (.var n!"r_max"))
       (.seq .brk
       .skip)
       .skip)
     (.seq (.callAt n!"r" n!"max_red_mul" (.cons (.var n!"a") (.cons (.var n!"b") (.cons (.var n!"w") .nil))) [n!"x"])
     (.seq (.ite (.bin .gt (.var n!"r") (.var n!"r_max"))
       (.seq (.assign n!"r_max" (.var n!"r"))
       (.seq (.assign n!"x_max" (.var n!"x"))
       (.seq (.assign n!"w_max" (.var n!"w"))
       .skip)))
       .skip)
     .skip)))))
    (.assign n!"w" (.bin .add (.var n!"w") (.num 1))))))
  (.seq (.assign n!"l" (.cond (.bin .le (.var n!"low") (.num 0)) (.num 0) (.bin .sub (.var n!"low") (.num 1))))
  (.seq (.assign n!"h" (.cond (.bin .gt (.var n!"high") (.num 0)) (.var n!"high") (.num 0)))
  (.seq (.seq (.assign n!"w" (.var n!"h"))
   (.while (.bin .gt (.var n!"w") (.var n!"l"))
    (.seq (.seq (.assert (.bin .gt (.var n!"w") (.num 0)))
     (.seq (.assign n!"d" (.call n!"divd" (.cons (.bin .mul (.neg (.var n!"w")) (.var n!"b")) .nil)))
     (.seq (.ite (.bin .le (.bin .add (.neg (.var n!"d")) (.bin .mul (.num 3) (.num 4095))) (.var n!"r_max"))
       (.seq .brk
       .skip)
       .skip)
     (.seq (.callAt n!"r" n!"max_red_mul" (.cons (.var n!"a") (.cons (.var n!"b") (.cons (.var n!"w") .nil))) [n!"x"])
     (.seq (.ite (.bin .gt (.var n!"r") (.var n!"r_max"))
       (.seq (.assign n!"r_max" (.var n!"r"))
       (.seq (.assign n!"x_max" (.var n!"x"))
       (.seq (.assign n!"w_max" (.var n!"w"))
       .skip)))
       .skip)
     .skip)))))
    (.assign n!"w" (.bin .sub (.var n!"w") (.num 1))))))
  (.seq (.store (.var n!"m") (.num 0) (.var n!"x_max"))
  (.seq (.store (.var n!"mw") (.num 0) (.var n!"w_max"))
  (.seq (.ret (.var n!"r_max"))
  .skip))))))))))))))⟩

/-- `min_red_mul_interval` -/
def red_bounds.min_red_mul_interval : Fun := ⟨(some .i64), [(n!"a", (.int .i64)), (n!"b", (.int .i64)), (n!"low", (.int .i64)), (n!"high", (.int .i64)), (n!"m", (.ptr 1)), (n!"wm", (.ptr 1))],
  (.seq (.seq (.decl .i64 n!"r_min")
   (.seq (.decl .i64 n!"x_min")
   (.seq (.decl .i64 n!"w_min")
   (.seq (.decl .i64 n!"r")
   (.seq (.decl .i64 n!"x")
   (.seq (.decl .i64 n!"w")
   (.seq (.decl .i64 n!"d")
   (.seq (.decl .i64 n!"l")
   (.decl .i64 n!"h")))))))))
  (.seq (.assert (.land (.bin .le (.var n!"a") (.var n!"b")) (.bin .le (.var n!"low") (.var n!"high"))))
  (.seq (.assign n!"r_min" (.num 0))
  (.seq (.assign n!"x_min" (.num 0))
  (.seq (.assign n!"w_min" (.num 0))
  (.seq (.assign n!"l" (.cond (.bin .lt (.var n!"low") (.num 0)) (.var n!"low") (.num 0)))
  (.seq (.assign n!"h" (.cond (.bin .gt (.var n!"high") (.num 0)) (.num 0) (.bin .add (.var n!"high") (.num 1))))
  (.seq (.seq (.assign n!"w" (.var n!"l"))
   (.while (.bin .lt (.var n!"w") (.var n!"h"))
    (.seq (.seq (.assert (.bin .lt (.var n!"w") (.num 0)))
     (.seq (.assign n!"d" (.call n!"divd" (.cons (.bin .mul (.neg (.var n!"w")) (.var n!"b")) .nil)))
     (.seq (.ite (.bin .ge (.neg (.var n!"d")) (.var n!"r_min"))
       (.seq .brk
       .skip)
       .skip)
     (.seq (.callAt n!"r" n!"min_red_mul" (.cons (.var n!"a") (.cons (.var n!"b") (.cons (.var n!"w") .nil))) [n!"x"])
     (.seq (.ite (.bin .lt (.var n!"r") (.var n!"r_min"))
       (.seq (.assign n!"r_min" (.var n!"r"))
       (.seq (.assign n!"x_min" (.var n!"x"))
       (.seq (.assign n!"w_min" (.var n!"w"))
       .skip)))
       .skip)
     .skip)))))
    (.assign n!"w" (.bin .add (.var n!"w") (.num 1))))))
  (.seq (.assign n!"l" (.cond (.bin .lt (.var n!"low") (.num 0)) (.num 0) (.bin .sub (.var n!"low") (.num 1))))
  (.seq (.assign n!"h" (.cond (.bin .gt (.var n!"high") (.num 0)) (.var n!"high") (.num 0)))
  (.seq (.seq (.assign n!"w" (.var n!"h"))
   (.while (.bin .gt (.var n!"w") (.var n!"l"))
    (.seq (.seq (.assert (.bin .gt (.var n!"w") (.num 0)))
     (.seq (.assign n!"d" (.call n!"divd" (.cons (.bin .mul (.var n!"w") (.var n!"b")) .nil)))
     (.seq (.ite (.bin .ge (.neg (.var n!"d")) (.var n!"r_min"))
       (.seq .brk
       .skip)
       .skip)
     (.seq (.callAt n!"r" n!"min_red_mul" (.cons (.var n!"a") (.cons (.var n!"b") (.cons (.var n!"w") .nil))) [n!"x"])
     (.seq (.ite (.bin .lt (.var n!"r") (.var n!"r_min"))
       (.seq (.assign n!"r_min" (.var n!"r"))
       (.seq (.assign n!"x_min" (.var n!"x"))
       (.seq (.assign n!"w_min" (.var n!"w"))
       .skip)))
       .skip)
     .skip)))))
    (.assign n!"w" (.bin .sub (.var n!"w") (.num 1))))))
  (.seq (.store (.var n!"m") (.num 0) (.var n!"x_min"))
  (.seq (.store (.var n!"wm") (.num 0) (.var n!"w_min"))
  (.seq (.ret (.var n!"r_min"))
  .skip))))))))))))))⟩

/-- `ct_bound` -/
def red_bounds.ct_bound : Fun := ⟨(some .i64), [(n!"b", (.int .i64)), (n!"low", (.int .i64)), (n!"high", (.int .i64))],
  (.seq (.seq (.decl .i64 n!"min_r")
   (.seq (.decl .i64 n!"max_r")
   (.seq (.decl .i64 n!"min_y")
   (.seq (.decl .i64 n!"min_w")
   (.seq (.decl .i64 n!"max_y")
   (.seq (.decl .i64 n!"max_w")
   (.seq (.decl .i64 n!"b1")
   (.decl .i64 n!"b2"))))))))
  (.seq (.assert (.land (.bin .ge (.var n!"b") (.num 0)) (.bin .le (.var n!"low") (.var n!"high"))))
  (.seq (.callAt n!"min_r" n!"min_red_mul_interval" (.cons (.neg (.var n!"b")) (.cons (.var n!"b") (.cons (.var n!"low") (.cons (.var n!"high") .nil)))) [n!"min_y", n!"min_w"])
  (.seq (.callAt n!"max_r" n!"max_red_mul_interval" (.cons (.neg (.var n!"b")) (.cons (.var n!"b") (.cons (.var n!"low") (.cons (.var n!"high") .nil)))) [n!"max_y", n!"max_w"])
  (.seq (.assign n!"b1" (.bin .add (.var n!"b") (.var n!"max_r")))
  (.seq (.assign n!"b2" (.bin .sub (.var n!"b") (.var n!"min_r")))
  (.seq (.ite (.bin .lt (.var n!"b1") (.num 0))
    (.assign n!"b1" (.neg (.var n!"b1")))
    .skip)
  (.seq (.ite (.bin .lt (.var n!"b2") (.num 0))
    (.assign n!"b2" (.neg (.var n!"b2")))
    .skip)
  (.seq (.ret (.cond (.bin .lt (.var n!"b1") (.var n!"b2")) (.var n!"b2") (.var n!"b1")))
  .skip)))))))))⟩

/-- `gs_bound` -/
def red_bounds.gs_bound : Fun := ⟨(some .i64), [(n!"b", (.int .i64)), (n!"low", (.int .i64)), (n!"high", (.int .i64))],
  (.seq (.seq (.decl .i64 n!"min_r")
   (.seq (.decl .i64 n!"max_r")
   (.seq (.decl .i64 n!"min_w")
   (.seq (.decl .i64 n!"max_w")
   (.seq (.decl .i64 n!"min_d")
   (.seq (.decl .i64 n!"max_d")
   (.seq (.decl .i64 n!"b1")
   (.decl .i64 n!"b2"))))))))
  (.seq (.assert (.land (.bin .ge (.var n!"b") (.num 0)) (.bin .le (.var n!"low") (.var n!"high"))))
  (.seq (.callAt n!"min_r" n!"min_red_mul_interval" (.cons (.bin .mul (.neg (.num 2)) (.var n!"b")) (.cons (.bin .mul (.num 2) (.var n!"b")) (.cons (.var n!"low") (.cons (.var n!"high") .nil)))) [n!"min_d", n!"min_w"])
  (.seq (.callAt n!"max_r" n!"max_red_mul_interval" (.cons (.bin .mul (.neg (.num 2)) (.var n!"b")) (.cons (.bin .mul (.num 2) (.var n!"b")) (.cons (.var n!"low") (.cons (.var n!"high") .nil)))) [n!"max_d", n!"max_w"])
  (.seq (.assign n!"b1" (.cond (.bin .lt (.var n!"max_r") (.num 0)) (.neg (.var n!"min_r")) (.cond (.bin .gt (.var n!"min_r") (.num 0)) (.var n!"max_r") (.cond (.bin .gt (.var n!"max_r") (.neg (.var n!"min_r"))) (.var n!"max_r") (.neg (.var n!"min_r"))))))
  (.seq (.assign n!"b2" (.bin .mul (.num 2) (.var n!"b")))
  (.seq (.ret (.cond (.bin .lt (.var n!"b1") (.var n!"b2")) (.var n!"b2") (.var n!"b1")))
  .skip)))))))⟩

/-- `ct_bound_fixed` -/
def red_bounds.ct_bound_fixed : Fun := ⟨(some .i64), [(n!"b", (.int .i64)), (n!"w", (.int .i64))],
  (.seq (.seq (.decl .i64 n!"min_r")
   (.seq (.decl .i64 n!"max_r")
   (.seq (.decl .i64 n!"min_y")
   (.seq (.decl .i64 n!"max_y")
   (.seq (.decl .i64 n!"b1")
   (.decl .i64 n!"b2"))))))
  (.seq (.assert (.bin .ge (.var n!"b") (.num 0)))
  (.seq (.callAt n!"min_r" n!"min_red_mul" (.cons (.neg (.var n!"b")) (.cons (.var n!"b") (.cons (.var n!"w") .nil))) [n!"min_y"])
  (.seq (.callAt n!"max_r" n!"max_red_mul" (.cons (.neg (.var n!"b")) (.cons (.var n!"b") (.cons (.var n!"w") .nil))) [n!"max_y"])
  (.seq (.assign n!"b1" (.bin .add (.var n!"b") (.var n!"max_r")))
  (.seq (.assign n!"b2" (.bin .sub (.var n!"b") (.var n!"min_r")))
  (.seq (.ite (.bin .lt (.var n!"b1") (.num 0))
    (.assign n!"b1" (.neg (.var n!"b1")))
    .skip)
  (.seq (.ite (.bin .lt (.var n!"b2") (.num 0))
    (.assign n!"b2" (.neg (.var n!"b2")))
    .skip)
  (.seq (.ret (.cond (.bin .lt (.var n!"b1") (.var n!"b2")) (.var n!"b2") (.var n!"b1")))
  .skip)))))))))⟩

/-- `gs_bound_fixed` -/
def red_bounds.gs_bound_fixed : Fun := ⟨(some .i64), [(n!"b", (.int .i64)), (n!"w", (.int .i64))],
  (.seq (.seq (.decl .i64 n!"min_r")
   (.seq (.decl .i64 n!"max_r")
   (.seq (.decl .i64 n!"min_y")
   (.seq (.decl .i64 n!"max_y")
   (.seq (.decl .i64 n!"b1")
   (.decl .i64 n!"b2"))))))
  (.seq (.assert (.bin .ge (.var n!"b") (.num 0)))
  (.seq (.callAt n!"min_r" n!"min_red_mul" (.cons (.bin .mul (.neg (.num 2)) (.var n!"b")) (.cons (.bin .mul (.num 2) (.var n!"b")) (.cons (.var n!"w") .nil))) [n!"min_y"])
  (.seq (.callAt n!"max_r" n!"max_red_mul" (.cons (.bin .mul (.neg (.num 2)) (.var n!"b")) (.cons (.bin .mul (.num 2) (.var n!"b")) (.cons (.var n!"w") .nil))) [n!"max_y"])
  (.seq (.assign n!"b1" (.cond (.bin .lt (.var n!"max_r") (.num 0)) (.neg (.var n!"min_r")) (.cond (.bin .gt (.var n!"min_r") (.num 0)) (.var n!"max_r") (.cond (.bin .gt (.var n!"max_r") (.neg (.var n!"min_r"))) (.var n!"max_r") (.neg (.var n!"min_r"))))))
  (.seq (.assign n!"b2" (.bin .mul (.num 2) (.var n!"b")))
  (.seq (.ret (.cond (.bin .lt (.var n!"b1") (.var n!"b2")) (.var n!"b2") (.var n!"b1")))
  .skip)))))))⟩

/-- `ntt_ct_bounds` -/
def red_bounds.ntt_ct_bounds : Fun := ⟨(some .i64), [(n!"b0", (.int .i64)), (n!"n", (.int .u32)), (n!"p", (.ptr 1)), (n!"bound", (.ptr 1))],
  (.seq (.seq (.decl .u32 n!"j")
   (.seq (.decl .u32 n!"t")
   (.decl .u32 n!"k")))
  (.seq (.seq (.decl .i64 n!"b")
   (.seq (.decl .i64 n!"c")
   (.decl .i64 n!"d")))
  (.seq (.assign n!"b" (.var n!"b0"))
  (.seq (.assign n!"k" (.num 0))
  (.seq (.store (.var n!"bound") (.var n!"k") (.var n!"b0"))
  (.seq (.seq (.assign n!"t" (.num 1))
   (.while (.bin .lt (.var n!"t") (.var n!"n"))
    (.seq (.seq (.assign n!"k" (.bin .add (.var n!"k") (.num 1)))
     (.seq (.assign n!"c" (.call n!"ct_bound_fixed" (.cons (.var n!"b") (.cons (.idx (.var n!"p") (.var n!"t")) .nil))))
     (.seq (.seq (.assign n!"j" (.num 1))
      (.while (.bin .lt (.var n!"j") (.var n!"t"))
       (.seq (.seq (.assign n!"d" (.call n!"ct_bound_fixed" (.cons (.var n!"b") (.cons (.idx (.var n!"p") (.bin .add (.var n!"t") (.var n!"j"))) .nil))))
        (.seq (.ite (.bin .gt (.var n!"d") (.var n!"c"))
          (.assign n!"c" (.var n!"d"))
          .skip)
        .skip))
       (.assign n!"j" (.bin .add (.var n!"j") (.num 1))))))
     (.seq (.store (.var n!"bound") (.var n!"k") (.var n!"c"))
     (.seq (.assign n!"b" (.var n!"c"))
     .skip)))))
    (.assign n!"t" (.bin .shl (.var n!"t") (.num 1))))))
  (.seq (.ret (.var n!"b"))
  .skip)))))))⟩

/-- `ntt_gs_bounds` -/
def red_bounds.ntt_gs_bounds : Fun := ⟨(some .i64), [(n!"b0", (.int .i64)), (n!"n", (.int .u32)), (n!"p", (.ptr 1)), (n!"bound", (.ptr 1))],
  (.seq (.seq (.decl .u32 n!"t")
   (.seq (.decl .u32 n!"j")
   (.decl .u32 n!"k")))
  (.seq (.seq (.decl .i64 n!"b")
   (.seq (.decl .i64 n!"c")
   (.decl .i64 n!"d")))
  (.seq (.assign n!"b" (.var n!"b0"))
  (.seq (.assign n!"k" (.num 0))
  (.seq (.store (.var n!"bound") (.var n!"k") (.var n!"b0"))
  (.seq (.seq (.assign n!"t" (.bin .div (.var n!"n") (.num 2)))
   (.while (.bin .gt (.var n!"t") (.num 0))
    (.seq (.seq (.assign n!"k" (.bin .add (.var n!"k") (.num 1)))
     (.seq (.assign n!"c" (.call n!"gs_bound_fixed" (.cons (.var n!"b") (.cons (.idx (.var n!"p") (.var n!"t")) .nil))))
     (.seq (.seq (.assign n!"j" (.num 1))
      (.while (.bin .lt (.var n!"j") (.var n!"t"))
       (.seq (.seq (.assign n!"d" (.call n!"gs_bound_fixed" (.cons (.var n!"b") (.cons (.idx (.var n!"p") (.bin .add (.var n!"t") (.var n!"j"))) .nil))))
        (.seq (.ite (.bin .gt (.var n!"d") (.var n!"c"))
          (.assign n!"c" (.var n!"d"))
          .skip)
        .skip))
       (.assign n!"j" (.bin .add (.var n!"j") (.num 1))))))
     (.seq (.store (.var n!"bound") (.var n!"k") (.var n!"c"))
     (.seq (.assign n!"b" (.var n!"c"))
     .skip)))))
    (.assign n!"t" (.bin .shr (.var n!"t") (.num 1))))))
  (.seq (.ret (.var n!"b"))
  .skip)))))))⟩

/-- The functions of the file. -/
def red_bounds : Prog := [
  (n!"red", red_bounds.red),
  (n!"divd", red_bounds.divd),
  (n!"remd", red_bounds.remd),
  (n!"max_red", red_bounds.max_red),
  (n!"min_red", red_bounds.min_red),
  (n!"gcd4096", red_bounds.gcd4096),
  (n!"lmax", red_bounds.lmax),
  (n!"max_red_mul", red_bounds.max_red_mul),
  (n!"lmin", red_bounds.lmin),
  (n!"min_red_mul", red_bounds.min_red_mul),
  (n!"max_red_mul_interval", red_bounds.max_red_mul_interval),
  (n!"min_red_mul_interval", red_bounds.min_red_mul_interval),
  (n!"ct_bound", red_bounds.ct_bound),
  (n!"gs_bound", red_bounds.gs_bound),
  (n!"ct_bound_fixed", red_bounds.ct_bound_fixed),
  (n!"gs_bound_fixed", red_bounds.gs_bound_fixed),
  (n!"ntt_ct_bounds", red_bounds.ntt_ct_bounds),
  (n!"ntt_gs_bounds", red_bounds.ntt_gs_bounds)]

/-- What is read from the text. -/
theorem red_bounds_read : readSome red_bounds_text = red_bounds := by decide +kernel

end CLang.Src
