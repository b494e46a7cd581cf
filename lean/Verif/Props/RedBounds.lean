import Verif.Proofs.RedBoundsNtt

/-
C28, C29, C30, C31, C41, C42: the bounds computed by src/red_bounds.c.

`dbg` says whether assertions are compiled in; all statements hold for both values, unless said
otherwise.  Results returned through pointers are components of the result.
-/

namespace Props
open C Spec RedBounds

/-! ### C28: extrema of `red(x)` -/

/-- `max_red(a, b, &m)` is the maximum of `red(x)` for `a ≤ x ≤ b`, and `m` a point where it is
attained. -/
theorem C28_max_red (dbg : Bool) (a b : Int) (ha : I64 a) (hb : I64 b) (hab : a ≤ b) :
    ∃ r m, max_red dbg a b = .ok (r, m) ∧ (a ≤ m ∧ m ≤ b) ∧ r = Spec.red m ∧
      IsGreatest {v | ∃ x, a ≤ x ∧ x ≤ b ∧ v = Spec.red x} r := by
  obtain ⟨⟨r, m⟩, e, h1, h2, h3⟩ := wp_total.1 (wp_max_red (dbg := dbg) ha hb hab)
  refine ⟨r, m, e, h1, h2, ⟨m, h1.1, h1.2, h2⟩, ?_⟩
  rintro v ⟨x, hx1, hx2, rfl⟩
  exact h3 x hx1 hx2

/-- `min_red(a, b, &m)` is the minimum of `red(x)` for `a ≤ x ≤ b`, and `m` a point where it is
attained. -/
theorem C28_min_red (dbg : Bool) (a b : Int) (ha : I64 a) (hb : I64 b) (hab : a ≤ b) :
    ∃ r m, min_red dbg a b = .ok (r, m) ∧ (a ≤ m ∧ m ≤ b) ∧ r = Spec.red m ∧
      IsLeast {v | ∃ x, a ≤ x ∧ x ≤ b ∧ v = Spec.red x} r := by
  obtain ⟨⟨r, m⟩, e, h1, h2, h3⟩ := wp_total.1 (wp_min_red (dbg := dbg) ha hb hab)
  refine ⟨r, m, e, h1, h2, ⟨m, h1.1, h1.2, h2⟩, ?_⟩
  rintro v ⟨x, hx1, hx2, rfl⟩
  exact h3 x hx1 hx2

example : I64 (-9223372036854775808) ∧ I64 9223372036854775807 ∧
    (-9223372036854775808 : Int) ≤ 9223372036854775807 := by decide
example : max_red true (-5000) 10000 = .ok (12287, -4097) := by decide +kernel
example : min_red true (-5000) 10000 = .ok (-2, 8192) := by decide +kernel

/-! ### C29: extrema of `red(w * x)` -/

/-- `max_red_mul(a, b, w, &m)` is the maximum of `red(w * x)` for `a ≤ x ≤ b`, attained at `m`. -/
theorem C29_max_red_mul (dbg : Bool) (a b w : Int) (hab : a ≤ b) (hw : w ≠ 0)
    (hfit : RedMulFits a b w) :
    ∃ r m, max_red_mul dbg a b w = .ok (r, m) ∧ (a ≤ m ∧ m ≤ b) ∧ r = Spec.red (w * m) ∧
      IsGreatest {v | ∃ x, a ≤ x ∧ x ≤ b ∧ v = Spec.red (w * x)} r := by
  have h64 := redMulFits_w hfit
  obtain ⟨⟨r, m⟩, e, h1, h2, h3⟩ := wp_total.1
    (wp_max_red_mul (dbg := dbg) hw ⟨by omega, by omega⟩ hab (Or.inr hfit))
  refine ⟨r, m, e, h1, h2, ⟨m, h1.1, h1.2, h2⟩, ?_⟩
  rintro v ⟨x, hx1, hx2, rfl⟩
  exact h3 x hx1 hx2

/-- `min_red_mul(a, b, w, &m)` is the minimum of `red(w * x)` for `a ≤ x ≤ b`, attained at `m`. -/
theorem C29_min_red_mul (dbg : Bool) (a b w : Int) (hab : a ≤ b) (hw : w ≠ 0)
    (hfit : RedMulFits a b w) :
    ∃ r m, min_red_mul dbg a b w = .ok (r, m) ∧ (a ≤ m ∧ m ≤ b) ∧ r = Spec.red (w * m) ∧
      IsLeast {v | ∃ x, a ≤ x ∧ x ≤ b ∧ v = Spec.red (w * x)} r := by
  obtain ⟨⟨r, m⟩, e, h1, h2, h3⟩ := wp_total.1
    (wp_min_red_mul (dbg := dbg) hw hab (Or.inr hfit))
  refine ⟨r, m, e, h1, h2, ⟨m, h1.1, h1.2, h2⟩, ?_⟩
  rintro v ⟨x, hx1, hx2, rfl⟩
  exact h3 x hx1 hx2

/-- Without any assumption on the sizes: a call of `max_red_mul` that returns (without signed
overflow) returns the maximum. -/
theorem C29_max_red_mul_any (dbg : Bool) (a b w : Int) (hab : a ≤ b) (h64 : I64 w) (r m : Int)
    (h : max_red_mul dbg a b w = .ok (r, m)) :
    w ≠ 0 ∧ (a ≤ m ∧ m ≤ b) ∧ r = Spec.red (w * m) ∧
      IsGreatest {v | ∃ x, a ≤ x ∧ x ≤ b ∧ v = Spec.red (w * x)} r := by
  have hw : w ≠ 0 := by
    rintro rfl
    rw [max_red_mul_zero hab] at h
    cases h
  obtain ⟨h1, h2, h3⟩ := wp_tol_ok (wp_max_red_mul (E := fun _ => True) hw h64 hab
    (Or.inl trivial)) h
  refine ⟨hw, h1, h2, ⟨m, h1.1, h1.2, h2⟩, ?_⟩
  rintro v ⟨x, hx1, hx2, rfl⟩
  exact h3 x hx1 hx2

/-- Without any assumption on the sizes: a call of `min_red_mul` that returns (without signed
overflow) returns the minimum. -/
theorem C29_min_red_mul_any (dbg : Bool) (a b w : Int) (hab : a ≤ b) (r m : Int)
    (h : min_red_mul dbg a b w = .ok (r, m)) :
    w ≠ 0 ∧ (a ≤ m ∧ m ≤ b) ∧ r = Spec.red (w * m) ∧
      IsLeast {v | ∃ x, a ≤ x ∧ x ≤ b ∧ v = Spec.red (w * x)} r := by
  have hw : w ≠ 0 := by
    rintro rfl
    rw [min_red_mul_zero hab] at h
    cases h
  obtain ⟨h1, h2, h3⟩ := wp_tol_ok (wp_min_red_mul (E := fun _ => True) hw hab
    (Or.inl trivial)) h
  refine ⟨hw, h1, h2, ⟨m, h1.1, h1.2, h2⟩, ?_⟩
  rintro v ⟨x, hx1, hx2, rfl⟩
  exact h3 x hx1 hx2

/-- For `w = 0` both functions fail for all intervals: `max_red_mul` in the loop of `gcd4096`,
which shifts `g` until it overflows; `min_red_mul` by a division by zero. -/
theorem C29_zero (dbg : Bool) (a b : Int) (hab : a ≤ b) :
    max_red_mul dbg a b 0 = .error .overflow ∧ min_red_mul dbg a b 0 = .error .divZero :=
  ⟨max_red_mul_zero hab, min_red_mul_zero hab⟩

example : RedMulFits (-21499) 21499 (-6144) ∧ (-6144 : Int) ≠ 0 := by
  unfold RedMulFits; decide
example : max_red_mul true (-3000) 5000 17 = .ok (12287, -241) := by decide +kernel
example : min_red_mul true (-3000) 5000 16 = .ok (-19, 4864) := by decide +kernel

/-! ### C30: products of two intervals -/

/-- `max_red_mul_interval(a, b, low, high, &x, &w)` when `-b ≤ a ≤ b`: an upper bound on
`red(w * x)`, attained at `x, w` unless it is 0. -/
theorem C30_max_red_mul_interval (dbg : Bool) (a b low high : Int) (hab : a ≤ b) (hsym : -b ≤ a)
    (hlh : low ≤ high) (hl : I64 low) (hh : I64 high)
    (hfit : ∀ w, low ≤ w → w ≤ high → RedMulFits a b w) :
    ∃ s, max_red_mul_interval dbg a b low high = .ok s ∧
      (∀ w x, low ≤ w → w ≤ high → a ≤ x → x ≤ b → Spec.red (w * x) ≤ s.r) ∧
      (s.r = 0 ∨ ((a ≤ s.x ∧ s.x ≤ b) ∧ (low ≤ s.w ∧ s.w ≤ high) ∧ s.r = Spec.red (s.w * s.x))) := by
  obtain ⟨s, e, _, h2, h3⟩ := wp_total.1 (wp_max_red_mul_interval (dbg := dbg) hab hsym
    (Or.inr hfit) hl hh hlh)
  exact ⟨s, e, fun w x h4 h5 h6 h7 => h3 w h4 h5 x h6 h7, h2⟩

/-- `min_red_mul_interval(a, b, low, high, &x, &w)` when `-b ≤ a ≤ b`, in the library as it is
built (with -DNDEBUG), and with assertions when `low` and `high` are not zero. -/
theorem C30_min_red_mul_interval (dbg : Bool) (a b low high : Int) (hab : a ≤ b) (hsym : -b ≤ a)
    (hlh : low ≤ high) (hl : I64 low) (hh : I64 high)
    (hfit : ∀ w, low ≤ w → w ≤ high → RedMulFits a b w)
    (hdbg : dbg = false ∨ (low ≠ 0 ∧ high ≠ 0)) :
    ∃ s, min_red_mul_interval dbg a b low high = .ok s ∧
      (∀ w x, low ≤ w → w ≤ high → a ≤ x → x ≤ b → s.r ≤ Spec.red (w * x)) ∧
      (s.r = 0 ∨ ((a ≤ s.x ∧ s.x ≤ b) ∧ (low ≤ s.w ∧ s.w ≤ high) ∧ s.r = Spec.red (s.w * s.x))) := by
  obtain ⟨s, e, _, h2, h3⟩ := wp_total.1 (wp_min_red_mul_interval (dbg := dbg) hab hsym
    (Or.inr hfit) hl hh hlh (fun h => Or.inl (by
      rcases hdbg with h' | h'
      · exact h'
      · rcases h with h | h
        · exact absurd h h'.1
        · exact absurd h h'.2)))
  exact ⟨s, e, fun w x h4 h5 h6 h7 => h3 w h4 h5 x h6 h7, h2⟩

/-- With assertions compiled in, `min_red_mul_interval` fails its own assertion when the
interval of multipliers starts or ends at 0. -/
theorem C30_assertion :
    min_red_mul_interval true (-5000) 5000 0 1 = .error .assertFail ∧
    min_red_mul_interval true (-5000) 5000 (-1) 0 = .error .assertFail := by
  constructor <;> decide +kernel

/-- The condition `-b ≤ a` is necessary: on `[-8193, 0] * [3, 4]` the result 12285 is not an upper
bound, since `red(3 * (-6827)) = 12291`. -/
theorem C30_unsound_asymmetric (dbg : Bool) :
    ∃ s, max_red_mul_interval dbg (-8193) 0 3 4 = .ok s ∧
      ∃ w x, 3 ≤ w ∧ w ≤ 4 ∧ -8193 ≤ x ∧ x ≤ 0 ∧ ¬ Spec.red (w * x) ≤ s.r := by
  refine ⟨⟨12285, -8193, 4⟩, ?_, 3, -6827, by decide, by decide, by decide, by decide, by decide⟩
  cases dbg <;> decide +kernel

example : ∀ w, -6144 ≤ w → w ≤ 6144 → RedMulFits (-21499) 21499 w := by
  intro w h1 h2
  have : |w| ≤ 6144 := abs_le.2 ⟨by omega, by omega⟩
  unfold RedMulFits
  norm_num
  omega

/-! ### C31: one butterfly -/

/-- `ct_bound(b, low, high)` is the best bound on `|x ± red(w * y)|` for `|x|, |y| ≤ b` and
`low ≤ w ≤ high`. -/
theorem C31_ct_bound (dbg : Bool) (b low high : Int) (hb : 0 ≤ b) (hb62 : b ≤ 4611686018427387904)
    (hlh : low ≤ high) (hl : I64 low) (hh : I64 high)
    (hfit : ∀ w, low ≤ w → w ≤ high → RedMulFits (-b) b w)
    (hdbg : dbg = false ∨ (low ≠ 0 ∧ high ≠ 0)) :
    ∃ r, ct_bound dbg b low high = .ok r ∧
      IsGreatest {v | ∃ x y w, |x| ≤ b ∧ |y| ≤ b ∧ (low ≤ w ∧ w ≤ high) ∧
        (v = |x + Spec.red (w * y)| ∨ v = |x - Spec.red (w * y)|)} r :=
  wp_total.1 (wp_ct_bound hlh hl hh (fun h => Or.inl (by
      rcases hdbg with h' | h'
      · exact h'
      · rcases h with h | h
        · exact absurd h h'.1
        · exact absurd h h'.2)) hb (Or.inr ⟨hfit, hb62⟩))

/-- `gs_bound(b, low, high)` is the best bound on `|x + y|` and `|red(w * (x - y))|` for
`|x|, |y| ≤ b` and `low ≤ w ≤ high`. -/
theorem C31_gs_bound (dbg : Bool) (b low high : Int) (hb : 0 ≤ b) (hb62 : b < 4611686018427387904)
    (hlh : low ≤ high) (hl : I64 low) (hh : I64 high)
    (hfit : ∀ w, low ≤ w → w ≤ high → RedMulFits (-2 * b) (2 * b) w)
    (hdbg : dbg = false ∨ (low ≠ 0 ∧ high ≠ 0)) :
    ∃ r, gs_bound dbg b low high = .ok r ∧
      IsGreatest {v | ∃ x y w, |x| ≤ b ∧ |y| ≤ b ∧ (low ≤ w ∧ w ≤ high) ∧
        (v = |x + y| ∨ v = |Spec.red (w * (x - y))|)} r :=
  wp_total.1 (wp_gs_bound hlh hl hh (fun h => Or.inl (by
      rcases hdbg with h' | h'
      · exact h'
      · rcases h with h | h
        · exact absurd h h'.1
        · exact absurd h h'.2)) hb (Or.inr ⟨hfit, hb62⟩))

/-- Whenever `ct_bound` returns (no overflow, no failed assertion), the result is the best bound. -/
theorem C31_ct_bound_any (dbg : Bool) (b low high r : Int) (hb : 0 ≤ b) (hlh : low ≤ high)
    (hl : I64 low) (hh : I64 high) (h : ct_bound dbg b low high = .ok r) :
    IsGreatest {v | ∃ x y w, |x| ≤ b ∧ |y| ≤ b ∧ (low ≤ w ∧ w ≤ high) ∧
        (v = |x + Spec.red (w * y)| ∨ v = |x - Spec.red (w * y)|)} r :=
  wp_tol_ok (wp_ct_bound (E := fun _ => True) hlh hl hh (fun _ => Or.inr trivial) hb
    (Or.inl trivial)) h

/-- Whenever `gs_bound` returns (no overflow, no failed assertion), the result is the best bound. -/
theorem C31_gs_bound_any (dbg : Bool) (b low high r : Int) (hb : 0 ≤ b) (hlh : low ≤ high)
    (hl : I64 low) (hh : I64 high) (h : gs_bound dbg b low high = .ok r) :
    IsGreatest {v | ∃ x y w, |x| ≤ b ∧ |y| ≤ b ∧ (low ≤ w ∧ w ≤ high) ∧
        (v = |x + y| ∨ v = |Spec.red (w * (x - y))|)} r :=
  wp_tol_ok (wp_gs_bound (E := fun _ => True) hlh hl hh (fun _ => Or.inr trivial) hb
    (Or.inl trivial)) h

/-- `ct_bound_fixed(b, w)`: the same for one multiplier. -/
theorem C31_ct_bound_fixed (dbg : Bool) (b w : Int) (hb : 0 ≤ b) (hb62 : b ≤ 4611686018427387904)
    (hw : w ≠ 0) (hfit : RedMulFits (-b) b w) :
    ∃ r, ct_bound_fixed dbg b w = .ok r ∧
      IsGreatest {v | ∃ x y, |x| ≤ b ∧ |y| ≤ b ∧
        (v = |x + Spec.red (w * y)| ∨ v = |x - Spec.red (w * y)|)} r := by
  have h64 := redMulFits_w hfit
  obtain ⟨r, e, h⟩ := wp_total.1 (wp_ct_bound_fixed (dbg := dbg) hw ⟨by omega, by omega⟩ hb
    (Or.inr ⟨hfit, hb62⟩))
  refine ⟨r, e, ?_⟩
  convert h using 1
  ext v
  constructor
  · rintro ⟨x, y, hx, hy, hv⟩; exact ⟨x, y, w, hx, hy, rfl, hv⟩
  · rintro ⟨x, y, _, hx, hy, rfl, hv⟩; exact ⟨x, y, hx, hy, hv⟩

/-- `gs_bound_fixed(b, w)`: the same for one multiplier. -/
theorem C31_gs_bound_fixed (dbg : Bool) (b w : Int) (hb : 0 ≤ b) (hb62 : b < 4611686018427387904)
    (hw : w ≠ 0) (hfit : RedMulFits (-2 * b) (2 * b) w) :
    ∃ r, gs_bound_fixed dbg b w = .ok r ∧
      IsGreatest {v | ∃ x y, |x| ≤ b ∧ |y| ≤ b ∧
        (v = |x + y| ∨ v = |Spec.red (w * (x - y))|)} r := by
  have h64 := redMulFits_w hfit
  obtain ⟨r, e, h⟩ := wp_total.1 (wp_gs_bound_fixed (dbg := dbg) hw ⟨by omega, by omega⟩ hb
    (Or.inr ⟨hfit, hb62⟩))
  refine ⟨r, e, ?_⟩
  convert h using 1
  ext v
  constructor
  · rintro ⟨x, y, hx, hy, hv⟩; exact ⟨x, y, w, hx, hy, rfl, hv⟩
  · rintro ⟨x, y, _, hx, hy, rfl, hv⟩; exact ⟨x, y, hx, hy, hv⟩

example : ct_bound true 5000 (-20) 30 = .ok 17319 := by decide +kernel
example : gs_bound false 5000 0 30 = .ok 12356 := by decide +kernel

/-! ### C41, C42: whole transforms -/

section
variable (dbg : Bool) (b0 : Int) (k : Nat) (p bound : Array Int) (hk : k ≤ 31) (hb : 0 ≤ b0)
  (hp : Table16 p) (B : Int) (bound' : Array Int)

/-- `ntt_ct_bounds`: entry `m + 1` of the array is the best bound on the results of round `m` for
operands bounded by entry `m`; the last entry is returned. -/
theorem C41_ntt_ct_bounds (hk : k ≤ 31) (hb : 0 ≤ b0) (hp : Table16 p)
    (h : ntt_ct_bounds dbg b0 (2 ^ k) p bound = .ok (B, bound')) :
    bound'.size = bound.size ∧ B = elt bound' k ∧ elt bound' 0 = b0 ∧
      ∀ m, m < k → IsGreatest (ctSet (elt bound' m) (Entries p (2 ^ m) (2 ^ m)))
        (elt bound' (m + 1)) := by
  obtain ⟨h1, h2, h3⟩ := ntt_ct_bounds_ok hk hb hp h
  exact ⟨h1.2, h2, h3.1, h3.2⟩

/-- `ntt_gs_bounds`: the same for Gentleman-Sande, whose round `m` uses the table entries
`p[t..2t-1]` with `t = 2^(k-1-m)`. -/
theorem C42_ntt_gs_bounds (hk : k ≤ 31) (hb : 0 ≤ b0) (hp : Table16 p)
    (h : ntt_gs_bounds dbg b0 (2 ^ k) p bound = .ok (B, bound')) :
    bound'.size = bound.size ∧ B = elt bound' k ∧ elt bound' 0 = b0 ∧
      ∀ m, m < k → IsGreatest (gsSet (elt bound' m) (Entries p (2 ^ (k - 1 - m)) (2 ^ (k - 1 - m))))
        (elt bound' (m + 1)) := by
  obtain ⟨h1, h2, h3⟩ := ntt_gs_bounds_ok hk hb hp h
  exact ⟨h1.2, h2, h3.1, h3.2⟩

/-- Both functions return when the table entries are as in the generated tables (nonzero, at most
6144 in absolute value), `3^k (b0 + 6144) ≤ 2^40` and the array has more than `log_2(n)` elements. -/
theorem C41_returns (hk : k ≤ 31) (hb : 0 ≤ b0)
    (hB : (3 : Int) ^ k * (b0 + 6144) ≤ 1099511627776)
    (hp : ∀ i, 0 < i → i < 2 ^ k → ∃ w, p[i]? = some w ∧ w ≠ 0 ∧ |w| ≤ 6144)
    (hs : k < bound.size) :
    (∃ r, ntt_ct_bounds dbg b0 (2 ^ k) p bound = .ok r) ∧
    (∃ r, ntt_gs_bounds dbg b0 (2 ^ k) p bound = .ok r) :=
  ⟨ntt_ct_bounds_total hk hb hB hp hs, ntt_gs_bounds_total hk hb hB hp hs⟩

example : (3 : Int) ^ 10 * (21499 + 6144) ≤ 1099511627776 := by decide

/-- The header documents that the array of bounds needs `log_2(n)` elements; with an array of that
size neither function returns. -/
theorem C41_documented_size (hk : k ≤ 31) (hb : 0 ≤ b0) (hp : Table16 p) (hs : bound.size = k)
    (r : Int × Array Int) :
    ntt_ct_bounds dbg b0 (2 ^ k) p bound ≠ .ok r ∧ ntt_gs_bounds dbg b0 (2 ^ k) p bound ≠ .ok r := by
  constructor
  · intro h
    have := (ntt_ct_bounds_ok hk hb hp h).1
    omega
  · intro h
    have := (ntt_gs_bounds_ok hk hb hp h).1
    omega

/-- For example the write is out of bounds for `n = 4`. -/
example : ntt_ct_bounds false 100 4 #[0, -4096, -4096, 1212] #[0, 0] = .error .oob ∧
    ntt_gs_bounds false 100 4 #[0, -4096, -4096, 1212] #[0, 0] = .error .oob := by decide +kernel

section transforms
variable (a : Array Int) (ha : a.size = 2 ^ k) (hr : InRange (-b0) b0 a) (hps : 2 ^ k ≤ p.size)
  (h31 : B ≤ 2147483647)
  (hprod : ∀ (i : Nat) (w : Int), p[i]? = some w → B * |w| ≤ 8796042698752)
include ha hr hps h31 hprod hk hb hp

/-- If `ntt_ct_bounds` returns `B`, the products stay in the range documented for `mul_red`, and
`|a[i]| ≤ b0`, then `mulntt_red_ct_rev2std` runs without overflow and all results are bounded by
`B`. -/
theorem C41_mulntt_red_ct_rev2std
    (h : ntt_ct_bounds dbg b0 (2 ^ k) p bound = .ok (B, bound')) :
    ∃ a', NttRed.mulntt_red_ct_rev2std a (2 ^ k) p = .ok a' ∧ a'.size = 2 ^ k ∧
      InRange (-B) B a' :=
  ct_run (h := h) hk hb hp ha hr hps h31 hprod fun hbf hP =>
    NTT.wp_mulCtRev2std hk hps (fun m b j w hm hb hj hw => hbf m w j hm hj hw _ _ (by
      have := Nat.two_pow_pos m; omega)) hP

theorem C41_mulntt_red_ct_std2rev
    (h : ntt_ct_bounds dbg b0 (2 ^ k) p bound = .ok (B, bound')) :
    ∃ a', NttRed.mulntt_red_ct_std2rev a (2 ^ k) p = .ok a' ∧ a'.size = 2 ^ k ∧
      InRange (-B) B a' :=
  ct_run (h := h) hk hb hp ha hr hps h31 hprod fun hbf hP =>
    NTT.wp_mulCtStd2rev hk hps (fun m j r w hm hj hr hw => hbf m w j hm hj hw _ _ (by
      have := Nat.two_pow_pos (k - 1 - m); omega)) hP

/-- The variants without `psi` skip the multiplication by the first entry of each round, which is
`-4096`, i.e. 1/3 modulo Q, in their tables. -/
theorem C41_ntt_red_ct_rev2std (hone : ∀ m, m < k → p[2 ^ m]? = some (-4096))
    (h : ntt_ct_bounds dbg b0 (2 ^ k) p bound = .ok (B, bound')) :
    ∃ a', NttRed.ntt_red_ct_rev2std a (2 ^ k) p = .ok a' ∧ a'.size = 2 ^ k ∧
      InRange (-B) B a' :=
  ct_run (h := h) hk hb hp ha hr hps h31 hprod fun hbf hP =>
    NTT.wp_ctRev2std hk hps
      (fun m b hm hb => ct_run0 (h := h) hk ‹0 ≤ b0› hp h31 hone hm (by
        have := Nat.two_pow_pos m; omega))
      (fun m b j w hm hb _ hj hw => hbf m w j hm hj hw _ _ (by
        have := Nat.two_pow_pos m; omega)) hP

theorem C41_ntt_red_ct_std2rev (hone : ∀ m, m < k → p[2 ^ m]? = some (-4096))
    (h : ntt_ct_bounds dbg b0 (2 ^ k) p bound = .ok (B, bound')) :
    ∃ a', NttRed.ntt_red_ct_std2rev a (2 ^ k) p = .ok a' ∧ a'.size = 2 ^ k ∧
      InRange (-B) B a' :=
  ct_run (h := h) hk hb hp ha hr hps h31 hprod fun hbf hP =>
    NTT.wp_ctStd2rev hk hps
      (fun m r hm hr => ct_run0 (h := h) hk ‹0 ≤ b0› hp h31 hone hm (by
        have := Nat.two_pow_pos (k - 1 - m); omega))
      (fun m j r w hm _ hj hr hw => hbf m w j hm hj hw _ _ (by
        have := Nat.two_pow_pos (k - 1 - m); omega)) hP

/-- If `ntt_gs_bounds` returns `B`, the products stay in the range documented for `mul_red`, and
`|a[i]| ≤ b0`, then `nttmul_red_gs_rev2std` runs without overflow and all results are bounded by
`B`. -/
theorem C42_nttmul_red_gs_rev2std
    (h : ntt_gs_bounds dbg b0 (2 ^ k) p bound = .ok (B, bound')) :
    ∃ a', NttRed.nttmul_red_gs_rev2std a (2 ^ k) p = .ok a' ∧ a'.size = 2 ^ k ∧
      InRange (-B) B a' :=
  gs_run (h := h) hk hb hp ha hr hps h31 hprod fun hbf _ hP =>
    NTT.wp_gsMulRev2std hk hps (fun m j r w hm hj hr hw => hbf m w j hm hj hw _ _ (by
      have := Nat.two_pow_pos m; omega)) hP

theorem C42_nttmul_red_gs_std2rev
    (h : ntt_gs_bounds dbg b0 (2 ^ k) p bound = .ok (B, bound')) :
    ∃ a', NttRed.nttmul_red_gs_std2rev a (2 ^ k) p = .ok a' ∧ a'.size = 2 ^ k ∧
      InRange (-B) B a' :=
  gs_run (h := h) hk hb hp ha hr hps h31 hprod fun hbf _ hP =>
    NTT.wp_gsMulStd2rev hk hps (fun m b j w hm hb hj hw => hbf m w j hm hj hw _ _ (by
      have := Nat.two_pow_pos (k - 1 - m); omega)) hP

theorem C42_ntt_red_gs_rev2std
    (h : ntt_gs_bounds dbg b0 (2 ^ k) p bound = .ok (B, bound')) :
    ∃ a', NttRed.ntt_red_gs_rev2std a (2 ^ k) p = .ok a' ∧ a'.size = 2 ^ k ∧
      InRange (-B) B a' :=
  gs_run (h := h) hk hb hp ha hr hps h31 hprod fun hbf hbf0 hP =>
    NTT.wp_gsRev2std hk hps
      (fun m r hm hr => hbf0 m hm _ _ (by have := Nat.two_pow_pos m; omega))
      (fun m j r w hm _ hj hr hw => hbf m w j hm hj hw _ _ (by
      have := Nat.two_pow_pos m; omega)) hP

theorem C42_ntt_red_gs_std2rev
    (h : ntt_gs_bounds dbg b0 (2 ^ k) p bound = .ok (B, bound')) :
    ∃ a', NttRed.ntt_red_gs_std2rev a (2 ^ k) p = .ok a' ∧ a'.size = 2 ^ k ∧
      InRange (-B) B a' :=
  gs_run (h := h) hk hb hp ha hr hps h31 hprod fun hbf hbf0 hP =>
    NTT.wp_gsStd2rev hk hps
      (fun m b hm hb => hbf0 m hm _ _ (by have := Nat.two_pow_pos (k - 1 - m); omega))
      (fun m b j w hm hb _ hj hw => hbf m w j hm hj hw _ _ (by
      have := Nat.two_pow_pos (k - 1 - m); omega)) hP

end transforms
end

/-- Cases that meet the hypotheses, for `n = 8`. -/
example : ntt_ct_bounds false 21499 (2 ^ 3) #[0, -4096, -4096, -1, -4096, 5444, -1, -723] #[0, 0, 0, 0] =
    .ok (212492, #[21499, 42998, 85996, 212492]) ∧
  ntt_gs_bounds false 21499 (2 ^ 3) #[0, -4096, -4096, -1, -4096, 5444, -1, -723] #[0, 0, 0, 0] =
    .ok (277336, #[21499, 69334, 138668, 277336]) := by decide +kernel

example : Table16 #[0, -4096, -4096, -1, -4096, 5444, -1, -723] ∧
    (∀ (i : Nat) (w : Int), (#[0, -4096, -4096, -1, -4096, 5444, -1, -723] : Array Int)[i]? = some w →
      277336 * |w| ≤ 8796042698752) := by
  have key : ∀ (i : Nat) (w : Int),
      (#[0, -4096, -4096, -1, -4096, 5444, -1, -723] : Array Int)[i]? = some w →
      -4096 ≤ w ∧ w ≤ 5444 := by
    intro i w h
    have hm := Array.mem_of_getElem? h
    simp only [List.mem_toArray, List.mem_cons, List.not_mem_nil, or_false] at hm
    omega
  refine ⟨fun i w h => ?_, fun i w h => ?_⟩
  · have := key i w h; omega
  · have := key i w h
    have : |w| ≤ 5444 := abs_le.2 ⟨by omega, by omega⟩
    omega

end Props
