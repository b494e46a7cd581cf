import Verif.Proofs.Intervals

/-
C32: the operations of src/intervals.h over-approximate the concrete operations.

`x ∈ a` means `a->min <= x <= a->max`; `Valid a` says that `a` is a non-empty interval of
`int64_t` numbers; `IsHull f a r` says that `r` is the smallest interval that contains `f x` for all
`x ∈ a`.  `dbg` says whether assertions are compiled in.
-/

namespace Props
open C Intervals
open Spec (RedMulFits)

/-- `point(x)` contains `x` and nothing else. -/
theorem C32_point (dbg : Bool) (x : Int) : ∃ r, point dbg x = .ok r ∧ ∀ y, y ∈ r ↔ y = x := by
  obtain ⟨r, e, h⟩ := wp_total.1 (wp_make (dbg := dbg) (P := fun r => r = ⟨x, x⟩) (le_refl x) rfl)
  refine ⟨r, e, fun y => ?_⟩
  rw [h, mem_iff]
  simp only
  omega

/-- `interval(x, y)` contains the numbers between `x` and `y`; it aborts when there are none. -/
theorem C32_interval (dbg : Bool) (x y : Int) :
    (x ≤ y → ∃ r, interval dbg x y = .ok r ∧ ∀ z, z ∈ r ↔ x ≤ z ∧ z ≤ y) ∧
    (y < x → interval dbg x y = .error .abort) := by
  constructor
  · intro hxy
    obtain ⟨r, e, h⟩ := wp_total.1 (wp_make (dbg := dbg) (P := fun r => r = ⟨x, y⟩) hxy rfl)
    refine ⟨r, ?_, fun z => ?_⟩
    · unfold interval
      rw [if_neg (by omega)]
      exact e
    · rw [h, mem_iff]
  · intro hxy
    unfold interval
    rw [if_pos (by omega)]

/-- `neg(a)` contains the opposites of the elements of `a` and nothing else; it exits when
`-INT64_MIN` would be needed. -/
theorem C32_neg (dbg : Bool) (a : Ivl) (ha : Valid a) :
    (a.min ≠ -9223372036854775808 →
      ∃ r, neg dbg a = .ok r ∧ Valid r ∧ ∀ y, y ∈ r ↔ ∃ x, x ∈ a ∧ y = -x) ∧
    (a.min = -9223372036854775808 → neg dbg a = .error .abort) := by
  obtain ⟨h1, h2, h3⟩ := ha
  constructor
  · intro h
    have hw : Wp NoErr (neg dbg a) (fun r => r = ⟨-a.max, -a.min⟩) := by
      unfold neg
      rw [if_neg h]
      simp only [wp_bind]
      have := h1.1
      have := h2.2
      exact wp_i64 ⟨by omega, by omega⟩ (wp_i64 ⟨by omega, by omega⟩ (wp_make (by omega) rfl))
    obtain ⟨r, e, hr⟩ := wp_total.1 hw
    have := h1.1
    have := h2.2
    refine ⟨r, e, ?_, fun y => ?_⟩
    · rw [hr]
      exact ⟨⟨by simp only; omega, by simp only; omega⟩, ⟨by simp only; omega, by simp only; omega⟩,
        by simp only; omega⟩
    · rw [hr, mem_iff]
      simp only
      constructor
      · intro hy; exact ⟨-y, ⟨by omega, by omega⟩, by omega⟩
      · rintro ⟨x, ⟨_, _⟩, rfl⟩; omega
  · intro h
    unfold neg
    rw [if_pos h]

/-- `add(a, b)`, when the bounds do not overflow, contains the sums `x + y` for `x ∈ a` and `y ∈ b`
and nothing else. -/
theorem C32_add (dbg : Bool) (a b : Ivl) (ha : Valid a) (hb : Valid b)
    (h1 : I64 (a.min + b.min)) (h2 : I64 (a.max + b.max)) :
    ∃ r, add dbg a b = .ok r ∧ Valid r ∧ ∀ z, z ∈ r ↔ ∃ x y, x ∈ a ∧ y ∈ b ∧ z = x + y := by
  obtain ⟨r, e, hr⟩ := wp_total.1 (wp_add (dbg := dbg) (P := fun r => r = _) ha.2.2 hb.2.2
    (Or.inr ⟨h1, h2⟩) rfl)
  have := ha.2.2
  have := hb.2.2
  refine ⟨r, e, by rw [hr]; exact ⟨h1, h2, by simp only; omega⟩, fun z => ?_⟩
  rw [hr, mem_iff]
  simp only
  constructor
  · intro hz
    by_cases h : z - b.min ≤ a.max
    · exact ⟨z - b.min, b.min, ⟨by omega, by omega⟩, ⟨by omega, by omega⟩, by omega⟩
    · exact ⟨a.max, z - a.max, ⟨by omega, by omega⟩, ⟨by omega, by omega⟩, by omega⟩
  · rintro ⟨x, y, ⟨_, _⟩, ⟨_, _⟩, rfl⟩; omega

/-- `sub(a, b)`, when the bounds do not overflow, contains the differences `x - y` for `x ∈ a` and
`y ∈ b` and nothing else. -/
theorem C32_sub (dbg : Bool) (a b : Ivl) (ha : Valid a) (hb : Valid b)
    (h1 : I64 (a.min - b.max)) (h2 : I64 (a.max - b.min)) :
    ∃ r, sub dbg a b = .ok r ∧ Valid r ∧ ∀ z, z ∈ r ↔ ∃ x y, x ∈ a ∧ y ∈ b ∧ z = x - y := by
  obtain ⟨r, e, hr⟩ := wp_total.1 (wp_sub (dbg := dbg) (P := fun r => r = _) ha.2.2 hb.2.2
    (Or.inr ⟨h1, h2⟩) rfl)
  have := ha.2.2
  have := hb.2.2
  refine ⟨r, e, by rw [hr]; exact ⟨h1, h2, by simp only; omega⟩, fun z => ?_⟩
  rw [hr, mem_iff]
  simp only
  constructor
  · intro hz
    by_cases h : z + b.max ≤ a.max
    · exact ⟨z + b.max, b.max, ⟨by omega, by omega⟩, ⟨by omega, by omega⟩, by omega⟩
    · exact ⟨a.max, a.max - z, ⟨by omega, by omega⟩, ⟨by omega, by omega⟩, by omega⟩
  · rintro ⟨x, y, ⟨_, _⟩, ⟨_, _⟩, rfl⟩; omega

/-- The overflow check of `add` and `sub` comes too late: when a bound does not fit, the signed
addition itself overflows (undefined behaviour); the `exit(1)` branch is never reached otherwise. -/
theorem C43_overflow_not_detected (dbg : Bool) (a b : Ivl) :
    (¬ (I64 (a.min + b.min) ∧ I64 (a.max + b.max)) → add dbg a b = .error .overflow) ∧
    (¬ (I64 (a.min - b.max) ∧ I64 (a.max - b.min)) → sub dbg a b = .error .overflow) ∧
    add dbg a b ≠ .error .abort ∧ sub dbg a b ≠ .error .abort := by
  have hadd : ∀ x y, add64 x y = if I64 (x + y) then .ok (x + y) else .error .overflow := by
    intro x y
    unfold add64 i64
    split
    · show (if _ then _ else _) = _
      rw [if_neg (by omega)]; rfl
    · rfl
  have hsub : ∀ x y, sub64 x y = if I64 (x - y) then .ok (x - y) else .error .overflow := by
    intro x y
    unfold sub64 i64
    split
    · show (if _ then _ else _) = _
      rw [if_neg (by omega)]; rfl
    · rfl
  have hmk : ∀ x y, make_interval dbg x y ≠ .error .abort := by
    intro x y h
    unfold make_interval RedBounds.dassert cassert at h
    by_cases hxy : x ≤ y
    · cases dbg <;> simp [hxy, pure, Except.pure, bind, Except.bind] at h
    · cases dbg <;> simp [hxy, pure, Except.pure, bind, Except.bind] at h
  refine ⟨?_, ?_, ?_, ?_⟩
  · intro h
    unfold add
    rw [hadd, hadd]
    by_cases h1 : I64 (a.min + b.min)
    · rw [if_pos h1, if_neg (fun h2 => h ⟨h1, h2⟩)]; rfl
    · rw [if_neg h1]; rfl
  · intro h
    unfold sub
    rw [hsub, hsub]
    by_cases h1 : I64 (a.min - b.max)
    · rw [if_pos h1, if_neg (fun h2 => h ⟨h1, h2⟩)]; rfl
    · rw [if_neg h1]; rfl
  · unfold add
    rw [hadd, hadd]
    by_cases h1 : I64 (a.min + b.min)
    · rw [if_pos h1]
      by_cases h2 : I64 (a.max + b.max)
      · rw [if_pos h2]; exact hmk _ _
      · rw [if_neg h2]; intro h; cases h
    · rw [if_neg h1]; intro h; cases h
  · unfold sub
    rw [hsub, hsub]
    by_cases h1 : I64 (a.min - b.max)
    · rw [if_pos h1]
      by_cases h2 : I64 (a.max - b.min)
      · rw [if_pos h2]; exact hmk _ _
      · rw [if_neg h2]; intro h; cases h
    · rw [if_neg h1]; intro h; cases h

/-- `red(a)` is the smallest interval that contains `red(x)` for all `x ∈ a`. -/
theorem C32_red (dbg : Bool) (a : Ivl) (ha : Valid a) :
    ∃ r, red dbg a = .ok r ∧ IsHull Spec.red a r := by
  obtain ⟨r, e, _, h⟩ := wp_total.1 (wp_red (dbg := dbg) ha)
  exact ⟨r, e, h⟩

/-- `red_twice(a)` contains `red(red(x))` for all `x ∈ a`; for 32-bit integers the result is
included in `[-130, 12413]`. -/
theorem C32_red_twice (dbg : Bool) (a : Ivl) (ha : Valid a) :
    ∃ r, red_twice dbg a = .ok r ∧ (∀ x, x ∈ a → Spec.red (Spec.red x) ∈ r) ∧
      (I32 a.min → I32 a.max → -130 ≤ r.min ∧ r.max ≤ 12413) := by
  obtain ⟨r, e, _, b, _, h1, h2⟩ := wp_total.1 (wp_red_twice (dbg := dbg) ha)
  refine ⟨r, e, fun x hx => h2.sound (h1.sound hx), ?_⟩
  rintro ⟨hmin1, hmin2⟩ ⟨hmax1, hmax2⟩
  have hb : -524287 ≤ b.min ∧ b.max ≤ 536573 := by
    obtain ⟨x, ⟨hx1, hx2⟩, e1⟩ := h1.1.1
    obtain ⟨y, ⟨hy1, hy2⟩, e2⟩ := h1.2.1
    unfold Spec.red at e1 e2
    omega
  obtain ⟨x, ⟨hx1, hx2⟩, e1⟩ := h2.1.1
  obtain ⟨y, ⟨hy1, hy2⟩, e2⟩ := h2.2.1
  unfold Spec.red at e1 e2
  omega

/-- `red_scale(k, a)` for `k ≠ 0` is the smallest interval that contains `red(k * x)` for all
`x ∈ a`. -/
theorem C32_red_scale (dbg : Bool) (k : Int) (a : Ivl) (ha : Valid a) (hk : k ≠ 0)
    (hfit : RedMulFits a.min a.max k) :
    ∃ r, red_scale dbg k a = .ok r ∧ IsHull (fun x => Spec.red (k * x)) a r := by
  have h64 := RedBounds.redMulFits_w hfit
  obtain ⟨r, e, _, h⟩ := wp_total.1 (wp_red_scale (dbg := dbg) ha.2.2 hk ⟨by omega, by omega⟩
    (Or.inr hfit))
  exact ⟨r, e, h⟩

/-- Whenever `red_scale(k, a)` returns (no signed overflow, no division by zero), its result is
that smallest interval. -/
theorem C32_red_scale_any (dbg : Bool) (k : Int) (a r : Ivl) (ha : Valid a) (hk : I64 k)
    (h : red_scale dbg k a = .ok r) : IsHull (fun x => Spec.red (k * x)) a r :=
  (red_scale_ok ha.2.2 hk h).2

/-- `red_scale(0, a)` divides by zero. -/
theorem C32_red_scale_zero (dbg : Bool) (a : Ivl) (ha : Valid a) :
    red_scale dbg 0 a = .error .divZero :=
  red_scale_zero ha.2.2

/-- Whenever `red_mul(a, b)` returns, and the larger of the two intervals (the first one if they
have the same size) satisfies `-max ≤ min`, the result contains `red(x * y)` for all `x ∈ a` and
`y ∈ b`; it is the smallest such interval that contains 0. -/
theorem C43_red_mul_partial (dbg : Bool) (a b r : Ivl) (ha : Valid a) (hb : Valid b)
    (hsym : if a.max - a.min < b.max - b.min then -b.max ≤ b.min else -a.max ≤ a.min)
    (h : red_mul dbg a b = .ok r) :
    (∀ x y, x ∈ a → y ∈ b → Spec.red (x * y) ∈ r) ∧ 0 ∈ r ∧
    (r.min = 0 ∨ ∃ x y, x ∈ a ∧ y ∈ b ∧ r.min = Spec.red (x * y)) ∧
    (r.max = 0 ∨ ∃ x y, x ∈ a ∧ y ∈ b ∧ r.max = Spec.red (x * y)) := by
  have key := wp_red_mul (E := fun _ => True) (dbg := dbg) ha hb
    (by unfold larger; split at hsym <;> (next h' => simp only [h', if_true, if_false]; exact hsym)) (Or.inl trivial) (fun _ => Or.inr trivial)
  rw [h, wp_ok] at key
  exact ⟨key.2.1, key.1, key.2.2⟩

/-- `red_mul(a, b)` returns (in the library as built, with -DNDEBUG) when nothing overflows. -/
theorem C43_red_mul_returns_partial (a b : Ivl) (ha : Valid a) (hb : Valid b)
    (hsym : if a.max - a.min < b.max - b.min then -b.max ≤ b.min else -a.max ≤ a.min)
    (h1 : I64 (a.max - a.min)) (h2 : I64 (b.max - b.min))
    (hfit : if a.max - a.min < b.max - b.min then ∀ w, w ∈ a → RedMulFits b.min b.max w
      else ∀ w, w ∈ b → RedMulFits a.min a.max w) :
    ∃ r, red_mul false a b = .ok r := by
  obtain ⟨r, e, _⟩ := wp_total.1 (wp_red_mul (dbg := false) ha hb
    (by unfold larger; split at hsym <;> (next h' => simp only [h', if_true, if_false]; exact hsym))
    (Or.inr ⟨h1, h2, by
      unfold larger smaller
      split at hfit <;> (next h' => simp only [h', if_true, if_false]; exact hfit)⟩) (fun _ => Or.inl rfl))
  exact ⟨r, e⟩

/-- The condition on the larger interval is necessary: `red_mul([-8193, 0], [3, 4])` does not
contain `red(-6827 * 3)`. -/
theorem C43_red_mul_unsound (dbg : Bool) :
    ∃ a b r x y, Valid a ∧ Valid b ∧ red_mul dbg a b = .ok r ∧ x ∈ a ∧ y ∈ b ∧
      ¬ Spec.red (x * y) ∈ r := by
  refine ⟨⟨-8193, 0⟩, ⟨3, 4⟩, ⟨0, 12285⟩, -6827, 3, by decide, by decide, ?_, by decide, by decide,
    by decide⟩
  cases dbg <;> decide +kernel

/-- `normal(a)`, when the size of `a` fits in 64 bits, is the smallest interval that contains
`x mod q` for all `x ∈ a`. -/
theorem C32_normal (dbg : Bool) (a : Ivl) (ha : Valid a) (hs : I64 (a.max - a.min)) :
    ∃ r, normal dbg a = .ok r ∧ (0 ≤ r.min ∧ r.max ≤ 12288) ∧ IsHull (fun x => x % 12289) a r := by
  obtain ⟨r, e, _, h⟩ := wp_total.1 (wp_normal (dbg := dbg) ha.2.2 (Or.inr hs))
  exact ⟨r, e, h⟩

/-- `normal_inv3(a)` contains `y` whenever `y` is the element of `[0, q-1]` with `3 * y = x mod q`
for an `x ∈ a`. -/
theorem C32_normal_inv3 (dbg : Bool) (a : Ivl) :
    ∃ r, normal_inv3 dbg a = .ok r ∧ (0 ≤ r.min ∧ r.max ≤ 12288) ∧
      ∀ x y, x ∈ a → 0 ≤ y → y ≤ 12288 → (3 * y) % 12289 = x % 12289 → y ∈ r := by
  obtain ⟨r, e, _, h1, h2⟩ := wp_total.1 (wp_normal_inv3 (dbg := dbg) (a := a))
  refine ⟨r, e, h1, fun x y hx hy0 hy1 hxy => ?_⟩
  have := h2 x hx
  rwa [show (x * 8193) % 12289 = y by omega] at this

/-- `shift(a)`, for `a` included in `[0, q-1]`, is the smallest interval that contains the shifted
values. -/
theorem C32_shift (dbg : Bool) (a : Ivl) (ha : Valid a) (h0 : 0 ≤ a.min) (h1 : a.max ≤ 12288) :
    ∃ r, shift dbg a = .ok r ∧ (-6144 ≤ r.min ∧ r.max ≤ 6144) ∧
      IsHull (fun x => if x > 6144 then x - 12289 else x) a r := by
  obtain ⟨r, e, _, h⟩ := wp_total.1 (wp_shift (dbg := dbg) ha.2.2 h0 h1)
  exact ⟨r, e, h⟩

/-- `correct(a)`, for `a` included in `[-q, 2q-1]`, is the smallest interval that contains the
corrected values. -/
theorem C32_correct (dbg : Bool) (a : Ivl) (ha : Valid a) (h0 : -12289 ≤ a.min)
    (h1 : a.max ≤ 24577) :
    ∃ r, correct dbg a = .ok r ∧ (0 ≤ r.min ∧ r.max ≤ 12288) ∧
      IsHull (fun x => if x < 0 then x + 12289 else if x ≥ 12289 then x - 12289 else x) a r := by
  obtain ⟨r, e, _, h⟩ := wp_total.1 (wp_correct (dbg := dbg) ha.2.2 h0 (by omega))
  exact ⟨r, e, h⟩

/-! Concrete cases that meet the hypotheses. -/

example : Valid ⟨-21499, 21499⟩ ∧ RedMulFits (-21499) 21499 (-6144) := by
  unfold RedMulFits; decide
example : Valid ⟨-5, 7⟩ ∧ Valid ⟨3, 9⟩ ∧ I64 (-5 + 3) ∧ I64 (7 + 9) ∧ I64 (-5 - 9) ∧ I64 (7 - 3) := by
  decide
example : add true ⟨-5, 7⟩ ⟨3, 9⟩ = .ok ⟨-2, 16⟩ ∧ sub true ⟨-5, 7⟩ ⟨3, 9⟩ = .ok ⟨-14, 4⟩ := by
  decide +kernel
example : red true ⟨-5000, 10000⟩ = .ok ⟨-2, 12287⟩ := by decide +kernel
example : red_scale true 17 ⟨-3000, 5000⟩ = .ok ⟨-17, 12287⟩ := by decide +kernel
example : red_mul false ⟨-100, 100⟩ ⟨-5, 30⟩ = .ok ⟨0, 12286⟩ ∧
    (if (100 : Int) - -100 < 30 - -5 then (-30 : Int) ≤ -5 else (-100 : Int) ≤ -100) := by
  decide +kernel
example : normal true ⟨12280, 12300⟩ = .ok ⟨0, 12288⟩ ∧ normal true ⟨-3, -1⟩ = .ok ⟨12286, 12288⟩ := by
  decide +kernel
example : shift true ⟨100, 7000⟩ = .ok ⟨-6144, 6144⟩ ∧ correct true ⟨-12289, -5⟩ = .ok ⟨0, 12284⟩ := by
  decide +kernel
example : normal_inv3 true ⟨3, 3⟩ = .ok ⟨1, 1⟩ := by decide +kernel
example : I64 ((12300 : Int) - 12280) ∧ (3 * 1 : Int) % 12289 = 3 % 12289 := by decide

end Props
