import Verif.Proofs.RedProducts
import Verif.Proofs.Params
import Mathlib.Tactic.IntervalCases

/-
C13-C19: the elementwise functions of src/ntt_red.c.

`Int32Array a` says that the contents are `int32_t` values; `x ≡ y [ZMOD 12289]` is congruence of
integers.
-/

namespace Props
open C Spec NttRed

/-- The elements are `int32_t` values. -/
abbrev Int32Array (a : Array Int) : Prop := InRange (-2147483648) 2147483647 a

private theorem red_modEq (x : Int) : Spec.red x ≡ 3 * x [ZMOD 12289] := by
  unfold Spec.red Int.ModEq; omega

/-- `reduce_array`: result congruent to `3*a[i]` and in `[-524287, 536573]`, for all `int32_t`
contents. -/
theorem C13_reduce_array (n : Nat) (hn : n < 2 ^ 32) (a : Array Int) (ha : a.size = n)
    (hr : Int32Array a) :
    ∃ a', reduce_array a n = .ok a' ∧ a'.size = n ∧ ∀ i, i < n →
      elt a' i ≡ 3 * elt a i [ZMOD 12289] ∧ -524287 ≤ elt a' i ∧ elt a' i ≤ 536573 := by
  obtain ⟨a', e, s, v⟩ := run_reduce_array hn ha (fun i hi => hr i (by omega))
  refine ⟨a', e, s, fun i hi => ?_⟩
  rw [v i hi]
  exact ⟨red_modEq _, red_i32 (hr i (by omega))⟩

/-- Both bounds are attained. -/
theorem C13_bounds_attained :
    reduce_array #[2147479552, -2147479553] 2 = .ok #[-524287, 536573] := by decide +kernel

/-- `reduce_array_twice`: result congruent to `9*a[i]` and in `[-130, 12413]`. -/
theorem C14_reduce_array_twice (n : Nat) (hn : n < 2 ^ 32) (a : Array Int) (ha : a.size = n)
    (hr : Int32Array a) :
    ∃ a', reduce_array_twice a n = .ok a' ∧ a'.size = n ∧ ∀ i, i < n →
      elt a' i ≡ 9 * elt a i [ZMOD 12289] ∧ -130 ≤ elt a' i ∧ elt a' i ≤ 12413 := by
  obtain ⟨a', e, s, v⟩ := run_reduce_array_twice hn ha (fun i hi => hr i (by omega))
  refine ⟨a', e, s, fun i hi => ?_⟩
  rw [v i hi]
  refine ⟨(red_modEq _).trans ?_, red_red_i32 (hr i (by omega))⟩
  have := (red_modEq (elt a i)).mul_left 3
  rwa [← mul_assoc] at this

/-- Both bounds are attained. -/
theorem C14_bounds_attained :
    reduce_array_twice #[-2147476821, 2130710528] 2 = .ok #[-130, 12413] := by decide +kernel

/-- `correct` maps `[-Q, 2Q-1]` to the canonical residue. -/
theorem C15_correct (n : Nat) (hn : n < 2 ^ 32) (a : Array Int) (ha : a.size = n)
    (hr : InRange (-12289) (2 * 12289 - 1) a) :
    ∃ a', correct a n = .ok a' ∧ a'.size = n ∧ ∀ i, i < n → elt a' i = elt a i % 12289 :=
  run_correct hn ha (fun i hi => hr i (by omega))

/-- `reduce_array_twice` followed by `correct`: canonical form of `9*a[i]`, for all `int32_t`
contents. -/
theorem C15_correct_after_reduce_twice (n : Nat) (hn : n < 2 ^ 32) (a : Array Int)
    (ha : a.size = n) (hr : Int32Array a) :
    ∃ a', (do let a ← reduce_array_twice a n; correct a n) = .ok a' ∧ a'.size = n ∧
      ∀ i, i < n → elt a' i = (9 * elt a i) % 12289 := by
  obtain ⟨a1, e1, s1, v1⟩ := C14_reduce_array_twice n hn a ha hr
  obtain ⟨a2, e2, s2, v2⟩ := C15_correct n hn a1 s1 (fun i hi => by
    have := v1 i (by omega); constructor <;> omega)
  refine ⟨a2, ?_, s2, fun i hi => ?_⟩
  · rw [e1]; exact e2
  · rw [v2 i hi]; exact (v1 i hi).1

/-- `normalize`: canonical residue of every `int32_t` value. -/
theorem C16_normalize (n : Nat) (hn : n < 2 ^ 32) (a : Array Int) (ha : a.size = n)
    (_hr : Int32Array a) :
    ∃ a', normalize a n = .ok a' ∧ a'.size = n ∧ ∀ i, i < n → elt a' i = elt a i % 12289 :=
  run_normalize hn ha

/-- `normalize_inv3`: the canonical `r` with `3*r = a[i]` modulo `Q`. -/
theorem C16_normalize_inv3 (n : Nat) (hn : n < 2 ^ 32) (a : Array Int) (ha : a.size = n)
    (hr : Int32Array a) :
    ∃ a', normalize_inv3 a n = .ok a' ∧ a'.size = n ∧ ∀ i, i < n →
      0 ≤ elt a' i ∧ elt a' i < 12289 ∧ 3 * elt a' i ≡ elt a i [ZMOD 12289] := by
  obtain ⟨a', e, s, v⟩ := run_normalize_inv3 hn ha (fun i hi => hr i (by omega))
  refine ⟨a', e, s, fun i hi => ?_⟩
  rw [v i hi]
  unfold Int.ModEq
  omega

/-- `shift_array`: from `[0, Q-1]` to the congruent value in `[-6144, 6144]`. -/
theorem C17_shift_array (n : Nat) (hn : n < 2 ^ 32) (a : Array Int) (ha : a.size = n)
    (hr : Reduced a) :
    ∃ a', shift_array a n = .ok a' ∧ a'.size = n ∧ ∀ i, i < n →
      -6144 ≤ elt a' i ∧ elt a' i ≤ 6144 ∧
      (elt a' i = elt a i ∨ elt a' i = elt a i - 12289) := by
  obtain ⟨a', e, s, v⟩ := run_shift_array hn ha (fun i hi => by
    have := hr i (by omega); constructor <;> omega)
  refine ⟨a', e, s, fun i hi => ?_⟩
  have := hr i (by omega)
  rw [v i hi]
  split <;> omega

/-- The range of products for which `mul_red` is defined: the documented lower bound and `2^43-1`
(the documented upper bound is larger by 4096, see `C19`). -/
abbrev SafeProduct (z : Int) : Prop := -8796042698752 ≤ z ∧ z ≤ 2 ^ 43 - 1

/-- `mul_reduce_array16(a, n, p)`: congruent to `3*a[i]*p[i]`. -/
theorem C18_mul_reduce_array16 (n : Nat) (hn : n < 2 ^ 32) (a p : Array Int) (ha : a.size = n)
    (hp : p.size = n) (hs : ∀ i, i < n → SafeProduct (elt a i * elt p i)) :
    ∃ a', mul_reduce_array16 a n p = .ok a' ∧ a'.size = n ∧ ∀ i, i < n →
      elt a' i ≡ 3 * (elt a i * elt p i) [ZMOD 12289] := by
  obtain ⟨a', e, s, v⟩ := run_mul_reduce_array16 (a := a) (p := p) hn ha (by omega)
    (fun i hi => ⟨(hs i hi).1, by have := (hs i hi).2; norm_num at this; omega⟩)
  exact ⟨a', e, s, fun i hi => by rw [v i hi]; exact red_modEq _⟩

/-- `mul_reduce_array(c, n, a, b)`: congruent to `3*a[i]*b[i]`, whatever `c` held. -/
theorem C18_mul_reduce_array (n : Nat) (hn : n < 2 ^ 32) (c a b : Array Int) (hc : c.size = n)
    (ha : a.size = n) (hb : b.size = n) (hs : ∀ i, i < n → SafeProduct (elt a i * elt b i)) :
    ∃ c', mul_reduce_array c n a b = .ok c' ∧ c'.size = n ∧ ∀ i, i < n →
      elt c' i ≡ 3 * (elt a i * elt b i) [ZMOD 12289] := by
  obtain ⟨a', e, s, v⟩ := run_mul_reduce_array (a := a) (b := b) hn hc (by omega) (by omega)
    (fun i hi => ⟨(hs i hi).1, by have := (hs i hi).2; norm_num at this; omega⟩)
  exact ⟨a', e, s, fun i hi => by rw [v i hi]; exact red_modEq _⟩

/-- `scalar_mul_reduce_array(a, n, c)`: congruent to `3*a[i]*c`. -/
theorem C18_scalar_mul_reduce_array (n : Nat) (hn : n < 2 ^ 32) (a : Array Int) (c : Int)
    (ha : a.size = n) (hs : ∀ i, i < n → SafeProduct (elt a i * c)) :
    ∃ a', scalar_mul_reduce_array a n c = .ok a' ∧ a'.size = n ∧ ∀ i, i < n →
      elt a' i ≡ 3 * (elt a i * c) [ZMOD 12289] := by
  obtain ⟨a', e, s, v⟩ := run_scalar_mul_reduce_array (a := a) hn ha
    (fun i hi => ⟨(hs i hi).1, by have := (hs i hi).2; norm_num at this; omega⟩)
  exact ⟨a', e, s, fun i hi => by rw [v i hi]; exact red_modEq _⟩

/-- Documented bounds (1): operands in `[0, 12288]` give results in `[-36864, 12285]`. -/
theorem C18_bounds_nonneg (n : Nat) (hn : n < 2 ^ 32) (a p : Array Int) (ha : a.size = n)
    (hp : p.size = n) (hra : InRange 0 12288 a) (hrp : InRange 0 12288 p) :
    ∃ a', mul_reduce_array16 a n p = .ok a' ∧ a'.size = n ∧ ∀ i, i < n →
      elt a' i ≡ 3 * (elt a i * elt p i) [ZMOD 12289] ∧ -36864 ≤ elt a' i ∧ elt a' i ≤ 12285 := by
  have hm : ∀ i, i < n → 0 ≤ elt a i * elt p i ∧ elt a i * elt p i ≤ 150994944 := fun i hi => by
    have h1 := hra i (by omega)
    have h2 := hrp i (by omega)
    exact ⟨mul_nonneg h1.1 h2.1, by nlinarith⟩
  obtain ⟨a', e, s, v⟩ := run_mul_reduce_array16 (a := a) (p := p) hn ha (by omega)
    (fun i hi => by have := hm i hi; constructor <;> omega)
  refine ⟨a', e, s, fun i hi => ?_⟩
  have h := hm i hi
  rw [v i hi]
  refine ⟨red_modEq _, ?_⟩
  generalize elt a i * elt p i = z at *
  unfold Spec.red
  omega

/-- Documented bounds (2): operands in `[-6144, 6144]` give results in `[-9216, 21499]`. -/
theorem C18_bounds_shifted (n : Nat) (hn : n < 2 ^ 32) (a p : Array Int) (ha : a.size = n)
    (hp : p.size = n) (hra : InRange (-6144) 6144 a) (hrp : InRange (-6144) 6144 p) :
    ∃ a', mul_reduce_array16 a n p = .ok a' ∧ a'.size = n ∧ ∀ i, i < n →
      elt a' i ≡ 3 * (elt a i * elt p i) [ZMOD 12289] ∧ -9216 ≤ elt a' i ∧ elt a' i ≤ 21499 := by
  have hm : ∀ i, i < n → -37748736 ≤ elt a i * elt p i ∧ elt a i * elt p i ≤ 37748736 :=
    fun i hi => mul_bound (B := 6144) (W := 6144) (hra i (by omega)) (hrp i (by omega))
  obtain ⟨a', e, s, v⟩ := run_mul_reduce_array16 (a := a) (p := p) hn ha (by omega)
    (fun i hi => by have := hm i hi; constructor <;> omega)
  refine ⟨a', e, s, fun i hi => ?_⟩
  have h := hm i hi
  rw [v i hi]
  refine ⟨red_modEq _, ?_, ?_⟩
  · generalize elt a i * elt p i = z at *
    unfold Spec.red
    omega
  · by_contra hc
    have h1 := hra i (by omega)
    have h2 := hrp i (by omega)
    have h3 : elt a i * elt p i = -37744641 ∨ elt a i * elt p i = -37740545 := by
      generalize elt a i * elt p i = z at *
      unfold Spec.red at hc
      omega
    generalize elt a i = x at *
    generalize elt p i = y at *
    have h4 : x ≤ -6143 ∨ 6143 ≤ x := by
      by_contra h5
      have := mul_bound (x := x) (y := y) (B := 6142) (W := 6144) ⟨by omega, by omega⟩ h2
      omega
    have h6 : x = -6144 ∨ x = -6143 ∨ x = 6143 ∨ x = 6144 := by omega
    rcases h6 with rfl | rfl | rfl | rfl <;> omega

/-- The documented bounds are attained. -/
theorem C18_bounds_attained :
    mul_reduce_array16 #[12288, 63] 2 #[12288, 65] = .ok #[-36864, 12285] ∧
    mul_reduce_array16 #[6144, -6143] 2 #[6144, 6143] = .ok #[-9216, 21499] := by decide +kernel

/-- "In particular": `reduce_array` on two arrays of arbitrary `int32_t` contents, then
`mul_reduce_array`: no overflow, and the result is congruent to `27*a[i]*b[i]`. -/
theorem C18_reduce_then_multiply (n : Nat) (hn : n < 2 ^ 32) (c a b : Array Int) (hc : c.size = n)
    (ha : a.size = n) (hb : b.size = n) (hra : Int32Array a) (hrb : Int32Array b) :
    ∃ c', (do let a ← reduce_array a n
              let b ← reduce_array b n
              mul_reduce_array c n a b) = .ok c' ∧ c'.size = n ∧ ∀ i, i < n →
      elt c' i ≡ 27 * (elt a i * elt b i) [ZMOD 12289] := by
  obtain ⟨a1, e1, s1, v1⟩ := C13_reduce_array n hn a ha hra
  obtain ⟨b1, e2, s2, v2⟩ := C13_reduce_array n hn b hb hrb
  obtain ⟨c', e3, s3, v3⟩ := C18_mul_reduce_array n hn c a1 b1 hc s1 s2 (fun i hi => by
    have h1 := (v1 i hi).2
    have h2 := (v2 i hi).2
    have := mul_bound (x := elt a1 i) (y := elt b1 i) (B := 536573) (W := 536573)
      ⟨by omega, by omega⟩ ⟨by omega, by omega⟩
    norm_num [SafeProduct] at *
    constructor <;> linarith)
  refine ⟨c', ?_, s3, fun i hi => ?_⟩
  · rw [e1]
    show (do let b ← reduce_array b n; mul_reduce_array c n a1 b) = _
    rw [e2]; exact e3
  · refine (v3 i hi).trans ?_
    have := ((v1 i hi).1.mul (v2 i hi).1).mul_left 3
    refine this.trans ?_
    rw [show 3 * (3 * elt a i * (3 * elt b i)) = 27 * (elt a i * elt b i) by ring]

/-- The documented range of products. -/
abbrev DocumentedProduct (z : Int) : Prop := -8796042698752 ≤ z ∧ z ≤ 8796093026303

/-- The documented sufficient condition for absence of overflow is wrong: this product is in the
range (it is `2^43`) and the multiplication overflows. -/
theorem C19_documented_range_false : ∃ a b : Int, I32 a ∧ I32 b ∧ DocumentedProduct (a * b) ∧
    mul_reduce_array #[0] 1 #[a] #[b] = .error .overflow :=
  ⟨2097152, 4194304, by decide, by decide, by decide, by decide +kernel⟩

/-- Exactly: within the documented range, `mul_reduce_array` on one element overflows if and only
if the product is at least `2^43`. -/
theorem C19_overflow_iff (a b c : Int) (h : DocumentedProduct (a * b)) :
    mul_reduce_array #[c] 1 #[a] #[b] = .error .overflow ↔ 2 ^ 43 ≤ a * b := by
  constructor
  · intro he
    by_contra hlt
    obtain ⟨c', e, _⟩ := C18_mul_reduce_array 1 (by norm_num) #[c] #[a] #[b] rfl rfl rfl
      (fun i hi => by
        obtain rfl : i = 0 := by omega
        exact ⟨h.1, by simp only [elt]; simpa using Int.le_sub_one_of_lt (not_le.1 hlt)⟩)
    rw [he] at e; exact absurd e (by simp)
  · intro hle
    norm_num at hle
    have hm : mul_red a b = .error .overflow := mul_red_overflow hle h.2
    show (do let c ← (do let z ← mul_red a b; wr #[c] 0 z); _) = _
    rw [hm]; rfl

/-- What is true of the documented range: products below `2^43`.  (`_partial`: the header's claim
includes 4096 more values, for which it is false.) -/
theorem C19_no_overflow_partial (n : Nat) (hn : n < 2 ^ 32) (c a b : Array Int) (hc : c.size = n)
    (ha : a.size = n) (hb : b.size = n)
    (hs : ∀ i, i < n → DocumentedProduct (elt a i * elt b i) ∧ elt a i * elt b i < 2 ^ 43) :
    ∃ c', mul_reduce_array c n a b = .ok c' :=
  let ⟨c', e, _⟩ := C18_mul_reduce_array n hn c a b hc ha hb
    (fun i hi => ⟨(hs i hi).1.1, Int.le_sub_one_of_lt (hs i hi).2⟩)
  ⟨c', e⟩

-- Concrete, non-trivial cases.
example : Int32Array #[-2147483648, 2147483647, -1] := by
  intro i hi; simp at hi; interval_cases i <;> decide
example : reduce_array_twice #[-2147483648, 2147483647, -1] 3 = .ok #[-128, 12408, 12280] := by
  decide +kernel
example : correct #[-12289, 24577, -1, 0, 12288, 12289] 6 = .ok #[0, 12288, 12288, 0, 12288, 0] := by
  decide +kernel
example : normalize #[-2147483648, 2147483647, -12289] 3 = .ok #[6813, 5475, 0] := by
  decide +kernel
example : normalize_inv3 #[-2147483648, 2147483647, -3] 3 = .ok #[2271, 1825, 12288] := by
  decide +kernel
example : shift_array #[6144, 6145, 0, 12288] 4 = .ok #[6144, -6144, 0, -1] := by decide +kernel

end Props
