import Verif.SpecNotes
import Verif.Spec
import Mathlib.Tactic.Ring
import Mathlib.Tactic.Linarith
import Mathlib.Tactic.LinearCombination
import Mathlib.Algebra.Order.Group.Abs

/-
C79: the analysis of src/notes.txt, for every modulus `q = k * 2^m + 1`.
-/

namespace Props
open Notes

variable {k : Int} {m : Nat}

/-- With `k = 3` and `m = 12` the modulus is Q and the reduction is that of the library. -/
theorem C79_library (x : Int) : modulus 3 12 = 12289 ∧ Notes.red 3 12 x = Spec.red x := ⟨by decide, rfl⟩

private theorem two_pow (m : Nat) : (0 : Int) < 2 ^ m := by positivity

/-- `2^m red(x) = -x + r q`. -/
private theorem scaled (k : Int) (m : Nat) (x : Int) : 2 ^ m * Notes.red k m x = -x + (x % 2 ^ m) * modulus k m := by
  have h := Int.mul_ediv_add_emod x (2 ^ m)
  unfold Notes.red modulus
  linear_combination -h

private theorem rest (m : Nat) (x : Int) : 0 ≤ x % 2 ^ m ∧ x % 2 ^ m ≤ 2 ^ m - 1 := by
  have h1 := Int.emod_nonneg x (two_pow m).ne'
  have h2 := Int.emod_lt_of_pos x (two_pow m)
  omega

/-- Proposition 1: `red(x) = k*x` modulo `q`. -/
theorem C79_prop1 (k : Int) (m : Nat) (x : Int) : modulus k m ∣ Notes.red k m x - k * x := by
  refine ⟨-(x / 2 ^ m), ?_⟩
  have h := Int.mul_ediv_add_emod x (2 ^ m)
  unfold Notes.red modulus
  linear_combination k * h

/-- Proposition 2: `-(x/2^m) <= red(x) < -(x/2^m) + (q-k)`, with exact quotients. -/
theorem C79_prop2 (hk : 0 < k) (x : Int) :
    -x ≤ 2 ^ m * Notes.red k m x ∧ 2 ^ m * Notes.red k m x < -x + 2 ^ m * (modulus k m - k) := by
  have hq : 0 < modulus k m := by unfold modulus; have := two_pow m; positivity
  obtain ⟨h1, h2⟩ := rest m x
  rw [scaled]
  refine ⟨by nlinarith, ?_⟩
  have : x % 2 ^ m * modulus k m ≤ (2 ^ m - 1) * modulus k m := by nlinarith
  have e : (2 ^ m - 1) * modulus k m = 2 ^ m * (modulus k m - k) - 1 := by unfold modulus; ring
  linarith

/-- Proposition 3: `|red(x)| <= |x|/2^m + (q-k)`; these are also the bounds after a reduction of src/notes.txt:52-55. -/
theorem C79_prop3 (hk : 0 < k) (x : Int) : 2 ^ m * |Notes.red k m x| ≤ |x| + 2 ^ m * (modulus k m - k) := by
  obtain ⟨h1, h2⟩ := C79_prop2 (m := m) hk x
  have hp := two_pow m
  have e : 2 ^ m * |Notes.red k m x| = |2 ^ m * Notes.red k m x| := by rw [abs_mul, abs_of_pos hp]
  have hq : 0 ≤ 2 ^ m * (modulus k m - k) := by
    have : 0 ≤ modulus k m - k := by unfold modulus; nlinarith
    positivity
  rw [e]
  refine abs_le.2 ⟨?_, ?_⟩
  · have := le_abs_self x; linarith
  · have := neg_abs_le x; linarith

private theorem mul_le {w x W B : Int} (hw : 0 ≤ w ∧ w ≤ W) (hx : |x| ≤ B) : -(W * B) ≤ w * x ∧ w * x ≤ W * B := by
  obtain ⟨h1, h2⟩ := abs_le.1 hx
  have hB : 0 ≤ B := le_trans (abs_nonneg x) hx
  constructor <;> nlinarith

/-- Proposition 4: `|red(w*x)| <= k*|x| + (q-k)` for `0 <= w <= q-1`. -/
theorem C79_prop4 (hk : 0 < k) (x w : Int) (hw : 0 ≤ w ∧ w ≤ modulus k m - 1) :
    |Notes.red k m (w * x)| ≤ k * |x| + (modulus k m - k) := by
  obtain ⟨h1, h2⟩ := C79_prop2 (m := m) hk (w * x)
  obtain ⟨h3, h4⟩ := mul_le hw (le_refl |x|)
  have hp := two_pow m
  have e : modulus k m - 1 = 2 ^ m * k := by unfold modulus; ring
  rw [e] at h3 h4
  have hq : 0 ≤ modulus k m - k := by unfold modulus; nlinarith
  refine abs_le.2 ⟨?_, ?_⟩
  · refine le_of_mul_le_mul_left (a := 2 ^ m) ?_ hp
    nlinarith
  · refine le_of_mul_le_mul_left (a := 2 ^ m) ?_ hp
    nlinarith

/-- The safe bounds of src/notes.txt:30-34: `red(x)` fits in an `int32_t`. -/
theorem C79_safe (hk : 0 < k) (x : Int) (h1 : -2 ^ (31 + m) + 2 ^ m * (modulus k m - k) ≤ x)
    (h2 : x ≤ 2 ^ (31 + m) + (2 ^ m - 1)) : Fits (Notes.red k m x) := by
  obtain ⟨h3, h4⟩ := C79_prop2 (m := m) hk x
  have hp := two_pow m
  have e : (2 : Int) ^ (31 + m) = 2 ^ m * 2 ^ 31 := by rw [pow_add]; ring
  rw [e] at h1 h2
  constructor
  · have h5 : 2 ^ m * (-2 ^ 31 - 1) < 2 ^ m * Notes.red k m x := by nlinarith
    have := lt_of_mul_lt_mul_left h5 hp.le
    omega
  · have h5 : 2 ^ m * Notes.red k m x < 2 ^ m * 2 ^ 31 := by nlinarith
    have := lt_of_mul_lt_mul_left h5 hp.le
    omega

/-- No larger range works: next to both bounds `red(x)` does not fit. -/
theorem C79_safe_largest (k : Int) (m : Nat) :
    ¬ Fits (Notes.red k m (-2 ^ (31 + m) + 2 ^ m * (modulus k m - k) - 1)) ∧
    ¬ Fits (Notes.red k m (2 ^ (31 + m) + (2 ^ m - 1) + 1)) := by
  have hp := two_pow m
  have e : (2 : Int) ^ (31 + m) = 2 ^ m * 2 ^ 31 := by rw [pow_add]; ring
  constructor
  · have e1 : -2 ^ (31 + m) + 2 ^ m * (modulus k m - k) - 1 = (2 ^ m - 1) + 2 ^ m * (modulus k m - k - 2 ^ 31 - 1) := by
      rw [e]; ring
    unfold Notes.red Fits
    rw [e1, Int.add_mul_emod_self_left, Int.add_mul_ediv_left _ _ hp.ne', Int.emod_eq_of_lt (by omega) (by omega),
      Int.ediv_eq_zero_of_lt (by omega) (by omega)]
    have e2 : k * (2 ^ m - 1) - (0 + (modulus k m - k - 2 ^ 31 - 1)) = 2 ^ 31 := by unfold modulus; ring
    rw [e2]
    omega
  · have e1 : (2 : Int) ^ (31 + m) + (2 ^ m - 1) + 1 = 2 ^ m * (2 ^ 31 + 1) := by rw [e]; ring
    unfold Notes.red Fits
    rw [e1, Int.mul_emod_right, Int.mul_ediv_cancel_left _ hp.ne']
    omega

/-- The numbers of src/notes.txt:19-27. -/
theorem C79_safe_numbers : -2 ^ (31 + 12) + 2 ^ 12 * (modulus 3 12 - 3) = -8796042698752 ∧
    (2 : Int) ^ (31 + 12) + (2 ^ 12 - 1) = 8796093026303 := by decide

/-- src/notes.txt:37-49: `red(x*w)` fits for `-715823787 <= x <= 715827882` and every `w` of `[0, q-1]`; one more is too large. -/
theorem C79_safe_factor (x w : Int) (hx : -715823787 ≤ x ∧ x ≤ 715827882) (hw : 0 ≤ w ∧ w ≤ 12288) :
    Fits (Notes.red 3 12 (x * w)) := by
  obtain ⟨h1, h2⟩ := C79_safe_numbers
  refine C79_safe (by decide) _ ?_ ?_
  · rw [h1]; nlinarith
  · rw [h2]; nlinarith

theorem C79_safe_factor_largest : ¬ Fits (Notes.red 3 12 (715827883 * 12288)) := by unfold Fits; decide

/-- The bound after a Cooley-Tukey update, src/notes.txt:58-76: `B' = (k+1)B + (q-k)`. -/
theorem C79_ct (hk : 0 < k) {x y w B : Int} (hx : |x| ≤ B) (hy : |y| ≤ B) (hw : 0 ≤ w ∧ w ≤ modulus k m - 1) :
    |x + Notes.red k m (w * y)| ≤ (k + 1) * B + (modulus k m - k) ∧
    |x - Notes.red k m (w * y)| ≤ (k + 1) * B + (modulus k m - k) := by
  have h := C79_prop4 (m := m) hk y w hw
  have h1 := abs_add_le x (Notes.red k m (w * y))
  have h2 := abs_sub x (Notes.red k m (w * y))
  constructor <;> nlinarith

/-- The bound after a Gentleman-Sande update, src/notes.txt:134-153: `2B` and `2kB + (q-k)`. -/
theorem C79_gs (hk : 0 < k) {x y w B : Int} (hx : |x| ≤ B) (hy : |y| ≤ B) (hw : 0 ≤ w ∧ w ≤ modulus k m - 1) :
    |x + y| ≤ 2 * B ∧ |Notes.red k m ((x - y) * w)| ≤ 2 * k * B + (modulus k m - k) := by
  have h := C79_prop4 (m := m) hk (x - y) w hw
  have h1 := abs_add_le x y
  have h2 := abs_sub x y
  rw [mul_comm w] at h
  constructor <;> nlinarith

/-- False: the bounds on the updates that src/notes.txt:70-71 and 146 give on the way, `x - ky <= x' <= x - ky + q - k`,
`-(q-k) + x + ky <= y' <= x + ky` and `-k(x-y) <= y' <= -k(x-y) + (q-k)`. The bounds `B'` drawn from them are right (above). -/
theorem C79_update_bounds_false :
    ¬ (∀ x y w : Int, 1 ≤ w → w ≤ 12288 → x - 3 * y ≤ x + Notes.red 3 12 (w * y)) ∧
    ¬ (∀ x y w : Int, 1 ≤ w → w ≤ 12288 → x + Notes.red 3 12 (w * y) ≤ x - 3 * y + 12286) ∧
    ¬ (∀ x y w : Int, 1 ≤ w → w ≤ 12288 → -12286 + x + 3 * y ≤ x - Notes.red 3 12 (w * y)) ∧
    ¬ (∀ x y w : Int, 1 ≤ w → w ≤ 12288 → x - Notes.red 3 12 (w * y) ≤ x + 3 * y) ∧
    ¬ (∀ x y w : Int, 1 ≤ w → w ≤ 12288 → -3 * (x - y) ≤ Notes.red 3 12 ((x - y) * w)) ∧
    ¬ (∀ x y w : Int, 1 ≤ w → w ≤ 12288 → Notes.red 3 12 ((x - y) * w) ≤ -3 * (x - y) + 12286) := by
  refine ⟨fun h => ?_, fun h => ?_, fun h => ?_, fun h => ?_, fun h => ?_, fun h => ?_⟩
  · exact absurd (h 0 (-4096) 1 (by decide) (by decide)) (by decide)
  · exact absurd (h 0 4095 1 (by decide) (by decide)) (by decide)
  · exact absurd (h 0 4095 1 (by decide) (by decide)) (by decide)
  · exact absurd (h 0 (-4096) 1 (by decide) (by decide)) (by decide)
  · exact absurd (h 0 4096 1 (by decide) (by decide)) (by decide)
  · exact absurd (h 4095 0 1 (by decide) (by decide)) (by decide)

/-- For `w = q-1` they hold, as then `red(w*x) = -k*x` (src/notes.txt:233). -/
theorem C79_last_factor (x : Int) : Notes.red k m ((modulus k m - 1) * x) = -k * x := by
  have hp := two_pow m
  have e : (modulus k m - 1) * x = 2 ^ m * (k * x) := by unfold modulus; ring
  unfold Notes.red
  rw [e, Int.mul_emod_right, Int.mul_ediv_cancel_left _ hp.ne']
  ring

/-- The tighter bounds of src/notes.txt:274-282. -/
theorem C79_tight (hk : 0 < k) {x w B : Int} (hx : |x| ≤ B) (hw : 0 ≤ w ∧ w ≤ modulus k m - 1) :
    -(k * B) ≤ Notes.red k m (w * x) ∧
    (2 ^ m * (modulus k m - k) ≤ B + 1 → Notes.red k m (w * x) ≤ k * B) ∧
    (B + 1 < 2 ^ m * (modulus k m - k) →
      2 ^ m * Notes.red k m (w * x) ≤ 2 ^ m * (k * B + (modulus k m - k)) - (B + 1)) := by
  have hp := two_pow m
  have hB : 0 ≤ B := le_trans (abs_nonneg x) hx
  have e : modulus k m - 1 = 2 ^ m * k := by unfold modulus; ring
  have hlow : -(k * B) ≤ Notes.red k m (w * x) := by
    have h1 := (C79_prop2 (m := m) hk (w * x)).1
    have h2 := (mul_le hw hx).2
    rw [e] at h2
    refine le_of_mul_le_mul_left (a := 2 ^ m) ?_ hp
    nlinarith
  by_cases h : w = modulus k m - 1
  · have h1 : Notes.red k m (w * x) ≤ k * B := by
      rw [h, C79_last_factor]
      have := (abs_le.1 hx).1
      nlinarith
    exact ⟨hlow, fun _ => h1, fun _ => by nlinarith⟩
  · have h1 : 2 ^ m * Notes.red k m (w * x) ≤ 2 ^ m * (k * B + (modulus k m - k)) - (B + 1) := by
      have h2 := (mul_le (W := modulus k m - 2) ⟨hw.1, by omega⟩ hx).1
      obtain ⟨h3, h4⟩ := C79_prop2 (m := m) hk (w * x)
      have e2 : (modulus k m - 2) * B = 2 ^ m * (k * B) - B := by unfold modulus; ring
      rw [e2] at h2
      have e3 : 2 ^ m * (k * B + (modulus k m - k)) = 2 ^ m * (k * B) + 2 ^ m * (modulus k m - k) := by ring
      rw [e3]
      linarith
    refine ⟨hlow, fun h2 => ?_, fun _ => h1⟩
    refine le_of_mul_le_mul_left (a := 2 ^ m) ?_ hp
    have e3 : 2 ^ m * (k * B + (modulus k m - k)) = 2 ^ m * (k * B) + 2 ^ m * (modulus k m - k) := by ring
    rw [e3] at h1
    linarith

/-! ### The sequences -/

/-- The bounds after an update and after a reduction for Q. -/
def ctNext (b : Int) : Int := 4 * b + 12286
def gsNext (b : Int) : Int := 6 * b + 12286
def redNext (b : Int) : Int := b / 4096 + 12286
/-- With the tighter bound, rounded up (both cases of src/notes.txt:276-282). -/
def ctTight (b : Int) : Int := 4 * b + max 0 (12286 - (b + 1) / 4096)
def gsTight (b : Int) : Int := 6 * b + max 0 (12286 - (2 * b + 1) / 4096)

/-- Each is a bound on the values after one update (or reduction) of values bounded by `B`. -/
theorem C79_steps {x y w B : Int} (hx : |x| ≤ B) (hy : |y| ≤ B) (hw : 0 ≤ w ∧ w ≤ 12288) :
    (|x + Notes.red 3 12 (w * y)| ≤ ctNext B ∧ |x - Notes.red 3 12 (w * y)| ≤ ctNext B) ∧
    (|x + y| ≤ gsNext B ∧ |Notes.red 3 12 ((x - y) * w)| ≤ gsNext B) ∧ |Notes.red 3 12 x| ≤ redNext B ∧
    (|x + Notes.red 3 12 (w * y)| ≤ ctTight B ∧ |x - Notes.red 3 12 (w * y)| ≤ ctTight B) ∧
    (|x + y| ≤ gsTight B ∧ |Notes.red 3 12 ((x - y) * w)| ≤ gsTight B) := by
  have hB : 0 ≤ B := le_trans (abs_nonneg x) hx
  have e : modulus 3 12 = 12289 := by decide
  have hw' : 0 ≤ w ∧ w ≤ modulus 3 12 - 1 := by rw [e]; omega
  have h1 := C79_ct (k := 3) (m := 12) (by decide) hx hy hw'
  have h2 := C79_gs (k := 3) (m := 12) (by decide) hx hy hw'
  have h3 := C79_prop3 (k := 3) (m := 12) (by decide) x
  rw [e] at h1 h2 h3
  have ex := abs_le.1 hx
  have ey := abs_le.1 hy
  unfold ctNext gsNext redNext ctTight gsTight
  refine ⟨⟨by omega, by omega⟩, ⟨by omega, by omega⟩, by omega, ?_, ?_⟩
  · obtain ⟨a1, a2, a3⟩ := C79_tight (k := 3) (m := 12) (by decide) hy hw'
    rw [e] at a2 a3
    constructor <;> refine abs_le.2 ⟨?_, ?_⟩ <;> omega
  · have hz : |x - y| ≤ 2 * B := by refine abs_le.2 ⟨?_, ?_⟩ <;> omega
    obtain ⟨a1, a2, a3⟩ := C79_tight (k := 3) (m := 12) (by decide) hz hw'
    rw [mul_comm w] at a1 a2 a3
    rw [e] at a2 a3
    constructor <;> refine abs_le.2 ⟨?_, ?_⟩ <;> omega

/-- The sequences of src/notes.txt:81-101 and 157-177: overflow is possible after 8 and after 6 rounds. -/
theorem C79_sequences :
    seq ctNext 12288 19 = [12288, 61438, 258038, 1044438, 4190038, 16772438, 67102038, 268420438, 1073694038, 4294788438,
      17179166038, 68716676438, 274866718038, 1099466884438, 4397867550038, 17591470212438, 70365880862038, 281463523460438,
      1125854093854038, 4503416375428438] ∧
    seq gsNext 12288 19 = [12288, 86014, 528370, 3182506, 19107322, 114656218, 687949594, 4127709850, 24766271386, 148597640602,
      891585855898, 5349515147674, 32097090898330, 192582545402266, 1155495272425882, 6932971634567578, 41597829807417754,
      249586978844518810, 1497521873067125146, 8985131238402763162] := by decide

/-- The sequences with reductions of src/notes.txt:109-130, 183-205, 289-310 and 314-336. -/
theorem C79_sequences_reduced :
    seqRed ctNext redNext 12288 19 = [12288, 61438, 258038, 1044438, 4190038, 16772438, 67102038, 268420438, 1073694038,
      274418, 1109958, 4452118, 17820758, 71295318, 285193558, 1140786518, 290798, 1175478, 4714198, 18869078, 75488598,
      301966678] ∧
    seqRed gsNext redNext 12288 19 = [12288, 86014, 528370, 3182506, 19107322, 114656218, 687949594, 180242, 1093738, 6574714,
      39460570, 236775706, 1420666522, 359128, 2167054, 13014610, 78099946, 468611962, 126693, 772444, 4646950, 27893986,
      167376202] ∧
    seqRed ctTight redNext 12288 19 = [12288, 61435, 258012, 1044272, 4189120, 16767744, 67079169, 268316676, 1073266704,
      274314, 1109476, 4449920, 17810880, 71251458, 285005832, 1140023328, 290612, 1174664, 4710656, 18853760, 75422724,
      301690896] ∧
    seqRed gsTight redNext 12288 19 = [12288, 86008, 528293, 3181787, 19101455, 114611690, 687670140, 180174, 1093243, 6571211,
      39436344, 236618064, 1419708384, 358894, 2165475, 13004079, 78030411, 468182466, 126588, 771753, 4642428, 27864588,
      167187528] := by decide

/-! ### Products of two coefficients -/

/-- src/notes.txt:485-490: both factors in `[0, q-1]`. -/
theorem C79_product_positive : (∀ x y : Int, 0 ≤ x ∧ x ≤ 12288 → 0 ≤ y ∧ y ≤ 12288 →
      -36864 ≤ Notes.red 3 12 (x * y) ∧ Notes.red 3 12 (x * y) ≤ 12285) ∧
    Notes.red 3 12 (12288 * 12288) = -36864 ∧ Notes.red 3 12 (1 * 4095) = 12285 := by
  refine ⟨fun x y hx hy => ?_, by decide, by decide⟩
  have h1 : 0 ≤ x * y := mul_nonneg hx.1 hy.1
  have h2 : x * y ≤ 12288 * 12288 := mul_le_mul hx.2 hy.2 hy.1 (by decide)
  unfold Notes.red
  generalize x * y = z at *
  omega

/-- src/notes.txt:551-557: both factors in `[-(q-1)/2, (q-1)/2]`. -/
theorem C79_product_centred : (∀ x y : Int, -6144 ≤ x ∧ x ≤ 6144 → -6144 ≤ y ∧ y ≤ 6144 →
      -9216 ≤ Notes.red 3 12 (x * y) ∧ Notes.red 3 12 (x * y) ≤ 21499) ∧
    Notes.red 3 12 (-6144 * -6144) = -9216 ∧ Notes.red 3 12 (6143 * -6143) = 21499 := by
  refine ⟨fun x y hx hy => ?_, by decide, by decide⟩
  have low : x * y ≤ 37748736 ∧ -37748736 ≤ x * y := by constructor <;> nlinarith
  by_cases hxe : x = 6144 ∨ x = -6144
  · rcases hxe with rfl | rfl <;> unfold Notes.red <;> omega
  by_cases hye : y = 6144 ∨ y = -6144
  · rcases hye with rfl | rfl <;> unfold Notes.red <;> omega
  have h1 : -37736449 ≤ x * y := by
    have a : -6143 ≤ x ∧ x ≤ 6143 := by omega
    have b : -6143 ≤ y ∧ y ≤ 6143 := by omega
    nlinarith
  unfold Notes.red
  generalize x * y = z at *
  omega

/-- Non-vacuity: another modulus of this form, 7681 = 15 * 2^9 + 1. -/
example : modulus 15 9 = 7681 ∧ Notes.red 15 9 1000000 = -993 ∧ (7681 : Int) ∣ -993 - 15 * 1000000 := by decide

end Props
