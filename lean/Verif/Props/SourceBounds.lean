import Verif.SpecSourceBounds
import Verif.Proofs.CRedBounds
import Verif.Props.RedBounds

/-
C87: the text of src/red_bounds.c computes the extrema of `red`.
-/

namespace Props
open C Spec CLang CLang.Src

theorem red_bounds_funs : RedB.Funs red_bounds := ⟨rfl, rfl, rfl, rfl, rfl, rfl⟩

/-- `max_red(a, b, &m)`, as written in src/red_bounds.c, returns the maximum of `red` on the interval, for all `a ≤ b` of type `int64_t`. -/
theorem C87_max_red (a b : Int) (t : Ty) (ha : I64 a) (hb : I64 b) (hab : a ≤ b) :
    Maximizes (readSome red_bounds_text) n!"max_red" [.int t a, .int t b] a b red := by
  rw [red_bounds_read]
  intro G mem o z hm
  obtain ⟨r, m, h, h1, h2, h3⟩ := C28_max_red true a b ha hb hab
  exact ⟨r, m, RedB.max_red_returns rfl rfl ha hb hm h, h1, h2, fun x hx hx' => h3.2 ⟨x, hx, hx', rfl⟩⟩

/-- `min_red(a, b, &m)`, as written in src/red_bounds.c, returns the minimum of `red` on the interval, for all `a ≤ b` of type `int64_t`. -/
theorem C87_min_red (a b : Int) (t : Ty) (ha : I64 a) (hb : I64 b) (hab : a ≤ b) :
    Minimizes (readSome red_bounds_text) n!"min_red" [.int t a, .int t b] a b red := by
  rw [red_bounds_read]
  intro G mem o z hm
  obtain ⟨r, m, h, h1, h2, h3⟩ := C28_min_red true a b ha hb hab
  exact ⟨r, m, RedB.min_red_returns rfl rfl ha hb hm h, h1, h2, fun x hx hx' => h3.2 ⟨x, hx, hx', rfl⟩⟩

theorem fits_range {a b w : Int} (hw : w ≠ 0) (h : RedMulFits a b w) : I64 a ∧ I64 b ∧ I64 w := by
  obtain ⟨h1, h2⟩ := h
  have hw1 : 1 ≤ |w| := Int.one_le_abs hw
  have h3 : |a| + 1 ≤ |w| * (|a| + 1) := by nlinarith [abs_nonneg a]
  have h4 : |b| + 1 ≤ |w| * (|b| + 1) := by nlinarith [abs_nonneg b]
  have h5 : |w| ≤ |w| * (|a| + 1) := by nlinarith [abs_nonneg a]
  unfold I64
  refine ⟨?_, ?_, ?_⟩
  · have := abs_le.mp (le_refl |a|); omega
  · have := abs_le.mp (le_refl |b|); omega
  · have := abs_le.mp (le_refl |w|); omega

/-- `max_red_mul(a, b, w, &m)`, as written in src/red_bounds.c, returns the maximum of `red(w * x)` for `a ≤ x ≤ b`, when the products
fit in 64 bits. -/
theorem C87_max_red_mul (a b w : Int) (t : Ty) (hab : a ≤ b) (hw : w ≠ 0) (hfit : RedMulFits a b w) :
    Maximizes (readSome red_bounds_text) n!"max_red_mul" [.int t a, .int t b, .int t w] a b fun x => red (w * x) := by
  rw [red_bounds_read]
  intro G mem o z hm
  obtain ⟨ra, rb, rw⟩ := fits_range hw hfit
  obtain ⟨r, m, h, h1, h2, h3⟩ := C29_max_red_mul true a b w hab hw hfit
  exact ⟨r, m, RedB.max_red_mul_returns red_bounds_funs rfl ra rb rw hm h, h1, h2, fun x hx hx' => h3.2 ⟨x, hx, hx', rfl⟩⟩

/-- `min_red_mul(a, b, w, &m)`, as written in src/red_bounds.c, returns the minimum of `red(w * x)` for `a ≤ x ≤ b`, when the products
fit in 64 bits. -/
theorem C87_min_red_mul (a b w : Int) (t : Ty) (hab : a ≤ b) (hw : w ≠ 0) (hfit : RedMulFits a b w) :
    Minimizes (readSome red_bounds_text) n!"min_red_mul" [.int t a, .int t b, .int t w] a b fun x => red (w * x) := by
  rw [red_bounds_read]
  intro G mem o z hm
  obtain ⟨ra, rb, rw⟩ := fits_range hw hfit
  obtain ⟨r, m, h, h1, h2, h3⟩ := C29_min_red_mul true a b w hab hw hfit
  exact ⟨r, m, RedB.min_red_mul_returns red_bounds_funs rfl ra rb rw hm h, h1, h2, fun x hx hx' => h3.2 ⟨x, hx, hx', rfl⟩⟩

/-! The hypotheses can be met, and the functions can be executed: some results. -/

example : I64 (-5000) ∧ I64 10000 ∧ (-5000 : Int) ≤ 10000 := by decide
example : RedMulFits (-21499) 21499 (-6144) ∧ (-6144 : Int) ≠ 0 ∧ (-21499 : Int) ≤ 21499 := by unfold RedMulFits; decide
example : (callValue (readSome red_bounds_text) (fun _ => none) 100 n!"max_red" [.int .i64 (-5000), .int .i64 10000, .ptr 3 0 1]
    fun _ => ⟨.i64, #[0]⟩).map (fun r => (r.1, (r.2 3).data, (r.2 4).data)) = .ok (.int .i64 12287, #[-4097], #[0]) := by
  rw [red_bounds_read]; decide +kernel
example : (callValue (readSome red_bounds_text) (fun _ => none) 100 n!"min_red_mul" [.int .i64 (-3000), .int .i64 5000, .int .i64 16, .ptr 3 0 1]
    fun _ => ⟨.i64, #[0]⟩).map (fun r => (r.1, (r.2 3).data)) = .ok (.int .i64 (-19), #[4864]) := by
  rw [red_bounds_read]; decide +kernel

end Props
