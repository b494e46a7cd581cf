import Verif.Proofs.TestAvx

/-
C67: the program src/test_avx.c.

The program compares the assembler functions on arrays with the C functions, on random arrays of 16, 32, ..., 2048 elements; the
theorems are for every multiple of 16.

* Read as C, the program has undefined behaviour before the first comparison: `random_coeff(0x40000000)` computes `2 * n` in an
  `int32_t`.
* Compiled such that this product wraps (`wrap = true`), it never reports a difference, for any source of random numbers: the tests
  of the reductions, of the correction and of the shift succeed, and the tests of the products succeed or stop for one of three
  other reasons, each of which is possible: the reference overflows on a product of at least 2^43 that the generator accepts; the
  generator for the 16-bit factors needs not stop; the generator for the scalar does not check the right bounds if the scalar is
  negative, and the reference's assertion fails.
-/

namespace Props
open C Spec TestAvx

variable {w : World}

/-- As a C program: undefined behaviour, for every source of random numbers, if the processor supports AVX2. -/
theorem C67_overflow (fuel : Nat) : main false fuel w true = .error .overflow := main_overflow fuel

/-- The error comes from the generator of coefficients, independently of the random number. -/
theorem C67_generator_overflow (k : Nat) : random_coeff false w 1073741824 k = .error .overflow := coeff_overflow k

/-- The program does nothing if the processor does not support AVX2. -/
theorem C67_no_avx (wrap : Bool) (fuel : Nat) : main wrap fuel w false = .ok [] := rfl

section
variable {m : Nat} (hm : 0 < m) (hn : 16 * m < 2 ^ 32) (hw : WorldOK w)
include hm hn hw

/-- The tests of the four reductions succeed. -/
theorem C67_reductions (k : Nat) :
    (∃ k', cross_check true w (16 * m) Asm.reduce_array_asm NttRed.reduce_array k = .ok k') ∧
    (∃ k', cross_check true w (16 * m) Asm.reduce_array_asm2 NttRed.reduce_array k = .ok k') ∧
    (∃ k', cross_check true w (16 * m) Asm.reduce_array_twice_asm NttRed.reduce_array_twice k = .ok k') ∧
    (∃ k', cross_check true w (16 * m) Asm.reduce_array_twice_asm2 NttRed.reduce_array_twice k = .ok k') := by
  have hr := agree_red hm hn
  have run : ∀ {f g}, AgreeOn (16 * m) (-1073741824) 1073741823 f g → ∃ k', cross_check true w (16 * m) f g k = .ok k' := by
    intro f g h
    obtain ⟨k', e, -⟩ := wp_total.1 (wp_cross_check (E := NoErr) hw hn h k)
    exact ⟨k', e⟩
  exact ⟨run hr.1, run hr.2.1, run hr.2.2.1, run hr.2.2.2⟩

/-- The tests of the correction and of the shift succeed. -/
theorem C67_correction_shift (k : Nat) :
    (∃ k', test_correction w (16 * m) k = .ok k') ∧ (∃ k', test_shift w (16 * m) k = .ok k') := by
  obtain ⟨k1, e1, -⟩ := wp_total.1 (wp_test_correction (E := NoErr) hm hn hw k)
  obtain ⟨k2, e2, -⟩ := wp_total.1 (wp_test_shift (E := NoErr) hm hn hw k)
  exact ⟨⟨k1, e1⟩, ⟨k2, e2⟩⟩

/-- The tests of the products never report a difference; what else can stop them is listed. -/
theorem C67_products (fuel k : Nat) (e : Err) :
    (test_mul_reduce_array16 true fuel w (16 * m) k = .error e → e = .overflow ∨ e = .nonterm) ∧
    (test_mul_reduce_array true w (16 * m) k = .error e → e = .overflow) ∧
    (test_scalar_mul_reduce_array true w (16 * m) k = .error e → e = .overflow ∨ e = .assertFail) := by
  refine ⟨fun h => ?_, fun h => ?_, fun h => ?_⟩
  · have := wp_test16 (E := fun e => e = .overflow ∨ e = .nonterm) (.inl rfl) (.inr rfl) hw hm hn fuel k
    rw [h] at this
    exact wp_error.1 this
  · have := wp_test32 (E := fun e => e = .overflow) rfl hw hm hn k
    rw [h] at this
    exact (wp_error (E := fun e => e = .overflow)).1 this
  · have := wp_testS (E := fun e => e = .overflow ∨ e = .assertFail) (.inl rfl) (.inr rfl) hw hm hn k
    rw [h] at this
    exact wp_error.1 this

/-- All tests for one size: no difference is ever reported. -/
theorem C67_tests (fuel k : Nat) (e : Err) (h : tests true fuel w (16 * m) k = .error e) :
    e = .overflow ∨ e = .nonterm ∨ e = .assertFail := by
  have := wp_tests (E := fun e => e = .overflow ∨ e = .nonterm ∨ e = .assertFail) hm hn (.inl rfl) (.inr (.inl rfl)) (.inr (.inr rfl))
    hw fuel k
  rw [h] at this
  exact wp_error.1 this

end

/-- What the generators produce: the products of corresponding elements are in the documented range; for 16 bits, the second
factor has 16 bits. -/
theorem C67_generators {n : Nat} (h0 : 0 < n) (hn : n < 2 ^ 32) (hw : WorldOK w) (a b : Array Int) (ha : a.size = n) (hb : b.size = n)
    (fuel k : Nat) :
    (∃ r, random_arrays_for_mul_reduce true w a b n k = .ok r ∧ Pairs n r.1 r.2.1) ∧
    (∃ r, random_array_for_scalar_mul true w a n k = .ok r ∧ Scaled n r.1 r.2.1) ∧
    (∀ r, random_arrays_for_mul_reduce16 true fuel w a b n k = .ok r → Pairs n r.1 r.2.1 ∧ InRange (-32768) 32767 r.2.1) := by
  refine ⟨wp_total.1 (wp_pairs hw hn ha hb k), wp_total.1 (wp_scaled hw h0 hn ha k), fun r h => ?_⟩
  have := wp_pairs16 (E := fun e => e = .nonterm) rfl hw hn ha hb fuel k
  rw [h] at this
  obtain ⟨h1, h2⟩ := wp_ok.1 this
  exact ⟨h1, fun i hi => h2 i (by have := h1.2.1; omega)⟩

/-- What success of a cross check means, for every pair of functions: they agree on the 10000 arrays of random numbers. -/
theorem C67_cross_check_meaning {n : Nat} (hn : n < 2 ^ 32) (hw : WorldOK w) (f g : Array Int → Nat → M (Array Int))
    (hf : ∀ a b, a.size = n → f a n = .ok b → b.size = n) (hg : ∀ a b, a.size = n → g a n = .ok b → b.size = n) (k k' : Nat)
    (h : cross_check true w n f g k = .ok k') (j : Nat) (hj : j < 10000) :
    ∃ r, f (drawn w n (k + 2 + j * n)) n = .ok r ∧ g (drawn w n (k + 2 + j * n)) n = .ok r := by
  have := cross_check_meaning hw hn hf hg k
  rw [h] at this
  exact (wp_ok.1 this).2 j hj

/-! ### Sources of random numbers that meet the hypotheses, and with which the tests of the products stop -/

/-- A source that gives `x` and `y` alternately. -/
def alternating (x y : Nat) : World :=
  { random := fun k => if k % 2 = 0 then x else y, cycles := id, junk := fun n _ => Array.replicate n 7 }

theorem alternating_ok {x y : Nat} (hx : x < 2147483648) (hy : y < 2147483648) : WorldOK (alternating x y) :=
  ⟨fun k => by unfold alternating; dsimp only; split <;> assumption, fun n k => by simp [alternating]⟩

/-- If `random()` always returns 0, the generator of 16-bit factors runs forever. -/
theorem C67_generator_forever (fuel k : Nat) {n : Nat} (h0 : 0 < n) :
    test_mul_reduce_array16 true fuel (alternating 0 0) n k = .error .nonterm :=
  test16_forever (fun _ => by unfold alternating; simp) h0 fuel k

/-- A product equal to 2^43 is accepted by the generators, and the reference overflows. -/
theorem C67_reference_overflows :
    test_mul_reduce_array16 true 17 (alternating 1610612736 49152) 16 0 = .error .overflow ∧
    test_mul_reduce_array true (alternating 1610612736 1073758208) 16 0 = .error .overflow :=
  ⟨by decide +kernel, by decide +kernel⟩

/-- A negative scalar which the generator accepts although its products are as large as 2^60: the assertion of the reference fails. -/
theorem C67_scalar_assertion :
    test_scalar_mul_reduce_array true (alternating 2147483647 0) 16 0 = .error .assertFail ∧
    halve_scalar (-1073741824) 1073741823 (-1073741824) = .ok (-1073741824) :=
  ⟨by decide +kernel, by decide +kernel⟩

/-! The hypotheses are met. -/
example : WorldOK (alternating 5 2147483647) := alternating_ok (by norm_num) (by norm_num)
example := C67_tests (m := 128) (by norm_num) (by norm_num) (alternating_ok (x := 2147483647) (y := 0) (by norm_num) (by norm_num)) 9 0
/-- The generators also accept: products of 2^42. -/
example : (random_arrays_for_mul_reduce16 true 17 (alternating 1610612736 40960) (Array.replicate 16 0) (Array.replicate 16 0) 16 0).map
    (fun r => elt r.1 15 * elt r.2.1 15) = .ok 4398046511104 := by decide +kernel

end Props
