import Verif.Proofs.AsmElem
import Verif.Props.RedElementwise

/-
C35: the elementwise AVX2 functions of src/ntt_asm.S and the C functions of src/ntt_red.c.

`n = 16*m` with `m > 0` is the documented precondition of the assembly functions; `n < 2^32` because
`n` is a `uint32_t`.  A theorem `f_asm a n = f a n` says that both runs return and leave the same
array (the C run is total on the inputs considered, C13-C18).
-/

namespace Props
open C Spec NttRed Asm

variable {m : Nat}

private theorem asm_eq {n : Nat} {f g : Nat → Int} {r r' : M (Array Int)} {a' : Array Int}
    (hr : r = .ok a') (hf : Is n f a') (hr' : Wp NoErr r' (Is n g)) (h : ∀ i, i < n → f i = g i) :
    r' = r := by
  obtain ⟨b, hb, hg⟩ := wp_total.1 hr'
  rw [hr, hb, Is.ext (hf.congr h) hg]

theorem C35_reduce_array_asm (hm : 0 < m) (hn : 16 * m < 2 ^ 32) (a : Array Int)
    (ha : a.size = 16 * m) (hr : Int32Array a) :
    reduce_array_asm a (16 * m) = reduce_array a (16 * m) := by
  obtain ⟨a', e, s, v⟩ := run_reduce_array hn ha (fun i hi => hr i (by omega))
  exact asm_eq e ⟨s, v⟩ (wp_reduce_array_asm rfl hm (Is.self ha))
    (fun i hi => (rdRaw_eq (hr i (by omega))).symm)

theorem C35_reduce_array_asm2 (hm : 0 < m) (hn : 16 * m < 2 ^ 32) (a : Array Int)
    (ha : a.size = 16 * m) (hr : Int32Array a) :
    reduce_array_asm2 a (16 * m) = reduce_array a (16 * m) := by
  obtain ⟨a', e, s, v⟩ := run_reduce_array hn ha (fun i hi => hr i (by omega))
  exact asm_eq e ⟨s, v⟩
    (wp_reduce_array_asm2 (m := 2 * m) (by omega) (by omega) (Is.self ha))
    (fun i hi => (rdRaw_eq (hr i (by omega))).symm)

private theorem rd_twice {x : Int} (h : I32 x) : rdRaw (rdRaw x) = Spec.red (Spec.red x) := by
  rw [rdRaw_eq h, rdRaw_eq]
  have := red_i32 h
  unfold I32; omega

theorem C35_reduce_array_twice_asm (hm : 0 < m) (hn : 16 * m < 2 ^ 32) (a : Array Int)
    (ha : a.size = 16 * m) (hr : Int32Array a) :
    reduce_array_twice_asm a (16 * m) = reduce_array_twice a (16 * m) := by
  obtain ⟨a', e, s, v⟩ := run_reduce_array_twice hn ha (fun i hi => hr i (by omega))
  exact asm_eq e ⟨s, v⟩ (wp_reduce_array_twice_asm rfl hm (Is.self ha))
    (fun i hi => (rd_twice (hr i (by omega))).symm)

theorem C35_reduce_array_twice_asm2 (hm : 0 < m) (hn : 16 * m < 2 ^ 32) (a : Array Int)
    (ha : a.size = 16 * m) (hr : Int32Array a) :
    reduce_array_twice_asm2 a (16 * m) = reduce_array_twice a (16 * m) := by
  obtain ⟨a', e, s, v⟩ := run_reduce_array_twice hn ha (fun i hi => hr i (by omega))
  exact asm_eq e ⟨s, v⟩
    (wp_reduce_array_twice_asm2 (m := 2 * m) (by omega) (by omega) (Is.self ha))
    (fun i hi => (rd_twice (hr i (by omega))).symm)

theorem C35_shift_array_asm (hm : 0 < m) (hn : 16 * m < 2 ^ 32) (a : Array Int)
    (ha : a.size = 16 * m) (hr : Int32Array a) :
    shift_array_asm a (16 * m) = shift_array a (16 * m) := by
  obtain ⟨a', e, s, v⟩ := run_shift_array hn ha (fun i hi => hr i (by omega))
  exact asm_eq e ⟨s, v⟩ (wp_shift_array_asm rfl hm (Is.self ha))
    (fun i hi => (shRaw_eq (hr i (by omega))).symm)

/-- `correct_asm`, on a range that contains the documented `[-Q, 2Q-1]`. -/
theorem C35_correct_asm (hm : 0 < m) (hn : 16 * m < 2 ^ 32) (a : Array Int)
    (ha : a.size = 16 * m) (hr : InRange (-65536) 65535 a) :
    correct_asm a (16 * m) = correct a (16 * m) := by
  obtain ⟨a', e, v⟩ := c_correct hn ha (fun i hi => hr i (by omega))
  exact asm_eq e v (wp_correct_asm rfl hm (Is.self ha)) (fun _ _ => rfl)

/-- The range cannot be extended: at 65536 and at -65537 the two functions are both defined and
differ (both values are outside the documented range). -/
theorem C35_correct_differs_outside :
    (∃ u v, correct (Array.replicate 16 65536) 16 = .ok u ∧
      correct_asm (Array.replicate 16 65536) 16 = .ok v ∧ u ≠ v) ∧
    (∃ u v, correct (Array.replicate 16 (-65537)) 16 = .ok u ∧
      correct_asm (Array.replicate 16 (-65537)) 16 = .ok v ∧ u ≠ v) :=
  ⟨⟨Array.replicate 16 53248, Array.replicate 16 53247, by decide +kernel, by decide +kernel,
      by decide +kernel⟩,
    ⟨Array.replicate 16 (-53250), Array.replicate 16 (-53248), by decide +kernel,
      by decide +kernel, by decide +kernel⟩⟩

/-- `mul_reduce_array16_asm` leaves the array that the C function leaves, whenever the latter
returns (no overflow, no failed assertion). -/
theorem C35_mul_reduce_array16_asm (hm : 0 < m) (hn : 16 * m < 2 ^ 32) (a p a' : Array Int)
    (ha : a.size = 16 * m) (hp : 16 * m ≤ p.size)
    (hC : mul_reduce_array16 a (16 * m) p = .ok a') :
    mul_reduce_array16_asm a (16 * m) p = .ok a' := by
  rw [← hC]
  exact asm_eq hC (c_mul16 hn ha hp hC)
    (wp_mul16_asm (m := 2 * m) (by omega) (by omega) (Is.self ha) hp) (fun _ _ => rfl)

theorem C35_mul_reduce_array16_asm2 (hm : 0 < m) (hn : 16 * m < 2 ^ 32) (a p a' : Array Int)
    (ha : a.size = 16 * m) (hp : 16 * m ≤ p.size)
    (hC : mul_reduce_array16 a (16 * m) p = .ok a') :
    mul_reduce_array16_asm2 a (16 * m) p = .ok a' := by
  rw [← hC]
  exact asm_eq hC (c_mul16 hn ha hp hC)
    (wp_mul16_asm2 (m := 4 * m) (by omega) (by omega) (Is.self ha) hp) (fun _ _ => rfl)

theorem C35_mul_reduce_array_asm (hm : 0 < m) (hn : 16 * m < 2 ^ 32) (c a b c' : Array Int)
    (hc : c.size = 16 * m) (ha : 16 * m ≤ a.size) (hb : 16 * m ≤ b.size)
    (hC : mul_reduce_array c (16 * m) a b = .ok c') :
    mul_reduce_array_asm c (16 * m) a b = .ok c' := by
  rw [← hC]
  exact asm_eq hC (c_mul hn hc ha hb hC)
    (wp_mul_asm (m := 2 * m) (by omega) (by omega) hc ha hb) (fun _ _ => rfl)

/-- `rdx` is any content of the 64-bit register whose lower half is the argument `c`. -/
theorem C35_scalar_mul_reduce_array_asm (hm : 0 < m) (hn : 16 * m < 2 ^ 32) (a a' : Array Int)
    (c rdx : Int) (hc : toI32 rdx = c) (ha : a.size = 16 * m)
    (hC : scalar_mul_reduce_array a (16 * m) c = .ok a') :
    scalar_mul_reduce_array_asm a (16 * m) rdx = .ok a' := by
  rw [← hC]
  exact asm_eq hC (c_scalar hn ha hC)
    (wp_scalar_mul_asm (m := 2 * m) hc (by omega) (by omega) (Is.self ha)) (fun _ _ => rfl)

/-! The hypotheses are met: extreme contents, and a register whose upper half is not a sign
extension. -/

example : reduce_array_asm (Array.replicate 16 (-2147483648)) 16 =
    reduce_array (Array.replicate 16 (-2147483648)) 16 :=
  C35_reduce_array_asm (m := 1) (by omega) (by omega) _ (by decide) (by unfold Int32Array InRange; decide)

example : correct_asm (Array.replicate 32 (-12289)) 32 = .ok (Array.replicate 32 0) := by
  rw [C35_correct_asm (m := 2) (by omega) (by omega) _ (by decide) (by unfold InRange; decide)]
  decide +kernel

example : mul_reduce_array16_asm (Array.replicate 16 2147471362) 16 (Array.replicate 16 (-4096)) =
    .ok (Array.replicate 16 2147471362) :=
  C35_mul_reduce_array16_asm (m := 1) (by omega) (by omega) _ _ _ (by decide) (by decide)
    (by decide +kernel)

example : scalar_mul_reduce_array_asm (Array.replicate 16 12288) 16 (123 * 4294967296 + 4294967295)
    = .ok (Array.replicate 16 3) :=
  C35_scalar_mul_reduce_array_asm (m := 1) (by omega) (by omega) _ _ (-1) _ (by decide) (by decide)
    (by decide +kernel)

end Props
