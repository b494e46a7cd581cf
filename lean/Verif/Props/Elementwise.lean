import Verif.Proofs.Params

/-
C01: the elementwise products of src/ntt.c.
-/

namespace Props
open C Spec Ntt

/-- Coefficient form to integer form. -/
private theorem to_emod {a' : Array Int} {n : Nat} {F : Nat → Int} (hs : a'.size = n)
    (hr : Reduced a') (h : ∀ i, i < n → coeff a' i = (F i : Zq)) :
    ∀ i, i < n → elt a' i = F i % 12289 :=
  fun i hi => elt_eq_emod (hr i (by omega)) (h i hi)

/-- `mul_array16(a, n, p)` replaces `a[i]` by `a[i]*p[i] mod Q`, for canonical inputs. -/
theorem C01_mul_array16 (n : Nat) (hn : n < 2 ^ 32) (a p : Array Int) (ha : a.size = n)
    (hp : p.size = n) (hra : Reduced a) (hrp : Reduced p) :
    ∃ a', mul_array16 a n p = .ok a' ∧ a'.size = n ∧
      ∀ i, i < n → elt a' i = (elt a i * elt p i) % 12289 := by
  obtain ⟨a', e, s, r, v⟩ := run_mul_array16 hn ha hra (p := p) (by omega)
    (fun i hi => hrp i (by omega))
  exact ⟨a', e, s, to_emod s r fun i hi => by rw [v i hi]; unfold coeff; push_cast; rfl⟩

/-- `mul_array(c, n, a, b)` stores `a[i]*b[i] mod Q` in `c[i]`, whatever `c` held before. -/
theorem C01_mul_array (n : Nat) (hn : n < 2 ^ 32) (c a b : Array Int) (hc : c.size = n)
    (ha : a.size = n) (hb : b.size = n) (hra : Reduced a) (hrb : Reduced b) :
    ∃ c', mul_array c n a b = .ok c' ∧ c'.size = n ∧
      ∀ i, i < n → elt c' i = (elt a i * elt b i) % 12289 := by
  obtain ⟨c', e, s, r, v⟩ := run_mul_array hn hc ha hra hb hrb
  exact ⟨c', e, s, to_emod s r fun i hi => by rw [v i hi]; unfold coeff; push_cast; rfl⟩

/-- `scalar_mul_array(a, n, c)` replaces `a[i]` by `a[i]*c mod Q`. -/
theorem C01_scalar_mul_array (n : Nat) (hn : n < 2 ^ 32) (a : Array Int) (c : Int)
    (ha : a.size = n) (hra : Reduced a) (hc : 0 ≤ c ∧ c < 12289) :
    ∃ a', scalar_mul_array a n c = .ok a' ∧ a'.size = n ∧
      ∀ i, i < n → elt a' i = (elt a i * c) % 12289 := by
  obtain ⟨a', e, s, r, v⟩ := run_scalar_mul_array hn ha hra (c := c) ⟨hc.1, by omega⟩
  exact ⟨a', e, s, to_emod s r fun i hi => by rw [v i hi]; unfold coeff; push_cast; rfl⟩

-- The hypotheses are met by extreme values, and the functions compute.
example : Reduced #[12288, 0, 7] ∧ Reduced #[12288, 5, 12288] := by
  constructor <;> · intro i hi; simp at hi; interval_cases i <;> decide
example : mul_array16 #[12288, 0, 7] 3 #[12288, 5, 12288] = .ok #[1, 0, 12282] := by decide +kernel
example : mul_array #[-5, 1, 2] 3 #[12288, 0, 7] #[12288, 5, 12288] = .ok #[1, 0, 12282] := by
  decide +kernel
example : scalar_mul_array #[12288, 0, 7] 3 12288 = .ok #[1, 0, 12282] := by decide +kernel

end Props
