import Verif.Proofs.Sort

/-
C40: `sort` of src/sort.c sorts.
-/

namespace Props
open C IntSort

/-- For every array with at least `n` elements and every `uint32_t` value `n`, `sort(a, n)` terminates
without access out of bounds; the first `n` elements of the result are in increasing order and are a
permutation of the first `n` elements of `a`; the other elements are unchanged. -/
theorem C40_sort (a : Array Nat) (n : Nat) (hn : n ≤ a.size) (h32 : n < 4294967296) :
    ∃ a', sort a n = .ok a' ∧ a'.size = a.size ∧
      (∀ (i j x y : Nat), i ≤ j → j < n → a'[i]? = some x → a'[j]? = some y → x ≤ y) ∧
      (a'.toList.take n).Perm (a.toList.take n) ∧
      (∀ i : Nat, n ≤ i → a'[i]? = a[i]?) := by
  obtain ⟨a', h, hs, hd⟩ := wp_total.1 (wp_sort_array (n + 1) a 0 n (by omega) (by omega) h32)
  rw [Nat.zero_add] at hs hd
  have hout : ∀ i : Nat, n ≤ i → a'[i]? = a[i]? := by
    intro i hi
    rcases Nat.lt_or_ge i a.size with h' | h'
    · have := hs.outside (l := i) (Or.inr hi)
      unfold e at this
      rw [Array.getElem?_eq_getElem h', Array.getElem?_eq_getElem (by rw [hs.size]; exact h')] at *
      simpa using this
    · rw [Array.getElem?_eq_none h', Array.getElem?_eq_none (by rw [hs.size]; exact h')]
  refine ⟨a', h, hs.size, fun i j x y hij hj hx hy => ?_, ?_, hout⟩
  · have := hd i j (Nat.zero_le _) hij hj
    unfold e at this
    rw [hx, hy] at this
    exact this
  · have hdrop : a'.toList.drop n = a.toList.drop n := by
      apply List.ext_getElem?
      intro i
      rw [List.getElem?_drop, List.getElem?_drop, Array.getElem?_toList, Array.getElem?_toList]
      exact hout _ (by omega)
    have hp := hs.perm
    rw [← List.take_append_drop n a'.toList, ← List.take_append_drop n a.toList, hdrop] at hp
    exact (List.perm_append_right_iff _).1 hp

/-- A case with recursive calls on both sides. -/
example : sort #[5, 3, 9, 1, 1, 0, 22, 7, 7, 3, 4, 18, 2, 100, 6] 14 =
    .ok #[0, 1, 1, 2, 3, 3, 4, 5, 7, 7, 9, 18, 22, 100, 6] := by decide +kernel

end Props
