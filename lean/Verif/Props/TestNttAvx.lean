import Verif.Proofs.TestNttAvx

/-
C69: the program src/test_ntt_avx.c.

The program compares the eight assembler transforms with the C functions for six sizes, on arrays of random numbers in
[-200000, 199999] and with the tables of src/test_ntt_red_tables.c.  After each comparison it measures both functions, by
applying them 102400 times to the same array with a random table.

* All 48 comparisons succeed, for any source of random numbers: no function overflows, no assertion fails, no difference is found.
* The program as a whole does not get far: the first measurement stops with an overflow or a failed assertion, unless the 16
  numbers drawn for it have a first element and a sum equal to 0.
-/

namespace Props
open C Spec TestNttAvx
open TestAvx (World WorldOK)

variable {w : World}

/-- The program does nothing if the processor does not support AVX2. -/
theorem C69_no_avx : TestNttAvx.main w false = .ok [] := rfl

/-- What the six sizes are. -/
theorem C69_sizes : sizes.map Size.n = [2 ^ 4, 2 ^ 7, 2 ^ 8, 2 ^ 9, 2 ^ 10, 2 ^ 11] := by
  unfold sizes
  simp only [List.map_cons, List.map_nil, size16, size128, size256, size512, size1024, size2048]
  norm_num

private theorem ok_of_mem {S : Size} (hS : S ∈ sizes) : ∃ k c ω, SizeOK k c ω S := by
  simp only [sizes, List.mem_cons, List.not_mem_nil, or_false] at hS
  rcases hS with rfl | rfl | rfl | rfl | rfl | rfl
  exacts [⟨_, _, _, size16_ok⟩, ⟨_, _, _, size128_ok⟩, ⟨_, _, _, size256_ok⟩, ⟨_, _, _, size512_ok⟩, ⟨_, _, _, size1024_ok⟩,
    ⟨_, _, _, size2048_ok⟩]

private theorem small {k : Nat} {c ω : Zq} {S : Size} (h : SizeOK k c ω S) : S.n < 4294967296 := by
  rw [h.n]
  exact lt_of_le_of_lt (Nat.pow_le_pow_right (by norm_num) h.k_le) (by norm_num)

/-- The functions compared return the same result, for every array with elements in the range the numbers are drawn from. -/
theorem C69_agree {S : Size} (hS : S ∈ sizes) {P : Pair} (hP : P ∈ pairs) (a : Array Int) (ha : a.size = S.n)
    (hr : InRange (-200000) 199999 a) :
    ∃ a', P.asm a S.n (P.table S) = .ok a' ∧ P.base a S.n (P.table S) = .ok a' := by
  obtain ⟨_, _, _, h1⟩ := ok_of_mem hS
  obtain ⟨⟨a', e⟩, -, h3⟩ := matches_any h1 hP a ha hr
  obtain ⟨b, hb⟩ := base_ok (all_fit hS) hP ha hr
  have := (h3 b hb).1
  exact ⟨b, this, hb⟩

/-- All 48 comparisons succeed; the counter shows how many numbers they draw. -/
theorem C69_comparisons (hw : WorldOK w) {S : Size} (hS : S ∈ sizes) {P : Pair} (hP : P ∈ pairs) (k : Nat) :
    cross_check w S.n (fun a => P.asm a S.n (P.table S)) (fun a => P.base a S.n (P.table S)) k = .ok (k + 3 + 100000 * S.n) := by
  obtain ⟨l, _, _, h1⟩ := ok_of_mem hS
  obtain ⟨k', e1, e2⟩ := wp_total.1 (wp_cross_check (E := NoErr) hw (small h1) (matches_ok hS hP) k)
  rw [e1, e2]

/-- What success of a comparison means, for every pair of functions: they return and agree on the 100000 arrays drawn. -/
theorem C69_meaning {n : Nat} (hn : n < 2 ^ 32) (hw : WorldOK w) (f g : Array Int → M (Array Int))
    (hf : ∀ a b, a.size = n → f a = .ok b → b.size = n) (hg : ∀ a b, a.size = n → g a = .ok b → b.size = n) (k k' : Nat)
    (h : cross_check w n f g k = .ok k') (j : Nat) (hj : j < 100000) :
    ∃ r, f (drawn w n (k + 3 + j * n)) = .ok r ∧ g (drawn w n (k + 3 + j * n)) = .ok r := by
  have := cross_check_meaning hw hn hf hg k
  rw [h] at this
  exact (wp_ok.1 this).2 j hj

/-- The program stops with an overflow or a failed assertion (in the first measurement, of `ntt_red_ct_rev2std` for `n = 16`), unless
the numbers drawn for it (number 1600003 to number 1600018) give an array whose first element and sum are 0. -/
theorem C69_stops (hw : WorldOK w)
    (h0 : w.random 1600003 % 400000 ≠ 200000 ∨ ∑ i ∈ Finset.range 16, w.random (1600003 + i) % 400000 ≠ 3200000) :
    ∃ e, TestNttAvx.main w true = .error e ∧ (e = .overflow ∨ e = .assertFail) := by
  refine main_stops hw (h0.imp (fun h h' => h ?_) (fun h h' => h ?_))
  · rw [elt_drawn (by norm_num)] at h'
    dsimp only [Nat.add_zero] at h'
    omega
  · unfold NttRed.total at h'
    rw [Finset.sum_congr rfl fun i hi => elt_drawn (w := w) (k := 1600003) (Finset.mem_range.1 hi), Finset.sum_sub_distrib] at h'
    simp only [Finset.sum_const, Finset.card_range, smul_eq_mul] at h'
    have : ((∑ i ∈ Finset.range 16, w.random (1600003 + i) % 400000 : Nat) : Int) = 3200000 := by
      push_cast at h' ⊢
      simp only [nsmul_eq_mul] at h'
      push_cast at h'
      omega
    exact_mod_cast this

/-- The same for every size: the measurement of `ntt_red_ct_rev2std` stops, unless the numbers drawn are exceptional. -/
theorem C69_speed_test_stops {k : Nat} (hk0 : 0 < k) (hk : k ≤ 11) {g : TestNttAvx.Globals} (ha : g.a.size = 2048) (hp : g.p.size = 2048)
    (ht : g.s.t.size = TestProg.NTESTS)
    (h0 : elt (drawn w (2 ^ k) g.s.k) 0 ≠ 0 ∨ ∑ i ∈ Finset.range (2 ^ k), elt (drawn w (2 ^ k) g.s.k) i ≠ 0) :
    ∃ e, TestNttAvx.speed_test2 w (2 ^ k) NttRed.ntt_red_ct_rev2std g = .error e ∧ (e = .overflow ∨ e = .assertFail) := by
  have : 2 ^ k ≤ 2 ^ 11 := Nat.pow_le_pow_right (by norm_num) hk
  exact speed_test_stops hk0 (by omega) (by rw [ha]; exact this) (by rw [hp]; exact this) ht h0

/-! The hypotheses are met. -/

/-- A source that counts. -/
def counting : World := { random := fun k => (k * 48271) % 2147483647, cycles := id, junk := fun n _ => Array.replicate n 7 }

theorem counting_ok : WorldOK counting :=
  ⟨fun k => (Nat.mod_lt _ (by norm_num)).trans (by norm_num), fun n k => by simp [counting]⟩

example : ∃ e, TestNttAvx.main counting true = .error e ∧ (e = .overflow ∨ e = .assertFail) :=
  C69_stops counting_ok (.inl (by decide))
example := C69_comparisons counting_ok (S := size1024) (by simp [sizes]) (P := mulct_std2rev) (by simp [pairs]) 0
example := C69_comparisons counting_ok (S := size2048) (by simp [sizes]) (P := gs_std2rev) (by simp [pairs]) 0
/-- The drawn numbers reach both ends of the range. -/
example : elt (drawn { counting with random := fun k => k * 399999 } 2 0) 0 = -200000 ∧
    elt (drawn { counting with random := fun k => k * 399999 } 2 0) 1 = 199999 := by decide

end Props
