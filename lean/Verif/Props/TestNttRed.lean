import Verif.Proofs.TestNttRed
import Verif.Props.TestNtt
import Verif.Props.TestSpeed

/-
C62: the program test_ntt_red (src/test_ntt_red.c) and the speed tests of src/test_ntt_red<n>.c.
C63: the transform `ntt_red_ct_rev2std` applied again and again to its own results.  Vocabulary in SpecTestNtt.lean.
-/

namespace Props
open C Spec TestProg Tables

/-! ### C63 -/

/-- `f` applied `m` times, each time to the result of the call before. -/
def Chain (f : Array Int → M (Array Int)) : Nat → Array Int → M (Array Int)
  | 0, a => pure a
  | m + 1, a => do
    let a ← f a
    Chain f m a

theorem chain_eq (f : Array Int → M (Array Int)) (m : Nat) (a : Array Int) : Chain f m a = iter f m a := by
  induction m generalizing a with
  | zero => rfl
  | succ m ih =>
    unfold Chain iter
    cases f a with
    | ok b => exact ih b
    | error e => rfl

/-- Whatever the table holds, when `ntt_red_ct_rev2std` returns, `a[0]` is the sum of the elements that the array had and
the new sum is `n` times the former `a[0]`: as integers, not modulo `Q`. -/
theorem C63_exact_sums {k : Nat} (hk : k ≤ 31) {a p a' : Array Int} (hp : 2 ^ k ≤ p.size) (ha : a.size = 2 ^ k)
    (hi : Int32Array a) (h : NttRed.ntt_red_ct_rev2std a (2 ^ k) p = .ok a') :
    elt a' 0 = ∑ i ∈ Finset.range (2 ^ k), elt a i ∧ ∑ i ∈ Finset.range (2 ^ k), elt a' i = 2 ^ k * elt a 0 := by
  have := NttRed.ct_sums hk hp ha (fun i h => hi i (by omega))
  rw [h, wp_ok] at this
  exact ⟨this.2.2.1, this.2.2.2⟩

example : NttRed.ntt_red_ct_rev2std #[1, 2, 3, 4] 4 #[0, 4096, 4096, 4000] = .ok #[10, 288, -4, -290] := by decide +kernel

/-- The calls cannot go on for ever: whatever the table holds, unless `a[0]` and the sum of the elements are both zero, one
of the first 65 calls in place overflows a signed integer or fails an assertion. -/
theorem C63_chain_stops {k : Nat} (hk0 : 0 < k) (hk : k ≤ 31) {a p : Array Int} (hp : 2 ^ k ≤ p.size) (ha : a.size = 2 ^ k)
    (hi : Int32Array a) (h0 : ¬ (elt a 0 = 0 ∧ ∑ i ∈ Finset.range (2 ^ k), elt a i = 0)) :
    ∃ e, Chain (fun a => NttRed.ntt_red_ct_rev2std a (2 ^ k) p) 65 a = .error e ∧ (e = .overflow ∨ e = .assertFail) := by
  rw [chain_eq]
  refine NttRed.iter_stops hk0 hk hp ha (fun i h => hi i (by omega)) ?_
  by_contra hc
  push Not at hc
  exact h0 hc

-- The condition is needed: the zero polynomial can be transformed for ever.
example : Chain (fun a => NttRed.ntt_red_ct_rev2std a 4 #[0, 4096, 0, 4096]) 65 #[0, 0, 0, 0] = .ok #[0, 0, 0, 0] := by
  decide +kernel

example : Chain (fun a => NttRed.ntt_red_ct_rev2std a 4 #[0, 4096, 0, 4096]) 30 #[1, 0, 0, 0] ≠ .error .overflow := by
  decide +kernel

/-! ### C62 -/

open TestNttRed

private theorem size_of {S : TestNttRed.Size} (h : S ∈ TestNttRed.sizes) : ∃ k ψ, TestNttRed.SizeOK k ψ S := by
  simp only [TestNttRed.sizes, List.mem_cons, List.not_mem_nil, or_false] at h
  rcases h with rfl | rfl | rfl | rfl | rfl | rfl
  · exact ⟨_, _, size16_ok⟩
  · exact ⟨_, _, size128_ok⟩
  · exact ⟨_, _, size256_ok⟩
  · exact ⟨_, _, size512_ok⟩
  · exact ⟨_, _, size1024_ok⟩
  · exact ⟨_, _, size2048_ok⟩

private theorem polyTest_of {t : Nat × (Array Int → M (Array Int)) × Int} (h : t ∈ TestNttRed.polyTests) :
    ∃ k ψ S, TestNttRed.SizeOK k ψ S ∧ t.1 = 2 ^ k ∧ t.2.2 = S.omega ∧ Std2Std k (ψ ^ 2) 1 1 t.2.1 := by
  obtain ⟨S, hS, h⟩ := List.mem_flatMap.1 h
  obtain ⟨f, hf, rfl⟩ := List.mem_map.1 h
  obtain ⟨k, ψ, ok⟩ := size_of hS
  exact ⟨k, ψ, S, ok, ok.n, rfl, TestNttRed.versions_ok ok f hf⟩

/-- Each of the 48 functions passed to `test_simple_polys` computes the transform, with the root given to the test, of
every array of values in `[0, Q-1]`. -/
theorem C62_versions : ∀ t ∈ TestNttRed.polyTests, ∃ k, t.1 = 2 ^ k ∧ PrimRoot (2 ^ k) (t.2.2 : Zq) ∧
    Std2Std k (t.2.2 : Zq) 1 1 t.2.1 := by
  intro t ht
  obtain ⟨k, ψ, S, ok, h1, h2, h3⟩ := polyTest_of ht
  rw [h2, ok.omega_eq]
  exact ⟨k, h1, ok.prim, h3⟩

example : TestNttRed.polyTests.map (fun t => t.1) = List.replicate 8 16 ++ List.replicate 8 128 ++ List.replicate 8 256 ++
    List.replicate 8 512 ++ List.replicate 8 1024 ++ List.replicate 8 2048 := rfl

/-- The 48 tests succeed, whatever the uninitialised arrays contain. -/
theorem C62_tests (w : World) : ∃ k, TestNttRed.tests w = .ok k := by
  refine TestNtt.run_list (F := fun k (t : Nat × (Array Int → M (Array Int)) × Int) =>
    TestNtt.test_simple_polys w t.1 t.2.1 t.2.2 k) (l := TestNttRed.polyTests) (fun t ht k => ?_) 0
  obtain ⟨m, ψ, S, ok, h1, h2, h3⟩ := polyTest_of ht
  refine ⟨k + 1, ?_⟩
  show TestNtt.test_simple_polys w t.1 t.2.1 t.2.2 k = _
  rw [h1, h2]
  exact TestNtt.run_test_simple_polys (by have := ok.k_le; omega) ok.prim h3 ok.omega ok.omega_eq w k

theorem sum_iota {k : Nat} (hk : 0 < k) {a : Array Int} (h : IsIota (2 ^ k) a) : NttRed.total (2 ^ k) a ≠ 0 := by
  have h1 : 1 < 2 ^ k := Nat.one_lt_two_pow (by omega)
  unfold NttRed.total
  have : 0 < ∑ i ∈ Finset.range (2 ^ k), elt a i := by
    refine Finset.sum_pos' (fun i hi => ?_) ⟨1, Finset.mem_range.2 h1, ?_⟩
    · rw [h.2 i (Finset.mem_range.1 hi)]; omega
    · rw [h.2 1 h1]; norm_num
  omega

/-- A speed test of the plain Cooley-Tukey transform does not finish. -/
theorem measure_ct_stops {k : Nat} (hk0 : 0 < k) (hk : k ≤ 30) {p : Array Int} (hp : 2 ^ k ≤ p.size) {a : Array Int}
    (ha : IsIota (2 ^ k) a) (w : World) {s : Speed} (hs : s.t.size = NTESTS) :
    ∃ e, measure w (fun a => NttRed.ntt_red_ct_rev2std a (2 ^ k) p) a s = .error e ∧ (e = .overflow ∨ e = .assertFail) := by
  have hk2 := Nat.pow_le_pow_right (show 0 < 2 by decide) hk
  obtain ⟨e, h, se⟩ := NttRed.iter_stops hk0 (by omega) hp ha.1 (fun i hi => by
    rw [ha.2 i hi]; constructor <;> omega) (Or.inr (sum_iota hk0 ha))
  exact ⟨e, measure_error hs (by rw [NTESTS_eq]; omega) h, se⟩

theorem speed_ct_stops {n k : Nat} (hn : n = 2 ^ k) (hk0 : 0 < k) (hk : k ≤ 11) {p : Array Int} (hp : 2 ^ k ≤ p.size)
    (w : World) (c : Nat) :
    ∃ e, TestNtt.speed_test w n (fun a => NttRed.ntt_red_ct_rev2std a n p) ⟨Array.replicate NTESTS 0, c, []⟩ = .error e ∧
      (e = .overflow ∨ e = .assertFail) := by
  subst hn
  have hk2 := Nat.pow_le_pow_right (show 0 < 2 by decide) hk
  obtain ⟨a, ea, ha⟩ := run_iota (n := 2 ^ k) (by omega) (TestNtt.size_localArray w (2 ^ k) c)
  obtain ⟨e, he, hs⟩ := measure_ct_stops hk0 (by omega) hp ha w (s := ⟨Array.replicate NTESTS 0, c + 1, []⟩)
    (by rw [Array.size_replicate])
  refine ⟨e, ?_, hs⟩
  unfold TestNtt.speed_test
  rw [decide_eq_true (show 2 ^ k ≤ 12289 by omega)]
  show (iota (2 ^ k) (TestNtt.localArray w (2 ^ k) c) >>= _) = _
  rw [ea, ok_bind]
  exact he

theorem fold_first {α : Type} {F : Speed → α → M Speed} {t : α} {l : List α} {s : Speed} {e : Err} (h : F s t = .error e) :
    (t :: l).foldlM F s = .error e := by
  rw [List.foldlM_cons, h]; rfl

/-- The program then stops in its first speed test, which calls `ntt_red_ct_rev2std` 102400 times in place (n = 16): a
signed integer overflows or an assertion fails. -/
theorem C62_main_stops (w : World) : ∃ e, TestNttRed.main w = .error e ∧ (e = .overflow ∨ e = .assertFail) := by
  obtain ⟨c, hc⟩ := C62_tests w
  obtain ⟨e, e1, hs⟩ := speed_ct_stops (n := 16) (k := 4) (by norm_num) (by norm_num) (by norm_num)
    (p := TestTables.shoup_sred_ntt16_12289) size16_ok.shoup.1 w c
  refine ⟨e, ?_, hs⟩
  have e2 : ∃ l, TestNttRed.speedTests = (16, fun a => NttRed.ntt_red_ct_rev2std a 16 TestTables.shoup_sred_ntt16_12289) :: l :=
    ⟨_, rfl⟩
  obtain ⟨l, e2⟩ := e2
  have e3 : TestNttRed.speedTests.foldlM (fun s t => TestNtt.speed_test w t.1 t.2 s) ⟨Array.replicate NTESTS 0, c, []⟩ =
      .error e := by
    rw [e2]
    exact fold_first e1
  unfold TestNttRed.main
  rw [hc, ok_bind, e3]
  rfl

example : TestNttRed.speedTests.length = 35 := rfl

/-! ### C57 for the four programs with lazy reduction -/

/-- src/test_ntt_red16.c, ..., src/test_ntt_red1024.c: whatever `random()`, the clock and the initial contents of memory
are, the program passes its tests (C55) and stops in its first speed test: C57 is false for the four programs. -/
theorem C57_test_ntt_red_stops : ∀ z ∈ libraryParams, ∀ buf : Nat → Array Nat, (∀ n, (buf n).size = n) →
    ∃ t, make_red_tables buf z.2.1 z.2.2 = .ok t ∧ ∀ w, WorldOK (2 ^ z.1) w →
      (∃ c, TestProg.tests (redTest (2 ^ z.1) t) w 0 = .ok c) ∧
      ∃ e, TestProg.main (redTest (2 ^ z.1) t) w = .error e ∧ (e = .overflow ∨ e = .assertFail) := by
  intro z hz buf hb
  obtain ⟨t, ht, hok⟩ := red_tables_ok (libraryParams_good z hz) hb
  refine ⟨t, ht, fun w hw => ?_⟩
  have hk : 0 < z.1 ∧ z.1 ≤ 10 := by
    simp only [libraryParams, List.mem_cons, List.not_mem_nil, or_false] at hz
    rcases hz with rfl | rfl | rfl | rfl <;> decide
  have hk2 := Nat.pow_le_pow_right (show 0 < 2 by decide) hk.2
  obtain ⟨c, hc⟩ := run_tests (red_lib hz hb ht) hw 0
  refine ⟨⟨c, hc⟩, ?_⟩
  obtain ⟨a, ea, ha⟩ := run_iota (n := 2 ^ z.1) (by omega) (hw.junk c)
  obtain ⟨e, he, hs⟩ := measure_ct_stops hk.1 (by omega) hok.omega_powers.1 ha w
    (s := ⟨Array.replicate NTESTS 0, c + 1, []⟩) (by simp)
  refine ⟨e, ?_, hs⟩
  have e1 : TestProg.speed_test (2 ^ z.1) w (NttRed.fwd_ct_rev2std t (2 ^ z.1)) ⟨Array.replicate NTESTS 0, c, []⟩ = .error e := by
    unfold TestProg.speed_test
    rw [ea, ok_bind]
    exact he
  unfold TestProg.main
  rw [hc, ok_bind]
  have e2 : speeds (redTest (2 ^ z.1) t) w ⟨Array.replicate NTESTS 0, c, []⟩ = .error e := by
    unfold speeds
    rw [show TestProg.speed_test (redTest (2 ^ z.1) t).n w (redTest (2 ^ z.1) t).ct_rev2std ⟨Array.replicate NTESTS 0, c, []⟩ =
      .error e from e1]
    rfl
  rw [e2]
  rfl

end Props
