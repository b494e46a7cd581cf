import Verif.Proofs.TestNttRuns
import Verif.Props.TestPrograms

/-
C61: the program test_ntt (src/test_ntt.c).  Vocabulary in SpecTestNtt.lean.
-/

namespace Props
open C Spec TestProg TestNtt

private theorem size_of {S : Size} (h : S ∈ sizes) : ∃ k ψ, SizeOK k ψ S := by
  simp only [sizes, List.mem_cons, List.not_mem_nil, or_false] at h
  rcases h with rfl | rfl | rfl | rfl
  · exact ⟨_, _, size16_ok⟩
  · exact ⟨_, _, size256_ok⟩
  · exact ⟨_, _, size512_ok⟩
  · exact ⟨_, _, size1024_ok⟩

private theorem versions_sub {S : Size} {f : Array Int → M (Array Int)} (h : f ∈ versions S) :
    f ∈ [shuffle_ct_v1 S, shuffle_ct S, shuffle_mulct S, ct_shuffle S, mulct_shuffle S, shuffle_gs S,
    shuffle_gsmul S, gs_shuffle S, gsmul_shuffle S] := by
  simp only [versions, List.mem_cons, List.not_mem_nil, or_false] at h ⊢
  tauto

private theorem polyTest_of {t : Nat × (Array Int → M (Array Int)) × Int} (h : t ∈ polyTests) :
    ∃ k ψ S, SizeOK k ψ S ∧ t.1 = 2 ^ k ∧ t.2.2 = S.omega ∧ Std2Std k (ψ ^ 2) 1 1 t.2.1 := by
  rcases List.mem_append.1 h with h | h
  · obtain ⟨f, hf, rfl⟩ := List.mem_map.1 h
    exact ⟨4, 1212, size16, size16_ok, rfl, rfl, versions_ok size16_ok f hf⟩
  · obtain ⟨S, hS, h⟩ := List.mem_flatMap.1 h
    obtain ⟨f, hf, rfl⟩ := List.mem_map.1 h
    obtain ⟨k, ψ, ok⟩ := size_of (List.mem_cons_of_mem _ hS)
    exact ⟨k, ψ, S, ok, ok.n, rfl, versions_ok ok f (versions_sub hf)⟩

private theorem crossCheck_of {t : Nat × (Array Int → M (Array Int)) × (Array Int → M (Array Int))} (h : t ∈ crossChecks) :
    ∃ k, k ≤ 10 ∧ t.1 = 2 ^ k ∧ Agree k t.2.1 t.2.2 := by
  unfold crossChecks at h
  rcases List.mem_append.1 h with h | h
  · rcases List.mem_append.1 h with h | h
    · rcases List.mem_append.1 h with h | h
      · obtain ⟨S, hS, rfl⟩ := List.mem_map.1 h
        obtain ⟨k, ψ, ok⟩ := size_of hS
        exact ⟨k, ok.k_le, ok.n, agree_ok ok (_, _) (by simp)⟩
      · obtain ⟨S, hS, rfl⟩ := List.mem_map.1 h
        obtain ⟨k, ψ, ok⟩ := size_of hS
        exact ⟨k, ok.k_le, ok.n, agree_ok ok (_, _) (by simp)⟩
    · obtain ⟨S, hS, rfl⟩ := List.mem_map.1 h
      obtain ⟨k, ψ, ok⟩ := size_of hS
      exact ⟨k, ok.k_le, ok.n, agree_ok ok (_, _) (by simp)⟩
  · obtain ⟨S, hS, rfl⟩ := List.mem_map.1 h
    obtain ⟨k, ψ, ok⟩ := size_of hS
    exact ⟨k, ok.k_le, ok.n, agree_ok ok (_, _) (by simp)⟩

private theorem speedTest_of {t : Nat × (Array Int → M (Array Int))} (h : t ∈ speedTests) :
    ∃ k, k ≤ 10 ∧ t.1 = 2 ^ k ∧ Stable k t.2 := by
  unfold speedTests at h
  rcases List.mem_append.1 h with h | h
  · rcases List.mem_append.1 h with h | h
    · obtain ⟨f, hf, rfl⟩ := List.mem_map.1 h
      exact ⟨4, by norm_num, rfl, speeds16_ok f hf⟩
    · obtain ⟨S, hS, h⟩ := List.mem_flatMap.1 h
      obtain ⟨f, hf, rfl⟩ := List.mem_map.1 h
      obtain ⟨k, ψ, ok⟩ := size_of (List.mem_cons_of_mem _ hS)
      exact ⟨k, ok.k_le, ok.n, speedsOf_ok ok f hf⟩
  · obtain ⟨S, hS, h⟩ := List.mem_flatMap.1 h
    obtain ⟨f, hf, rfl⟩ := List.mem_map.1 h
    obtain ⟨k, ψ, ok⟩ := size_of hS
    exact ⟨k, ok.k_le, ok.n, products_ok ok f hf⟩

/-- Each of the 24 functions passed to `test_simple_polys` computes the transform, with the root given to the test, of
every array of values in `[0, Q-1]`. -/
theorem C61_versions : ∀ t ∈ polyTests, ∃ k, t.1 = 2 ^ k ∧ PrimRoot (2 ^ k) (t.2.2 : Zq) ∧
    Std2Std k (t.2.2 : Zq) 1 1 t.2.1 := by
  intro t ht
  obtain ⟨k, ψ, S, ok, h1, h2, h3⟩ := polyTest_of ht
  rw [h2, ok.omega_eq]
  exact ⟨k, h1, ok.prim, h3⟩

example : polyTests.map (fun t => t.1) = List.replicate 9 16 ++ List.replicate 5 256 ++ List.replicate 5 512 ++
    List.replicate 5 1024 := rfl

/-- The functions that combine a transform with the products by the powers of `ψ`, and those that make them separately:
`mulntt` multiplies coefficient `i` by `ψ^i` before the transform, `nttmul` multiplies result `i` by `ψ^i`.
`mulntt_rev` leaves the results in bit-reverse order. -/
theorem C61_products : ∀ z ∈ [(4, (1212 : Zq), size16), (8, 1002, size256), (9, 1003, size512), (10, 1014, size1024)],
    (∀ f ∈ [combined_mulntt z.2.2, mul_then_ntt z.2.2], Std2Std z.1 (z.2.1 ^ 2) z.2.1 1 f) ∧
    (∀ f ∈ [combined_mulntt_rev z.2.2, mul_then_ntt_rev z.2.2], Std2Rev z.1 (z.2.1 ^ 2) z.2.1 1 0 12288 0 12288 f) ∧
    (∀ f ∈ [combined_nttmul z.2.2, ntt_then_mul z.2.2, combined_nttmul_rev z.2.2, ntt_then_mul_rev z.2.2],
      Std2Std z.1 (z.2.1 ^ 2) 1 z.2.1 f) := by
  intro z hz
  have : SizeOK z.1 z.2.1 z.2.2 := by
    simp only [List.mem_cons, List.not_mem_nil, or_false] at hz
    rcases hz with rfl | rfl | rfl | rfl
    · exact size16_ok
    · exact size256_ok
    · exact size512_ok
    · exact size1024_ok
  exact ⟨mulntt_ok this, mulntt_rev_ok this, nttmul_ok this⟩

/-- Each of the 16 pairs passed to `cross_check` gives the same result on every array of values in `[0, Q-1]`, not only on
the polynomials of the test. -/
theorem C61_agree : ∀ t ∈ crossChecks, ∀ a : Array Int, a.size = t.1 → Reduced a →
    ∃ b, t.2.1 a = .ok b ∧ t.2.2 a = .ok b ∧ b.size = t.1 ∧ Reduced b := by
  intro t ht a ha hr
  obtain ⟨k, -, h1, h2⟩ := crossCheck_of ht
  rw [h1] at ha ⊢
  exact h2 a ha hr

example : crossChecks.map (fun t => t.1) = [16, 256, 512, 1024, 16, 256, 512, 1024, 16, 256, 512, 1024, 16, 256, 512, 1024] :=
  rfl

example : ∃ a : Array Int, a.size = 16 ∧ Reduced a ∧ elt a 3 = 12288 := by
  refine ⟨Array.replicate 16 12288, by simp, fun i hi => ?_, by simp [elt]⟩
  have : i < 16 := by simpa using hi
  simp [elt, this]

/-- The program runs to the end whatever the uninitialised arrays contain and the cycle counter says, and shows the median
and the average of the times of the 54 functions measured. -/
theorem C61_main : ∀ w, Clock w → ∃ shown, TestNtt.main w = .ok shown ∧ Measured w 54 shown := by
  intro w hw
  unfold TestNtt.main
  obtain ⟨k1, e1⟩ := run_list (F := fun k (t : Nat × (Array Int → M (Array Int)) × Int) => test_simple_polys w t.1 t.2.1 t.2.2 k)
    (l := polyTests) (fun t ht k => by
      obtain ⟨m, ψ, S, ok, h1, h2, h3⟩ := polyTest_of ht
      refine ⟨k + 1, ?_⟩
      show test_simple_polys w t.1 t.2.1 t.2.2 k = _
      rw [h1, h2]
      exact run_test_simple_polys (by have := ok.k_le; omega) ok.prim h3 ok.omega ok.omega_eq w k) 0
  obtain ⟨k2, e2⟩ := run_list (F := fun k (t : Nat × (Array Int → M (Array Int)) × (Array Int → M (Array Int))) =>
      cross_check w t.1 t.2.1 t.2.2 k)
    (l := crossChecks) (fun t ht k => by
      obtain ⟨m, hm, h1, h2⟩ := crossCheck_of ht
      refine ⟨k + 2, ?_⟩
      show cross_check w t.1 t.2.1 t.2.2 k = _
      rw [h1]
      exact run_cross_check (by omega) h2 w k) k1
  have key := wp_total.1 (wp_speed_list (w := w) (F := fun s (t : Nat × (Array Int → M (Array Int))) => speed_test w t.1 t.2 s)
    (l := speedTests) (fun t ht m s hs => by
      obtain ⟨j, hj, h1, h2⟩ := speedTest_of ht
      show Wp NoErr (speed_test w t.1 t.2 s) _
      rw [h1]
      exact wp_speed_test (by omega) h2 hw.cycles hs) (good_init w k2))
  obtain ⟨s, e3, hs⟩ := key
  refine ⟨s.shown, ?_, ?_⟩
  · rw [e1, ok_bind, e2, ok_bind, e3, ok_bind]; rfl
  · have := Good.measured hs
    rwa [Nat.zero_add] at this

example : Clock (someWorld 1024) :=
  ⟨fun i => by simp only [someWorld]; omega, fun i => by simp only [someWorld]; omega⟩

/-- What a success of `test_simple_polys` means, for any function that could be tested. -/
theorem C61_simple_polys_meaning {n : Nat} (hn : n < 2147483648) {f : Array Int → M (Array Int)} (hf : KeepsArrays n f)
    {om : Int} (hom : 0 ≤ om ∧ om ≤ 12288) {w : World} {k k' : Nat} (h : TestNtt.test_simple_polys w n f om k = .ok k') :
    TwiceOnMonomials n om f := test_simple_polys_means hn hf hom h

/-- What a success of `cross_check` means. -/
theorem C61_cross_check_meaning {n : Nat} (hn : n < 4294967296) {f g : Array Int → M (Array Int)} (hf : KeepsArrays n f)
    (hg : KeepsArrays n g) {w : World} {k k' : Nat} (h : cross_check w n f g k = .ok k') : SameOnMonomials n f g :=
  cross_check_means hn hf hg h

private theorem keeps {k : Nat} {ω pre post : Zq} {f : Array Int → M (Array Int)} (h : Std2Std k ω pre post f)
    (hr : ∀ a, a.size = 2 ^ k → ¬ Reduced a → f a = .error .abort) : KeepsArrays (2 ^ k) f := by
  intro a a' ha e
  by_cases ra : Reduced a
  · obtain ⟨b, e', s, r, -⟩ := h a ha ra
    obtain rfl := Except.ok.inj (e'.symm.trans e)
    exact ⟨s, fun i hi => by have := r i (by omega); omega⟩
  · rw [hr a ha ra] at e; cases e

/-- A concrete case: the first function tested, restricted to canonical arrays, passes. -/
example : ∃ f, KeepsArrays (2 ^ 4) f ∧ TestNtt.test_simple_polys (someWorld 16) (2 ^ 4) f 6553 0 = .ok 1 := by
  classical
  have h0 := versions_ok size16_ok (shuffle_ct size16) (by simp)
  have h : Std2Std 4 (1212 ^ 2) 1 1 fun a => if Reduced a then shuffle_ct size16 a else .error .abort := by
    intro a ha hr
    simp only [if_pos hr]
    exact h0 a ha hr
  exact ⟨_, keeps h fun a _ hr => by simp only [if_neg hr],
    run_test_simple_polys (by norm_num) size16_ok.prim h size16_ok.omega size16_ok.omega_eq _ _⟩

/-- A function that returns its argument fails the test. -/
theorem C61_identity_fails : TestNtt.test_simple_polys (someWorld 16) 16 (fun a => .ok a) 6553 0 = .error .abort := by
  decide +kernel

/-- A transform with another root fails the test. -/
theorem C61_other_root_fails : TestNtt.test_simple_polys (someWorld 16) 16 (shuffle_ct size16) 1212 0 = .error .abort := by
  decide +kernel

end Props
