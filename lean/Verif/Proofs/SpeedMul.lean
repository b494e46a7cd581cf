import Verif.Proofs.TestSpeed
import Verif.SpecHistory

/-
Proofs about the programs of `Verif/Model/SpeedMul.lean`, and the induction for histories of calls.
-/

namespace SpeedMul
open C Spec TestProg

theorem wp_average_sorted {w : World} {k : Nat} {t : Array Nat} (h : t.size = NTESTS)
    (hp : t.toList.Perm (Spec.durations w k)) :
    Wp NoErr (average_time t) (fun r => r = (Spec.durations w k).sum % 2 ^ 64 / 102400) := by
  have hN := NTESTS_eq
  unfold average_time
  rw [wp_bind]
  have hv : ∀ l, l < NTESTS → t[l]? = some (t[l]?.getD 0) := fun l hl => by
    rw [Array.getElem?_eq_getElem (by omega)]; rfl
  refine (wp_sum (by omega) hv).mono fun s hs => ?_
  rw [← toList_eq h hv, hp.sum_eq] at hs
  generalize (Spec.durations w k).sum = S at *
  rw [udiv_eq (by omega), wp_ok, hs, hN]

section
variable {w : World} (hw : WorldOK 1024 w)

/-- State after `m` measurements. -/
def Done (w : World) (m : Nat) (s : State) : Prop :=
  s.c.size = 1024 ∧ s.a.size = 1024 ∧ s.b.size = 1024 ∧ Good w m ⟨s.t, s.k, s.shown⟩

include hw in
theorem wp_block {f : Product} {I : Array Int → Prop} (hI : ∀ a, I a → a.size = 1024)
    (h0 : ∀ a, IsIota 1024 a → I a)
    (hf : ∀ c a b : Array Int, c.size = 1024 → I a → I b → ∃ r, f c a b = .ok r ∧ r.1.size = 1024 ∧ I r.2.1 ∧ I r.2.2)
    {m : Nat} {s : State} (hs : Done w m s) : Wp NoErr (block w f s) (Done w (m + 1)) := by
  have hN := NTESTS_eq
  obtain ⟨sc, sa, sb, h1, ks, h2, h3, h4, h5⟩ := hs
  obtain ⟨r, e, ha, hb⟩ := run_iota2 (n := 1024) (by omega) sa sb
  simp only at h1 h4 h5
  unfold block
  rw [e, ok_bind, wp_bind]
  refine (wp_calls (w := w) (I := fun x : Array Int × Array Int × Array Int => x.1.size = 1024 ∧ I x.2.1 ∧ I x.2.2)
    (f := fun x => f x.1 x.2.1 x.2.2) ?_ (x := (s.c, r.1, r.2)) ⟨sc, h0 _ ha, h0 _ hb⟩ h1 s.k).mono ?_
  · rintro ⟨c, a, b⟩ ⟨gc, ga, gb⟩
    exact hf c a b gc ga gb
  · rintro ⟨t, ⟨c, a, b⟩, k⟩ ⟨g1, g2, g3, g4, g5, g6⟩
    simp only at g1 g2 g3 g4 g5 g6
    unfold print_results
    simp only [wp_bind, wp_pure]
    rw [g3]
    refine (wp_durations hw.cycles g1 g2).mono fun t' (ht' : Holds w s.k t') => ?_
    refine (wp_median ht').mono ?_
    rintro ⟨t2, md⟩ ⟨q1, q2, q3, q4⟩
    refine (wp_average_sorted q1 q2).mono fun avg hv => ?_
    refine ⟨g4, hI _ g5, hI _ g6, q1, ks ++ [s.k], by simp [h2], ?_, ?_, ?_⟩
    · rw [List.pairwise_append]
      refine ⟨h3, List.pairwise_singleton _ _, fun a ha b hb => ?_⟩
      rw [List.mem_singleton] at hb
      have := h5 a ha
      omega
    · exact List.rel_append h4 (List.Forall₂.cons ⟨⟨t2.toList, q2, q3, q4⟩, hv⟩ List.Forall₂.nil)
    · intro a ha
      simp only
      rcases List.mem_append.1 ha with ha | ha
      · have := h5 a ha; omega
      · rw [List.mem_singleton] at ha; omega

include hw in
theorem run_main {p1 p2 p3 p4 p5 : Product} {I : Array Int → Prop} (hI : ∀ a, I a → a.size = 1024)
    (h0 : ∀ a, IsIota 1024 a → I a)
    (hf : ∀ f ∈ [p1, p2, p3, p4, p5], ∀ c a b : Array Int, c.size = 1024 → I a → I b →
      ∃ r, f c a b = .ok r ∧ r.1.size = 1024 ∧ I r.2.1 ∧ I r.2.2) :
    ∃ shown, main w p1 p2 p3 p4 p5 = .ok shown ∧ Measured w 5 shown := by
  refine wp_total.1 ?_
  unfold main test_mul
  simp only [wp_bind, wp_pure]
  have start : Done w 0 ⟨Array.replicate NTESTS 0, 0, [], w.junk 0, w.junk 1, w.junk 2⟩ :=
    ⟨hw.junk _, hw.junk _, hw.junk _, Array.size_replicate, [], rfl, List.Pairwise.nil, List.Forall₂.nil,
      fun k hk => by cases hk⟩
  refine (wp_block hw hI h0 (hf p1 (by simp)) start).mono fun s hs => ?_
  refine (wp_block hw hI h0 (hf p2 (by simp)) hs).mono fun s hs => ?_
  refine (wp_block hw hI h0 (hf p3 (by simp)) hs).mono fun s hs => ?_
  refine (wp_block hw hI h0 (hf p4 (by simp)) hs).mono fun s hs => ?_
  refine (wp_block hw hI h0 (hf p5 (by simp)) hs).mono ?_
  rintro s ⟨-, -, -, -, ks, g1, g2, g3, -⟩
  exact ⟨ks, g1, g2, g3⟩

end

/-- Induction for histories: an interval that the functions keep. -/
theorem all_right {n : Nat} {lo hi lo' hi' : Int} {fs : List Product}
    (hsub : ∀ a : Array Int, InRange lo' hi' a → InRange lo hi a)
    (hf : ∀ f ∈ fs, ∀ c a b : Array Int, c.size = n → a.size = n → b.size = n → InRange lo hi a → InRange lo hi b →
      ∃ r, f c a b = .ok r ∧ r.1.size = n ∧ r.2.1.size = n ∧ r.2.2.size = n ∧ InRange lo' hi' r.1 ∧
        InRange lo hi r.2.1 ∧ InRange lo hi r.2.2 ∧
        ∀ i, i < n → coeff r.1 i = negacyclic n (coeff a) (coeff b) i) :
    ∀ (xs : List Call), Calls fs xs → ∀ mem : Nat → Array Int, (∀ i, (mem i).size = n ∧ InRange lo hi (mem i)) →
      AllRight n lo' hi' xs mem := by
  intro xs
  induction xs with
  | nil => intro _ _ _; trivial
  | cons x xs ih =>
    intro hc mem hm
    obtain ⟨h1, h2, h3, h4⟩ := hc x (by simp)
    obtain ⟨r, e, s1, s2, s3, r1, r2, r3, v⟩ := hf x.f h1 _ _ _ (hm x.c).1 (hm x.a).1 (hm x.b).1 (hm x.a).2 (hm x.b).2
    refine ⟨r, e, r1, v, ih (fun y hy => hc y (by simp [hy])) _ fun i => ?_⟩
    unfold afterCall
    split
    · exact ⟨s1, hsub _ r1⟩
    · split
      · exact ⟨s2, r2⟩
      · split
        · exact ⟨s3, r3⟩
        · exact hm i

end SpeedMul
