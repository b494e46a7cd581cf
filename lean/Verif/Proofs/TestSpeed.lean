import Verif.Proofs.TestDetect
import Verif.Props.Sort
import Mathlib.Data.List.Forall2

/-
Proofs about the speed tests of the programs of `Verif/Model/TestPrograms.lean`.
-/

namespace TestProg
open C NTT Spec Tables

theorem NTESTS_eq : NTESTS = 102400 := rfl

section
variable {w : World} (hw : ∀ i, w.cycles i < 2 ^ 64)

/-- The loop of the measurements. -/
theorem wp_calls {σ : Type} {f : σ → M σ} {I : σ → Prop} (hf : ∀ x, I x → ∃ x', f x = .ok x' ∧ I x')
    {x : σ} (hx : I x) {t : Array Nat} (ht : t.size = NTESTS) (k : Nat) :
    Wp NoErr (forUp 0 NTESTS 1 (fun i (s : Array Nat × σ × Nat) => do
      let t ← wr s.1 i (w.cycles s.2.2)
      let x ← f s.2.1
      pure (t, x, s.2.2 + 1)) (t, x, k))
    (fun r => r.1.size = NTESTS ∧ (∀ l, l < NTESTS → r.1[l]? = some (w.cycles (k + l))) ∧
      r.2.2 = k + NTESTS ∧ I r.2.1) := by
  have hN := NTESTS_eq
  refine wp_forUp1 (fun i r => r.1.size = NTESTS ∧ (∀ l, l < i → r.1[l]? = some (w.cycles (k + l))) ∧
      r.2.2 = k + i ∧ I r.2.1) (by omega) (Nat.zero_le _)
    ⟨ht, fun l hl => absurd hl (Nat.not_lt_zero l), rfl, hx⟩ ?_ fun s h => h
  rintro i ⟨t, y, c⟩ - hi ⟨hs, hv, hc, hI⟩
  simp only at hs hv hc hI
  obtain ⟨y', ey, hI'⟩ := hf y hI
  simp only [wp_bind, wp_pure]
  refine wp_wr (by omega) ?_
  rw [ey, wp_ok]
  refine ⟨by simp [hs], fun l hl => ?_, by omega, hI'⟩
  by_cases h : l = i
  · subst h; rw [Array.getElem?_setIfInBounds_self_of_lt (by omega), hc]
  · rw [Array.getElem?_setIfInBounds_ne (by omega)]; exact hv l (by omega)

include hw in
theorem wp_durations {t : Array Nat} (ht : t.size = NTESTS) {k : Nat}
    (hv : ∀ l, l < NTESTS → t[l]? = some (w.cycles (k + l))) :
    Wp NoErr (durations t (w.cycles (k + NTESTS)))
      (fun t' => t'.size = NTESTS ∧ ∀ l, l < NTESTS → t'[l]? = some (duration w (k + l))) := by
  have hN := NTESTS_eq
  have hd : ∀ i, u64 (w.cycles (i + 1) + (18446744073709551616 - w.cycles i)) = duration w i := by
    intro i
    have := hw i
    unfold u64 duration
    congr 1
    omega
  unfold durations
  rw [wp_bind]
  refine wp_forUp1 (fun i t => t.size = NTESTS ∧ (∀ l, l < i → t[l]? = some (duration w (k + l))) ∧
      ∀ l, i ≤ l → l < NTESTS → t[l]? = some (w.cycles (k + l))) (by omega) (Nat.zero_le _)
    ⟨ht, fun l hl => absurd hl (Nat.not_lt_zero l), fun l _ => hv l⟩ ?_ ?_
  · rintro i t - hi ⟨hs, h1, h2⟩
    simp only [wp_bind]
    refine wp_rd_some (h2 (i + 1) (by omega) (by omega)) ?_
    refine wp_rd_some (h2 i (by omega) (by omega)) ?_
    refine wp_wr (by omega) ⟨by simp [hs], fun l hl => ?_, fun l hl hl' => ?_⟩
    · by_cases h : l = i
      · subst h; rw [Array.getElem?_setIfInBounds_self_of_lt (by omega), ← Nat.add_assoc, hd]
      · rw [Array.getElem?_setIfInBounds_ne (by omega)]; exact h1 l (by omega)
    · rw [Array.getElem?_setIfInBounds_ne (by omega)]; exact h2 l (by omega) hl'
  · rintro t ⟨hs, h1, h2⟩
    simp only [wp_bind]
    refine wp_rd_some (h2 (NTESTS - 1) (by omega) (by omega)) ?_
    refine wp_wr (by omega) ⟨by simp [hs], fun l hl => ?_⟩
    by_cases h : l = NTESTS - 1
    · subst h
      rw [Array.getElem?_setIfInBounds_self_of_lt (by omega), ← hd,
        show k + (NTESTS - 1) + 1 = k + NTESTS by omega]
    · rw [Array.getElem?_setIfInBounds_ne (by omega)]; exact h1 l (by omega)

/-- The array holds the durations. -/
def Holds (w : World) (k : Nat) (t : Array Nat) : Prop :=
  t.size = NTESTS ∧ ∀ l, l < NTESTS → t[l]? = some (duration w (k + l))

theorem toList_eq {N : Nat} {D : Nat → Nat} {t : Array Nat} (h1 : t.size = N)
    (h2 : ∀ l, l < N → t[l]? = some (D l)) : t.toList = (List.range N).map D := by
  refine List.ext_getElem? fun i => ?_
  rw [Array.getElem?_toList, List.getElem?_map]
  by_cases hi : i < N
  · rw [h2 i hi, List.getElem?_range hi]; rfl
  · rw [List.getElem?_eq_none (by rw [List.length_range]; omega), Array.getElem?_eq_none (by omega)]; rfl

theorem Holds.toList {k : Nat} {t : Array Nat} (h : Holds w k t) : t.toList = Spec.durations w k :=
  toList_eq h.1 h.2

theorem wp_sum {N : Nat} (hN : N < 4294967296) {D : Nat → Nat} {t : Array Nat}
    (h2 : ∀ l, l < N → t[l]? = some (D l)) :
    Wp NoErr (forUp 0 N 1 (fun i s => do
      let x ← rd t i
      pure (u64 (s + x))) 0) (fun s => s = ((List.range N).map D).sum % 2 ^ 64) := by
  refine wp_forUp1 (fun i s => s = ((List.range i).map D).sum % 2 ^ 64) hN (Nat.zero_le _) rfl ?_
    fun s h => h
  rintro i s - hi hs
  simp only [wp_bind, wp_pure]
  refine wp_rd_some (h2 i hi) ?_
  rw [List.range_succ, List.map_append, List.sum_append, hs]
  simp only [List.map_cons, List.map_nil, List.sum_cons, List.sum_nil, Nat.add_zero]
  unfold u64
  exact Nat.mod_add_mod _ _ _

theorem udiv_eq {x y : Nat} (h : y ≠ 0) : udiv x y = .ok (x / y) := by
  unfold udiv; rw [if_neg h]

theorem wp_average {k : Nat} {t : Array Nat} (h : Holds w k t) :
    Wp NoErr (average_time t) (fun r => r = (Spec.durations w k).sum % 2 ^ 64 / 102400) := by
  have hN := NTESTS_eq
  unfold average_time
  rw [wp_bind]
  refine (wp_sum (by omega) h.2).mono fun s hs => ?_
  rw [← toList_eq h.1 h.2, h.toList] at hs
  generalize (Spec.durations w k).sum = S at *
  rw [udiv_eq (by omega), wp_ok, hs, hN]

theorem wp_median {k : Nat} {t : Array Nat} (h : Holds w k t) :
    Wp NoErr (median_time t) (fun r => r.1.size = NTESTS ∧
      r.1.toList.Perm (Spec.durations w k) ∧ r.1.toList.Pairwise (· ≤ ·) ∧ r.1.toList[51200]? = some r.2) := by
  have hN := NTESTS_eq
  obtain ⟨a', e, hs, ho, hp, -⟩ := Props.C40_sort t NTESTS h.1.ge (by omega)
  have h1 := h.1
  unfold median_time
  rw [e]
  simp only [wp_bind, wp_pure]
  rw [wp_ok]
  have hsz : a'.size = NTESTS := by omega
  refine wp_forUp1 (fun _ _ => True) (by omega) (by omega) trivial ?_ ?_
  · rintro i - hi hi' -
    simp only [wp_bind]
    refine wp_rd (by omega) fun x hx => wp_rd (by omega) fun y hy => ?_
    have := ho (i - 1) i y x (by omega) hi' hy hx
    rw [if_neg (by omega), wp_pure]
    trivial
  · rintro - -
    refine wp_rd (by omega) fun x hx => ⟨hsz, ?_, ?_, ?_⟩
    · rw [List.take_of_length_le (by simp [hsz]), List.take_of_length_le (by simp [h1]), h.toList] at hp
      exact hp
    · rw [List.pairwise_iff_getElem]
      intro i j hi hj hij
      rw [Array.length_toList] at hi hj
      refine ho i j _ _ (by omega) (by omega) ?_ ?_
      · rw [Array.getElem?_eq_getElem hi]; rfl
      · rw [Array.getElem?_eq_getElem hj]; rfl
    · rw [Array.getElem?_toList]
      rw [show NTESTS / 2 = 51200 from rfl] at hx
      exact hx

include hw in
theorem wp_measure {σ : Type} {f : σ → M σ} {I : σ → Prop} (hf : ∀ x, I x → ∃ x', f x = .ok x' ∧ I x')
    {x : σ} (hx : I x) {s : Speed} (hs : s.t.size = NTESTS) :
    Wp NoErr (measure w f x s) (fun s' => s'.t.size = NTESTS ∧ s'.k = s.k + NTESTS + 1 ∧
      ∃ p, s'.shown = s.shown ++ [p] ∧ Shows w s.k p) := by
  unfold measure
  rw [wp_bind]
  refine (wp_calls hf hx hs s.k).mono ?_
  rintro ⟨t, y, c⟩ ⟨h1, h2, h3, -⟩
  simp only at h1 h2 h3
  simp only [wp_bind, wp_pure]
  rw [h3]
  refine (wp_durations hw h1 h2).mono fun t' (ht' : Holds w s.k t') => ?_
  refine (wp_average ht').mono fun avg ha => ?_
  refine (wp_median ht').mono ?_
  rintro ⟨t2, m⟩ ⟨h4, h5, h6, h7⟩
  exact ⟨h4, rfl, (m, avg), rfl, ⟨t2.toList, h5, h6, h7⟩, ha⟩

/-- State of the speed tests after `m` measurements. -/
def Good (w : World) (m : Nat) (s : Speed) : Prop :=
  s.t.size = NTESTS ∧ ∃ ks : List Nat, ks.length = m ∧ ks.Pairwise (fun k k' => k + 102400 < k') ∧
    List.Forall₂ (Shows w) ks s.shown ∧ ∀ k ∈ ks, k + 102400 < s.k

include hw in
theorem wp_measure_good {σ : Type} {f : σ → M σ} {I : σ → Prop}
    (hf : ∀ x, I x → ∃ x', f x = .ok x' ∧ I x') {x : σ} (hx : I x) {m : Nat} {s : Speed}
    (hs : Good w m s) (d : Nat) : Wp NoErr (measure w f x { s with k := s.k + d }) (Good w (m + 1)) := by
  have hN := NTESTS_eq
  obtain ⟨h1, ks, h2, h3, h4, h5⟩ := hs
  refine (wp_measure hw hf hx (s := { s with k := s.k + d }) h1).mono ?_
  rintro s' ⟨g1, g2, p, g3, g4⟩
  refine ⟨g1, ks ++ [s.k + d], by simp [h2], ?_, ?_, ?_⟩
  · rw [List.pairwise_append]
    refine ⟨h3, List.pairwise_singleton _ _, fun a ha b hb => ?_⟩
    rw [List.mem_singleton] at hb
    have := h5 a ha
    omega
  · rw [g3]
    exact List.rel_append h4 (List.Forall₂.cons g4 List.Forall₂.nil)
  · intro a ha
    rw [g2]
    simp only
    rcases List.mem_append.1 ha with ha | ha
    · have := h5 a ha; omega
    · rw [List.mem_singleton] at ha; omega

end

/-- The first `n` natural numbers. -/
def IsIota (n : Nat) (a : Array Int) : Prop := a.size = n ∧ ∀ i, i < n → elt a i = i

theorem toI32_small {i : Nat} (h : i < 2147483648) : toI32 i = i := by
  unfold toI32; omega

theorem run_iota {n : Nat} (hn : n < 2147483648) {a : Array Int} (ha : a.size = n) :
    ∃ a', iota n a = .ok a' ∧ IsIota n a' := by
  obtain ⟨a', e, s, v⟩ := run_fill (n := n) (by omega) ha (fun i => toI32 i)
    (body := fun i a => wr a i (toI32 i)) (fun i a hi hs => wr_ok (by omega))
  exact ⟨a', e, s, fun i hi => by rw [v i hi, toI32_small (by omega)]⟩

theorem run_iota2 {n : Nat} (hn : n < 2147483648) {a b : Array Int} (ha : a.size = n) (hb : b.size = n) :
    ∃ r, forUp 0 n 1 (fun i (r : Array Int × Array Int) => do
      let a ← wr r.1 i (toI32 i)
      let b ← wr r.2 i (toI32 i)
      pure (a, b)) (a, b) = .ok r ∧ IsIota n r.1 ∧ IsIota n r.2 := by
  refine wp_total.1 ?_
  refine wp_forUp1 (fun i (r : Array Int × Array Int) => (r.1.size = n ∧ ∀ l, l < i → elt r.1 l = l) ∧
    r.2.size = n ∧ ∀ l, l < i → elt r.2 l = l) (by omega) (Nat.zero_le _)
    ⟨⟨ha, fun l hl => absurd hl (Nat.not_lt_zero l)⟩, hb, fun l hl => absurd hl (Nat.not_lt_zero l)⟩ ?_
    fun s h => h
  rintro i ⟨a, b⟩ - hi ⟨⟨h1, h2⟩, h3, h4⟩
  simp only at h1 h2 h3 h4
  simp only [wp_bind, wp_pure]
  refine wp_wr (by omega) (wp_wr (by omega) ⟨⟨by simp [h1], fun l hl => ?_⟩, by simp [h3], fun l hl => ?_⟩)
  · simp only [elt_set (show i < a.size by omega)]
    split
    · subst l; exact toI32_small (by omega)
    · exact h2 l (by omega)
  · simp only [elt_set (show i < b.size by omega)]
    split
    · subst l; exact toI32_small (by omega)
    · exact h4 l (by omega)

/-- The functions measured keep an invariant of the arrays that holds initially. -/
structure Stable (L : Lib) (n : Nat) (I : Array Int → Prop) : Prop where
  size : L.n = n
  lt : n < 2147483648
  iota : ∀ a, IsIota n a → I a
  transforms : ∀ f ∈ [L.ct_rev2std, L.gs_rev2std, L.ct_std2rev, L.gs_std2rev, L.inv_ct_rev2std,
    L.inv_gs_rev2std, L.inv_ct_std2rev, L.inv_gs_std2rev], ∀ a, I a → ∃ a', f a = .ok a' ∧ I a'
  products : ∀ f ∈ [L.product1, L.product2, L.product3, L.product4, L.product5],
    ∀ c a b : Array Int, c.size = n → I a → I b →
    ∃ c' a' b', f c a b = .ok (c', a', b') ∧ c'.size = n ∧ I a' ∧ I b'

section
variable {L : Lib} {n : Nat} {I : Array Int → Prop} (h : Stable L n I) {w : World} (hw : WorldOK n w)
include h hw

theorem wp_speed_test {f : Array Int → M (Array Int)} (hf : f ∈ [L.ct_rev2std, L.gs_rev2std, L.ct_std2rev,
    L.gs_std2rev, L.inv_ct_rev2std, L.inv_gs_rev2std, L.inv_ct_std2rev, L.inv_gs_std2rev])
    (m : Nat) (s : Speed) (hs : Good w m s) : Wp NoErr (speed_test L.n w f s) (Good w (m + 1)) := by
  unfold speed_test
  obtain ⟨a, e, ha⟩ := run_iota h.lt (hw.junk s.k)
  rw [h.size, e, ok_bind]
  exact wp_measure_good hw.cycles (h.transforms f hf) (h.iota a ha) hs 1

theorem wp_speed_test2 {f : Array Int → Array Int → Array Int → M (Array Int × Array Int × Array Int)}
    (hf : f ∈ [L.product1, L.product2, L.product3, L.product4, L.product5])
    (m : Nat) (s : Speed) (hs : Good w m s) : Wp NoErr (speed_test2 L.n w f s) (Good w (m + 1)) := by
  unfold speed_test2
  obtain ⟨r, e, ha, hb⟩ := run_iota2 h.lt (hw.junk s.k) (hw.junk (s.k + 1))
  rw [h.size, e, ok_bind]
  refine wp_measure_good (I := fun x : Array Int × Array Int × Array Int => x.1.size = n ∧ I x.2.1 ∧ I x.2.2)
    hw.cycles ?_ ⟨hw.junk _, h.iota _ ha, h.iota _ hb⟩ hs 3
  rintro ⟨c, a, b⟩ ⟨hc, ha, hb⟩
  obtain ⟨c', a', b', e, h1, h2, h3⟩ := h.products f hf c a b hc ha hb
  exact ⟨(c', a', b'), e, h1, h2, h3⟩

theorem wp_speeds (s : Speed) (hs : Good w 0 s) : Wp NoErr (speeds L w s) (Good w 13) := by
  unfold speeds
  simp only [wp_bind]
  refine (wp_speed_test h hw (by simp) 0 s hs).mono fun s hs => ?_
  refine (wp_speed_test h hw (by simp) 1 s hs).mono fun s hs => ?_
  refine (wp_speed_test h hw (by simp) 2 s hs).mono fun s hs => ?_
  refine (wp_speed_test h hw (by simp) 3 s hs).mono fun s hs => ?_
  refine (wp_speed_test h hw (by simp) 4 s hs).mono fun s hs => ?_
  refine (wp_speed_test h hw (by simp) 5 s hs).mono fun s hs => ?_
  refine (wp_speed_test h hw (by simp) 6 s hs).mono fun s hs => ?_
  refine (wp_speed_test h hw (by simp) 7 s hs).mono fun s hs => ?_
  refine (wp_speed_test2 h hw (by simp) 8 s hs).mono fun s hs => ?_
  refine (wp_speed_test2 h hw (by simp) 9 s hs).mono fun s hs => ?_
  refine (wp_speed_test2 h hw (by simp) 10 s hs).mono fun s hs => ?_
  refine (wp_speed_test2 h hw (by simp) 11 s hs).mono fun s hs => ?_
  exact wp_speed_test2 h hw (by simp) 12 s hs

theorem run_main {k : Nat} (ht : tests L w 0 = .ok k) :
    ∃ shown, main L w = .ok shown ∧ Measured w 13 shown := by
  refine wp_total.1 ?_
  unfold main
  rw [ht, ok_bind]
  simp only [wp_bind, wp_pure]
  refine (wp_speeds h hw _ ?_).mono ?_
  · refine ⟨Array.size_replicate, [], rfl, List.Pairwise.nil, List.Forall₂.nil, fun k hk => ?_⟩
    cases hk
  · rintro s ⟨-, ks, h1, h2, h3, -⟩
    exact ⟨ks, h1, h2, h3⟩

end

/-! ### Failing measurements -/

/-- `f` applied `m` times. -/
def iter {σ : Type} (f : σ → M σ) : Nat → σ → M σ
  | 0, x => pure x
  | m + 1, x => do
    let x ← f x
    iter f m x

/-- If `f` fails when applied at most `NTESTS` times, the measurement fails. -/
theorem measure_error {σ : Type} {w : World} {f : σ → M σ} {e : Err} {s : Speed}
    (ht : s.t.size = NTESTS) : ∀ {m : Nat} {x : σ}, m ≤ NTESTS → iter f m x = .error e →
    measure w f x s = .error e := by
  have hN := NTESTS_eq
  have key : ∀ m fuel i (t : Array Nat) x c, t.size = NTESTS → i + m ≤ NTESTS → m ≤ fuel → iter f m x = .error e →
      cfor (fun i => decide (i < NTESTS)) (fun i => u32 (i + 1)) (fun i (s : Array Nat × σ × Nat) => do
        let t ← wr s.1 i (w.cycles s.2.2)
        let x ← f s.2.1
        pure (t, x, s.2.2 + 1)) fuel i (t, x, c) = .error e := by
    intro m
    induction m with
    | zero => intro fuel i t x c _ _ _ h; cases h
    | succ m ih =>
      intro fuel i t x c ht hi hf h
      obtain ⟨fuel, rfl⟩ : ∃ g, fuel = g + 1 := ⟨fuel - 1, by omega⟩
      unfold cfor
      rw [decide_eq_true (show i < NTESTS by omega), if_pos rfl]
      simp only []
      rw [wr_ok (show i < t.size by omega), ok_bind]
      unfold iter at h
      cases hx : f x with
      | error e' =>
        rw [hx] at h
        cases h
        rfl
      | ok y =>
        rw [hx, ok_bind] at h
        have hu : u32 (i + 1) = i + 1 := by unfold u32; omega
        rw [ok_bind]
        show cfor _ _ _ fuel (u32 (i + 1)) (t.setIfInBounds i (w.cycles c), y, c + 1) = _
        rw [hu]
        exact ih fuel (i + 1) _ y (c + 1) (by simp [ht]) (by omega) (by omega) h
  intro m x hm h
  unfold measure forUp
  rw [key m (NTESTS + 1) 0 s.t x s.k ht (by omega) (by omega) h]
  rfl

end TestProg
