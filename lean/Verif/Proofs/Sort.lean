import Verif.Proofs.Wp
import Verif.Model.Sort
import Mathlib.Data.List.Perm.Basic

/-
Correctness of the model of src/sort.c.
-/

namespace IntSort
open C

/-- Element `l`. -/
def e (a : Array Nat) (l : Nat) : Nat := a[l]?.getD 0

theorem e_set {a : Array Nat} {i l v : Nat} (hi : i < a.size) :
    e (a.setIfInBounds i v) l = if i = l then v else e a l := by
  unfold e
  rw [Array.getElem?_setIfInBounds]
  split
  · next h => subst h; simp [hi]
  · rfl

theorem wp_rde {E : Err → Prop} {a : Array Nat} {i : Nat} {P : Nat → Prop} (hi : i < a.size)
    (h : P (e a i)) : Wp E (rd a i) P := by
  refine wp_rd hi fun x hx => ?_
  unfold e at h
  rw [hx] at h
  exact h

/-- `b` is obtained from `a` by exchanges of elements with indices in `[lo, hi)`. -/
inductive Swaps (lo hi : Nat) : Array Nat → Array Nat → Prop
  | refl (a) : Swaps lo hi a a
  | step {a b i j} : Swaps lo hi a b → lo ≤ i → i < hi → lo ≤ j → j < hi → i < b.size → j < b.size →
      Swaps lo hi a ((b.setIfInBounds i (e b j)).setIfInBounds j (e b i))

namespace Swaps
variable {lo hi : Nat} {a b c : Array Nat}

theorem size (h : Swaps lo hi a b) : b.size = a.size := by
  induction h with
  | refl => rfl
  | step _ _ _ _ _ _ _ ih => simpa using ih

theorem trans (h1 : Swaps lo hi a b) (h2 : Swaps lo hi b c) : Swaps lo hi a c := by
  induction h2 with
  | refl => exact h1
  | step _ h3 h4 h5 h6 h7 h8 ih => exact ih.step h3 h4 h5 h6 h7 h8

theorem mono {lo' hi' : Nat} (h : Swaps lo hi a b) (h1 : lo' ≤ lo) (h2 : hi ≤ hi') :
    Swaps lo' hi' a b := by
  induction h with
  | refl => exact .refl _
  | step _ h3 h4 h5 h6 h7 h8 ih => exact ih.step (by omega) (by omega) (by omega) (by omega) h7 h8

theorem e_step {i j l : Nat} (hi : i < b.size) (hj : j < b.size) :
    e ((b.setIfInBounds i (e b j)).setIfInBounds j (e b i)) l =
      if j = l then e b i else if i = l then e b j else e b l := by
  rw [e_set (by simpa using hj)]
  split
  · rfl
  · rw [e_set hi]

theorem outside (h : Swaps lo hi a b) {l : Nat} (hl : l < lo ∨ hi ≤ l) : e b l = e a l := by
  induction h with
  | refl => rfl
  | step _ h3 h4 h5 h6 h7 h8 ih =>
    rw [e_step h7 h8, if_neg (by omega), if_neg (by omega), ih]

/-- A property of all elements of the range is preserved. -/
theorem all (h : Swaps lo hi a b) {Q : Nat → Prop} (hQ : ∀ l, lo ≤ l → l < hi → Q (e a l)) :
    ∀ l, lo ≤ l → l < hi → Q (e b l) := by
  induction h with
  | refl => exact hQ
  | step _ h3 h4 h5 h6 h7 h8 ih =>
    intro l h1 h2
    rw [e_step h7 h8]
    split
    · exact ih _ h3 h4
    · split
      · exact ih _ h5 h6
      · exact ih _ h1 h2

theorem perm (h : Swaps lo hi a b) : b.toList.Perm a.toList := by
  induction h with
  | refl => exact List.Perm.refl _
  | @step b i j _ h3 h4 h5 h6 h7 h8 ih =>
    refine List.Perm.trans ?_ ih
    have : (b.setIfInBounds i (e b j)).setIfInBounds j (e b i) = b.swap i j h7 h8 := by
      apply Array.ext_getElem?
      intro l
      unfold e
      rw [Array.getElem?_eq_getElem h7, Array.getElem?_eq_getElem h8]
      simp [Array.swap_def, Array.getElem?_setIfInBounds, Array.getElem?_set, h7, h8]
    rw [this]
    exact (Array.swap_perm h7 h8).toList

end Swaps

/-! ### Insertion sort -/

/-- Sorted between `lo` and `hi`. -/
def Sd (a : Array Nat) (lo hi : Nat) : Prop := ∀ l m, lo ≤ l → l ≤ m → m < hi → e a l ≤ e a m

section
variable {E : Err → Prop}

theorem wp_scanLess {a : Array Nat} {base x i : Nat} (hi : base + i < a.size) (hx : e a (base + i) = x)
    (h32 : i < 4294967296) :
    ∀ fuel j, i < fuel + j → j ≤ i → (∀ l, base ≤ l → l < base + j → e a l ≤ x) →
      Wp E (scanLess a base x fuel j) (fun j' => j' ≤ i ∧ x ≤ e a (base + j') ∧
        ∀ l, base ≤ l → l < base + j' → e a l ≤ x) := by
  intro fuel
  induction fuel with
  | zero => intro j h1 h2; omega
  | succ f ih =>
    intro j h1 h2 h3
    unfold scanLess
    rw [wp_bind]
    refine wp_rde (by omega) ?_
    split
    · next h =>
      have hne : j ≠ i := by rintro rfl; omega
      rw [show u32 (j + 1) = j + 1 by unfold u32; omega]
      refine ih (j + 1) (by omega) (by omega) fun l hl1 hl2 => ?_
      rcases Nat.lt_or_ge l (base + j) with h' | h'
      · exact h3 l hl1 h'
      · rw [show l = base + j by omega]; omega
    · next h => exact wp_pure.2 ⟨h2, by omega, h3⟩

theorem wp_insertShift {a0 : Array Nat} {base i n : Nat} (h32 : i < 4294967296) (hin : i < n)
    (hn : base + n ≤ a0.size) :
    ∀ fuel (a : Array Nat) x j, i < fuel + j → j ≤ i →
      Swaps base (base + n) a0 (a.setIfInBounds (base + i) x) →
      Sd a base (base + i) → (∀ l, base ≤ l → l < base + j → e a l ≤ x) →
      (∀ l, base + j ≤ l → l < base + i → x ≤ e a l) →
      Wp E (insertShift base i fuel a x j) (fun r => r.2.2 = i ∧
        Swaps base (base + n) a0 (r.1.setIfInBounds (base + i) r.2.1) ∧
        Sd r.1 base (base + i) ∧ (∀ l, base ≤ l → l < base + i → e r.1 l ≤ r.2.1)) := by
  intro fuel
  induction fuel with
  | zero => intro a x j h1 h2; omega
  | succ f ih =>
    intro a x j h1 h2 hs hsd hle hge
    have hsz : a.size = a0.size := by have := hs.size; simpa using this
    unfold insertShift
    split
    · next hji =>
      rw [wp_bind]
      refine wp_rde (by omega) ?_
      rw [wp_bind]
      refine wp_wr (by omega) ?_
      rw [show u32 (j + 1) = j + 1 by unfold u32; omega]
      have hxj := hge (base + j) (by omega) (by omega)
      refine ih _ _ _ (by omega) (by omega) ?_ ?_ ?_ ?_
      · have := hs.step (i := base + j) (j := base + i) (by omega) (by omega) (by omega) (by omega)
          (by simp; omega) (by simp; omega)
        rw [e_set (by omega), if_pos rfl, e_set (by omega), if_neg (by omega)] at this
        convert this using 1
        apply Array.ext_getElem?
        intro l
        simp only [Array.getElem?_setIfInBounds, Array.size_setIfInBounds]
        split_ifs <;> first | rfl | omega
      · intro l m h3 h4 h5
        rw [e_set (by omega), e_set (by omega)]
        split <;> split
        · exact Nat.le_refl _
        · exact hge m (by omega) (by omega)
        · exact hle l (by omega) (by omega)
        · exact hsd l m h3 h4 h5
      · intro l h3 h4
        rw [e_set (by omega)]
        split
        · exact hxj
        · exact hsd l (base + j) h3 (by omega) (by omega)
      · intro l h3 h4
        rw [e_set (by omega), if_neg (by omega)]
        exact hsd (base + j) l (by omega) (by omega) h4
    · next hji =>
      have : j = i := by omega
      subst this
      exact wp_pure.2 ⟨rfl, hs, hsd, hle⟩

theorem wp_isort {a : Array Nat} {base n : Nat} (hn : base + n ≤ a.size) (h32 : n < 4294967296) :
    Wp E (isort_int_array a base n) (fun a' => Swaps base (base + n) a a' ∧ Sd a' base (base + n)) := by
  unfold isort_int_array
  rcases Nat.eq_zero_or_pos n with h0 | hpos
  · subst h0
    unfold forUp cfor
    simp only [Nat.not_lt_zero, decide_false, Bool.false_eq_true, if_false]
    exact wp_ok.2 ⟨.refl _, fun l m h1 h2 h3 => by omega⟩
  · refine wp_forUp1 (fun i b => Swaps base (base + n) a b ∧ Sd b base (base + i)) (by omega) hpos
      ⟨.refl _, fun l m h1 h2 h3 => by rw [show l = m by omega]; exact Nat.le_refl _⟩ ?_ (fun s h => h)
    rintro i b h1 h2 ⟨hs, hsd⟩
    have hsz := hs.size
    rw [wp_bind]
    refine wp_rde (by omega) ?_
    rw [wp_bind]
    refine (wp_scanLess (i := i) (by omega) rfl (by omega) _ 0 (by omega) (by omega)
      (fun l h3 h4 => by omega)).mono ?_
    rintro j ⟨hj, hxj, hle⟩
    rw [wp_bind]
    refine (wp_insertShift (a0 := a) (n := n) (by omega) h2 hn _ b _ j (by omega) hj ?_ hsd hle
      ?_).mono ?_
    · convert hs using 1
      apply Array.ext_getElem?
      intro l
      rw [Array.getElem?_setIfInBounds]
      split
      · next h => subst h; unfold e; rw [Array.getElem?_eq_getElem (by omega)]; simp; omega
      · rfl
    · intro l h3 h4
      exact Nat.le_trans hxj (hsd _ _ (by omega) h3 h4)
    · rintro ⟨c, x, j'⟩ ⟨hj', hs', hsd', hle'⟩
      simp only at hj' hs' hsd' hle' ⊢
      subst hj'
      have hsz' : c.size = a.size := by have := hs'.size; simpa using this
      refine wp_wr (by omega) ⟨hs', fun l m h3 h4 h5 => ?_⟩
      rw [e_set (by omega), e_set (by omega)]
      split <;> split
      · exact Nat.le_refl _
      · omega
      · exact hle' l h3 (by omega)
      · exact hsd' l m h3 h4 (by omega)

/-! ### Partition -/

theorem wp_scanDown {a : Array Nat} {base x s n : Nat} (hn : base + n ≤ a.size)
    (h32 : n < 4294967296) (hs : e a (base + s) ≤ x) :
    ∀ fuel j, j < fuel + s → s < j → j ≤ n →
      Wp E (scanDown a base x fuel j) (fun j' => s ≤ j' ∧ j' < j ∧ e a (base + j') ≤ x ∧
        ∀ l, j' < l → l < j → x ≤ e a (base + l)) := by
  intro fuel
  induction fuel with
  | zero => intro j h1 h2; omega
  | succ f ih =>
    intro j h1 h2 h3
    unfold scanDown
    simp only
    rw [show u32 (j + 4294967295) = j - 1 by unfold u32; omega, wp_bind]
    refine wp_rde (by omega) ?_
    split
    · next h =>
      have hne : j - 1 ≠ s := by intro h'; rw [h'] at h; omega
      refine (ih (j - 1) (by omega) (by omega) (by omega)).mono ?_
      rintro j' ⟨g1, g2, g3, g4⟩
      refine ⟨g1, by omega, g3, fun l hl1 hl2 => ?_⟩
      rcases Nat.lt_or_ge l (j - 1) with h' | h'
      · exact g4 l hl1 h'
      · rw [show l = j - 1 by omega]; omega
    · next h => exact wp_pure.2 ⟨by omega, by omega, by omega, fun l hl1 hl2 => by omega⟩

theorem wp_scanUp {a : Array Nat} {base x t n : Nat} (hn : base + n ≤ a.size)
    (h32 : n < 4294967296) (htn : t < n) (ht : x ≤ e a (base + t)) :
    ∀ fuel i, t < fuel + i → i < t →
      Wp E (scanUp a base x fuel i) (fun i' => i < i' ∧ i' ≤ t ∧ x ≤ e a (base + i') ∧
        ∀ l, i < l → l < i' → e a (base + l) ≤ x) := by
  intro fuel
  induction fuel with
  | zero => intro i h1 h2; omega
  | succ f ih =>
    intro i h1 h2
    unfold scanUp
    simp only
    rw [show u32 (i + 1) = i + 1 by unfold u32; omega, wp_bind]
    refine wp_rde (by omega) ?_
    split
    · next h =>
      have hne : i + 1 ≠ t := by intro h'; rw [h'] at h; omega
      refine (ih (i + 1) (by omega) (by omega)).mono ?_
      rintro i' ⟨g1, g2, g3, g4⟩
      refine ⟨by omega, g2, g3, fun l hl1 hl2 => ?_⟩
      rcases Nat.lt_or_ge (i + 1) l with h' | h'
      · exact g4 l h' hl2
      · rw [show l = i + 1 by omega]; omega
    · next h => exact wp_pure.2 ⟨by omega, by omega, by omega, fun l hl1 hl2 => by omega⟩

theorem wp_scanUpTo {a : Array Nat} {base x j n : Nat} (hn : base + n ≤ a.size)
    (h32 : n < 4294967296) (hj : j < n) :
    ∀ fuel i, j < fuel + i → i ≤ j →
      Wp E (scanUpTo a base x j fuel i) (fun i' => i < i' ∧ i' ≤ j + 1 ∧
        (i' ≤ j → x ≤ e a (base + i')) ∧ ∀ l, i < l → l < i' → e a (base + l) ≤ x) := by
  intro fuel
  induction fuel with
  | zero => intro i h1 h2; omega
  | succ f ih =>
    intro i h1 h2
    unfold scanUpTo
    simp only
    rw [show u32 (i + 1) = i + 1 by unfold u32; omega]
    split
    · next hij =>
      rw [wp_bind]
      refine wp_rde (by omega) ?_
      split
      · next h =>
        refine (ih (i + 1) (by omega) (by omega)).mono ?_
        rintro i' ⟨g1, g2, g3, g4⟩
        refine ⟨by omega, g2, g3, fun l hl1 hl2 => ?_⟩
        rcases Nat.lt_or_ge (i + 1) l with h' | h'
        · exact g4 l h' hl2
        · rw [show l = i + 1 by omega]; omega
      · next h => exact wp_pure.2 ⟨by omega, by omega, fun _ => by omega, fun l hl1 hl2 => by omega⟩
    · next hij => exact wp_pure.2 ⟨by omega, by omega, fun _ => by omega, fun l hl1 hl2 => by omega⟩

theorem wp_partLoop {a0 : Array Nat} {base x n : Nat} (hn : base + n ≤ a0.size)
    (h32 : n < 4294967296) :
    ∀ fuel (a : Array Nat) i j, j < fuel → 1 ≤ i → j < n →
      Swaps base (base + n) a0 a → e a base = x → e a (base + j) ≤ x →
      (∀ l, 1 ≤ l → l < i → e a (base + l) ≤ x) → (∀ l, j < l → l < n → x ≤ e a (base + l)) →
      (i < j → x ≤ e a (base + i)) →
      Wp E (partLoop base n x fuel a i j) (fun r => r.2 < n ∧ Swaps base (base + n) a0 r.1 ∧
        e r.1 base = x ∧ e r.1 (base + r.2) ≤ x ∧
        (∀ l, 1 ≤ l → l < r.2 → e r.1 (base + l) ≤ x) ∧
        (∀ l, r.2 < l → l < n → x ≤ e r.1 (base + l))) := by
  intro fuel
  induction fuel with
  | zero => intro a i j h1; omega
  | succ f ih =>
    intro a i j h1 h2 h3 hs hx hj hL hR hi
    have hsz := hs.size
    unfold partLoop
    split
    · next hij =>
      simp only [wp_bind]
      refine wp_rde (by omega) (wp_rde (by omega) (wp_wr (by omega) (wp_wr (by simp; omega) ?_)))
      have hs' := hs.step (i := base + i) (j := base + j) (by omega) (by omega) (by omega) (by omega)
        (by omega) (by omega)
      have he : ∀ l, e ((a.setIfInBounds (base + i) (e a (base + j))).setIfInBounds (base + j)
          (e a (base + i))) l = _ := fun l => Swaps.e_step (l := l) (by omega) (by omega)
      have hsz' := hs'.size
      generalize (a.setIfInBounds (base + i) (e a (base + j))).setIfInBounds (base + j)
          (e a (base + i)) = b at *
      have hi' := hi hij
      refine (wp_scanDown (n := n) (s := i) (by omega) h32
        (by rw [he, if_neg (by omega), if_pos rfl]; exact hj) _ j (by omega) hij (by omega)).mono ?_
      rintro j' ⟨g1, g2, g3, g4⟩
      refine (wp_scanUp (n := n) (t := j) (by omega) h32 h3
        (by rw [he, if_pos rfl]; exact hi') _ i (by omega) hij).mono ?_
      rintro i' ⟨k1, k2, k3, k4⟩
      refine ih b i' j' (by omega) (by omega) (by omega) hs' ?_ g3 ?_ ?_ (fun _ => k3)
      · rw [he, if_neg (by omega), if_neg (by omega)]; exact hx
      · intro l hl1 hl2
        rcases Nat.lt_trichotomy l i with h | h | h
        · rw [he, if_neg (by omega), if_neg (by omega)]; exact hL l hl1 h
        · rw [h, he, if_neg (by omega), if_pos rfl]; exact hj
        · exact k4 l h hl2
      · intro l hl1 hl2
        rcases Nat.lt_trichotomy l j with h | h | h
        · exact g4 l hl1 h
        · rw [h, he, if_pos rfl]; exact hi'
        · rw [he, if_neg (by omega), if_neg (by omega)]; exact hR l h hl2
    · next hij =>
      exact wp_pure.2 ⟨h3, hs, hx, hj, fun l hl1 hl2 => hL l hl1 (by simp only at hl2; omega), hR⟩

theorem wp_partition {a : Array Nat} {base n : Nat} (hn : base + n ≤ a.size) (hn1 : 1 ≤ n)
    (h32 : n < 4294967296) :
    Wp E (partition a base n) (fun r => r.2 < n ∧ Swaps base (base + n) a r.1 ∧
      (∀ l, l < r.2 → e r.1 (base + l) ≤ e r.1 (base + r.2)) ∧
      (∀ l, r.2 < l → l < n → e r.1 (base + r.2) ≤ e r.1 (base + l))) := by
  unfold partition
  simp only [wp_bind]
  have hlt : n / 2 < n := by omega
  refine wp_rde (by omega) (wp_rde (by omega) (wp_wr (by omega) (wp_wr (by simp; omega) ?_)))
  have hs := (Swaps.refl (lo := base) (hi := base + n) a).step (i := base + n / 2) (j := base)
    (by omega) (by omega) (by omega) (by omega) (by omega) (by omega)
  have hx : e ((a.setIfInBounds (base + n / 2) (e a base)).setIfInBounds base
      (e a (base + n / 2))) base = e a (base + n / 2) := by
    rw [Swaps.e_step (by omega) (by omega), if_pos rfl]
  have hsz := hs.size
  generalize (a.setIfInBounds (base + n / 2) (e a base)).setIfInBounds base
      (e a (base + n / 2)) = b at *
  generalize e a (base + n / 2) = x at *
  refine (wp_scanDown (n := n) (s := 0) (by omega) h32 (by rw [Nat.add_zero]; omega) _ n (by omega)
    (by omega) (by omega)).mono ?_
  rintro j ⟨_, g2, g3, g4⟩
  refine (wp_scanUpTo (n := n) (by omega) h32 g2 _ 0 (by omega) (by omega)).mono ?_
  rintro i ⟨k1, k2, k3, k4⟩
  refine (wp_partLoop (a0 := a) hn h32 _ b i j (by omega) k1 g2 hs hx g3
    (fun l h1 h2 => k4 l (by omega) h2) g4 (fun h => k3 (by omega))).mono ?_
  rintro ⟨c, j'⟩ ⟨m1, m2, m3, m4, m5, m6⟩
  simp only at m1 m2 m3 m4 m5 m6 ⊢
  have hsc := m2.size
  refine wp_rde (by omega) (wp_wr (by omega) (wp_wr (by simp; omega) (wp_pure.2 ?_)))
  have hs2 := m2.step (i := base) (j := base + j') (by omega) (by omega) (by omega) (by omega)
    (by omega) (by omega)
  have he : ∀ l, e ((c.setIfInBounds base (e c (base + j'))).setIfInBounds (base + j')
      (e c base)) l = _ := fun l => Swaps.e_step (l := l) (by omega) (by omega)
  rw [m3] at hs2 he
  refine ⟨m1, hs2, fun l hl => ?_, fun l hl1 hl2 => ?_⟩
  · simp only at hl ⊢
    rw [he, he, if_neg (by omega), if_pos rfl]
    rcases Nat.eq_zero_or_pos l with h | h
    · rw [if_pos (by omega)]; exact m4
    · rw [if_neg (by omega)]; exact m5 l h hl
  · simp only at hl1 ⊢
    rw [he, he, if_pos rfl, if_neg (by omega), if_neg (by omega)]
    exact m6 l hl1 hl2

theorem wp_sort_array : ∀ fuel (a : Array Nat) base n, n < fuel → base + n ≤ a.size →
    n < 4294967296 →
    Wp E (sort_array fuel a base n) (fun a' => Swaps base (base + n) a a' ∧
      Sd a' base (base + n)) := by
  intro fuel
  induction fuel with
  | zero => intro a base n h; omega
  | succ f ih =>
    intro a base n h1 h2 h32
    unfold sort_array
    split
    · exact wp_isort h2 h32
    · next h10 =>
      rw [wp_bind]
      refine (wp_partition h2 (by omega) h32).mono ?_
      rintro ⟨b, j⟩ ⟨p1, p2, p3, p4⟩
      simp only at p1 p2 p3 p4 ⊢
      have hsb := p2.size
      rw [wp_bind]
      refine (ih b base j (by omega) (by omega) (by omega)).mono ?_
      rintro c ⟨q1, q2⟩
      have hsc := q1.size
      rw [show u32 (j + 1) = j + 1 by unfold u32; omega,
        show u32 (n + 4294967296 - (j + 1)) = n - (j + 1) by unfold u32; omega]
      refine (ih c (base + (j + 1)) (n - (j + 1)) (by omega) (by omega) (by omega)).mono ?_
      rintro d ⟨r1, r2⟩
      have hend : base + (j + 1) + (n - (j + 1)) = base + n := by omega
      rw [hend] at r1 r2
      refine ⟨(p2.trans (q1.mono (by omega) (by omega))).trans (r1.mono (by omega) (by omega)), ?_⟩
      have ej : e d (base + j) = e b (base + j) := by
        rw [r1.outside (by omega), q1.outside (by omega)]
      have hL : ∀ l, base ≤ l → l < base + j → e d l ≤ e b (base + j) := by
        intro l g1 g2
        rw [r1.outside (by omega)]
        refine q1.all (Q := fun v => v ≤ e b (base + j)) (fun l g1 g2 => ?_) l g1 g2
        have := p3 (l - base) (by omega)
        rwa [show base + (l - base) = l by omega] at this
      have hR : ∀ l, base + (j + 1) ≤ l → l < base + n → e b (base + j) ≤ e d l := by
        refine r1.all (Q := fun v => e b (base + j) ≤ v) fun l g1 g2 => ?_
        rw [q1.outside (by omega)]
        have := p4 (l - base) (by omega) (by omega)
        rwa [show base + (l - base) = l by omega] at this
      intro l m g1 g2 g3
      rcases Nat.lt_trichotomy m (base + j) with h | h | h
      · rw [r1.outside (by omega), r1.outside (by omega)]
        exact q2 l m g1 g2 h
      · rw [h, ej]
        rcases Nat.lt_or_ge l (base + j) with h' | h'
        · exact hL l g1 h'
        · rw [show l = base + j by omega, ej]; exact Nat.le_refl _
      · rcases Nat.lt_trichotomy l (base + j) with h' | h' | h'
        · exact Nat.le_trans (hL l g1 h') (hR m (by omega) g3)
        · rw [h', ej]; exact hR m (by omega) g3
        · exact r2 l m (by omega) g2 g3

end

end IntSort
