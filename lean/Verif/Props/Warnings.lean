import Verif.SpecAbstract
import Verif.Proofs.Wp

/-
C44: what the abstract transforms of src/ntt_red_interval.c display.
-/

namespace Intervals
open NttRedInterval

/-- In each array displayed, the elements with a warning are exactly those whose interval is not
included in the range of `int32_t`. -/
def WarnsExactly (n : Nat) (log : List Shown) : Prop :=
  ∀ sh, sh ∈ log → ∀ i, i ∈ sh.warnings ↔
    i < n ∧ ∃ X, sh.a[i]? = some X ∧ ¬ (-2 ^ 31 ≤ X.min ∧ X.max ≤ 2 ^ 31 - 1)

end Intervals

namespace Props
open C Intervals NttRedInterval

theorem bind_ok {α β : Type} {x : M α} {f : α → M β} {b : β} (h : (x >>= f) = .ok b) :
    ∃ a, x = .ok a ∧ f a = .ok b := by
  cases x with
  | error e => cases h
  | ok a => exact ⟨a, rfl, h⟩

theorem cfor_inv {σ : Type} {cond : Nat → Bool} {next : Nat → Nat} {body : Nat → σ → M σ}
    {I : σ → Prop} (hb : ∀ i s s', I s → body i s = .ok s' → I s') :
    ∀ fuel i s r, I s → cfor cond next body fuel i s = .ok r → I r := by
  intro fuel
  induction fuel with
  | zero => intro i s r _ h; cases h
  | succ fuel ih =>
    intro i s r hs h
    unfold cfor at h
    split at h
    · obtain ⟨s', e, h⟩ := bind_ok h
      exact ih _ _ _ (hb _ _ _ hs e) h
    · injection h with h
      exact h ▸ hs

theorem show_exact {a : Array Ivl} {n : Nat} (hn : n < 2 ^ 32) {sh : Shown}
    (h : show_intervals a n = .ok sh) : sh.a = a ∧ WarnsExactly n [sh] := by
  have key : Wp (fun _ => True) (show_intervals a n) (fun sh => sh.a = a ∧ WarnsExactly n [sh]) := by
    unfold show_intervals
    rw [wp_bind]
    refine wp_forUp1 (fun j (w : List Nat) => ∀ i, i ∈ w ↔
      i < j ∧ ∃ X, a[i]? = some X ∧ ¬ (-2 ^ 31 ≤ X.min ∧ X.max ≤ 2 ^ 31 - 1)) (by omega)
      (Nat.zero_le _) (by simp) ?_ ?_
    · intro j w _ hj hw
      rw [wp_bind]
      by_cases hs : j < a.size
      · refine wp_rd hs fun x hx => ?_
        refine wp_pure.2 fun i => ?_
        have iff : i ∈ (if x.min < -2147483648 ∨ x.max > 2147483647 then w ++ [j] else w) ↔
            i ∈ w ∨ (i = j ∧ (x.min < -2147483648 ∨ x.max > 2147483647)) := by
          split
          · next hc => simp [hc]
          · next hc => simp [hc]
        rw [iff, hw i]
        constructor
        · rintro (⟨h1, h2⟩ | ⟨rfl, h2⟩)
          · exact ⟨by omega, h2⟩
          · exact ⟨by omega, x, hx, by omega⟩
        · rintro ⟨h1, X, h2, h3⟩
          by_cases hij : i = j
          · subst hij
            rw [hx] at h2
            injection h2 with h2
            subst h2
            exact Or.inr ⟨rfl, by omega⟩
          · exact Or.inl ⟨by omega, X, h2, h3⟩
      · unfold rd
        rw [Array.getElem?_eq_none (by omega)]
        exact wp_error.2 trivial
    · intro w hw
      refine wp_pure.2 ⟨rfl, ?_⟩
      intro sh hsh
      rw [List.mem_singleton] at hsh
      subst hsh
      exact hw
  rw [h] at key
  exact (wp_ok (P := fun sh : Shown => sh.a = a ∧ WarnsExactly n [sh])).1 key

theorem warns_append {n : Nat} {l m : List Shown} (h : WarnsExactly n l)
    (h' : WarnsExactly n m) : WarnsExactly n (l ++ m) := by
  intro sh hs
  rcases List.mem_append.1 hs with hs | hs
  · exact h sh hs
  · exact h' sh hs

/-- The last array displayed is the result, the first is the argument, and the warnings are exact. -/
def Displays (n : Nat) (a : Array Ivl) (r : Array Ivl × List Shown) : Prop :=
  WarnsExactly n r.2 ∧ (r.2.getLast?).map Shown.a = some r.1 ∧ (r.2.head?).map Shown.a = some a

theorem absUp_displays {round : Nat → Nat → Array Ivl → M (Array Ivl)} {a : Array Ivl} {n : Nat}
    (hn : n < 2 ^ 32) {r : Array Ivl × List Shown} (h : absUp round a n = .ok r) :
    Displays n a r := by
  unfold absUp at h
  obtain ⟨s, e, h⟩ := bind_ok h
  obtain ⟨sh, e', h⟩ := bind_ok h
  injection h with h
  subst h
  obtain ⟨ea, hw⟩ := show_exact hn e'
  have inv := cfor_inv (I := fun s : Nat × Array Ivl × List Shown => WarnsExactly n s.2.2 ∧
      ((s.2.2 ++ [(⟨s.2.1, []⟩ : Shown)]).head?).map Shown.a = some a)
    (by
      rintro i s s' ⟨h1, h2⟩ h
      obtain ⟨sh, e, h⟩ := bind_ok h
      obtain ⟨b, _, h⟩ := bind_ok h
      injection h with h
      subst h
      obtain ⟨ea, hw⟩ := show_exact hn e
      refine ⟨warns_append h1 hw, ?_⟩
      cases hl : s.2.2 with
      | nil =>
        rw [hl] at h2
        simp only [List.nil_append, List.head?_cons, Option.map_some, List.cons_append] at h2 ⊢
        rw [ea]; exact h2
      | cons x l =>
        rw [hl] at h2
        simpa using h2) _ _ _ _ ⟨by intro sh hsh; simp at hsh, rfl⟩ e
  refine ⟨warns_append inv.1 hw, ?_, ?_⟩
  · simp [ea]
  · have := inv.2
    cases hl : s.2.2 with
    | nil => rw [hl] at this; simpa [ea] using this
    | cons x l => rw [hl] at this; simpa using this

theorem absDown_displays {round : Nat → Array Ivl → M (Array Ivl)} {a : Array Ivl} {n : Nat}
    (hn : n < 2 ^ 32) {r : Array Ivl × List Shown} (h : absDown round a n = .ok r) :
    Displays n a r := by
  unfold absDown at h
  obtain ⟨s, e, h⟩ := bind_ok h
  obtain ⟨sh, e', h⟩ := bind_ok h
  injection h with h
  subst h
  obtain ⟨ea, hw⟩ := show_exact hn e'
  have inv := cfor_inv (I := fun s : Array Ivl × List Shown => WarnsExactly n s.2 ∧
      ((s.2 ++ [(⟨s.1, []⟩ : Shown)]).head?).map Shown.a = some a)
    (by
      rintro i s s' ⟨h1, h2⟩ h
      obtain ⟨sh, e, h⟩ := bind_ok h
      obtain ⟨b, _, h⟩ := bind_ok h
      injection h with h
      subst h
      obtain ⟨ea, hw⟩ := show_exact hn e
      refine ⟨warns_append h1 hw, ?_⟩
      cases hl : s.2 with
      | nil =>
        rw [hl] at h2
        simp only [List.nil_append, List.head?_cons, Option.map_some, List.cons_append] at h2 ⊢
        rw [ea]; exact h2
      | cons x l =>
        rw [hl] at h2
        simpa using h2) _ _ _ _ ⟨by intro sh hsh; simp at hsh, rfl⟩ e
  refine ⟨warns_append inv.1 hw, ?_, ?_⟩
  · simp [ea]
  · have := inv.2
    cases hl : s.2 with
    | nil => rw [hl] at this; simpa [ea] using this
    | cons x l => rw [hl] at this; simpa using this

/-- The eight functions with tables of integers: whenever one returns, the first array displayed is the argument,
the last one is the result, and in each array displayed the warnings are exactly for the elements
whose interval is not included in the range of `int32_t`. -/
theorem C44_warnings_exact (dbg : Bool) (a : Array Ivl) (n : Nat) (hn : n < 2 ^ 32)
    (p : Array Int) :
    ∀ f ∈ [abstract_ntt_red_ct_rev2std dbg a n p,
      abstract_mulntt_red_ct_rev2std dbg a n p,
      abstract_ntt_red_ct_std2rev dbg a n p,
      abstract_mulntt_red_ct_std2rev dbg a n p,
      abstract_ntt_red_gs_rev2std dbg a n p,
      abstract_nttmul_red_gs_rev2std dbg a n p,
      abstract_ntt_red_gs_std2rev dbg a n p,
      abstract_nttmul_red_gs_std2rev dbg a n p],
    ∀ a' log, f = .ok (a', log) → WarnsExactly n log ∧
      (log.head?).map Shown.a = some a ∧ (log.getLast?).map Shown.a = some a' := by
  intro f hf a' log h
  simp only [List.mem_cons, List.not_mem_nil, or_false] at hf
  suffices Displays n a (a', log) from ⟨this.1, this.2.2, this.2.1⟩
  rcases hf with rfl | rfl | rfl | rfl | rfl | rfl | rfl | rfl
  · exact absUp_displays hn h
  · exact absUp_displays hn h
  · exact absUp_displays hn h
  · exact absUp_displays hn h
  · exact absUp_displays hn h
  · exact absUp_displays hn h
  · exact absDown_displays hn h
  · exact absDown_displays hn h

/-- The eight functions with tables of intervals: whenever one returns, the first array displayed is the argument,
the last one is the result, and in each array displayed the warnings are exactly for the elements
whose interval is not included in the range of `int32_t`. -/
theorem C44_warnings2_exact (dbg : Bool) (a : Array Ivl) (n : Nat) (hn : n < 2 ^ 32)
    (p : Array Ivl) :
    ∀ f ∈ [abstract2_ntt_red_ct_rev2std dbg a n p,
      abstract2_mulntt_red_ct_rev2std dbg a n p,
      abstract2_ntt_red_ct_std2rev dbg a n p,
      abstract2_mulntt_red_ct_std2rev dbg a n p,
      abstract2_ntt_red_gs_rev2std dbg a n p,
      abstract2_nttmul_red_gs_rev2std dbg a n p,
      abstract2_ntt_red_gs_std2rev dbg a n p,
      abstract2_nttmul_red_gs_std2rev dbg a n p],
    ∀ a' log, f = .ok (a', log) → WarnsExactly n log ∧
      (log.head?).map Shown.a = some a ∧ (log.getLast?).map Shown.a = some a' := by
  intro f hf a' log h
  simp only [List.mem_cons, List.not_mem_nil, or_false] at hf
  suffices Displays n a (a', log) from ⟨this.1, this.2.2, this.2.1⟩
  rcases hf with rfl | rfl | rfl | rfl | rfl | rfl | rfl | rfl
  · exact absUp_displays hn h
  · exact absUp_displays hn h
  · exact absUp_displays hn h
  · exact absUp_displays hn h
  · exact absUp_displays hn h
  · exact absUp_displays hn h
  · exact absDown_displays hn h
  · exact absDown_displays hn h

/-- A case with a warning: `[2^31 - 1, 2^31 - 1] + [1, 1]` leaves the range. -/
example : ∃ a' log, abstract_ntt_red_ct_rev2std true #[⟨2147483647, 2147483647⟩, ⟨1, 1⟩] 2 #[0, 1] =
    .ok (a', log) ∧ log.map Shown.warnings = [[], [0]] :=
  ⟨#[⟨2147483648, 2147483648⟩, ⟨2147483646, 2147483646⟩],
    [⟨#[⟨2147483647, 2147483647⟩, ⟨1, 1⟩], []⟩,
     ⟨#[⟨2147483648, 2147483648⟩, ⟨2147483646, 2147483646⟩], [0]⟩], by decide +kernel, rfl⟩

end Props
