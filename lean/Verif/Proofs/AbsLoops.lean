import Verif.Proofs.Wiring
import Verif.Proofs.Intervals
import Verif.Model.NttRedInterval

/-
The outer loops of the abstract transforms: rounds and displayed arrays.
-/

namespace NttRedInterval
open C NTT Intervals

/-- The displayed arrays are those at the start of rounds `0, ..., m-1`. -/
def Logged (n : Nat) (P : Nat → Nat → Ivl → Prop) (m : Nat) (log : List Shown) : Prop :=
  log.length = m ∧ ∀ i sh, log[i]? = some sh → PW n (P i) sh.a

theorem Logged.snoc {n m : Nat} {P : Nat → Nat → Ivl → Prop} {log : List Shown} {sh : Shown}
    (h : Logged n P m log) (hs : PW n (P m) sh.a) : Logged n P (m + 1) (log ++ [sh]) := by
  refine ⟨by simp [h.1], fun i s hi => ?_⟩
  rcases Nat.lt_or_ge i log.length with hl | hl
  · rw [List.getElem?_append_left hl] at hi
    exact h.2 i s hi
  · rw [List.getElem?_append_right hl] at hi
    rcases Nat.eq_zero_or_pos (i - log.length) with h0 | h0
    · rw [h0] at hi
      simp at hi
      have : i = m := by have := h.1; omega
      rw [this, ← hi]
      exact hs
    · rw [List.getElem?_eq_none (by simp; omega)] at hi
      cases hi

theorem wp_show {E : Err → Prop} {a : Array Ivl} {n : Nat} (hn : n ≤ 2147483648)
    (ha : a.size = n) : Wp E (show_intervals a n) (fun sh => sh.a = a) := by
  unfold show_intervals
  rw [wp_bind]
  refine wp_forUp1 (fun _ _ => True) (by omega) (Nat.zero_le _) trivial ?_ ?_
  · intro i w _ hi _
    rw [wp_bind]
    refine wp_rd (by omega) (fun x _ => ?_)
    exact wp_pure.2 trivial
  · intro w _
    exact wp_pure.2 rfl

theorem wp_absUp {E : Err → Prop} {k : Nat} {P : Nat → Nat → Ivl → Prop}
    {round : Nat → Nat → Array Ivl → M (Array Ivl)} {a : Array Ivl} (hk : k ≤ 31)
    (hr : ∀ m a, m < k → PW (2 ^ k) (P m) a →
      Wp E (round (2 ^ m) (2 ^ (k - 1 - m)) a) (PW (2 ^ k) (P (m + 1))))
    (ha : PW (2 ^ k) (P 0) a) :
    Wp E (absUp round a (2 ^ k)) (fun r => PW (2 ^ k) (P k) r.1 ∧ Logged (2 ^ k) P (k + 1) r.2) := by
  unfold absUp
  rw [wp_bind]
  refine wp_forShl (fun m st => st.1 = 2 ^ (k - m) ∧ PW (2 ^ k) (P m) st.2.1 ∧
    Logged (2 ^ k) P m st.2.2) hk ⟨rfl, ha, rfl, by simp⟩ ?_ ?_
  · rintro m ⟨d, c, log⟩ hm ⟨hd, hc, hl⟩
    simp only at hd hc hl ⊢
    rw [wp_bind]
    refine (wp_show (pow31 hk) hc.1).mono fun sh hsh => ?_
    rw [wp_bind, hd, half_pow hm]
    refine (hr m c hm hc).mono fun c' hc' => ?_
    refine wp_pure.2 ⟨by rw [← half_pow hm, half_pow' hm], hc', ?_⟩
    exact hl.snoc (by rw [hsh]; exact hc)
  · rintro ⟨d, c, log⟩ ⟨_, hc, hl⟩
    simp only at hc hl ⊢
    rw [wp_bind]
    refine (wp_show (pow31 hk) hc.1).mono fun sh hsh => ?_
    exact wp_pure.2 ⟨hc, hl.snoc (by rw [hsh]; exact hc)⟩

theorem wp_absDown {E : Err → Prop} {k : Nat} {P : Nat → Nat → Ivl → Prop}
    {round : Nat → Array Ivl → M (Array Ivl)} {a : Array Ivl} (hk : k ≤ 31)
    (hr : ∀ m a, m < k → PW (2 ^ k) (P m) a →
      Wp E (round (2 ^ (k - 1 - m)) a) (PW (2 ^ k) (P (m + 1))))
    (ha : PW (2 ^ k) (P 0) a) :
    Wp E (absDown round a (2 ^ k)) (fun r => PW (2 ^ k) (P k) r.1 ∧ Logged (2 ^ k) P (k + 1) r.2) := by
  unfold absDown
  rw [wp_bind]
  refine wp_forShr (fun m st => PW (2 ^ k) (P m) st.1 ∧ Logged (2 ^ k) P m st.2) hk
    ⟨ha, rfl, by simp⟩ ?_ ?_
  · rintro m ⟨c, log⟩ hm ⟨hc, hl⟩
    simp only at hc hl ⊢
    rw [wp_bind]
    refine (wp_show (pow31 hk) hc.1).mono fun sh hsh => ?_
    rw [wp_bind]
    refine (hr m c hm hc).mono fun c' hc' => ?_
    exact wp_pure.2 ⟨hc', hl.snoc (by rw [hsh]; exact hc)⟩
  · rintro ⟨c, log⟩ ⟨hc, hl⟩
    simp only at hc hl ⊢
    rw [wp_bind]
    refine (wp_show (pow31 hk) hc.1).mono fun sh hsh => ?_
    exact wp_pure.2 ⟨hc, hl.snoc (by rw [hsh]; exact hc)⟩

end NttRedInterval
