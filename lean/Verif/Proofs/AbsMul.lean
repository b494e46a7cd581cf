import Verif.Proofs.AbsRuns
import Verif.SpecAbstract

/-
Soundness of the abstract multiplications used by the two families of abstract transforms.
-/

namespace NttRedInterval
open C NTT Intervals
open Spec (Table16)

theorem mulSound_scale {dbg : Bool} {o : Option Int} {X : Ivl} (hX : X.min ≤ X.max)
    (h16 : ∀ w, o = some w → -32768 ≤ w ∧ w ≤ 32767) : MulSound (red_scale dbg) o o X := by
  cases o with
  | none => exact Or.inl ⟨rfl, rfl⟩
  | some w =>
    refine Or.inr ⟨w, w, rfl, rfl, fun R hR => ?_⟩
    obtain ⟨h1, h2⟩ := h16 w rfl
    obtain ⟨h3, h4⟩ := red_scale_ok hX ⟨by omega, by omega⟩ hR
    refine ⟨h3, fun x hx => ?_⟩
    rw [mul_comm]
    exact h4.sound hx

theorem optA_16 {all : Bool} {p : Array Int} (h16 : Table16 p) {t b j : Nat} {w : Int}
    (h : optA all p t b j = some w) : -32768 ≤ w ∧ w ≤ 32767 := by
  unfold optA at h
  split at h
  · cases h
  · exact h16 _ _ h

theorem optB_16 {all : Bool} {p : Array Int} (h16 : Table16 p) {t b j : Nat} {w : Int}
    (h : optB all p t b j = some w) : -32768 ≤ w ∧ w ≤ 32767 := by
  unfold optB at h
  split at h
  · cases h
  · exact h16 _ _ h

/-- The multipliers of the concrete run are in those of the abstract run. -/
def OptIn (P : Array Ivl) (oA : Option Ivl) (oC : Option Int) : Prop :=
  (oA = none ∧ oC = none) ∨ ∃ (W : Ivl) (w : Int) (i : Nat), oA = some W ∧ oC = some w ∧ P[i]? = some W ∧ w ∈ W

theorem get_in {p : Array Int} {P : Array Ivl} (hin : Inside p P) (i : Nat) :
    OptIn P P[i]? p[i]? := by
  rcases Nat.lt_or_ge i p.size with h | h
  · have h' : i < P.size := by rw [← hin.1]; exact h
    have e1 : p[i]? = some p[i] := Array.getElem?_eq_getElem h
    have e2 : P[i]? = some P[i] := Array.getElem?_eq_getElem h'
    exact Or.inr ⟨P[i], p[i], i, e2, e1, e2, hin.2 i _ _ e1 e2⟩
  · exact Or.inl ⟨Array.getElem?_eq_none (by rw [← hin.1]; exact h), Array.getElem?_eq_none h⟩

theorem optA_in {all : Bool} {p : Array Int} {P : Array Ivl} (hin : Inside p P) (t b j : Nat) :
    OptIn P (optA all P t b j) (optA all p t b j) := by
  unfold optA
  split
  · exact Or.inl ⟨rfl, rfl⟩
  · exact get_in hin _

theorem optB_in {all : Bool} {p : Array Int} {P : Array Ivl} (hin : Inside p P) (t b j : Nat) :
    OptIn P (optB all P t b j) (optB all p t b j) := by
  unfold optB
  split
  · exact Or.inl ⟨rfl, rfl⟩
  · exact get_in hin _

theorem mulSound_mul {dbg : Bool} {P : Array Ivl} {oA : Option Ivl} {oC : Option Int} {X : Ivl}
    (hX : Valid X) (hup : LeansUp X) (hP : ValidArray P)
    (hPup : ∀ (i : Nat) (W : Ivl), P[i]? = some W → LeansUp W) (ho : OptIn P oA oC) :
    MulSound (fun w x => red_mul dbg x w) oA oC X := by
  rcases ho with h | ⟨W, w, i, h1, h2, h3, h4⟩
  · exact Or.inl h
  · refine Or.inr ⟨W, w, h1, h2, fun R hR => ?_⟩
    have key := wp_red_mul (E := fun _ => True) (dbg := dbg) hX (hP i W h3)
      (by unfold larger; split
          · exact hPup i W h3
          · exact hup) (Or.inl trivial) (fun _ => Or.inr trivial)
    simp only at hR
    rw [hR, wp_ok] at key
    exact ⟨by omega, fun x hx => key.2.1 x w hx h4⟩

theorem shown_centered {τ : Type} {op : Option τ → Ivl → Ivl → M (Ivl × Ivl)} {k : Nat}
    {h : Nat → Nat} {OA : Nat → Nat → Nat → Option τ} {A : Array Ivl} {log : List Shown}
    (hA : A.size = 2 ^ k) (hl : Logged (2 ^ k) (Val h OA op A) (k + 1) log)
    (hc : ShownCentered h log) {m b j : Nat} {Y Z : Ivl} (hm : m < k) (hj : j < h m)
    (hY : Val h OA op A m (2 * h m * b + j) Y) (hZ : Val h OA op A m (2 * h m * b + j + h m) Z) :
    Z.min + Z.max ≤ Y.min + Y.max := by
  obtain ⟨sh, Y', h1, h2, h3⟩ := shown_val hl (Nat.le_of_lt hm) (Val.lt hA hY)
  obtain ⟨sh', Z', h1', h2', h3'⟩ := shown_val hl (Nat.le_of_lt hm) (Val.lt hA hZ)
  rw [h1] at h1'
  injection h1' with e
  subst e
  rw [hY.unique h3, hZ.unique h3']
  refine hc m sh (by rw [hl.1]; omega) h1 _ _ _ ?_ h2 h2'
  have e : (2 * h m * b + j) / h m = 2 * b := by
    rw [show 2 * h m * b + j = j + h m * (2 * b) by ring,
      Nat.add_mul_div_left _ _ (by omega), Nat.div_eq_of_lt hj]
    omega
  rw [e]
  omega

theorem shown_leanUp {τ : Type} {op : Option τ → Ivl → Ivl → M (Ivl × Ivl)} {k : Nat}
    {h : Nat → Nat} {OA : Nat → Nat → Nat → Option τ} {A : Array Ivl} {log : List Shown}
    (hA : A.size = 2 ^ k) (hl : Logged (2 ^ k) (Val h OA op A) (k + 1) log)
    (hc : ShownLeanUp h log) {m b j : Nat} {Z : Ivl} (hm : m < k) (hj : j < h m)
    (hZ : Val h OA op A m (2 * h m * b + j + h m) Z) : LeansUp Z := by
  obtain ⟨sh, Z', h1, h2, h3⟩ := shown_val hl (Nat.le_of_lt hm) (Val.lt hA hZ)
  rw [hZ.unique h3]
  refine hc m sh (by rw [hl.1]; omega) h1 _ _ ?_ h2
  have e : (2 * h m * b + j + h m) / h m = 2 * b + 1 := by
    rw [show 2 * h m * b + j + h m = j + h m * (2 * b + 1) by ring,
      Nat.add_mul_div_left _ _ (by omega), Nat.div_eq_of_lt hj]
    omega
  rw [e]
  omega

/-! ### Checking the conditions on displays by evaluation -/

theorem shownWithin_of {L : Int} {log : List Shown}
    (h : (log.all fun sh => sh.a.all fun X => decide (-L ≤ X.min ∧ X.max ≤ L)) = true) :
    ShownWithin L log := by
  intro sh hsh i X hX
  have h1 := List.all_eq_true.1 h sh hsh
  obtain ⟨hi, e⟩ := Array.getElem?_eq_some_iff.1 hX
  have h2 := Array.all_eq_true.1 h1 i hi
  rw [e] at h2
  exact of_decide_eq_true h2

theorem shownLeanUp_of {h : Nat → Nat} {log : List Shown}
    (hh : ∀ m, m < log.length - 1 → ∀ sh, log[m]? = some sh → ∀ i, i < sh.a.size →
      (i / h m) % 2 = 1 → ∀ X, sh.a[i]? = some X → LeansUp X) : ShownLeanUp h log :=
  fun m sh hm hs i X hi hX => hh m (by omega) sh hs i (getElem?_lt hX) hi X hX

theorem validArray_of {A : Array Ivl} (h : ∀ i : Fin A.size, Valid A[i]) : ValidArray A := by
  intro i X hX
  obtain ⟨hi, e⟩ := Array.getElem?_eq_some_iff.1 hX
  exact e ▸ h ⟨i, hi⟩

theorem inside_of {a : Array Int} {A : Array Ivl} (hs : a.size = A.size)
    (h : ∀ i : Fin a.size, ∀ X ∈ A[i.1]?, a[i] ∈ X) : Inside a A := by
  refine ⟨hs, fun i x X hx hX => ?_⟩
  obtain ⟨hi, e⟩ := Array.getElem?_eq_some_iff.1 hx
  exact e ▸ h ⟨i, hi⟩ X hX

theorem table16_of {p : Array Int} (h : ∀ i : Fin p.size, -32768 ≤ p[i] ∧ p[i] ≤ 32767) :
    Table16 p := by
  intro i w hw
  obtain ⟨hi, e⟩ := Array.getElem?_eq_some_iff.1 hw
  exact e ▸ h ⟨i, hi⟩

end NttRedInterval
