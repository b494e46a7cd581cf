import Mathlib.Tactic.ByContra
import Mathlib.Data.List.Induction
import Verif.SpecLayout
import Verif.Proofs.Interleave

/-
Programs whose arguments are parts of larger arrays behave as programs whose arguments are whole arrays.
-/

namespace Shared
open C

variable {α ι : Type} {L : Layout} {H : Heap}

theorem view_size (hL : L.OK H) (h : Ref) : (view L H h).size = L.len h := by
  have := hL.fits h
  unfold view
  rw [Array.size_extract]
  omega

theorem view_get (hL : L.OK H) (h : Ref) {i : Nat} (hi : i < L.len h) :
    (view L H h)[i]? = (H (L.obj h))[L.off h + i]? := by
  unfold view
  rw [Array.getElem?_extract]
  have := hL.fits h
  rw [if_pos (by omega)]

theorem rd_view (hL : L.OK H) {h : Ref} {i : Nat} (hne : rd (view L H h) i ≠ .error .oob) :
    rd (H (L.obj h)) (L.off h + i) = rd (view L H h) i := by
  have hi : i < L.len h := by
    by_contra hc
    apply hne
    unfold rd
    rw [Array.getElem?_eq_none (by rw [view_size hL]; omega)]
  unfold rd
  rw [view_get hL h hi]

theorem wr_view (hL : L.OK H) {h : Ref} {i : Nat} {x : Int} {a : Array Int} (e : wr (view L H h) i x = .ok a) :
    ∃ b, wr (H (L.obj h)) (L.off h + i) x = .ok b ∧ L.OK (H.set (L.obj h) b) ∧
      view L (H.set (L.obj h) b) = upd (view L H) h a ∧ OnlyIn L (· = h) H (H.set (L.obj h) b) := by
  unfold wr at e
  rw [view_size hL] at e
  split at e
  case isFalse => cases e
  case isTrue hi =>
    injection e with e
    have hf := hL.fits h
    have hsz : ∀ o, ((H.set (L.obj h) ((H (L.obj h)).setIfInBounds (L.off h + i) x)) o).size = (H o).size := by
      intro o
      unfold Heap.set
      split
      · next e => rw [e, Array.size_setIfInBounds]
      · rfl
    have hOK : L.OK (H.set (L.obj h) ((H (L.obj h)).setIfInBounds (L.off h + i) x)) :=
      ⟨fun h' => by rw [hsz]; exact hL.fits h', hL.apart⟩
    have hget : ∀ o j, ((H.set (L.obj h) ((H (L.obj h)).setIfInBounds (L.off h + i) x)) o)[j]? =
        if o = L.obj h ∧ j = L.off h + i then some x else (H o)[j]? := by
      intro o j
      unfold Heap.set
      by_cases ho : o = L.obj h
      · rw [if_pos ho]
        subst ho
        rw [Array.getElem?_setIfInBounds]
        by_cases hj : L.off h + i = j
        · subst hj
          rw [if_pos rfl, if_pos (by omega), if_pos ⟨rfl, rfl⟩]
        · rw [if_neg hj, if_neg (fun c => hj c.2.symm)]
      · rw [if_neg ho, if_neg (fun c => ho c.1)]
    refine ⟨_, ?_, hOK, ?_, ?_⟩
    · unfold wr
      rw [if_pos (by omega)]
    · funext h'
      apply Array.ext_getElem?
      intro j
      by_cases hj : j < L.len h'
      · rw [view_get hOK h' hj, hget]
        by_cases hh : h' = h
        · subst hh
          rw [upd_at, ← e, Array.getElem?_setIfInBounds, view_size hL]
          by_cases hij : i = j
          · subst hij
            rw [if_pos ⟨rfl, rfl⟩, if_pos rfl, if_pos hi]
          · rw [if_neg (fun c => hij (by omega)), if_neg hij, view_get hL h' hj]
        · rw [upd_ne _ _ hh, view_get hL h' hj, if_neg]
          rintro ⟨c1, c2⟩
          exact hh (hL.apart h' h (L.obj h) (L.off h + i) ⟨c1, by omega, by omega⟩ ⟨rfl, by omega, by omega⟩)
      · rw [Array.getElem?_eq_none (by rw [view_size hOK]; omega), Array.getElem?_eq_none]
        by_cases hh : h' = h
        · subst hh
          rw [upd_at, ← e, Array.size_setIfInBounds, view_size hL]
          omega
        · rw [upd_ne _ _ hh, view_size hL]
          omega
    · intro o j hj
      rw [hget, if_neg]
      rintro ⟨rfl, rfl⟩
      exact hj h rfl ⟨rfl, by omega, by omega⟩

theorem OnlyIn.trans {A : Ref → Prop} {H' H'' : Heap} (h1 : OnlyIn L A H H') (h2 : OnlyIn L A H' H'') :
    OnlyIn L A H H'' := fun o j hj => (h2 o j hj).trans (h1 o j hj)

theorem OnlyIn.mono {A B : Ref → Prop} {H' : Heap} (h1 : OnlyIn L A H H') (hAB : ∀ h, A h → B h) :
    OnlyIn L B H H' := fun o j hj => h1 o j fun h hA => hj h (hAB h hA)

/-- Changes outside all arrays are excluded, and the other arrays are as before: only `A` has changed. -/
theorem OnlyIn.of_view {A : Ref → Prop} {H' : Heap} (hL : L.OK H) (hL' : L.OK H') (h1 : OnlyIn L (fun _ => True) H H')
    (hv : ∀ h, ¬ A h → view L H' h = view L H h) : OnlyIn L A H H' := by
  intro o j hj
  by_cases hex : ∃ h, L.Has h o j
  · obtain ⟨h, rfl, h2, h3⟩ := hex
    have hA : ¬ A h := fun hA => hj h hA ⟨rfl, h2, h3⟩
    have e1 := view_get hL' h (i := j - L.off h) (by omega)
    have e2 := view_get hL h (i := j - L.off h) (by omega)
    rw [hv h hA, e2, show L.off h + (j - L.off h) = j by omega] at e1
    exact e1.symm
  · exact h1 o j fun h _ hh => hex ⟨h, hh⟩

theorem wr_error_oob {a : Array Int} {i : Nat} {x : Int} {e : Err} (h : wr a i x = .error e) : e = .oob := by
  unfold wr at h
  split at h
  · cases h
  · injection h with h; exact h.symm

theorem rd_error_oob {a : Array Int} {i : Nat} {e : Err} (h : rd a i = .error e) : e = .oob := by
  unfold rd at h
  split at h
  · cases h
  · injection h with h; exact h.symm

/-- One step. -/
theorem stepAt_view (hL : L.OK H) {x : Prog α} (hne : (step x (view L H)).1 ≠ .fail .oob) :
    (stepAt L x H).1 = (step x (view L H)).1 ∧ view L (stepAt L x H).2 = (step x (view L H)).2 ∧
      L.OK (stepAt L x H).2 ∧ OnlyIn L (fun _ => True) H (stepAt L x H).2 := by
  cases x with
  | pure a => exact ⟨rfl, rfl, hL, fun _ _ _ => rfl⟩
  | fail e => exact ⟨rfl, rfl, hL, fun _ _ _ => rfl⟩
  | read h i k =>
    unfold step at hne ⊢
    unfold stepAt
    dsimp only at hne ⊢
    have hr : rd (view L H h) i ≠ .error .oob := by
      intro c; rw [c] at hne; exact hne rfl
    rw [rd_view hL hr]
    cases hv : rd (view L H h) i with
    | error e => exact ⟨rfl, rfl, hL, fun _ _ _ => rfl⟩
    | ok v => exact ⟨rfl, rfl, hL, fun _ _ _ => rfl⟩
  | write h i v k =>
    unfold step at hne ⊢
    unfold stepAt
    dsimp only at hne ⊢
    cases hv : wr (view L H h) i v with
    | error e =>
      rw [hv, wr_error_oob hv] at hne
      exact absurd rfl hne
    | ok a =>
      obtain ⟨b, e1, e2, e3, e4⟩ := wr_view hL hv
      rw [e1]
      exact ⟨rfl, e3, e2, e4.mono fun _ _ => trivial⟩

/-- A whole run. -/
theorem runAt_view (x : Prog α) : ∀ {H : Heap}, L.OK H → run x (view L H) ≠ .error .oob →
    match run x (view L H) with
    | .error e => runAt L x H = .error e
    | .ok (r, m) => ∃ H', runAt L x H = .ok (r, H') ∧ view L H' = m ∧ L.OK H' ∧ OnlyIn L (fun _ => True) H H' := by
  induction x with
  | pure a => intro H hL _; exact ⟨H, rfl, rfl, hL, fun _ _ _ => rfl⟩
  | fail e => intro H hL _; exact rfl
  | read h i k ih =>
    intro H hL hne
    unfold run at hne ⊢
    unfold runAt
    have hr : rd (view L H h) i ≠ .error .oob := by
      intro c; rw [c] at hne; exact hne rfl
    rw [rd_view hL hr]
    cases hv : rd (view L H h) i with
    | error e => rfl
    | ok v =>
      rw [hv] at hne
      exact ih v hL hne
  | write h i v k ih =>
    intro H hL hne
    unfold run at hne ⊢
    unfold runAt
    cases hv : wr (view L H h) i v with
    | error e =>
      rw [hv, wr_error_oob hv] at hne
      exact absurd rfl hne
    | ok a =>
      rw [hv] at hne
      dsimp only at hne ⊢
      obtain ⟨b, e1, e2, e3, e4⟩ := wr_view hL hv
      rw [e1]
      dsimp only
      rw [← e3] at hne ⊢
      have := ih e2 hne
      cases hk : run k (view L (H.set (L.obj h) b)) with
      | error e =>
        rw [hk] at this
        exact this
      | ok rm =>
        rw [hk] at this
        obtain ⟨H', f1, f2, f3, f4⟩ := this
        exact ⟨H', f1, f2, f3, (e4.mono fun _ _ => trivial).trans f4⟩

/-- Threads: when no thread makes an access outside its arrays, in any schedule. -/
theorem execAt_view [DecidableEq ι] {P : ι → Prog α} (hL : L.OK H)
    (hne : ∀ sched i, (exec sched P (view L H)).1 i ≠ .fail .oob) (sched : List ι) :
    (execAt L sched P H).1 = (exec sched P (view L H)).1 ∧
      view L (execAt L sched P H).2 = (exec sched P (view L H)).2 ∧ L.OK (execAt L sched P H).2 ∧
      OnlyIn L (fun _ => True) H (execAt L sched P H).2 := by
  induction sched using List.reverseRecOn with
  | nil => exact ⟨rfl, rfl, hL, fun _ _ _ => rfl⟩
  | append_singleton s i ih =>
    obtain ⟨h1, h2, h3, h4⟩ := ih
    have hs := hne (s ++ [i]) i
    have e1 : exec (s ++ [i]) P (view L H) = stepThread (exec s P (view L H)) i := by
      unfold exec; rw [List.foldl_append]; rfl
    have e2 : execAt L (s ++ [i]) P H = stepThreadAt L (execAt L s P H) i := by
      unfold execAt; rw [List.foldl_append]; rfl
    rw [e1] at hs ⊢
    rw [e2]
    unfold stepThread at hs ⊢
    unfold stepThreadAt
    dsimp only at hs ⊢
    rw [if_pos rfl, ← h1, ← h2] at hs
    obtain ⟨g1, g2, g3, g4⟩ := stepAt_view h3 hs
    rw [← h1, ← h2]
    refine ⟨?_, g2, g3, h4.trans g4⟩
    funext j
    split
    · exact g1
    · rfl

/-- Every array is an object of its own. -/
def wholeLayout (μ : Mem) : Layout := ⟨fun h => h, fun _ => 0, fun h => (μ h).size⟩

theorem runAt_whole (len : Ref → Nat) (x : Prog α) : ∀ μ : Mem, runAt ⟨fun h => h, fun _ => 0, len⟩ x μ = run x μ := by
  induction x with
  | pure a => intro μ; rfl
  | fail e => intro μ; rfl
  | read h i k ih =>
    intro μ
    unfold runAt run
    dsimp only
    rw [Nat.zero_add]
    cases rd (μ h) i with
    | error e => rfl
    | ok v => exact ih v μ
  | write h i v k ih =>
    intro μ
    unfold runAt run
    dsimp only
    rw [Nat.zero_add]
    cases wr (μ h) i v with
    | error e => rfl
    | ok a => exact ih (upd μ h a)

/-- Longer arrays: `μ'` has the arrays of `μ`, some of them with more elements at the end. -/
theorem run_longer {μ μ' : Mem} (x : Prog α) (tl : Ref → Array Int) (hμ : ∀ h, μ' h = μ h ++ tl h)
    (hne : run x μ ≠ .error .oob) :
    match run x μ with
    | .error e => run x μ' = .error e
    | .ok (r, m) => run x μ' = .ok (r, fun h => m h ++ tl h) := by
  have hL : Layout.OK ⟨fun h => h, fun _ => 0, fun h => (μ h).size⟩ μ' := by
    constructor
    · intro h
      dsimp only
      rw [hμ, Array.size_append]
      omega
    · rintro h h' o j ⟨rfl, _⟩ ⟨e, _⟩
      exact e.symm
  have hv : view ⟨fun h => h, fun _ => 0, fun h => (μ h).size⟩ μ' = μ := by
    funext h
    apply Array.ext_getElem?
    intro j
    by_cases hj : j < (μ h).size
    · rw [view_get hL h hj]
      dsimp only
      rw [Nat.zero_add, hμ, Array.getElem?_append_left hj]
    · rw [Array.getElem?_eq_none (by rw [view_size hL]; dsimp only; omega), Array.getElem?_eq_none (by omega)]
  have := runAt_view x hL (by rw [hv]; exact hne)
  rw [hv, runAt_whole] at this
  cases hr : run x μ with
  | error e => rw [hr] at this; exact this
  | ok rm =>
    obtain ⟨r, m⟩ := rm
    rw [hr] at this
    obtain ⟨H', f1, f2, f3, f4⟩ := this
    show run x μ' = _
    rw [f1]
    congr 2
    funext h
    have hm : (m h).size = (μ h).size := by
      rw [← f2, view_size f3]
    apply Array.ext_getElem?
    intro j
    by_cases hj : j < (μ h).size
    · rw [Array.getElem?_append_left (by omega), ← f2, view_get f3 h hj]
      dsimp only
      rw [Nat.zero_add]
    · rw [f4 h j (by rintro h' _ ⟨c0, c1, c2⟩; dsimp only at c0 c2; rw [c0] at c2; omega), hμ,
        Array.getElem?_append_right (by omega), Array.getElem?_append_right (by omega), hm]

end Shared
