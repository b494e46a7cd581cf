import Verif.Proofs.SharedRules

/-
Threads with separate footprints: every interleaving gives each thread its sequential result.
-/

namespace Shared
open C
open Trace (Event)

variable {α ι : Type}

/-- Agreement of two memories on the footprint. -/
def Agree (S W : Ref → Prop) (μ μ' : Mem) : Prop := ∀ h, S h ∨ W h → μ h = μ' h

theorem allowed_sub {S W : Ref → Prop} {e : Event} (h : Allowed S W e) : S e.array ∨ W e.array := by
  rcases h with ⟨_, h⟩ | h
  · exact Or.inl h
  · exact Or.inr h

/-- The run depends only on the footprint. -/
theorem runT_agree {S W : Ref → Prop} (x : Prog α) : ∀ (μ μ' : Mem) {a ν tr}, runT x μ = .ok (a, ν, tr) →
    (∀ e ∈ tr, Allowed S W e) → Agree S W μ μ' →
    ∃ ν', runT x μ' = .ok (a, ν', tr) ∧ Agree S W ν ν' := by
  induction x with
  | pure a =>
    intro μ μ' b ν tr h hA hag
    unfold runT at h
    injection h with h
    obtain ⟨rfl, rfl, rfl⟩ := by simpa using h
    exact ⟨μ', rfl, hag⟩
  | fail e => intro μ μ' b ν tr h; cases h
  | read h i k ih =>
    intro μ μ' b ν tr hr hA hag
    rw [runT] at hr ⊢
    cases hv : C.rd (μ h) i with
    | error e => rw [hv] at hr; cases hr
    | ok v =>
      rw [hv] at hr
      dsimp only at hr
      cases hk : runT (k v) μ with
      | error e => rw [hk] at hr; cases hr
      | ok r =>
        rw [hk] at hr
        obtain ⟨a', ν', tr'⟩ := r
        injection hr with hr
        obtain ⟨rfl, rfl, rfl⟩ := by simpa using hr
        have he := hag h (allowed_sub (hA ⟨h, i, false⟩ (by simp)))
        rw [← he, hv]
        dsimp only
        obtain ⟨ν'', e, hag'⟩ := ih v μ μ' hk (fun e he => hA e (List.mem_cons_of_mem _ he)) hag
        rw [e]
        exact ⟨ν'', rfl, hag'⟩
  | write h i v k ih =>
    intro μ μ' b ν tr hr hA hag
    rw [runT] at hr ⊢
    cases hv : C.wr (μ h) i v with
    | error e => rw [hv] at hr; cases hr
    | ok a =>
      rw [hv] at hr
      dsimp only at hr
      cases hk : runT k (upd μ h a) with
      | error e => rw [hk] at hr; cases hr
      | ok r =>
        rw [hk] at hr
        obtain ⟨a', ν', tr'⟩ := r
        injection hr with hr
        obtain ⟨rfl, rfl, rfl⟩ := by simpa using hr
        have he := hag h (allowed_sub (hA ⟨h, i, true⟩ (by simp)))
        rw [← he, hv]
        dsimp only
        obtain ⟨ν'', e, hag'⟩ := ih (upd μ h a) (upd μ' h a) hk
          (fun e he => hA e (List.mem_cons_of_mem _ he)) (by
            intro l hl
            unfold upd
            split
            · rfl
            · exact hag l hl)
        rw [e]
        exact ⟨ν'', rfl, hag'⟩

/-- What a thread `x` still has to do in the memory `μ`: it returns `r` after the accesses `tr`, and then its
footprint is as in `ν`. -/
def Pending (S W : Ref → Prop) (x : Prog α) (μ : Mem) (r : α) (ν : Mem) (tr : List Event) : Prop :=
  ∃ ν', runT x μ = .ok (r, ν', tr) ∧ (∀ e ∈ tr, Allowed S W e) ∧ Agree S W ν' ν

/-- One step of a thread: one access less, and only the thread's `W` changes. -/
theorem pending_step {S W : Ref → Prop} {x : Prog α} {μ : Mem} {r : α} {ν : Mem} {tr : List Event}
    (h : Pending S W x μ r ν tr) :
    Pending S W (step x μ).1 (step x μ).2 r ν tr.tail ∧ ∀ l, ¬ W l → (step x μ).2 l = μ l := by
  obtain ⟨ν', e, hA, hag⟩ := h
  cases x with
  | pure a =>
    rw [runT] at e
    injection e with e
    obtain ⟨rfl, rfl, rfl⟩ := by simpa using e
    exact ⟨⟨_, rfl, by simp, hag⟩, fun _ _ => rfl⟩
  | fail e' => cases e
  | read h i k =>
    rw [runT] at e
    cases hv : C.rd (μ h) i with
    | error e' => rw [hv] at e; cases e
    | ok v =>
      have es : step (.read h i k) μ = (k v, μ) := by unfold step; dsimp only; rw [hv]
      rw [es]
      rw [hv] at e
      dsimp only at e ⊢
      cases hk : runT (k v) μ with
      | error e' => rw [hk] at e; cases e
      | ok r' =>
        rw [hk] at e
        obtain ⟨a', ν'', tr'⟩ := r'
        injection e with e
        obtain ⟨rfl, rfl, rfl⟩ := by simpa using e
        exact ⟨⟨_, hk, fun e he => hA e (List.mem_cons_of_mem _ he), hag⟩, fun _ _ => rfl⟩
  | write h i v k =>
    rw [runT] at e
    cases hv : C.wr (μ h) i v with
    | error e' => rw [hv] at e; cases e
    | ok a =>
      have es : step (.write h i v k) μ = (k, upd μ h a) := by unfold step; dsimp only; rw [hv]
      rw [es]
      rw [hv] at e
      dsimp only at e ⊢
      cases hk : runT k (upd μ h a) with
      | error e' => rw [hk] at e; cases e
      | ok r' =>
        rw [hk] at e
        obtain ⟨a', ν'', tr'⟩ := r'
        injection e with e
        obtain ⟨rfl, rfl, rfl⟩ := by simpa using e
        refine ⟨⟨_, hk, fun e he => hA e (List.mem_cons_of_mem _ he), hag⟩, ?_⟩
        intro l hl
        refine upd_ne _ _ ?_
        rintro rfl
        rcases hA ⟨l, i, true⟩ (by simp) with ⟨h, _⟩ | h
        · cases h
        · exact hl h

theorem pending_agree {S W : Ref → Prop} {x : Prog α} {μ μ' : Mem} {r : α} {ν : Mem} {tr : List Event}
    (h : Pending S W x μ r ν tr) (hag : Agree S W μ μ') : Pending S W x μ' r ν tr := by
  obtain ⟨ν', e, hA, hag'⟩ := h
  obtain ⟨ν'', e', hag''⟩ := runT_agree x μ μ' e hA hag
  exact ⟨ν'', e', hA, fun h hh => (hag'' h hh).symm.trans (hag' h hh)⟩

/-- Separate footprints: what a thread writes is not accessed by another thread. -/
def Separate (S W : ι → Ref → Prop) : Prop := ∀ i j, i ≠ j → ∀ h, W i h → ¬ (S j h ∨ W j h)

theorem exec_pending [DecidableEq ι] {S W : ι → Ref → Prop} (hsep : Separate S W) {r : ι → α} {ν : ι → Mem}
    {tr : ι → List Event} (sched : List ι) : ∀ (s : (ι → Prog α) × Mem),
    (∀ i, Pending (S i) (W i) (s.1 i) s.2 (r i) (ν i) (tr i)) →
    (∀ i, Pending (S i) (W i) ((sched.foldl stepThread s).1 i) (sched.foldl stepThread s).2 (r i) (ν i)
      ((tr i).drop (sched.count i))) ∧
    ∀ l, (∀ i, ¬ W i l) → (sched.foldl stepThread s).2 l = s.2 l := by
  induction sched generalizing tr with
  | nil => intro s h; exact ⟨fun i => by simpa using h i, fun _ _ => rfl⟩
  | cons j sched ih =>
    intro s h
    obtain ⟨hj, hfr⟩ := pending_step (h j)
    have h' : ∀ i, Pending (S i) (W i) ((stepThread s j).1 i) (stepThread s j).2 (r i) (ν i)
        ((tr i).drop (if i = j then 1 else 0)) := by
      intro i
      unfold stepThread
      dsimp only
      by_cases hij : i = j
      · subst hij
        rw [if_pos rfl, if_pos rfl, List.drop_one]
        exact hj
      · rw [if_neg hij, if_neg hij, List.drop_zero]
        refine pending_agree (h i) ?_
        intro l hl
        refine (hfr l ?_).symm
        intro hW
        exact hsep j i (fun e => hij e.symm) l hW hl
    obtain ⟨h1, h2⟩ := ih (stepThread s j) h'
    refine ⟨fun i => ?_, fun l hl => ?_⟩
    · have := h1 i
      rw [List.drop_drop] at this
      rw [List.foldl_cons, List.count_cons]
      have e : (if i = j then 1 else 0) + sched.count i = sched.count i + (if j == i then 1 else 0) := by
        by_cases hij : i = j
        · subst hij; simp [Nat.add_comm]
        · simp [hij, Ne.symm hij]
      rwa [e] at this
    · rw [List.foldl_cons, h2 l hl]
      exact hfr l (hl j)

/-- Threads that run correctly alone, with separate footprints, run correctly together. -/
theorem exec_correct [DecidableEq ι] {S W : ι → Ref → Prop} (hsep : Separate S W) {P : ι → Prog α} {μ : Mem}
    {r : ι → α} {ν : ι → Mem} {tr : ι → List Event}
    (hP : ∀ i, runT (P i) μ = .ok (r i, ν i, tr i)) (hA : ∀ i, ∀ e ∈ tr i, Allowed (S i) (W i) e)
    (sched : List ι) :
    (∀ i e, (exec sched P μ).1 i ≠ .fail e) ∧
    (∀ i a, (exec sched P μ).1 i = .pure a → a = r i ∧ ∀ h, W i h → (exec sched P μ).2 h = ν i h) ∧
    (∀ i, (tr i).length ≤ sched.count i → (exec sched P μ).1 i = .pure (r i)) ∧
    ∀ l, (∀ i, ¬ W i l) → (exec sched P μ).2 l = μ l := by
  have h0 : ∀ i, Pending (S i) (W i) ((P, μ).1 i) (P, μ).2 (r i) (ν i) (tr i) :=
    fun i => ⟨ν i, hP i, hA i, fun _ _ => rfl⟩
  obtain ⟨h1, h2⟩ := exec_pending hsep sched (P, μ) h0
  refine ⟨fun i e he => ?_, fun i a ha => ?_, fun i hi => ?_, h2⟩
  · obtain ⟨ν', e', _⟩ := h1 i
    rw [show ((List.foldl stepThread (P, μ) sched).1 i) = .fail e from he] at e'
    cases e'
  · obtain ⟨ν', e', _, hag⟩ := h1 i
    rw [show ((List.foldl stepThread (P, μ) sched).1 i) = .pure a from ha, runT] at e'
    injection e' with e'
    obtain ⟨rfl, rfl, _⟩ := by simpa using e'
    exact ⟨rfl, fun h hW => hag h (Or.inr hW)⟩
  · obtain ⟨ν', e', _, _⟩ := h1 i
    rw [List.drop_eq_nil_of_le hi] at e'
    show (List.foldl stepThread (P, μ) sched).1 i = _
    cases hx : (List.foldl stepThread (P, μ) sched).1 i with
    | pure a =>
      rw [hx, runT] at e'
      injection e' with e'
      have := (Prod.mk.inj e').1
      rw [this]
    | fail e => rw [hx] at e'; cases e'
    | read h i k =>
      rw [hx, runT] at e'
      split at e'
      · cases e'
      · split at e'
        · cases e'
        · injection e' with e'
          have := (Prod.mk.inj (Prod.mk.inj e').2).2
          cases this
    | write h i v k =>
      rw [hx, runT] at e'
      split at e'
      · cases e'
      · split at e'
        · cases e'
        · injection e' with e'
          have := (Prod.mk.inj (Prod.mk.inj e').2).2
          cases this

/-- A thread that runs alone for long enough. -/
theorem exec_alone [DecidableEq ι] (i : ι) (x : Prog α) : ∀ (P : ι → Prog α) (μ : Mem) {a : α} {ν : Mem},
    P i = x → run x μ = .ok (a, ν) →
    ∃ n, (List.replicate n i).foldl stepThread (P, μ) = ((fun j => if j = i then .pure a else P j), ν) := by
  induction x with
  | pure b =>
    intro P μ a ν hP h
    injection h with h
    obtain ⟨rfl, rfl⟩ := by simpa using h
    refine ⟨0, Prod.ext (funext fun j => ?_) rfl⟩
    show P j = if j = i then _ else P j
    split
    · next e => rw [e, hP]
    · rfl
  | fail e => intro P μ a ν hP h; cases h
  | read h l k ih =>
    intro P μ a ν hP hr
    rw [run] at hr
    cases hv : C.rd (μ h) l with
    | error e => rw [hv] at hr; cases hr
    | ok v =>
      rw [hv] at hr
      obtain ⟨n, hn⟩ := ih v (fun j => if j = i then k v else P j) μ (if_pos rfl) hr
      refine ⟨n + 1, ?_⟩
      have e : stepThread (P, μ) i = ((fun j => if j = i then k v else P j), μ) := by
        unfold stepThread step
        dsimp only
        rw [hP]
        dsimp only
        rw [hv]
      rw [List.replicate_succ, List.foldl_cons, e, hn]
      refine Prod.ext (funext fun j => ?_) rfl
      dsimp only
      split <;> rfl
  | write h l v k ih =>
    intro P μ a ν hP hr
    rw [run] at hr
    cases hv : C.wr (μ h) l v with
    | error e => rw [hv] at hr; cases hr
    | ok d =>
      rw [hv] at hr
      obtain ⟨n, hn⟩ := ih (fun j => if j = i then k else P j) (upd μ h d) (if_pos rfl) hr
      refine ⟨n + 1, ?_⟩
      have e : stepThread (P, μ) i = ((fun j => if j = i then k else P j), upd μ h d) := by
        unfold stepThread step
        dsimp only
        rw [hP]
        dsimp only
        rw [hv]
      rw [List.replicate_succ, List.foldl_cons, e, hn]
      refine Prod.ext (funext fun j => ?_) rfl
      dsimp only
      split <;> rfl

end Shared
