import Verif.Flow

/-
Rules for three relations on runs with recorded events: `Er` (the same result as a run without record), `Sm` (two runs that
return have the same events) and `Sx` (exactly when two runs that return have the same events).
-/

namespace Flow
open C
open Trace (Named)

variable {α β γ δ σ τ : Type}

/-- The traced run `x` and the run `y` fail with the same error or return related results. -/
def Er (R : α → β → Prop) (x : TM α) (y : M β) : Prop :=
  match y with
  | .error e => x = .error e
  | .ok b => ∃ a t, x = .ok (a, t) ∧ R a b

/-- If both traced runs return, then with the same trace and related results. -/
def Sm (R : α → β → Prop) (x : TM α) (y : TM β) : Prop :=
  ∀ a s b t, x = .ok (a, s) → y = .ok (b, t) → s = t ∧ R a b

/-- Same contents. -/
abbrev D (A : Named α) (a : Array α) : Prop := A.data = a

/-- Same array of the program. -/
abbrev N (A : Named α) (B : Named β) : Prop := A.name = B.name

/-! ### erasure -/

theorem Er.pure {R : α → β → Prop} {a : α} {b : β} (h : R a b) :
    Er R (Pure.pure a) (Pure.pure b) := ⟨a, [], rfl, h⟩

theorem Er.bind {R : α → β → Prop} {S : γ → δ → Prop} {x : TM α} {y : M β} {f : α → TM γ}
    {g : β → M δ} (h : Er R x y) (hf : ∀ a b, R a b → Er S (f a) (g b)) :
    Er S (x >>= f) (y >>= g) := by
  cases y with
  | error e => rw [show x = .error e from h]; exact rfl
  | ok b =>
    obtain ⟨a, t, rfl, hR⟩ := h
    have := hf a b hR
    show Er S (TM.bind (.ok (a, t)) f) (g b)
    unfold TM.bind
    dsimp only
    cases hg : g b with
    | error e => rw [hg] at this; rw [show f a = .error e from this]; exact rfl
    | ok d =>
      rw [hg] at this
      obtain ⟨c, t', e, hS⟩ := this
      rw [e]
      exact ⟨c, t ++ t', rfl, hS⟩

theorem Er.lift (x : M α) : Er Eq (liftM x : TM α) x := by
  cases x with
  | error e => exact rfl
  | ok a => exact ⟨a, [], rfl, rfl⟩

theorem Er.rd {A : Named α} {a : Array α} (h : D A a) (i : Nat) : Er Eq (trd A i) (rd a i) := by
  unfold D at h
  subst h
  unfold trd
  cases C.rd A.data i with
  | error e => exact rfl
  | ok x => exact ⟨_, _, rfl, rfl⟩

theorem Er.wr {A : Named α} {a : Array α} (h : D A a) (i : Nat) (x : α) :
    Er D (twr A i x) (wr a i x) := by
  unfold D at h
  subst h
  unfold twr
  cases C.wr A.data i x with
  | error e => exact rfl
  | ok x => exact ⟨_, _, rfl, rfl⟩

theorem Er.test (b : Bool) : Er (fun _ _ => True) (ttest b) (Pure.pure () : M Unit) := ⟨(), [.test b], rfl, trivial⟩

/-- After a test. -/
theorem Er.testBind {R : α → β → Prop} {b : Bool} {x : TM α} {y : M β} (h : Er R x y) : Er R (ttest b >>= fun _ => x) y :=
  Er.bind (y := (Pure.pure () : M Unit)) (g := fun _ => y) (Er.test b) (fun _ _ _ => h)

theorem Er.for {R : σ → τ → Prop} {cond : Nat → Bool} {next : Nat → Nat}
    {body : Nat → σ → TM σ} {body' : Nat → τ → M τ}
    (hb : ∀ i s s', R s s' → Er R (body i s) (body' i s')) :
    ∀ (fuel i : Nat) (s : σ) (s' : τ), R s s' →
      Er R (tfor cond next body fuel i s) (cfor cond next body' fuel i s') := by
  intro fuel
  induction fuel with
  | zero => intro i s s' _; exact rfl
  | succ fuel ih =>
    intro i s s' h
    unfold tfor cfor
    refine Er.testBind ?_
    split
    · exact Er.bind (hb i s s' h) (fun a b hab => ih _ _ _ hab)
    · exact Er.pure h

theorem Er.forUp {R : σ → τ → Prop} {lo hi step : Nat} {body : Nat → σ → TM σ}
    {body' : Nat → τ → M τ} {s : σ} {s' : τ} (h : R s s')
    (hb : ∀ i s s', R s s' → Er R (body i s) (body' i s')) :
    Er R (tforUp lo hi step body s) (forUp lo hi step body' s') := Er.for hb _ _ _ _ h

theorem Er.forShl {R : σ → τ → Prop} {lo hi : Nat} {body : Nat → σ → TM σ}
    {body' : Nat → τ → M τ} {s : σ} {s' : τ} (h : R s s')
    (hb : ∀ i s s', R s s' → Er R (body i s) (body' i s')) :
    Er R (tforShl lo hi body s) (forShl lo hi body' s') := Er.for hb _ _ _ _ h

theorem Er.forShr {R : σ → τ → Prop} {hi : Nat} {body : Nat → σ → TM σ}
    {body' : Nat → τ → M τ} {s : σ} {s' : τ} (h : R s s')
    (hb : ∀ i s s', R s s' → Er R (body i s) (body' i s')) :
    Er R (tforShr hi body s) (forShr hi body' s') := Er.for hb _ _ _ _ h

theorem Er.result {x : TM (Named α)} {y : M (Array α)} (h : Er D x y) :
    x.result.map Named.data = y := by
  cases y with
  | error e => rw [show x = .error e from h]; rfl
  | ok b => obtain ⟨a, t, rfl, hR⟩ := h; exact congrArg Except.ok hR

/-! ### equal traces -/

theorem Sm.pure {R : α → β → Prop} {a : α} {b : β} (h : R a b) :
    Sm R (Pure.pure a) (Pure.pure b) := by
  rintro _ _ _ _ ⟨⟩ ⟨⟩
  exact ⟨rfl, h⟩

theorem bind_ok {x : TM α} {f : α → TM β} {b : β} {u : List Event}
    (h : (x >>= f) = .ok (b, u)) : ∃ a s t, x = .ok (a, s) ∧ f a = .ok (b, t) ∧ u = s ++ t := by
  have h : TM.bind x f = .ok (b, u) := h
  unfold TM.bind at h
  rcases x with e | ⟨a, s⟩
  · cases h
  · dsimp only at h
    rcases hf : f a with e | ⟨b', t⟩
    · rw [hf] at h; cases h
    · rw [hf] at h
      injection h with h
      injection h with h1 h2
      subst h1
      exact ⟨a, s, t, rfl, hf, h2.symm⟩

theorem Sm.bind {R : α → β → Prop} {S : γ → δ → Prop} {x : TM α} {y : TM β} {f : α → TM γ}
    {g : β → TM δ} (h : Sm R x y) (hf : ∀ a b, R a b → Sm S (f a) (g b)) :
    Sm S (x >>= f) (y >>= g) := by
  intro c u d v h1 h2
  obtain ⟨a, s, t, e1, e2, rfl⟩ := bind_ok h1
  obtain ⟨b, s', t', e3, e4, rfl⟩ := bind_ok h2
  obtain ⟨rfl, hR⟩ := h _ _ _ _ e1 e3
  obtain ⟨rfl, hS⟩ := hf _ _ hR _ _ _ _ e2 e4
  exact ⟨rfl, hS⟩

theorem lift_ok {x : M α} {a : α} {t : List Event} (h : (liftM x : TM α) = .ok (a, t)) :
    x = .ok a ∧ t = [] := by
  cases x with
  | error e => cases h
  | ok b =>
    injection h with h
    injection h with h1 h2
    exact ⟨by rw [h1], h2.symm⟩

theorem Sm.liftEq (x : M α) : Sm Eq (liftM x : TM α) (liftM x : TM α) := by
  intro a s b t h1 h2
  obtain ⟨e1, rfl⟩ := lift_ok h1
  obtain ⟨e2, rfl⟩ := lift_ok h2
  rw [e1] at e2
  injection e2 with e2
  exact ⟨rfl, e2⟩

theorem Sm.lift (x : M α) (y : M β) : Sm (fun _ _ => True) (liftM x : TM α) (liftM y : TM β) := by
  intro a s b t h1 h2
  obtain ⟨_, rfl⟩ := lift_ok h1
  obtain ⟨_, rfl⟩ := lift_ok h2
  exact ⟨rfl, trivial⟩

theorem trd_ok {A : Named α} {i : Nat} {x : α} {t : List Event} (h : trd A i = .ok (x, t)) :
    C.rd A.data i = .ok x ∧ t = [.read A.name i] := by
  unfold trd at h
  split at h
  · cases h
  · next y hy =>
    injection h with h
    injection h with h1 h2
    subst h1
    exact ⟨hy, h2.symm⟩

theorem Sm.rdEq (A : Named α) (i : Nat) : Sm Eq (trd A i) (trd A i) := by
  intro a s b t h1 h2
  obtain ⟨e1, rfl⟩ := trd_ok h1
  obtain ⟨e2, rfl⟩ := trd_ok h2
  rw [e1] at e2
  injection e2 with e2
  exact ⟨rfl, e2⟩

theorem Sm.rd {A : Named α} {B : Named β} (h : N A B) (i : Nat) :
    Sm (fun _ _ => True) (trd A i) (trd B i) := by
  intro a s b t h1 h2
  obtain ⟨_, rfl⟩ := trd_ok h1
  obtain ⟨_, rfl⟩ := trd_ok h2
  unfold N at h
  exact ⟨by rw [h], trivial⟩

theorem Sm.wr {A : Named α} {B : Named β} (h : N A B) (i : Nat) (x : α) (y : β) :
    Sm N (twr A i x) (twr B i y) := by
  intro a s b t h1 h2
  unfold twr at h1 h2
  unfold N at h ⊢
  split at h1
  · cases h1
  · split at h2
    · cases h2
    · injection h1 with h1
      injection h1 with h3 h4
      injection h2 with h2
      injection h2 with h5 h6
      subst h3 h4 h5 h6
      exact ⟨by rw [h], h⟩

theorem Sm.testBind {R : α → β → Prop} {b : Bool} {x : TM α} {y : TM β} (h : Sm R x y) :
    Sm R (ttest b >>= fun _ => x) (ttest b >>= fun _ => y) := by
  refine Sm.bind (R := fun _ _ => True) ?_ fun _ _ _ => h
  rintro _ _ _ _ ⟨⟩ ⟨⟩
  exact ⟨rfl, trivial⟩

theorem Sm.for {R : σ → τ → Prop} {cond : Nat → Bool} {next : Nat → Nat}
    {body : Nat → σ → TM σ} {body' : Nat → τ → TM τ}
    (hb : ∀ i s s', R s s' → Sm R (body i s) (body' i s')) :
    ∀ (fuel i : Nat) (s : σ) (s' : τ), R s s' →
      Sm R (tfor cond next body fuel i s) (tfor cond next body' fuel i s') := by
  intro fuel
  induction fuel with
  | zero => intro i s s' _ _ _ _ _ h; cases h
  | succ fuel ih =>
    intro i s s' h
    unfold tfor
    refine Sm.testBind ?_
    split
    · exact Sm.bind (hb i s s' h) (fun a b hab => ih _ _ _ hab)
    · exact Sm.pure h

theorem Sm.forUp {R : σ → τ → Prop} {lo hi step : Nat} {body : Nat → σ → TM σ}
    {body' : Nat → τ → TM τ} {s : σ} {s' : τ} (h : R s s')
    (hb : ∀ i s s', R s s' → Sm R (body i s) (body' i s')) :
    Sm R (tforUp lo hi step body s) (tforUp lo hi step body' s') := Sm.for hb _ _ _ _ h

theorem Sm.forShl {R : σ → τ → Prop} {lo hi : Nat} {body : Nat → σ → TM σ}
    {body' : Nat → τ → TM τ} {s : σ} {s' : τ} (h : R s s')
    (hb : ∀ i s s', R s s' → Sm R (body i s) (body' i s')) :
    Sm R (tforShl lo hi body s) (tforShl lo hi body' s') := Sm.for hb _ _ _ _ h

theorem Sm.forShr {R : σ → τ → Prop} {hi : Nat} {body : Nat → σ → TM σ}
    {body' : Nat → τ → TM τ} {s : σ} {s' : τ} (h : R s s')
    (hb : ∀ i s s', R s s' → Sm R (body i s) (body' i s')) :
    Sm R (tforShr hi body s) (tforShr hi body' s') := Sm.for hb _ _ _ _ h

/-! ### tests -/

theorem Er.ite {R : α → β → Prop} {c : Prop} [Decidable c] {x y : TM α} {x' y' : M β}
    (h : Er R x x') (h' : Er R y y') : Er R (if c then x else y) (if c then x' else y') := by
  split
  · exact h
  · exact h'

theorem Er.tif {R : α → β → Prop} {c : Prop} [Decidable c] {x y : TM α} {x' y' : M β}
    (h : Er R x x') (h' : Er R y y') : Er R (tif c x y) (if c then x' else y') := Er.testBind (Er.ite h h')

theorem Er.ifLift (c : Prop) [Decidable c] (x : M α) (y : α) :
    Er Eq (Flow.tif c (liftM x : TM α) (Pure.pure y)) (if c then x else Pure.pure y) := Er.tif (Er.lift _) (Er.pure rfl)

theorem Sm.refl (x : TM α) : Sm Eq x x := by
  intro a s b t h1 h2
  rw [h1] at h2
  injection h2 with h2
  injection h2 with h2 h3
  exact ⟨h3, h2⟩

theorem Sm.iteSame {R : α → β → Prop} {c : Prop} [Decidable c] {x y : TM α} {x' y' : TM β}
    (h1 : Sm R x x') (h4 : Sm R y y') :
    Sm R (if c then x else y) (if c then x' else y') := by
  split <;> assumption

theorem Sm.tifSame {R : α → β → Prop} {c : Prop} [Decidable c] {x y : TM α} {x' y' : TM β}
    (h1 : Sm R x x') (h4 : Sm R y y') : Sm R (tif c x y) (tif c x' y') := Sm.testBind (Sm.iteSame h1 h4)

/-- Three arrays. -/
abbrev D3 (s : Named α × Named α × Named α) (s' : Array α × Array α × Array α) : Prop :=
  D s.1 s'.1 ∧ D s.2.1 s'.2.1 ∧ D s.2.2 s'.2.2
abbrev N3 (s s' : Named α × Named α × Named α) : Prop :=
  N s.1 s'.1 ∧ N s.2.1 s'.2.1 ∧ N s.2.2 s'.2.2

/-! ### when the events are the same -/

/-- If both runs return, then with equally many events, which are the same exactly if `P`, and with related results. -/
def Sx (P : Prop) (R : α → β → Prop) (x : TM α) (y : TM β) : Prop :=
  ∀ a s b t, x = .ok (a, s) → y = .ok (b, t) → s.length = t.length ∧ (s = t ↔ P) ∧ R a b

theorem Sx.iff {P P' : Prop} {R : α → β → Prop} {x : TM α} {y : TM β} (h : Sx P R x y) (e : P ↔ P') : Sx P' R x y := by
  rwa [← propext e]

theorem Sx.ofSm {R : α → β → Prop} {x : TM α} {y : TM β} (h : Sm R x y) : Sx True R x y := by
  intro a s b t h1 h2
  obtain ⟨rfl, hR⟩ := h _ _ _ _ h1 h2
  exact ⟨rfl, by simp, hR⟩

theorem Sx.bind {P P' : Prop} {R : α → β → Prop} {S : γ → δ → Prop} {x : TM α} {y : TM β} {f : α → TM γ}
    {g : β → TM δ} (h : Sx P R x y) (hf : ∀ a b, R a b → Sx P' S (f a) (g b)) :
    Sx (P ∧ P') S (x >>= f) (y >>= g) := by
  intro c u d v h1 h2
  obtain ⟨a, s, t, e1, e2, rfl⟩ := bind_ok h1
  obtain ⟨b, s', t', e3, e4, rfl⟩ := bind_ok h2
  obtain ⟨l, hp, hR⟩ := h _ _ _ _ e1 e3
  obtain ⟨l', hp', hS⟩ := hf _ _ hR _ _ _ _ e2 e4
  refine ⟨by simp [l, l'], ?_, hS⟩
  rw [← hp, ← hp', List.append_eq_append_iff_of_size_eq_left l]

theorem Sx.bindSm {P : Prop} {R : α → β → Prop} {S : γ → δ → Prop} {x : TM α} {y : TM β} {f : α → TM γ}
    {g : β → TM δ} (h : Sm R x y) (hf : ∀ a b, R a b → Sx P S (f a) (g b)) : Sx P S (x >>= f) (y >>= g) :=
  (Sx.bind (Sx.ofSm h) hf).iff (by simp)

/-- A test, which can have two outcomes. -/
theorem Sx.tif {R : α → β → Prop} {c c' : Prop} [Decidable c] [Decidable c'] {x y : TM α} {x' y' : TM β}
    (h1 : Sm R x x') (h2 : Sm R x y') (h3 : Sm R y x') (h4 : Sm R y y') :
    Sx (c ↔ c') R (tif c x y) (tif c' x' y') := by
  have ht : Sx (c ↔ c') (fun _ _ => True) (ttest (decide c)) (ttest (decide c')) := by
    rintro _ _ _ _ ⟨⟩ ⟨⟩
    exact ⟨rfl, by simp, trivial⟩
  have hi : Sm R (if c then x else y) (if c' then x' else y') := by split <;> split <;> assumption
  exact (Sx.bind ht fun _ _ _ => Sx.ofSm hi).iff (by simp)

/-- The values read. -/
theorem Sm.rdVal {A B : Named Int} (h : N A B) (i : Nat) :
    Sm (fun x y => x = A.data.getD i 0 ∧ y = B.data.getD i 0) (trd A i) (trd B i) := by
  intro a s b t h1 h2
  obtain ⟨e1, rfl⟩ := trd_ok h1
  obtain ⟨e2, rfl⟩ := trd_ok h2
  have val : ∀ {A : Array Int} {x : Int}, C.rd A i = .ok x → x = A.getD i 0 := by
    intro A x h
    unfold C.rd at h
    split at h
    · next y hy =>
      injection h with h
      rw [← h, Array.getD_eq_getD_getElem?, hy]
      rfl
    · cases h
  unfold N at h
  exact ⟨by rw [h], val e1, val e2⟩

/-- The values computed. -/
theorem Sm.liftVal (x : M α) (y : M β) : Sm (fun a b => x = .ok a ∧ y = .ok b) (liftM x : TM α) (liftM y : TM β) := by
  intro a s b t h1 h2
  obtain ⟨e1, rfl⟩ := lift_ok h1
  obtain ⟨e2, rfl⟩ := lift_ok h2
  exact ⟨rfl, e1, e2⟩

/-- `B` is `A` except at `i`. -/
def Besides (i : Nat) (A B : Named Int) : Prop := ∀ j, j ≠ i → B.data.getD j 0 = A.data.getD j 0

theorem Sm.wrAt {A A' : Named Int} (h : N A A') (i : Nat) (x y : Int) :
    Sm (fun B B' => N B B' ∧ Besides i A B ∧ Besides i A' B') (twr A i x) (twr A' i y) := by
  have upd : ∀ {A B : Named Int} {x : Int} {t}, twr A i x = .ok (B, t) → Besides i A B := by
    intro A B x t h j hj
    unfold twr at h
    split at h
    · cases h
    · next d hd =>
      injection h with h
      injection h with h3 h4
      rw [← h3]
      unfold C.wr at hd
      split at hd
      · injection hd with hd
        rw [← hd, Array.getD_eq_getD_getElem?, Array.getD_eq_getD_getElem?, Array.getElem?_setIfInBounds_ne (Ne.symm hj)]
      · cases hd
  intro B s B' t h1 h2
  exact ⟨(Sm.wr h i x y _ _ _ _ h1 h2).1, (Sm.wr h i x y _ _ _ _ h1 h2).2, upd h1, upd h2⟩

/-- Loops over an array where the body for `i` updates only `a[i]` and has tests with the same outcomes exactly if `c` holds of
both or of none of the elements. -/
theorem Sx.elementwise {c : Int → Prop} {n : Nat} (hn : n < 4294967296) {body : Nat → Named Int → TM (Named Int)}
    {a a' : Named Int} (ha : N a a')
    (hb : ∀ i A A', N A A' → Sx (c (A.data.getD i 0) ↔ c (A'.data.getD i 0))
      (fun B B' => N B B' ∧ Besides i A B ∧ Besides i A' B') (body i A) (body i A')) :
    Sx (∀ i < n, (c (a.data.getD i 0) ↔ c (a'.data.getD i 0))) N (tforUp 0 n 1 body a) (tforUp 0 n 1 body a') := by
  have main : ∀ (fuel i : Nat) (A A' : Named Int), N A A' →
      Sx (∀ j, i ≤ j → j < n → (c (A.data.getD j 0) ↔ c (A'.data.getD j 0))) N
        (tfor (fun i => decide (i < n)) (fun i => u32 (i + 1)) body fuel i A)
        (tfor (fun i => decide (i < n)) (fun i => u32 (i + 1)) body fuel i A') := by
    intro fuel
    induction fuel with
    | zero => intro i A A' _ _ _ _ _ h; cases h
    | succ fuel ih =>
      intro i A A' h
      unfold tfor
      refine Sx.bindSm (Sm.refl (ttest _)) fun _ _ _ => ?_
      by_cases hi : i < n
      · simp only [hi, decide_true, if_true]
        have e : u32 (i + 1) = i + 1 := Nat.mod_eq_of_lt (by omega)
        rw [e]
        refine (Sx.bind (P' := ∀ j, i + 1 ≤ j → j < n → (c (A.data.getD j 0) ↔ c (A'.data.getD j 0))) (hb i A A' h)
          fun B B' hB => (ih (i + 1) B B' hB.1).iff ?_).iff ?_
        · refine forall_congr' fun j => forall_congr' fun hj => ?_
          rw [hB.2.1 j (by omega), hB.2.2 j (by omega)]
        · constructor
          · rintro ⟨h0, h1⟩ j hj hjn
            rcases Nat.lt_or_ge i j with h | h
            · exact h1 j h hjn
            · obtain rfl : j = i := by omega
              exact h0
          · exact fun h => ⟨h i (Nat.le_refl _) hi, fun j hj => h j (by omega)⟩
      · simp only [hi, decide_false, Bool.false_eq_true, if_false]
        exact (Sx.ofSm (Sm.pure h)).iff ⟨fun _ j _ _ => absurd (by omega) hi, fun _ => trivial⟩
  exact (main (n + 1) 0 a a' ha).iff ⟨fun h j hj => h j (Nat.zero_le _) hj, fun h j _ hj => h j hj⟩

end Flow
