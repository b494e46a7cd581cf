import Verif.Model.Traced

/-
Rules for two relations on traced runs: `Er` (a traced run has the same result as an untraced run)
and `Sm` (two traced runs that return have the same trace).
-/

namespace Trace
open C

variable {α β γ δ σ τ : Type}

/-- The traced run `x` and the run `y` fail with the same error or return related results. -/
def Er (R : α → β → Prop) (x : TM α) (y : M β) : Prop :=
  match y with
  | .error e => x = .error e
  | .ok b => ∃ a t, x = .ok (a, t) ∧ R a b

/-- If both traced runs return, then with the same trace and related results. -/
def Sm (R : α → β → Prop) (x : TM α) (y : TM β) : Prop :=
  ∀ a s b t, x = .ok (a, s) → y = .ok (b, t) → s = t ∧ R a b

/-- Same contents. -/
abbrev D (A : Named α) (a : Array α) : Prop := A.data = a

/-- Same array of the program. -/
abbrev N (A : Named α) (B : Named β) : Prop := A.name = B.name

/-! ### erasure -/

theorem Er.pure {R : α → β → Prop} {a : α} {b : β} (h : R a b) :
    Er R (Pure.pure a) (Pure.pure b) := ⟨a, [], rfl, h⟩

theorem Er.bind {R : α → β → Prop} {S : γ → δ → Prop} {x : TM α} {y : M β} {f : α → TM γ}
    {g : β → M δ} (h : Er R x y) (hf : ∀ a b, R a b → Er S (f a) (g b)) :
    Er S (x >>= f) (y >>= g) := by
  cases y with
  | error e => rw [show x = .error e from h]; exact rfl
  | ok b =>
    obtain ⟨a, t, rfl, hR⟩ := h
    have := hf a b hR
    show Er S (TM.bind (.ok (a, t)) f) (g b)
    unfold TM.bind
    dsimp only
    cases hg : g b with
    | error e => rw [hg] at this; rw [show f a = .error e from this]; exact rfl
    | ok d =>
      rw [hg] at this
      obtain ⟨c, t', e, hS⟩ := this
      rw [e]
      exact ⟨c, t ++ t', rfl, hS⟩

theorem Er.lift (x : M α) : Er Eq (liftM x : TM α) x := by
  cases x with
  | error e => exact rfl
  | ok a => exact ⟨a, [], rfl, rfl⟩

theorem Er.rd {A : Named α} {a : Array α} (h : D A a) (i : Nat) : Er Eq (trd A i) (rd a i) := by
  unfold D at h
  subst h
  unfold trd
  cases C.rd A.data i with
  | error e => exact rfl
  | ok x => exact ⟨_, _, rfl, rfl⟩

theorem Er.wr {A : Named α} {a : Array α} (h : D A a) (i : Nat) (x : α) :
    Er D (twr A i x) (wr a i x) := by
  unfold D at h
  subst h
  unfold twr
  cases C.wr A.data i x with
  | error e => exact rfl
  | ok x => exact ⟨_, _, rfl, rfl⟩

theorem Er.for {R : σ → τ → Prop} {cond : Nat → Bool} {next : Nat → Nat}
    {body : Nat → σ → TM σ} {body' : Nat → τ → M τ}
    (hb : ∀ i s s', R s s' → Er R (body i s) (body' i s')) :
    ∀ (fuel i : Nat) (s : σ) (s' : τ), R s s' →
      Er R (tfor cond next body fuel i s) (cfor cond next body' fuel i s') := by
  intro fuel
  induction fuel with
  | zero => intro i s s' _; exact rfl
  | succ fuel ih =>
    intro i s s' h
    unfold tfor cfor
    split
    · exact Er.bind (hb i s s' h) (fun a b hab => ih _ _ _ hab)
    · exact Er.pure h

theorem Er.forUp {R : σ → τ → Prop} {lo hi step : Nat} {body : Nat → σ → TM σ}
    {body' : Nat → τ → M τ} {s : σ} {s' : τ} (h : R s s')
    (hb : ∀ i s s', R s s' → Er R (body i s) (body' i s')) :
    Er R (tforUp lo hi step body s) (forUp lo hi step body' s') := Er.for hb _ _ _ _ h

theorem Er.forShl {R : σ → τ → Prop} {lo hi : Nat} {body : Nat → σ → TM σ}
    {body' : Nat → τ → M τ} {s : σ} {s' : τ} (h : R s s')
    (hb : ∀ i s s', R s s' → Er R (body i s) (body' i s')) :
    Er R (tforShl lo hi body s) (forShl lo hi body' s') := Er.for hb _ _ _ _ h

theorem Er.forShr {R : σ → τ → Prop} {hi : Nat} {body : Nat → σ → TM σ}
    {body' : Nat → τ → M τ} {s : σ} {s' : τ} (h : R s s')
    (hb : ∀ i s s', R s s' → Er R (body i s) (body' i s')) :
    Er R (tforShr hi body s) (forShr hi body' s') := Er.for hb _ _ _ _ h

theorem Er.result {x : TM (Named α)} {y : M (Array α)} (h : Er D x y) :
    x.result.map Named.data = y := by
  cases y with
  | error e => rw [show x = .error e from h]; rfl
  | ok b => obtain ⟨a, t, rfl, hR⟩ := h; exact congrArg Except.ok hR

/-! ### equal traces -/

theorem Sm.pure {R : α → β → Prop} {a : α} {b : β} (h : R a b) :
    Sm R (Pure.pure a) (Pure.pure b) := by
  rintro _ _ _ _ ⟨⟩ ⟨⟩
  exact ⟨rfl, h⟩

theorem bind_ok {x : TM α} {f : α → TM β} {b : β} {u : List Event}
    (h : (x >>= f) = .ok (b, u)) : ∃ a s t, x = .ok (a, s) ∧ f a = .ok (b, t) ∧ u = s ++ t := by
  have h : TM.bind x f = .ok (b, u) := h
  unfold TM.bind at h
  rcases x with e | ⟨a, s⟩
  · cases h
  · dsimp only at h
    rcases hf : f a with e | ⟨b', t⟩
    · rw [hf] at h; cases h
    · rw [hf] at h
      injection h with h
      injection h with h1 h2
      subst h1
      exact ⟨a, s, t, rfl, hf, h2.symm⟩

theorem Sm.bind {R : α → β → Prop} {S : γ → δ → Prop} {x : TM α} {y : TM β} {f : α → TM γ}
    {g : β → TM δ} (h : Sm R x y) (hf : ∀ a b, R a b → Sm S (f a) (g b)) :
    Sm S (x >>= f) (y >>= g) := by
  intro c u d v h1 h2
  obtain ⟨a, s, t, e1, e2, rfl⟩ := bind_ok h1
  obtain ⟨b, s', t', e3, e4, rfl⟩ := bind_ok h2
  obtain ⟨rfl, hR⟩ := h _ _ _ _ e1 e3
  obtain ⟨rfl, hS⟩ := hf _ _ hR _ _ _ _ e2 e4
  exact ⟨rfl, hS⟩

theorem lift_ok {x : M α} {a : α} {t : List Event} (h : (liftM x : TM α) = .ok (a, t)) :
    x = .ok a ∧ t = [] := by
  cases x with
  | error e => cases h
  | ok b =>
    injection h with h
    injection h with h1 h2
    exact ⟨by rw [h1], h2.symm⟩

theorem Sm.liftEq (x : M α) : Sm Eq (liftM x : TM α) (liftM x : TM α) := by
  intro a s b t h1 h2
  obtain ⟨e1, rfl⟩ := lift_ok h1
  obtain ⟨e2, rfl⟩ := lift_ok h2
  rw [e1] at e2
  injection e2 with e2
  exact ⟨rfl, e2⟩

theorem Sm.lift (x : M α) (y : M β) : Sm (fun _ _ => True) (liftM x : TM α) (liftM y : TM β) := by
  intro a s b t h1 h2
  obtain ⟨_, rfl⟩ := lift_ok h1
  obtain ⟨_, rfl⟩ := lift_ok h2
  exact ⟨rfl, trivial⟩

theorem trd_ok {A : Named α} {i : Nat} {x : α} {t : List Event} (h : trd A i = .ok (x, t)) :
    C.rd A.data i = .ok x ∧ t = [⟨A.name, i, false⟩] := by
  unfold trd at h
  split at h
  · cases h
  · next y hy =>
    injection h with h
    injection h with h1 h2
    subst h1
    exact ⟨hy, h2.symm⟩

theorem Sm.rdEq (A : Named α) (i : Nat) : Sm Eq (trd A i) (trd A i) := by
  intro a s b t h1 h2
  obtain ⟨e1, rfl⟩ := trd_ok h1
  obtain ⟨e2, rfl⟩ := trd_ok h2
  rw [e1] at e2
  injection e2 with e2
  exact ⟨rfl, e2⟩

theorem Sm.rd {A : Named α} {B : Named β} (h : N A B) (i : Nat) :
    Sm (fun _ _ => True) (trd A i) (trd B i) := by
  intro a s b t h1 h2
  obtain ⟨_, rfl⟩ := trd_ok h1
  obtain ⟨_, rfl⟩ := trd_ok h2
  unfold N at h
  exact ⟨by rw [h], trivial⟩

theorem Sm.wr {A : Named α} {B : Named β} (h : N A B) (i : Nat) (x : α) (y : β) :
    Sm N (twr A i x) (twr B i y) := by
  intro a s b t h1 h2
  unfold twr at h1 h2
  unfold N at h ⊢
  split at h1
  · cases h1
  · split at h2
    · cases h2
    · injection h1 with h1
      injection h1 with h3 h4
      injection h2 with h2
      injection h2 with h5 h6
      subst h3 h4 h5 h6
      exact ⟨by rw [h], h⟩

theorem Sm.for {R : σ → τ → Prop} {cond : Nat → Bool} {next : Nat → Nat}
    {body : Nat → σ → TM σ} {body' : Nat → τ → TM τ}
    (hb : ∀ i s s', R s s' → Sm R (body i s) (body' i s')) :
    ∀ (fuel i : Nat) (s : σ) (s' : τ), R s s' →
      Sm R (tfor cond next body fuel i s) (tfor cond next body' fuel i s') := by
  intro fuel
  induction fuel with
  | zero => intro i s s' _ _ _ _ _ h; cases h
  | succ fuel ih =>
    intro i s s' h
    unfold tfor
    split
    · exact Sm.bind (hb i s s' h) (fun a b hab => ih _ _ _ hab)
    · exact Sm.pure h

theorem Sm.forUp {R : σ → τ → Prop} {lo hi step : Nat} {body : Nat → σ → TM σ}
    {body' : Nat → τ → TM τ} {s : σ} {s' : τ} (h : R s s')
    (hb : ∀ i s s', R s s' → Sm R (body i s) (body' i s')) :
    Sm R (tforUp lo hi step body s) (tforUp lo hi step body' s') := Sm.for hb _ _ _ _ h

theorem Sm.forShl {R : σ → τ → Prop} {lo hi : Nat} {body : Nat → σ → TM σ}
    {body' : Nat → τ → TM τ} {s : σ} {s' : τ} (h : R s s')
    (hb : ∀ i s s', R s s' → Sm R (body i s) (body' i s')) :
    Sm R (tforShl lo hi body s) (tforShl lo hi body' s') := Sm.for hb _ _ _ _ h

theorem Sm.forShr {R : σ → τ → Prop} {hi : Nat} {body : Nat → σ → TM σ}
    {body' : Nat → τ → TM τ} {s : σ} {s' : τ} (h : R s s')
    (hb : ∀ i s s', R s s' → Sm R (body i s) (body' i s')) :
    Sm R (tforShr hi body s) (tforShr hi body' s') := Sm.for hb _ _ _ _ h

end Trace
