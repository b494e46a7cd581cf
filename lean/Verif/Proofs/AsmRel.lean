import Verif.Model.AsmPoly

/-
Logical relations between two choices of the operations of `Verif/TraceAsm.lean`, and the two used:
a traced run against the plain run, and two traced runs on different data.
-/

namespace AsmPoly
open C Avx TraceAsm
open Trace (Named)

/-- Data: equal when `b`, arbitrary otherwise. -/
def RE (b : Bool) {α : Type} (x y : α) : Prop := b = true → x = y

/-- Loop states: related arrays and the same registers. -/
def RS {A A' G : Type} (R : A → A' → Prop) (s : A × G) (s' : A' × G) : Prop := R s.1 s'.1 ∧ s.2 = s'.2

/-- Results of a loop body. -/
def RSB {A A' G : Type} (R : A → A' → Prop) (s : (A × G) × Bool) (s' : (A' × G) × Bool) : Prop :=
  RS R s.1 s'.1 ∧ s.2 = s'.2

structure LR {m m' : Type → Type} [Monad m] [Monad m'] {A A' : Type} (O : Ops m A) (O' : Ops m' A') where
  b : Bool
  RA : A → A' → Prop
  Rel : {α β : Type} → (α → β → Prop) → m α → m' β → Prop
  pure : ∀ {α β : Type} {R : α → β → Prop} {x y}, R x y → Rel R (Pure.pure x) (Pure.pure y)
  bind : ∀ {α β γ δ : Type} {R : α → β → Prop} {S : γ → δ → Prop} {x y} {f : α → m γ} {g : β → m' δ},
    Rel R x y → (∀ a b, R a b → Rel S (f a) (g b)) → Rel S (x >>= f) (y >>= g)
  load : ∀ {a a'}, RA a a' → ∀ r, Rel (RE b) (O.load a r) (O'.load a' r)
  load_sxdq : ∀ {a a'}, RA a a' → ∀ r, Rel (RE b) (O.load_sxdq a r) (O'.load_sxdq a' r)
  load_sxwd : ∀ {a a'}, RA a a' → ∀ r, Rel (RE b) (O.load_sxwd a r) (O'.load_sxwd a' r)
  load_sxwq : ∀ {a a'}, RA a a' → ∀ r, Rel (RE b) (O.load_sxwq a r) (O'.load_sxwq a' r)
  load_sxwq128 : ∀ {a a'}, RA a a' → ∀ r, Rel (RE b) (O.load_sxwq128 a r) (O'.load_sxwq128 a' r)
  load_bdcstw : ∀ {a a'}, RA a a' → ∀ r, Rel (RE b) (O.load_bdcstw a r) (O'.load_bdcstw a' r)
  store : ∀ {a a'}, RA a a' → ∀ r {v v'}, RE b v v' → Rel RA (O.store a r v) (O'.store a' r v')
  store128 : ∀ {a a'}, RA a a' → ∀ r {v v'}, RE b v v' → Rel RA (O.store128 a r v) (O'.store128 a' r v')
  jloop : ∀ {σ σ' : Type} {R : σ → σ' → Prop} {f : σ → m (σ × Bool)} {g : σ' → m' (σ' × Bool)},
    (∀ s s', R s s' → Rel (fun x y => R x.1 y.1 ∧ x.2 = y.2) (f s) (g s')) →
    ∀ fuel s s', R s s' → Rel R (O.jloop f fuel s) (O'.jloop g fuel s')
  branch : ∀ {α β : Type} {R : α → β → Prop} (c : Prop) [Decidable c] {x y x' y'},
    Rel R x x' → Rel R y y' → Rel R (O.branch c x y) (O'.branch c x' y')

/-! ### A traced run and the plain run: same error or related results -/

/-- Same error or related results. -/
def ErP {α β : Type} (R : α → β → Prop) (x : TM α) (y : M β) : Prop :=
  match x, y with
  | .ok (a, _), .ok b => R a b
  | .error e, .error e' => e = e'
  | _, _ => False

theorem ErP.bind {α β γ δ : Type} {R : α → β → Prop} {S : γ → δ → Prop} {x : TM α} {y : M β}
    {f : α → TM γ} {g : β → M δ} (h : ErP R x y) (hf : ∀ a b, R a b → ErP S (f a) (g b)) :
    ErP S (x >>= f) (y >>= g) := by
  show ErP S (TM.bind x f) (Except.bind y g)
  cases x with
  | error e =>
    cases y with
    | error e' => exact h
    | ok b => exact h.elim
  | ok p =>
    obtain ⟨a, s⟩ := p
    cases y with
    | error e' => exact h.elim
    | ok b =>
      have h2 := hf a b h
      show ErP S (TM.bind (.ok (a, s)) f) (g b)
      unfold TM.bind
      dsimp only
      revert h2
      cases f a with
      | error e => exact fun h => h
      | ok p =>
        cases g b with
        | error e => exact fun h => h
        | ok q => exact fun h => h

theorem erP_read (f : Array Int → Nat → M V8) (bytes : Nat) (a : Named Int) (a' : Array Int)
    (h : a.data = a') (r : Nat) : ErP (RE true) (tread f bytes a r) (f a' r) := by
  subst h
  unfold tread TM.emit
  cases f a.data r with
  | error e => exact rfl
  | ok v => exact fun _ => rfl

theorem erP_write (f : Array Int → Nat → V8 → M (Array Int)) (bytes : Nat) (a : Named Int) (a' : Array Int)
    (h : a.data = a') (r : Nat) (v v' : V8) (hv : RE true v v') :
    ErP (fun a a' => a.data = a') (twrite f bytes a r v) (f a' r v') := by
  subst h
  obtain rfl := hv rfl
  unfold twrite TM.emit
  cases f a.data r v with
  | error e => exact rfl
  | ok v => exact rfl

theorem erP_jloop {σ σ' : Type} {R : σ → σ' → Prop} {f : σ → TM (σ × Bool)} {g : σ' → M (σ' × Bool)}
    (h : ∀ s s', R s s' → ErP (fun x y => R x.1 y.1 ∧ x.2 = y.2) (f s) (g s')) :
    ∀ fuel s s', R s s' → ErP R (tjloop f fuel s) (Avx.jloop g fuel s') := by
  intro fuel
  induction fuel with
  | zero => intro s s' _; exact rfl
  | succ k ih =>
    intro s s' hs
    unfold tjloop Avx.jloop
    refine ErP.bind (h s s' hs) ?_
    rintro ⟨x, c⟩ ⟨y, c'⟩ ⟨hx, hc⟩
    obtain rfl : c = c' := hc
    have hj : ErP (fun (_ : Unit) (_ : Unit) => True) (tjump c) (Pure.pure ()) := trivial
    refine ErP.bind (y := Pure.pure ()) (g := fun _ => if c = true then Avx.jloop g k y else Pure.pure y) hj ?_
    intro _ _ _
    cases c with
    | false => exact hx
    | true => exact ih x y hx

/-- Traced against plain. -/
def erL : LR traced plain where
  b := true
  RA := fun a a' => a.data = a'
  Rel := ErP
  pure := fun h => h
  bind := ErP.bind
  load := fun h r => erP_read _ _ _ _ h r
  load_sxdq := fun h r => erP_read _ _ _ _ h r
  load_sxwd := fun h r => erP_read _ _ _ _ h r
  load_sxwq := fun h r => erP_read _ _ _ _ h r
  load_sxwq128 := fun h r => erP_read _ _ _ _ h r
  load_bdcstw := fun h r => erP_read _ _ _ _ h r
  store := fun h r _ _ hv => erP_write _ _ _ _ h r _ _ hv
  store128 := fun h r _ _ hv => erP_write _ _ _ _ h r _ _ hv
  jloop := erP_jloop
  branch := by
    intro α β R c _ x y x' y' h h'
    have hj : ErP (fun (_ : Unit) (_ : Unit) => True) (tjump (decide c)) (Pure.pure ()) := trivial
    refine ErP.bind (y := Pure.pure ()) (g := fun _ => if c then x' else y') hj ?_
    intro _ _ _
    by_cases hc : c
    · rw [if_pos hc, if_pos hc]; exact h
    · rw [if_neg hc, if_neg hc]; exact h'

/-! ### Two traced runs: same trace and related results, if both return -/

/-- If both return, they have the same trace and related results. -/
def SmP {α β : Type} (R : α → β → Prop) (x : TM α) (y : TM β) : Prop :=
  match x, y with
  | .ok (a, t), .ok (b, t') => t = t' ∧ R a b
  | _, _ => True

theorem SmP.bind {α β γ δ : Type} {R : α → β → Prop} {S : γ → δ → Prop} {x : TM α} {y : TM β}
    {f : α → TM γ} {g : β → TM δ} (h : SmP R x y) (hf : ∀ a b, R a b → SmP S (f a) (g b)) :
    SmP S (x >>= f) (y >>= g) := by
  show SmP S (TM.bind x f) (TM.bind y g)
  cases x with
  | error e => exact trivial
  | ok p =>
    obtain ⟨a, s⟩ := p
    cases y with
    | error e' => unfold TM.bind SmP; split <;> simp_all
    | ok p' =>
      obtain ⟨b, s'⟩ := p'
      obtain ⟨hs, hab⟩ := h
      have h2 := hf a b hab
      unfold TM.bind
      revert h2
      dsimp only
      cases f a with
      | error e => exact fun _ => trivial
      | ok q =>
        cases g b with
        | error e => exact fun _ => trivial
        | ok q' =>
          rintro ⟨ht, hr⟩
          exact ⟨by rw [hs, ht], hr⟩

theorem smP_read (f : Array Int → Nat → M V8) (bytes : Nat) (a a' : Named Int) (h : a.name = a'.name) (r : Nat) :
    SmP (RE false) (tread f bytes a r) (tread f bytes a' r) := by
  unfold tread TM.emit
  rw [h]
  cases f a.data r with
  | error e => exact trivial
  | ok v =>
    cases f a'.data r with
    | error e => exact trivial
    | ok v' => exact ⟨rfl, fun h => nomatch h⟩

theorem smP_write (f : Array Int → Nat → V8 → M (Array Int)) (bytes : Nat) (a a' : Named Int)
    (h : a.name = a'.name) (r : Nat) (v v' : V8) :
    SmP (fun a a' => a.name = a'.name) (twrite f bytes a r v) (twrite f bytes a' r v') := by
  unfold twrite TM.emit
  rw [h]
  cases f a.data r v with
  | error e => exact trivial
  | ok v =>
    cases f a'.data r v' with
    | error e => exact trivial
    | ok v' => exact ⟨rfl, rfl⟩

theorem smP_jloop {σ σ' : Type} {R : σ → σ' → Prop} {f : σ → TM (σ × Bool)} {g : σ' → TM (σ' × Bool)}
    (h : ∀ s s', R s s' → SmP (fun x y => R x.1 y.1 ∧ x.2 = y.2) (f s) (g s')) :
    ∀ fuel s s', R s s' → SmP R (tjloop f fuel s) (tjloop g fuel s') := by
  intro fuel
  induction fuel with
  | zero => intro s s' _; exact trivial
  | succ k ih =>
    intro s s' hs
    unfold tjloop
    refine SmP.bind (h s s' hs) ?_
    rintro ⟨x, c⟩ ⟨y, c'⟩ ⟨hx, hc⟩
    obtain rfl : c = c' := hc
    refine SmP.bind (R := fun _ _ => True) (show SmP _ (tjump c) (tjump c) from ⟨rfl, trivial⟩) ?_
    intro _ _ _
    cases c with
    | false => exact ⟨rfl, hx⟩
    | true => exact ih x y hx

/-- Two traced runs on arrays of the same names. -/
def smL : LR traced traced where
  b := false
  RA := fun a a' => a.name = a'.name
  Rel := SmP
  pure := fun h => ⟨rfl, h⟩
  bind := SmP.bind
  load := fun h r => smP_read _ _ _ _ h r
  load_sxdq := fun h r => smP_read _ _ _ _ h r
  load_sxwd := fun h r => smP_read _ _ _ _ h r
  load_sxwq := fun h r => smP_read _ _ _ _ h r
  load_sxwq128 := fun h r => smP_read _ _ _ _ h r
  load_bdcstw := fun h r => smP_read _ _ _ _ h r
  store := fun h r _ _ _ => smP_write _ _ _ _ h r _ _
  store128 := fun h r _ _ _ => smP_write _ _ _ _ h r _ _
  jloop := smP_jloop
  branch := by
    intro α β R c _ x y x' y' h h'
    refine SmP.bind (R := fun _ _ => True)
      (show SmP _ (tjump (decide c)) (tjump (decide c)) from ⟨rfl, trivial⟩) ?_
    intro _ _ _
    by_cases hc : c
    · rw [if_pos hc, if_pos hc]; exact h
    · rw [if_neg hc, if_neg hc]; exact h'

end AsmPoly
