import Verif.Model.Shared

/-
Programs on a shared memory: runs with the list of the accesses, and the rules for the relation `Sim` between a
function on array values and the same function on references.
-/

namespace Shared
open C
open Trace (Event)

variable {α β γ δ σ τ : Type}

/-- A program alone in a memory, with the list of its accesses. -/
def runT (x : Prog α) (μ : Mem) : Except Err (α × Mem × List Event) :=
  match x with
  | .pure a => .ok (a, μ, [])
  | .fail e => .error e
  | .read h i k =>
    match rd (μ h) i with
    | .error e => .error e
    | .ok v =>
      match runT (k v) μ with
      | .error e => .error e
      | .ok r => .ok (r.1, r.2.1, ⟨h, i, false⟩ :: r.2.2)
  | .write h i v k =>
    match wr (μ h) i v with
    | .error e => .error e
    | .ok a =>
      match runT k (upd μ h a) with
      | .error e => .error e
      | .ok r => .ok (r.1, r.2.1, ⟨h, i, true⟩ :: r.2.2)

theorem run_eq_runT (x : Prog α) : ∀ μ : Mem,
    run x μ = match runT x μ with | .error e => .error e | .ok r => .ok (r.1, r.2.1) := by
  induction x with
  | pure a => intro μ; rfl
  | fail e => intro μ; rfl
  | read h i k ih =>
    intro μ
    unfold run runT
    cases C.rd (μ h) i with
    | error e => rfl
    | ok v =>
      dsimp only
      rw [ih v μ]
      cases runT (k v) μ <;> rfl
  | write h i v k ih =>
    intro μ
    unfold run runT
    cases C.wr (μ h) i v with
    | error e => rfl
    | ok a =>
      dsimp only
      rw [ih]
      cases runT k (upd μ h a) <;> rfl

theorem runT_bind (x : Prog α) (f : α → Prog β) : ∀ μ : Mem,
    runT (x >>= f) μ = match runT x μ with
      | .error e => .error e
      | .ok r => match runT (f r.1) r.2.1 with
        | .error e => .error e
        | .ok r' => .ok (r'.1, r'.2.1, r.2.2 ++ r'.2.2) := by
  show ∀ μ, runT (Prog.bind x f) μ = _
  induction x with
  | pure a =>
    intro μ
    show runT (f a) μ = match runT (f a) μ with
      | .error e => .error e
      | .ok r' => .ok (r'.1, r'.2.1, [] ++ r'.2.2)
    cases runT (f a) μ <;> rfl
  | fail e => intro μ; rfl
  | read h i k ih =>
    intro μ
    unfold Prog.bind
    rw [runT, runT]
    cases C.rd (μ h) i with
    | error e => rfl
    | ok v =>
      dsimp only
      rw [ih v μ]
      cases runT (k v) μ with
      | error e => rfl
      | ok r =>
        dsimp only
        cases runT (f r.1) r.2.1 <;> rfl
  | write h i v k ih =>
    intro μ
    unfold Prog.bind
    rw [runT, runT]
    cases C.wr (μ h) i v with
    | error e => rfl
    | ok a =>
      dsimp only
      rw [ih]
      cases runT k (upd μ h a) with
      | error e => rfl
      | ok r =>
        dsimp only
        cases runT (f r.1) r.2.1 <;> rfl

theorem upd_self (μ : Mem) (h : Ref) : upd μ h (μ h) = μ := by
  funext k; unfold upd; split
  · next e => rw [e]
  · rfl

theorem upd_upd (μ : Mem) (h : Ref) (a b : Array Int) : upd (upd μ h a) h b = upd μ h b := by
  funext k; unfold upd; split <;> rfl

theorem upd_at (μ : Mem) (h : Ref) (a : Array Int) : upd μ h a h = a := by
  unfold upd; rw [if_pos rfl]

theorem upd_ne (μ : Mem) {h k : Ref} (a : Array Int) (hk : k ≠ h) : upd μ h a k = μ k := by
  unfold upd; rw [if_neg hk]

theorem wr_size {a b : Array Int} {i : Nat} {x : Int} (h : wr a i x = .ok b) : b.size = a.size := by
  unfold wr at h
  split at h
  · injection h with h; rw [← h, Array.size_setIfInBounds]
  · cases h

/-- A run does not change the size of any array. -/
theorem runT_size (x : Prog α) : ∀ (μ : Mem) {r}, runT x μ = .ok r → ∀ k, (r.2.1 k).size = (μ k).size := by
  induction x with
  | pure a => intro μ r h k; unfold runT at h; injection h with h; rw [← h]
  | fail e => intro μ r h; cases h
  | read h i k ih =>
    intro μ r hr
    unfold runT at hr
    cases hv : C.rd (μ h) i with
    | error e => rw [hv] at hr; cases hr
    | ok v =>
      rw [hv] at hr
      dsimp only at hr
      cases hk : runT (k v) μ with
      | error e => rw [hk] at hr; cases hr
      | ok r' =>
        rw [hk] at hr
        injection hr with hr
        rw [← hr]
        exact ih v μ (r := r') hk
  | write h i v k ih =>
    intro μ r hr
    unfold runT at hr
    cases hv : C.wr (μ h) i v with
    | error e => rw [hv] at hr; cases hr
    | ok a =>
      rw [hv] at hr
      dsimp only at hr
      cases hk : runT k (upd μ h a) with
      | error e => rw [hk] at hr; cases hr
      | ok r' =>
        rw [hk] at hr
        injection hr with hr
        rw [← hr]
        intro l
        rw [show (r'.2.1 l).size = _ from ih _ (r := r') hk l]
        unfold upd
        split
        · next e => rw [e, wr_size hv]
        · rfl

/-- Reads in `S` and accesses in `W`. -/
def Allowed (S W : Ref → Prop) (e : Event) : Prop := (e.write = false ∧ S e.array) ∨ W e.array

/-- From the memory `μ`, the program `y` fails as the function `x` does, or both return, with results and final
memory related by `Q`; the program only reads in `S` and only reads and writes in `W`. -/
def Sim (S W : Ref → Prop) (μ : Mem) (Q : α → β → Mem → Prop) (x : M α) (y : Prog β) : Prop :=
  match x with
  | .error e => runT y μ = .error e
  | .ok a => ∃ b μ' tr, runT y μ = .ok (b, μ', tr) ∧ Q a b μ' ∧ ∀ e ∈ tr, Allowed S W e

variable {S W : Ref → Prop} {μ : Mem}

theorem Sim.pure {Q : α → β → Mem → Prop} {a : α} {b : β} (h : Q a b μ) :
    Sim S W μ Q (Pure.pure a) (Pure.pure b) := ⟨b, μ, [], rfl, h, by simp⟩

theorem Sim.bindS {Q : α → β → Mem → Prop} {R : γ → δ → Mem → Prop} {x : M α} {y : Prog β}
    {f : α → M γ} {g : β → Prog δ} (h : Sim S W μ Q x y)
    (hf : ∀ a b μ', Q a b μ' → (∀ k, (μ' k).size = (μ k).size) → Sim S W μ' R (f a) (g b)) :
    Sim S W μ R (x >>= f) (y >>= g) := by
  cases x with
  | error e =>
    show runT (y >>= g) μ = .error e
    rw [runT_bind, show runT y μ = .error e from h]
  | ok a =>
    obtain ⟨b, μ', tr, e, hQ, hA⟩ := h
    have := hf a b μ' hQ (runT_size y μ e)
    show Sim S W μ R (f a) (y >>= g)
    unfold Sim at this ⊢
    rw [runT_bind, e]
    dsimp only
    cases hfa : f a with
    | error e' =>
      rw [hfa] at this
      dsimp only at this ⊢
      rw [this]
    | ok c =>
      rw [hfa] at this
      obtain ⟨d, μ'', tr', e', hR, hA'⟩ := this
      dsimp only
      rw [e']
      refine ⟨d, μ'', tr ++ tr', rfl, hR, ?_⟩
      intro ev hev
      rcases List.mem_append.1 hev with h | h
      · exact hA ev h
      · exact hA' ev h

theorem Sim.bind {Q : α → β → Mem → Prop} {R : γ → δ → Mem → Prop} {x : M α} {y : Prog β}
    {f : α → M γ} {g : β → Prog δ} (h : Sim S W μ Q x y)
    (hf : ∀ a b μ', Q a b μ' → Sim S W μ' R (f a) (g b)) :
    Sim S W μ R (x >>= f) (y >>= g) := Sim.bindS h (fun a b μ' hQ _ => hf a b μ' hQ)

theorem Sim.mono {Q Q' : α → β → Mem → Prop} {x : M α} {y : Prog β} (h : Sim S W μ Q x y)
    (hQ : ∀ a b μ', Q a b μ' → Q' a b μ') : Sim S W μ Q' x y := by
  cases x with
  | error e => exact h
  | ok a =>
    obtain ⟨b, μ', tr, e, hq, hA⟩ := h
    exact ⟨b, μ', tr, e, hQ _ _ _ hq, hA⟩

/-- Same value, same memory. -/
abbrev Same (μ : Mem) (x y : α) (μ' : Mem) : Prop := y = x ∧ μ' = μ

theorem Sim.lift (x : M α) : Sim S W μ (Same μ) x (liftM x : Prog α) := by
  cases x with
  | error e => exact rfl
  | ok a => exact ⟨a, μ, [], rfl, ⟨rfl, rfl⟩, by simp⟩

/-- The array at `h` is `a`, the rest of the memory is `μ`. -/
abbrev Post (μ : Mem) (h : Ref) (a : Array Int) (b : Ref) (μ' : Mem) : Prop := b = h ∧ μ' = upd μ h a

/-- State with an index and an array. -/
abbrev Post2 (μ : Mem) (h : Ref) (s : Nat × Array Int) (s' : Nat × Ref) (μ' : Mem) : Prop :=
  s'.1 = s.1 ∧ s'.2 = h ∧ μ' = upd μ h s.2

theorem Sim.rdAny {h : Ref} (hA : S h ∨ W h) {v : Array Int} (e : μ h = v) (i : Nat) :
    Sim S W μ (Same μ) (rd v i) (prd h i) := by
  subst e
  unfold Sim prd
  rw [runT]
  cases hv : C.rd (μ h) i with
  | error e => rfl
  | ok v =>
    refine ⟨v, μ, [⟨h, i, false⟩], rfl, ⟨rfl, rfl⟩, ?_⟩
    intro ev hev
    rw [List.mem_singleton] at hev
    subst hev
    rcases hA with h | h
    · exact Or.inl ⟨rfl, h⟩
    · exact Or.inr h

theorem Sim.rd {h : Ref} (hW : W h) {v : Array Int} (i : Nat) :
    Sim S W (upd μ h v) (Same (upd μ h v)) (rd v i) (prd h i) :=
  Sim.rdAny (Or.inr hW) (upd_at _ _ _) i

theorem Sim.rdRo {h p : Ref} (hp : S p) (hne : p ≠ h) {v : Array Int} (i : Nat) :
    Sim S W (upd μ h v) (Same (upd μ h v)) (C.rd (μ p) i) (prd p i) :=
  Sim.rdAny (Or.inl hp) (upd_ne _ _ hne) i

theorem Sim.wr {h : Ref} (hW : W h) {v : Array Int} (i : Nat) (x : Int) :
    Sim S W (upd μ h v) (Post μ h) (wr v i x) (pwr h i x) := by
  unfold Sim pwr
  rw [runT, upd_at]
  cases hv : C.wr v i x with
  | error e => rfl
  | ok a =>
    refine ⟨h, upd μ h a, [⟨h, i, true⟩], ?_, ⟨rfl, rfl⟩, ?_⟩
    · dsimp only
      rw [runT, upd_upd]
    · intro ev hev
      rw [List.mem_singleton] at hev
      subst hev
      exact Or.inr hW

theorem Sim.ite {Q : α → β → Mem → Prop} {c : Prop} [Decidable c] {x y : M α} {x' y' : Prog β}
    (h : Sim S W μ Q x x') (h' : Sim S W μ Q y y') :
    Sim S W μ Q (if c then x else y) (if c then x' else y') := by
  split
  · exact h
  · exact h'

theorem Sim.ifLift (c : Prop) [Decidable c] (x : M α) (y : α) :
    Sim S W μ (Same μ) (if c then x else Pure.pure y) (if c then (liftM x : Prog α) else Pure.pure y) :=
  Sim.ite (Sim.lift _) (Sim.pure ⟨rfl, rfl⟩)

theorem Sim.forI {I : Nat → σ → τ → Mem → Prop} {cond : Nat → Bool} {next : Nat → Nat}
    {body : Nat → σ → M σ} {body' : Nat → τ → Prog τ} {Q : σ → τ → Mem → Prop}
    (hb : ∀ i s s' μ, cond i = true → I i s s' μ → Sim S W μ (I (next i)) (body i s) (body' i s'))
    (hQ : ∀ i s s' μ, cond i = false → I i s s' μ → Q s s' μ) :
    ∀ (fuel i : Nat) (s : σ) (s' : τ) (μ : Mem), I i s s' μ →
      Sim S W μ Q (cfor cond next body fuel i s) (pfor cond next body' fuel i s') := by
  intro fuel
  induction fuel with
  | zero => intro i s s' μ _; exact rfl
  | succ fuel ih =>
    intro i s s' μ h
    unfold pfor cfor
    by_cases hc : cond i = true
    · rw [if_pos hc, if_pos hc]
      exact Sim.bind (hb i s s' μ hc h) (fun a b μ' hab => ih _ _ _ _ hab)
    · rw [if_neg hc, if_neg hc]
      exact Sim.pure (hQ i s s' μ (by simpa using hc) h)

theorem Sim.for {I : σ → τ → Mem → Prop} {cond : Nat → Bool} {next : Nat → Nat}
    {body : Nat → σ → M σ} {body' : Nat → τ → Prog τ}
    (hb : ∀ i s s' μ, I s s' μ → Sim S W μ I (body i s) (body' i s'))
    (fuel i : Nat) (s : σ) (s' : τ) (h : I s s' μ) :
      Sim S W μ I (cfor cond next body fuel i s) (pfor cond next body' fuel i s') :=
  Sim.forI (I := fun _ => I) (fun i s s' μ _ h => hb i s s' μ h) (fun _ _ _ _ _ h => h) _ _ _ _ _ h

theorem Sim.forUp {I : σ → τ → Mem → Prop} {lo hi step : Nat} {body : Nat → σ → M σ}
    {body' : Nat → τ → Prog τ} {s : σ} {s' : τ} (h : I s s' μ)
    (hb : ∀ i s s' μ, I s s' μ → Sim S W μ I (body i s) (body' i s')) :
    Sim S W μ I (forUp lo hi step body s) (pforUp lo hi step body' s') := Sim.for hb _ _ _ _ h

theorem Sim.forShl {I : σ → τ → Mem → Prop} {lo hi : Nat} {body : Nat → σ → M σ}
    {body' : Nat → τ → Prog τ} {s : σ} {s' : τ} (h : I s s' μ)
    (hb : ∀ i s s' μ, I s s' μ → Sim S W μ I (body i s) (body' i s')) :
    Sim S W μ I (forShl lo hi body s) (pforShl lo hi body' s') := Sim.for hb _ _ _ _ h

theorem Sim.forShr {I : σ → τ → Mem → Prop} {hi : Nat} {body : Nat → σ → M σ}
    {body' : Nat → τ → Prog τ} {s : σ} {s' : τ} (h : I s s' μ)
    (hb : ∀ i s s' μ, I s s' μ → Sim S W μ I (body i s) (body' i s')) :
    Sim S W μ I (forShr hi body s) (pforShr hi body' s') := Sim.for hb _ _ _ _ h

/-- A loop whose state is the array at `h`. -/
theorem Sim.up {h : Ref} {lo hi step : Nat} {body : Nat → Array Int → M (Array Int)}
    {body' : Nat → Ref → Prog Ref} {v : Array Int}
    (hb : ∀ i v, Sim S W (upd μ h v) (Post μ h) (body i v) (body' i h)) :
    Sim S W (upd μ h v) (Post μ h) (C.forUp lo hi step body v) (pforUp lo hi step body' h) :=
  Sim.forUp ⟨rfl, rfl⟩ (by rintro i v b μ' ⟨rfl, rfl⟩; exact hb i v)

theorem Sim.shl {h : Ref} {lo hi : Nat} {body : Nat → Array Int → M (Array Int)}
    {body' : Nat → Ref → Prog Ref} {v : Array Int}
    (hb : ∀ i v, Sim S W (upd μ h v) (Post μ h) (body i v) (body' i h)) :
    Sim S W (upd μ h v) (Post μ h) (C.forShl lo hi body v) (pforShl lo hi body' h) :=
  Sim.forShl ⟨rfl, rfl⟩ (by rintro i v b μ' ⟨rfl, rfl⟩; exact hb i v)

theorem Sim.shr {h : Ref} {hi : Nat} {body : Nat → Array Int → M (Array Int)}
    {body' : Nat → Ref → Prog Ref} {v : Array Int}
    (hb : ∀ i v, Sim S W (upd μ h v) (Post μ h) (body i v) (body' i h)) :
    Sim S W (upd μ h v) (Post μ h) (C.forShr hi body v) (pforShr hi body' h) :=
  Sim.forShr ⟨rfl, rfl⟩ (by rintro i v b μ' ⟨rfl, rfl⟩; exact hb i v)

/-- A loop whose state is an index and the array at `h`, of which the array is returned. -/
theorem Sim.up2 {h : Ref} {lo hi step u : Nat} {body : Nat → Nat × Array Int → M (Nat × Array Int)}
    {body' : Nat → Nat × Ref → Prog (Nat × Ref)} {v : Array Int}
    (hb : ∀ i u v, Sim S W (upd μ h v) (Post2 μ h) (body i (u, v)) (body' i (u, h))) :
    Sim S W (upd μ h v) (Post μ h) (do let r ← C.forUp lo hi step body (u, v); Pure.pure r.2)
      (do let r ← pforUp lo hi step body' (u, h); Pure.pure r.2) := by
  refine Sim.bind (Q := Post2 μ h) (Sim.forUp ⟨rfl, rfl, rfl⟩ ?_) ?_
  · rintro i ⟨u, v⟩ ⟨u', b⟩ μ' ⟨e1, e2, e3⟩
    dsimp only at e1 e2 e3
    subst e1 e2 e3
    exact hb i _ v
  · rintro ⟨u, v⟩ ⟨u', b⟩ μ' ⟨e1, e2, e3⟩
    exact Sim.pure ⟨e2, e3⟩

theorem Sim.shl2 {h : Ref} {lo hi u : Nat} {body : Nat → Nat × Array Int → M (Nat × Array Int)}
    {body' : Nat → Nat × Ref → Prog (Nat × Ref)} {v : Array Int}
    (hb : ∀ i u v, Sim S W (upd μ h v) (Post2 μ h) (body i (u, v)) (body' i (u, h))) :
    Sim S W (upd μ h v) (Post μ h) (do let r ← C.forShl lo hi body (u, v); Pure.pure r.2)
      (do let r ← pforShl lo hi body' (u, h); Pure.pure r.2) := by
  refine Sim.bind (Q := Post2 μ h) (Sim.forShl ⟨rfl, rfl, rfl⟩ ?_) ?_
  · rintro i ⟨u, v⟩ ⟨u', b⟩ μ' ⟨e1, e2, e3⟩
    dsimp only at e1 e2 e3
    subst e1 e2 e3
    exact hb i _ v
  · rintro ⟨u, v⟩ ⟨u', b⟩ μ' ⟨e1, e2, e3⟩
    exact Sim.pure ⟨e2, e3⟩

/-- Bind for steps that leave the array at `h`. -/
theorem Sim.next {h : Ref} {v : Array Int} {R : γ → δ → Mem → Prop} {x : M (Array Int)} {y : Prog Ref}
    {f : Array Int → M γ} {g : Ref → Prog δ} (hx : Sim S W (upd μ h v) (Post μ h) x y)
    (hf : ∀ v, Sim S W (upd μ h v) R (f v) (g h)) :
    Sim S W (upd μ h v) R (x >>= f) (y >>= g) :=
  Sim.bind hx (by rintro v b μ' ⟨rfl, rfl⟩; exact hf v)

/-- Bind for steps that return a value and do not change the memory. -/
theorem Sim.val {R : γ → δ → Mem → Prop} {x : M α} {y : Prog α}
    {f : α → M γ} {g : α → Prog δ} (hx : Sim S W μ (Same μ) x y)
    (hf : ∀ v, Sim S W μ R (f v) (g v)) : Sim S W μ R (x >>= f) (y >>= g) :=
  Sim.bind hx (by rintro v b μ' ⟨rfl, rfl⟩; exact hf _)

/-- Bind for steps of a product: the array at `h` is updated. -/
theorem Sim.call {h : Ref} {v : Array Int} {R : γ → δ → Mem → Prop} {x : M (Array Int)} {y : Prog Ref}
    {f : Array Int → M γ} {g : Ref → Prog δ} (e : μ h = v) (hx : Sim S W (upd μ h v) (Post μ h) x y)
    (hf : ∀ v, v.size = (μ h).size → Sim S W (upd μ h v) R (f v) (g h)) :
    Sim S W μ R (x >>= f) (y >>= g) := by
  subst e
  rw [upd_self] at hx
  refine Sim.bindS hx ?_
  rintro v b μ' ⟨rfl, rfl⟩ hs
  refine hf v ?_
  have := hs b
  rwa [upd_at] at this

end Shared
