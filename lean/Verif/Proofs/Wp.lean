import Verif.CSem

/-
A small Hoare logic for the monad `C.M`.

`Wp E m P`: the run `m` either returns a value satisfying `P` or stops with an error
satisfying `E`.  With `E = fun _ => False` this is total correctness.
-/

namespace C

/-- Weakest precondition with a set `E` of tolerated errors. -/
def Wp {α : Type} (E : Err → Prop) (m : M α) (P : α → Prop) : Prop :=
  match m with
  | .ok a => P a
  | .error e => E e

/-- No error is tolerated. -/
abbrev NoErr : Err → Prop := fun _ => False

theorem wp_total {α : Type} {m : M α} {P : α → Prop} :
    Wp NoErr m P ↔ ∃ a, m = .ok a ∧ P a := by
  unfold Wp
  cases m with
  | ok a => simp
  | error e => simp

@[simp] theorem wp_ok {α : Type} {E : Err → Prop} {a : α} {P : α → Prop} :
    Wp E (.ok a) P ↔ P a := Iff.rfl

@[simp] theorem wp_pure {α : Type} {E : Err → Prop} {a : α} {P : α → Prop} :
    Wp E (pure a) P ↔ P a := Iff.rfl

@[simp] theorem wp_error {α : Type} {E : Err → Prop} {e : Err} {P : α → Prop} :
    Wp E (.error e : M α) P ↔ E e := Iff.rfl

@[simp] theorem wp_bind {α β : Type} {E : Err → Prop} {m : M α} {f : α → M β} {P : β → Prop} :
    Wp E (m >>= f) P ↔ Wp E m (fun a => Wp E (f a) P) := by
  cases m <;> rfl

theorem Wp.mono {α : Type} {E : Err → Prop} {m : M α} {P Q : α → Prop}
    (h : Wp E m P) (hpq : ∀ a, P a → Q a) : Wp E m Q := by
  cases m with
  | ok a => exact hpq a h
  | error e => exact h

theorem wp_i32 {E : Err → Prop} {x : Int} {P : Int → Prop} (hx : I32 x) (h : P x) :
    Wp E (i32 x) P := by
  simp [i32, hx, h]

theorem wp_i64 {E : Err → Prop} {x : Int} {P : Int → Prop} (hx : I64 x) (h : P x) :
    Wp E (i64 x) P := by
  simp [i64, hx, h]

/-- `i32` when overflow is tolerated. -/
theorem wp_i32_tol {E : Err → Prop} {x : Int} {P : Int → Prop} (hE : E .overflow) (h : P x) :
    Wp E (i32 x) P := by
  unfold i32; split <;> simp [h, hE]

theorem wp_rd {α : Type} {E : Err → Prop} {a : Array α} {i : Nat} {P : α → Prop}
    (hi : i < a.size) (h : ∀ x, a[i]? = some x → P x) : Wp E (rd a i) P := by
  have : a[i]? = some a[i] := Array.getElem?_eq_getElem hi
  simp only [rd, this]
  exact h _ this

theorem wp_rd_some {α : Type} {E : Err → Prop} {a : Array α} {i : Nat} {x : α} {P : α → Prop}
    (hx : a[i]? = some x) (h : P x) : Wp E (rd a i) P := by
  simp only [rd, hx]; exact h

theorem wp_wr {α : Type} {E : Err → Prop} {a : Array α} {i : Nat} {x : α} {P : Array α → Prop}
    (hi : i < a.size) (h : P (a.setIfInBounds i x)) : Wp E (wr a i x) P := by
  simp [wr, hi, h]

theorem wp_cassert {E : Err → Prop} {b : Bool} {P : Unit → Prop}
    (hb : b = true) (h : P ()) : Wp E (cassert b) P := by
  simp [cassert, hb, h]

/-- General loop rule: `I i s` is the invariant at the test of the loop condition, `μ` a measure. -/
theorem wp_cfor {σ : Type} {E : Err → Prop} {cond : Nat → Bool} {next : Nat → Nat}
    {body : Nat → σ → M σ} (I : Nat → σ → Prop) (μ : Nat → Nat)
    (step : ∀ i s, I i s → cond i = true →
      μ (next i) < μ i ∧ Wp E (body i s) (fun s' => I (next i) s'))
    {P : σ → Prop} (done : ∀ i s, I i s → cond i = false → P s) :
    ∀ fuel i s, μ i < fuel → I i s → Wp E (cfor cond next body fuel i s) P := by
  intro fuel
  induction fuel with
  | zero => intro i s h; omega
  | succ f ih =>
    intro i s hμ hI
    unfold cfor
    by_cases hc : cond i = true
    · simp only [hc, if_true, wp_bind]
      obtain ⟨h1, h2⟩ := step i s hI hc
      refine h2.mono ?_
      intro s' hs'
      exact ih _ _ (by omega) hs'
    · simp only [Bool.not_eq_true] at hc
      simp only [hc, Bool.false_eq_true, if_false, wp_ok]
      exact done i s hI hc

/-- Rule for `for (i = lo; i < hi; i += step)`: the counter does not wrap when `hi + step ≤ 2^32`. -/
theorem wp_forUp {σ : Type} {E : Err → Prop} {lo hi step : Nat} {body : Nat → σ → M σ} {s : σ}
    (I : Nat → σ → Prop) (hstep : 0 < step) (hw : hi + step ≤ 4294967296)
    (h0 : I lo s)
    (hbody : ∀ i s, lo ≤ i → i < hi → I i s → Wp E (body i s) (fun s' => I (i + step) s'))
    {P : σ → Prop} (hdone : ∀ i s, lo ≤ i → hi ≤ i → I i s → P s) :
    Wp E (forUp lo hi step body s) P := by
  unfold forUp
  refine wp_cfor (fun i s => lo ≤ i ∧ I i s) (fun i => hi - i) ?_ ?_ _ _ _ (by omega) ⟨Nat.le_refl _, h0⟩
  · intro i s ⟨hl, hI⟩ hc
    simp only [decide_eq_true_eq] at hc
    have hu : u32 (i + step) = i + step := by unfold u32; omega
    rw [hu]
    refine ⟨by omega, ?_⟩
    refine (hbody i s hl hc hI).mono ?_
    intro s' hs'
    exact ⟨by omega, hs'⟩
  · intro i s ⟨hl, hI⟩ hc
    simp only [decide_eq_false_iff_not, Nat.not_lt] at hc
    exact hdone i s hl hc hI

/-- Unit-step version: the invariant holds at `i = max lo hi` at the end. -/
theorem wp_forUp1 {σ : Type} {E : Err → Prop} {lo hi : Nat} {body : Nat → σ → M σ} {s : σ}
    (I : Nat → σ → Prop) (hw : hi < 4294967296) (hlo : lo ≤ hi)
    (h0 : I lo s)
    (hbody : ∀ i s, lo ≤ i → i < hi → I i s → Wp E (body i s) (fun s' => I (i + 1) s'))
    {P : σ → Prop} (hdone : ∀ s, I hi s → P s) :
    Wp E (forUp lo hi 1 body s) P := by
  refine wp_forUp (fun i s => i ≤ hi ∧ I i s) (by omega) (by omega) ⟨hlo, h0⟩ ?_ ?_
  · intro i s hl hi' ⟨_, hI⟩
    exact (hbody i s hl hi' hI).mono fun s' hs' => ⟨by omega, hs'⟩
  · intro i s _ hge ⟨hle, hI⟩
    have : i = hi := by omega
    subst this
    exact hdone s hI

/-- Rule for `for (t = 1; t < 2^k; t <<= 1)`: the invariant is indexed by the round number. -/
theorem wp_forShl {σ : Type} {E : Err → Prop} {k : Nat} {body : Nat → σ → M σ} {s : σ}
    (I : Nat → σ → Prop) (hk : k ≤ 31) (h0 : I 0 s)
    (hbody : ∀ m s, m < k → I m s → Wp E (body (2 ^ m) s) (fun s' => I (m + 1) s'))
    {P : σ → Prop} (hdone : ∀ s, I k s → P s) :
    Wp E (forShl 1 (2 ^ k) body s) P := by
  unfold forShl
  refine wp_cfor (fun t s => ∃ m, m ≤ k ∧ t = 2 ^ m ∧ I m s) (fun t => 33 - Nat.log2 t) ?_ ?_ _ _ _ ?_
    ⟨0, by omega, rfl, h0⟩
  · rintro t s ⟨m, hm, rfl, hI⟩ hc
    simp only [decide_eq_true_eq] at hc
    have hmk : m < k := (Nat.pow_lt_pow_iff_right (by omega)).1 hc
    have hp : 2 ^ (m + 1) ≤ 2 ^ 31 := Nat.pow_le_pow_right (by omega) (by omega)
    have hu : u32 (2 * 2 ^ m) = 2 ^ (m + 1) := by
      unfold u32; rw [Nat.pow_succ] at *; omega
    rw [hu]
    refine ⟨?_, ?_⟩
    · show 33 - Nat.log2 (2 ^ (m + 1)) < 33 - Nat.log2 (2 ^ m)
      rw [Nat.log2_two_pow, Nat.log2_two_pow]; omega
    · exact (hbody m s hmk hI).mono fun s' hs' => ⟨m + 1, by omega, rfl, hs'⟩
  · rintro t s ⟨m, hm, rfl, hI⟩ hc
    simp only [decide_eq_false_iff_not, Nat.not_lt] at hc
    have : k ≤ m := (Nat.pow_le_pow_iff_right (by omega)).1 hc
    have : m = k := by omega
    subst this
    exact hdone s hI
  · show 33 - Nat.log2 1 < 34
    omega

/-- Rule for `for (t = 2^k >> 1; t > 0; t >>= 1)`: at the `m`-th test, `t = 2^(k-m) >> 1`. -/
theorem wp_forShr {σ : Type} {E : Err → Prop} {k : Nat} {body : Nat → σ → M σ} {s : σ}
    (I : Nat → σ → Prop) (hk : k ≤ 31) (h0 : I 0 s)
    (hbody : ∀ m s, m < k → I m s → Wp E (body (2 ^ (k - 1 - m)) s) (fun s' => I (m + 1) s'))
    {P : σ → Prop} (hdone : ∀ s, I k s → P s) :
    Wp E (forShr (2 ^ k / 2) body s) P := by
  unfold forShr
  refine wp_cfor (fun t s => ∃ m, m ≤ k ∧ t = 2 ^ (k - m) / 2 ∧ I m s) (fun t => t.log2 + (if t = 0 then 0 else 1)) ?_ ?_ _ _ _ ?_
    ⟨0, by omega, rfl, h0⟩
  · rintro t s ⟨m, hm, rfl, hI⟩ hc
    simp only [decide_eq_true_eq] at hc
    have hmk : m < k := by
      rcases Nat.lt_or_ge m k with h | h
      · exact h
      · have : k - m = 0 := by omega
        simp [this] at hc
    have e1 : 2 ^ (k - m) / 2 = 2 ^ (k - 1 - m) := by
      have : k - m = (k - 1 - m) + 1 := by omega
      rw [this, Nat.pow_succ]; omega
    have e2 : 2 ^ (k - m) / 2 / 2 = 2 ^ (k - (m + 1)) / 2 := by
      rw [e1]; congr 2; omega
    refine ⟨?_, ?_⟩
    · rw [e1]
      have hpos : 0 < 2 ^ (k - 1 - m) := Nat.two_pow_pos _
      rcases Nat.eq_zero_or_pos (k - 1 - m) with h | h
      · rw [h]; decide
      · have e3 : 2 ^ (k - 1 - m) / 2 = 2 ^ (k - 1 - m - 1) := by
          have : k - 1 - m = (k - 1 - m - 1) + 1 := by omega
          rw [this, Nat.pow_succ]; simp
        have hpos' : 0 < 2 ^ (k - 1 - m - 1) := Nat.two_pow_pos _
        rw [e3, Nat.log2_two_pow, Nat.log2_two_pow, if_neg (by omega), if_neg (by omega)]
        omega
    · rw [e1]
      refine (hbody m s hmk hI).mono fun s' hs' => ⟨m + 1, by omega, ?_, hs'⟩
      rw [← e1, e2]
  · rintro t s ⟨m, hm, rfl, hI⟩ hc
    simp only [decide_eq_false_iff_not, Nat.not_lt] at hc
    have : m = k := by
      rcases Nat.lt_or_ge m k with h | h
      · exfalso
        have : k - m = (k - m - 1) + 1 := by omega
        rw [this, Nat.pow_succ] at hc
        have := Nat.two_pow_pos (k - m - 1)
        omega
      · omega
    subst this
    exact hdone s hI
  · have : 2 ^ k / 2 < 2 ^ 32 := by
      have := Nat.pow_le_pow_right (n := 2) (by omega) hk
      omega
    rcases Nat.eq_zero_or_pos (2 ^ k / 2) with h | h
    · rw [h]; decide
    · have := (Nat.log2_lt (by omega)).2 this
      rw [if_neg (by omega)]; omega

theorem wp_cwhile {σ : Type} {E : Err → Prop} {cond : σ → Bool} {body : σ → M σ}
    (I : σ → Prop) (μ : σ → Nat)
    (step : ∀ s, I s → cond s = true → Wp E (body s) (fun s' => I s' ∧ μ s' < μ s))
    {P : σ → Prop} (done : ∀ s, I s → cond s = false → P s) :
    ∀ fuel s, μ s < fuel → I s → Wp E (cwhile cond body fuel s) P := by
  intro fuel
  induction fuel with
  | zero => intro s h; omega
  | succ f ih =>
    intro s hμ hI
    unfold cwhile
    by_cases hc : cond s = true
    · simp only [hc, if_true, wp_bind]
      refine (step s hI hc).mono ?_
      intro s' hs'
      exact ih _ (by omega) hs'.1
    · simp only [Bool.not_eq_true] at hc
      simp only [hc, Bool.false_eq_true, if_false, wp_ok]
      exact done s hI hc

attribute [irreducible] Wp

end C
