import Verif.Proofs.Crab

/-
C34: the transfer function for the reduction in the Crab interval domain.

`Describes D σ` says that the concrete state `σ` is described by the abstract state `D`, `assign σ y x`
is the state in which the variable `y` has got the value `x`.
-/

namespace Props
open Spec Crab

variable {V : Type} [DecidableEq V]

/-- Soundness: whatever the abstract state `D` and the concrete state `σ` it describes, the result for
`y = red(x)` describes the concrete state after the assignment.  `x` and `y` may be the same variable. -/
theorem C34_sound (D : Domain V) (x y : V) :
    ∃ D', intrinsic "red" [.var x] [y] D = .ok D' ∧
      ∀ σ, Describes D σ → Describes D' (assign σ y (Spec.red (σ x))) := by
  cases D with
  | none => exact ⟨none, rfl, fun σ ⟨E, h, _⟩ => by cases h⟩
  | some E =>
    by_cases hx : ∃ a b, E x = .mk (.num a) (.num b)
    · obtain ⟨a, b, hx⟩ := hx
      by_cases hab : a ≤ b
      · obtain ⟨l, u, e, hl, hu⟩ := intrinsic_finite E x y a b hab hx
        refine ⟨_, e, fun σ ⟨E', h, hσ⟩ => ⟨_, rfl, fun z => ?_⟩⟩
        injection h with h
        subst h
        have hr := hσ x
        rw [hx] at hr
        unfold assign
        split
        · exact ⟨hl.2 ⟨_, hr.1, hr.2, rfl⟩, hu.2 ⟨_, hr.1, hr.2, rfl⟩⟩
        · exact hσ z
      · have hne : ∀ D' : Domain V, ∀ σ, Describes (some E) σ →
            Describes D' (assign σ y (Spec.red (σ x))) := by
          rintro D' σ ⟨E', h, hσ⟩
          injection h with h
          subst h
          have hr := hσ x
          rw [hx] at hr
          exact absurd (Int.le_trans hr.1 hr.2) hab
        unfold intrinsic
        simp only [decide_true, hx, Interval.lb, Interval.ub, Bound.number]
        exact ⟨_, rfl, hne _⟩
    · refine ⟨_, intrinsic_infinite E x y (fun a b h => hx ⟨a, b, h⟩),
        fun σ ⟨E', h, hσ⟩ => ⟨_, rfl, fun z => ?_⟩⟩
      injection h with h
      subst h
      unfold assign
      split
      · exact ⟨trivial, trivial⟩
      · exact hσ z

/-- Optimality: the interval computed for `[a, b]` runs from the minimum to the maximum of `red` over
`[a, b]`; the intervals of the other variables do not change. -/
theorem C34_optimal_interval (E : V → Interval) (x y : V) (a b : Int) (h : a ≤ b)
    (hx : E x = .mk (.num a) (.num b)) :
    ∃ l u E', intrinsic "red" [.var x] [y] (some E) = .ok (some E') ∧
      E' y = .mk (.num l) (.num u) ∧ (∀ z, z ≠ y → E' z = E z) ∧
      IsLeast {v | ∃ x, a ≤ x ∧ x ≤ b ∧ v = Spec.red x} l ∧
      IsGreatest {v | ∃ x, a ≤ x ∧ x ≤ b ∧ v = Spec.red x} u := by
  obtain ⟨l, u, e, hl, hu⟩ := intrinsic_finite E x y a b h hx
  exact ⟨l, u, _, e, if_pos rfl, fun z hz => if_neg hz, hl, hu⟩

/-- Optimality in the domain: when `x` is bounded, every abstract state that describes all states
after the assignment describes at least as many states as the computed one. -/
theorem C34_optimal (E : V → Interval) (x y : V) (a b : Int)
    (hx : E x = .mk (.num a) (.num b)) (hne : ∃ σ, Describes (some E) σ) (D'' : Domain V)
    (hs : ∀ σ, Describes (some E) σ → Describes D'' (assign σ y (Spec.red (σ x)))) :
    ∃ D', intrinsic "red" [.var x] [y] (some E) = .ok D' ∧ ∀ σ, Describes D' σ → Describes D'' σ := by
  obtain ⟨σ0, E0, h0, hσ0⟩ := hne
  injection h0 with h0
  subst h0
  have h0x := hσ0 x
  rw [hx] at h0x
  obtain ⟨l, u, e, ⟨⟨xl, hl1, hl2, rfl⟩, _⟩, ⟨⟨xu, hu1, hu2, rfl⟩, _⟩⟩ :=
    intrinsic_finite E x y a b (Int.le_trans h0x.1 h0x.2) hx
  refine ⟨_, e, ?_⟩
  rintro σ ⟨E', he, hσ⟩
  injection he with he
  subst he
  -- replacing the value of one variable of `σ0` by another one of its interval
  have hup : ∀ z v, InInterval (E z) v → Describes (some E) (assign σ0 z v) := by
    refine fun z v hv => ⟨E, rfl, fun w => ?_⟩
    unfold assign
    split
    · next hw => rw [hw]; exact hv
    · exact hσ0 w
  obtain ⟨E'', rfl, _⟩ := hs σ0 ⟨E, rfl, hσ0⟩
  refine ⟨E'', rfl, fun z => ?_⟩
  have hz := hσ z
  dsimp only at hz
  by_cases hzy : z = y
  · subst hzy
    rw [if_pos rfl] at hz
    have hget : ∀ v, a ≤ v → v ≤ b → InInterval (E'' z) (Spec.red v) := by
      intro v h1 h2
      obtain ⟨E3, h3, h4⟩ := hs _ (hup x v (by rw [hx]; exact ⟨h1, h2⟩))
      injection h3 with h3
      subst h3
      have := h4 z
      simp only [assign, if_true] at this
      exact this
    have hl := hget xl hl1 hl2
    have hu := hget xu hu1 hu2
    revert hl hu
    cases E'' z with
    | bottom => exact fun h => h.elim
    | mk L U =>
      rintro ⟨h1, _⟩ ⟨_, h4⟩
      refine ⟨?_, ?_⟩
      · cases L with
        | minusInf => trivial
        | num L => exact Int.le_trans h1 hz.1
        | plusInf => exact h1
      · cases U with
        | minusInf => exact h4
        | num U => exact Int.le_trans hz.2 h4
        | plusInf => trivial
  · rw [if_neg hzy] at hz
    obtain ⟨E3, h3, h4⟩ := hs _ (hup z (σ z) hz)
    injection h3 with h3
    subst h3
    have := h4 z
    simp only [assign, if_neg hzy, if_true] at this
    exact this

/-- A case that meets the hypotheses: `x` in [-5000, 10000] and an unbounded `y`. -/
example : (match intrinsic "red" [.var true] [false]
        (some (fun v => if v then .mk (.num (-5000)) (.num 10000) else .top)) with
      | .ok (some E') => (E' true, E' false)
      | _ => (.bottom, .bottom)) =
    (.mk (.num (-5000)) (.num 10000), .mk (.num (-2)) (.num 12287)) := by decide +kernel

example : Describes (some (fun v : Bool => if v then .mk (.num (-5000)) (.num 10000) else .top))
    (fun _ => 7) :=
  ⟨_, rfl, fun v => by cases v <;> simp [InInterval, Interval.top, AboveBound, BelowBound]⟩

/-- Any other intrinsic, and `red` with another number of arguments, leaves the abstract state as it
is (with a warning, which the verifier switches off). -/
theorem C34_other_unchanged (name : String) (inputs : List (VarOrConst V)) (outputs : List V)
    (D : Domain V) (h : name ≠ "red" ∨ inputs.length ≠ 1 ∨ outputs.length ≠ 1) :
    intrinsic name inputs outputs D = .ok D := by
  unfold intrinsic
  cases D with
  | none => rfl
  | some E =>
    dsimp only
    split
    · next hn =>
      have hn := of_decide_eq_true hn
      simp [hn] at h
    · rfl

/-- This is not sound when the intrinsic modifies its output variable: the old interval of the output
is kept.  Here `y` starts as 0 and some other intrinsic assigns 1 to it. -/
theorem C34_other_unsound :
    ∃ D' : Domain Bool, intrinsic "other" [.var true] [false]
        (some (fun _ => .mk (.num 0) (.num 0))) = .ok D' ∧
      Describes (some (fun _ : Bool => Interval.mk (.num 0) (.num 0))) (fun _ => 0) ∧
      ¬ Describes D' (assign (fun _ => 0) false 1) := by
  refine ⟨_, rfl, ⟨_, rfl, fun v => ⟨Int.le_refl 0, Int.le_refl 0⟩⟩, ?_⟩
  rintro ⟨E, h, hv⟩
  injection h with h
  subst h
  have := (hv false).2
  simp [assign, BelowBound] at this

end Props
