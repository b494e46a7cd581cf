import Verif.Model.Intervals
import Mathlib.Order.Bounds.Basic

/-
Specification vocabulary for intervals: membership, and the set of values of an operation.
-/

namespace Intervals

/-- `x ∈ a`: `a->min <= x <= a->max`. -/
instance : Membership Int Ivl := ⟨fun a x => a.min ≤ x ∧ x ≤ a.max⟩

theorem mem_iff {a : Ivl} {x : Int} : x ∈ a ↔ a.min ≤ x ∧ x ≤ a.max := Iff.rfl

instance (x : Int) (a : Ivl) : Decidable (x ∈ a) := inferInstanceAs (Decidable (_ ∧ _))

/-- A non-empty interval of `int64_t` numbers: what `point` and `interval` construct. -/
def Valid (a : Ivl) : Prop := C.I64 a.min ∧ C.I64 a.max ∧ a.min ≤ a.max

instance (a : Ivl) : Decidable (Valid a) := inferInstanceAs (Decidable (_ ∧ _))

/-- `r` is the smallest interval that contains `f x` for all `x` in `a`. -/
def IsHull (f : Int → Int) (a r : Ivl) : Prop :=
  IsLeast {v | ∃ x, x ∈ a ∧ v = f x} r.min ∧ IsGreatest {v | ∃ x, x ∈ a ∧ v = f x} r.max

/-- All the intervals of the array are non-empty intervals of `int64_t` numbers. -/
def ValidArray (A : Array Ivl) : Prop := ∀ (i : Nat) (X : Ivl), A[i]? = some X → Valid X

/-- The array `a` is contained pointwise in the array of intervals `A`. -/
def Inside (a : Array Int) (A : Array Ivl) : Prop :=
  a.size = A.size ∧ ∀ (i : Nat) (x : Int) (X : Ivl), a[i]? = some x → A[i]? = some X → x ∈ X

end Intervals
