import Verif.Spec
import Verif.Model.Crab

/-
Meaning of the abstract states of the Crab interval domain: the set of concrete states (values of
the variables) that an abstract state describes.
-/

namespace Spec
open Crab

/-- The numbers above a lower bound. -/
def AboveBound : Bound → Int → Prop
  | .minusInf, _ => True
  | .num l, x => l ≤ x
  | .plusInf, _ => False

/-- The numbers below an upper bound. -/
def BelowBound : Bound → Int → Prop
  | .minusInf, _ => False
  | .num u, x => x ≤ u
  | .plusInf, _ => True

/-- `x` belongs to the interval. -/
def InInterval : Interval → Int → Prop
  | .bottom, _ => False
  | .mk l u, x => AboveBound l x ∧ BelowBound u x

/-- The concrete state `σ` is described by the abstract state `D`. -/
def Describes {V : Type} (D : Domain V) (σ : V → Int) : Prop :=
  ∃ E, D = some E ∧ ∀ v, InInterval (E v) (σ v)

/-- The concrete state after `y = x`, for a value `x`. -/
def assign {V : Type} [DecidableEq V] (σ : V → Int) (y : V) (x : Int) : V → Int :=
  fun z => if z = y then x else σ z

end Spec
