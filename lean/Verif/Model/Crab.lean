import Verif.CSem
import Mathlib.Data.Int.Bitwise

/-
Model of the transfer function for the reduction in verifier/src/ntt_intervals.cpp.

The class `ntt_interval_domain` wraps Crab's interval domain, which is not part of the repository.
What the code uses of Crab is written down here from Crab's documentation: intervals with possibly
infinite bounds, the environment of intervals, arbitrary precision numbers with the bitwise operators
of two's complement and `>>` rounding downwards.  All other operations of the class only forward to
Crab and are not modelled.
-/

namespace Crab
open C

/-- `crab::bound` -/
inductive Bound where
  | minusInf
  | num (x : Int)
  | plusInf
  deriving DecidableEq, Repr

/-- `bound::number()`: the number, if the bound is finite. -/
def Bound.number : Bound → Option Int
  | .num x => some x
  | _ => none

/-- `crab::interval` -/
inductive Interval where
  | bottom
  | mk (lb ub : Bound)
  deriving DecidableEq, Repr

/-- `interval(lb, ub)` for numbers: an interval with `lb > ub` is the empty interval. -/
def interval (lb ub : Int) : Interval := if lb > ub then .bottom else .mk (.num lb) (.num ub)

/-- `interval::top()` -/
def Interval.top : Interval := .mk .minusInf .plusInf

/-- `interval::lb()` and `interval::ub()`; the bounds of the empty interval are not used. -/
def Interval.lb : Interval → Bound
  | .bottom => .plusInf
  | .mk l _ => l

def Interval.ub : Interval → Bound
  | .bottom => .minusInf
  | .mk _ u => u

/-- `ikos::interval_domain`: bottom (`none`) or one interval for each variable. -/
abbrev Domain (V : Type) := Option (V → Interval)

section
variable {V : Type} [DecidableEq V]

/-- `interval_domain::set`: storing an empty interval makes the whole state bottom. -/
def set (E : V → Interval) (v : V) (i : Interval) : Domain V :=
  if i = .bottom then none else some (fun z => if z = v then i else E z)

/-- `interval_domain::operator-=` -/
def forget (E : V → Interval) (v : V) : Domain V :=
  some (fun z => if z = v then .top else E z)

/-- `variable_or_constant_t` -/
inductive VarOrConst (V : Type) where
  | var (v : V)
  | const (k : Int)

/-- The lambda `red` (verifier/src/ntt_intervals.cpp:159-161). -/
def red (x : Int) : Int := 3 * Int.land x 4095 - x >>> (12 : Nat)

/-- `intrinsic` (verifier/src/ntt_intervals.cpp:148-201).  `CRAB_ERROR` ends the program; `CRAB_WARN`
prints a message.  `~4095` is an `int`, i.e. -4096. -/
def intrinsic (name : String) (inputs : List (VarOrConst V)) (outputs : List V) (D : Domain V) :
    M (Domain V) :=
  match D with
  | none => pure none
  | some E =>
    match decide (name = "red"), inputs, outputs with
    | true, [input], [out] =>
      match input with
      | .const _ => .error .abort
      | .var v =>
        let ini := E v
        match ini.lb.number, ini.ub.number with
        | some a, some b =>
          let d := Int.land b (-4096)
          let d := if d ≥ a then d else a
          let red_lb := red d
          let d := Int.lor a 4095
          let d := if d ≤ b then d else b
          let red_ub := red d
          pure (set E out (interval red_lb red_ub))
        | _, _ => pure (forget E out)
    | _, _, _ => pure (some E)

end
end Crab
