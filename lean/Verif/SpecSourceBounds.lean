import Verif.SpecSourceGen
import Verif.SpecBounds

/-
Specification for C87: functions of src/red_bounds.c, executed from their text.
-/

namespace CLang
open C Spec

/-- The same as `Returns`, for a function that takes addresses of its variables; the objects from `sp` on are free for them. -/
def ReturnsAt (P : Prog) (G : Name → Option Cell) (sp : Nat) (g : Name) (vs : List Val) (mem : Nat → Obj) (v : Val) (mem' : Nat → Obj) : Prop :=
  ∃ N, ∀ f, N ≤ f → callValueAt P G sp f g vs mem = .ok (v, mem')

/-- The call, the last argument of which is the address of an object of type `int64_t`, returns the maximum of `F x` for `a ≤ x ≤ b` and
stores a number where it is attained at the address.  Nothing else is changed. -/
def Maximizes (P : Prog) (g : Name) (vs : List Val) (a b : Int) (F : Int → Int) : Prop :=
  ∀ G mem o z, mem o = ⟨.i64, #[z]⟩ → ∃ r m, Returns P G g (vs ++ [.ptr o 0 1]) mem (.int .i64 r) (setMem mem o ⟨.i64, #[m]⟩) ∧
    (a ≤ m ∧ m ≤ b) ∧ r = F m ∧ ∀ x, a ≤ x → x ≤ b → F x ≤ r

/-- The same for the minimum. -/
def Minimizes (P : Prog) (g : Name) (vs : List Val) (a b : Int) (F : Int → Int) : Prop :=
  ∀ G mem o z, mem o = ⟨.i64, #[z]⟩ → ∃ r m, Returns P G g (vs ++ [.ptr o 0 1]) mem (.int .i64 r) (setMem mem o ⟨.i64, #[m]⟩) ∧
    (a ≤ m ∧ m ≤ b) ∧ r = F m ∧ ∀ x, a ≤ x → x ≤ b → r ≤ F x

end CLang
