import Verif.SpecSource
import Verif.SpecBuild

/-
Specification of C94: products, as read from the text, with the destination in one of the operands.
-/

namespace CLang
open C Spec Spec.CText

/-- The product `g` of the program `P`, for size `2^k`: `a` and `b` are two objects, different from the tables, and `c` is one of them.
For `a` and `b` reduced, the product terminates without undefined behaviour and stores in `c`, over the operand, the product of the
initial polynomials `a` and `b` modulo `X^n + 1`, with coefficients from `lo` to `hi`; nothing but `a` and `b` changes. -/
def MultipliesInPlace (k : Nat) (P : Prog) (N : ConstNames) (ty : Ty) (T : Consts) (lo hi : Int) (g : Name) : Prop :=
  ∀ (G : Name → Option Cell) (mem : Nat → Obj) (oc oa ob : Nat) (a b : Array Int), (oc = oa ∨ oc = ob) → oa ≠ ob →
    Globals N ty T G mem [oc, oa, ob] → mem oa = ⟨.i32, a⟩ → mem ob = ⟨.i32, b⟩ →
    a.size = 2 ^ k → b.size = 2 ^ k → Reduced a → Reduced b →
    ∃ mem' c', Calls P G g [.ptr oc 0 1, .ptr oa 0 1, .ptr ob 0 1] mem mem' ∧ mem' oc = ⟨.i32, c'⟩ ∧ c'.size = 2 ^ k ∧ InRange lo hi c' ∧
      (∀ i, i < 2 ^ k → coeff c' i = negacyclic (2 ^ k) (coeff a) (coeff b) i) ∧ ∀ o, o ∉ [oc, oa, ob] → mem' o = mem o

/-- The functions of the files `texts`, together with the constants of the header `hd` and the source file `src`: a call of `g` with two different
operands of `2^k` elements, reduced, and a destination of `2^k` elements, a third array or one of the operands, terminates without undefined
behaviour and stores in the destination the product of the operands modulo `X^n + 1`, with coefficients from `lo` to `hi`; apart from these arrays
nothing changes. -/
def BuiltAny (k : Nat) (texts : List Nat) (hd src : Text) (lo hi : Int) (g : Name) : Prop :=
  ∃ P hs ss, readAll texts = some P ∧ readC hd = some hs ∧ readC src = some ss ∧
    ∀ (G : Name → Option Cell) (mem : Nat → Obj) (oc oa ob : Nat) (c a b : Array Int), oa ≠ ob →
      Linked (hs ++ ss) G mem [oc, oa, ob] → mem oc = ⟨.i32, c⟩ → mem oa = ⟨.i32, a⟩ → mem ob = ⟨.i32, b⟩ →
      c.size = 2 ^ k → a.size = 2 ^ k → b.size = 2 ^ k → InRange (-2147483648) 2147483647 c → Reduced a → Reduced b →
      ∃ mem' c', Calls P G g [.ptr oc 0 1, .ptr oa 0 1, .ptr ob 0 1] mem mem' ∧ mem' oc = ⟨.i32, c'⟩ ∧ c'.size = 2 ^ k ∧ InRange lo hi c' ∧
        (∀ i, i < 2 ^ k → coeff c' i = negacyclic (2 ^ k) (coeff a) (coeff b) i) ∧ ∀ o, o ∉ [oc, oa, ob] → mem' o = mem o

end CLang
