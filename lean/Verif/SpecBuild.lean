import Verif.SpecSource
import Verif.SpecTableFiles

/-
Specification for C86: a product of the library, as written in its C files, together with the table files that a generator wrote.
-/

namespace CLang
open C Spec Spec.CText

/-- The name of a global constant: the number that stands for the identifier (`n!"..."` in Verif/Model/CLang.lean). -/
def nameOf : Text → Name
  | [] => 0
  | c :: cs => c.toNat + 256 * nameOf cs

example : nameOf c!"ntt16_psi_powers" = n!"ntt16_psi_powers" := by decide +kernel

/-- The types that occur in table files. -/
def typeOf (t : Text) : Option Ty :=
  if t = c!"uint16_t" then some .u16 else if t = c!"int16_t" then some .i16 else if t = c!"int32_t" then some .i32 else none

/-- In the program the constants that the item defines exist, with the values of the item; arrays are none of the objects `X`. -/
def Linked1 (G : Name → Option Cell) (mem : Nat → Obj) (X : List Nat) : Item → Prop
  | .array type name _ vs => ∃ t, typeOf type = some t ∧ Tab G mem X (nameOf name) t vs.toArray
  | .param type name v => ∃ t, typeOf type = some t ∧ G (nameOf name) = some (.int t (some v))
  | _ => True

/-- The same for all items of the files. -/
def Linked (items : List Item) (G : Name → Option Cell) (mem : Nat → Obj) (X : List Nat) : Prop := ∀ z ∈ items, Linked1 G mem X z

/-- The functions of the files `texts`, together with the constants of the header `hd` and the source file `src`: a call of `g` with three different
arrays of `2^k` elements, the last two reduced, terminates without undefined behaviour and stores in the first the product of the other two
modulo `X^n + 1`, reduced; apart from the three arrays nothing changes. -/
def Built (k : Nat) (texts : List Nat) (hd src : Text) (g : Name) : Prop :=
  ∃ P hs ss, readAll texts = some P ∧ readC hd = some hs ∧ readC src = some ss ∧
    ∀ (G : Name → Option Cell) (mem : Nat → Obj) (oc oa ob : Nat) (c a b : Array Int), oa ≠ oc → oa ≠ ob → ob ≠ oc →
      Linked (hs ++ ss) G mem [oc, oa, ob] → mem oc = ⟨.i32, c⟩ → mem oa = ⟨.i32, a⟩ → mem ob = ⟨.i32, b⟩ →
      c.size = 2 ^ k → a.size = 2 ^ k → b.size = 2 ^ k → InRange (-2147483648) 2147483647 c → Reduced a → Reduced b →
      ∃ mem' c', Calls P G g [.ptr oc 0 1, .ptr oa 0 1, .ptr ob 0 1] mem mem' ∧ mem' oc = ⟨.i32, c'⟩ ∧ c'.size = 2 ^ k ∧ Reduced c' ∧
        (∀ i, i < 2 ^ k → coeff c' i = negacyclic (2 ^ k) (coeff a) (coeff b) i) ∧ ∀ o, o ∉ [oc, oa, ob] → mem' o = mem o

end CLang
