import Verif.SpecAsm
import Verif.SpecBuild

/-
Specification for C90: an AVX2 product of the library, as written in its C files and in src/ntt_asm.S, together with the table files that the
generator wrote.
-/

namespace X86
open C Avx Spec Spec.CText AsmRead AsmCalls CLang

/-- What an item of the table files says about memory and constants: if the item defines the table `p`, the contents of the item are at the
address of `p`; if it defines `rescale8`, `v` is its value. -/
def AsmLinked1 (L : Place) (N : TableNames) (v : Int) (m : Memory) : CText.Item → Prop
  | .array type name _ vs => ∀ p, nameOf name = N.tab p → typeOf type = some .i16 → Holds16 m (L.tab p) vs.toArray
  | .param type name w => nameOf name = N.rescale8 → typeOf type = some .i32 → v = w
  | _ => True

/-- The same for all items of the files. -/
def AsmLinked (items : List CText.Item) (L : Place) (N : TableNames) (v : Int) (m : Memory) : Prop := ∀ z ∈ items, AsmLinked1 L N v m z

/-- The function `g` of the C files `texts`, together with the assembly file and the constants of the header `hd` and the source file `src`: for
`a` and `b` reduced and any contents of `c`, where `c` can be the same array as `a` or `b`, all calls that `g(c, a, b)` makes return, and
afterwards `c` holds the reduced coefficients of the product of the polynomials `a` and `b` modulo `X^n + 1`. -/
def AsmBuilt (n : Nat) (N : TableNames) (asm : List Nat) (texts : List Nat) (hd src : Text) (g : Name) : Prop :=
  ∃ F P hs ss l, readAsm asm = some F ∧ readAll texts = some P ∧ readC hd = some hs ∧ readC src = some ss ∧
    callsOf P g [n!"c", n!"a", n!"b"] = some l ∧
    ∀ (K : Machine) (L : Place) (v : Int) (m : Memory) (a b : Array Int), Fits K L n → AsmLoaded F K m → AsmLinked (hs ++ ss) L N v m →
      a.size = n → b.size = n → Holds32 m (L.arr .a) a → Holds32 m (L.arr .b) b → Reduced a → Reduced b →
      AllReturn F K L N v n l m fun m' =>
        ∃ c, c.size = n ∧ Holds32 m' (L.arr .c) c ∧ Reduced c ∧ ∀ i, i < n → coeff c i = negacyclic n (coeff a) (coeff b) i

end X86
