import Verif.SpecSourceFun
import Verif.SpecSourceChecks
import Verif.SpecAsm

/-
Specification for C98: a function on arrays in C and a function in assembly, both executed from their text, store the same array.
`F` is what is read from the file in assembly, `P` from the file in C.
-/

namespace CLang
open C Spec X86 AsmRead

/-- The array `a'` of `n` elements, element by element. -/
def Elements (n : Nat) (a' : Array Int) (v : Nat → Int) : Prop := a'.size = n ∧ ∀ i, i < n → elt a' i = v i

/-- Products whose reduction is an `int32_t` number: from -(2^31 - 12285) * 2^12 to 2^43 - 1.  The assertion of `mul_red` (src/ntt_red.c:38-45)
admits 4096 more, for which `z >> 12` is 2^31 (C19). -/
def Product (x : Int) : Prop := -8796042698752 ≤ x ∧ x ≤ 8796093022207

/-- The call in C, with and without assertions: it returns without undefined behaviour, stores `a'` in the object `o`, and changes nothing else. -/
def Stores (P : Prog) (G : Name → Option Cell) (g : Name) (vs : List Val) (mem : Nat → Obj) (o : Nat) (a' : Array Int) : Prop :=
  Sets P G g vs mem o a' ∧ Sets (release P) G g vs mem o a'

/-- `f(a, n)` in assembly and `g(a, n)` in C. -/
def Both (F : Asm) (P : Prog) (f g : Name) (a a' : Array Int) : Prop :=
  (∀ G mem o, mem o = ⟨.i32, a⟩ → Stores P G g [.ptr o 0 1, .int .u32 a.size] mem o a') ∧
  ∀ K A s, AsmCall F K A a s → AsmReturns F K f A a s a'

/-- `f(a, n, p)` in assembly and `g(a, n, p)` in C, where `p` is another array, of type `int16_t`. -/
def BothTable (F : Asm) (P : Prog) (f g : Name) (a p a' : Array Int) : Prop :=
  (∀ G mem o op, mem o = ⟨.i32, a⟩ → op ≠ o → mem op = ⟨.i16, p⟩ → Stores P G g [.ptr o 0 1, .int .u32 a.size, .ptr op 0 1] mem o a') ∧
  ∀ K A T s, AsmCall F K A a s → X86.Table K A a s T p → s.gpr rdx = T → AsmReturns F K f A a s a'

/-- `f(c, n, a, b)` in assembly and `g(c, n, a, b)` in C, where `a` and `b` are other arrays. -/
def BothArrays (F : Asm) (P : Prog) (f g : Name) (c a b c' : Array Int) : Prop :=
  (∀ G mem oc oa ob, mem oc = ⟨.i32, c⟩ → oa ≠ oc → mem oa = ⟨.i32, a⟩ → ob ≠ oc → mem ob = ⟨.i32, b⟩ →
    Stores P G g [.ptr oc 0 1, .int .u32 c.size, .ptr oa 0 1, .ptr ob 0 1] mem oc c') ∧
  ∀ K C A B s, AsmCall F K C c s → Operand K C c s A a → Operand K C c s B b → s.gpr rdx = A → s.gpr rcx = B → AsmReturns F K f C c s c'

/-- `f(a, n, x)` in assembly and `g(a, n, x)` in C, where `x` is a number. -/
def BothScalar (F : Asm) (P : Prog) (f g : Name) (a : Array Int) (x : Int) (a' : Array Int) : Prop :=
  (∀ G mem o, mem o = ⟨.i32, a⟩ → Stores P G g [.ptr o 0 1, .int .u32 a.size, .int .i32 x] mem o a') ∧
  ∀ K A s, AsmCall F K A a s → toI32 (s.gpr rdx).toNat = x → AsmReturns F K f A a s a'

end CLang
