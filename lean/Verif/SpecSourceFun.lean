import Verif.SpecSource

/-
Specification for C82, continued: the functions of src/ntt.c, src/ntt_red.c and src/naive_ntt.c, for any size and any table.
-/

namespace CLang
open C Spec

/-- The call returns without undefined behaviour and without a failed assertion, and stores `a'` in the object `o`; nothing else changes. -/
def Sets (P : Prog) (G : Name → Option Cell) (g : Name) (vs : List Val) (mem : Nat → Obj) (o : Nat) (a' : Array Int) : Prop :=
  ∃ mem', Calls P G g vs mem mem' ∧ mem' o = ⟨.i32, a'⟩ ∧ ∀ o', o' ≠ o → mem' o' = mem o'

/-- All elements are `int32_t` values. -/
abbrev AllI32 (a : Array Int) : Prop := InRange (-2147483648) 2147483647 a

/-- `g(a, n)` changes the array `a` as `F` says, when `F` does not fail. -/
def DoesArray (P : Prog) (g : Name) (F : Array Int → Nat → M (Array Int)) : Prop :=
  ∀ (G : Name → Option Cell) (mem : Nat → Obj) (o n : Nat) (a a' : Array Int), n < 2 ^ 32 → mem o = ⟨.i32, a⟩ → AllI32 a → F a n = .ok a' →
    Sets P G g [.ptr o 0 1, .int .u32 n] mem o a'

/-- `g(a, n, p, more)`, where `p` is another array, with elements of type `ty`. -/
def DoesTable (P : Prog) (more : List Val) (ty : Ty) (g : Name) (F : Array Int → Nat → Array Int → M (Array Int)) : Prop :=
  ∀ (G : Name → Option Cell) (mem : Nat → Obj) (o op n : Nat) (a a' p : Array Int), n < 2 ^ 32 → mem o = ⟨.i32, a⟩ → AllI32 a →
    op ≠ o → mem op = ⟨ty, p⟩ → AllI32 p → F a n p = .ok a' → Sets P G g ([.ptr o 0 1, .int .u32 n, .ptr op 0 1] ++ more) mem o a'

/-- `g(c, n, a, b, more)`, where `a` and `b` are different from `c`. -/
def DoesArrays (P : Prog) (more : List Val) (g : Name) (F : Array Int → Nat → Array Int → Array Int → M (Array Int)) : Prop :=
  ∀ (G : Name → Option Cell) (mem : Nat → Obj) (oc oa ob n : Nat) (c c' a b : Array Int), n < 2 ^ 32 → mem oc = ⟨.i32, c⟩ → AllI32 c →
    oa ≠ oc → mem oa = ⟨.i32, a⟩ → AllI32 a → ob ≠ oc → mem ob = ⟨.i32, b⟩ → AllI32 b → F c n a b = .ok c' →
    Sets P G g ([.ptr oc 0 1, .int .u32 n, .ptr oa 0 1, .ptr ob 0 1] ++ more) mem oc c'

/-- `g(a, n, c, more)`, where `c` is an integer. -/
def DoesScalar (P : Prog) (more : List Val) (g : Name) (F : Array Int → Nat → Int → M (Array Int)) : Prop :=
  ∀ (G : Name → Option Cell) (mem : Nat → Obj) (o n : Nat) (a a' : Array Int) (c : Int), n < 2 ^ 32 → mem o = ⟨.i32, a⟩ → AllI32 a →
    -2147483648 ≤ c → c ≤ 2147483647 → F a n c = .ok a' → Sets P G g ([.ptr o 0 1, .int .u32 n, .int .i32 c] ++ more) mem o a'

/-- The elements of `d` are the pairs of `p`, one after the other (an array of type `uint16_t [][2]`). -/
def Pairs (d : Array Int) (p : Array (Nat × Nat)) : Prop :=
  ∀ i x, p[i]? = some x → d[2 * i]? = some (x.1 : Int) ∧ d[2 * i + 1]? = some (x.2 : Int) ∧ x.1 < 65536 ∧ x.2 < 65536

/-- `g(a, p, n)`, where `p` is an array of pairs. -/
def DoesPairs (P : Prog) (g : Name) (F : Array Int → Array (Nat × Nat) → Nat → M (Array Int)) : Prop :=
  ∀ (G : Name → Option Cell) (mem : Nat → Obj) (o op n : Nat) (a a' d : Array Int) (p : Array (Nat × Nat)), n < 2 ^ 32 → mem o = ⟨.i32, a⟩ →
    AllI32 a → op ≠ o → mem op = ⟨.u16, d⟩ → Pairs d p → F a p n = .ok a' → Sets P G g [.ptr o 0 1, .ptr op 0 2, .int .u32 n] mem o a'

end CLang
