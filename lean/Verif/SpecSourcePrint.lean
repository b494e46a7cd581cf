import Verif.SpecTables
import Verif.SpecBuild
import Verif.SpecSourceGen

/-
Specification for C91 and C92: functions of src/make_tables.c, src/make_red_tables.c and src/make_bitrev_table.c that print, executed from their text.
-/

namespace CLang
open C Spec Spec.CText

/-- The codes of the characters of a text. -/
def codes (t : Text) : List Int := t.map fun c => (c.toNat : Int)

/-- An open file to which the text `t` has been written. -/
def file (t : Text) : Obj := ⟨.i32, (codes t).toArray⟩

/-- A string, with the null character at its end. -/
def str (t : Text) : Obj := ⟨.i32, (codes t ++ [0]).toArray⟩

/-- Texts that a string literal can contain. -/
def Plain (t : Text) : Prop := ∀ c ∈ t, 0 < c.toNat ∧ c.toNat < 256

/-- The string literals of the program are strings in memory, none of them is the file `f`.  (The name of a literal is its text behind a quote.) -/
def Literals (G : Name → Option Cell) (mem : Nat → Obj) (f : Nat) : Prop :=
  ∀ s, Plain s → ∃ o, o ≠ f ∧ G (nameOf ('"' :: s)) = some (.ptr o 0 1) ∧ mem o = str s

/-- The call, the first argument of which is the file `f`, terminates without undefined behaviour; it writes the text `s` at the end of the file
and changes nothing else. -/
def Prints (P : Prog) (G : Name → Option Cell) (mem : Nat → Obj) (f : Nat) (g : Name) (vs : List Val) (s : Text) : Prop :=
  ∀ t, mem f = file t → Calls P G g (.ptr f 0 1 :: vs) mem (setMem mem f (file (t ++ s)))

/-- The call of a function that calls `malloc` terminates without undefined behaviour; the objects from `sp` on are free. -/
def CallsFrom (P : Prog) (G : Name → Option Cell) (sp : Nat) (g : Name) (vs : List Val) (mem mem' : Nat → Obj) : Prop :=
  ∃ N, ∀ fuel, N ≤ fuel → callFrom P G sp fuel g vs mem = .ok mem'

/-- The object `sp`, the first one that `malloc` returns, is not the file `f`, not the object `p` and not an object of the program. -/
def Unused (G : Name → Option Cell) (sp f p : Nat) : Prop := f ≠ sp ∧ p ≠ sp ∧ ∀ x o k w, G x = some (.ptr o k w) → o ≠ sp

/-- As `Prints`, for a function that allocates and frees one array, the object `sp`; that object is empty at the end (and has no other use). -/
def PrintsFrom (P : Prog) (G : Name → Option Cell) (sp : Nat) (mem : Nat → Obj) (f : Nat) (g : Name) (vs : List Val) (s : Text) : Prop :=
  ∀ t, mem f = file t → CallsFrom P G sp g (.ptr f 0 1 :: vs) mem (setMem (setMem mem sp ⟨.u32, #[]⟩) f (file (t ++ s)))

/-- The parameters that the generators compute, for the size `2^k` and an element `ψ` of Z_q. -/
structure ParamsOK (k : Nat) (ψ : Zq) (psi phi inv_psi inv_phi inv_n : Nat) : Prop where
  psi : (psi : Zq) = ψ ∧ psi < 12289
  phi : (phi : Zq) = ψ ^ 2 ∧ phi < 12289
  inv_psi : (inv_psi : Zq) = ψ⁻¹ ∧ inv_psi < 12289
  inv_phi : (inv_phi : Zq) = (ψ ^ 2)⁻¹ ∧ inv_phi < 12289
  inv_n : (inv_n : Zq) = (2 ^ k : Zq)⁻¹ ∧ inv_n < 12289

end CLang
