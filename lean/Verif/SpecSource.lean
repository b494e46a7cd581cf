import Verif.Model.CRead
import Verif.Model.Tables
import Verif.Spec

/-
Specification for C82: the text of a function of the library, executed on arrays in memory.  `CLang.read` (Verif/Model/CRead.lean) and
`CLang.call` (Verif/Model/CLang.lean) give the meaning of the text.
-/

namespace CLang
open C Tables Spec

/-- The call returns, with sufficient fuel (so it does not loop and has no undefined behaviour, and no assertion fails), and leaves the
memory `mem'`. -/
def Calls (P : Prog) (G : Name → Option Cell) (g : Name) (vs : List Val) (mem mem' : Nat → Obj) : Prop :=
  ∃ N, ∀ f, N ≤ f → call P G f g vs mem = .ok mem'

/-- The functions of several files. -/
def readAll : List Nat → Option Prog
  | [] => some []
  | text :: texts => do
    let P ← read text
    let Q ← readAll texts
    some (P ++ Q)

/-- A global constant array: its name is the address of an object of the type that contains `p` and is none of the objects `X`. -/
def Tab (G : Name → Option Cell) (mem : Nat → Obj) (X : List Nat) (x : Name) (t : Ty) (p : Array Int) : Prop :=
  ∃ o, G x = some (.ptr o 0 1) ∧ o ∉ X ∧ mem o = ⟨t, p⟩

/-- The constants that the functions for one size use. -/
structure Consts where
  psi_powers : Array Int
  scaled_inv_psi_powers : Array Int
  omega_powers : Array Int
  omega_powers_rev : Array Int
  inv_omega_powers : Array Int
  inv_omega_powers_rev : Array Int
  mixed_powers : Array Int
  mixed_powers_rev : Array Int
  inv_mixed_powers : Array Int
  inv_mixed_powers_rev : Array Int
  scalar : Int

/-- The constants printed by src/make_tables.c; the scalar is `ntt<n>_inv_n`. -/
def nttConsts (t : Nttables) : Consts :=
  ⟨t.psi_powers, t.scaled_inv_psi_powers, t.omega_powers, t.omega_powers_rev, t.inv_omega_powers, t.inv_omega_powers_rev, t.mixed_powers, t.mixed_powers_rev, t.inv_mixed_powers, t.inv_mixed_powers_rev, t.inv_n⟩

/-- The constants printed by src/make_red_tables.c; the scalar is `ntt_red<n>_rescale8`. -/
def redConsts (t : RedTables) : Consts :=
  ⟨t.psi_powers, t.scaled_inv_psi_powers, t.omega_powers, t.omega_powers_rev, t.inv_omega_powers, t.inv_omega_powers_rev, t.mixed_powers, t.mixed_powers_rev, t.inv_mixed_powers, t.inv_mixed_powers_rev, t.rescale8⟩

/-- The names of the constants for one size. -/
structure ConstNames where
  psi_powers : Name
  scaled_inv_psi_powers : Name
  omega_powers : Name
  omega_powers_rev : Name
  inv_omega_powers : Name
  inv_omega_powers_rev : Name
  mixed_powers : Name
  mixed_powers_rev : Name
  inv_mixed_powers : Name
  inv_mixed_powers_rev : Name
  scalar : Name

/-- The global constants `N` are the tables `T`; the arrays have the elements of type `ty`, the scalar has type `int32_t`
(src/make_tables.c:200, 241, src/make_red_tables.c:247, 291). -/
structure Globals (N : ConstNames) (ty : Ty) (T : Consts) (G : Name → Option Cell) (mem : Nat → Obj) (X : List Nat) : Prop where
  psi_powers : Tab G mem X N.psi_powers ty T.psi_powers
  scaled_inv_psi_powers : Tab G mem X N.scaled_inv_psi_powers ty T.scaled_inv_psi_powers
  omega_powers : Tab G mem X N.omega_powers ty T.omega_powers
  omega_powers_rev : Tab G mem X N.omega_powers_rev ty T.omega_powers_rev
  inv_omega_powers : Tab G mem X N.inv_omega_powers ty T.inv_omega_powers
  inv_omega_powers_rev : Tab G mem X N.inv_omega_powers_rev ty T.inv_omega_powers_rev
  mixed_powers : Tab G mem X N.mixed_powers ty T.mixed_powers
  mixed_powers_rev : Tab G mem X N.mixed_powers_rev ty T.mixed_powers_rev
  inv_mixed_powers : Tab G mem X N.inv_mixed_powers ty T.inv_mixed_powers
  inv_mixed_powers_rev : Tab G mem X N.inv_mixed_powers_rev ty T.inv_mixed_powers_rev
  scalar : G N.scalar = some (.int .i32 (some T.scalar))

/-- The product `g` of the program `P`, for size `2^k`: whatever the contents of `c`, for `a` and `b` reduced, the three arrays being
different objects and different from the tables, it terminates without undefined behaviour and stores in `c` the product of the
polynomials `a` and `b` modulo `X^n + 1`, with coefficients from `lo` to `hi`; nothing else changes, except `a` and `b`. -/
def Multiplies (k : Nat) (P : Prog) (N : ConstNames) (ty : Ty) (T : Consts) (lo hi : Int) (g : Name) : Prop :=
  ∀ (G : Name → Option Cell) (mem : Nat → Obj) (oc oa ob : Nat) (c a b : Array Int), oa ≠ oc → oa ≠ ob → ob ≠ oc →
    Globals N ty T G mem [oc, oa, ob] → mem oc = ⟨.i32, c⟩ → mem oa = ⟨.i32, a⟩ → mem ob = ⟨.i32, b⟩ →
    c.size = 2 ^ k → a.size = 2 ^ k → b.size = 2 ^ k → InRange (-2147483648) 2147483647 c → Reduced a → Reduced b →
    ∃ mem' c', Calls P G g [.ptr oc 0 1, .ptr oa 0 1, .ptr ob 0 1] mem mem' ∧ mem' oc = ⟨.i32, c'⟩ ∧ c'.size = 2 ^ k ∧ InRange lo hi c' ∧
      (∀ i, i < 2 ^ k → coeff c' i = negacyclic (2 ^ k) (coeff a) (coeff b) i) ∧ ∀ o, o ∉ [oc, oa, ob] → mem' o = mem o

/-- The function `g` of the program `P` with one argument, an array, changes the array as `F` says, when `F` does not fail, and nothing
else. -/
def Changes (P : Prog) (N : ConstNames) (ty : Ty) (T : Consts) (g : Name) (F : Array Int → M (Array Int)) : Prop :=
  ∀ (G : Name → Option Cell) (mem : Nat → Obj) (o : Nat) (a a' : Array Int), Globals N ty T G mem [o] → mem o = ⟨.i32, a⟩ →
    InRange (-2147483648) 2147483647 a → F a = .ok a' →
    ∃ mem', Calls P G g [.ptr o 0 1] mem mem' ∧ mem' o = ⟨.i32, a'⟩ ∧ ∀ o', o' ≠ o → mem' o' = mem o'

end CLang
