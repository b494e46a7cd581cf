import Verif.Spec
import Verif.Model.Tables
import Mathlib.Algebra.Field.ZMod

/-
What the generated tables must contain, in terms of `Verif/Spec.lean`.

`k` is the logarithm of the size and `ψ` the parameter psi as an element of Z_q;
`ω = ψ^2`.  `ψ⁻¹` is the inverse in the field Z_q.
-/

namespace Spec
open Tables

/-- Contents of the output of `make_tables` for parameters `n = 2^k` and `ψ`. -/
structure TablesOK (k : Nat) (ψ : Zq) (t : Nttables) : Prop where
  n : t.n = 2 ^ k
  psi : (t.psi : Zq) = ψ ∧ t.psi < 12289
  omega : (t.omega : Zq) = ψ ^ 2 ∧ t.omega < 12289
  inv_psi : (t.inv_psi : Zq) = ψ⁻¹ ∧ t.inv_psi < 12289
  inv_omega : (t.inv_omega : Zq) = (ψ ^ 2)⁻¹ ∧ t.inv_omega < 12289
  inv_n : (t.inv_n : Zq) = (2 ^ k : Zq)⁻¹ ∧ t.inv_n < 12289
  psi_powers : PowTable 1 1 ψ 0 12288 (2 ^ k) t.psi_powers
  inv_psi_powers : PowTable 1 1 ψ⁻¹ 0 12288 (2 ^ k) t.inv_psi_powers
  inv_psi_powers_rev : RevTable 1 1 ψ⁻¹ 0 12288 k t.inv_psi_powers_rev
  scaled_inv_psi_powers : PowTable 1 (2 ^ k : Zq)⁻¹ ψ⁻¹ 0 12288 (2 ^ k) t.scaled_inv_psi_powers
  omega_powers : StdTable 1 1 (ψ ^ 2) 0 12288 k t.omega_powers
  omega_powers_rev : RevTable 1 1 (ψ ^ 2) 0 12288 k t.omega_powers_rev
  inv_omega_powers : StdTable 1 1 (ψ ^ 2)⁻¹ 0 12288 k t.inv_omega_powers
  inv_omega_powers_rev : RevTable 1 1 (ψ ^ 2)⁻¹ 0 12288 k t.inv_omega_powers_rev
  mixed_powers : StdTable 1 ψ (ψ ^ 2) 0 12288 k t.mixed_powers
  mixed_powers_rev : RevTable 1 ψ (ψ ^ 2) 0 12288 k t.mixed_powers_rev
  inv_mixed_powers : StdTable 1 ψ⁻¹ (ψ ^ 2)⁻¹ 0 12288 k t.inv_mixed_powers
  inv_mixed_powers_rev : RevTable 1 ψ⁻¹ (ψ ^ 2)⁻¹ 0 12288 k t.inv_mixed_powers_rev
  entries :
    ∀ p ∈ [t.psi_powers, t.inv_psi_powers, t.inv_psi_powers_rev, t.scaled_inv_psi_powers,
      t.omega_powers, t.omega_powers_rev, t.inv_omega_powers, t.inv_omega_powers_rev,
      t.mixed_powers, t.mixed_powers_rev, t.inv_mixed_powers, t.inv_mixed_powers_rev],
      p.size = 2 ^ k ∧ InRange 0 12288 p

/-- Contents of the output of `make_red_tables`: the same tables with every entry divided by 3
(modulo q) and represented in `[-6144, 6144]`; the scaled tables carry the factor `3^-8 n^-1` or
`3^-6 n^-1` (so 3 times the entry is `3^-7 n^-1 ψ^-i` and `3^-5 n^-1 ψ^-i`). -/
structure RedTablesOK (k : Nat) (ψ : Zq) (t : RedTables) : Prop where
  n : t.n = 2 ^ k
  psi : (t.psi : Zq) = ψ ∧ t.psi < 12289
  omega : (t.omega : Zq) = ψ ^ 2 ∧ t.omega < 12289
  inv_psi : (t.inv_psi : Zq) = ψ⁻¹ ∧ t.inv_psi < 12289
  inv_omega : (t.inv_omega : Zq) = (ψ ^ 2)⁻¹ ∧ t.inv_omega < 12289
  inv_n : (t.inv_n : Zq) = (2 ^ k : Zq)⁻¹ ∧ t.inv_n < 12289
  inv_k : (t.inv_k : Zq) = (3 : Zq)⁻¹ ∧ t.inv_k < 12289
  rescale8 : (t.rescale8 : Zq) = (3 ^ 8 * 2 ^ k : Zq)⁻¹ ∧ t.rescale8 < 12289
  rescale6 : (t.rescale6 : Zq) = (3 ^ 6 * 2 ^ k : Zq)⁻¹ ∧ t.rescale6 < 12289
  psi_powers : PowTable 3 1 ψ (-6144) 6144 (2 ^ k) t.psi_powers
  psi_powers_rev : RevTable 3 1 ψ (-6144) 6144 k t.psi_powers_rev
  inv_psi_powers : PowTable 3 1 ψ⁻¹ (-6144) 6144 (2 ^ k) t.inv_psi_powers
  scaled_inv_psi_powers :
    PowTable 1 (3 ^ 8 * 2 ^ k : Zq)⁻¹ ψ⁻¹ (-6144) 6144 (2 ^ k) t.scaled_inv_psi_powers
  scaled_inv_psi_powers_var :
    PowTable 1 (3 ^ 6 * 2 ^ k : Zq)⁻¹ ψ⁻¹ (-6144) 6144 (2 ^ k) t.scaled_inv_psi_powers_var
  omega_powers : StdTable 3 1 (ψ ^ 2) (-6144) 6144 k t.omega_powers
  omega_powers_rev : RevTable 3 1 (ψ ^ 2) (-6144) 6144 k t.omega_powers_rev
  inv_omega_powers : StdTable 3 1 (ψ ^ 2)⁻¹ (-6144) 6144 k t.inv_omega_powers
  inv_omega_powers_rev : RevTable 3 1 (ψ ^ 2)⁻¹ (-6144) 6144 k t.inv_omega_powers_rev
  mixed_powers : StdTable 3 ψ (ψ ^ 2) (-6144) 6144 k t.mixed_powers
  mixed_powers_rev : RevTable 3 ψ (ψ ^ 2) (-6144) 6144 k t.mixed_powers_rev
  inv_mixed_powers : StdTable 3 ψ⁻¹ (ψ ^ 2)⁻¹ (-6144) 6144 k t.inv_mixed_powers
  inv_mixed_powers_rev : RevTable 3 ψ⁻¹ (ψ ^ 2)⁻¹ (-6144) 6144 k t.inv_mixed_powers_rev
  entries :
    ∀ p ∈ [t.psi_powers, t.psi_powers_rev, t.inv_psi_powers, t.scaled_inv_psi_powers,
      t.scaled_inv_psi_powers_var, t.omega_powers, t.omega_powers_rev, t.inv_omega_powers,
      t.inv_omega_powers_rev, t.mixed_powers, t.mixed_powers_rev, t.inv_mixed_powers,
      t.inv_mixed_powers_rev],
      p.size = 2 ^ k ∧ InRange (-6144) 6144 p

/-- The parameters accepted by the generators: `n = 2^k` with `1 < n < 100000`, `1 < psi < q` and
`psi^n = -1` modulo `q`. -/
def GoodParams (k : Nat) (xn xpsi : Int) : Prop :=
  1 ≤ k ∧ xn = 2 ^ k ∧ xn < 100000 ∧ 1 < xpsi ∧ xpsi < 12289 ∧ (xpsi : Zq) ^ 2 ^ k = -1

end Spec
