import Verif.Shared
import Verif.Model.Tables
import Verif.Model.Shared
import Verif.Model.SharedAsmProducts
import Verif.SpecTables
import Verif.Model.NttRed
import Verif.Model.Naive

/-
Specification of the tables in a shared memory, and of the runs of several threads.
-/

namespace Shared
open C Tables

/-- The tables of src/ntt1024_tables.h, ... are in memory: `tb` gives the reference of each table. -/
structure TablesAt (μ : Mem) (tb : String → Ref) (t : Nttables) : Prop where
  psi_powers : μ (tb "psi_powers") = t.psi_powers
  scaled_inv_psi_powers : μ (tb "scaled_inv_psi_powers") = t.scaled_inv_psi_powers
  omega_powers : μ (tb "omega_powers") = t.omega_powers
  omega_powers_rev : μ (tb "omega_powers_rev") = t.omega_powers_rev
  inv_omega_powers : μ (tb "inv_omega_powers") = t.inv_omega_powers
  inv_omega_powers_rev : μ (tb "inv_omega_powers_rev") = t.inv_omega_powers_rev
  mixed_powers : μ (tb "mixed_powers") = t.mixed_powers
  mixed_powers_rev : μ (tb "mixed_powers_rev") = t.mixed_powers_rev
  inv_mixed_powers : μ (tb "inv_mixed_powers") = t.inv_mixed_powers
  inv_mixed_powers_rev : μ (tb "inv_mixed_powers_rev") = t.inv_mixed_powers_rev

/-- The tables of src/ntt_red1024_tables.h, ... are in memory. -/
structure RedTablesAt (μ : Mem) (tb : String → Ref) (t : RedTables) : Prop where
  psi_powers : μ (tb "psi_powers") = t.psi_powers
  scaled_inv_psi_powers : μ (tb "scaled_inv_psi_powers") = t.scaled_inv_psi_powers
  scaled_inv_psi_powers_var : μ (tb "scaled_inv_psi_powers_var") = t.scaled_inv_psi_powers_var
  omega_powers : μ (tb "omega_powers") = t.omega_powers
  omega_powers_rev : μ (tb "omega_powers_rev") = t.omega_powers_rev
  inv_omega_powers : μ (tb "inv_omega_powers") = t.inv_omega_powers
  inv_omega_powers_rev : μ (tb "inv_omega_powers_rev") = t.inv_omega_powers_rev
  mixed_powers : μ (tb "mixed_powers") = t.mixed_powers
  mixed_powers_rev : μ (tb "mixed_powers_rev") = t.mixed_powers_rev
  inv_mixed_powers : μ (tb "inv_mixed_powers") = t.inv_mixed_powers
  inv_mixed_powers_rev : μ (tb "inv_mixed_powers_rev") = t.inv_mixed_powers_rev

/-- The names of the tables that the products use. -/
def tableNames : List String :=
  ["psi_powers", "scaled_inv_psi_powers", "omega_powers", "omega_powers_rev", "inv_omega_powers",
    "inv_omega_powers_rev", "mixed_powers", "mixed_powers_rev", "inv_mixed_powers", "inv_mixed_powers_rev",
    "scaled_inv_psi_powers_var"]

/-- The array `h` is not a table. -/
def Fresh (tb : String → Ref) (h : Ref) : Prop := ∀ x ∈ tableNames, tb x ≠ h

/-- The array `c` has `2^k` elements between `lo` and `hi`, which are modulo q the coefficients of the product of
`a` and `b` modulo `X^(2^k) + 1`. -/
def IsProduct (k : Nat) (lo hi : Int) (c a b : Array Int) : Prop :=
  c.size = 2 ^ k ∧ Spec.InRange lo hi c ∧
    ∀ i, i < 2 ^ k → Spec.coeff c i = Spec.negacyclic (2 ^ k) (Spec.coeff a) (Spec.coeff b) i

/-- `P` is a call of a product function of size `2^k` with the arguments `c`, `a`, `b`, in a memory `μ` that holds
the tables printed by the generator; the elements of the result are between `lo` and `hi`. -/
inductive Call (μ : Mem) (tb : String → Ref) (c a b : Ref) (k : Nat) :
    Int → Int → Prog (Ref × Ref × Ref) → Prop where
  /-- `ntt<n>_product1`, ..., `ntt<n>_product5` -/
  | exact {xn xpsi : Int} {buf : Nat → Array Nat} {t : Nttables} {P : Prog (Ref × Ref × Ref)}
      (hg : Spec.GoodParams k xn xpsi) (hbuf : ∀ n, (buf n).size = n)
      (ht : make_tables buf xn xpsi = .ok t) (htb : TablesAt μ tb t)
      (hP : P ∈ [Ntt.product1 tb (2 ^ k) c a b, Ntt.product2 tb (2 ^ k) c a b,
        Ntt.product3 tb (2 ^ k) c a b, Ntt.product4 tb (2 ^ k) c a b, Ntt.product5 t tb (2 ^ k) c a b]) :
      Call μ tb c a b k 0 12288 P
  /-- `ntt_red<n>_product1`, ..., `ntt_red<n>_product5` -/
  | red {xn xpsi : Int} {buf : Nat → Array Nat} {t : RedTables} {P : Prog (Ref × Ref × Ref)} (sh : Bool)
      (hg : Spec.GoodParams k xn xpsi) (hbuf : ∀ n, (buf n).size = n)
      (ht : make_red_tables buf xn xpsi = .ok t) (htb : RedTablesAt μ tb t)
      (hP : P ∈ [NttRed.product1 tb (2 ^ k) sh c a b, NttRed.product2 tb (2 ^ k) sh c a b,
        NttRed.product3 tb (2 ^ k) sh c a b, NttRed.product4 tb (2 ^ k) sh c a b,
        NttRed.product5 t tb (2 ^ k) sh c a b]) :
      Call μ tb c a b k 0 12288 P
  /-- `ntt<n>_product1_naive`, ..., `ntt<n>_product5_naive` -/
  | naive {xn xpsi : Int} {buf : Nat → Array Nat} {t : Nttables} {P : Prog (Ref × Ref × Ref)}
      (hg : Spec.GoodParams k xn xpsi) (hbuf : ∀ n, (buf n).size = n)
      (ht : make_tables buf xn xpsi = .ok t) (htb : TablesAt μ tb t)
      (hP : P ∈ [Naive.product1 tb (2 ^ k) c a b, Naive.product2 tb (2 ^ k) c a b,
        Naive.product3 tb (2 ^ k) c a b, Naive.product4 tb (2 ^ k) c a b, Naive.product5 t tb (2 ^ k) c a b]) :
      Call μ tb c a b k (-12288) 12288 P
  /-- `ntt_red<n>_product1_asm`, ..., `ntt_red<n>_product5_asm` -/
  | asm {xn xpsi : Int} {buf : Nat → Array Nat} {t : RedTables} {P : Prog (Ref × Ref × Ref)} (sh : Bool) (up : Int)
      (hk4 : 4 ≤ k) (hg : Spec.GoodParams k xn xpsi) (hbuf : ∀ n, (buf n).size = n)
      (ht : make_red_tables buf xn xpsi = .ok t) (htb : RedTablesAt μ tb t)
      (hP : P ∈ [AsmProducts.product1 t tb (2 ^ k) sh c a b, AsmProducts.product2 t tb (2 ^ k) sh c a b,
        AsmProducts.product3 t tb (2 ^ k) sh c a b, AsmProducts.product4 t tb (2 ^ k) sh c a b,
        AsmProducts.product5 t tb (2 ^ k) up sh c a b]) :
      Call μ tb c a b k 0 12288 P
  /-- `ntt_red1024_product1_asm` -/
  | asm1024 {buf : Nat → Array Nat} {t : RedTables} (hk : k = 10) (hbuf : ∀ n, (buf n).size = n)
      (ht : make_red_tables buf 1024 1014 = .ok t) (htb : RedTablesAt μ tb t) :
      Call μ tb c a b k 0 12288 (AsmProducts.product1_1024 t tb (2 ^ k) c a b)

/-! ### functions that update one array -/

/-- Functions `f(a, n, p)` that update `a` and read `p`, on array values and on references. -/
def tableFunctions : List ((Array Int → Nat → Array Int → M (Array Int)) × (Ref → Nat → Ref → Prog Ref)) :=
  [(_root_.Ntt.mul_array16, Ntt.mul_array16),
   (_root_.Ntt.ntt_ct_rev2std_v1, Ntt.ntt_ct_rev2std_v1),
   (_root_.Ntt.ntt_ct_rev2std, Ntt.ntt_ct_rev2std),
   (_root_.Ntt.ntt_ct_std2rev, Ntt.ntt_ct_std2rev),
   (_root_.Ntt.ntt_gs_rev2std, Ntt.ntt_gs_rev2std),
   (_root_.Ntt.ntt_gs_std2rev, Ntt.ntt_gs_std2rev),
   (_root_.Ntt.mulntt_ct_rev2std, Ntt.mulntt_ct_rev2std),
   (_root_.Ntt.mulntt_ct_std2rev, Ntt.mulntt_ct_std2rev),
   (_root_.Ntt.nttmul_gs_rev2std, Ntt.nttmul_gs_rev2std),
   (_root_.Ntt.nttmul_gs_std2rev, Ntt.nttmul_gs_std2rev),
   (_root_.NttRed.mul_reduce_array16, NttRed.mul_reduce_array16),
   (_root_.NttRed.ntt_red_ct_rev2std, NttRed.ntt_red_ct_rev2std),
   (_root_.NttRed.ntt_red_ct_std2rev, NttRed.ntt_red_ct_std2rev),
   (_root_.NttRed.ntt_red_gs_rev2std, NttRed.ntt_red_gs_rev2std),
   (_root_.NttRed.ntt_red_gs_std2rev, NttRed.ntt_red_gs_std2rev),
   (_root_.NttRed.mulntt_red_ct_rev2std, NttRed.mulntt_red_ct_rev2std),
   (_root_.NttRed.mulntt_red_ct_std2rev, NttRed.mulntt_red_ct_std2rev),
   (_root_.NttRed.nttmul_red_gs_rev2std, NttRed.nttmul_red_gs_rev2std),
   (_root_.NttRed.nttmul_red_gs_std2rev, NttRed.nttmul_red_gs_std2rev),
   (_root_.Asm.mul_reduce_array16_asm, AsmPoly.mul_reduce_array16_asm shared),
   (_root_.Asm.mul_reduce_array16_asm2, AsmPoly.mul_reduce_array16_asm2 shared),
   (_root_.Asm.ntt_red_ct_rev2std_asm, AsmPoly.ntt_red_ct_rev2std_asm shared),
   (_root_.Asm.ntt_red_ct_std2rev_asm, AsmPoly.ntt_red_ct_std2rev_asm shared),
   (_root_.Asm.ntt_red_gs_rev2std_asm, AsmPoly.ntt_red_gs_rev2std_asm shared),
   (_root_.Asm.ntt_red_gs_std2rev_asm, AsmPoly.ntt_red_gs_std2rev_asm shared),
   (_root_.Asm.mulntt_red_ct_rev2std_asm, AsmPoly.mulntt_red_ct_rev2std_asm shared),
   (_root_.Asm.mulntt_red_ct_std2rev_asm, AsmPoly.mulntt_red_ct_std2rev_asm shared),
   (_root_.Asm.nttmul_red_gs_rev2std_asm, AsmPoly.nttmul_red_gs_rev2std_asm shared),
   (_root_.Asm.nttmul_red_gs_std2rev_asm, AsmPoly.nttmul_red_gs_std2rev_asm shared)]

/-- Functions `f(a, n)` that update `a`. -/
def plainFunctions : List ((Array Int → Nat → M (Array Int)) × (Ref → Nat → Prog Ref)) :=
  [(_root_.Ntt.bitrev_shuffle, Ntt.bitrev_shuffle),
   (_root_.NttRed.normalize, NttRed.normalize),
   (_root_.NttRed.normalize_inv3, NttRed.normalize_inv3),
   (_root_.NttRed.shift_array, NttRed.shift_array),
   (_root_.NttRed.reduce_array, NttRed.reduce_array),
   (_root_.NttRed.reduce_array_twice, NttRed.reduce_array_twice),
   (_root_.NttRed.correct, NttRed.correct),
   (_root_.Asm.reduce_array_asm, AsmPoly.reduce_array_asm shared),
   (_root_.Asm.reduce_array_asm2, AsmPoly.reduce_array_asm2 shared),
   (_root_.Asm.reduce_array_twice_asm, AsmPoly.reduce_array_twice_asm shared),
   (_root_.Asm.reduce_array_twice_asm2, AsmPoly.reduce_array_twice_asm2 shared),
   (_root_.Asm.correct_asm, AsmPoly.correct_asm shared),
   (_root_.Asm.shift_array_asm, AsmPoly.shift_array_asm shared)]

/-- Functions `f(a, n, c)` that update `a`; for the assembly function `c` is the content of a register. -/
def scalarFunctions : List ((Array Int → Nat → Int → M (Array Int)) × (Ref → Nat → Int → Prog Ref)) :=
  [(_root_.Ntt.scalar_mul_array, Ntt.scalar_mul_array),
   (_root_.NttRed.scalar_mul_reduce_array, NttRed.scalar_mul_reduce_array),
   (_root_.Asm.scalar_mul_reduce_array_asm, AsmPoly.scalar_mul_reduce_array_asm shared)]

/-- Functions `f(a, n, p, q)` of src/naive_ntt.c that update `a` and read `p`. -/
def naiveFunctions : List ((Array Int → Nat → Array Int → Int → M (Array Int)) × (Ref → Nat → Ref → Int → Prog Ref)) :=
  [(_root_.Naive.mul_array16, Naive.mul_array16),
   (_root_.Naive.ntt_ct_rev2std, Naive.ntt_ct_rev2std),
   (_root_.Naive.ntt_ct_std2rev, Naive.ntt_ct_std2rev),
   (_root_.Naive.ntt_gs_rev2std, Naive.ntt_gs_rev2std),
   (_root_.Naive.ntt_gs_std2rev, Naive.ntt_gs_std2rev),
   (_root_.Naive.mulntt_ct_rev2std, Naive.mulntt_ct_rev2std),
   (_root_.Naive.mulntt_ct_std2rev, Naive.mulntt_ct_std2rev),
   (_root_.Naive.nttmul_gs_rev2std, Naive.nttmul_gs_rev2std),
   (_root_.Naive.nttmul_gs_std2rev, Naive.nttmul_gs_std2rev)]

/-- `P` is a call of a function that updates the array `h` and may read the array `p`; `x` is the result for the
contents of these arrays. -/
inductive InPlace (μ : Mem) (h p : Ref) : M (Array Int) → Prog Ref → Prop where
  | table {f : Array Int → Nat → Array Int → M (Array Int)} {F : Ref → Nat → Ref → Prog Ref}
      (hf : (f, F) ∈ tableFunctions) (n : Nat) : InPlace μ h p (f (μ h) n (μ p)) (F h n p)
  | plain {f : Array Int → Nat → M (Array Int)} {F : Ref → Nat → Prog Ref}
      (hf : (f, F) ∈ plainFunctions) (n : Nat) : InPlace μ h p (f (μ h) n) (F h n)
  | scalar {f : Array Int → Nat → Int → M (Array Int)} {F : Ref → Nat → Int → Prog Ref}
      (hf : (f, F) ∈ scalarFunctions) (n : Nat) (c : Int) : InPlace μ h p (f (μ h) n c) (F h n c)
  | naive {f : Array Int → Nat → Array Int → Int → M (Array Int)} {F : Ref → Nat → Ref → Int → Prog Ref}
      (hf : (f, F) ∈ naiveFunctions) (n : Nat) (q : Int) : InPlace μ h p (f (μ h) n (μ p) q) (F h n p q)
  | shuffle (p' : Array (Nat × Nat)) (n : Nat) :
      InPlace μ h p (_root_.Ntt.shuffle_with_table (μ h) p' n) (Ntt.shuffle_with_table h p' n)

end Shared
