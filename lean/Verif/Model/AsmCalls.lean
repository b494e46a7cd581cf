import Verif.Model.Code

/-
The products of src/ntt_red_asm<n>.c as lists of calls of functions of src/ntt_asm.S: the body of each product is such a list,
after replacing the inline functions of src/ntt_red_asm<n>.h (lines 30-36, 39-45, 60-67) by their body.  Line numbers of the products are those of
src/ntt_red_asm1024.c and src/ntt_red_asm16.c, as in `Verif/Model/AsmProducts.lean`; `sh` is true when the inputs are shifted (sizes
16, 256 and 512).
-/

namespace AsmCalls

/-- The arguments of a product (src/ntt_red_asm16.c:17). -/
inductive Arg where
  | c | a | b
  deriving DecidableEq, Repr

/-- The tables of src/ntt_red<n>_tables.h. -/
inductive Tbl where
  | psi_powers | scaled_inv_psi_powers | scaled_inv_psi_powers_var | omega_powers | omega_powers_rev | inv_omega_powers
  | inv_omega_powers_rev | mixed_powers | mixed_powers_rev | inv_mixed_powers | inv_mixed_powers_rev
  deriving DecidableEq, Repr

/-- Calls (the prototypes are in src/ntt_asm.h). -/
inductive Op where
  /-- `f(x, n)` -/
  | one (f : Code.Label) (x : Arg)
  /-- `f(x, n, p)` -/
  | table (f : Code.Label) (x : Arg) (p : Tbl)
  /-- `mul_reduce_array_asm(x, n, y, z)` -/
  | mul (x y z : Arg)
  /-- `scalar_mul_reduce_array_asm(x, n, v)` -/
  | scalar (x : Arg) (v : Int)
  deriving DecidableEq, Repr

/-- `shift_array_asm(x, n)` at the beginning of the products for 16, 256 and 512 (src/ntt_red_asm16.c:18, 23, ..). -/
def shift (sh : Bool) (x : Arg) : List Op := if sh then [.one .shift_array_asm x] else []

/-- src/ntt_red_asm16.c:17-39 -/
def product1 (sh : Bool) : List Op :=
  shift sh .a ++ [
    .table .mul_reduce_array16_asm .a .psi_powers,
    .table .ntt_red_ct_std2rev_asm .a .omega_powers_rev,
    .one .reduce_array_asm .a] ++
  shift sh .b ++ [
    .table .mul_reduce_array16_asm .b .psi_powers,
    .table .ntt_red_ct_std2rev_asm .b .omega_powers_rev,
    .one .reduce_array_asm .b,
    .mul .c .a .b,
    .one .reduce_array_twice_asm .c,
    .table .ntt_red_ct_rev2std_asm .c .inv_omega_powers,
    .table .mul_reduce_array16_asm .c .scaled_inv_psi_powers,
    .one .reduce_array_twice_asm .c,
    .one .correct_asm .c]

/-- `ntt_red1024_product1_asm`, src/ntt_red_asm1024.c:17-37 -/
def product1_1024 : List Op := [
    .table .mul_reduce_array16_asm .a .psi_powers,
    .table .ntt_red_ct_std2rev_asm .a .omega_powers_rev,
    .one .reduce_array_asm .a,
    .table .mul_reduce_array16_asm .b .psi_powers,
    .table .ntt_red_ct_std2rev_asm .b .omega_powers_rev,
    .one .reduce_array_asm .b,
    .mul .c .a .b,
    .table .ntt_red_ct_rev2std_asm .c .inv_omega_powers,
    .table .mul_reduce_array16_asm .c .scaled_inv_psi_powers_var,
    .one .reduce_array_twice_asm .c,
    .one .correct_asm .c]

/-- src/ntt_red_asm1024.c:39-61, src/ntt_red_asm16.c:41-63 -/
def product2 (sh : Bool) : List Op :=
  shift sh .a ++ [
    .table .mul_reduce_array16_asm .a .psi_powers,
    .table .ntt_red_gs_std2rev_asm .a .omega_powers,
    .one .reduce_array_asm .a] ++
  shift sh .b ++ [
    .table .mul_reduce_array16_asm .b .psi_powers,
    .table .ntt_red_gs_std2rev_asm .b .omega_powers,
    .one .reduce_array_asm .b,
    .mul .c .a .b,
    .one .reduce_array_twice_asm .c,
    .table .ntt_red_ct_rev2std_asm .c .inv_omega_powers,
    .table .mul_reduce_array16_asm .c .scaled_inv_psi_powers,
    .one .reduce_array_twice_asm .c,
    .one .correct_asm .c]

/-- src/ntt_red_asm1024.c:63-85, src/ntt_red_asm16.c:65-87 -/
def product3 (sh : Bool) : List Op :=
  shift sh .a ++ [
    .table .mul_reduce_array16_asm .a .psi_powers,
    .table .ntt_red_ct_std2rev_asm .a .omega_powers_rev,
    .one .reduce_array_asm .a] ++
  shift sh .b ++ [
    .table .mul_reduce_array16_asm .b .psi_powers,
    .table .ntt_red_ct_std2rev_asm .b .omega_powers_rev,
    .one .reduce_array_asm .b,
    .mul .c .a .b,
    .one .reduce_array_twice_asm .c,
    .table .ntt_red_gs_rev2std_asm .c .inv_omega_powers_rev,
    .table .mul_reduce_array16_asm .c .scaled_inv_psi_powers,
    .one .reduce_array_twice_asm .c,
    .one .correct_asm .c]

/-- src/ntt_red_asm1024.c:87-109, src/ntt_red_asm16.c:89-111 -/
def product4 (sh : Bool) : List Op :=
  shift sh .a ++ [
    .table .mul_reduce_array16_asm .a .psi_powers,
    .table .ntt_red_gs_std2rev_asm .a .omega_powers,
    .one .reduce_array_asm .a] ++
  shift sh .b ++ [
    .table .mul_reduce_array16_asm .b .psi_powers,
    .table .ntt_red_gs_std2rev_asm .b .omega_powers,
    .one .reduce_array_asm .b,
    .mul .c .a .b,
    .one .reduce_array_twice_asm .c,
    .table .ntt_red_gs_rev2std_asm .c .inv_omega_powers_rev,
    .table .mul_reduce_array16_asm .c .scaled_inv_psi_powers,
    .one .reduce_array_twice_asm .c,
    .one .correct_asm .c]

/-- src/ntt_red_asm1024.c:111-127, src/ntt_red_asm16.c:113-129; `rescale8` is the constant `ntt_red<n>_rescale8`. -/
def product5 (rescale8 : Int) (sh : Bool) : List Op :=
  shift sh .a ++ [
    .table .mulntt_red_ct_std2rev_asm .a .mixed_powers_rev,
    .one .reduce_array_asm .a] ++
  shift sh .b ++ [
    .table .mulntt_red_ct_std2rev_asm .b .mixed_powers_rev,
    .one .reduce_array_asm .b,
    .mul .c .a .b,
    .one .reduce_array_twice_asm .c,
    .table .nttmul_red_gs_rev2std_asm .c .inv_mixed_powers_rev,
    .scalar .c rescale8,
    .one .reduce_array_twice_asm .c,
    .one .correct_asm .c]

end AsmCalls
