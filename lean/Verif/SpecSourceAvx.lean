import Verif.SpecSourceFun
import Verif.SpecSourceChecks
import Verif.SpecAsm
import Verif.Model.TestTables

/-
Specification for C97: the functions that src/test_ntt_avx.c compares, executed from the text of src/test_ntt_avx.c, src/ntt_red.c and
src/ntt_asm.S.
-/

namespace CLang
open C Spec X86 AsmRead TestTables

/-- A comparison: the function of test_ntt_avx.c that calls assembly, the function that calls C, the function in assembly, the size, and the name
and the entries of the table (`int16_t` arrays of src/test_ntt_red_tables.c). -/
structure Compared where
  asm : Name
  base : Name
  callee : Name
  n : Nat
  table : Name
  entries : Array Int

/-- The 48 comparisons (calls of `cross_check`, src/test_ntt_avx.c:788-1008). -/
def compared : List Compared := [
  ⟨n!"ntt_ct_rev2std16_asm", n!"ntt_ct_rev2std16_base", n!"ntt_red_ct_rev2std_asm", 16, n!"shoup_sred_ntt16_12289", shoup_sred_ntt16_12289⟩,
  ⟨n!"ntt_ct_rev2std128_asm", n!"ntt_ct_rev2std128_base", n!"ntt_red_ct_rev2std_asm", 128, n!"shoup_sred_ntt128_12289", shoup_sred_ntt128_12289⟩,
  ⟨n!"ntt_ct_rev2std256_asm", n!"ntt_ct_rev2std256_base", n!"ntt_red_ct_rev2std_asm", 256, n!"shoup_sred_ntt256_12289", shoup_sred_ntt256_12289⟩,
  ⟨n!"ntt_ct_rev2std512_asm", n!"ntt_ct_rev2std512_base", n!"ntt_red_ct_rev2std_asm", 512, n!"shoup_sred_ntt512_12289", shoup_sred_ntt512_12289⟩,
  ⟨n!"ntt_ct_rev2std1024_asm", n!"ntt_ct_rev2std1024_base", n!"ntt_red_ct_rev2std_asm", 1024, n!"shoup_sred_ntt1024_12289", shoup_sred_ntt1024_12289⟩,
  ⟨n!"ntt_ct_rev2std2048_asm", n!"ntt_ct_rev2std2048_base", n!"ntt_red_ct_rev2std_asm", 2048, n!"shoup_sred_ntt2048_12289", shoup_sred_ntt2048_12289⟩,
  ⟨n!"mulntt_ct_rev2std16_asm", n!"mulntt_ct_rev2std16_base", n!"mulntt_red_ct_rev2std_asm", 16, n!"shoup_sred_ntt16_12289", shoup_sred_ntt16_12289⟩,
  ⟨n!"mulntt_ct_rev2std128_asm", n!"mulntt_ct_rev2std128_base", n!"mulntt_red_ct_rev2std_asm", 128, n!"shoup_sred_ntt128_12289", shoup_sred_ntt128_12289⟩,
  ⟨n!"mulntt_ct_rev2std256_asm", n!"mulntt_ct_rev2std256_base", n!"mulntt_red_ct_rev2std_asm", 256, n!"shoup_sred_ntt256_12289", shoup_sred_ntt256_12289⟩,
  ⟨n!"mulntt_ct_rev2std512_asm", n!"mulntt_ct_rev2std512_base", n!"mulntt_red_ct_rev2std_asm", 512, n!"shoup_sred_ntt512_12289", shoup_sred_ntt512_12289⟩,
  ⟨n!"mulntt_ct_rev2std1024_asm", n!"mulntt_ct_rev2std1024_base", n!"mulntt_red_ct_rev2std_asm", 1024, n!"shoup_sred_ntt1024_12289", shoup_sred_ntt1024_12289⟩,
  ⟨n!"mulntt_ct_rev2std2048_asm", n!"mulntt_ct_rev2std2048_base", n!"mulntt_red_ct_rev2std_asm", 2048, n!"shoup_sred_ntt2048_12289", shoup_sred_ntt2048_12289⟩,
  ⟨n!"ntt_ct_std2rev16_asm", n!"ntt_ct_std2rev16_base", n!"ntt_red_ct_std2rev_asm", 16, n!"rev_shoup_sred_ntt16_12289", rev_shoup_sred_ntt16_12289⟩,
  ⟨n!"ntt_ct_std2rev128_asm", n!"ntt_ct_std2rev128_base", n!"ntt_red_ct_std2rev_asm", 128, n!"rev_shoup_sred_ntt128_12289", rev_shoup_sred_ntt128_12289⟩,
  ⟨n!"ntt_ct_std2rev256_asm", n!"ntt_ct_std2rev256_base", n!"ntt_red_ct_std2rev_asm", 256, n!"rev_shoup_sred_ntt256_12289", rev_shoup_sred_ntt256_12289⟩,
  ⟨n!"ntt_ct_std2rev512_asm", n!"ntt_ct_std2rev512_base", n!"ntt_red_ct_std2rev_asm", 512, n!"rev_shoup_sred_ntt512_12289", rev_shoup_sred_ntt512_12289⟩,
  ⟨n!"ntt_ct_std2rev1024_asm", n!"ntt_ct_std2rev1024_base", n!"ntt_red_ct_std2rev_asm", 1024, n!"rev_shoup_sred_ntt1024_12289", rev_shoup_sred_ntt1024_12289⟩,
  ⟨n!"ntt_ct_std2rev2048_asm", n!"ntt_ct_std2rev2048_base", n!"ntt_red_ct_std2rev_asm", 2048, n!"rev_shoup_sred_ntt2048_12289", rev_shoup_sred_ntt2048_12289⟩,
  ⟨n!"mulntt_ct_std2rev16_asm", n!"mulntt_ct_std2rev16_base", n!"mulntt_red_ct_std2rev_asm", 16, n!"rev_shoup_sred_scaled_ntt16_12289", rev_shoup_sred_scaled_ntt16_12289⟩,
  ⟨n!"mulntt_ct_std2rev128_asm", n!"mulntt_ct_std2rev128_base", n!"mulntt_red_ct_std2rev_asm", 128, n!"rev_shoup_sred_scaled_ntt128_12289", rev_shoup_sred_scaled_ntt128_12289⟩,
  ⟨n!"mulntt_ct_std2rev256_asm", n!"mulntt_ct_std2rev256_base", n!"mulntt_red_ct_std2rev_asm", 256, n!"rev_shoup_sred_scaled_ntt256_12289", rev_shoup_sred_scaled_ntt256_12289⟩,
  ⟨n!"mulntt_ct_std2rev512_asm", n!"mulntt_ct_std2rev512_base", n!"mulntt_red_ct_std2rev_asm", 512, n!"rev_shoup_sred_scaled_ntt512_12289", rev_shoup_sred_scaled_ntt512_12289⟩,
  ⟨n!"mulntt_ct_std2rev1024_asm", n!"mulntt_ct_std2rev1024_base", n!"mulntt_red_ct_std2rev_asm", 1024, n!"rev_shoup_sred_scaled_ntt1024_12289", rev_shoup_sred_scaled_ntt1024_12289⟩,
  ⟨n!"mulntt_ct_std2rev2048_asm", n!"mulntt_ct_std2rev2048_base", n!"mulntt_red_ct_std2rev_asm", 2048, n!"rev_shoup_sred_scaled_ntt2048_12289", rev_shoup_sred_scaled_ntt2048_12289⟩,
  ⟨n!"ntt_gs_rev2std16_asm", n!"ntt_gs_rev2std16_base", n!"ntt_red_gs_rev2std_asm", 16, n!"rev_shoup_sred_ntt16_12289", rev_shoup_sred_ntt16_12289⟩,
  ⟨n!"ntt_gs_rev2std128_asm", n!"ntt_gs_rev2std128_base", n!"ntt_red_gs_rev2std_asm", 128, n!"rev_shoup_sred_ntt128_12289", rev_shoup_sred_ntt128_12289⟩,
  ⟨n!"ntt_gs_rev2std256_asm", n!"ntt_gs_rev2std256_base", n!"ntt_red_gs_rev2std_asm", 256, n!"rev_shoup_sred_ntt256_12289", rev_shoup_sred_ntt256_12289⟩,
  ⟨n!"ntt_gs_rev2std512_asm", n!"ntt_gs_rev2std512_base", n!"ntt_red_gs_rev2std_asm", 512, n!"rev_shoup_sred_ntt512_12289", rev_shoup_sred_ntt512_12289⟩,
  ⟨n!"ntt_gs_rev2std1024_asm", n!"ntt_gs_rev2std1024_base", n!"ntt_red_gs_rev2std_asm", 1024, n!"rev_shoup_sred_ntt1024_12289", rev_shoup_sred_ntt1024_12289⟩,
  ⟨n!"ntt_gs_rev2std2048_asm", n!"ntt_gs_rev2std2048_base", n!"ntt_red_gs_rev2std_asm", 2048, n!"rev_shoup_sred_ntt2048_12289", rev_shoup_sred_ntt2048_12289⟩,
  ⟨n!"nttmul_gs_rev2std16_asm", n!"nttmul_gs_rev2std16_base", n!"nttmul_red_gs_rev2std_asm", 16, n!"rev_shoup_sred_scaled_ntt16_12289", rev_shoup_sred_scaled_ntt16_12289⟩,
  ⟨n!"nttmul_gs_rev2std128_asm", n!"nttmul_gs_rev2std128_base", n!"nttmul_red_gs_rev2std_asm", 128, n!"rev_shoup_sred_scaled_ntt128_12289", rev_shoup_sred_scaled_ntt128_12289⟩,
  ⟨n!"nttmul_gs_rev2std256_asm", n!"nttmul_gs_rev2std256_base", n!"nttmul_red_gs_rev2std_asm", 256, n!"rev_shoup_sred_scaled_ntt256_12289", rev_shoup_sred_scaled_ntt256_12289⟩,
  ⟨n!"nttmul_gs_rev2std512_asm", n!"nttmul_gs_rev2std512_base", n!"nttmul_red_gs_rev2std_asm", 512, n!"rev_shoup_sred_scaled_ntt512_12289", rev_shoup_sred_scaled_ntt512_12289⟩,
  ⟨n!"nttmul_gs_rev2std1024_asm", n!"nttmul_gs_rev2std1024_base", n!"nttmul_red_gs_rev2std_asm", 1024, n!"rev_shoup_sred_scaled_ntt1024_12289", rev_shoup_sred_scaled_ntt1024_12289⟩,
  ⟨n!"nttmul_gs_rev2std2048_asm", n!"nttmul_gs_rev2std2048_base", n!"nttmul_red_gs_rev2std_asm", 2048, n!"rev_shoup_sred_scaled_ntt2048_12289", rev_shoup_sred_scaled_ntt2048_12289⟩,
  ⟨n!"ntt_gs_std2rev16_asm", n!"ntt_gs_std2rev16_base", n!"ntt_red_gs_std2rev_asm", 16, n!"shoup_sred_ntt16_12289", shoup_sred_ntt16_12289⟩,
  ⟨n!"ntt_gs_std2rev128_asm", n!"ntt_gs_std2rev128_base", n!"ntt_red_gs_std2rev_asm", 128, n!"shoup_sred_ntt128_12289", shoup_sred_ntt128_12289⟩,
  ⟨n!"ntt_gs_std2rev256_asm", n!"ntt_gs_std2rev256_base", n!"ntt_red_gs_std2rev_asm", 256, n!"shoup_sred_ntt256_12289", shoup_sred_ntt256_12289⟩,
  ⟨n!"ntt_gs_std2rev512_asm", n!"ntt_gs_std2rev512_base", n!"ntt_red_gs_std2rev_asm", 512, n!"shoup_sred_ntt512_12289", shoup_sred_ntt512_12289⟩,
  ⟨n!"ntt_gs_std2rev1024_asm", n!"ntt_gs_std2rev1024_base", n!"ntt_red_gs_std2rev_asm", 1024, n!"shoup_sred_ntt1024_12289", shoup_sred_ntt1024_12289⟩,
  ⟨n!"ntt_gs_std2rev2048_asm", n!"ntt_gs_std2rev2048_base", n!"ntt_red_gs_std2rev_asm", 2048, n!"shoup_sred_ntt2048_12289", shoup_sred_ntt2048_12289⟩,
  ⟨n!"nttmul_gs_std2rev16_asm", n!"nttmul_gs_std2rev16_base", n!"nttmul_red_gs_std2rev_asm", 16, n!"shoup_sred_scaled_ntt16_12289", shoup_sred_scaled_ntt16_12289⟩,
  ⟨n!"nttmul_gs_std2rev128_asm", n!"nttmul_gs_std2rev128_base", n!"nttmul_red_gs_std2rev_asm", 128, n!"shoup_sred_scaled_ntt128_12289", shoup_sred_scaled_ntt128_12289⟩,
  ⟨n!"nttmul_gs_std2rev256_asm", n!"nttmul_gs_std2rev256_base", n!"nttmul_red_gs_std2rev_asm", 256, n!"shoup_sred_scaled_ntt256_12289", shoup_sred_scaled_ntt256_12289⟩,
  ⟨n!"nttmul_gs_std2rev512_asm", n!"nttmul_gs_std2rev512_base", n!"nttmul_red_gs_std2rev_asm", 512, n!"shoup_sred_scaled_ntt512_12289", shoup_sred_scaled_ntt512_12289⟩,
  ⟨n!"nttmul_gs_std2rev1024_asm", n!"nttmul_gs_std2rev1024_base", n!"nttmul_red_gs_std2rev_asm", 1024, n!"shoup_sred_scaled_ntt1024_12289", shoup_sred_scaled_ntt1024_12289⟩,
  ⟨n!"nttmul_gs_std2rev2048_asm", n!"nttmul_gs_std2rev2048_base", n!"nttmul_red_gs_std2rev_asm", 2048, n!"shoup_sred_scaled_ntt2048_12289", shoup_sred_scaled_ntt2048_12289⟩]

/-- On the array `a` both functions of a comparison compute the array `a'`. -/
structure Agree (F : Asm) (P : Prog) (c : Compared) (a a' : Array Int) : Prop where
  /-- The one that calls C, with or without assertions: it returns without undefined behaviour, stores `a'`, and changes nothing else. -/
  base : ∀ (G : Name → Option Cell) (mem : Nat → Obj) (o : Nat), Tab G mem [o] c.table .i16 c.entries → mem o = ⟨.i32, a⟩ →
    Sets P G c.base [.ptr o 0 1] mem o a' ∧ Sets (release P) G c.base [.ptr o 0 1] mem o a'
  /-- The other one makes one call of a function in assembly, with the array, the size and the table. -/
  calls : callsOf P c.asm [n!"a"] = some [(c.callee, [.var n!"a", .num c.n, .var c.table])]
  /-- This call returns and stores `a'`, and changes nothing else. -/
  asm : ∀ (K : Machine) (A T : Word) (s : X86.State), AsmCall F K A a s → X86.Table K A a s T c.entries → s.gpr rdx = T →
    AsmReturns F K c.callee A a s a'

/-- The exponent `k` of each size `2^k`, and the `2 * 2^k`-th root of unity for which its tables are made (src/test_ntt_red_tables.c). -/
def roots : List (Nat × Nat) := [(4, 1212), (7, 1022), (8, 1002), (9, 1003), (10, 1014), (11, 1016)]

/-- What the functions in assembly compute, with the tables of test_ntt_avx.c: the transform of `A`, for arrays in standard or in bit-reverse order,
with `mulntt` of `A i * ψ ^ i`, with `nttmul` component `i` times `ψ ^ i`.  For `mulntt_red_ct_rev2std_asm` the test uses the table that is not
scaled, so the result is the transform of `A`. -/
def meanings : List (Name × (Nat → Zq → (Nat → Zq) → Nat → Zq)) := [
  (n!"ntt_red_ct_rev2std_asm", fun k ψ A i => ntt (2 ^ k) (ψ ^ 2) (fun l => A (rev k l)) i),
  (n!"mulntt_red_ct_rev2std_asm", fun k ψ A i => ntt (2 ^ k) (ψ ^ 2) (fun l => A (rev k l)) i),
  (n!"ntt_red_ct_std2rev_asm", fun k ψ A i => ntt (2 ^ k) (ψ ^ 2) A (rev k i)),
  (n!"mulntt_red_ct_std2rev_asm", fun k ψ A i => ntt (2 ^ k) (ψ ^ 2) (fun l => A l * ψ ^ l) (rev k i)),
  (n!"ntt_red_gs_rev2std_asm", fun k ψ A i => ntt (2 ^ k) (ψ ^ 2) (fun l => A (rev k l)) i),
  (n!"nttmul_red_gs_rev2std_asm", fun k ψ A i => ψ ^ i * ntt (2 ^ k) (ψ ^ 2) (fun l => A (rev k l)) i),
  (n!"ntt_red_gs_std2rev_asm", fun k ψ A i => ntt (2 ^ k) (ψ ^ 2) A (rev k i)),
  (n!"nttmul_red_gs_std2rev_asm", fun k ψ A i => ψ ^ rev k i * ntt (2 ^ k) (ψ ^ 2) A (rev k i))]

/-- `copy_array(b, a, n)` copies an array of size `n`. -/
def CopiesArrays (P : Prog) : Prop :=
  ∀ G mem oa ob a b (n : Nat) t, mem oa = ⟨.i32, a⟩ → mem ob = ⟨.i32, b⟩ → oa ≠ ob → Int32s a → Int32s b → a.size = n → b.size = n → n < 4294967296 →
    Calls P G n!"copy_array" [.ptr ob 0 1, .ptr oa 0 1, .int t (n : Nat)] mem (setMem mem ob ⟨.i32, a⟩)

/-! ### Which comparisons the text makes

`run_tests` and `tests<n>` (src/test_ntt_avx.c:788-1018) are not in the language (functions as arguments, `printf`), so their comparisons are taken
from the tokens of the file. -/

/-- The tokens up to the first `}`. -/
def upToBrace : List Tok → List Tok
  | [] => []
  | t :: l => if t = .op 125 then [] else t :: upToBrace l

/-- The tokens of the body of `f(void) { ... }`. -/
def bodyOf (f : Name) : List Tok → Option (List Tok)
  | .id g :: .op 40 :: .id v :: .op 41 :: .op 123 :: l =>
    if Nat.beq g f && Nat.beq v n!"void" then some (upToBrace l) else bodyOf f l
  | _ :: l => bodyOf f l
  | [] => none

/-- The functions called by `f(); g(); ...`. -/
def plainCalls : List Tok → Option (List Name)
  | [] => some []
  | .id f :: .op 40 :: .op 41 :: .op 59 :: l => (plainCalls l).map (f :: ·)
  | _ => none

/-- The tokens behind the first `;`. -/
def behind : List Tok → List Tok
  | [] => []
  | t :: l => if t = .op 59 then l else behind l

/-- The calls `cross_check("...", n, f, g);` in a sequence of such calls and of calls of `printf` and `speed_test2`. -/
def crossChecks : Nat → List Tok → Option (List (Nat × Name × Name))
  | _, [] => some []
  | k + 1, .id h :: .op 40 :: .str _ :: l =>
    if Nat.beq h n!"cross_check" then
      match l with
      | .op 44 :: .num n :: .op 44 :: .id f :: .op 44 :: .id g :: .op 41 :: .op 59 :: l => (crossChecks k l).map ((n, f, g) :: ·)
      | _ => none
    else if Nat.beq h n!"printf" || Nat.beq h n!"speed_test2" then crossChecks k (behind l) else none
  | _, _ => none

/-- The comparisons made by `run_tests()`, in order: size, first and second function. -/
def comparisonsOf (text : Nat) : Option (List (Nat × Name × Name)) := do
  let toks := tokensOf text
  let ts ← (bodyOf n!"run_tests" toks).bind plainCalls
  let ls ← ts.mapM fun t => (bodyOf t toks).bind (crossChecks 1000)
  some ls.flatten

end CLang
