import Verif.Model.TestAvx
import Verif.Model.TestTables

/-
Model of src/test_ntt_avx.c: comparison of the assembler transforms with those of src/ntt_red.c, and measurements.  The conventions
are those of Model/TestAvx.lean.  `equal_arrays`, `random_coeff`, `random_array16` and `copy_array` (src/test_ntt_avx.c:105-127,
142-159) are the same text as in src/test_avx.c; `2 * n` does not overflow for the arguments used here, so the flag `wrap` is false.
The functions for the six sizes differ in the tables only, so they are modelled once, for a record of tables.  The parts between
`#if 0` and `#endif` (lines 201-222, 667-782) are not modelled.
-/

namespace TestNttAvx
open C TestTables
open TestProg (Speed NTESTS equal_arrays)
open TestAvx (World random_coeff random_array16 copy_array measure)

/-- The size and the tables of the functions for it. -/
structure Size where
  n : Nat
  shoup : Array Int
  rev_shoup : Array Int
  shoup_scaled : Array Int
  rev_shoup_scaled : Array Int

/-- Size 16 (src/test_ntt_avx.c:788-823, with the functions at 250-662). -/
def size16 : Size where
  n := 16
  shoup := shoup_sred_ntt16_12289
  rev_shoup := rev_shoup_sred_ntt16_12289
  shoup_scaled := shoup_sred_scaled_ntt16_12289
  rev_shoup_scaled := rev_shoup_sred_scaled_ntt16_12289

/-- Size 128 (src/test_ntt_avx.c:825-860, with the functions at 250-662). -/
def size128 : Size where
  n := 128
  shoup := shoup_sred_ntt128_12289
  rev_shoup := rev_shoup_sred_ntt128_12289
  shoup_scaled := shoup_sred_scaled_ntt128_12289
  rev_shoup_scaled := rev_shoup_sred_scaled_ntt128_12289

/-- Size 256 (src/test_ntt_avx.c:862-897, with the functions at 250-662). -/
def size256 : Size where
  n := 256
  shoup := shoup_sred_ntt256_12289
  rev_shoup := rev_shoup_sred_ntt256_12289
  shoup_scaled := shoup_sred_scaled_ntt256_12289
  rev_shoup_scaled := rev_shoup_sred_scaled_ntt256_12289

/-- Size 512 (src/test_ntt_avx.c:899-934, with the functions at 250-662). -/
def size512 : Size where
  n := 512
  shoup := shoup_sred_ntt512_12289
  rev_shoup := rev_shoup_sred_ntt512_12289
  shoup_scaled := shoup_sred_scaled_ntt512_12289
  rev_shoup_scaled := rev_shoup_sred_scaled_ntt512_12289

/-- Size 1024 (src/test_ntt_avx.c:936-971, with the functions at 250-662). -/
def size1024 : Size where
  n := 1024
  shoup := shoup_sred_ntt1024_12289
  rev_shoup := rev_shoup_sred_ntt1024_12289
  shoup_scaled := shoup_sred_scaled_ntt1024_12289
  rev_shoup_scaled := rev_shoup_sred_scaled_ntt1024_12289

/-- Size 2048 (src/test_ntt_avx.c:973-1008, with the functions at 250-662). -/
def size2048 : Size where
  n := 2048
  shoup := shoup_sred_ntt2048_12289
  rev_shoup := rev_shoup_sred_ntt2048_12289
  shoup_scaled := shoup_sred_scaled_ntt2048_12289
  rev_shoup_scaled := rev_shoup_sred_scaled_ntt2048_12289

/-- An assembler function, the C function it is compared with, and the table used in the comparison. -/
structure Pair where
  asm : Array Int → Nat → Array Int → M (Array Int)
  base : Array Int → Nat → Array Int → M (Array Int)
  table : Size → Array Int

/-- `ntt_ct_rev2std<n>_asm`, `ntt_ct_rev2std<n>_base` (src/test_ntt_avx.c:250-296). -/
def ct_rev2std : Pair := ⟨Asm.ntt_red_ct_rev2std_asm, NttRed.ntt_red_ct_rev2std, Size.shoup⟩

/-- `mulntt_ct_rev2std<n>_asm`, `mulntt_ct_rev2std<n>_base` (src/test_ntt_avx.c:301-347), with the table that is not scaled. -/
def mulct_rev2std : Pair := ⟨Asm.mulntt_red_ct_rev2std_asm, NttRed.mulntt_red_ct_rev2std, Size.shoup⟩

/-- `ntt_ct_std2rev<n>_asm`, `ntt_ct_std2rev<n>_base` (src/test_ntt_avx.c:353-399). -/
def ct_std2rev : Pair := ⟨Asm.ntt_red_ct_std2rev_asm, NttRed.ntt_red_ct_std2rev, Size.rev_shoup⟩

/-- `mulntt_ct_std2rev<n>_asm`, `mulntt_ct_std2rev<n>_base` (src/test_ntt_avx.c:405-451). -/
def mulct_std2rev : Pair := ⟨Asm.mulntt_red_ct_std2rev_asm, NttRed.mulntt_red_ct_std2rev, Size.rev_shoup_scaled⟩

/-- `ntt_gs_rev2std<n>_asm`, `ntt_gs_rev2std<n>_base` (src/test_ntt_avx.c:458-504). -/
def gs_rev2std : Pair := ⟨Asm.ntt_red_gs_rev2std_asm, NttRed.ntt_red_gs_rev2std, Size.rev_shoup⟩

/-- `nttmul_gs_rev2std<n>_asm`, `nttmul_gs_rev2std<n>_base` (src/test_ntt_avx.c:511-557). -/
def gsmul_rev2std : Pair := ⟨Asm.nttmul_red_gs_rev2std_asm, NttRed.nttmul_red_gs_rev2std, Size.rev_shoup_scaled⟩

/-- `ntt_gs_std2rev<n>_asm`, `ntt_gs_std2rev<n>_base` (src/test_ntt_avx.c:564-610). -/
def gs_std2rev : Pair := ⟨Asm.ntt_red_gs_std2rev_asm, NttRed.ntt_red_gs_std2rev, Size.shoup⟩

/-- `nttmul_gs_std2rev<n>_asm`, `nttmul_gs_std2rev<n>_base` (src/test_ntt_avx.c:616-662). -/
def gsmul_std2rev : Pair := ⟨Asm.nttmul_red_gs_std2rev_asm, NttRed.nttmul_red_gs_std2rev, Size.shoup_scaled⟩

/-- The pairs in the order of `tests<n>` (e.g. src/test_ntt_avx.c:788-823). -/
def pairs : List Pair :=
  [ct_rev2std, mulct_rev2std, ct_std2rev, mulct_std2rev, gs_rev2std, gsmul_rev2std, gs_std2rev, gsmul_std2rev]

section
variable (w : World)

/-- `random_array` (src/test_ntt_avx.c:133-139). -/
def random_array (a : Array Int) (n k : Nat) : M (Array Int × Nat) :=
  forUp 0 n 1 (fun i s => do
    let x ← random_coeff false w 200000 s.2
    let a ← wr s.1 i x.1
    pure (a, x.2)) (a, k)

/-- `cross_check` (src/test_ntt_avx.c:167-190): the event counter; the state is `(a, b, c, k)`. -/
def cross_check (n : Nat) (f g : Array Int → M (Array Int)) (k : Nat) : M Nat := do
  let s ← forUp 0 100000 1 (fun _ (s : Array Int × Array Int × Array Int × Nat) => do
    let r ← random_array w s.1 n s.2.2.2
    let b ← copy_array s.2.1 r.1 n
    let c ← copy_array s.2.2.1 r.1 n
    let a ← f r.1
    let b ← g b
    let e ← equal_arrays a b n
    if !e then .error .abort else pure (a, b, c, r.2)) (w.junk n k, w.junk n (k + 1), w.junk n (k + 2), k + 3)
  pure s.2.2.2

/-- The global arrays (src/test_ntt_avx.c:198-199), with the array `t`, the event counter and the pairs shown. -/
structure Globals where
  a : Array Int
  p : Array Int
  s : Speed

/-- `speed_test2` (src/test_ntt_avx.c:225-245). -/
def speed_test2 (n : Nat) (f : Array Int → Nat → Array Int → M (Array Int)) (g : Globals) : M Globals := do
  let r ← random_array w g.a n g.s.k
  let q ← random_array16 false w g.p n r.2
  let m ← measure w (fun a => f a n q.1) r.1 { g.s with k := q.2 }
  pure ⟨m.1, q.1, m.2⟩

/-- The tests of one pair (e.g. src/test_ntt_avx.c:790-792). -/
def test_pair (S : Size) (g : Globals) (P : Pair) : M Globals := do
  let k ← cross_check w S.n (fun a => P.asm a S.n (P.table S)) (fun a => P.base a S.n (P.table S)) g.s.k
  let g ← speed_test2 w S.n P.base { g with s := { g.s with k := k } }
  speed_test2 w S.n P.asm g

/-- `tests16`, ..., `tests2048` (src/test_ntt_avx.c:788-1008). -/
def tests (S : Size) (g : Globals) : M Globals := pairs.foldlM (test_pair w S) g

/-- `run_tests` (src/test_ntt_avx.c:1011-1018): the pairs shown. -/
def run_tests : M (List (Nat × Nat)) := do
  let z := Array.replicate 2048 0
  let g ← [size16, size128, size256, size512, size1024, size2048].foldlM (fun g S => tests w S g)
    (⟨z, z, ⟨Array.replicate NTESTS 0, 0, []⟩⟩ : Globals)
  pure g.s.shown

/-- `main` (src/test_ntt_avx.c:1020-1028); `avx` says whether the processor supports AVX2. -/
def main (avx : Bool) : M (List (Nat × Nat)) := if avx then run_tests w else pure []

end
end TestNttAvx
