import Verif.Model.TestNtt
import Verif.Model.NttRed

/-
Model of src/test_ntt_red.c, which tests the functions of src/ntt_red.h for n = 16, 128, 256, 512, 1024, 2048.

`power`, `check_ntt_simple`, `check_ntt_ntt_simple`, `test_simple_polys`, `speed_test`, `average_time` and `median_time`
(src/test_ntt_red.c:33-57, 117-204, 263-287) are the same text as in src/test_ntt.c (Model/TestNtt.lean).  The functions to
test are the same for the six sizes up to the tables, so they are modelled once, for a record of tables.
-/

namespace TestNttRed
open C TestProg TestTables TestNtt

/-- What the functions of a size use. -/
structure Size where
  n : Nat
  /-- `bitrev_shuffle(a, 16)` or `bitrev_shuffle<n>` (src/test_ntt_red.c:89-107) -/
  shuffle : Array Int → M (Array Int)
  shoup_sred : Array Int
  rev_shoup_sred : Array Int
  omega : Int

/-- Size 16 (src/test_ntt_red.c:294-348, 789-797). -/
def size16 : Size where
  n := 16
  shuffle := fun a => Ntt.bitrev_shuffle a 16
  shoup_sred := shoup_sred_ntt16_12289
  rev_shoup_sred := rev_shoup_sred_ntt16_12289
  omega := 6553

/-- Size 128 (src/test_ntt_red.c:89-91, 351-405, 800-808). -/
def size128 : Size where
  n := 128
  shuffle := fun a => Ntt.shuffle_with_table a bitrev128_pair BITREV128_NPAIRS
  shoup_sred := shoup_sred_ntt128_12289
  rev_shoup_sred := rev_shoup_sred_ntt128_12289
  omega := 12208

/-- Size 256 (src/test_ntt_red.c:93-95, 408-462, 811-819). -/
def size256 : Size where
  n := 256
  shuffle := fun a => Ntt.shuffle_with_table a bitrev256_pair BITREV256_NPAIRS
  shoup_sred := shoup_sred_ntt256_12289
  rev_shoup_sred := rev_shoup_sred_ntt256_12289
  omega := 8595

/-- Size 512 (src/test_ntt_red.c:97-99, 465-519, 822-830). -/
def size512 : Size where
  n := 512
  shuffle := fun a => Ntt.shuffle_with_table a bitrev512_pair BITREV512_NPAIRS
  shoup_sred := shoup_sred_ntt512_12289
  rev_shoup_sred := rev_shoup_sred_ntt512_12289
  omega := 10600

/-- Size 1024 (src/test_ntt_red.c:101-103, 522-576, 833-841). -/
def size1024 : Size where
  n := 1024
  shuffle := fun a => Ntt.shuffle_with_table a bitrev1024_pair BITREV1024_NPAIRS
  shoup_sred := shoup_sred_ntt1024_12289
  rev_shoup_sred := rev_shoup_sred_ntt1024_12289
  omega := 8209

/-- Size 2048 (src/test_ntt_red.c:105-107, 579-633, 844-852). -/
def size2048 : Size where
  n := 2048
  shuffle := fun a => Ntt.shuffle_with_table a bitrev2048_pair BITREV2048_NPAIRS
  shoup_sred := shoup_sred_ntt2048_12289
  rev_shoup_sred := rev_shoup_sred_ntt2048_12289
  omega := 12269

/-- `ntt<n>_red_ct_rev2std` (src/test_ntt_red.c:294-299, 351-356, ...). -/
def ct_rev2std (S : Size) (a : Array Int) : M (Array Int) := do
  let a ← NttRed.shift_array a S.n
  let a ← S.shuffle a
  let a ← NttRed.ntt_red_ct_rev2std a S.n S.shoup_sred
  NttRed.normalize a S.n

/-- `ntt<n>_red_ct_std2rev` (src/test_ntt_red.c:301-306, ...). -/
def ct_std2rev (S : Size) (a : Array Int) : M (Array Int) := do
  let a ← NttRed.shift_array a S.n
  let a ← NttRed.ntt_red_ct_std2rev a S.n S.rev_shoup_sred
  let a ← NttRed.normalize a S.n
  S.shuffle a

/-- `ntt<n>_red_gs_rev2std` (src/test_ntt_red.c:308-313, ...). -/
def gs_rev2std (S : Size) (a : Array Int) : M (Array Int) := do
  let a ← NttRed.shift_array a S.n
  let a ← S.shuffle a
  let a ← NttRed.ntt_red_gs_rev2std a S.n S.rev_shoup_sred
  NttRed.normalize a S.n

/-- `ntt<n>_red_gs_std2rev` (src/test_ntt_red.c:315-320, ...). -/
def gs_std2rev (S : Size) (a : Array Int) : M (Array Int) := do
  let a ← NttRed.shift_array a S.n
  let a ← NttRed.ntt_red_gs_std2rev a S.n S.shoup_sred
  let a ← NttRed.normalize a S.n
  S.shuffle a

/-- `mulntt<n>_red_ct_rev2std` (src/test_ntt_red.c:322-327, 379-384, ...): `bitrev_shuffle(a, n)` for every size. -/
def mulct_rev2std (S : Size) (a : Array Int) : M (Array Int) := do
  let a ← NttRed.shift_array a S.n
  let a ← Ntt.bitrev_shuffle a S.n
  let a ← NttRed.mulntt_red_ct_rev2std a S.n S.shoup_sred
  NttRed.normalize a S.n

/-- `mulntt<n>_red_ct_std2rev` (src/test_ntt_red.c:329-334, ...). -/
def mulct_std2rev (S : Size) (a : Array Int) : M (Array Int) := do
  let a ← NttRed.shift_array a S.n
  let a ← NttRed.mulntt_red_ct_std2rev a S.n S.rev_shoup_sred
  let a ← NttRed.normalize a S.n
  Ntt.bitrev_shuffle a S.n

/-- `nttmul<n>_red_gs_rev2std` (src/test_ntt_red.c:336-341, ...). -/
def gsmul_rev2std (S : Size) (a : Array Int) : M (Array Int) := do
  let a ← NttRed.shift_array a S.n
  let a ← Ntt.bitrev_shuffle a S.n
  let a ← NttRed.nttmul_red_gs_rev2std a S.n S.rev_shoup_sred
  NttRed.normalize a S.n

/-- `nttmul<n>_red_gs_std2rev` (src/test_ntt_red.c:343-348, ...). -/
def gsmul_std2rev (S : Size) (a : Array Int) : M (Array Int) := do
  let a ← NttRed.shift_array a S.n
  let a ← NttRed.nttmul_red_gs_std2rev a S.n S.shoup_sred
  let a ← NttRed.normalize a S.n
  Ntt.bitrev_shuffle a S.n

/-- The functions tested for a size, in the order of `main` (src/test_ntt_red.c:789-797, ...). -/
def versions (S : Size) : List (Array Int → M (Array Int)) :=
  [ct_rev2std S, ct_std2rev S, gs_rev2std S, gs_std2rev S, mulct_rev2std S, mulct_std2rev S, gsmul_rev2std S, gsmul_std2rev S]

/-- The sizes, in the order of `main` (src/test_ntt_red.c:789-853). -/
def sizes : List Size := [size16, size128, size256, size512, size1024, size2048]

/-- The calls of `test_simple_polys` (src/test_ntt_red.c:789-853): size, function, root. -/
def polyTests : List (Nat × (Array Int → M (Array Int)) × Int) :=
  sizes.flatMap fun S => (versions S).map fun f => (S.n, f, S.omega)

/-- `speed_ntt<n>_red_ct_rev2std`, ..., `speed_ntt<n>_red_gs_std2rev` (src/test_ntt_red.c:639-721, 740-754). -/
def speedsOf (S : Size) : List (Array Int → M (Array Int)) :=
  [fun a => NttRed.ntt_red_ct_rev2std a S.n S.shoup_sred, fun a => NttRed.ntt_red_ct_std2rev a S.n S.rev_shoup_sred,
    fun a => NttRed.ntt_red_gs_rev2std a S.n S.rev_shoup_sred, fun a => NttRed.ntt_red_gs_std2rev a S.n S.shoup_sred]

/-- `speed_mulntt<n>_red_ct_rev2std`, ..., `speed_nttmul<n>_red_gs_std2rev` (src/test_ntt_red.c:723-737, 756-770), for
n = 1024 and 2048. -/
def speedsMul (S : Size) : List (Array Int → M (Array Int)) :=
  [fun a => NttRed.mulntt_red_ct_rev2std a S.n S.shoup_sred, fun a => NttRed.mulntt_red_ct_std2rev a S.n S.rev_shoup_sred,
    fun a => NttRed.nttmul_red_gs_rev2std a S.n S.rev_shoup_sred, fun a => NttRed.nttmul_red_gs_std2rev a S.n S.shoup_sred]

/-- The calls of `speed_test` in `main` (src/test_ntt_red.c:855-907); `speed_normalize<n>` at 774-784. -/
def speedTests : List (Nat × (Array Int → M (Array Int))) :=
  [size16, size128, size256, size512].flatMap (fun S => (speedsOf S).map fun f => (S.n, f)) ++
  [size1024, size2048].flatMap (fun S => (speedsOf S ++ speedsMul S).map fun f => (S.n, f)) ++
  [512, 1024, 2048].map fun n => (n, fun a => NttRed.normalize a n)

/-- The tests of `main` (src/test_ntt_red.c:789-853): the event counter. -/
def tests (w : World) : M Nat := polyTests.foldlM (fun k t => test_simple_polys w t.1 t.2.1 t.2.2 k) 0

/-- `main` (src/test_ntt_red.c:788-910): the pairs (median, average) displayed. -/
def main (w : World) : M (List (Nat × Nat)) := do
  let k ← tests w
  let s ← speedTests.foldlM (fun s t => speed_test w t.1 t.2 s) ⟨Array.replicate NTESTS 0, k, []⟩
  pure s.shown

end TestNttRed
