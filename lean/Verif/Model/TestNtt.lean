import Verif.Model.TestPrograms
import Verif.Model.TestTables

/-
Model of src/test_ntt.c, which tests the functions of src/ntt.h for n = 16, 256, 512, 1024.

The conventions are those of Model/TestPrograms.lean; `power`, `check_ntt_simple`, `check_ntt_ntt_simple`, `equal_arrays`,
`average_time` and `median_time` (src/test_ntt.c:36-55, 112-158, 195-202) are the same text as the functions modelled there.
The functions to test are the same for the four sizes up to the tables, so they are modelled once, for a record of tables.
-/

namespace TestNtt
open C TestProg TestTables

/-- A local array `int32_t a[n]` at event `k`: any contents. -/
def localArray (w : World) (n k : Nat) : Array Int := Array.ofFn (n := n) fun i => (w.junk k).getD i.val 0

/-- `for (i=0; i<n; i++) a[i] = 0; a[j] = 1;` (src/test_ntt.c:172-175, 217-222). -/
def set_poly (a : Array Int) (j n : Nat) : M (Array Int) := do
  let a ← forUp 0 n 1 (fun i a => wr a i 0) a
  wr a j 1

/-- One iteration of `test_simple_polys` (src/test_ntt.c:172-188). -/
def test_simple_poly (n : Nat) (f : Array Int → M (Array Int)) (omega : Int) (j : Nat) (a : Array Int) : M (Array Int) := do
  let a ← set_poly a j n
  let a ← f a
  let b ← check_ntt_simple a n j omega
  if !b then .error .abort
  else do
    let a ← f a
    let b ← check_ntt_ntt_simple a n j
    if !b then .error .abort else pure a

/-- `test_simple_polys` (src/test_ntt.c:166-190): returns the event counter. -/
def test_simple_polys (w : World) (n : Nat) (f : Array Int → M (Array Int)) (omega : Int) (k : Nat) : M Nat := do
  let _ ← forUp 0 n 1 (test_simple_poly n f omega) (localArray w n k)
  pure (k + 1)

/-- One iteration of `cross_check` (src/test_ntt.c:216-239). -/
def cross_check_poly (n : Nat) (f g : Array Int → M (Array Int)) (j : Nat) (s : Array Int × Array Int) :
    M (Array Int × Array Int) := do
  let s ← forUp 0 n 1 (fun i (s : Array Int × Array Int) => do
    let a ← wr s.1 i 0
    let b ← wr s.2 i 0
    pure (a, b)) s
  let a ← wr s.1 j 1
  let b ← wr s.2 j 1
  let a ← f a
  let b ← g b
  let e ← equal_arrays a b n
  if !e then .error .abort
  else do
    let a ← f a
    let b ← g b
    let e ← equal_arrays a b n
    if !e then .error .abort else pure (a, b)

/-- `cross_check` (src/test_ntt.c:209-241): returns the event counter. -/
def cross_check (w : World) (n : Nat) (f g : Array Int → M (Array Int)) (k : Nat) : M Nat := do
  let _ ← forUp 0 n 1 (cross_check_poly n f g) (localArray w n k, localArray w n (k + 1))
  pure (k + 2)

/-- `speed_test` (src/test_ntt.c:250-274). -/
def speed_test (w : World) (n : Nat) (f : Array Int → M (Array Int)) (s : Speed) : M Speed := do
  cassert (decide (n ≤ 12289))
  let a ← iota n (localArray w n s.k)
  measure w f a { s with k := s.k + 1 }

/-- What the functions of a size use. -/
structure Size where
  n : Nat
  /-- `bitrev_shuffle(a, 16)` or `bitrev_shuffle<n>` (src/test_ntt.c:87-97) -/
  shuffle : Array Int → M (Array Int)
  psi_powers : Array Int
  shoup : Array Int
  rev_shoup : Array Int
  shoup_scaled : Array Int
  rev_shoup_scaled : Array Int
  omega : Int

/-- Size 16 (src/test_ntt.c:280-324, 679). -/
def size16 : Size where
  n := 16
  shuffle := fun a => Ntt.bitrev_shuffle a 16
  psi_powers := psi_powers_ntt16_12289
  shoup := shoup_ntt16_12289
  rev_shoup := rev_shoup_ntt16_12289
  shoup_scaled := shoup_scaled_ntt16_12289
  rev_shoup_scaled := rev_shoup_scaled_ntt16_12289
  omega := 6553

/-- Size 256 (src/test_ntt.c:87-89, 327-350, 690). -/
def size256 : Size where
  n := 256
  shuffle := fun a => Ntt.shuffle_with_table a bitrev256_pair BITREV256_NPAIRS
  psi_powers := psi_powers_ntt256_12289
  shoup := shoup_ntt256_12289
  rev_shoup := rev_shoup_ntt256_12289
  shoup_scaled := shoup_scaled_ntt256_12289
  rev_shoup_scaled := rev_shoup_scaled_ntt256_12289
  omega := 8595

/-- Size 512 (src/test_ntt.c:91-93, 353-376, 697). -/
def size512 : Size where
  n := 512
  shuffle := fun a => Ntt.shuffle_with_table a bitrev512_pair BITREV512_NPAIRS
  psi_powers := psi_powers_ntt512_12289
  shoup := shoup_ntt512_12289
  rev_shoup := rev_shoup_ntt512_12289
  shoup_scaled := shoup_scaled_ntt512_12289
  rev_shoup_scaled := rev_shoup_scaled_ntt512_12289
  omega := 10600

/-- Size 1024 (src/test_ntt.c:95-97, 379-402, 704). -/
def size1024 : Size where
  n := 1024
  shuffle := fun a => Ntt.shuffle_with_table a bitrev1024_pair BITREV1024_NPAIRS
  psi_powers := psi_powers_ntt1024_12289
  shoup := shoup_ntt1024_12289
  rev_shoup := rev_shoup_ntt1024_12289
  shoup_scaled := shoup_scaled_ntt1024_12289
  rev_shoup_scaled := rev_shoup_scaled_ntt1024_12289
  omega := 8209

section
variable (S : Size) (a : Array Int)

/-- `ntt16_v1` (src/test_ntt.c:281-284), `ntt256_v1`, `ntt512_v1`, `ntt1024_v1`. -/
def shuffle_ct_v1 : M (Array Int) := do
  let a ← S.shuffle a
  Ntt.ntt_ct_rev2std_v1 a S.n S.psi_powers

/-- `ntt16_v2` (src/test_ntt.c:286-289), `ntt256_v2`, `ntt512_v2`, `ntt1024_v2`. -/
def shuffle_ct : M (Array Int) := do
  let a ← S.shuffle a
  Ntt.ntt_ct_rev2std a S.n S.shoup

/-- `ntt16_v3` (src/test_ntt.c:291-294). -/
def shuffle_mulct : M (Array Int) := do
  let a ← S.shuffle a
  Ntt.mulntt_ct_rev2std a S.n S.shoup

/-- `ntt16_v4` (src/test_ntt.c:296-299), `ntt256_v3`, `ntt512_v3`, `ntt1024_v3`. -/
def ct_shuffle : M (Array Int) := do
  let a ← Ntt.ntt_ct_std2rev a S.n S.rev_shoup
  S.shuffle a

/-- `ntt16_v5` (src/test_ntt.c:301-304). -/
def mulct_shuffle : M (Array Int) := do
  let a ← Ntt.mulntt_ct_std2rev a S.n S.rev_shoup
  S.shuffle a

/-- `ntt16_v6` (src/test_ntt.c:306-309), `ntt256_v4`, `ntt512_v4`, `ntt1024_v4`. -/
def shuffle_gs : M (Array Int) := do
  let a ← S.shuffle a
  Ntt.ntt_gs_rev2std a S.n S.rev_shoup

/-- `ntt16_v7` (src/test_ntt.c:311-314), `ntt256_v5`, `ntt512_v5`, `ntt1024_v5`. -/
def shuffle_gsmul : M (Array Int) := do
  let a ← S.shuffle a
  Ntt.nttmul_gs_rev2std a S.n S.rev_shoup

/-- `ntt16_v8` (src/test_ntt.c:316-319). -/
def gs_shuffle : M (Array Int) := do
  let a ← Ntt.ntt_gs_std2rev a S.n S.shoup
  S.shuffle a

/-- `ntt16_v9` (src/test_ntt.c:321-324). -/
def gsmul_shuffle : M (Array Int) := do
  let a ← Ntt.nttmul_gs_std2rev a S.n S.shoup
  S.shuffle a

/-- `mul_then_ntt16` (src/test_ntt.c:409-413) and the same for the other sizes. -/
def mul_then_ntt : M (Array Int) := do
  let a ← Ntt.mul_array16 a S.n S.psi_powers
  let a ← S.shuffle a
  Ntt.ntt_ct_rev2std_v1 a S.n S.psi_powers

/-- `combined_mulntt16` (src/test_ntt.c:415-418). -/
def combined_mulntt : M (Array Int) := do
  let a ← S.shuffle a
  Ntt.mulntt_ct_rev2std a S.n S.shoup_scaled

/-- `mul_then_ntt16_rev` (src/test_ntt.c:420-423). -/
def mul_then_ntt_rev : M (Array Int) := do
  let a ← Ntt.mul_array16 a S.n S.psi_powers
  Ntt.ntt_ct_std2rev a S.n S.rev_shoup

/-- `combined_mulntt16_rev` (src/test_ntt.c:425-427). -/
def combined_mulntt_rev : M (Array Int) :=
  Ntt.mulntt_ct_std2rev a S.n S.rev_shoup_scaled

/-- `ntt_then_mul16` (src/test_ntt.c:429-433). -/
def ntt_then_mul : M (Array Int) := do
  let a ← S.shuffle a
  let a ← Ntt.ntt_ct_rev2std a S.n S.shoup
  Ntt.mul_array16 a S.n S.psi_powers

/-- `combined_nttmul16` (src/test_ntt.c:435-438). -/
def combined_nttmul : M (Array Int) := do
  let a ← S.shuffle a
  Ntt.nttmul_gs_rev2std a S.n S.rev_shoup_scaled

/-- `ntt_then_mul16_rev` (src/test_ntt.c:440-444); the other sizes call `bitrev_shuffle` too
(src/test_ntt.c:483-487, 526-530, 569-573). -/
def ntt_then_mul_rev : M (Array Int) := do
  let a ← Ntt.ntt_ct_std2rev a S.n S.rev_shoup
  let a ← Ntt.bitrev_shuffle a S.n
  Ntt.mul_array16 a S.n S.psi_powers

/-- `combined_nttmul16_rev` (src/test_ntt.c:446-449); the other sizes call `bitrev_shuffle` too
(src/test_ntt.c:489-492, 532-535, 575-578). -/
def combined_nttmul_rev : M (Array Int) := do
  let a ← Ntt.nttmul_gs_std2rev a S.n S.shoup_scaled
  Ntt.bitrev_shuffle a S.n

end

/-- The versions tested for size 16 (src/test_ntt.c:680-688). -/
def versions16 : List (Array Int → M (Array Int)) :=
  [shuffle_ct_v1 size16, shuffle_ct size16, shuffle_mulct size16, ct_shuffle size16, mulct_shuffle size16, shuffle_gs size16,
    shuffle_gsmul size16, gs_shuffle size16, gsmul_shuffle size16]

/-- The versions tested for the other sizes (src/test_ntt.c:691-695, 698-702, 705-709). -/
def versions (S : Size) : List (Array Int → M (Array Int)) :=
  [shuffle_ct_v1 S, shuffle_ct S, ct_shuffle S, shuffle_gs S, shuffle_gsmul S]

/-- The sizes (src/test_ntt.c:679-709). -/
def sizes : List Size := [size16, size256, size512, size1024]

/-- The calls of `test_simple_polys` in `main` (src/test_ntt.c:679-709): size, function, root. -/
def polyTests : List (Nat × (Array Int → M (Array Int)) × Int) :=
  versions16.map (fun f => (16, f, size16.omega)) ++
    [size256, size512, size1024].flatMap fun S => (versions S).map fun f => (S.n, f, S.omega)

/-- The calls of `cross_check` in `main` (src/test_ntt.c:712-734): size, function, oracle. -/
def crossChecks : List (Nat × (Array Int → M (Array Int)) × (Array Int → M (Array Int))) :=
  sizes.map (fun S => (S.n, combined_mulntt S, mul_then_ntt S)) ++
  sizes.map (fun S => (S.n, combined_mulntt_rev S, mul_then_ntt_rev S)) ++
  sizes.map (fun S => (S.n, combined_nttmul S, ntt_then_mul S)) ++
  sizes.map (fun S => (S.n, combined_nttmul_rev S, ntt_then_mul_rev S))

/-- `speed_ntt16_v1`, ..., `speed_ntt16_v7` (src/test_ntt.c:585-611); version 5 calls `mulntt_ct_rev2std` with the table in
bit-reverse order, unlike `ntt16_v5`. -/
def speeds16 : List (Array Int → M (Array Int)) :=
  [fun a => Ntt.ntt_ct_rev2std_v1 a 16 psi_powers_ntt16_12289, fun a => Ntt.ntt_ct_rev2std a 16 shoup_ntt16_12289,
    fun a => Ntt.mulntt_ct_rev2std a 16 shoup_ntt16_12289, fun a => Ntt.ntt_ct_std2rev a 16 rev_shoup_ntt16_12289,
    fun a => Ntt.mulntt_ct_rev2std a 16 rev_shoup_ntt16_12289, fun a => Ntt.ntt_gs_rev2std a 16 rev_shoup_ntt16_12289,
    fun a => Ntt.nttmul_gs_rev2std a 16 rev_shoup_ntt16_12289]

/-- `speed_ntt256_v1`, ..., `speed_ntt1024_v5` (src/test_ntt.c:614-674). -/
def speedsOf (S : Size) : List (Array Int → M (Array Int)) :=
  [fun a => Ntt.ntt_ct_rev2std_v1 a S.n S.psi_powers, fun a => Ntt.ntt_ct_rev2std a S.n S.shoup,
    fun a => Ntt.ntt_ct_std2rev a S.n S.rev_shoup, fun a => Ntt.ntt_gs_rev2std a S.n S.rev_shoup,
    fun a => Ntt.nttmul_gs_rev2std a S.n S.rev_shoup]

/-- The functions of the cross-checks, in the order of the speed tests (src/test_ntt.c:763-797). -/
def products (S : Size) : List (Array Int → M (Array Int)) :=
  [mul_then_ntt S, combined_mulntt S, mul_then_ntt_rev S, combined_mulntt_rev S, ntt_then_mul S, combined_nttmul S,
    ntt_then_mul_rev S, combined_nttmul_rev S]

/-- The calls of `speed_test` in `main` (src/test_ntt.c:736-797). -/
def speedTests : List (Nat × (Array Int → M (Array Int))) :=
  speeds16.map (fun f => (16, f)) ++
    ([size256, size512, size1024].flatMap fun S => (speedsOf S).map fun f => (S.n, f)) ++
    sizes.flatMap fun S => (products S).map fun f => (S.n, f)

/-- `main` (src/test_ntt.c:677-801): the pairs (median, average) displayed. -/
def main (w : World) : M (List (Nat × Nat)) := do
  let k ← polyTests.foldlM (fun k t => test_simple_polys w t.1 t.2.1 t.2.2 k) 0
  let k ← crossChecks.foldlM (fun k t => cross_check w t.1 t.2.1 t.2.2 k) k
  let s ← speedTests.foldlM (fun s t => speed_test w t.1 t.2 s) ⟨Array.replicate NTESTS 0, k, []⟩
  pure s.shown

end TestNtt
