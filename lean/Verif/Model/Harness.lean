import Verif.Model.NttRed
import Verif.Model.Tables

/-
Model of the eight verification harnesses of verifier/vstte20-benchmarks, with the copy of ntt_red.c they
are linked with.

That copy differs from src/ntt_red.c in `mul_red`, in the assertions of `normalize` and `normalize_inv3`
(two assertions instead of one), in a branch of `correct` that is not compiled, and in comments and loop
pragmas.  The harnesses call only the transforms, so `mul_red` and the transforms are modelled here.  The
butterfly without multiplication is that of src/ntt_red.c.

The tables are those of `make_red_tables 1024 1014`.  The copy of make_red_tables.c in the directory writes
the same four tables used here; it differs in the names of the rescaling constants and in one table more.
-/

namespace Harness
open C NTT

/-- The compile-time switches of the copy of ntt_red.c (Makefile:42-45).  `intr` is the external function
`__CRAB_intrinsic_red` for `-DUSE_CRAB_INTRINSICS`. -/
structure Build where
  /-- `-DSAFE` -/
  safe : Bool
  /-- `-DUSE_CRAB_INTRINSICS` -/
  intr : Option (Int → M Int)

/-- `mul_red` (verifier/vstte20-benchmarks/ntt_red.c:43-61).  A failed `clam_assert` is modelled as a failed
assertion. -/
def mul_red (B : Build) (x y : Int) : M Int := do
  let z ← i64 (x * y)
  cassert (if B.safe then decide (-8796042698752 ≤ z) else decide (-62029812 ≤ z))
  cassert (if B.safe then decide (z ≤ 8796093026303) else decide (z ≤ 14813490))
  match B.intr with
  | some f => f z
  | none =>
    let x := toI32 (land64 z 4095)
    let y := toI32 (sar z 12)
    let x ← i32 (3 * x)
    i32 (x - y)

/-- Cooley-Tukey butterfly (verifier/vstte20-benchmarks/ntt_red.c:308-310 and 393-395). -/
def ctBf (B : Build) (w : Int) (s k : Nat) (a : Array Int) : M (Array Int) := do
  let z ← rd a k
  let x ← mul_red B z w
  let y ← rd a s
  let v ← i32 (y - x)
  let a ← wr a k v
  let y ← rd a s
  let u ← i32 (y + x)
  wr a s u

/-- Gentleman-Sande butterfly (verifier/vstte20-benchmarks/ntt_red.c:481-483 and 559-561). -/
def gsBf (B : Build) (w : Int) (s k : Nat) (a : Array Int) : M (Array Int) := do
  let x ← rd a k
  let y ← rd a s
  let d ← i32 (y - x)
  let v ← mul_red B d w
  let a ← wr a k v
  let y ← rd a s
  let u ← i32 (y + x)
  wr a s u

/-- `ntt_red_ct_rev2std` (verifier/vstte20-benchmarks/ntt_red.c:260-314) -/
def ntt_red_ct_rev2std (B : Build) (a : Array Int) (n : Nat) (p : Array Int) : M (Array Int) :=
  ctRev2std NttRed.bf0 (ctBf B) a n p

/-- `ntt_red_ct_std2rev` (verifier/vstte20-benchmarks/ntt_red.c:365-399) -/
def ntt_red_ct_std2rev (B : Build) (a : Array Int) (n : Nat) (p : Array Int) : M (Array Int) :=
  ctStd2rev NttRed.bf0 (ctBf B) a n p

/-- `ntt_red_gs_rev2std` (verifier/vstte20-benchmarks/ntt_red.c:458-487) -/
def ntt_red_gs_rev2std (B : Build) (a : Array Int) (n : Nat) (p : Array Int) : M (Array Int) :=
  gsRev2std NttRed.bf0 (gsBf B) a n p

/-- `ntt_red_gs_std2rev` (verifier/vstte20-benchmarks/ntt_red.c:539-565) -/
def ntt_red_gs_std2rev (B : Build) (a : Array Int) (n : Nat) (p : Array Int) : M (Array Int) :=
  gsStd2rev NttRed.bf0 (gsBf B) a n p

/-- `ASSUME_FORALL(array, size, lb, ub)` (verifier/vstte20-benchmarks/clam.h:27-59): `nd i` is the value
returned by the call of `int_nd` in iteration `i`, `conv` the conversion from `int` to the type of the
elements.  An assumption that does not hold ends the execution: the result is `none`. -/
def assume_forall (nd : Nat → Int) (conv : Int → Int) (size : Nat) (lb ub : Int) (a : Array Int) :
    M (Option (Array Int)) :=
  forUp 0 size 1 (fun i (s : Option (Array Int)) =>
    match s with
    | none => pure none
    | some a => do
      let x := nd i
      if x ≥ lb then
        if x < ub then do
          let a ← wr a i (conv x)
          pure (some a)
        else pure none
      else pure none) (some a)

/-- `main` of a harness with a table of the library (verifier/vstte20-benchmarks/harness_ntt_red1024.c:18-24
and the other five harnesses without `nd_p`): `none` if an assumption ends the execution. -/
def run (transform : Array Int → Nat → Array Int → M (Array Int)) (p : Array Int) (nd : Nat → Int) :
    M (Option (Array Int)) := do
  let s ← assume_forall nd id 1024 0 12289 (Array.replicate 1024 0)
  match s with
  | none => pure none
  | some a => do
    let a ← transform a 1024 p
    pure (some a)

/-- `main` of a harness with an arbitrary table (verifier/vstte20-benchmarks/harness_ntt_red1024c.c:19-27,
harness_ntt_red1024d.c:19-27): the first 1024 values of `int_nd` are for the array, the others for the
table of `int16_t`. -/
def run_table (transform : Array Int → Nat → Array Int → M (Array Int)) (nd : Nat → Int) :
    M (Option (Array Int)) := do
  let s ← assume_forall nd id 1024 0 12289 (Array.replicate 1024 0)
  match s with
  | none => pure none
  | some a => do
    let s ← assume_forall (fun i => nd (1024 + i)) Tables.toI16 1024 (-6144) 6144 (Array.replicate 1024 0)
    match s with
    | none => pure none
    | some p => do
      let a ← transform a 1024 p
      pure (some a)

/-- harness_intt_red1024.c:18-24 -/
def harness_intt_red1024 (B : Build) (t : Tables.RedTables) (nd : Nat → Int) : M (Option (Array Int)) :=
  run (ntt_red_ct_std2rev B) t.inv_omega_powers_rev nd

/-- harness_intt_red1024b.c:18-24 -/
def harness_intt_red1024b (B : Build) (t : Tables.RedTables) (nd : Nat → Int) : M (Option (Array Int)) :=
  run (ntt_red_ct_rev2std B) t.inv_omega_powers nd

/-- harness_ntt_red1024.c:18-24 -/
def harness_ntt_red1024 (B : Build) (t : Tables.RedTables) (nd : Nat → Int) : M (Option (Array Int)) :=
  run (ntt_red_ct_std2rev B) t.omega_powers_rev nd

/-- harness_ntt_red1024b.c:18-24 -/
def harness_ntt_red1024b (B : Build) (t : Tables.RedTables) (nd : Nat → Int) : M (Option (Array Int)) :=
  run (ntt_red_ct_rev2std B) t.omega_powers nd

/-- harness_ntt_red1024c.c:19-27 -/
def harness_ntt_red1024c (B : Build) (nd : Nat → Int) : M (Option (Array Int)) :=
  run_table (ntt_red_ct_std2rev B) nd

/-- harness_ntt_red1024d.c:19-27 -/
def harness_ntt_red1024d (B : Build) (nd : Nat → Int) : M (Option (Array Int)) :=
  run_table (ntt_red_ct_rev2std B) nd

/-- harness_ntt_red1024e.c:18-24 -/
def harness_ntt_red1024e (B : Build) (t : Tables.RedTables) (nd : Nat → Int) : M (Option (Array Int)) :=
  run (ntt_red_gs_std2rev B) t.omega_powers nd

/-- harness_ntt_red1024f.c:18-24 -/
def harness_ntt_red1024f (B : Build) (t : Tables.RedTables) (nd : Nat → Int) : M (Option (Array Int)) :=
  run (ntt_red_gs_rev2std B) t.omega_powers_rev nd

end Harness
