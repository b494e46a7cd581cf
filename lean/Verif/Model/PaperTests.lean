import Verif.Model.NttRedInterval
import Verif.Model.Tables

/-
Model of the eight programs of src/tests_in_paper: interval analyses of the transforms of size 1024.

The parameter `a` (and `p`) is the local array of the program before its initialisation.  The tables
are those of ntt_red1024_tables.c, written by `make_red_tables 1024 1014` (src/Makefile).  The result
is what the program displays.
-/

namespace PaperTests
open C Intervals NttRedInterval Tables

/-- `for (i=0; i<1024; i++) a[i] = interval(lo, hi);` (src/tests_in_paper/test_ntt_red1024.c:18-20). -/
def fill (dbg : Bool) (lo hi : Int) (a : Array Ivl) : M (Array Ivl) :=
  forUp 0 1024 1 (fun i a => do
    let x ← interval dbg lo hi
    wr a i x) a

/-- `main` of src/tests_in_paper/test_intt_red1024.c:14-24. -/
def test_intt_red1024 (dbg : Bool) (t : RedTables) (a : Array Ivl) : M (List Shown) := do
  let a ← fill dbg 0 (12289 - 1) a
  let r ← abstract_ntt_red_ct_std2rev dbg a 1024 t.inv_omega_powers_rev
  pure r.2

/-- `main` of src/tests_in_paper/test_intt_red1024b.c:14-24. -/
def test_intt_red1024b (dbg : Bool) (t : RedTables) (a : Array Ivl) : M (List Shown) := do
  let a ← fill dbg 0 (12289 - 1) a
  let r ← abstract_ntt_red_ct_rev2std dbg a 1024 t.inv_omega_powers
  pure r.2

/-- `main` of src/tests_in_paper/test_ntt_red1024.c:14-24. -/
def test_ntt_red1024 (dbg : Bool) (t : RedTables) (a : Array Ivl) : M (List Shown) := do
  let a ← fill dbg 0 (12289 - 1) a
  let r ← abstract_ntt_red_ct_std2rev dbg a 1024 t.omega_powers_rev
  pure r.2

/-- `main` of src/tests_in_paper/test_ntt_red1024b.c:14-24. -/
def test_ntt_red1024b (dbg : Bool) (t : RedTables) (a : Array Ivl) : M (List Shown) := do
  let a ← fill dbg 0 (12289 - 1) a
  let r ← abstract_ntt_red_ct_rev2std dbg a 1024 t.omega_powers
  pure r.2

/-- `main` of src/tests_in_paper/test_ntt_red1024c.c:13-28. -/
def test_ntt_red1024c (dbg : Bool) (a p : Array Ivl) : M (List Shown) := do
  let a ← fill dbg 0 (12289 - 1) a
  let lo ← cdiv (-(12289 - 1)) 2
  let p ← fill dbg lo ((12289 - 1) / 2) p
  let r ← abstract2_ntt_red_ct_std2rev dbg a 1024 p
  pure r.2

/-- `main` of src/tests_in_paper/test_ntt_red1024d.c:13-28. -/
def test_ntt_red1024d (dbg : Bool) (a p : Array Ivl) : M (List Shown) := do
  let a ← fill dbg 0 (12289 - 1) a
  let lo ← cdiv (-(12289 - 1)) 2
  let p ← fill dbg lo ((12289 - 1) / 2) p
  let r ← abstract2_ntt_red_ct_rev2std dbg a 1024 p
  pure r.2

/-- `main` of src/tests_in_paper/test_ntt_red1024e.c:15-25. -/
def test_ntt_red1024e (dbg : Bool) (t : RedTables) (a : Array Ivl) : M (List Shown) := do
  let a ← fill dbg 0 (12289 - 1) a
  let r ← abstract_ntt_red_gs_std2rev dbg a 1024 t.omega_powers
  pure r.2

/-- `main` of src/tests_in_paper/test_ntt_red1024f.c:14-24. -/
def test_ntt_red1024f (dbg : Bool) (t : RedTables) (a : Array Ivl) : M (List Shown) := do
  let a ← fill dbg 0 (12289 - 1) a
  let r ← abstract_ntt_red_gs_rev2std dbg a 1024 t.omega_powers_rev
  pure r.2

end PaperTests
