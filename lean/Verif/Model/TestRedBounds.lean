import Verif.Model.RedBounds
import Verif.Model.TestRed
import Verif.Model.TestTables

/-
Model of src/test_red_bounds.c: bounds computed by src/red_bounds.c, for reductions, rounds of transforms and whole transforms.
What the program prints is returned as a value.  The functions `test_min_max_red*` are called under `if (false)` (lines 279-283)
and are not modelled.  Calls of red_bounds.c take the flag `dbg`: false for the library as it is built, with -DNDEBUG.
-/

namespace TestRedBounds
open C RedBounds
open TestRed (Line)
open TestTables

/-- `max_abs_red` (src/test_red_bounds.c:16-26). -/
def max_abs_red (dbg : Bool) (b : Int) : M Int := do
  let nb ← i64 (-b)
  let (min, _) ← min_red dbg nb b
  let (max, _) ← max_red dbg nb b
  if max < 0 then i64 (-min)
  else if min > 0 then pure max
  else do
    let min ← i64 (-min)
    pure (if max > min then max else min)

/-- `ct_iteration` and `gs_iteration` (src/test_red_bounds.c:28-44, 47-63), with `f` for `ct_bound` or `gs_bound` with the
interval of multipliers: the lines printed. -/
def iteration (dbg : Bool) (f : Int → M Int) (b : Int) : M (List Line) := do
  let s ← forUp 0 20 1 (fun i (s : Int × List Line) => do
    let nb ← f s.1
    if nb > 2147483647 then do
      let r ← max_abs_red dbg s.1
      let nb ← f r
      pure (nb, s.2 ++ [.bound i s.1, .reduction r])
    else pure (nb, s.2 ++ [.bound i s.1])) (b, [])
  pure s.2

/-- `ct_iteration` (src/test_red_bounds.c:28-44). -/
def ct_iteration (dbg : Bool) (b low high : Int) : M (List Line) := iteration dbg (fun b => ct_bound dbg b low high) b

/-- `gs_iteration` (src/test_red_bounds.c:47-63). -/
def gs_iteration (dbg : Bool) (b low high : Int) : M (List Line) := iteration dbg (fun b => gs_bound dbg b low high) b

/-- The lines printed for one interval `[a, b]`: the least and the greatest reduction, with an argument for each. -/
structure RedLine where
  a : Int
  b : Int
  min : Int
  minArg : Int
  max : Int
  maxArg : Int
  deriving DecidableEq, Repr

/-- The two loops `do ... while (nb < b || na > a)` of `main` (src/test_red_bounds.c:286-301, 305-327), from `na = a`,
`nb = b`; with `sym` for the second one, where the interval is made symmetric (lines 317-325).  The fuel bounds the number of
rounds. -/
def reductions (dbg sym : Bool) : Nat → Int → Int → M (List RedLine)
  | 0, _, _ => .error .nonterm
  | fuel + 1, a, b => do
    let (min, minArg) ← min_red dbg a b
    let (max, maxArg) ← max_red dbg a b
    let l : RedLine := ⟨a, b, min, minArg, max, maxArg⟩
    let (na, nb) ← (if sym then do
        let min ← (if min < 0 then i64 (-min) else pure min)
        let max ← (if max < 0 then i64 (-max) else pure max)
        if min < max then do
          let na ← i64 (-max)
          pure (na, max)
        else do
          let na ← i64 (-min)
          pure (na, min)
      else pure (min, max))
    if nb < b || na > a then do
      let r ← reductions dbg sym fuel na nb
      pure (l :: r)
    else pure [l]

/-- The extrema printed for a product of two intervals. -/
structure ProdLine where
  min : Best
  max : Best
  deriving DecidableEq

/-- The calls of `min_red_mul_interval` and `max_red_mul_interval` (src/test_red_bounds.c:333-334, 341-342, 367-368, 379-380,
391-392). -/
def prodLine (dbg : Bool) (a b low high : Int) : M ProdLine := do
  let min ← min_red_mul_interval dbg a b low high
  let max ← max_red_mul_interval dbg a b low high
  pure ⟨min, max⟩

/-- The greater of the absolute values (src/test_red_bounds.c:372-374, 384-386, 396-398). -/
def maxAbs (l : ProdLine) : M Int := do
  let min ← (if l.min.r < 0 then i64 (-l.min.r) else pure l.min.r)
  let max ← (if l.max.r < 0 then i64 (-l.max.r) else pure l.max.r)
  pure (if min < max then max else min)

/-- Bounds of the outputs printed by `show_ct_bounds` for one bound `b0` of the inputs, with whether `--> overflow` is printed. -/
structure TableLine where
  b0 : Int
  ct : Int
  ctOver : Bool
  gs : Int
  gsOver : Bool
  deriving DecidableEq, Repr

/-- `show_ct_bounds` (src/test_red_bounds.c:207-273).  `bound` is the content of the array `bound[12]`.  The source
repeats the body of the loop for the five values of `b0`. -/
def show_ct_bounds (dbg : Bool) (n : Nat) (p : Array Int) (bound : Array Int) : M (List TableLine) := do
  cassert (decide (n ≤ 2048))
  let s ← ([6144, 12288, 21499, 30709, 36864] : List Int).foldlM (fun (s : Array Int × List TableLine) (b0 : Int) => do
    let (ct, bound) ← ntt_ct_bounds dbg b0 n p s.1
    let (gs, bound) ← ntt_gs_bounds dbg b0 n p bound
    pure (bound, s.2 ++ [⟨b0, ct, decide (ct ≥ 2147483647), gs, decide (gs ≥ 2147483647)⟩])) (bound, [])
  pure s.2

/-- The sizes and tables passed to `show_ct_bounds` (src/test_red_bounds.c:403-431). -/
def tables : List (Nat × Array Int) :=
  [(16, shoup_sred_ntt16_12289), (16, rev_shoup_sred_ntt16_12289),
   (16, shoup_sred_scaled_ntt16_12289), (16, rev_shoup_sred_scaled_ntt16_12289),
   (128, shoup_sred_ntt128_12289), (128, rev_shoup_sred_ntt128_12289),
   (128, shoup_sred_scaled_ntt128_12289), (128, rev_shoup_sred_scaled_ntt128_12289),
   (256, shoup_sred_ntt256_12289), (256, rev_shoup_sred_ntt256_12289),
   (256, shoup_sred_scaled_ntt256_12289), (256, rev_shoup_sred_scaled_ntt256_12289),
   (512, shoup_sred_ntt512_12289), (512, rev_shoup_sred_ntt512_12289),
   (512, shoup_sred_scaled_ntt512_12289), (512, rev_shoup_sred_scaled_ntt512_12289),
   (1024, shoup_sred_ntt1024_12289), (1024, rev_shoup_sred_ntt1024_12289),
   (1024, shoup_sred_scaled_ntt1024_12289), (1024, rev_shoup_sred_scaled_ntt1024_12289),
   (2048, shoup_sred_ntt2048_12289), (2048, rev_shoup_sred_ntt2048_12289),
   (2048, shoup_sred_scaled_ntt2048_12289), (2048, rev_shoup_sred_scaled_ntt2048_12289)]

/-- What `main` prints. -/
structure Output where
  reds : List RedLine
  symReds : List RedLine
  prod1 : ProdLine
  prod2 : ProdLine
  ct1 : List Line
  ct2 : List Line
  gs1 : List Line
  gs2 : List Line
  opt1 : ProdLine
  opt1ct : List Line
  opt1gs : List Line
  opt2 : ProdLine
  opt2ct : List Line
  opt2gs : List Line
  opt3 : ProdLine
  opt3ct : List Line
  opt3gs : List Line
  tables : List (List TableLine)

/-- `main` (src/test_red_bounds.c:276-434).  `bound i` is the content of the array `bound[12]` of the `i`-th call of
`show_ct_bounds`. -/
def main (dbg : Bool) (bound : Nat → Array Int) : M Output := do
  let reds ← reductions dbg false 100 (-2147483648) 2147483647
  let symReds ← reductions dbg true 100 (-2147483648) 2147483647
  let (a, _) ← min_red dbg (-2147483648) 2147483647
  let (b, _) ← max_red dbg (-2147483648) 2147483647
  let prod1 ← prodLine dbg a b a b
  let (na, _) ← min_red dbg a b
  let (nb, _) ← max_red dbg a b
  let prod2 ← prodLine dbg na nb na nb
  let ct1 ← ct_iteration dbg 12288 0 12288
  let ct2 ← ct_iteration dbg 12288 (-6144) 6144
  let gs1 ← gs_iteration dbg 12288 0 12288
  let gs2 ← gs_iteration dbg 12288 (-6144) 6144
  let opt1 ← prodLine dbg 0 12288 0 12288
  let b ← maxAbs opt1
  let opt1ct ← ct_iteration dbg b 0 12288
  let opt1gs ← gs_iteration dbg b 0 12288
  let opt2 ← prodLine dbg (-6144) 6144 (-6144) 6144
  let b ← maxAbs opt2
  let opt2ct ← ct_iteration dbg b (-6144) 6144
  let opt2gs ← gs_iteration dbg b (-6144) 6144
  let opt3 ← prodLine dbg 0 12288 (-6144) 6144
  let b ← maxAbs opt3
  let opt3ct ← ct_iteration dbg b (-6144) 6144
  let opt3gs ← gs_iteration dbg b (-6144) 6144
  let t ← tables.foldlM (fun (s : Nat × List (List TableLine)) (np : Nat × Array Int) => do
    let l ← show_ct_bounds dbg np.1 np.2 (bound s.1)
    pure (s.1 + 1, s.2 ++ [l])) (0, [])
  pure ⟨reds, symReds, prod1, prod2, ct1, ct2, gs1, gs2, opt1, opt1ct, opt1gs, opt2, opt2ct, opt2gs, opt3, opt3ct, opt3gs, t.2⟩

end TestRedBounds
