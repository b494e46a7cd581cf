import Verif.SpecBounds
import Verif.Model.TestRedBounds
import Verif.Model.NttRed

/-
Vocabulary for what test_red_bounds prints (C66).
-/

namespace Spec
open TestRed (Line)
open TestRedBounds (RedLine ProdLine TableLine)

/-- The values of `red(x)` on `[a, b]`. -/
def redSet (a b : Int) : Set Int := {v | ∃ x, a ≤ x ∧ x ≤ b ∧ v = red x}

/-- The values of `|red(x)|` for `|x| ≤ b`. -/
def absRedSet (b : Int) : Set Int := {v | ∃ x, |x| ≤ b ∧ v = |red x|}

/-- The values of `red(w x)` for `x` in `[a, b]` and `w` in `[low, high]`. -/
def prodSet (a b low high : Int) : Set Int :=
  {v | ∃ w x, (low ≤ w ∧ w ≤ high) ∧ (a ≤ x ∧ x ≤ b) ∧ v = red (w * x)}

/-- The values of `|red(w x)|`. -/
def absProdSet (a b low high : Int) : Set Int :=
  {v | ∃ w x, (low ≤ w ∧ w ≤ high) ∧ (a ≤ x ∧ x ≤ b) ∧ v = |red (w * x)|}

/-- A line on reductions is right: the extrema, attained at the arguments shown. -/
def RedLineOK (l : RedLine) : Prop :=
  IsLeast (redSet l.a l.b) l.min ∧ IsGreatest (redSet l.a l.b) l.max ∧
  (l.a ≤ l.minArg ∧ l.minArg ≤ l.b) ∧ l.min = red l.minArg ∧ (l.a ≤ l.maxArg ∧ l.maxArg ≤ l.b) ∧ l.max = red l.maxArg

/-- A line on products is right. -/
def ProdLineOK (a b low high : Int) (l : ProdLine) : Prop :=
  IsLeast (prodSet a b low high) l.min.r ∧ IsGreatest (prodSet a b low high) l.max.r

/-- `n` lines `B<i> = b` (with reductions) are right for rounds whose results have the absolute values `S b` when the operands are
bounded by `b`: each bound is the best possible one from the previous one; a reduction, with the best possible bound after it, is
made exactly where the bound would otherwise not fit in `int32_t`. -/
inductive BestLines (S : Int → Set Int) : Nat → Nat → Int → List Line → Prop
  | done (i : Nat) (b : Int) : BestLines S 0 i b []
  | round (n i : Nat) (b b' : Int) (l : List Line) : IsGreatest (S b) b' → b' ≤ 2147483647 → BestLines S n (i + 1) b' l →
      BestLines S (n + 1) i b (.bound i b :: l)
  | reduced (n i : Nat) (b c r b' : Int) (l : List Line) : IsGreatest (S b) c → 2147483647 < c → IsGreatest (absRedSet b) r →
      IsGreatest (S r) b' → b' ≤ 2147483647 → BestLines S n (i + 1) b' l →
      BestLines S (n + 1) i b (.bound i b :: .reduction r :: l)

/-- The bounds shown for a table of size `2^k`: the last ones of chains of best bounds from `b0`, over the rounds of the
Cooley-Tukey and of the Gentleman-Sande transforms. -/
def TableLineOK (k : Nat) (p : Array Int) (l : TableLine) : Prop :=
  (∃ B, Chain ctSet p (fun m => 2 ^ m) k l.b0 B ∧ l.ct = B k) ∧
  (∃ B, Chain gsSet p (fun m => 2 ^ (k - 1 - m)) k l.b0 B ∧ l.gs = B k) ∧
  (l.ctOver = true ↔ 2147483647 ≤ l.ct) ∧ (l.gsOver = true ↔ 2147483647 ≤ l.gs)

/-- The lines on an option: the product of the two intervals, and bounds for the rounds from the greatest absolute value `r` of
the product on, with multipliers in `[low, high]`. -/
def OptionOK (a b low high : Int) (l : ProdLine) (ct gs : List Line) : Prop :=
  ProdLineOK a b low high l ∧ ∃ r, IsGreatest (absProdSet a b low high) r ∧
    BestLines (fun b => ctSet b (fun w => low ≤ w ∧ w ≤ high)) 20 0 r ct ∧
    BestLines (fun b => gsSet b (fun w => low ≤ w ∧ w ≤ high)) 20 0 r gs

/-- The intervals and the extrema printed for repeated reductions of an `int32_t`. -/
def redLines : List RedLine :=
  [⟨-2147483648, 2147483647, -524287, 2147479552, 536573, -2147479553⟩, ⟨-524287, 536573, -130, 532480, 12413, -520193⟩,
   ⟨-130, 12413, -3, 12288, 12286, -1⟩, ⟨-3, 12286, -2, 8192, 12286, -1⟩, ⟨-2, 12286, -2, 8192, 12286, -1⟩]

/-- The same with symmetric intervals. -/
def symRedLines : List RedLine :=
  [⟨-2147483648, 2147483647, -524287, 2147479552, 536573, -2147479553⟩, ⟨-536573, 536573, -130, 532480, 12416, -532481⟩,
   ⟨-12416, 12416, -3, 12288, 12289, -12289⟩, ⟨-12289, 12289, -3, 12288, 12289, -12289⟩]

/-- Everything printed is right.  The reductions are as in src/red-bounds.txt; products are those of the intervals after one and two
reductions; then come the rounds for inputs up to 12288 and the three options of representations; then, for each table, the bounds of
the whole transforms for the five bounds of the inputs. -/
structure OutputOK (o : TestRedBounds.Output) : Prop where
  reds : o.reds = redLines
  symReds : o.symReds = symRedLines
  lines : ∀ l ∈ o.reds ++ o.symReds, RedLineOK l
  prod1 : ProdLineOK (-524287) 536573 (-524287) 536573 o.prod1
  prod2 : ProdLineOK (-130) 12413 (-130) 12413 o.prod2
  ct1 : BestLines (fun b => ctSet b (fun w => 0 ≤ w ∧ w ≤ 12288)) 20 0 12288 o.ct1
  ct2 : BestLines (fun b => ctSet b (fun w => -6144 ≤ w ∧ w ≤ 6144)) 20 0 12288 o.ct2
  gs1 : BestLines (fun b => gsSet b (fun w => 0 ≤ w ∧ w ≤ 12288)) 20 0 12288 o.gs1
  gs2 : BestLines (fun b => gsSet b (fun w => -6144 ≤ w ∧ w ≤ 6144)) 20 0 12288 o.gs2
  opt1 : OptionOK 0 12288 0 12288 o.opt1 o.opt1ct o.opt1gs
  opt2 : OptionOK (-6144) 6144 (-6144) 6144 o.opt2 o.opt2ct o.opt2gs
  opt3 : OptionOK 0 12288 (-6144) 6144 o.opt3 o.opt3ct o.opt3gs
  tables : List.Forall₂ (fun np l => l.map TableLine.b0 = [6144, 12288, 21499, 30709, 36864] ∧
    ∀ x ∈ l, ∃ k ≤ 11, np.1 = 2 ^ k ∧ TableLineOK k np.2 x) TestRedBounds.tables o.tables

/-- Every run of the Cooley-Tukey transforms with table `p` on inputs bounded by `b0` is free of undefined behaviour and its
results are bounded by `B`. -/
def CtSafe (n : Nat) (p : Array Int) (b0 B : Int) : Prop :=
  ∀ a : Array Int, a.size = n → InRange (-b0) b0 a →
    (∃ a', NttRed.mulntt_red_ct_rev2std a n p = .ok a' ∧ a'.size = n ∧ InRange (-B) B a') ∧
    ∃ a', NttRed.mulntt_red_ct_std2rev a n p = .ok a' ∧ a'.size = n ∧ InRange (-B) B a'

/-- The same for the transforms without `psi`. -/
def PlainCtSafe (n : Nat) (p : Array Int) (b0 B : Int) : Prop :=
  ∀ a : Array Int, a.size = n → InRange (-b0) b0 a →
    (∃ a', NttRed.ntt_red_ct_rev2std a n p = .ok a' ∧ a'.size = n ∧ InRange (-B) B a') ∧
    ∃ a', NttRed.ntt_red_ct_std2rev a n p = .ok a' ∧ a'.size = n ∧ InRange (-B) B a'

/-- The same for the Gentleman-Sande transforms, with and without `psi`. -/
def GsSafe (n : Nat) (p : Array Int) (b0 B : Int) : Prop :=
  ∀ a : Array Int, a.size = n → InRange (-b0) b0 a →
    (∃ a', NttRed.nttmul_red_gs_rev2std a n p = .ok a' ∧ a'.size = n ∧ InRange (-B) B a') ∧
    (∃ a', NttRed.nttmul_red_gs_std2rev a n p = .ok a' ∧ a'.size = n ∧ InRange (-B) B a') ∧
    (∃ a', NttRed.ntt_red_gs_rev2std a n p = .ok a' ∧ a'.size = n ∧ InRange (-B) B a') ∧
    ∃ a', NttRed.ntt_red_gs_std2rev a n p = .ok a' ∧ a'.size = n ∧ InRange (-B) B a'

end Spec
