import Verif.Model.Release
import Verif.Proofs.MemSafe
import Verif.Proofs.RedIterate
import Verif.Proofs.Shuffle

/-
The functions without assertions: they do the same as the functions with assertions, except where an assertion fails, and they
never stop because of an assertion.
-/

namespace Release
open C NTT
open NttRed (ok_bind bf0 i32_ok i64_ok toI32_of)

/-- `m'` is `m` without its assertions: they differ at most when an assertion of `m` fails. -/
def Same {α : Type} (m m' : M α) : Prop := m = .error .assertFail ∨ m = m'

/-- The execution does not stop at an assertion. -/
def NoAssert {α : Type} (m : M α) : Prop := m ≠ .error .assertFail

variable {α β σ τ : Type}

theorem Same.rfl {m : M α} : Same m m := Or.inr _root_.rfl

theorem Same.bind {m m' : M α} {f f' : α → M β} (h : Same m m') (hf : ∀ x, Same (f x) (f' x)) :
    Same (m >>= f) (m' >>= f') := by
  rcases h with h | h
  · exact Or.inl (by rw [h]; exact _root_.rfl)
  · subst h
    cases m with
    | error e => exact Same.rfl
    | ok x => exact hf x

theorem Same.bindr {m : M α} {f f' : α → M β} (hf : ∀ x, Same (f x) (f' x)) : Same (m >>= f) (m >>= f') := Same.rfl.bind hf

theorem Same.bindl {m m' : M α} {f : α → M β} (h : Same m m') : Same (m >>= f) (m' >>= f) := h.bind fun _ => Same.rfl

/-- Dropping an assertion. -/
theorem Same.assert {b : Bool} {m m' : M α} (h : Same m m') : Same (cassert b >>= fun _ => m) m' := by
  cases b
  · exact Or.inl _root_.rfl
  · exact h

theorem Same.cfor {cond : Nat → Bool} {next : Nat → Nat} {body body' : Nat → σ → M σ}
    (h : ∀ i s, Same (body i s) (body' i s)) (fuel : Nat) :
    ∀ i s, Same (C.cfor cond next body fuel i s) (C.cfor cond next body' fuel i s) := by
  induction fuel with
  | zero => exact fun i s => Same.rfl
  | succ fuel ih =>
    intro i s
    unfold C.cfor
    split
    · exact (h i s).bind fun s => ih _ s
    · exact Same.rfl

theorem Same.forUp {lo hi step : Nat} {body body' : Nat → σ → M σ}
    (h : ∀ i s, Same (body i s) (body' i s)) (s : σ) : Same (forUp lo hi step body s) (forUp lo hi step body' s) :=
  Same.cfor h _ _ _

theorem Same.forShl {lo hi : Nat} {body body' : Nat → σ → M σ}
    (h : ∀ i s, Same (body i s) (body' i s)) (s : σ) : Same (forShl lo hi body s) (forShl lo hi body' s) :=
  Same.cfor h _ _ _

theorem Same.forShr {hi : Nat} {body body' : Nat → σ → M σ}
    (h : ∀ i s, Same (body i s) (body' i s)) (s : σ) : Same (forShr hi body s) (forShr hi body' s) :=
  Same.cfor h _ _ _

section
variable {bf0 : Nat → Nat → Array α → M (Array α)} {bf bf' : τ → Nat → Nat → Array α → M (Array α)}
  (h : ∀ w s k a, Same (bf w s k a) (bf' w s k a)) (n : Nat) (p : Array τ) (a : Array α)
include h

theorem same_roundA (t : Nat) (a : Array α) : Same (roundA bf0 bf n p t a) (roundA bf0 bf' n p t a) :=
  Same.bindr fun _ => Same.forUp (fun _ _ => Same.bindr fun _ => Same.forUp (fun _ _ => h _ _ _ _) _) _

theorem same_roundAMul (t : Nat) (a : Array α) : Same (roundAMul bf n p t a) (roundAMul bf' n p t a) :=
  Same.forUp (fun _ _ => Same.bindr fun _ => Same.forUp (fun _ _ => h _ _ _ _) _) _

theorem same_roundBCt (t d : Nat) (a : Array α) : Same (roundBCt bf0 bf p t d a) (roundBCt bf0 bf' p t d a) :=
  Same.bindr fun _ => (Same.forUp (fun _ _ => Same.bindr fun _ => (Same.forUp (fun _ _ => h _ _ _ _) _).bindl) _).bindl

theorem same_roundBGs (t d : Nat) (a : Array α) : Same (roundBGs bf0 bf p t d a) (roundBGs bf0 bf' p t d a) :=
  Same.bindr fun _ => (Same.forUp (fun _ _ => Same.bindr fun _ => (Same.forUp (fun _ _ => h _ _ _ _) _).bindl) _).bindl

theorem same_roundBMul (t d : Nat) (a : Array α) : Same (roundBMul bf p t d a) (roundBMul bf' p t d a) :=
  (Same.forUp (fun _ _ => Same.bindr fun _ => (Same.forUp (fun _ _ => h _ _ _ _) _).bindl) _).bindl

theorem same_ctRev2std : Same (ctRev2std bf0 bf a n p) (ctRev2std bf0 bf' a n p) :=
  Same.forShl (fun _ _ => same_roundA h _ _ _ _) _

theorem same_mulCtRev2std : Same (mulCtRev2std bf a n p) (mulCtRev2std bf' a n p) :=
  Same.forShl (fun _ _ => same_roundAMul h _ _ _ _) _

theorem same_ctStd2rev : Same (ctStd2rev bf0 bf a n p) (ctStd2rev bf0 bf' a n p) :=
  (Same.forShl (fun _ _ => (same_roundBCt h _ _ _ _).bindl) _).bindl

theorem same_mulCtStd2rev : Same (mulCtStd2rev bf a n p) (mulCtStd2rev bf' a n p) :=
  (Same.forShl (fun _ _ => (same_roundBMul h _ _ _ _).bindl) _).bindl

theorem same_gsRev2std : Same (gsRev2std bf0 bf a n p) (gsRev2std bf0 bf' a n p) :=
  (Same.forShl (fun _ _ => (same_roundBGs h _ _ _ _).bindl) _).bindl

theorem same_gsMulRev2std : Same (gsMulRev2std bf a n p) (gsMulRev2std bf' a n p) :=
  (Same.forShl (fun _ _ => (same_roundBMul h _ _ _ _).bindl) _).bindl

theorem same_gsStd2rev : Same (gsStd2rev bf0 bf a n p) (gsStd2rev bf0 bf' a n p) :=
  Same.forShr (fun _ _ => same_roundA h _ _ _ _) _

theorem same_gsMulStd2rev : Same (gsMulStd2rev bf a n p) (gsMulStd2rev bf' a n p) :=
  Same.forShr (fun _ _ => same_roundAMul h _ _ _ _) _

end
theorem no_ok {x : α} : NoAssert (Except.ok x : M α) := nofun
theorem no_pure {x : α} : NoAssert (pure x : M α) := nofun
theorem no_i32 {x : Int} : NoAssert (i32 x) := by unfold i32; split <;> nofun
theorem no_i64 {x : Int} : NoAssert (i64 x) := by unfold i64; split <;> nofun
theorem no_crem {x y : Int} : NoAssert (crem x y) := by unfold crem; split <;> nofun
theorem no_rd {a : Array α} {i : Nat} : NoAssert (rd a i) := by unfold rd; split <;> nofun
theorem no_wr {a : Array α} {i : Nat} {x : α} : NoAssert (wr a i x) := by unfold wr; split <;> nofun

theorem NoAssert.bind {m : M α} {f : α → M β} (h : NoAssert m) (hf : ∀ x, NoAssert (f x)) : NoAssert (m >>= f) := by
  cases m with
  | ok x => exact hf x
  | error e => exact fun e' => h (by cases e'; rfl)

theorem NoAssert.cfor {cond : Nat → Bool} {next : Nat → Nat} {body : Nat → σ → M σ}
    (h : ∀ i s, NoAssert (body i s)) (fuel : Nat) : ∀ i s, NoAssert (C.cfor cond next body fuel i s) := by
  induction fuel with
  | zero => exact fun i s => nofun
  | succ fuel ih =>
    intro i s
    unfold C.cfor
    split
    · exact (h i s).bind fun s => ih _ s
    · exact no_ok

theorem NoAssert.forUp {lo hi step : Nat} {body : Nat → σ → M σ}
    (h : ∀ i s, NoAssert (body i s)) (s : σ) : NoAssert (forUp lo hi step body s) := NoAssert.cfor h _ _ _

theorem NoAssert.forShl {lo hi : Nat} {body : Nat → σ → M σ}
    (h : ∀ i s, NoAssert (body i s)) (s : σ) : NoAssert (forShl lo hi body s) := NoAssert.cfor h _ _ _

theorem NoAssert.forShr {hi : Nat} {body : Nat → σ → M σ}
    (h : ∀ i s, NoAssert (body i s)) (s : σ) : NoAssert (forShr hi body s) := NoAssert.cfor h _ _ _

section
variable {bf0 : Nat → Nat → Array α → M (Array α)} {bf : τ → Nat → Nat → Array α → M (Array α)}
  (h0 : ∀ s k a, NoAssert (bf0 s k a)) (h : ∀ w s k a, NoAssert (bf w s k a)) (n : Nat) (p : Array τ) (a : Array α)

include h0 h in
theorem no_roundA (t : Nat) (a : Array α) : NoAssert (roundA bf0 bf n p t a) :=
  (NoAssert.forUp (fun _ _ => h0 _ _ _) _).bind fun _ =>
    NoAssert.forUp (fun _ _ => no_rd.bind fun _ => NoAssert.forUp (fun _ _ => h _ _ _ _) _) _

include h in
theorem no_roundAMul (t : Nat) (a : Array α) : NoAssert (roundAMul bf n p t a) :=
  NoAssert.forUp (fun _ _ => no_rd.bind fun _ => NoAssert.forUp (fun _ _ => h _ _ _ _) _) _

include h0 h in
theorem no_roundBCt (t d : Nat) (a : Array α) : NoAssert (roundBCt bf0 bf p t d a) :=
  (NoAssert.forUp (fun _ _ => h0 _ _ _) _).bind fun _ => (NoAssert.forUp (fun _ _ => no_rd.bind fun _ =>
    (NoAssert.forUp (fun _ _ => h _ _ _ _) _).bind fun _ => no_pure) _).bind fun _ => no_pure

include h0 h in
theorem no_roundBGs (t d : Nat) (a : Array α) : NoAssert (roundBGs bf0 bf p t d a) :=
  (NoAssert.forUp (fun _ _ => h0 _ _ _) _).bind fun _ => (NoAssert.forUp (fun _ _ => no_rd.bind fun _ =>
    (NoAssert.forUp (fun _ _ => h _ _ _ _) _).bind fun _ => no_pure) _).bind fun _ => no_pure

include h in
theorem no_roundBMul (t d : Nat) (a : Array α) : NoAssert (roundBMul bf p t d a) :=
  (NoAssert.forUp (fun _ _ => no_rd.bind fun _ =>
    (NoAssert.forUp (fun _ _ => h _ _ _ _) _).bind fun _ => no_pure) _).bind fun _ => no_pure

include h0 h in
theorem no_ctRev2std : NoAssert (ctRev2std bf0 bf a n p) := NoAssert.forShl (fun _ _ => no_roundA h0 h _ _ _ _) _

include h in
theorem no_mulCtRev2std : NoAssert (mulCtRev2std bf a n p) := NoAssert.forShl (fun _ _ => no_roundAMul h _ _ _ _) _

include h0 h in
theorem no_ctStd2rev : NoAssert (ctStd2rev bf0 bf a n p) :=
  (NoAssert.forShl (fun _ _ => (no_roundBCt h0 h _ _ _ _).bind fun _ => no_pure) _).bind fun _ => no_pure

include h in
theorem no_mulCtStd2rev : NoAssert (mulCtStd2rev bf a n p) :=
  (NoAssert.forShl (fun _ _ => (no_roundBMul h _ _ _ _).bind fun _ => no_pure) _).bind fun _ => no_pure

include h0 h in
theorem no_gsRev2std : NoAssert (gsRev2std bf0 bf a n p) :=
  (NoAssert.forShl (fun _ _ => (no_roundBGs h0 h _ _ _ _).bind fun _ => no_pure) _).bind fun _ => no_pure

include h in
theorem no_gsMulRev2std : NoAssert (gsMulRev2std bf a n p) :=
  (NoAssert.forShl (fun _ _ => (no_roundBMul h _ _ _ _).bind fun _ => no_pure) _).bind fun _ => no_pure

include h0 h in
theorem no_gsStd2rev : NoAssert (gsStd2rev bf0 bf a n p) := NoAssert.forShr (fun _ _ => no_roundA h0 h _ _ _ _) _

include h in
theorem no_gsMulStd2rev : NoAssert (gsMulStd2rev bf a n p) := NoAssert.forShr (fun _ _ => no_roundAMul h _ _ _ _) _

end

/-! ### The functions -/

theorem same_mul_red (x y : Int) : Same (NttRed.mul_red x y) (mul_red x y) :=
  Same.bindr fun _ => Same.assert Same.rfl

theorem same_mul_reduce_array16 (a : Array Int) (n : Nat) (p : Array Int) :
    Same (NttRed.mul_reduce_array16 a n p) (mul_reduce_array16 a n p) :=
  Same.forUp (fun _ _ => Same.bindr fun _ => Same.bindr fun _ => (same_mul_red _ _).bindl) _

theorem same_mul_reduce_array (c : Array Int) (n : Nat) (a b : Array Int) :
    Same (NttRed.mul_reduce_array c n a b) (mul_reduce_array c n a b) :=
  Same.forUp (fun _ _ => Same.bindr fun _ => Same.bindr fun _ => (same_mul_red _ _).bindl) _

theorem same_scalar_mul_reduce_array (a : Array Int) (n : Nat) (c : Int) :
    Same (NttRed.scalar_mul_reduce_array a n c) (scalar_mul_reduce_array a n c) :=
  Same.forUp (fun _ _ => Same.bindr fun _ => (same_mul_red _ _).bindl) _

theorem same_ctBf (w : Int) (s k : Nat) (a : Array Int) : Same (NttRed.ctBf w s k a) (ctBf w s k a) :=
  Same.bindr fun _ => (same_mul_red _ _).bindl

theorem same_gsBf (w : Int) (s k : Nat) (a : Array Int) : Same (NttRed.gsBf w s k a) (gsBf w s k a) :=
  Same.bindr fun _ => Same.bindr fun _ => Same.bindr fun _ => (same_mul_red _ _).bindl

section
variable (a : Array Int) (n : Nat) (p : Array Int)

theorem same_ntt_red_ct_rev2std : Same (NttRed.ntt_red_ct_rev2std a n p) (ntt_red_ct_rev2std a n p) :=
  same_ctRev2std same_ctBf _ _ _
theorem same_mulntt_red_ct_rev2std : Same (NttRed.mulntt_red_ct_rev2std a n p) (mulntt_red_ct_rev2std a n p) :=
  same_mulCtRev2std same_ctBf _ _ _
theorem same_ntt_red_ct_std2rev : Same (NttRed.ntt_red_ct_std2rev a n p) (ntt_red_ct_std2rev a n p) :=
  same_ctStd2rev same_ctBf _ _ _
theorem same_mulntt_red_ct_std2rev : Same (NttRed.mulntt_red_ct_std2rev a n p) (mulntt_red_ct_std2rev a n p) :=
  same_mulCtStd2rev same_ctBf _ _ _
theorem same_ntt_red_gs_rev2std : Same (NttRed.ntt_red_gs_rev2std a n p) (ntt_red_gs_rev2std a n p) :=
  same_gsRev2std same_gsBf _ _ _
theorem same_nttmul_red_gs_rev2std : Same (NttRed.nttmul_red_gs_rev2std a n p) (nttmul_red_gs_rev2std a n p) :=
  same_gsMulRev2std same_gsBf _ _ _
theorem same_ntt_red_gs_std2rev : Same (NttRed.ntt_red_gs_std2rev a n p) (ntt_red_gs_std2rev a n p) :=
  same_gsStd2rev same_gsBf _ _ _
theorem same_nttmul_red_gs_std2rev : Same (NttRed.nttmul_red_gs_std2rev a n p) (nttmul_red_gs_std2rev a n p) :=
  same_gsMulStd2rev same_gsBf _ _ _

end

theorem no_mul_red {x y : Int} : NoAssert (mul_red x y) := no_i64.bind fun _ => no_i32.bind fun _ => no_i32

theorem no_bf0 (s k : Nat) (a : Array Int) : NoAssert (bf0 s k a) :=
  no_rd.bind fun _ => no_rd.bind fun _ => no_i32.bind fun _ => no_wr.bind fun _ => no_rd.bind fun _ => no_i32.bind fun _ => no_wr

theorem no_ctBf (w : Int) (s k : Nat) (a : Array Int) : NoAssert (ctBf w s k a) :=
  no_rd.bind fun _ => no_mul_red.bind fun _ => no_rd.bind fun _ => no_i32.bind fun _ => no_wr.bind fun _ => no_rd.bind fun _ =>
    no_i32.bind fun _ => no_wr

theorem no_gsBf (w : Int) (s k : Nat) (a : Array Int) : NoAssert (gsBf w s k a) :=
  no_rd.bind fun _ => no_rd.bind fun _ => no_i32.bind fun _ => no_mul_red.bind fun _ => no_wr.bind fun _ => no_rd.bind fun _ =>
    no_i32.bind fun _ => no_wr

theorem no_red {x : Int} : NoAssert (NttRed.red x) := no_i32.bind fun _ => no_i32

section
variable (a : Array Int) (n : Nat)

theorem no_mul_reduce_array16 (p : Array Int) : NoAssert (mul_reduce_array16 a n p) :=
  NoAssert.forUp (fun _ _ => no_rd.bind fun _ => no_rd.bind fun _ => no_mul_red.bind fun _ => no_wr) _
theorem no_mul_reduce_array (x y : Array Int) : NoAssert (mul_reduce_array a n x y) :=
  NoAssert.forUp (fun _ _ => no_rd.bind fun _ => no_rd.bind fun _ => no_mul_red.bind fun _ => no_wr) _
theorem no_scalar_mul_reduce_array (c : Int) : NoAssert (scalar_mul_reduce_array a n c) :=
  NoAssert.forUp (fun _ _ => no_rd.bind fun _ => no_mul_red.bind fun _ => no_wr) _
theorem no_reduce_array : NoAssert (NttRed.reduce_array a n) :=
  NoAssert.forUp (fun _ _ => no_rd.bind fun _ => no_red.bind fun _ => no_wr) _
theorem no_reduce_array_twice : NoAssert (NttRed.reduce_array_twice a n) :=
  NoAssert.forUp (fun _ _ => no_rd.bind fun _ => no_red.bind fun _ => no_red.bind fun _ => no_wr) _
theorem no_correct : NoAssert (NttRed.correct a n) :=
  NoAssert.forUp (fun _ _ => no_rd.bind fun _ => no_i32.bind fun _ => no_i32.bind fun _ => no_i32.bind fun _ => no_wr) _
theorem no_shift_array : NoAssert (NttRed.shift_array a n) :=
  NoAssert.forUp (fun _ _ => no_rd.bind fun _ => by split; exact no_i32.bind fun _ => no_wr; exact no_pure.bind fun _ => no_wr) _
theorem no_shiftInput (sh : Bool) : NoAssert (NttRed.shiftInput n sh a) := by
  unfold NttRed.shiftInput; split
  · exact no_shift_array _ _
  · exact no_pure

variable (p : Array Int)

theorem no_ntt_red_ct_rev2std : NoAssert (ntt_red_ct_rev2std a n p) := no_ctRev2std no_bf0 no_ctBf _ _ _
theorem no_mulntt_red_ct_rev2std : NoAssert (mulntt_red_ct_rev2std a n p) := no_mulCtRev2std no_ctBf _ _ _
theorem no_ntt_red_ct_std2rev : NoAssert (ntt_red_ct_std2rev a n p) := no_ctStd2rev no_bf0 no_ctBf _ _ _
theorem no_mulntt_red_ct_std2rev : NoAssert (mulntt_red_ct_std2rev a n p) := no_mulCtStd2rev no_ctBf _ _ _
theorem no_ntt_red_gs_rev2std : NoAssert (ntt_red_gs_rev2std a n p) := no_gsRev2std no_bf0 no_gsBf _ _ _
theorem no_nttmul_red_gs_rev2std : NoAssert (nttmul_red_gs_rev2std a n p) := no_gsMulRev2std no_gsBf _ _ _
theorem no_ntt_red_gs_std2rev : NoAssert (ntt_red_gs_std2rev a n p) := no_gsStd2rev no_bf0 no_gsBf _ _ _
theorem no_nttmul_red_gs_std2rev : NoAssert (nttmul_red_gs_std2rev a n p) := no_gsMulStd2rev no_gsBf _ _ _

end

theorem same_product1 (t : Tables.RedTables) (n : Nat) (sh : Bool) (c a b : Array Int) :
    Same (NttRed.product1 t n sh c a b) (product1 t n sh c a b) :=
  Same.bindr fun _ =>
  (same_mul_reduce_array16 _ _ _).bind fun _ =>
  (same_ntt_red_ct_std2rev _ _ _).bind fun _ =>
  Same.bindr fun _ =>
  Same.bindr fun _ =>
  (same_mul_reduce_array16 _ _ _).bind fun _ =>
  (same_ntt_red_ct_std2rev _ _ _).bind fun _ =>
  Same.bindr fun _ =>
  (same_mul_reduce_array _ _ _ _).bind fun _ =>
  Same.bindr fun _ =>
  (same_ntt_red_ct_rev2std _ _ _).bind fun _ =>
  (same_mul_reduce_array16 _ _ _).bind fun _ =>
  Same.bindr fun _ =>
  Same.bindr fun _ =>
  Same.rfl

theorem no_product1 (t : Tables.RedTables) (n : Nat) (sh : Bool) (c a b : Array Int) : NoAssert (product1 t n sh c a b) :=
  (no_shiftInput _ _ _).bind fun _ =>
  (no_mul_reduce_array16 _ _ _).bind fun _ =>
  (no_ntt_red_ct_std2rev _ _ _).bind fun _ =>
  (no_reduce_array _ _).bind fun _ =>
  (no_shiftInput _ _ _).bind fun _ =>
  (no_mul_reduce_array16 _ _ _).bind fun _ =>
  (no_ntt_red_ct_std2rev _ _ _).bind fun _ =>
  (no_reduce_array _ _).bind fun _ =>
  (no_mul_reduce_array _ _ _ _).bind fun _ =>
  (no_reduce_array_twice _ _).bind fun _ =>
  (no_ntt_red_ct_rev2std _ _ _).bind fun _ =>
  (no_mul_reduce_array16 _ _ _).bind fun _ =>
  (no_reduce_array_twice _ _).bind fun _ =>
  (no_correct _ _).bind fun _ =>
  no_pure

theorem same_product2 (t : Tables.RedTables) (n : Nat) (sh : Bool) (c a b : Array Int) :
    Same (NttRed.product2 t n sh c a b) (product2 t n sh c a b) :=
  Same.bindr fun _ =>
  (same_mul_reduce_array16 _ _ _).bind fun _ =>
  (same_ntt_red_gs_std2rev _ _ _).bind fun _ =>
  Same.bindr fun _ =>
  Same.bindr fun _ =>
  (same_mul_reduce_array16 _ _ _).bind fun _ =>
  (same_ntt_red_gs_std2rev _ _ _).bind fun _ =>
  Same.bindr fun _ =>
  (same_mul_reduce_array _ _ _ _).bind fun _ =>
  Same.bindr fun _ =>
  (same_ntt_red_ct_rev2std _ _ _).bind fun _ =>
  (same_mul_reduce_array16 _ _ _).bind fun _ =>
  Same.bindr fun _ =>
  Same.bindr fun _ =>
  Same.rfl

theorem no_product2 (t : Tables.RedTables) (n : Nat) (sh : Bool) (c a b : Array Int) : NoAssert (product2 t n sh c a b) :=
  (no_shiftInput _ _ _).bind fun _ =>
  (no_mul_reduce_array16 _ _ _).bind fun _ =>
  (no_ntt_red_gs_std2rev _ _ _).bind fun _ =>
  (no_reduce_array _ _).bind fun _ =>
  (no_shiftInput _ _ _).bind fun _ =>
  (no_mul_reduce_array16 _ _ _).bind fun _ =>
  (no_ntt_red_gs_std2rev _ _ _).bind fun _ =>
  (no_reduce_array _ _).bind fun _ =>
  (no_mul_reduce_array _ _ _ _).bind fun _ =>
  (no_reduce_array_twice _ _).bind fun _ =>
  (no_ntt_red_ct_rev2std _ _ _).bind fun _ =>
  (no_mul_reduce_array16 _ _ _).bind fun _ =>
  (no_reduce_array_twice _ _).bind fun _ =>
  (no_correct _ _).bind fun _ =>
  no_pure

theorem same_product3 (t : Tables.RedTables) (n : Nat) (sh : Bool) (c a b : Array Int) :
    Same (NttRed.product3 t n sh c a b) (product3 t n sh c a b) :=
  Same.bindr fun _ =>
  (same_mul_reduce_array16 _ _ _).bind fun _ =>
  (same_ntt_red_ct_std2rev _ _ _).bind fun _ =>
  Same.bindr fun _ =>
  Same.bindr fun _ =>
  (same_mul_reduce_array16 _ _ _).bind fun _ =>
  (same_ntt_red_ct_std2rev _ _ _).bind fun _ =>
  Same.bindr fun _ =>
  (same_mul_reduce_array _ _ _ _).bind fun _ =>
  Same.bindr fun _ =>
  (same_ntt_red_gs_rev2std _ _ _).bind fun _ =>
  (same_mul_reduce_array16 _ _ _).bind fun _ =>
  Same.bindr fun _ =>
  Same.bindr fun _ =>
  Same.rfl

theorem no_product3 (t : Tables.RedTables) (n : Nat) (sh : Bool) (c a b : Array Int) : NoAssert (product3 t n sh c a b) :=
  (no_shiftInput _ _ _).bind fun _ =>
  (no_mul_reduce_array16 _ _ _).bind fun _ =>
  (no_ntt_red_ct_std2rev _ _ _).bind fun _ =>
  (no_reduce_array _ _).bind fun _ =>
  (no_shiftInput _ _ _).bind fun _ =>
  (no_mul_reduce_array16 _ _ _).bind fun _ =>
  (no_ntt_red_ct_std2rev _ _ _).bind fun _ =>
  (no_reduce_array _ _).bind fun _ =>
  (no_mul_reduce_array _ _ _ _).bind fun _ =>
  (no_reduce_array_twice _ _).bind fun _ =>
  (no_ntt_red_gs_rev2std _ _ _).bind fun _ =>
  (no_mul_reduce_array16 _ _ _).bind fun _ =>
  (no_reduce_array_twice _ _).bind fun _ =>
  (no_correct _ _).bind fun _ =>
  no_pure

theorem same_product4 (t : Tables.RedTables) (n : Nat) (sh : Bool) (c a b : Array Int) :
    Same (NttRed.product4 t n sh c a b) (product4 t n sh c a b) :=
  Same.bindr fun _ =>
  (same_mul_reduce_array16 _ _ _).bind fun _ =>
  (same_ntt_red_gs_std2rev _ _ _).bind fun _ =>
  Same.bindr fun _ =>
  Same.bindr fun _ =>
  (same_mul_reduce_array16 _ _ _).bind fun _ =>
  (same_ntt_red_gs_std2rev _ _ _).bind fun _ =>
  Same.bindr fun _ =>
  (same_mul_reduce_array _ _ _ _).bind fun _ =>
  Same.bindr fun _ =>
  (same_ntt_red_gs_rev2std _ _ _).bind fun _ =>
  (same_mul_reduce_array16 _ _ _).bind fun _ =>
  Same.bindr fun _ =>
  Same.bindr fun _ =>
  Same.rfl

theorem no_product4 (t : Tables.RedTables) (n : Nat) (sh : Bool) (c a b : Array Int) : NoAssert (product4 t n sh c a b) :=
  (no_shiftInput _ _ _).bind fun _ =>
  (no_mul_reduce_array16 _ _ _).bind fun _ =>
  (no_ntt_red_gs_std2rev _ _ _).bind fun _ =>
  (no_reduce_array _ _).bind fun _ =>
  (no_shiftInput _ _ _).bind fun _ =>
  (no_mul_reduce_array16 _ _ _).bind fun _ =>
  (no_ntt_red_gs_std2rev _ _ _).bind fun _ =>
  (no_reduce_array _ _).bind fun _ =>
  (no_mul_reduce_array _ _ _ _).bind fun _ =>
  (no_reduce_array_twice _ _).bind fun _ =>
  (no_ntt_red_gs_rev2std _ _ _).bind fun _ =>
  (no_mul_reduce_array16 _ _ _).bind fun _ =>
  (no_reduce_array_twice _ _).bind fun _ =>
  (no_correct _ _).bind fun _ =>
  no_pure

theorem same_product5 (t : Tables.RedTables) (n : Nat) (sh : Bool) (c a b : Array Int) :
    Same (NttRed.product5 t n sh c a b) (product5 t n sh c a b) :=
  Same.bindr fun _ =>
  (same_mulntt_red_ct_std2rev _ _ _).bind fun _ =>
  Same.bindr fun _ =>
  Same.bindr fun _ =>
  (same_mulntt_red_ct_std2rev _ _ _).bind fun _ =>
  Same.bindr fun _ =>
  (same_mul_reduce_array _ _ _ _).bind fun _ =>
  Same.bindr fun _ =>
  (same_nttmul_red_gs_rev2std _ _ _).bind fun _ =>
  (same_scalar_mul_reduce_array _ _ _).bind fun _ =>
  Same.bindr fun _ =>
  Same.bindr fun _ =>
  Same.rfl

theorem no_product5 (t : Tables.RedTables) (n : Nat) (sh : Bool) (c a b : Array Int) : NoAssert (product5 t n sh c a b) :=
  (no_shiftInput _ _ _).bind fun _ =>
  (no_mulntt_red_ct_std2rev _ _ _).bind fun _ =>
  (no_reduce_array _ _).bind fun _ =>
  (no_shiftInput _ _ _).bind fun _ =>
  (no_mulntt_red_ct_std2rev _ _ _).bind fun _ =>
  (no_reduce_array _ _).bind fun _ =>
  (no_mul_reduce_array _ _ _ _).bind fun _ =>
  (no_reduce_array_twice _ _).bind fun _ =>
  (no_nttmul_red_gs_rev2std _ _ _).bind fun _ =>
  (no_scalar_mul_reduce_array _ _ _).bind fun _ =>
  (no_reduce_array_twice _ _).bind fun _ =>
  (no_correct _ _).bind fun _ =>
  no_pure

/-! ### The assertions of `normalize` and `normalize_inv3` never fail -/

theorem forUp_congr {lo hi step : Nat} {body body' : Nat → σ → M σ} (h : ∀ i s, body i s = body' i s) (s : σ) :
    forUp lo hi step body s = forUp lo hi step body' s := by
  have : body = body' := funext fun i => funext fun s => h i s
  rw [this]

theorem cassert_true {b : Bool} (h : b = true) (m : M α) : (cassert b >>= fun _ => m) = m := by subst h; rfl

theorem normalize_eq (a : Array Int) (n : Nat) : normalize a n = NttRed.normalize a n := by
  refine forUp_congr (fun i a => ?_) _
  cases rd a i with
  | error e => rfl
  | ok x =>
    rw [ok_bind, ok_bind]
    unfold crem
    rw [if_neg (by decide), ok_bind, ok_bind]
    have h1 := Int.tmod_lt_of_pos x (b := 12289) (by decide)
    have h2 := Int.lt_tmod_of_pos x (b := 12289) (by decide)
    generalize Int.tmod x 12289 = y at *
    split
    · rw [i32_ok ⟨by omega, by omega⟩, ok_bind, ok_bind, cassert_true (by simp; omega)]
    · show _ = (cassert _ >>= _)
      rw [cassert_true (by simp; omega)]; rfl

theorem normalize_inv3_eq (a : Array Int) (n : Nat) : normalize_inv3 a n = NttRed.normalize_inv3 a n := by
  refine forUp_congr (fun i a => ?_) _
  cases rd a i with
  | error e => rfl
  | ok x =>
    rw [ok_bind, ok_bind]
    cases i64 (x * 8193) with
    | error e => rfl
    | ok z =>
      rw [ok_bind, ok_bind]
      unfold crem
      rw [if_neg (by decide), ok_bind, ok_bind]
      have h1 := Int.tmod_lt_of_pos z (b := 12289) (by decide)
      have h2 := Int.lt_tmod_of_pos z (b := 12289) (by decide)
      generalize Int.tmod z 12289 = y at *
      dsimp only
      rw [toI32_of ⟨by omega, by omega⟩]
      split
      · rw [i32_ok ⟨by omega, by omega⟩, ok_bind, ok_bind, cassert_true (by simp; omega)]
      · show _ = (cassert _ >>= _)
        rw [cassert_true (by simp; omega)]; rfl

/-! ### Arbitrary contents -/

theorem mulOk : TightMax.MulOk mul_red := by
  intro x y
  unfold mul_red
  simp only [wp_bind]
  exact wp_i64_any (wp_i32_any (TightMax.wp_i32_ok fun h => h))

theorem wp_mul_red_any {x y : Int} {P : Int → Prop} (h : ∀ z, P z) : Wp Arith (mul_red x y) P :=
  (mulOk x y).mono fun z _ => h z

theorem safe_ctBf (w : Int) : TrivBf (ctBf w) := by
  intro n s k hsk a x y ha hx hy _ _
  unfold ctBf
  simp only [wp_bind]
  exact wp_rd_some hy (wp_mul_red_any fun z => wp_rd_some hx (wp_i32_any (wp_wr (getElem?_lt hy)
    (wp_rd_some (Ntt.get_set_ne hsk hx) (wp_i32_any
    (wp_wr (by simpa using getElem?_lt hx) ⟨_, _, rfl, trivial, trivial⟩))))))

theorem safe_gsBf (w : Int) : TrivBf (gsBf w) := by
  intro n s k hsk a x y ha hx hy _ _
  unfold gsBf
  simp only [wp_bind]
  exact wp_rd_some hy (wp_rd_some hx (wp_i32_any (wp_mul_red_any fun z => wp_wr (getElem?_lt hy)
    (wp_rd_some (Ntt.get_set_ne hsk hx) (wp_i32_any
    (wp_wr (by simpa using getElem?_lt hx) ⟨_, _, rfl, trivial, trivial⟩))))))

section
variable {n : Nat} (hn : n < 4294967296) {a : Array Int} (ha : a.size = n)
include hn ha

theorem safe_mul_reduce_array16 {p : Array Int} (hp : n ≤ p.size) :
    Wp Arith (mul_reduce_array16 a n p) (Sized n) := by
  refine wp_map_any hn ha fun i a x hi hs hx => ?_
  simp only [wp_bind]
  exact wp_rd_some hx (wp_rd_some (some_elt (by omega)) (wp_mul_red_any fun _ =>
    wp_wr (by omega) ⟨_, rfl⟩))

theorem safe_mul_reduce_array {x y : Array Int} (hx : n ≤ x.size) (hy : n ≤ y.size) :
    Wp Arith (mul_reduce_array a n x y) (Sized n) := by
  refine wp_map_any hn ha fun i a z hi hs hz => ?_
  simp only [wp_bind]
  exact wp_rd_some (some_elt (by omega)) (wp_rd_some (some_elt (by omega))
    (wp_mul_red_any fun _ => wp_wr (by omega) ⟨_, rfl⟩))

theorem safe_scalar_mul_reduce_array {c : Int} :
    Wp Arith (scalar_mul_reduce_array a n c) (Sized n) := by
  refine wp_map_any hn ha fun i a x hi hs hx => ?_
  simp only [wp_bind]
  exact wp_rd_some hx (wp_mul_red_any fun _ => wp_wr (by omega) ⟨_, rfl⟩)

end

/-! ### `bitrev_shuffle` -/

open Ntt (bitrevNext)

theorem bitrevNext_lt {m : Nat} : ∀ (fuel : Nat) {j k : Nat}, j < 2 ^ m → k / 2 < 2 ^ m →
    Wp (fun e => e = .nonterm) (bitrevNext fuel j k) (fun j' => j' < 2 ^ m) := by
  intro fuel
  induction fuel with
  | zero => intro j k _ _; exact wp_error.2 rfl
  | succ f ih =>
    intro j k hj hk
    unfold bitrevNext
    have hx : j ^^^ (k / 2) < 2 ^ m := Nat.xor_lt_two_pow hj hk
    dsimp only
    split
    · exact ih hx (by omega)
    · exact wp_ok.2 hx

theorem swap_perm {a : Array α} {i j : Nat} {E : Err → Prop} (hi : i < a.size) (hj : j < a.size) :
    Wp E (Ntt.swap a i j) (fun a' => a'.Perm a) := by
  refine Ntt.wp_swap hi hj fun a' _ h => ?_
  have : a' = a.swap i j hi hj := by
    refine Array.ext_getElem? fun x => ?_
    rw [h x, Array.getElem?_swap]
    by_cases h1 : x = j
    · subst h1; simp [hi]
    · by_cases h2 : x = i
      · subst h2; simp [h1, hj, Ne.symm h1]
      · simp [h1, h2, Ne.symm h1, Ne.symm h2]
  rw [this]
  exact Array.swap_perm hi hj

theorem bitrev_any {n : Nat} (h0 : 0 < n) (hn : n < 4294967296) {a : Array α} (ha : n ≤ a.size) :
    Wp (fun e => e = .nonterm) (bitrev_shuffle a n) (fun a' => a'.Perm a) := by
  have hu : u32 (n + 4294967295) = n - 1 := by unfold u32; omega
  have hl1 : 2 ^ Nat.log2 n ≤ n := Nat.log2_self_le (by omega)
  have hl2 : n < 2 ^ (Nat.log2 n + 1) := Nat.lt_log2_self
  rw [pow_succ] at hl2
  have hh : n / 2 < 2 ^ Nat.log2 n := by omega
  unfold bitrev_shuffle
  rw [hu]
  simp only [wp_bind]
  refine wp_forUp (fun i (st : Nat × Array α) => st.1 < 2 ^ Nat.log2 n ∧ st.2.Perm a) (by omega) (by omega)
    ⟨hh, Array.Perm.refl _⟩ ?_ ?_
  · rintro i ⟨j, b⟩ hi1 hi ⟨hj, hb⟩
    have hs : b.size = a.size := hb.size_eq
    have hnext : ∀ c : Array α, c.Perm a → Wp (fun e => e = .nonterm) (bitrevNext 33 j n) (fun j =>
        Wp (fun e => e = .nonterm) (pure (j, c)) (fun st : Nat × Array α => st.1 < 2 ^ Nat.log2 n ∧ st.2.Perm a)) :=
      fun c hc => (bitrevNext_lt 33 hj hh).mono fun j' hj' => wp_pure.2 ⟨hj', hc⟩
    simp only [wp_bind]
    split
    · exact (swap_perm (by omega) (by dsimp only at hj; omega)).mono fun c hc => hnext c (hc.trans hb)
    · exact wp_ok.2 (hnext b hb)
  · rintro i ⟨j, b⟩ _ _ ⟨_, hb⟩
    exact wp_pure.2 hb

theorem bitrev_pow {k : Nat} (hk : k ≤ 31) (a : Array α) : bitrev_shuffle a (2 ^ k) = Ntt.bitrev_shuffle a (2 ^ k) := by
  have h1 := Nat.two_pow_pos k
  have h2 := pow31 hk
  have hu : u32 (2 ^ k + 4294967295) = 2 ^ k - 1 := by unfold u32; omega
  unfold bitrev_shuffle Ntt.bitrev_shuffle
  rw [hu, cassert_true (by simp)]

theorem bitrevNext_zero : ∀ fuel, bitrevNext fuel 0 0 = .error .nonterm
  | 0 => rfl
  | fuel + 1 => by
    unfold bitrevNext
    simp [bitrevNext_zero fuel]

theorem bitrev_zero (a : Array α) : bitrev_shuffle a 0 = .error .nonterm := by
  unfold bitrev_shuffle forUp
  rw [show u32 (0 + 4294967295) = 4294967294 + 1 by unfold u32; omega]
  unfold cfor
  simp [bitrevNext_zero, Bind.bind, Except.bind]

/-! ### The multiplication -/

theorem mul_red_exact {x y : Int} (hx : I32 x) (hy : I32 y) :
    mul_red x y = i32 (3 * (x * y % 4096) - toI32 (x * y / 4096)) := by
  unfold mul_red
  have : -4611686018427387904 ≤ x * y ∧ x * y ≤ 4611686018427387904 := by
    unfold I32 at hx hy
    constructor <;> nlinarith
  generalize x * y = z at *
  rw [i64_ok ⟨by omega, by omega⟩, ok_bind, NttRed.land64_4095, NttRed.sar12, toI32_of (x := z % 4096) ⟨by omega, by omega⟩]
  dsimp only
  rw [i32_ok ⟨by omega, by omega⟩, ok_bind]

end Release
