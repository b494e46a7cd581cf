import Verif.Proofs.CRunProd
import Verif.Proofs.CRunRedTr
import Verif.Model.RedProducts

/-
The functions of src/ntt_red<n>.{h,c} as read from the text do what the model says.
-/

namespace CLang.RedProd
open C Tables

/-- The names of the functions of the header. -/
structure Wraps where
  fwd_ct_rev2std : Name
  fwd_gs_rev2std : Name
  fwd_ct_std2rev : Name
  fwd_gs_std2rev : Name
  intt_ct_rev2std : Name
  intt_gs_rev2std : Name
  intt_ct_std2rev : Name
  intt_gs_std2rev : Name
  fwdmul_ct_rev2std : Name
  fwdmul_ct_std2rev : Name
  inttmul_gs_rev2std : Name
  inttmul_gs_std2rev : Name

/-- The program contains src/ntt_red.c and the functions of the header for size `n`. -/
structure Ctx (P : Prog) (N : ConstNames) (W : Wraps) (n : Nat) : Prop where
  has : Has P Src.ntt_red
  le : n ≤ 2147483647
  fresh_psi_powers : Fresh N.psi_powers
  fresh_scaled_inv_psi_powers : Fresh N.scaled_inv_psi_powers
  fresh_omega_powers : Fresh N.omega_powers
  fresh_omega_powers_rev : Fresh N.omega_powers_rev
  fresh_inv_omega_powers : Fresh N.inv_omega_powers
  fresh_inv_omega_powers_rev : Fresh N.inv_omega_powers_rev
  fresh_mixed_powers : Fresh N.mixed_powers
  fresh_mixed_powers_rev : Fresh N.mixed_powers_rev
  fresh_inv_mixed_powers : Fresh N.inv_mixed_powers
  fresh_inv_mixed_powers_rev : Fresh N.inv_mixed_powers_rev
  fresh_scalar : Fresh N.scalar
  fwd_ct_rev2std : P.lookup W.fwd_ct_rev2std = some (wrapper n!"ntt_red_ct_rev2std" (.cons (.num n) (.cons (.var N.omega_powers) .nil)))
  fwd_gs_rev2std : P.lookup W.fwd_gs_rev2std = some (wrapper n!"ntt_red_gs_rev2std" (.cons (.num n) (.cons (.var N.omega_powers_rev) .nil)))
  fwd_ct_std2rev : P.lookup W.fwd_ct_std2rev = some (wrapper n!"ntt_red_ct_std2rev" (.cons (.num n) (.cons (.var N.omega_powers_rev) .nil)))
  fwd_gs_std2rev : P.lookup W.fwd_gs_std2rev = some (wrapper n!"ntt_red_gs_std2rev" (.cons (.num n) (.cons (.var N.omega_powers) .nil)))
  intt_ct_rev2std : P.lookup W.intt_ct_rev2std = some (wrapper n!"ntt_red_ct_rev2std" (.cons (.num n) (.cons (.var N.inv_omega_powers) .nil)))
  intt_gs_rev2std : P.lookup W.intt_gs_rev2std = some (wrapper n!"ntt_red_gs_rev2std" (.cons (.num n) (.cons (.var N.inv_omega_powers_rev) .nil)))
  intt_ct_std2rev : P.lookup W.intt_ct_std2rev = some (wrapper n!"ntt_red_ct_std2rev" (.cons (.num n) (.cons (.var N.inv_omega_powers_rev) .nil)))
  intt_gs_std2rev : P.lookup W.intt_gs_std2rev = some (wrapper n!"ntt_red_gs_std2rev" (.cons (.num n) (.cons (.var N.inv_omega_powers) .nil)))
  fwdmul_ct_rev2std : P.lookup W.fwdmul_ct_rev2std = some (wrapper n!"mulntt_red_ct_rev2std" (.cons (.num n) (.cons (.var N.mixed_powers) .nil)))
  fwdmul_ct_std2rev : P.lookup W.fwdmul_ct_std2rev = some (wrapper n!"mulntt_red_ct_std2rev" (.cons (.num n) (.cons (.var N.mixed_powers_rev) .nil)))
  inttmul_gs_rev2std : P.lookup W.inttmul_gs_rev2std = some (wrapper n!"nttmul_red_gs_rev2std" (.cons (.num n) (.cons (.var N.inv_mixed_powers_rev) .nil)))
  inttmul_gs_std2rev : P.lookup W.inttmul_gs_std2rev = some (wrapper n!"nttmul_red_gs_std2rev" (.cons (.num n) (.cons (.var N.inv_mixed_powers) .nil)))

/-- The tables contain values of type `int32_t`. -/
structure WfC (T : Consts) : Prop where
  psi_powers : Wf T.psi_powers
  scaled_inv_psi_powers : Wf T.scaled_inv_psi_powers
  omega_powers : Wf T.omega_powers
  omega_powers_rev : Wf T.omega_powers_rev
  inv_omega_powers : Wf T.inv_omega_powers
  inv_omega_powers_rev : Wf T.inv_omega_powers_rev
  mixed_powers : Wf T.mixed_powers
  mixed_powers_rev : Wf T.mixed_powers_rev
  inv_mixed_powers : Wf T.inv_mixed_powers
  inv_mixed_powers_rev : Wf T.inv_mixed_powers_rev
  scalar : I32 T.scalar

section
variable {P : Prog} {N : ConstNames} {W : Wraps} {n : Nat} (h : Ctx P N W n) {G : Name → Option Cell} {mem : Nat → Obj} {X : List Nat} {t : RedTables}
  (hT : Globals N .i16 (redConsts t) G mem X) (hw : WfC (redConsts t))
include h

theorem Ctx.lt : n < 4294967296 := lt_of_le_of_lt h.le (by decide)

include hT hw in
theorem op_fwd_ct_rev2std : Op P G mem X W.fwd_ct_rev2std .nil (NttRed.fwd_ct_rev2std t n) :=
  Op.wrap h.fwd_ct_rev2std (Op.table h.le h.fresh_omega_powers hT.omega_powers fun _ _ _ _ _ hm ha hop hmp hF =>
    RedTr.ntt_red_ct_rev2std_calls h.has h.lt hm ha hop hmp hw.omega_powers hF)

include hT hw in
theorem op_fwd_gs_rev2std : Op P G mem X W.fwd_gs_rev2std .nil (NttRed.fwd_gs_rev2std t n) :=
  Op.wrap h.fwd_gs_rev2std (Op.table h.le h.fresh_omega_powers_rev hT.omega_powers_rev fun _ _ _ _ _ hm ha hop hmp hF =>
    RedTr.ntt_red_gs_rev2std_calls h.has h.lt hm ha hop hmp hw.omega_powers_rev hF)

include hT hw in
theorem op_fwd_ct_std2rev : Op P G mem X W.fwd_ct_std2rev .nil (NttRed.fwd_ct_std2rev t n) :=
  Op.wrap h.fwd_ct_std2rev (Op.table h.le h.fresh_omega_powers_rev hT.omega_powers_rev fun _ _ _ _ _ hm ha hop hmp hF =>
    RedTr.ntt_red_ct_std2rev_calls h.has h.lt hm ha hop hmp hw.omega_powers_rev hF)

include hT hw in
theorem op_fwd_gs_std2rev : Op P G mem X W.fwd_gs_std2rev .nil (NttRed.fwd_gs_std2rev t n) :=
  Op.wrap h.fwd_gs_std2rev (Op.table h.le h.fresh_omega_powers hT.omega_powers fun _ _ _ _ _ hm ha hop hmp hF =>
    RedTr.ntt_red_gs_std2rev_calls h.has h.lt hm ha hop hmp hw.omega_powers hF)

include hT hw in
theorem op_intt_ct_rev2std : Op P G mem X W.intt_ct_rev2std .nil (NttRed.intt_ct_rev2std t n) :=
  Op.wrap h.intt_ct_rev2std (Op.table h.le h.fresh_inv_omega_powers hT.inv_omega_powers fun _ _ _ _ _ hm ha hop hmp hF =>
    RedTr.ntt_red_ct_rev2std_calls h.has h.lt hm ha hop hmp hw.inv_omega_powers hF)

include hT hw in
theorem op_intt_gs_rev2std : Op P G mem X W.intt_gs_rev2std .nil (NttRed.intt_gs_rev2std t n) :=
  Op.wrap h.intt_gs_rev2std (Op.table h.le h.fresh_inv_omega_powers_rev hT.inv_omega_powers_rev fun _ _ _ _ _ hm ha hop hmp hF =>
    RedTr.ntt_red_gs_rev2std_calls h.has h.lt hm ha hop hmp hw.inv_omega_powers_rev hF)

include hT hw in
theorem op_intt_ct_std2rev : Op P G mem X W.intt_ct_std2rev .nil (NttRed.intt_ct_std2rev t n) :=
  Op.wrap h.intt_ct_std2rev (Op.table h.le h.fresh_inv_omega_powers_rev hT.inv_omega_powers_rev fun _ _ _ _ _ hm ha hop hmp hF =>
    RedTr.ntt_red_ct_std2rev_calls h.has h.lt hm ha hop hmp hw.inv_omega_powers_rev hF)

include hT hw in
theorem op_intt_gs_std2rev : Op P G mem X W.intt_gs_std2rev .nil (NttRed.intt_gs_std2rev t n) :=
  Op.wrap h.intt_gs_std2rev (Op.table h.le h.fresh_inv_omega_powers hT.inv_omega_powers fun _ _ _ _ _ hm ha hop hmp hF =>
    RedTr.ntt_red_gs_std2rev_calls h.has h.lt hm ha hop hmp hw.inv_omega_powers hF)

include hT hw in
theorem op_fwdmul_ct_rev2std : Op P G mem X W.fwdmul_ct_rev2std .nil (NttRed.fwdmul_ct_rev2std t n) :=
  Op.wrap h.fwdmul_ct_rev2std (Op.table h.le h.fresh_mixed_powers hT.mixed_powers fun _ _ _ _ _ hm ha hop hmp hF =>
    RedTr.mulntt_red_ct_rev2std_calls h.has h.lt hm ha hop hmp hw.mixed_powers hF)

include hT hw in
theorem op_fwdmul_ct_std2rev : Op P G mem X W.fwdmul_ct_std2rev .nil (NttRed.fwdmul_ct_std2rev t n) :=
  Op.wrap h.fwdmul_ct_std2rev (Op.table h.le h.fresh_mixed_powers_rev hT.mixed_powers_rev fun _ _ _ _ _ hm ha hop hmp hF =>
    RedTr.mulntt_red_ct_std2rev_calls h.has h.lt hm ha hop hmp hw.mixed_powers_rev hF)

include hT hw in
theorem op_inttmul_gs_rev2std : Op P G mem X W.inttmul_gs_rev2std .nil (NttRed.inttmul_gs_rev2std t n) :=
  Op.wrap h.inttmul_gs_rev2std (Op.table h.le h.fresh_inv_mixed_powers_rev hT.inv_mixed_powers_rev fun _ _ _ _ _ hm ha hop hmp hF =>
    RedTr.nttmul_red_gs_rev2std_calls h.has h.lt hm ha hop hmp hw.inv_mixed_powers_rev hF)

include hT hw in
theorem op_inttmul_gs_std2rev : Op P G mem X W.inttmul_gs_std2rev .nil (NttRed.inttmul_gs_std2rev t n) :=
  Op.wrap h.inttmul_gs_std2rev (Op.table h.le h.fresh_inv_mixed_powers hT.inv_mixed_powers fun _ _ _ _ _ hm ha hop hmp hF =>
    RedTr.nttmul_red_gs_std2rev_calls h.has h.lt hm ha hop hmp hw.inv_mixed_powers hF)

theorem op_shift_array : Op P G mem X n!"shift_array" (.cons (.num n) .nil) (fun a => NttRed.shift_array a n) :=
  Op.plain h.le fun _ _ _ _ hm ha hF => shift_array_calls h.has h.lt hm ha hF

theorem op_reduce_array : Op P G mem X n!"reduce_array" (.cons (.num n) .nil) (fun a => NttRed.reduce_array a n) :=
  Op.plain h.le fun _ _ _ _ hm ha hF => reduce_array_calls h.has h.lt hm ha hF

theorem op_reduce_array_twice : Op P G mem X n!"reduce_array_twice" (.cons (.num n) .nil) (fun a => NttRed.reduce_array_twice a n) :=
  Op.plain h.le fun _ _ _ _ hm ha hF => reduce_array_twice_calls h.has h.lt hm ha hF

theorem op_correct : Op P G mem X n!"correct" (.cons (.num n) .nil) (fun a => NttRed.correct a n) :=
  Op.plain h.le fun _ _ _ _ hm ha hF => correct_calls h.has h.lt hm ha hF

include hT hw in
theorem op_mul_psi_powers : Op P G mem X n!"mul_reduce_array16" (.cons (.num n) (.cons (.var N.psi_powers) .nil)) (fun a => NttRed.mul_reduce_array16 a n t.psi_powers) :=
  Op.table h.le h.fresh_psi_powers hT.psi_powers fun _ _ _ _ _ hm ha hop hmp hF => mul_reduce_array16_calls h.has h.lt hm ha hop hmp hw.psi_powers hF

include hT hw in
theorem op_mul_scaled_inv_psi_powers : Op P G mem X n!"mul_reduce_array16" (.cons (.num n) (.cons (.var N.scaled_inv_psi_powers) .nil)) (fun a => NttRed.mul_reduce_array16 a n t.scaled_inv_psi_powers) :=
  Op.table h.le h.fresh_scaled_inv_psi_powers hT.scaled_inv_psi_powers fun _ _ _ _ _ hm ha hop hmp hF => mul_reduce_array16_calls h.has h.lt hm ha hop hmp hw.scaled_inv_psi_powers hF

include hT hw in
theorem op_scalar : Op P G mem X n!"scalar_mul_reduce_array" (.cons (.num n) (.cons (.var N.scalar) .nil)) (fun a => NttRed.scalar_mul_reduce_array a n t.rescale8) :=
  Op.scalar h.le h.fresh_scalar hT.scalar fun _ _ _ _ hm ha hF => scalar_mul_reduce_array_calls h.has h.lt hm ha hw.scalar hF

end

/-! ### Products -/

section
variable (N : ConstNames) (W : Wraps) (n : Nat)

/-- The statements begin with `shift_array(x, n)` or not. -/
def shifted (sh : Bool) (x : Name) (s : Stmt) : Stmt :=
  match sh with
  | true => .seq (.expr (.call n!"shift_array" (.cons (.var x) (.cons (.num n) .nil)))) s
  | false => s

def body1 (sh : Bool) : Stmt :=
  (shifted n sh n!"a"
  (.seq (.expr (.call n!"mul_reduce_array16" (.cons (.var n!"a") (.cons (.num n) (.cons (.var N.psi_powers) .nil)))))
  (.seq (.expr (.call W.fwd_ct_std2rev (.cons (.var n!"a") .nil)))
  (.seq (.expr (.call n!"reduce_array" (.cons (.var n!"a") (.cons (.num n) .nil))))
  (shifted n sh n!"b"
  (.seq (.expr (.call n!"mul_reduce_array16" (.cons (.var n!"b") (.cons (.num n) (.cons (.var N.psi_powers) .nil)))))
  (.seq (.expr (.call W.fwd_ct_std2rev (.cons (.var n!"b") .nil)))
  (.seq (.expr (.call n!"reduce_array" (.cons (.var n!"b") (.cons (.num n) .nil))))
  (.seq (.expr (.call n!"mul_reduce_array" (.cons (.var n!"c") (.cons (.num n) (.cons (.var n!"a") (.cons (.var n!"b") .nil))))))
  (.seq (.expr (.call n!"reduce_array_twice" (.cons (.var n!"c") (.cons (.num n) .nil))))
  (.seq (.expr (.call W.intt_ct_rev2std (.cons (.var n!"c") .nil)))
  (.seq (.expr (.call n!"mul_reduce_array16" (.cons (.var n!"c") (.cons (.num n) (.cons (.var N.scaled_inv_psi_powers) .nil)))))
  (.seq (.expr (.call n!"reduce_array_twice" (.cons (.var n!"c") (.cons (.num n) .nil))))
  (.seq (.expr (.call n!"correct" (.cons (.var n!"c") (.cons (.num n) .nil))))
  .skip))))))))))))))

def body2 (sh : Bool) : Stmt :=
  (shifted n sh n!"a"
  (.seq (.expr (.call n!"mul_reduce_array16" (.cons (.var n!"a") (.cons (.num n) (.cons (.var N.psi_powers) .nil)))))
  (.seq (.expr (.call W.fwd_gs_std2rev (.cons (.var n!"a") .nil)))
  (.seq (.expr (.call n!"reduce_array" (.cons (.var n!"a") (.cons (.num n) .nil))))
  (shifted n sh n!"b"
  (.seq (.expr (.call n!"mul_reduce_array16" (.cons (.var n!"b") (.cons (.num n) (.cons (.var N.psi_powers) .nil)))))
  (.seq (.expr (.call W.fwd_gs_std2rev (.cons (.var n!"b") .nil)))
  (.seq (.expr (.call n!"reduce_array" (.cons (.var n!"b") (.cons (.num n) .nil))))
  (.seq (.expr (.call n!"mul_reduce_array" (.cons (.var n!"c") (.cons (.num n) (.cons (.var n!"a") (.cons (.var n!"b") .nil))))))
  (.seq (.expr (.call n!"reduce_array_twice" (.cons (.var n!"c") (.cons (.num n) .nil))))
  (.seq (.expr (.call W.intt_ct_rev2std (.cons (.var n!"c") .nil)))
  (.seq (.expr (.call n!"mul_reduce_array16" (.cons (.var n!"c") (.cons (.num n) (.cons (.var N.scaled_inv_psi_powers) .nil)))))
  (.seq (.expr (.call n!"reduce_array_twice" (.cons (.var n!"c") (.cons (.num n) .nil))))
  (.seq (.expr (.call n!"correct" (.cons (.var n!"c") (.cons (.num n) .nil))))
  .skip))))))))))))))

def body3 (sh : Bool) : Stmt :=
  (shifted n sh n!"a"
  (.seq (.expr (.call n!"mul_reduce_array16" (.cons (.var n!"a") (.cons (.num n) (.cons (.var N.psi_powers) .nil)))))
  (.seq (.expr (.call W.fwd_ct_std2rev (.cons (.var n!"a") .nil)))
  (.seq (.expr (.call n!"reduce_array" (.cons (.var n!"a") (.cons (.num n) .nil))))
  (shifted n sh n!"b"
  (.seq (.expr (.call n!"mul_reduce_array16" (.cons (.var n!"b") (.cons (.num n) (.cons (.var N.psi_powers) .nil)))))
  (.seq (.expr (.call W.fwd_ct_std2rev (.cons (.var n!"b") .nil)))
  (.seq (.expr (.call n!"reduce_array" (.cons (.var n!"b") (.cons (.num n) .nil))))
  (.seq (.expr (.call n!"mul_reduce_array" (.cons (.var n!"c") (.cons (.num n) (.cons (.var n!"a") (.cons (.var n!"b") .nil))))))
  (.seq (.expr (.call n!"reduce_array_twice" (.cons (.var n!"c") (.cons (.num n) .nil))))
  (.seq (.expr (.call W.intt_gs_rev2std (.cons (.var n!"c") .nil)))
  (.seq (.expr (.call n!"mul_reduce_array16" (.cons (.var n!"c") (.cons (.num n) (.cons (.var N.scaled_inv_psi_powers) .nil)))))
  (.seq (.expr (.call n!"reduce_array_twice" (.cons (.var n!"c") (.cons (.num n) .nil))))
  (.seq (.expr (.call n!"correct" (.cons (.var n!"c") (.cons (.num n) .nil))))
  .skip))))))))))))))

def body4 (sh : Bool) : Stmt :=
  (shifted n sh n!"a"
  (.seq (.expr (.call n!"mul_reduce_array16" (.cons (.var n!"a") (.cons (.num n) (.cons (.var N.psi_powers) .nil)))))
  (.seq (.expr (.call W.fwd_gs_std2rev (.cons (.var n!"a") .nil)))
  (.seq (.expr (.call n!"reduce_array" (.cons (.var n!"a") (.cons (.num n) .nil))))
  (shifted n sh n!"b"
  (.seq (.expr (.call n!"mul_reduce_array16" (.cons (.var n!"b") (.cons (.num n) (.cons (.var N.psi_powers) .nil)))))
  (.seq (.expr (.call W.fwd_gs_std2rev (.cons (.var n!"b") .nil)))
  (.seq (.expr (.call n!"reduce_array" (.cons (.var n!"b") (.cons (.num n) .nil))))
  (.seq (.expr (.call n!"mul_reduce_array" (.cons (.var n!"c") (.cons (.num n) (.cons (.var n!"a") (.cons (.var n!"b") .nil))))))
  (.seq (.expr (.call n!"reduce_array_twice" (.cons (.var n!"c") (.cons (.num n) .nil))))
  (.seq (.expr (.call W.intt_gs_rev2std (.cons (.var n!"c") .nil)))
  (.seq (.expr (.call n!"mul_reduce_array16" (.cons (.var n!"c") (.cons (.num n) (.cons (.var N.scaled_inv_psi_powers) .nil)))))
  (.seq (.expr (.call n!"reduce_array_twice" (.cons (.var n!"c") (.cons (.num n) .nil))))
  (.seq (.expr (.call n!"correct" (.cons (.var n!"c") (.cons (.num n) .nil))))
  .skip))))))))))))))

def body5 (sh : Bool) : Stmt :=
  (shifted n sh n!"a"
  (.seq (.expr (.call W.fwdmul_ct_std2rev (.cons (.var n!"a") .nil)))
  (.seq (.expr (.call n!"reduce_array" (.cons (.var n!"a") (.cons (.num n) .nil))))
  (shifted n sh n!"b"
  (.seq (.expr (.call W.fwdmul_ct_std2rev (.cons (.var n!"b") .nil)))
  (.seq (.expr (.call n!"reduce_array" (.cons (.var n!"b") (.cons (.num n) .nil))))
  (.seq (.expr (.call n!"mul_reduce_array" (.cons (.var n!"c") (.cons (.num n) (.cons (.var n!"a") (.cons (.var n!"b") .nil))))))
  (.seq (.expr (.call n!"reduce_array_twice" (.cons (.var n!"c") (.cons (.num n) .nil))))
  (.seq (.expr (.call W.inttmul_gs_rev2std (.cons (.var n!"c") .nil)))
  (.seq (.expr (.call n!"scalar_mul_reduce_array" (.cons (.var n!"c") (.cons (.num n) (.cons (.var N.scalar) .nil)))))
  (.seq (.expr (.call n!"reduce_array_twice" (.cons (.var n!"c") (.cons (.num n) .nil))))
  (.seq (.expr (.call n!"correct" (.cons (.var n!"c") (.cons (.num n) .nil))))
  .skip))))))))))))

end

section
variable {P : Prog} {N : ConstNames} {W : Wraps} {n : Nat} {G : Name → Option Cell} {mem : Nat → Obj} {oc oa ob : Nat} {t : RedTables}
  {c a b c' a' b' : Array Int}

theorem run_shiftA {sh : Bool} {s : Stmt} {y : Array Int × Array Int × Array Int} (h : Ctx P N W n) (hac : oa ≠ oc) (hab : oa ≠ ob)
    (hF : NttRed.shiftInput n sh a = .ok a') (hs : Run P G mem oc oa ob s (c, a', b) y) :
    Run P G mem oc oa ob (shifted n sh n!"a" s) (c, a, b) y := by
  cases sh with
  | true => exact Run.seq (Run.opA hac hab (op_shift_array h) (by simpa [NttRed.shiftInput] using hF)) hs
  | false =>
    simp only [NttRed.shiftInput, Bool.false_eq_true, if_false, pure_ok] at hF
    subst hF
    exact hs

theorem run_shiftB {sh : Bool} {s : Stmt} {y : Array Int × Array Int × Array Int} (h : Ctx P N W n) (hbc : ob ≠ oc)
    (hF : NttRed.shiftInput n sh b = .ok b') (hs : Run P G mem oc oa ob s (c, a, b') y) :
    Run P G mem oc oa ob (shifted n sh n!"b" s) (c, a, b) y := by
  cases sh with
  | true => exact Run.seq (Run.opB hbc (op_shift_array h) (by simpa [NttRed.shiftInput] using hF)) hs
  | false =>
    simp only [NttRed.shiftInput, Bool.false_eq_true, if_false, pure_ok] at hF
    subst hF
    exact hs

theorem run1 {sh : Bool} (h : Ctx P N W n) (hac : oa ≠ oc) (hab : oa ≠ ob) (hbc : ob ≠ oc) (hT : Globals N .i16 (redConsts t) G mem [oc, oa, ob])
    (hw : WfC (redConsts t)) (hF : NttRed.product1 t n sh c a b = .ok (c', a', b')) :
    Run P G mem oc oa ob (body1 N W n sh) (c, a, b) (c', a', b') := by
  simp only [NttRed.product1, bind_ok, pure_ok, Prod.mk.injEq] at hF
  obtain ⟨_, h1, _, h2, _, h3, _, h4, _, h5, _, h6, _, h7, _, h8, _, h9, _, h10, _, h11, _, h12, _, h13, _, h14, rfl, rfl, rfl⟩ := hF
  exact run_shiftA h hac hab h1 (
    Run.seq (Run.opA hac hab (op_mul_psi_powers h hT hw) h2) (
    Run.seq (Run.opA hac hab (op_fwd_ct_std2rev h hT hw) h3) (
    Run.seq (Run.opA hac hab (op_reduce_array h) h4) (
    run_shiftB h hbc h5 (
    Run.seq (Run.opB hbc (op_mul_psi_powers h hT hw) h6) (
    Run.seq (Run.opB hbc (op_fwd_ct_std2rev h hT hw) h7) (
    Run.seq (Run.opB hbc (op_reduce_array h) h8) (
    Run.seq (Run.mul h.le hac hab hbc (fun _ => EvA.nil _) fun _ m1 w1 m2 w2 m3 w3 => mul_reduce_array_calls h.has h.lt m1 w1 hac m2 w2 hbc m3 w3 h9) (
    Run.seq (Run.opC (op_reduce_array_twice h) h10) (
    Run.seq (Run.opC (op_intt_ct_rev2std h hT hw) h11) (
    Run.seq (Run.opC (op_mul_scaled_inv_psi_powers h hT hw) h12) (
    Run.seq (Run.opC (op_reduce_array_twice h) h13) (
    Run.seq (Run.opC (op_correct h) h14) (
    Run.skip))))))))))))))

theorem run2 {sh : Bool} (h : Ctx P N W n) (hac : oa ≠ oc) (hab : oa ≠ ob) (hbc : ob ≠ oc) (hT : Globals N .i16 (redConsts t) G mem [oc, oa, ob])
    (hw : WfC (redConsts t)) (hF : NttRed.product2 t n sh c a b = .ok (c', a', b')) :
    Run P G mem oc oa ob (body2 N W n sh) (c, a, b) (c', a', b') := by
  simp only [NttRed.product2, bind_ok, pure_ok, Prod.mk.injEq] at hF
  obtain ⟨_, h1, _, h2, _, h3, _, h4, _, h5, _, h6, _, h7, _, h8, _, h9, _, h10, _, h11, _, h12, _, h13, _, h14, rfl, rfl, rfl⟩ := hF
  exact run_shiftA h hac hab h1 (
    Run.seq (Run.opA hac hab (op_mul_psi_powers h hT hw) h2) (
    Run.seq (Run.opA hac hab (op_fwd_gs_std2rev h hT hw) h3) (
    Run.seq (Run.opA hac hab (op_reduce_array h) h4) (
    run_shiftB h hbc h5 (
    Run.seq (Run.opB hbc (op_mul_psi_powers h hT hw) h6) (
    Run.seq (Run.opB hbc (op_fwd_gs_std2rev h hT hw) h7) (
    Run.seq (Run.opB hbc (op_reduce_array h) h8) (
    Run.seq (Run.mul h.le hac hab hbc (fun _ => EvA.nil _) fun _ m1 w1 m2 w2 m3 w3 => mul_reduce_array_calls h.has h.lt m1 w1 hac m2 w2 hbc m3 w3 h9) (
    Run.seq (Run.opC (op_reduce_array_twice h) h10) (
    Run.seq (Run.opC (op_intt_ct_rev2std h hT hw) h11) (
    Run.seq (Run.opC (op_mul_scaled_inv_psi_powers h hT hw) h12) (
    Run.seq (Run.opC (op_reduce_array_twice h) h13) (
    Run.seq (Run.opC (op_correct h) h14) (
    Run.skip))))))))))))))

theorem run3 {sh : Bool} (h : Ctx P N W n) (hac : oa ≠ oc) (hab : oa ≠ ob) (hbc : ob ≠ oc) (hT : Globals N .i16 (redConsts t) G mem [oc, oa, ob])
    (hw : WfC (redConsts t)) (hF : NttRed.product3 t n sh c a b = .ok (c', a', b')) :
    Run P G mem oc oa ob (body3 N W n sh) (c, a, b) (c', a', b') := by
  simp only [NttRed.product3, bind_ok, pure_ok, Prod.mk.injEq] at hF
  obtain ⟨_, h1, _, h2, _, h3, _, h4, _, h5, _, h6, _, h7, _, h8, _, h9, _, h10, _, h11, _, h12, _, h13, _, h14, rfl, rfl, rfl⟩ := hF
  exact run_shiftA h hac hab h1 (
    Run.seq (Run.opA hac hab (op_mul_psi_powers h hT hw) h2) (
    Run.seq (Run.opA hac hab (op_fwd_ct_std2rev h hT hw) h3) (
    Run.seq (Run.opA hac hab (op_reduce_array h) h4) (
    run_shiftB h hbc h5 (
    Run.seq (Run.opB hbc (op_mul_psi_powers h hT hw) h6) (
    Run.seq (Run.opB hbc (op_fwd_ct_std2rev h hT hw) h7) (
    Run.seq (Run.opB hbc (op_reduce_array h) h8) (
    Run.seq (Run.mul h.le hac hab hbc (fun _ => EvA.nil _) fun _ m1 w1 m2 w2 m3 w3 => mul_reduce_array_calls h.has h.lt m1 w1 hac m2 w2 hbc m3 w3 h9) (
    Run.seq (Run.opC (op_reduce_array_twice h) h10) (
    Run.seq (Run.opC (op_intt_gs_rev2std h hT hw) h11) (
    Run.seq (Run.opC (op_mul_scaled_inv_psi_powers h hT hw) h12) (
    Run.seq (Run.opC (op_reduce_array_twice h) h13) (
    Run.seq (Run.opC (op_correct h) h14) (
    Run.skip))))))))))))))

theorem run4 {sh : Bool} (h : Ctx P N W n) (hac : oa ≠ oc) (hab : oa ≠ ob) (hbc : ob ≠ oc) (hT : Globals N .i16 (redConsts t) G mem [oc, oa, ob])
    (hw : WfC (redConsts t)) (hF : NttRed.product4 t n sh c a b = .ok (c', a', b')) :
    Run P G mem oc oa ob (body4 N W n sh) (c, a, b) (c', a', b') := by
  simp only [NttRed.product4, bind_ok, pure_ok, Prod.mk.injEq] at hF
  obtain ⟨_, h1, _, h2, _, h3, _, h4, _, h5, _, h6, _, h7, _, h8, _, h9, _, h10, _, h11, _, h12, _, h13, _, h14, rfl, rfl, rfl⟩ := hF
  exact run_shiftA h hac hab h1 (
    Run.seq (Run.opA hac hab (op_mul_psi_powers h hT hw) h2) (
    Run.seq (Run.opA hac hab (op_fwd_gs_std2rev h hT hw) h3) (
    Run.seq (Run.opA hac hab (op_reduce_array h) h4) (
    run_shiftB h hbc h5 (
    Run.seq (Run.opB hbc (op_mul_psi_powers h hT hw) h6) (
    Run.seq (Run.opB hbc (op_fwd_gs_std2rev h hT hw) h7) (
    Run.seq (Run.opB hbc (op_reduce_array h) h8) (
    Run.seq (Run.mul h.le hac hab hbc (fun _ => EvA.nil _) fun _ m1 w1 m2 w2 m3 w3 => mul_reduce_array_calls h.has h.lt m1 w1 hac m2 w2 hbc m3 w3 h9) (
    Run.seq (Run.opC (op_reduce_array_twice h) h10) (
    Run.seq (Run.opC (op_intt_gs_rev2std h hT hw) h11) (
    Run.seq (Run.opC (op_mul_scaled_inv_psi_powers h hT hw) h12) (
    Run.seq (Run.opC (op_reduce_array_twice h) h13) (
    Run.seq (Run.opC (op_correct h) h14) (
    Run.skip))))))))))))))

theorem run5 {sh : Bool} (h : Ctx P N W n) (hac : oa ≠ oc) (hab : oa ≠ ob) (hbc : ob ≠ oc) (hT : Globals N .i16 (redConsts t) G mem [oc, oa, ob])
    (hw : WfC (redConsts t)) (hF : NttRed.product5 t n sh c a b = .ok (c', a', b')) :
    Run P G mem oc oa ob (body5 N W n sh) (c, a, b) (c', a', b') := by
  simp only [NttRed.product5, bind_ok, pure_ok, Prod.mk.injEq] at hF
  obtain ⟨_, h1, _, h2, _, h3, _, h4, _, h5, _, h6, _, h7, _, h8, _, h9, _, h10, _, h11, _, h12, rfl, rfl, rfl⟩ := hF
  exact run_shiftA h hac hab h1 (
    Run.seq (Run.opA hac hab (op_fwdmul_ct_std2rev h hT hw) h2) (
    Run.seq (Run.opA hac hab (op_reduce_array h) h3) (
    run_shiftB h hbc h4 (
    Run.seq (Run.opB hbc (op_fwdmul_ct_std2rev h hT hw) h5) (
    Run.seq (Run.opB hbc (op_reduce_array h) h6) (
    Run.seq (Run.mul h.le hac hab hbc (fun _ => EvA.nil _) fun _ m1 w1 m2 w2 m3 w3 => mul_reduce_array_calls h.has h.lt m1 w1 hac m2 w2 hbc m3 w3 h7) (
    Run.seq (Run.opC (op_reduce_array_twice h) h8) (
    Run.seq (Run.opC (op_inttmul_gs_rev2std h hT hw) h9) (
    Run.seq (Run.opC (op_scalar h hT hw) h10) (
    Run.seq (Run.opC (op_reduce_array_twice h) h11) (
    Run.seq (Run.opC (op_correct h) h12) (
    Run.skip))))))))))))

end
end CLang.RedProd
