import Verif.Proofs.CRunProd
import Verif.Proofs.CRunNtt
import Verif.Model.Products

/-
The functions of src/ntt<n>.{h,c} as read from the text do what the model says.
-/

namespace CLang.NttProd
open C Tables

/-- The names of the functions of the header. -/
structure Wraps where
  fwd_ct_rev2std : Name
  fwd_gs_rev2std : Name
  fwd_ct_std2rev : Name
  fwd_gs_std2rev : Name
  intt_ct_rev2std : Name
  intt_gs_rev2std : Name
  intt_ct_std2rev : Name
  intt_gs_std2rev : Name
  fwdmul_ct_rev2std : Name
  fwdmul_ct_std2rev : Name
  inttmul_gs_rev2std : Name
  inttmul_gs_std2rev : Name

/-- The program contains src/ntt.c and the functions of the header for size `n`. -/
structure Ctx (P : Prog) (N : ConstNames) (W : Wraps) (n : Nat) : Prop where
  has : Has P Src.ntt
  le : n ≤ 2147483647
  fresh_psi_powers : Fresh N.psi_powers
  fresh_scaled_inv_psi_powers : Fresh N.scaled_inv_psi_powers
  fresh_omega_powers : Fresh N.omega_powers
  fresh_omega_powers_rev : Fresh N.omega_powers_rev
  fresh_inv_omega_powers : Fresh N.inv_omega_powers
  fresh_inv_omega_powers_rev : Fresh N.inv_omega_powers_rev
  fresh_mixed_powers : Fresh N.mixed_powers
  fresh_mixed_powers_rev : Fresh N.mixed_powers_rev
  fresh_inv_mixed_powers : Fresh N.inv_mixed_powers
  fresh_inv_mixed_powers_rev : Fresh N.inv_mixed_powers_rev
  fresh_scalar : Fresh N.scalar
  fwd_ct_rev2std : P.lookup W.fwd_ct_rev2std = some (wrapper n!"ntt_ct_rev2std" (.cons (.num n) (.cons (.var N.omega_powers) .nil)))
  fwd_gs_rev2std : P.lookup W.fwd_gs_rev2std = some (wrapper n!"ntt_gs_rev2std" (.cons (.num n) (.cons (.var N.omega_powers_rev) .nil)))
  fwd_ct_std2rev : P.lookup W.fwd_ct_std2rev = some (wrapper n!"ntt_ct_std2rev" (.cons (.num n) (.cons (.var N.omega_powers_rev) .nil)))
  fwd_gs_std2rev : P.lookup W.fwd_gs_std2rev = some (wrapper n!"ntt_gs_std2rev" (.cons (.num n) (.cons (.var N.omega_powers) .nil)))
  intt_ct_rev2std : P.lookup W.intt_ct_rev2std = some (wrapper n!"ntt_ct_rev2std" (.cons (.num n) (.cons (.var N.inv_omega_powers) .nil)))
  intt_gs_rev2std : P.lookup W.intt_gs_rev2std = some (wrapper n!"ntt_gs_rev2std" (.cons (.num n) (.cons (.var N.inv_omega_powers_rev) .nil)))
  intt_ct_std2rev : P.lookup W.intt_ct_std2rev = some (wrapper n!"ntt_ct_std2rev" (.cons (.num n) (.cons (.var N.inv_omega_powers_rev) .nil)))
  intt_gs_std2rev : P.lookup W.intt_gs_std2rev = some (wrapper n!"ntt_gs_std2rev" (.cons (.num n) (.cons (.var N.inv_omega_powers) .nil)))
  fwdmul_ct_rev2std : P.lookup W.fwdmul_ct_rev2std = some (wrapper n!"mulntt_ct_rev2std" (.cons (.num n) (.cons (.var N.mixed_powers) .nil)))
  fwdmul_ct_std2rev : P.lookup W.fwdmul_ct_std2rev = some (wrapper n!"mulntt_ct_std2rev" (.cons (.num n) (.cons (.var N.mixed_powers_rev) .nil)))
  inttmul_gs_rev2std : P.lookup W.inttmul_gs_rev2std = some (wrapper n!"nttmul_gs_rev2std" (.cons (.num n) (.cons (.var N.inv_mixed_powers_rev) .nil)))
  inttmul_gs_std2rev : P.lookup W.inttmul_gs_std2rev = some (wrapper n!"nttmul_gs_std2rev" (.cons (.num n) (.cons (.var N.inv_mixed_powers) .nil)))

/-- The tables contain values of type `int32_t`. -/
structure WfC (T : Consts) : Prop where
  psi_powers : Wf T.psi_powers
  scaled_inv_psi_powers : Wf T.scaled_inv_psi_powers
  omega_powers : Wf T.omega_powers
  omega_powers_rev : Wf T.omega_powers_rev
  inv_omega_powers : Wf T.inv_omega_powers
  inv_omega_powers_rev : Wf T.inv_omega_powers_rev
  mixed_powers : Wf T.mixed_powers
  mixed_powers_rev : Wf T.mixed_powers_rev
  inv_mixed_powers : Wf T.inv_mixed_powers
  inv_mixed_powers_rev : Wf T.inv_mixed_powers_rev
  scalar : I32 T.scalar

section
variable {P : Prog} {N : ConstNames} {W : Wraps} {n : Nat} (h : Ctx P N W n) {G : Name → Option Cell} {mem : Nat → Obj} {X : List Nat} {t : Nttables}
  (hT : Globals N .u16 (nttConsts t) G mem X) (hw : WfC (nttConsts t))
include h

theorem Ctx.lt : n < 4294967296 := lt_of_le_of_lt h.le (by decide)

include hT hw in
theorem op_fwd_ct_rev2std : Op P G mem X W.fwd_ct_rev2std .nil (Ntt.fwd_ct_rev2std t n) :=
  Op.wrap h.fwd_ct_rev2std (Op.table h.le h.fresh_omega_powers hT.omega_powers fun _ _ _ _ _ hm ha hop hmp hF =>
    NttTr.ntt_ct_rev2std_calls h.has h.lt hm ha hop hmp hw.omega_powers hF)

include hT hw in
theorem op_fwd_gs_rev2std : Op P G mem X W.fwd_gs_rev2std .nil (Ntt.fwd_gs_rev2std t n) :=
  Op.wrap h.fwd_gs_rev2std (Op.table h.le h.fresh_omega_powers_rev hT.omega_powers_rev fun _ _ _ _ _ hm ha hop hmp hF =>
    NttTr.ntt_gs_rev2std_calls h.has h.lt hm ha hop hmp hw.omega_powers_rev hF)

include hT hw in
theorem op_fwd_ct_std2rev : Op P G mem X W.fwd_ct_std2rev .nil (Ntt.fwd_ct_std2rev t n) :=
  Op.wrap h.fwd_ct_std2rev (Op.table h.le h.fresh_omega_powers_rev hT.omega_powers_rev fun _ _ _ _ _ hm ha hop hmp hF =>
    NttTr.ntt_ct_std2rev_calls h.has h.lt hm ha hop hmp hw.omega_powers_rev hF)

include hT hw in
theorem op_fwd_gs_std2rev : Op P G mem X W.fwd_gs_std2rev .nil (Ntt.fwd_gs_std2rev t n) :=
  Op.wrap h.fwd_gs_std2rev (Op.table h.le h.fresh_omega_powers hT.omega_powers fun _ _ _ _ _ hm ha hop hmp hF =>
    NttTr.ntt_gs_std2rev_calls h.has h.lt hm ha hop hmp hw.omega_powers hF)

include hT hw in
theorem op_intt_ct_rev2std : Op P G mem X W.intt_ct_rev2std .nil (Ntt.intt_ct_rev2std t n) :=
  Op.wrap h.intt_ct_rev2std (Op.table h.le h.fresh_inv_omega_powers hT.inv_omega_powers fun _ _ _ _ _ hm ha hop hmp hF =>
    NttTr.ntt_ct_rev2std_calls h.has h.lt hm ha hop hmp hw.inv_omega_powers hF)

include hT hw in
theorem op_intt_gs_rev2std : Op P G mem X W.intt_gs_rev2std .nil (Ntt.intt_gs_rev2std t n) :=
  Op.wrap h.intt_gs_rev2std (Op.table h.le h.fresh_inv_omega_powers_rev hT.inv_omega_powers_rev fun _ _ _ _ _ hm ha hop hmp hF =>
    NttTr.ntt_gs_rev2std_calls h.has h.lt hm ha hop hmp hw.inv_omega_powers_rev hF)

include hT hw in
theorem op_intt_ct_std2rev : Op P G mem X W.intt_ct_std2rev .nil (Ntt.intt_ct_std2rev t n) :=
  Op.wrap h.intt_ct_std2rev (Op.table h.le h.fresh_inv_omega_powers_rev hT.inv_omega_powers_rev fun _ _ _ _ _ hm ha hop hmp hF =>
    NttTr.ntt_ct_std2rev_calls h.has h.lt hm ha hop hmp hw.inv_omega_powers_rev hF)

include hT hw in
theorem op_intt_gs_std2rev : Op P G mem X W.intt_gs_std2rev .nil (Ntt.intt_gs_std2rev t n) :=
  Op.wrap h.intt_gs_std2rev (Op.table h.le h.fresh_inv_omega_powers hT.inv_omega_powers fun _ _ _ _ _ hm ha hop hmp hF =>
    NttTr.ntt_gs_std2rev_calls h.has h.lt hm ha hop hmp hw.inv_omega_powers hF)

include hT hw in
theorem op_fwdmul_ct_rev2std : Op P G mem X W.fwdmul_ct_rev2std .nil (Ntt.fwdmul_ct_rev2std t n) :=
  Op.wrap h.fwdmul_ct_rev2std (Op.table h.le h.fresh_mixed_powers hT.mixed_powers fun _ _ _ _ _ hm ha hop hmp hF =>
    NttTr.mulntt_ct_rev2std_calls h.has h.lt hm ha hop hmp hw.mixed_powers hF)

include hT hw in
theorem op_fwdmul_ct_std2rev : Op P G mem X W.fwdmul_ct_std2rev .nil (Ntt.fwdmul_ct_std2rev t n) :=
  Op.wrap h.fwdmul_ct_std2rev (Op.table h.le h.fresh_mixed_powers_rev hT.mixed_powers_rev fun _ _ _ _ _ hm ha hop hmp hF =>
    NttTr.mulntt_ct_std2rev_calls h.has h.lt hm ha hop hmp hw.mixed_powers_rev hF)

include hT hw in
theorem op_inttmul_gs_rev2std : Op P G mem X W.inttmul_gs_rev2std .nil (Ntt.inttmul_gs_rev2std t n) :=
  Op.wrap h.inttmul_gs_rev2std (Op.table h.le h.fresh_inv_mixed_powers_rev hT.inv_mixed_powers_rev fun _ _ _ _ _ hm ha hop hmp hF =>
    NttTr.nttmul_gs_rev2std_calls h.has h.lt hm ha hop hmp hw.inv_mixed_powers_rev hF)

include hT hw in
theorem op_inttmul_gs_std2rev : Op P G mem X W.inttmul_gs_std2rev .nil (Ntt.inttmul_gs_std2rev t n) :=
  Op.wrap h.inttmul_gs_std2rev (Op.table h.le h.fresh_inv_mixed_powers hT.inv_mixed_powers fun _ _ _ _ _ hm ha hop hmp hF =>
    NttTr.nttmul_gs_std2rev_calls h.has h.lt hm ha hop hmp hw.inv_mixed_powers hF)

include hT hw in
theorem op_mul_psi_powers : Op P G mem X n!"mul_array16" (.cons (.num n) (.cons (.var N.psi_powers) .nil)) (fun a => Ntt.mul_array16 a n t.psi_powers) :=
  Op.table h.le h.fresh_psi_powers hT.psi_powers fun _ _ _ _ _ hm ha hop hmp hF => NttTr.mul_array16_calls h.has h.lt hm ha hop hmp (by simp) hw.psi_powers hF

include hT hw in
theorem op_mul_scaled_inv_psi_powers : Op P G mem X n!"mul_array16" (.cons (.num n) (.cons (.var N.scaled_inv_psi_powers) .nil)) (fun a => Ntt.mul_array16 a n t.scaled_inv_psi_powers) :=
  Op.table h.le h.fresh_scaled_inv_psi_powers hT.scaled_inv_psi_powers fun _ _ _ _ _ hm ha hop hmp hF => NttTr.mul_array16_calls h.has h.lt hm ha hop hmp (by simp) hw.scaled_inv_psi_powers hF

include hT hw in
theorem op_scalar : Op P G mem X n!"scalar_mul_array" (.cons (.num n) (.cons (.var N.scalar) .nil)) (fun a => Ntt.scalar_mul_array a n t.inv_n) :=
  Op.scalar h.le h.fresh_scalar hT.scalar fun _ _ _ _ hm ha hF => NttTr.scalar_mul_array_calls h.has h.lt hm ha hw.scalar hF

end

/-! ### Products -/

section
variable (N : ConstNames) (W : Wraps) (n : Nat)

def body1 : Stmt :=
  (.seq (.expr (.call n!"mul_array16" (.cons (.var n!"a") (.cons (.num n) (.cons (.var N.psi_powers) .nil)))))
  (.seq (.expr (.call W.fwd_ct_std2rev (.cons (.var n!"a") .nil)))
  (.seq (.expr (.call n!"mul_array16" (.cons (.var n!"b") (.cons (.num n) (.cons (.var N.psi_powers) .nil)))))
  (.seq (.expr (.call W.fwd_ct_std2rev (.cons (.var n!"b") .nil)))
  (.seq (.expr (.call n!"mul_array" (.cons (.var n!"c") (.cons (.num n) (.cons (.var n!"a") (.cons (.var n!"b") .nil))))))
  (.seq (.expr (.call W.intt_ct_rev2std (.cons (.var n!"c") .nil)))
  (.seq (.expr (.call n!"mul_array16" (.cons (.var n!"c") (.cons (.num n) (.cons (.var N.scaled_inv_psi_powers) .nil)))))
  .skip)))))))

def body2 : Stmt :=
  (.seq (.expr (.call n!"mul_array16" (.cons (.var n!"a") (.cons (.num n) (.cons (.var N.psi_powers) .nil)))))
  (.seq (.expr (.call W.fwd_gs_std2rev (.cons (.var n!"a") .nil)))
  (.seq (.expr (.call n!"mul_array16" (.cons (.var n!"b") (.cons (.num n) (.cons (.var N.psi_powers) .nil)))))
  (.seq (.expr (.call W.fwd_gs_std2rev (.cons (.var n!"b") .nil)))
  (.seq (.expr (.call n!"mul_array" (.cons (.var n!"c") (.cons (.num n) (.cons (.var n!"a") (.cons (.var n!"b") .nil))))))
  (.seq (.expr (.call W.intt_ct_rev2std (.cons (.var n!"c") .nil)))
  (.seq (.expr (.call n!"mul_array16" (.cons (.var n!"c") (.cons (.num n) (.cons (.var N.scaled_inv_psi_powers) .nil)))))
  .skip)))))))

def body3 : Stmt :=
  (.seq (.expr (.call n!"mul_array16" (.cons (.var n!"a") (.cons (.num n) (.cons (.var N.psi_powers) .nil)))))
  (.seq (.expr (.call W.fwd_ct_std2rev (.cons (.var n!"a") .nil)))
  (.seq (.expr (.call n!"mul_array16" (.cons (.var n!"b") (.cons (.num n) (.cons (.var N.psi_powers) .nil)))))
  (.seq (.expr (.call W.fwd_ct_std2rev (.cons (.var n!"b") .nil)))
  (.seq (.expr (.call n!"mul_array" (.cons (.var n!"c") (.cons (.num n) (.cons (.var n!"a") (.cons (.var n!"b") .nil))))))
  (.seq (.expr (.call W.intt_gs_rev2std (.cons (.var n!"c") .nil)))
  (.seq (.expr (.call n!"mul_array16" (.cons (.var n!"c") (.cons (.num n) (.cons (.var N.scaled_inv_psi_powers) .nil)))))
  .skip)))))))

def body4 : Stmt :=
  (.seq (.expr (.call n!"mul_array16" (.cons (.var n!"a") (.cons (.num n) (.cons (.var N.psi_powers) .nil)))))
  (.seq (.expr (.call W.fwd_gs_std2rev (.cons (.var n!"a") .nil)))
  (.seq (.expr (.call n!"mul_array16" (.cons (.var n!"b") (.cons (.num n) (.cons (.var N.psi_powers) .nil)))))
  (.seq (.expr (.call W.fwd_gs_std2rev (.cons (.var n!"b") .nil)))
  (.seq (.expr (.call n!"mul_array" (.cons (.var n!"c") (.cons (.num n) (.cons (.var n!"a") (.cons (.var n!"b") .nil))))))
  (.seq (.expr (.call W.intt_gs_rev2std (.cons (.var n!"c") .nil)))
  (.seq (.expr (.call n!"mul_array16" (.cons (.var n!"c") (.cons (.num n) (.cons (.var N.scaled_inv_psi_powers) .nil)))))
  .skip)))))))

def body5 : Stmt :=
  (.seq (.expr (.call W.fwdmul_ct_std2rev (.cons (.var n!"a") .nil)))
  (.seq (.expr (.call W.fwdmul_ct_std2rev (.cons (.var n!"b") .nil)))
  (.seq (.expr (.call n!"mul_array" (.cons (.var n!"c") (.cons (.num n) (.cons (.var n!"a") (.cons (.var n!"b") .nil))))))
  (.seq (.expr (.call W.inttmul_gs_rev2std (.cons (.var n!"c") .nil)))
  (.seq (.expr (.call n!"scalar_mul_array" (.cons (.var n!"c") (.cons (.num n) (.cons (.var N.scalar) .nil)))))
  .skip)))))

end

section
variable {P : Prog} {N : ConstNames} {W : Wraps} {n : Nat} {G : Name → Option Cell} {mem : Nat → Obj} {oc oa ob : Nat} {t : Nttables}
  {c a b c' a' b' : Array Int}

theorem run1 (h : Ctx P N W n) (hac : oa ≠ oc) (hab : oa ≠ ob) (hbc : ob ≠ oc) (hT : Globals N .u16 (nttConsts t) G mem [oc, oa, ob])
    (hw : WfC (nttConsts t)) (hF : Ntt.product1 t n c a b = .ok (c', a', b')) :
    Run P G mem oc oa ob (body1 N W n) (c, a, b) (c', a', b') := by
  simp only [Ntt.product1, bind_ok, pure_ok, Prod.mk.injEq] at hF
  obtain ⟨_, h1, _, h2, _, h3, _, h4, _, h5, _, h6, _, h7, rfl, rfl, rfl⟩ := hF
  exact Run.seq (Run.opA hac hab (op_mul_psi_powers h hT hw) h1) (
    Run.seq (Run.opA hac hab (op_fwd_ct_std2rev h hT hw) h2) (
    Run.seq (Run.opB hbc (op_mul_psi_powers h hT hw) h3) (
    Run.seq (Run.opB hbc (op_fwd_ct_std2rev h hT hw) h4) (
    Run.seq (Run.mul h.le hac hab hbc (fun _ => EvA.nil _) fun _ m1 w1 m2 w2 m3 w3 => NttTr.mul_array_calls h.has h.lt m1 w1 hac m2 w2 hbc m3 w3 h5) (
    Run.seq (Run.opC (op_intt_ct_rev2std h hT hw) h6) (
    Run.seq (Run.opC (op_mul_scaled_inv_psi_powers h hT hw) h7) (
    Run.skip)))))))

theorem run2 (h : Ctx P N W n) (hac : oa ≠ oc) (hab : oa ≠ ob) (hbc : ob ≠ oc) (hT : Globals N .u16 (nttConsts t) G mem [oc, oa, ob])
    (hw : WfC (nttConsts t)) (hF : Ntt.product2 t n c a b = .ok (c', a', b')) :
    Run P G mem oc oa ob (body2 N W n) (c, a, b) (c', a', b') := by
  simp only [Ntt.product2, bind_ok, pure_ok, Prod.mk.injEq] at hF
  obtain ⟨_, h1, _, h2, _, h3, _, h4, _, h5, _, h6, _, h7, rfl, rfl, rfl⟩ := hF
  exact Run.seq (Run.opA hac hab (op_mul_psi_powers h hT hw) h1) (
    Run.seq (Run.opA hac hab (op_fwd_gs_std2rev h hT hw) h2) (
    Run.seq (Run.opB hbc (op_mul_psi_powers h hT hw) h3) (
    Run.seq (Run.opB hbc (op_fwd_gs_std2rev h hT hw) h4) (
    Run.seq (Run.mul h.le hac hab hbc (fun _ => EvA.nil _) fun _ m1 w1 m2 w2 m3 w3 => NttTr.mul_array_calls h.has h.lt m1 w1 hac m2 w2 hbc m3 w3 h5) (
    Run.seq (Run.opC (op_intt_ct_rev2std h hT hw) h6) (
    Run.seq (Run.opC (op_mul_scaled_inv_psi_powers h hT hw) h7) (
    Run.skip)))))))

theorem run3 (h : Ctx P N W n) (hac : oa ≠ oc) (hab : oa ≠ ob) (hbc : ob ≠ oc) (hT : Globals N .u16 (nttConsts t) G mem [oc, oa, ob])
    (hw : WfC (nttConsts t)) (hF : Ntt.product3 t n c a b = .ok (c', a', b')) :
    Run P G mem oc oa ob (body3 N W n) (c, a, b) (c', a', b') := by
  simp only [Ntt.product3, bind_ok, pure_ok, Prod.mk.injEq] at hF
  obtain ⟨_, h1, _, h2, _, h3, _, h4, _, h5, _, h6, _, h7, rfl, rfl, rfl⟩ := hF
  exact Run.seq (Run.opA hac hab (op_mul_psi_powers h hT hw) h1) (
    Run.seq (Run.opA hac hab (op_fwd_ct_std2rev h hT hw) h2) (
    Run.seq (Run.opB hbc (op_mul_psi_powers h hT hw) h3) (
    Run.seq (Run.opB hbc (op_fwd_ct_std2rev h hT hw) h4) (
    Run.seq (Run.mul h.le hac hab hbc (fun _ => EvA.nil _) fun _ m1 w1 m2 w2 m3 w3 => NttTr.mul_array_calls h.has h.lt m1 w1 hac m2 w2 hbc m3 w3 h5) (
    Run.seq (Run.opC (op_intt_gs_rev2std h hT hw) h6) (
    Run.seq (Run.opC (op_mul_scaled_inv_psi_powers h hT hw) h7) (
    Run.skip)))))))

theorem run4 (h : Ctx P N W n) (hac : oa ≠ oc) (hab : oa ≠ ob) (hbc : ob ≠ oc) (hT : Globals N .u16 (nttConsts t) G mem [oc, oa, ob])
    (hw : WfC (nttConsts t)) (hF : Ntt.product4 t n c a b = .ok (c', a', b')) :
    Run P G mem oc oa ob (body4 N W n) (c, a, b) (c', a', b') := by
  simp only [Ntt.product4, bind_ok, pure_ok, Prod.mk.injEq] at hF
  obtain ⟨_, h1, _, h2, _, h3, _, h4, _, h5, _, h6, _, h7, rfl, rfl, rfl⟩ := hF
  exact Run.seq (Run.opA hac hab (op_mul_psi_powers h hT hw) h1) (
    Run.seq (Run.opA hac hab (op_fwd_gs_std2rev h hT hw) h2) (
    Run.seq (Run.opB hbc (op_mul_psi_powers h hT hw) h3) (
    Run.seq (Run.opB hbc (op_fwd_gs_std2rev h hT hw) h4) (
    Run.seq (Run.mul h.le hac hab hbc (fun _ => EvA.nil _) fun _ m1 w1 m2 w2 m3 w3 => NttTr.mul_array_calls h.has h.lt m1 w1 hac m2 w2 hbc m3 w3 h5) (
    Run.seq (Run.opC (op_intt_gs_rev2std h hT hw) h6) (
    Run.seq (Run.opC (op_mul_scaled_inv_psi_powers h hT hw) h7) (
    Run.skip)))))))

theorem run5 (h : Ctx P N W n) (hac : oa ≠ oc) (hab : oa ≠ ob) (hbc : ob ≠ oc) (hT : Globals N .u16 (nttConsts t) G mem [oc, oa, ob])
    (hw : WfC (nttConsts t)) (hF : Ntt.product5 t n c a b = .ok (c', a', b')) :
    Run P G mem oc oa ob (body5 N W n) (c, a, b) (c', a', b') := by
  simp only [Ntt.product5, bind_ok, pure_ok, Prod.mk.injEq] at hF
  obtain ⟨_, h1, _, h2, _, h3, _, h4, _, h5, rfl, rfl, rfl⟩ := hF
  exact Run.seq (Run.opA hac hab (op_fwdmul_ct_std2rev h hT hw) h1) (
    Run.seq (Run.opB hbc (op_fwdmul_ct_std2rev h hT hw) h2) (
    Run.seq (Run.mul h.le hac hab hbc (fun _ => EvA.nil _) fun _ m1 w1 m2 w2 m3 w3 => NttTr.mul_array_calls h.has h.lt m1 w1 hac m2 w2 hbc m3 w3 h3) (
    Run.seq (Run.opC (op_inttmul_gs_rev2std h hT hw) h4) (
    Run.seq (Run.opC (op_scalar h hT hw) h5) (
    Run.skip)))))

end
end CLang.NttProd
