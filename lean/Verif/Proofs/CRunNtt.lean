import Verif.Proofs.CRunTr
import Verif.Model.Src.Ntt
import Verif.Model.Ntt

/-
The functions of src/ntt.c as read from the text do what the model says.
-/

namespace CLang.NttTr
open C NTT CLang

section
variable {P : Prog} {G : Name → Option Cell}

theorem exec_return {e : Expr} {st : State} {v : Val} (he : Ev P G e st v) :
    ∃ N, ∀ f, N ≤ f → exec P G f (.seq (.ret e) .skip) st = .ok (some v, st) := by
  obtain ⟨N, hN⟩ := he
  refine ⟨N + 2, fun f hf => ?_⟩
  obtain ⟨g, rfl⟩ := Nat.exists_eq_add_of_le' hf
  show exec P G (g + N + 1 + 1) _ st = _
  simp only [crun, hN (g + N) (by omega)]

theorem modq_rng (x : Int) : I32 (Ntt.modq x) := I32_toI32 _

theorem sub_mod_rng {x y z : Int} (h : Ntt.sub_mod x y = .ok z) : I32 z := by
  simp only [Ntt.sub_mod, bind_ok] at h
  obtain ⟨_, _, h⟩ := h
  exact i32_rng h

theorem add_mod_rng {x y z : Int} (h : Ntt.add_mod x y = .ok z) : I32 z := by
  simp only [Ntt.add_mod, bind_ok] at h
  obtain ⟨_, _, _, _, h⟩ := h
  exact i32_rng h

theorem Ev.sub_mod {e e' : Expr} {st : State} {t t' : Ty} {x y z : Int} (hP : Has P Src.ntt) (he : Ev P G e st (.int t x))
    (he' : Ev P G e' st (.int t' y)) (hx : I32 x) (hy : I32 y) (h : Ntt.sub_mod x y = .ok z) :
    Ev P G (.call n!"sub_mod" (.cons e (.cons e' .nil))) st (.int .i32 z) := by
  simp only [Ntt.sub_mod, Ntt.Q, bind_ok] at h
  obtain ⟨v, h1, h2⟩ := h
  have hv := i32_rng h1
  have e1 := binop_sub32 hx hy
  have e2 := binop_sar32 14 hv (by decide)
  have e3 := binop_and32 (I32_sar 14 hv) (show I32 (12289 : Nat) by decide)
  have e4 := binop_add32 hv (I32_land32 (sar v 14) 12289)
  simp only [Nat.cast_ofNat] at e2 e3
  refine Ev.call (EvA.cons he (EvA.cons he' (EvA.nil _))) (hP _ Src.ntt.sub_mod (by rfl)) (by decide)
    (env := setEnv (setEnv (fun _ => none) n!"y" (.int .i32 (some y))) n!"x" (.int .i32 (some x)))
    (r := (some (.int .i32 z), ⟨setEnv (setEnv (setEnv (fun _ => none) n!"y" (.int .i32 (some y))) n!"x" (.int .i32 (some x))) n!"x"
      (.int .i32 (some v)), st.mem⟩)) ?_ ⟨20, fun f hf => ?_⟩ ?_
  · simp only [Src.ntt.sub_mod, bindParams, ok_bind, conv_i32, toI32_of hx, toI32_of hy]
  · obtain ⟨g, rfl⟩ := Nat.exists_eq_add_of_le' hf
    simp only [Src.ntt.sub_mod, crun, Nat.reduceLeDiff, reduceIte, Nat.reduceEqDiff, CLang.assign, e1, h1, toI32_of hv, Nat.cast_ofNat, e2, e3, e4, h2]
  · simp only [Src.ntt.sub_mod, result, conv_i32, toI32_of (i32_rng h2)]

theorem Ev.add_mod {e e' : Expr} {st : State} {t t' : Ty} {x y z : Int} (hP : Has P Src.ntt) (he : Ev P G e st (.int t x))
    (he' : Ev P G e' st (.int t' y)) (hx : I32 x) (hy : I32 y) (h : Ntt.add_mod x y = .ok z) :
    Ev P G (.call n!"add_mod" (.cons e (.cons e' .nil))) st (.int .i32 z) := by
  simp only [Ntt.add_mod, Ntt.Q, bind_ok] at h
  obtain ⟨d, h0, v, h1, h2⟩ := h
  have hv := i32_rng h1
  have e0 := binop_sub32 hy (show I32 (12289 : Nat) by decide)
  have e1 := binop_add32 hx (i32_rng h0)
  have e2 := binop_sar32 14 hv (by decide)
  have e3 := binop_and32 (I32_sar 14 hv) (show I32 (12289 : Nat) by decide)
  have e4 := binop_add32 hv (I32_land32 (sar v 14) 12289)
  simp only [Nat.cast_ofNat] at e0 e2 e3
  refine Ev.call (EvA.cons he (EvA.cons he' (EvA.nil _))) (hP _ Src.ntt.add_mod (by rfl)) (by decide)
    (env := setEnv (setEnv (fun _ => none) n!"y" (.int .i32 (some y))) n!"x" (.int .i32 (some x)))
    (r := (some (.int .i32 z), ⟨setEnv (setEnv (setEnv (fun _ => none) n!"y" (.int .i32 (some y))) n!"x" (.int .i32 (some x))) n!"x"
      (.int .i32 (some v)), st.mem⟩)) ?_ ⟨20, fun f hf => ?_⟩ ?_
  · simp only [Src.ntt.add_mod, bindParams, ok_bind, conv_i32, toI32_of hx, toI32_of hy]
  · obtain ⟨g, rfl⟩ := Nat.exists_eq_add_of_le' hf
    simp only [Src.ntt.add_mod, crun, Nat.reduceLeDiff, reduceIte, Nat.reduceEqDiff, CLang.assign, Nat.cast_ofNat, e0, h0, e1, h1, toI32_of hv, e2, e3, e4, h2]
  · simp only [Src.ntt.add_mod, result, conv_i32, toI32_of (i32_rng h2)]

theorem binop_mulU64 (x : Int) : binop .mul (.int .u64 (conv .u64 x)) (.int .i32 178942409) = .ok (.int .u64 (u64 (toU64 x * 178942409) : Nat)) := by
  simp only [binop, common, promote, arith, fit, conv, ok_bind]
  congr 2
  unfold u64 toU64
  push_cast
  rw [Int.toNat_of_nonneg (Int.emod_nonneg _ (by decide))]
  norm_num

theorem binop_shrU64 (x : Nat) : binop .shr (.int .u64 (u64 x : Nat)) (.int .i32 41) = .ok (.int .u64 (u64 x / 2 ^ 41 : Nat)) := by
  have h : u64 x < 18446744073709551616 := Nat.mod_lt _ (by decide)
  have h41 : conv .i32 41 = 41 := by decide
  have hc : conv .u64 (u64 x : Nat) = (u64 x : Nat) := by unfold conv; exact Int.emod_eq_of_lt (by omega) (by omega)
  simp only [binop, promote]
  rw [h41, hc]
  simp only [shift, width]
  rw [if_neg (by decide)]
  simp only [sar, Bool.false_eq_true, if_false]
  rfl

theorem Ev.divq {e : Expr} {st : State} {t : Ty} {x : Int} (hP : Has P Src.ntt) (he : Ev P G e st (.int t x)) (hx : I32 x) :
    Ev P G (.call n!"divq" (.cons e .nil)) st (.int .u32 (Ntt.divq x : Nat)) := by
  have e1 := binop_mulU64 x
  have e2 := binop_shrU64 (toU64 x * 178942409)
  refine Ev.call (EvA.cons he (EvA.nil _)) (hP _ Src.ntt.divq (by rfl)) (by decide)
    (env := setEnv (fun _ => none) n!"x" (.int .i32 (some x)))
    (r := (some (.int .u64 (u64 (toU64 x * 178942409) / 2 ^ 41 : Nat)), ⟨setEnv (fun _ => none) n!"x" (.int .i32 (some x)), st.mem⟩)) ?_
    (exec_return (Ev.mk 8 fun f => ?_)) ?_
  · simp only [Src.ntt.divq, bindParams, ok_bind, conv_i32, toI32_of hx]
  · simp only [crun, Nat.reduceLeDiff, reduceIte, Nat.cast_ofNat, e1, e2]
  · simp only [Src.ntt.divq, result, conv_u32_nat, Ntt.divq]

theorem Ev.modq {e : Expr} {st : State} {t : Ty} {x : Int} (hP : Has P Src.ntt) (he : Ev P G e st (.int t x)) (hx : I32 x) :
    Ev P G (.call n!"modq" (.cons e .nil)) st (.int .i32 (Ntt.modq x)) := by
  have hd : Ntt.divq x < 4294967296 := u32_lt _
  have e1 : binop .mul (.int .u32 (Ntt.divq x : Nat)) (.int .i32 12289) = .ok (.int .u32 (u32 (Ntt.divq x * 12289) : Nat)) := by
    have h := conv_u32_nat 12289
    rw [Nat.cast_ofNat, u32_of (show 12289 < 4294967296 by decide)] at h
    simp only [binop, common, promote, conv_u32_nat, u32_of hd, h]
    exact arith_mulU _ 12289
  have e2 : binop .sub (.int .i32 x) (.int .u32 (u32 (Ntt.divq x * 12289) : Nat)) =
      .ok (.int .u32 (conv .u32 (conv .u32 x - (u32 (Ntt.divq x * 12289) : Nat)))) := by
    simp only [binop, common, promote, conv_u32_nat, u32_of (u32_lt (Ntt.divq x * 12289)), arith, fit, ok_bind]
  have hxv : Ev P G (.var n!"x") ⟨setEnv (fun _ => none) n!"x" (.int .i32 (some x)), st.mem⟩ (.int .i32 x) :=
    Ev.var (show setEnv (fun _ => none) n!"x" (.int .i32 (some x)) n!"x" = _ by simp only [setEnv_self]; rfl) rfl
  refine Ev.call (EvA.cons he (EvA.nil _)) (hP _ Src.ntt.modq (by rfl)) (by decide)
    (env := setEnv (fun _ => none) n!"x" (.int .i32 (some x)))
    (r := (some _, ⟨setEnv (fun _ => none) n!"x" (.int .i32 (some x)), st.mem⟩)) ?_
    (exec_return (Ev.bin hxv (Ev.bin (Ev.divq hP hxv hx) (ev_num _ 12289 (by decide)) e1) e2)) ?_
  · simp only [Src.ntt.modq, bindParams, ok_bind, conv_i32, toI32_of hx]
  · simp only [Src.ntt.modq, result]
    congr 2
    unfold Ntt.modq conv toI32 toU32
    simp only
    rw [Int.toNat_of_nonneg (Int.emod_nonneg _ (by decide))]
    omega

theorem bf0_sim (hP : Has P Src.ntt) {tv : Name} (htv : tv ≠ n!"x") :
    SimBf0 P G none (bfly tv (aK tv) (.call n!"sub_mod" (.cons aS (.cons (.var n!"x") .nil))) (.call n!"add_mod" (.cons aS (.cons (.var n!"x") .nil))))
      tv Ntt.bf0 := by
  intro o st a a' s t hI hav _ hs ht hs' ht' h
  simp only [Ntt.bf0, bind_ok] at h
  obtain ⟨x, h1, y, h2, v, h3, a1, h4, z, h5, u, h6, h7⟩ := h
  have hx := hI.wf _ _ h1
  have hz := (hI.wf.wr (sub_mod_rng h3) h4) _ _ h5
  exact bfly_sim htv hI hav hs ht hs' ht' (ev_aK hI.arr hav hs ht hs' ht' h1) hx
    (fun st' hB => Ev.sub_mod hP (ev_aS hB hav hs h2) hB.evx (hI.wf _ _ h2) hx h3) (sub_mod_rng h3) h4
    (fun st' hB => Ev.add_mod hP (ev_aS hB hav hs h5) hB.evx hz hx h6) (add_mod_rng h6) h7

theorem ctBf_sim (hP : Has P Src.ntt) {tv : Name} (htv : tv ≠ n!"x") :
    SimBf P G none (bfly tv (.call n!"modq" (.cons (.bin .mul (aK tv) (.var n!"w")) .nil)) (.call n!"sub_mod" (.cons aS (.cons (.var n!"x") .nil)))
      (.call n!"add_mod" (.cons aS (.cons (.var n!"x") .nil)))) tv Ntt.ctBf := by
  intro o st a a' s t w hI hav _ hs ht hw hw' hs' ht' h
  simp only [Ntt.ctBf, bind_ok] at h
  obtain ⟨x0, h0, x, h1, y, h2, v, h3, a1, h4, z, h5, u, h6, h7⟩ := h
  have hx := modq_rng x
  have hz := (hI.wf.wr (sub_mod_rng h3) h4) _ _ h5
  exact bfly_sim htv hI hav hs ht hs' ht' (Ev.modq hP (Ev.bin32 (ev_aK hI.arr hav hs ht hs' ht' h0) (Ev.var hw rfl) (binop_mul32 (hI.wf _ _ h0) hw') h1)
      (i32_rng h1)) hx
    (fun st' hB => Ev.sub_mod hP (ev_aS hB hav hs h2) hB.evx (hI.wf _ _ h2) hx h3) (sub_mod_rng h3) h4
    (fun st' hB => Ev.add_mod hP (ev_aS hB hav hs h5) hB.evx hz hx h6) (add_mod_rng h6) h7

theorem gsBf_sim (hP : Has P Src.ntt) {tv : Name} (htv : tv ≠ n!"x") :
    SimBf P G none (bfly tv (aK tv) (.call n!"modq" (.cons (.bin .mul (.call n!"sub_mod" (.cons aS (.cons (.var n!"x") .nil))) (.var n!"w")) .nil))
      (.call n!"add_mod" (.cons aS (.cons (.var n!"x") .nil)))) tv Ntt.gsBf := by
  intro o st a a' s t w hI hav _ hs ht hw hw' hs' ht' h
  simp only [Ntt.gsBf, bind_ok] at h
  obtain ⟨x, h1, y, h2, d, h0, v, h3, a1, h4, z, h5, u, h6, h7⟩ := h
  have hx := hI.wf _ _ h1
  have hz := (hI.wf.wr (modq_rng v) h4) _ _ h5
  exact bfly_sim htv hI hav hs ht hs' ht' (ev_aK hI.arr hav hs ht hs' ht' h1) hx
    (fun st' hB => Ev.modq hP (Ev.bin32 (Ev.sub_mod hP (ev_aS hB hav hs h2) hB.evx (hI.wf _ _ h2) hx h0)
      (Ev.var ((hB.env n!"w" (by decide)).trans hw) rfl) (binop_mul32 (sub_mod_rng h0) hw') h3) (i32_rng h3)) (modq_rng v) h4
    (fun st' hB => Ev.add_mod hP (ev_aS hB hav hs h5) hB.evx hz hx h6) (add_mod_rng h6) h7

theorem ntt_ct_rev2std_calls {o op n : Nat} {t tp : Ty} {a a' p : Array Int} {mem : Nat → Obj} (hP : Has P Src.ntt) (hn : n < 4294967296)
    (hm : mem o = ⟨.i32, a⟩) (ha : Wf a) (hop : op ≠ o) (hmp : mem op = ⟨tp, p⟩) (hp : Wf p) (h : Ntt.ntt_ct_rev2std a n p = .ok a') :
    Calls P G n!"ntt_ct_rev2std" [.ptr o 0 1, .int t n, .ptr op 0 1] mem (setMem mem o ⟨.i32, a'⟩) ∧ Wf a' :=
  ctRev2std_calls (env := (setEnv (setEnv (setEnv (fun _ => none) n!"p" (.ptr op 0 1)) n!"n" (.int .u32 (some (n : Int)))) n!"a" (.ptr o 0 1)))
    (.inl rfl) (hP _ Src.ntt.ntt_ct_rev2std (by rfl))
    (by simp only [Src.ntt.ntt_ct_rev2std, bindParams, ok_bind, conv_u32_nat, u32_of hn, if_true])
    ⟨by simp only [crun, Nat.reduceEqDiff, reduceIte], by simp only [crun, Nat.reduceEqDiff, reduceIte],
      by simp only [crun, Nat.reduceEqDiff, reduceIte], by simp only [crun, Nat.reduceEqDiff, reduceIte]⟩
    hn hm ha hop hmp hp rfl (bf0_sim hP (by decide)) (ctBf_sim hP (by decide)) h

theorem mulntt_ct_rev2std_calls {o op n : Nat} {t tp : Ty} {a a' p : Array Int} {mem : Nat → Obj} (hP : Has P Src.ntt) (hn : n < 4294967296)
    (hm : mem o = ⟨.i32, a⟩) (ha : Wf a) (hop : op ≠ o) (hmp : mem op = ⟨tp, p⟩) (hp : Wf p) (h : Ntt.mulntt_ct_rev2std a n p = .ok a') :
    Calls P G n!"mulntt_ct_rev2std" [.ptr o 0 1, .int t n, .ptr op 0 1] mem (setMem mem o ⟨.i32, a'⟩) ∧ Wf a' :=
  mulCtRev2std_calls (env := (setEnv (setEnv (setEnv (fun _ => none) n!"p" (.ptr op 0 1)) n!"n" (.int .u32 (some (n : Int)))) n!"a" (.ptr o 0 1)))
    (.inl rfl) (hP _ Src.ntt.mulntt_ct_rev2std (by rfl))
    (by simp only [Src.ntt.mulntt_ct_rev2std, bindParams, ok_bind, conv_u32_nat, u32_of hn, if_true])
    ⟨by simp only [crun, Nat.reduceEqDiff, reduceIte], by simp only [crun, Nat.reduceEqDiff, reduceIte],
      by simp only [crun, Nat.reduceEqDiff, reduceIte], by simp only [crun, Nat.reduceEqDiff, reduceIte]⟩
    hn hm ha hop hmp hp rfl (ctBf_sim hP (by decide)) h

theorem ntt_ct_std2rev_calls {o op n : Nat} {t tp : Ty} {a a' p : Array Int} {mem : Nat → Obj} (hP : Has P Src.ntt) (hn : n < 4294967296)
    (hm : mem o = ⟨.i32, a⟩) (ha : Wf a) (hop : op ≠ o) (hmp : mem op = ⟨tp, p⟩) (hp : Wf p) (h : Ntt.ntt_ct_std2rev a n p = .ok a') :
    Calls P G n!"ntt_ct_std2rev" [.ptr o 0 1, .int t n, .ptr op 0 1] mem (setMem mem o ⟨.i32, a'⟩) ∧ Wf a' :=
  ctStd2rev_calls (env := (setEnv (setEnv (setEnv (fun _ => none) n!"p" (.ptr op 0 1)) n!"n" (.int .u32 (some (n : Int)))) n!"a" (.ptr o 0 1)))
    (.inl rfl) (hP _ Src.ntt.ntt_ct_std2rev (by rfl))
    (by simp only [Src.ntt.ntt_ct_std2rev, bindParams, ok_bind, conv_u32_nat, u32_of hn, if_true])
    ⟨by simp only [crun, Nat.reduceEqDiff, reduceIte], by simp only [crun, Nat.reduceEqDiff, reduceIte],
      by simp only [crun, Nat.reduceEqDiff, reduceIte], by simp only [crun, Nat.reduceEqDiff, reduceIte]⟩
    hn hm ha hop hmp hp rfl (bf0_sim hP (by decide)) (ctBf_sim hP (by decide)) h

theorem mulntt_ct_std2rev_calls {o op n : Nat} {t tp : Ty} {a a' p : Array Int} {mem : Nat → Obj} (hP : Has P Src.ntt) (hn : n < 4294967296)
    (hm : mem o = ⟨.i32, a⟩) (ha : Wf a) (hop : op ≠ o) (hmp : mem op = ⟨tp, p⟩) (hp : Wf p) (h : Ntt.mulntt_ct_std2rev a n p = .ok a') :
    Calls P G n!"mulntt_ct_std2rev" [.ptr o 0 1, .int t n, .ptr op 0 1] mem (setMem mem o ⟨.i32, a'⟩) ∧ Wf a' :=
  mulCtStd2rev_calls (env := (setEnv (setEnv (setEnv (fun _ => none) n!"p" (.ptr op 0 1)) n!"n" (.int .u32 (some (n : Int)))) n!"a" (.ptr o 0 1)))
    (.inl rfl) (hP _ Src.ntt.mulntt_ct_std2rev (by rfl))
    (by simp only [Src.ntt.mulntt_ct_std2rev, bindParams, ok_bind, conv_u32_nat, u32_of hn, if_true])
    ⟨by simp only [crun, Nat.reduceEqDiff, reduceIte], by simp only [crun, Nat.reduceEqDiff, reduceIte],
      by simp only [crun, Nat.reduceEqDiff, reduceIte], by simp only [crun, Nat.reduceEqDiff, reduceIte]⟩
    hn hm ha hop hmp hp rfl (ctBf_sim hP (by decide)) h

theorem ntt_gs_rev2std_calls {o op n : Nat} {t tp : Ty} {a a' p : Array Int} {mem : Nat → Obj} (hP : Has P Src.ntt) (hn : n < 4294967296)
    (hm : mem o = ⟨.i32, a⟩) (ha : Wf a) (hop : op ≠ o) (hmp : mem op = ⟨tp, p⟩) (hp : Wf p) (h : Ntt.ntt_gs_rev2std a n p = .ok a') :
    Calls P G n!"ntt_gs_rev2std" [.ptr o 0 1, .int t n, .ptr op 0 1] mem (setMem mem o ⟨.i32, a'⟩) ∧ Wf a' :=
  gsRev2std_calls (env := (setEnv (setEnv (setEnv (fun _ => none) n!"p" (.ptr op 0 1)) n!"n" (.int .u32 (some (n : Int)))) n!"a" (.ptr o 0 1)))
    (.inr rfl) (hP _ Src.ntt.ntt_gs_rev2std (by rfl))
    (by simp only [Src.ntt.ntt_gs_rev2std, bindParams, ok_bind, conv_u32_nat, u32_of hn, if_true])
    ⟨by simp only [crun, Nat.reduceEqDiff, reduceIte], by simp only [crun, Nat.reduceEqDiff, reduceIte],
      by simp only [crun, Nat.reduceEqDiff, reduceIte], by simp only [crun, Nat.reduceEqDiff, reduceIte]⟩
    hn hm ha hop hmp hp rfl (bf0_sim hP (by decide)) (gsBf_sim hP (by decide)) h

theorem nttmul_gs_rev2std_calls {o op n : Nat} {t tp : Ty} {a a' p : Array Int} {mem : Nat → Obj} (hP : Has P Src.ntt) (hn : n < 4294967296)
    (hm : mem o = ⟨.i32, a⟩) (ha : Wf a) (hop : op ≠ o) (hmp : mem op = ⟨tp, p⟩) (hp : Wf p) (h : Ntt.nttmul_gs_rev2std a n p = .ok a') :
    Calls P G n!"nttmul_gs_rev2std" [.ptr o 0 1, .int t n, .ptr op 0 1] mem (setMem mem o ⟨.i32, a'⟩) ∧ Wf a' :=
  gsMulRev2std_calls (env := (setEnv (setEnv (setEnv (fun _ => none) n!"p" (.ptr op 0 1)) n!"n" (.int .u32 (some (n : Int)))) n!"a" (.ptr o 0 1)))
    (.inr rfl) (hP _ Src.ntt.nttmul_gs_rev2std (by rfl))
    (by simp only [Src.ntt.nttmul_gs_rev2std, bindParams, ok_bind, conv_u32_nat, u32_of hn, if_true])
    ⟨by simp only [crun, Nat.reduceEqDiff, reduceIte], by simp only [crun, Nat.reduceEqDiff, reduceIte],
      by simp only [crun, Nat.reduceEqDiff, reduceIte], by simp only [crun, Nat.reduceEqDiff, reduceIte]⟩
    hn hm ha hop hmp hp rfl (gsBf_sim hP (by decide)) h

theorem ntt_gs_std2rev_calls {o op n : Nat} {t tp : Ty} {a a' p : Array Int} {mem : Nat → Obj} (hP : Has P Src.ntt) (hn : n < 4294967296)
    (hm : mem o = ⟨.i32, a⟩) (ha : Wf a) (hop : op ≠ o) (hmp : mem op = ⟨tp, p⟩) (hp : Wf p) (h : Ntt.ntt_gs_std2rev a n p = .ok a') :
    Calls P G n!"ntt_gs_std2rev" [.ptr o 0 1, .int t n, .ptr op 0 1] mem (setMem mem o ⟨.i32, a'⟩) ∧ Wf a' :=
  gsStd2rev_calls (env := (setEnv (setEnv (setEnv (fun _ => none) n!"p" (.ptr op 0 1)) n!"n" (.int .u32 (some (n : Int)))) n!"a" (.ptr o 0 1)))
    (.inr rfl) (hP _ Src.ntt.ntt_gs_std2rev (by rfl))
    (by simp only [Src.ntt.ntt_gs_std2rev, bindParams, ok_bind, conv_u32_nat, u32_of hn, if_true])
    ⟨by simp only [crun, Nat.reduceEqDiff, reduceIte], by simp only [crun, Nat.reduceEqDiff, reduceIte],
      by simp only [crun, Nat.reduceEqDiff, reduceIte], by simp only [crun, Nat.reduceEqDiff, reduceIte]⟩
    hn hm ha hop hmp hp rfl (bf0_sim hP (by decide)) (gsBf_sim hP (by decide)) h

theorem nttmul_gs_std2rev_calls {o op n : Nat} {t tp : Ty} {a a' p : Array Int} {mem : Nat → Obj} (hP : Has P Src.ntt) (hn : n < 4294967296)
    (hm : mem o = ⟨.i32, a⟩) (ha : Wf a) (hop : op ≠ o) (hmp : mem op = ⟨tp, p⟩) (hp : Wf p) (h : Ntt.nttmul_gs_std2rev a n p = .ok a') :
    Calls P G n!"nttmul_gs_std2rev" [.ptr o 0 1, .int t n, .ptr op 0 1] mem (setMem mem o ⟨.i32, a'⟩) ∧ Wf a' :=
  gsMulStd2rev_calls (env := (setEnv (setEnv (setEnv (fun _ => none) n!"p" (.ptr op 0 1)) n!"n" (.int .u32 (some (n : Int)))) n!"a" (.ptr o 0 1)))
    (.inr rfl) (hP _ Src.ntt.nttmul_gs_std2rev (by rfl))
    (by simp only [Src.ntt.nttmul_gs_std2rev, bindParams, ok_bind, conv_u32_nat, u32_of hn, if_true])
    ⟨by simp only [crun, Nat.reduceEqDiff, reduceIte], by simp only [crun, Nat.reduceEqDiff, reduceIte],
      by simp only [crun, Nat.reduceEqDiff, reduceIte], by simp only [crun, Nat.reduceEqDiff, reduceIte]⟩
    hn hm ha hop hmp hp rfl (gsBf_sim hP (by decide)) h

theorem ntt_ct_rev2std_v1_calls {o op n : Nat} {t tp : Ty} {a a' p : Array Int} {mem : Nat → Obj} (hP : Has P Src.ntt) (hn : n < 4294967296)
    (hm : mem o = ⟨.i32, a⟩) (ha : Wf a) (hop : op ≠ o) (hmp : mem op = ⟨tp, p⟩) (hp : Wf p) (h : Ntt.ntt_ct_rev2std_v1 a n p = .ok a') :
    Calls P G n!"ntt_ct_rev2std_v1" [.ptr o 0 1, .int t n, .ptr op 0 1] mem (setMem mem o ⟨.i32, a'⟩) ∧ Wf a' :=
  ctRev2stdV1_calls (env := (setEnv (setEnv (setEnv (fun _ => none) n!"p" (.ptr op 0 1)) n!"n" (.int .u32 (some (n : Int)))) n!"a" (.ptr o 0 1)))
    (.inl rfl) (hP _ Src.ntt.ntt_ct_rev2std_v1 (by rfl))
    (by simp only [Src.ntt.ntt_ct_rev2std_v1, bindParams, ok_bind, conv_u32_nat, u32_of hn, if_true])
    ⟨by simp only [crun, Nat.reduceEqDiff, reduceIte], by simp only [crun, Nat.reduceEqDiff, reduceIte],
      by simp only [crun, Nat.reduceEqDiff, reduceIte], by simp only [crun, Nat.reduceEqDiff, reduceIte]⟩
    hn hm ha hop hmp hp rfl (bf0_sim hP (by decide)) (ctBf_sim hP (by decide)) h

theorem mul_array16_calls {o op n : Nat} {t tp : Ty} {a a' p : Array Int} {mem : Nat → Obj} (hP : Has P Src.ntt) (hn : n < 4294967296)
    (hm : mem o = ⟨.i32, a⟩) (ha : Wf a) (hop : op ≠ o) (hmp : mem op = ⟨tp, p⟩) (htp : tp = .i32 ∨ tp = .i16 ∨ tp = .u16) (hp : Wf p)
    (h : Ntt.mul_array16 a n p = .ok a') :
    Calls P G n!"mul_array16" [.ptr o 0 1, .int t n, .ptr op 0 1] mem (setMem mem o ⟨.i32, a'⟩) ∧ Wf a' := by
  refine Calls.loop1 (hP _ Src.ntt.mul_array16 (by rfl)) rfl
    (env := setEnv (setEnv (setEnv (fun _ => none) n!"p" (.ptr op 0 1)) n!"n" (.int .u32 (some (n : Int)))) n!"a" (.ptr o 0 1))
    (by simp only [Src.ntt.mul_array16, bindParams, ok_bind, conv_u32_nat, u32_of hn, if_true])
    (by simp only [crun, Nat.reduceEqDiff, reduceIte]) hn hm ha
    (fun i a a' st hI hi _ hab => ?_) h
  simp only [bind_ok] at hab
  obtain ⟨x, h1, y, h2, z, h0, h4⟩ := hab
  have hav : st.env n!"a" = some (.ptr o 0 1) := by
    rw [hI.keep _ (by decide)]; simp only [crun, Nat.reduceEqDiff, reduceIte]
  have hpv : st.env n!"p" = some (.ptr op 0 1) := by
    rw [hI.keep _ (by decide)]; simp only [crun, Nat.reduceEqDiff, reduceIte]
  have hev : Ev P G (.bin .mul (.idx (.var n!"a") (.var n!"i")) (.idx (.var n!"p") (.var n!"i"))) st (.int .i32 z) :=
    Ev.bin32 (Ev.elem hav hi hI.arr h1) (Ev.elem hpv hi ((hI.other hop).trans hmp) h2) (binop_mul16 htp (hI.wf _ _ h1) (hp _ _ h2)) h0
  obtain ⟨h5, h6⟩ := hI.put hav (Ev.var hi rfl) (Ev.modq hP hev (i32_rng h0)) (modq_rng z) h4
  exact ⟨_, Ex.seq h5 (Ex.skip _), h6, hi⟩

theorem mul_array_calls {oc oa ob n : Nat} {t : Ty} {c c' a b : Array Int} {mem : Nat → Obj} (hP : Has P Src.ntt) (hn : n < 4294967296)
    (hm : mem oc = ⟨.i32, c⟩) (hc : Wf c) (hoa : oa ≠ oc) (hma : mem oa = ⟨.i32, a⟩) (ha : Wf a) (hob : ob ≠ oc) (hmb : mem ob = ⟨.i32, b⟩)
    (hb : Wf b) (h : Ntt.mul_array c n a b = .ok c') :
    Calls P G n!"mul_array" [.ptr oc 0 1, .int t n, .ptr oa 0 1, .ptr ob 0 1] mem (setMem mem oc ⟨.i32, c'⟩) ∧ Wf c' := by
  refine Calls.loop1 (hP _ Src.ntt.mul_array (by rfl)) rfl
    (env := setEnv (setEnv (setEnv (setEnv (fun _ => none) n!"b" (.ptr ob 0 1)) n!"a" (.ptr oa 0 1)) n!"n" (.int .u32 (some (n : Int)))) n!"c" (.ptr oc 0 1))
    (by simp only [Src.ntt.mul_array, bindParams, ok_bind, conv_u32_nat, u32_of hn, if_true])
    (by simp only [crun, Nat.reduceEqDiff, reduceIte]) hn hm hc
    (fun i c c' st hI hi _ hab => ?_) h
  simp only [bind_ok] at hab
  obtain ⟨x, h1, y, h2, z, h0, h4⟩ := hab
  have hcv : st.env n!"c" = some (.ptr oc 0 1) := by
    rw [hI.keep _ (by decide)]; simp only [crun, Nat.reduceEqDiff, reduceIte]
  have hav : st.env n!"a" = some (.ptr oa 0 1) := by
    rw [hI.keep _ (by decide)]; simp only [crun, Nat.reduceEqDiff, reduceIte]
  have hbv : st.env n!"b" = some (.ptr ob 0 1) := by
    rw [hI.keep _ (by decide)]; simp only [crun, Nat.reduceEqDiff, reduceIte]
  have hev : Ev P G (.bin .mul (.idx (.var n!"a") (.var n!"i")) (.idx (.var n!"b") (.var n!"i"))) st (.int .i32 z) :=
    Ev.bin32 (Ev.elem hav hi ((hI.other hoa).trans hma) h1) (Ev.elem hbv hi ((hI.other hob).trans hmb) h2) (binop_mul32 (ha _ _ h1) (hb _ _ h2)) h0
  obtain ⟨h5, h6⟩ := hI.put hcv (Ev.var hi rfl) (Ev.modq hP hev (i32_rng h0)) (modq_rng z) h4
  exact ⟨_, Ex.seq h5 (Ex.skip _), h6, hi⟩

theorem scalar_mul_array_calls {o n : Nat} {t tc : Ty} {a a' : Array Int} {c : Int} {mem : Nat → Obj} (hP : Has P Src.ntt)
    (hn : n < 4294967296) (hm : mem o = ⟨.i32, a⟩) (ha : Wf a) (hc : I32 c) (h : Ntt.scalar_mul_array a n c = .ok a') :
    Calls P G n!"scalar_mul_array" [.ptr o 0 1, .int t n, .int tc c] mem (setMem mem o ⟨.i32, a'⟩) ∧ Wf a' := by
  refine Calls.loop1 (hP _ Src.ntt.scalar_mul_array (by rfl)) rfl
    (env := setEnv (setEnv (setEnv (fun _ => none) n!"c" (.int .i32 (some c))) n!"n" (.int .u32 (some (n : Int)))) n!"a" (.ptr o 0 1))
    (by simp only [Src.ntt.scalar_mul_array, bindParams, ok_bind, conv_u32_nat, u32_of hn, conv_i32, toI32_of hc, if_true])
    (by simp only [crun, Nat.reduceEqDiff, reduceIte]) hn hm ha
    (fun i a a' st hI hi _ hab => ?_) h
  simp only [bind_ok] at hab
  obtain ⟨x, h1, z, h0, h4⟩ := hab
  have hav : st.env n!"a" = some (.ptr o 0 1) := by
    rw [hI.keep _ (by decide)]; simp only [crun, Nat.reduceEqDiff, reduceIte]
  have hcv : st.env n!"c" = some (.int .i32 (some c)) := by
    rw [hI.keep _ (by decide)]; simp only [crun, Nat.reduceEqDiff, reduceIte]
  have hev : Ev P G (.bin .mul (.idx (.var n!"a") (.var n!"i")) (.var n!"c")) st (.int .i32 z) :=
    Ev.bin32 (Ev.elem hav hi hI.arr h1) (Ev.var hcv rfl) (binop_mul32 (hI.wf _ _ h1) hc) h0
  obtain ⟨h5, h6⟩ := hI.put hav (Ev.var hi rfl) (Ev.modq hP hev (i32_rng h0)) (modq_rng z) h4
  exact ⟨_, Ex.seq h5 (Ex.skip _), h6, hi⟩

end
end CLang.NttTr
