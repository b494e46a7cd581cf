import Verif.Proofs.CRunTr

/-
The transforms of src/ntt_red.c as read from the text do what the model says.
-/

namespace CLang.RedTr
open C NTT CLang

section
variable {P : Prog} {G : Name → Option Cell}

theorem bf0_sim (_ : Has P Src.ntt_red) {tv : Name} (htv : tv ≠ n!"x") :
    SimBf0 P G none (bfly tv (aK tv) (.bin .sub aS (.var n!"x")) (.bin .add aS (.var n!"x"))) tv NttRed.bf0 := by
  intro o st a a' s t hI hav _ hs ht hs' ht' h
  simp only [NttRed.bf0, bind_ok] at h
  obtain ⟨x, h1, y, h2, v, h3, a1, h4, z, h5, u, h6, h7⟩ := h
  have hx := hI.wf _ _ h1
  have hz := (hI.wf.wr (i32_rng h3) h4) _ _ h5
  exact bfly_sim htv hI hav hs ht hs' ht' (ev_aK hI.arr hav hs ht hs' ht' h1) hx
    (fun st' hB => Ev.bin32 (ev_aS hB hav hs h2) hB.evx (binop_sub32 (hI.wf _ _ h2) hx) h3) (i32_rng h3) h4
    (fun st' hB => Ev.bin32 (ev_aS hB hav hs h5) hB.evx (binop_add32 hz hx) h6) (i32_rng h6) h7

theorem ctBf_sim (hP : Has P Src.ntt_red) {tv : Name} (htv : tv ≠ n!"x") :
    SimBf P G none (bfly tv (.call n!"mul_red" (.cons (aK tv) (.cons (.var n!"w") .nil))) (.bin .sub aS (.var n!"x")) (.bin .add aS (.var n!"x"))) tv
      NttRed.ctBf := by
  intro o st a a' s t w hI hav _ hs ht hw hw' hs' ht' h
  simp only [NttRed.ctBf, bind_ok] at h
  obtain ⟨x0, h0, x, h1, y, h2, v, h3, a1, h4, z, h5, u, h6, h7⟩ := h
  have hx := mul_red_rng h1
  have hz := (hI.wf.wr (i32_rng h3) h4) _ _ h5
  exact bfly_sim htv hI hav hs ht hs' ht' (Ev.mul_red hP (ev_aK hI.arr hav hs ht hs' ht' h0) (Ev.var hw rfl) (hI.wf _ _ h0) hw' h1) hx
    (fun st' hB => Ev.bin32 (ev_aS hB hav hs h2) hB.evx (binop_sub32 (hI.wf _ _ h2) hx) h3) (i32_rng h3) h4
    (fun st' hB => Ev.bin32 (ev_aS hB hav hs h5) hB.evx (binop_add32 hz hx) h6) (i32_rng h6) h7

theorem gsBf_sim (hP : Has P Src.ntt_red) {tv : Name} (htv : tv ≠ n!"x") :
    SimBf P G none (bfly tv (aK tv) (.call n!"mul_red" (.cons (.bin .sub aS (.var n!"x")) (.cons (.var n!"w") .nil))) (.bin .add aS (.var n!"x"))) tv
      NttRed.gsBf := by
  intro o st a a' s t w hI hav _ hs ht hw hw' hs' ht' h
  simp only [NttRed.gsBf, bind_ok] at h
  obtain ⟨x, h1, y, h2, d, h0, v, h3, a1, h4, z, h5, u, h6, h7⟩ := h
  have hx := hI.wf _ _ h1
  have hz := (hI.wf.wr (mul_red_rng h3) h4) _ _ h5
  exact bfly_sim htv hI hav hs ht hs' ht' (ev_aK hI.arr hav hs ht hs' ht' h1) hx
    (fun st' hB => Ev.mul_red hP (Ev.bin32 (ev_aS hB hav hs h2) hB.evx (binop_sub32 (hI.wf _ _ h2) hx) h0)
      (Ev.var ((hB.env n!"w" (by decide)).trans hw) rfl) (i32_rng h0) hw' h3) (mul_red_rng h3) h4
    (fun st' hB => Ev.bin32 (ev_aS hB hav hs h5) hB.evx (binop_add32 hz hx) h6) (i32_rng h6) h7

theorem ntt_red_ct_rev2std_calls {o op n : Nat} {t tp : Ty} {a a' p : Array Int} {mem : Nat → Obj} (hP : Has P Src.ntt_red) (hn : n < 4294967296)
    (hm : mem o = ⟨.i32, a⟩) (ha : Wf a) (hop : op ≠ o) (hmp : mem op = ⟨tp, p⟩) (hp : Wf p) (h : NttRed.ntt_red_ct_rev2std a n p = .ok a') :
    Calls P G n!"ntt_red_ct_rev2std" [.ptr o 0 1, .int t n, .ptr op 0 1] mem (setMem mem o ⟨.i32, a'⟩) ∧ Wf a' :=
  ctRev2std_calls (env := (setEnv (setEnv (setEnv (fun _ => none) n!"p" (.ptr op 0 1)) n!"n" (.int .u32 (some (n : Int)))) n!"a" (.ptr o 0 1)))
    (.inl rfl) (hP _ Src.ntt_red.ntt_red_ct_rev2std (by rfl))
    (by simp only [Src.ntt_red.ntt_red_ct_rev2std, bindParams, ok_bind, conv_u32_nat, u32_of hn, if_true])
    ⟨by simp only [crun, Nat.reduceEqDiff, reduceIte], by simp only [crun, Nat.reduceEqDiff, reduceIte],
      by simp only [crun, Nat.reduceEqDiff, reduceIte], by simp only [crun, Nat.reduceEqDiff, reduceIte]⟩
    hn hm ha hop hmp hp rfl (bf0_sim hP (by decide)) (ctBf_sim hP (by decide)) h

theorem mulntt_red_ct_rev2std_calls {o op n : Nat} {t tp : Ty} {a a' p : Array Int} {mem : Nat → Obj} (hP : Has P Src.ntt_red) (hn : n < 4294967296)
    (hm : mem o = ⟨.i32, a⟩) (ha : Wf a) (hop : op ≠ o) (hmp : mem op = ⟨tp, p⟩) (hp : Wf p) (h : NttRed.mulntt_red_ct_rev2std a n p = .ok a') :
    Calls P G n!"mulntt_red_ct_rev2std" [.ptr o 0 1, .int t n, .ptr op 0 1] mem (setMem mem o ⟨.i32, a'⟩) ∧ Wf a' :=
  mulCtRev2std_calls (env := (setEnv (setEnv (setEnv (fun _ => none) n!"p" (.ptr op 0 1)) n!"n" (.int .u32 (some (n : Int)))) n!"a" (.ptr o 0 1)))
    (.inl rfl) (hP _ Src.ntt_red.mulntt_red_ct_rev2std (by rfl))
    (by simp only [Src.ntt_red.mulntt_red_ct_rev2std, bindParams, ok_bind, conv_u32_nat, u32_of hn, if_true])
    ⟨by simp only [crun, Nat.reduceEqDiff, reduceIte], by simp only [crun, Nat.reduceEqDiff, reduceIte],
      by simp only [crun, Nat.reduceEqDiff, reduceIte], by simp only [crun, Nat.reduceEqDiff, reduceIte]⟩
    hn hm ha hop hmp hp rfl (ctBf_sim hP (by decide)) h

theorem ntt_red_ct_std2rev_calls {o op n : Nat} {t tp : Ty} {a a' p : Array Int} {mem : Nat → Obj} (hP : Has P Src.ntt_red) (hn : n < 4294967296)
    (hm : mem o = ⟨.i32, a⟩) (ha : Wf a) (hop : op ≠ o) (hmp : mem op = ⟨tp, p⟩) (hp : Wf p) (h : NttRed.ntt_red_ct_std2rev a n p = .ok a') :
    Calls P G n!"ntt_red_ct_std2rev" [.ptr o 0 1, .int t n, .ptr op 0 1] mem (setMem mem o ⟨.i32, a'⟩) ∧ Wf a' :=
  ctStd2rev_calls (env := (setEnv (setEnv (setEnv (fun _ => none) n!"p" (.ptr op 0 1)) n!"n" (.int .u32 (some (n : Int)))) n!"a" (.ptr o 0 1)))
    (.inl rfl) (hP _ Src.ntt_red.ntt_red_ct_std2rev (by rfl))
    (by simp only [Src.ntt_red.ntt_red_ct_std2rev, bindParams, ok_bind, conv_u32_nat, u32_of hn, if_true])
    ⟨by simp only [crun, Nat.reduceEqDiff, reduceIte], by simp only [crun, Nat.reduceEqDiff, reduceIte],
      by simp only [crun, Nat.reduceEqDiff, reduceIte], by simp only [crun, Nat.reduceEqDiff, reduceIte]⟩
    hn hm ha hop hmp hp rfl (bf0_sim hP (by decide)) (ctBf_sim hP (by decide)) h

theorem mulntt_red_ct_std2rev_calls {o op n : Nat} {t tp : Ty} {a a' p : Array Int} {mem : Nat → Obj} (hP : Has P Src.ntt_red) (hn : n < 4294967296)
    (hm : mem o = ⟨.i32, a⟩) (ha : Wf a) (hop : op ≠ o) (hmp : mem op = ⟨tp, p⟩) (hp : Wf p) (h : NttRed.mulntt_red_ct_std2rev a n p = .ok a') :
    Calls P G n!"mulntt_red_ct_std2rev" [.ptr o 0 1, .int t n, .ptr op 0 1] mem (setMem mem o ⟨.i32, a'⟩) ∧ Wf a' :=
  mulCtStd2rev_calls (env := (setEnv (setEnv (setEnv (fun _ => none) n!"p" (.ptr op 0 1)) n!"n" (.int .u32 (some (n : Int)))) n!"a" (.ptr o 0 1)))
    (.inl rfl) (hP _ Src.ntt_red.mulntt_red_ct_std2rev (by rfl))
    (by simp only [Src.ntt_red.mulntt_red_ct_std2rev, bindParams, ok_bind, conv_u32_nat, u32_of hn, if_true])
    ⟨by simp only [crun, Nat.reduceEqDiff, reduceIte], by simp only [crun, Nat.reduceEqDiff, reduceIte],
      by simp only [crun, Nat.reduceEqDiff, reduceIte], by simp only [crun, Nat.reduceEqDiff, reduceIte]⟩
    hn hm ha hop hmp hp rfl (ctBf_sim hP (by decide)) h

theorem ntt_red_gs_rev2std_calls {o op n : Nat} {t tp : Ty} {a a' p : Array Int} {mem : Nat → Obj} (hP : Has P Src.ntt_red) (hn : n < 4294967296)
    (hm : mem o = ⟨.i32, a⟩) (ha : Wf a) (hop : op ≠ o) (hmp : mem op = ⟨tp, p⟩) (hp : Wf p) (h : NttRed.ntt_red_gs_rev2std a n p = .ok a') :
    Calls P G n!"ntt_red_gs_rev2std" [.ptr o 0 1, .int t n, .ptr op 0 1] mem (setMem mem o ⟨.i32, a'⟩) ∧ Wf a' :=
  gsRev2std_calls (env := (setEnv (setEnv (setEnv (fun _ => none) n!"p" (.ptr op 0 1)) n!"n" (.int .u32 (some (n : Int)))) n!"a" (.ptr o 0 1)))
    (.inr rfl) (hP _ Src.ntt_red.ntt_red_gs_rev2std (by rfl))
    (by simp only [Src.ntt_red.ntt_red_gs_rev2std, bindParams, ok_bind, conv_u32_nat, u32_of hn, if_true])
    ⟨by simp only [crun, Nat.reduceEqDiff, reduceIte], by simp only [crun, Nat.reduceEqDiff, reduceIte],
      by simp only [crun, Nat.reduceEqDiff, reduceIte], by simp only [crun, Nat.reduceEqDiff, reduceIte]⟩
    hn hm ha hop hmp hp rfl (bf0_sim hP (by decide)) (gsBf_sim hP (by decide)) h

theorem nttmul_red_gs_rev2std_calls {o op n : Nat} {t tp : Ty} {a a' p : Array Int} {mem : Nat → Obj} (hP : Has P Src.ntt_red) (hn : n < 4294967296)
    (hm : mem o = ⟨.i32, a⟩) (ha : Wf a) (hop : op ≠ o) (hmp : mem op = ⟨tp, p⟩) (hp : Wf p) (h : NttRed.nttmul_red_gs_rev2std a n p = .ok a') :
    Calls P G n!"nttmul_red_gs_rev2std" [.ptr o 0 1, .int t n, .ptr op 0 1] mem (setMem mem o ⟨.i32, a'⟩) ∧ Wf a' :=
  gsMulRev2std_calls (env := (setEnv (setEnv (setEnv (fun _ => none) n!"p" (.ptr op 0 1)) n!"n" (.int .u32 (some (n : Int)))) n!"a" (.ptr o 0 1)))
    (.inr rfl) (hP _ Src.ntt_red.nttmul_red_gs_rev2std (by rfl))
    (by simp only [Src.ntt_red.nttmul_red_gs_rev2std, bindParams, ok_bind, conv_u32_nat, u32_of hn, if_true])
    ⟨by simp only [crun, Nat.reduceEqDiff, reduceIte], by simp only [crun, Nat.reduceEqDiff, reduceIte],
      by simp only [crun, Nat.reduceEqDiff, reduceIte], by simp only [crun, Nat.reduceEqDiff, reduceIte]⟩
    hn hm ha hop hmp hp rfl (gsBf_sim hP (by decide)) h

theorem ntt_red_gs_std2rev_calls {o op n : Nat} {t tp : Ty} {a a' p : Array Int} {mem : Nat → Obj} (hP : Has P Src.ntt_red) (hn : n < 4294967296)
    (hm : mem o = ⟨.i32, a⟩) (ha : Wf a) (hop : op ≠ o) (hmp : mem op = ⟨tp, p⟩) (hp : Wf p) (h : NttRed.ntt_red_gs_std2rev a n p = .ok a') :
    Calls P G n!"ntt_red_gs_std2rev" [.ptr o 0 1, .int t n, .ptr op 0 1] mem (setMem mem o ⟨.i32, a'⟩) ∧ Wf a' :=
  gsStd2rev_calls (env := (setEnv (setEnv (setEnv (fun _ => none) n!"p" (.ptr op 0 1)) n!"n" (.int .u32 (some (n : Int)))) n!"a" (.ptr o 0 1)))
    (.inr rfl) (hP _ Src.ntt_red.ntt_red_gs_std2rev (by rfl))
    (by simp only [Src.ntt_red.ntt_red_gs_std2rev, bindParams, ok_bind, conv_u32_nat, u32_of hn, if_true])
    ⟨by simp only [crun, Nat.reduceEqDiff, reduceIte], by simp only [crun, Nat.reduceEqDiff, reduceIte],
      by simp only [crun, Nat.reduceEqDiff, reduceIte], by simp only [crun, Nat.reduceEqDiff, reduceIte]⟩
    hn hm ha hop hmp hp rfl (bf0_sim hP (by decide)) (gsBf_sim hP (by decide)) h

theorem nttmul_red_gs_std2rev_calls {o op n : Nat} {t tp : Ty} {a a' p : Array Int} {mem : Nat → Obj} (hP : Has P Src.ntt_red) (hn : n < 4294967296)
    (hm : mem o = ⟨.i32, a⟩) (ha : Wf a) (hop : op ≠ o) (hmp : mem op = ⟨tp, p⟩) (hp : Wf p) (h : NttRed.nttmul_red_gs_std2rev a n p = .ok a') :
    Calls P G n!"nttmul_red_gs_std2rev" [.ptr o 0 1, .int t n, .ptr op 0 1] mem (setMem mem o ⟨.i32, a'⟩) ∧ Wf a' :=
  gsMulStd2rev_calls (env := (setEnv (setEnv (setEnv (fun _ => none) n!"p" (.ptr op 0 1)) n!"n" (.int .u32 (some (n : Int)))) n!"a" (.ptr o 0 1)))
    (.inr rfl) (hP _ Src.ntt_red.nttmul_red_gs_std2rev (by rfl))
    (by simp only [Src.ntt_red.nttmul_red_gs_std2rev, bindParams, ok_bind, conv_u32_nat, u32_of hn, if_true])
    ⟨by simp only [crun, Nat.reduceEqDiff, reduceIte], by simp only [crun, Nat.reduceEqDiff, reduceIte],
      by simp only [crun, Nat.reduceEqDiff, reduceIte], by simp only [crun, Nat.reduceEqDiff, reduceIte]⟩
    hn hm ha hop hmp hp rfl (gsBf_sim hP (by decide)) h

end
end CLang.RedTr
