import Verif.Proofs.CRunTr
import Verif.Model.Src.NaiveNtt
import Verif.Model.Naive

/-
The functions of src/naive_ntt.c as read from the text do what the model says, for a modulus `q > 0`.
-/

namespace CLang.NaiveTr
open C NTT CLang

section
variable {P : Prog} {G : Name → Option Cell}

theorem crem_pos {z q w : Int} (hq : 0 < q) (h : crem z q = .ok w) : w = z.tmod q := by
  unfold crem at h; rw [if_neg (by omega)] at h; cases h; rfl

theorem crem_rng {z q w : Int} (hq : 0 < q) (hq32 : I32 q) (h : crem z q = .ok w) : I32 w := by
  rw [crem_pos hq h]
  have ha := Int.tmod_lt_of_pos z hq
  have hb := Int.lt_tmod_of_pos z hq
  unfold I32 at *; omega

theorem Ev.rem {e e' : Expr} {st : State} {z q w : Int} (hq : 0 < q) (hq32 : I32 q) (he : Ev P G e st (.int .i32 z)) (hz : I32 z)
    (he' : Ev P G e' st (.int .i32 q)) (h : crem z q = .ok w) : Ev P G (.bin .rem e e') st (.int .i32 w) :=
  Ev.bin he he' (by rw [binop_rem32 hz hq32 hq, crem_pos hq h])

variable {q : Int}

theorem bf0_sim (hq : 0 < q) (hq32 : I32 q) {tv : Name} (htv : tv ≠ n!"x") :
    SimBf0 P G (some (.int .i32 (some q))) (bfly tv (aK tv) (.bin .rem (.bin .sub aS (.var n!"x")) (.var n!"q"))
      (.bin .rem (.bin .add aS (.var n!"x")) (.var n!"q"))) tv (Naive.bf0 q) := by
  intro o st a a' s t hI hav hqv hs ht hs' ht' h
  simp only [Naive.bf0, bind_ok] at h
  obtain ⟨x, h1, y, h2, v0, h3, v, h3', a1, h4, z, h5, u0, h6, u, h6', h7⟩ := h
  have hx := hI.wf _ _ h1
  have hv := crem_rng hq hq32 h3'
  have hz := (hI.wf.wr hv h4) _ _ h5
  exact bfly_sim htv hI hav hs ht hs' ht' (ev_aK hI.arr hav hs ht hs' ht' h1) hx
    (fun st' hB => Ev.rem hq hq32 (Ev.bin32 (ev_aS hB hav hs h2) hB.evx (binop_sub32 (hI.wf _ _ h2) hx) h3) (i32_rng h3)
      (Ev.var ((hB.env n!"q" (by decide)).trans hqv) rfl) h3') hv h4
    (fun st' hB => Ev.rem hq hq32 (Ev.bin32 (ev_aS hB hav hs h5) hB.evx (binop_add32 hz hx) h6) (i32_rng h6)
      (Ev.var ((hB.env n!"q" (by decide)).trans hqv) rfl) h6') (crem_rng hq hq32 h6') h7

theorem ctBf_sim (hq : 0 < q) (hq32 : I32 q) {tv : Name} (htv : tv ≠ n!"x") :
    SimBf P G (some (.int .i32 (some q))) (bfly tv (.bin .mul (aK tv) (.var n!"w")) (.bin .rem (.bin .sub aS (.var n!"x")) (.var n!"q"))
      (.bin .rem (.bin .add aS (.var n!"x")) (.var n!"q"))) tv (Naive.ctBf q) := by
  intro o st a a' s t w hI hav hqv hs ht hw hw' hs' ht' h
  simp only [Naive.ctBf, bind_ok] at h
  obtain ⟨x0, h0, x, h1, y, h2, v0, h3, v, h3', a1, h4, z, h5, u0, h6, u, h6', h7⟩ := h
  have hx := i32_rng h1
  have hv := crem_rng hq hq32 h3'
  have hz := (hI.wf.wr hv h4) _ _ h5
  exact bfly_sim htv hI hav hs ht hs' ht' (Ev.bin32 (ev_aK hI.arr hav hs ht hs' ht' h0) (Ev.var hw rfl) (binop_mul32 (hI.wf _ _ h0) hw') h1) hx
    (fun st' hB => Ev.rem hq hq32 (Ev.bin32 (ev_aS hB hav hs h2) hB.evx (binop_sub32 (hI.wf _ _ h2) hx) h3) (i32_rng h3)
      (Ev.var ((hB.env n!"q" (by decide)).trans hqv) rfl) h3') hv h4
    (fun st' hB => Ev.rem hq hq32 (Ev.bin32 (ev_aS hB hav hs h5) hB.evx (binop_add32 hz hx) h6) (i32_rng h6)
      (Ev.var ((hB.env n!"q" (by decide)).trans hqv) rfl) h6') (crem_rng hq hq32 h6') h7

theorem gsBf_sim (hq : 0 < q) (hq32 : I32 q) {tv : Name} (htv : tv ≠ n!"x") :
    SimBf P G (some (.int .i32 (some q))) (bfly tv (aK tv) (.bin .rem (.bin .mul (.bin .sub aS (.var n!"x")) (.var n!"w")) (.var n!"q"))
      (.bin .rem (.bin .add aS (.var n!"x")) (.var n!"q"))) tv (Naive.gsBf q) := by
  intro o st a a' s t w hI hav hqv hs ht hw hw' hs' ht' h
  simp only [Naive.gsBf, bind_ok] at h
  obtain ⟨x, h1, y, h2, v1, h3, v0, h0, v, h3', a1, h4, z, h5, u0, h6, u, h6', h7⟩ := h
  have hx := hI.wf _ _ h1
  have hv := crem_rng hq hq32 h3'
  have hz := (hI.wf.wr hv h4) _ _ h5
  exact bfly_sim htv hI hav hs ht hs' ht' (ev_aK hI.arr hav hs ht hs' ht' h1) hx
    (fun st' hB => Ev.rem hq hq32 (Ev.bin32 (Ev.bin32 (ev_aS hB hav hs h2) hB.evx (binop_sub32 (hI.wf _ _ h2) hx) h3)
      (Ev.var ((hB.env n!"w" (by decide)).trans hw) rfl) (binop_mul32 (i32_rng h3) hw') h0) (i32_rng h0)
      (Ev.var ((hB.env n!"q" (by decide)).trans hqv) rfl) h3') hv h4
    (fun st' hB => Ev.rem hq hq32 (Ev.bin32 (ev_aS hB hav hs h5) hB.evx (binop_add32 hz hx) h6) (i32_rng h6)
      (Ev.var ((hB.env n!"q" (by decide)).trans hqv) rfl) h6') (crem_rng hq hq32 h6') h7

theorem ntt_ct_rev2std_calls {o op n : Nat} {t tp : Ty} {tq : Ty} {a a' p : Array Int} {mem : Nat → Obj} {q : Int} (hq : 0 < q) (hq32 : I32 q) (hP : Has P Src.naive_ntt) (hn : n < 4294967296)
    (hm : mem o = ⟨.i32, a⟩) (ha : Wf a) (hop : op ≠ o) (hmp : mem op = ⟨tp, p⟩) (hp : Wf p) (h : Naive.ntt_ct_rev2std a n p q = .ok a') :
    Calls P G n!"ntt_ct_rev2std_naive" [.ptr o 0 1, .int t n, .ptr op 0 1, .int tq q] mem (setMem mem o ⟨.i32, a'⟩) ∧ Wf a' :=
  ctRev2std_calls (env := (setEnv (setEnv (setEnv (setEnv (fun _ => none) n!"q" (.int .i32 (some q))) n!"p" (.ptr op 0 1)) n!"n" (.int .u32 (some (n : Int)))) n!"a" (.ptr o 0 1)))
    (.inl rfl) (hP _ Src.naive_ntt.ntt_ct_rev2std_naive (by rfl))
    (by simp only [Src.naive_ntt.ntt_ct_rev2std_naive, bindParams, ok_bind, conv_u32_nat, u32_of hn, if_true, conv_i32, toI32_of hq32])
    ⟨by simp only [crun, Nat.reduceEqDiff, reduceIte], by simp only [crun, Nat.reduceEqDiff, reduceIte],
      by simp only [crun, Nat.reduceEqDiff, reduceIte], by simp only [crun, Nat.reduceEqDiff, reduceIte]⟩
    hn hm ha hop hmp hp rfl (bf0_sim hq hq32 (by decide)) (ctBf_sim hq hq32 (by decide)) h

theorem mulntt_ct_rev2std_calls {o op n : Nat} {t tp : Ty} {tq : Ty} {a a' p : Array Int} {mem : Nat → Obj} {q : Int} (hq : 0 < q) (hq32 : I32 q) (hP : Has P Src.naive_ntt) (hn : n < 4294967296)
    (hm : mem o = ⟨.i32, a⟩) (ha : Wf a) (hop : op ≠ o) (hmp : mem op = ⟨tp, p⟩) (hp : Wf p) (h : Naive.mulntt_ct_rev2std a n p q = .ok a') :
    Calls P G n!"mulntt_ct_rev2std_naive" [.ptr o 0 1, .int t n, .ptr op 0 1, .int tq q] mem (setMem mem o ⟨.i32, a'⟩) ∧ Wf a' :=
  mulCtRev2std_calls (env := (setEnv (setEnv (setEnv (setEnv (fun _ => none) n!"q" (.int .i32 (some q))) n!"p" (.ptr op 0 1)) n!"n" (.int .u32 (some (n : Int)))) n!"a" (.ptr o 0 1)))
    (.inl rfl) (hP _ Src.naive_ntt.mulntt_ct_rev2std_naive (by rfl))
    (by simp only [Src.naive_ntt.mulntt_ct_rev2std_naive, bindParams, ok_bind, conv_u32_nat, u32_of hn, if_true, conv_i32, toI32_of hq32])
    ⟨by simp only [crun, Nat.reduceEqDiff, reduceIte], by simp only [crun, Nat.reduceEqDiff, reduceIte],
      by simp only [crun, Nat.reduceEqDiff, reduceIte], by simp only [crun, Nat.reduceEqDiff, reduceIte]⟩
    hn hm ha hop hmp hp rfl (ctBf_sim hq hq32 (by decide)) h

theorem ntt_ct_std2rev_calls {o op n : Nat} {t tp : Ty} {tq : Ty} {a a' p : Array Int} {mem : Nat → Obj} {q : Int} (hq : 0 < q) (hq32 : I32 q) (hP : Has P Src.naive_ntt) (hn : n < 4294967296)
    (hm : mem o = ⟨.i32, a⟩) (ha : Wf a) (hop : op ≠ o) (hmp : mem op = ⟨tp, p⟩) (hp : Wf p) (h : Naive.ntt_ct_std2rev a n p q = .ok a') :
    Calls P G n!"ntt_ct_std2rev_naive" [.ptr o 0 1, .int t n, .ptr op 0 1, .int tq q] mem (setMem mem o ⟨.i32, a'⟩) ∧ Wf a' :=
  ctStd2rev_calls (env := (setEnv (setEnv (setEnv (setEnv (fun _ => none) n!"q" (.int .i32 (some q))) n!"p" (.ptr op 0 1)) n!"n" (.int .u32 (some (n : Int)))) n!"a" (.ptr o 0 1)))
    (.inl rfl) (hP _ Src.naive_ntt.ntt_ct_std2rev_naive (by rfl))
    (by simp only [Src.naive_ntt.ntt_ct_std2rev_naive, bindParams, ok_bind, conv_u32_nat, u32_of hn, if_true, conv_i32, toI32_of hq32])
    ⟨by simp only [crun, Nat.reduceEqDiff, reduceIte], by simp only [crun, Nat.reduceEqDiff, reduceIte],
      by simp only [crun, Nat.reduceEqDiff, reduceIte], by simp only [crun, Nat.reduceEqDiff, reduceIte]⟩
    hn hm ha hop hmp hp rfl (bf0_sim hq hq32 (by decide)) (ctBf_sim hq hq32 (by decide)) h

theorem mulntt_ct_std2rev_calls {o op n : Nat} {t tp : Ty} {tq : Ty} {a a' p : Array Int} {mem : Nat → Obj} {q : Int} (hq : 0 < q) (hq32 : I32 q) (hP : Has P Src.naive_ntt) (hn : n < 4294967296)
    (hm : mem o = ⟨.i32, a⟩) (ha : Wf a) (hop : op ≠ o) (hmp : mem op = ⟨tp, p⟩) (hp : Wf p) (h : Naive.mulntt_ct_std2rev a n p q = .ok a') :
    Calls P G n!"mulntt_ct_std2rev_naive" [.ptr o 0 1, .int t n, .ptr op 0 1, .int tq q] mem (setMem mem o ⟨.i32, a'⟩) ∧ Wf a' :=
  mulCtStd2rev_calls (env := (setEnv (setEnv (setEnv (setEnv (fun _ => none) n!"q" (.int .i32 (some q))) n!"p" (.ptr op 0 1)) n!"n" (.int .u32 (some (n : Int)))) n!"a" (.ptr o 0 1)))
    (.inl rfl) (hP _ Src.naive_ntt.mulntt_ct_std2rev_naive (by rfl))
    (by simp only [Src.naive_ntt.mulntt_ct_std2rev_naive, bindParams, ok_bind, conv_u32_nat, u32_of hn, if_true, conv_i32, toI32_of hq32])
    ⟨by simp only [crun, Nat.reduceEqDiff, reduceIte], by simp only [crun, Nat.reduceEqDiff, reduceIte],
      by simp only [crun, Nat.reduceEqDiff, reduceIte], by simp only [crun, Nat.reduceEqDiff, reduceIte]⟩
    hn hm ha hop hmp hp rfl (ctBf_sim hq hq32 (by decide)) h

theorem ntt_gs_rev2std_calls {o op n : Nat} {t tp : Ty} {tq : Ty} {a a' p : Array Int} {mem : Nat → Obj} {q : Int} (hq : 0 < q) (hq32 : I32 q) (hP : Has P Src.naive_ntt) (hn : n < 4294967296)
    (hm : mem o = ⟨.i32, a⟩) (ha : Wf a) (hop : op ≠ o) (hmp : mem op = ⟨tp, p⟩) (hp : Wf p) (h : Naive.ntt_gs_rev2std a n p q = .ok a') :
    Calls P G n!"ntt_gs_rev2std_naive" [.ptr o 0 1, .int t n, .ptr op 0 1, .int tq q] mem (setMem mem o ⟨.i32, a'⟩) ∧ Wf a' :=
  gsRev2std_calls (env := (setEnv (setEnv (setEnv (setEnv (fun _ => none) n!"q" (.int .i32 (some q))) n!"p" (.ptr op 0 1)) n!"n" (.int .u32 (some (n : Int)))) n!"a" (.ptr o 0 1)))
    (.inr rfl) (hP _ Src.naive_ntt.ntt_gs_rev2std_naive (by rfl))
    (by simp only [Src.naive_ntt.ntt_gs_rev2std_naive, bindParams, ok_bind, conv_u32_nat, u32_of hn, if_true, conv_i32, toI32_of hq32])
    ⟨by simp only [crun, Nat.reduceEqDiff, reduceIte], by simp only [crun, Nat.reduceEqDiff, reduceIte],
      by simp only [crun, Nat.reduceEqDiff, reduceIte], by simp only [crun, Nat.reduceEqDiff, reduceIte]⟩
    hn hm ha hop hmp hp rfl (bf0_sim hq hq32 (by decide)) (gsBf_sim hq hq32 (by decide)) h

theorem nttmul_gs_rev2std_calls {o op n : Nat} {t tp : Ty} {tq : Ty} {a a' p : Array Int} {mem : Nat → Obj} {q : Int} (hq : 0 < q) (hq32 : I32 q) (hP : Has P Src.naive_ntt) (hn : n < 4294967296)
    (hm : mem o = ⟨.i32, a⟩) (ha : Wf a) (hop : op ≠ o) (hmp : mem op = ⟨tp, p⟩) (hp : Wf p) (h : Naive.nttmul_gs_rev2std a n p q = .ok a') :
    Calls P G n!"nttmul_gs_rev2std_naive" [.ptr o 0 1, .int t n, .ptr op 0 1, .int tq q] mem (setMem mem o ⟨.i32, a'⟩) ∧ Wf a' :=
  gsMulRev2std_calls (env := (setEnv (setEnv (setEnv (setEnv (fun _ => none) n!"q" (.int .i32 (some q))) n!"p" (.ptr op 0 1)) n!"n" (.int .u32 (some (n : Int)))) n!"a" (.ptr o 0 1)))
    (.inr rfl) (hP _ Src.naive_ntt.nttmul_gs_rev2std_naive (by rfl))
    (by simp only [Src.naive_ntt.nttmul_gs_rev2std_naive, bindParams, ok_bind, conv_u32_nat, u32_of hn, if_true, conv_i32, toI32_of hq32])
    ⟨by simp only [crun, Nat.reduceEqDiff, reduceIte], by simp only [crun, Nat.reduceEqDiff, reduceIte],
      by simp only [crun, Nat.reduceEqDiff, reduceIte], by simp only [crun, Nat.reduceEqDiff, reduceIte]⟩
    hn hm ha hop hmp hp rfl (gsBf_sim hq hq32 (by decide)) h

theorem ntt_gs_std2rev_calls {o op n : Nat} {t tp : Ty} {tq : Ty} {a a' p : Array Int} {mem : Nat → Obj} {q : Int} (hq : 0 < q) (hq32 : I32 q) (hP : Has P Src.naive_ntt) (hn : n < 4294967296)
    (hm : mem o = ⟨.i32, a⟩) (ha : Wf a) (hop : op ≠ o) (hmp : mem op = ⟨tp, p⟩) (hp : Wf p) (h : Naive.ntt_gs_std2rev a n p q = .ok a') :
    Calls P G n!"ntt_gs_std2rev_naive" [.ptr o 0 1, .int t n, .ptr op 0 1, .int tq q] mem (setMem mem o ⟨.i32, a'⟩) ∧ Wf a' :=
  gsStd2rev_calls (env := (setEnv (setEnv (setEnv (setEnv (fun _ => none) n!"q" (.int .i32 (some q))) n!"p" (.ptr op 0 1)) n!"n" (.int .u32 (some (n : Int)))) n!"a" (.ptr o 0 1)))
    (.inr rfl) (hP _ Src.naive_ntt.ntt_gs_std2rev_naive (by rfl))
    (by simp only [Src.naive_ntt.ntt_gs_std2rev_naive, bindParams, ok_bind, conv_u32_nat, u32_of hn, if_true, conv_i32, toI32_of hq32])
    ⟨by simp only [crun, Nat.reduceEqDiff, reduceIte], by simp only [crun, Nat.reduceEqDiff, reduceIte],
      by simp only [crun, Nat.reduceEqDiff, reduceIte], by simp only [crun, Nat.reduceEqDiff, reduceIte]⟩
    hn hm ha hop hmp hp rfl (bf0_sim hq hq32 (by decide)) (gsBf_sim hq hq32 (by decide)) h

theorem nttmul_gs_std2rev_calls {o op n : Nat} {t tp : Ty} {tq : Ty} {a a' p : Array Int} {mem : Nat → Obj} {q : Int} (hq : 0 < q) (hq32 : I32 q) (hP : Has P Src.naive_ntt) (hn : n < 4294967296)
    (hm : mem o = ⟨.i32, a⟩) (ha : Wf a) (hop : op ≠ o) (hmp : mem op = ⟨tp, p⟩) (hp : Wf p) (h : Naive.nttmul_gs_std2rev a n p q = .ok a') :
    Calls P G n!"nttmul_gs_std2rev_naive" [.ptr o 0 1, .int t n, .ptr op 0 1, .int tq q] mem (setMem mem o ⟨.i32, a'⟩) ∧ Wf a' :=
  gsMulStd2rev_calls (env := (setEnv (setEnv (setEnv (setEnv (fun _ => none) n!"q" (.int .i32 (some q))) n!"p" (.ptr op 0 1)) n!"n" (.int .u32 (some (n : Int)))) n!"a" (.ptr o 0 1)))
    (.inr rfl) (hP _ Src.naive_ntt.nttmul_gs_std2rev_naive (by rfl))
    (by simp only [Src.naive_ntt.nttmul_gs_std2rev_naive, bindParams, ok_bind, conv_u32_nat, u32_of hn, if_true, conv_i32, toI32_of hq32])
    ⟨by simp only [crun, Nat.reduceEqDiff, reduceIte], by simp only [crun, Nat.reduceEqDiff, reduceIte],
      by simp only [crun, Nat.reduceEqDiff, reduceIte], by simp only [crun, Nat.reduceEqDiff, reduceIte]⟩
    hn hm ha hop hmp hp rfl (gsBf_sim hq hq32 (by decide)) h

theorem mul_array16_calls {o op n : Nat} {t tp : Ty} {tq : Ty} {a a' p : Array Int} {mem : Nat → Obj} {q : Int} (hq : 0 < q) (hq32 : I32 q) (hP : Has P Src.naive_ntt) (hn : n < 4294967296)
    (hm : mem o = ⟨.i32, a⟩) (ha : Wf a) (hop : op ≠ o) (hmp : mem op = ⟨tp, p⟩) (htp : tp = .i32 ∨ tp = .i16 ∨ tp = .u16) (hp : Wf p)
    (h : Naive.mul_array16 a n p q = .ok a') :
    Calls P G n!"mul_array16_naive" [.ptr o 0 1, .int t n, .ptr op 0 1, .int tq q] mem (setMem mem o ⟨.i32, a'⟩) ∧ Wf a' := by
  refine Calls.loop1 (hP _ Src.naive_ntt.mul_array16_naive (by rfl)) rfl
    (env := setEnv (setEnv (setEnv (setEnv (fun _ => none) n!"q" (.int .i32 (some q))) n!"p" (.ptr op 0 1)) n!"n" (.int .u32 (some (n : Int)))) n!"a" (.ptr o 0 1))
    (by simp only [Src.naive_ntt.mul_array16_naive, bindParams, ok_bind, conv_u32_nat, u32_of hn, if_true, conv_i32, toI32_of hq32])
    (by simp only [crun, Nat.reduceEqDiff, reduceIte]) hn hm ha
    (fun i a a' st hI hi _ hab => ?_) h
  simp only [bind_ok] at hab
  obtain ⟨x, h1, y, h2, z, h0, w, h3, h4⟩ := hab
  have hav : st.env n!"a" = some (.ptr o 0 1) := by
    rw [hI.keep _ (by decide)]; simp only [crun, Nat.reduceEqDiff, reduceIte]
  have hpv : st.env n!"p" = some (.ptr op 0 1) := by
    rw [hI.keep _ (by decide)]; simp only [crun, Nat.reduceEqDiff, reduceIte]
  have hqv : st.env n!"q" = some (.int .i32 (some q)) := by
    rw [hI.keep _ (by decide)]; simp only [crun, Nat.reduceEqDiff, reduceIte]
  have hev : Ev P G (.bin .mul (.idx (.var n!"a") (.var n!"i")) (.idx (.var n!"p") (.var n!"i"))) st (.int .i32 z) :=
    Ev.bin32 (Ev.elem hav hi hI.arr h1) (Ev.elem hpv hi ((hI.other hop).trans hmp) h2) (binop_mul16 htp (hI.wf _ _ h1) (hp _ _ h2)) h0
  obtain ⟨h5, h6⟩ := hI.put hav (Ev.var hi rfl) (Ev.rem hq hq32 hev (i32_rng h0) (Ev.var hqv rfl) h3) (crem_rng hq hq32 h3) h4
  exact ⟨_, Ex.seq h5 (Ex.skip _), h6, hi⟩

theorem mul_array_calls {oc oa ob n : Nat} {t : Ty} {tq : Ty} {c c' a b : Array Int} {mem : Nat → Obj} {q : Int} (hq : 0 < q) (hq32 : I32 q) (hP : Has P Src.naive_ntt) (hn : n < 4294967296)
    (hm : mem oc = ⟨.i32, c⟩) (hc : Wf c) (hoa : oa ≠ oc) (hma : mem oa = ⟨.i32, a⟩) (ha : Wf a) (hob : ob ≠ oc) (hmb : mem ob = ⟨.i32, b⟩)
    (hb : Wf b) (h : Naive.mul_array c n a b q = .ok c') :
    Calls P G n!"mul_array_naive" [.ptr oc 0 1, .int t n, .ptr oa 0 1, .ptr ob 0 1, .int tq q] mem (setMem mem oc ⟨.i32, c'⟩) ∧ Wf c' := by
  refine Calls.loop1 (hP _ Src.naive_ntt.mul_array_naive (by rfl)) rfl
    (env := setEnv (setEnv (setEnv (setEnv (setEnv (fun _ => none) n!"q" (.int .i32 (some q))) n!"b" (.ptr ob 0 1)) n!"a" (.ptr oa 0 1)) n!"n" (.int .u32 (some (n : Int)))) n!"c" (.ptr oc 0 1))
    (by simp only [Src.naive_ntt.mul_array_naive, bindParams, ok_bind, conv_u32_nat, u32_of hn, if_true, conv_i32, toI32_of hq32])
    (by simp only [crun, Nat.reduceEqDiff, reduceIte]) hn hm hc
    (fun i c c' st hI hi _ hab => ?_) h
  simp only [bind_ok] at hab
  obtain ⟨x, h1, y, h2, z, h0, w, h3, h4⟩ := hab
  have hcv : st.env n!"c" = some (.ptr oc 0 1) := by
    rw [hI.keep _ (by decide)]; simp only [crun, Nat.reduceEqDiff, reduceIte]
  have hav : st.env n!"a" = some (.ptr oa 0 1) := by
    rw [hI.keep _ (by decide)]; simp only [crun, Nat.reduceEqDiff, reduceIte]
  have hbv : st.env n!"b" = some (.ptr ob 0 1) := by
    rw [hI.keep _ (by decide)]; simp only [crun, Nat.reduceEqDiff, reduceIte]
  have hqv : st.env n!"q" = some (.int .i32 (some q)) := by
    rw [hI.keep _ (by decide)]; simp only [crun, Nat.reduceEqDiff, reduceIte]
  have hev : Ev P G (.bin .mul (.idx (.var n!"a") (.var n!"i")) (.idx (.var n!"b") (.var n!"i"))) st (.int .i32 z) :=
    Ev.bin32 (Ev.elem hav hi ((hI.other hoa).trans hma) h1) (Ev.elem hbv hi ((hI.other hob).trans hmb) h2) (binop_mul32 (ha _ _ h1) (hb _ _ h2)) h0
  obtain ⟨h5, h6⟩ := hI.put hcv (Ev.var hi rfl) (Ev.rem hq hq32 hev (i32_rng h0) (Ev.var hqv rfl) h3) (crem_rng hq hq32 h3) h4
  exact ⟨_, Ex.seq h5 (Ex.skip _), h6, hi⟩

theorem scalar_mul_array_calls {o n : Nat} {t tc : Ty} {tq : Ty} {a a' : Array Int} {c : Int} {mem : Nat → Obj} {q : Int} (hq : 0 < q) (hq32 : I32 q) (hP : Has P Src.naive_ntt)
    (hn : n < 4294967296) (hm : mem o = ⟨.i32, a⟩) (ha : Wf a) (hc : I32 c) (h : Naive.scalar_mul_array a n c q = .ok a') :
    Calls P G n!"scalar_mul_array_naive" [.ptr o 0 1, .int t n, .int tc c, .int tq q] mem (setMem mem o ⟨.i32, a'⟩) ∧ Wf a' := by
  refine Calls.loop1 (hP _ Src.naive_ntt.scalar_mul_array_naive (by rfl)) rfl
    (env := setEnv (setEnv (setEnv (setEnv (fun _ => none) n!"q" (.int .i32 (some q))) n!"c" (.int .i32 (some c))) n!"n" (.int .u32 (some (n : Int)))) n!"a" (.ptr o 0 1))
    (by simp only [Src.naive_ntt.scalar_mul_array_naive, bindParams, ok_bind, conv_u32_nat, u32_of hn, conv_i32, toI32_of hc, if_true, toI32_of hq32])
    (by simp only [crun, Nat.reduceEqDiff, reduceIte]) hn hm ha
    (fun i a a' st hI hi _ hab => ?_) h
  simp only [bind_ok] at hab
  obtain ⟨x, h1, z, h0, w, h3, h4⟩ := hab
  have hav : st.env n!"a" = some (.ptr o 0 1) := by
    rw [hI.keep _ (by decide)]; simp only [crun, Nat.reduceEqDiff, reduceIte]
  have hcv : st.env n!"c" = some (.int .i32 (some c)) := by
    rw [hI.keep _ (by decide)]; simp only [crun, Nat.reduceEqDiff, reduceIte]
  have hqv : st.env n!"q" = some (.int .i32 (some q)) := by
    rw [hI.keep _ (by decide)]; simp only [crun, Nat.reduceEqDiff, reduceIte]
  have hev : Ev P G (.bin .mul (.idx (.var n!"a") (.var n!"i")) (.var n!"c")) st (.int .i32 z) :=
    Ev.bin32 (Ev.elem hav hi hI.arr h1) (Ev.var hcv rfl) (binop_mul32 (hI.wf _ _ h1) hc) h0
  obtain ⟨h5, h6⟩ := hI.put hav (Ev.var hi rfl) (Ev.rem hq hq32 hev (i32_rng h0) (Ev.var hqv rfl) h3) (crem_rng hq hq32 h3) h4
  exact ⟨_, Ex.seq h5 (Ex.skip _), h6, hi⟩

end
end CLang.NaiveTr
