import Verif.Proofs.CRunMul
import Verif.SpecSourceInPlace

/-
The products as read from the text, when the destination is one of the operands.
-/

namespace CLang
open C

section
variable {P : Prog} {G : Name → Option Cell}

/-- A loop that computes `c` element by element from `a` does the same when it writes over `a`. -/
theorem forUp_shared {n : Nat} (hn : n < 4294967296) {a c c' : Array Int} {bodyC bodyS : Nat → Array Int → M (Array Int)} (sc : c.size = n) (sa : a.size = n)
    (hb : ∀ i c c', bodyC i c = .ok c' → ∃ z, wr c i z = .ok c' ∧ ∀ r : Array Int, rd r i = rd a i → bodyS i r = wr r i z)
    (h : forUp 0 n 1 bodyC c = .ok c') : forUp 0 n 1 bodyS a = .ok c' := by
  have key : ∀ fuel i (c r : Array Int), i ≤ n → c.size = n → r.size = n → (∀ j, j < i → r[j]? = c[j]?) → (∀ j, i ≤ j → r[j]? = a[j]?) →
      cfor (fun i => decide (i < n)) (fun i => u32 (i + 1)) bodyC fuel i c = .ok c' →
      cfor (fun i => decide (i < n)) (fun i => u32 (i + 1)) bodyS fuel i r = .ok c' := by
    intro fuel
    induction fuel with
    | zero => intro i c r _ _ _ _ _ h; cases h
    | succ fuel ih =>
      intro i c r hi hc hr h1 h2 h
      unfold cfor at h ⊢
      by_cases hin : i < n
      · rw [decide_eq_true hin, if_pos rfl] at h
        rw [decide_eq_true hin, if_pos rfl]
        rw [CLang.bind_ok] at h
        obtain ⟨c1, e1, h⟩ := h
        obtain ⟨z, e2, e3⟩ := hb i c c1 e1
        have hu : u32 (i + 1) = i + 1 := by unfold u32; omega
        have hz : c1 = c.setIfInBounds i z := by
          unfold wr at e2
          rw [if_pos (by omega)] at e2
          exact (Except.ok.inj e2).symm
        have hw : wr r i z = .ok (r.setIfInBounds i z) := by unfold wr; rw [if_pos (by omega)]
        rw [e3 r (by unfold rd; rw [h2 i (Nat.le_refl _)]), hw]
        simp only [ok_bind]
        rw [hu] at h ⊢
        subst hz
        refine ih (i + 1) _ _ (by omega) (by simp [hc]) (by simp [hr]) (fun j hj => ?_) (fun j hj => ?_) h
        · rw [Array.getElem?_setIfInBounds, Array.getElem?_setIfInBounds]
          by_cases hij : i = j
          · rw [if_pos hij, if_pos hij, hc, hr]
          · rw [if_neg hij, if_neg hij]; exact h1 j (by omega)
        · rw [Array.getElem?_setIfInBounds, if_neg (by omega)]; exact h2 j (by omega)
      · rw [decide_eq_false hin] at h
        rw [decide_eq_false hin]
        have hs : c = c' := Except.ok.inj h
        subst hs
        have : r = c := by
          apply Array.ext_getElem?
          intro j
          by_cases hj : j < i
          · exact h1 j hj
          · rw [Array.getElem?_eq_none (by omega), Array.getElem?_eq_none (by omega)]
        rw [this]
        rfl
  exact key (n + 1) 0 c a (Nat.zero_le _) sc sa (fun j hj => by omega) (fun _ _ => rfl) h

theorem mul_reduce_array_calls_inA {oa ob n : Nat} {t tb : Ty} {c c' a b : Array Int} {mem : Nat → Obj} (hP : Has P Src.ntt_red) (hn : n < 4294967296)
    (sc : c.size = n) (sa : a.size = n) (hma : mem oa = ⟨.i32, a⟩) (ha : Wf a) (hob : ob ≠ oa) (hmb : mem ob = ⟨tb, b⟩)
    (hb : Wf b) (h : NttRed.mul_reduce_array c n a b = .ok c') :
    Calls P G n!"mul_reduce_array" [.ptr oa 0 1, .int t n, .ptr oa 0 1, .ptr ob 0 1] mem (setMem mem oa ⟨.i32, c'⟩) ∧ Wf c' := by
  refine Calls.loop1 (hP _ Src.ntt_red.mul_reduce_array (by rfl)) rfl
    (env := setEnv (setEnv (setEnv (setEnv (fun _ => none) n!"b" (.ptr ob 0 1)) n!"a" (.ptr oa 0 1)) n!"n" (.int .u32 (some (n : Int)))) n!"c" (.ptr oa 0 1))
    (by simp only [Src.ntt_red.mul_reduce_array, bindParams, ok_bind, conv_u32_nat, u32_of hn, if_true])
    (by simp only [crun, Nat.reduceEqDiff, reduceIte]) hn hma ha
    (body := (fun i r => do let x ← rd r i; let y ← rd b i; let z ← NttRed.mul_red x y; wr r i z))
    (fun i r r' st hI hi _ hab => ?_) (forUp_shared hn sc sa (fun i c c' hab => ?_) h)
  rotate_left
  · simp only [bind_ok] at hab
    obtain ⟨x, h1, y, h2, z, h3, h4⟩ := hab
    exact ⟨_, h4, fun r hr => by simp only [hr, h1, h2, h3, ok_bind]⟩
  simp only [bind_ok] at hab
  obtain ⟨x, h1, y, h2, z, h3, h4⟩ := hab
  have hcv : st.env n!"c" = some (.ptr oa 0 1) := by
    rw [hI.keep _ (by decide)]; simp only [crun, Nat.reduceEqDiff, reduceIte]
  have hav : st.env n!"a" = some (.ptr oa 0 1) := by
    rw [hI.keep _ (by decide)]; simp only [crun, Nat.reduceEqDiff, reduceIte]
  have hbv : st.env n!"b" = some (.ptr ob 0 1) := by
    rw [hI.keep _ (by decide)]; simp only [crun, Nat.reduceEqDiff, reduceIte]
  obtain ⟨h5, h6⟩ := hI.put hcv (Ev.var hi rfl)
    (Ev.mul_red hP (Ev.elem hav hi hI.arr h1) (Ev.elem hbv hi ((hI.other hob).trans hmb) h2) (hI.wf _ _ h1) (hb _ _ h2) h3)
    (mul_red_rng h3) h4
  exact ⟨_, Ex.seq h5 (Ex.skip _), h6, hi⟩

theorem mul_reduce_array_calls_inB {oa ob n : Nat} {t ta : Ty} {c c' a b : Array Int} {mem : Nat → Obj} (hP : Has P Src.ntt_red) (hn : n < 4294967296)
    (sc : c.size = n) (sb : b.size = n) (hoa : oa ≠ ob) (hma : mem oa = ⟨ta, a⟩) (ha : Wf a) (hmb : mem ob = ⟨.i32, b⟩)
    (hb : Wf b) (h : NttRed.mul_reduce_array c n a b = .ok c') :
    Calls P G n!"mul_reduce_array" [.ptr ob 0 1, .int t n, .ptr oa 0 1, .ptr ob 0 1] mem (setMem mem ob ⟨.i32, c'⟩) ∧ Wf c' := by
  refine Calls.loop1 (hP _ Src.ntt_red.mul_reduce_array (by rfl)) rfl
    (env := setEnv (setEnv (setEnv (setEnv (fun _ => none) n!"b" (.ptr ob 0 1)) n!"a" (.ptr oa 0 1)) n!"n" (.int .u32 (some (n : Int)))) n!"c" (.ptr ob 0 1))
    (by simp only [Src.ntt_red.mul_reduce_array, bindParams, ok_bind, conv_u32_nat, u32_of hn, if_true])
    (by simp only [crun, Nat.reduceEqDiff, reduceIte]) hn hmb hb
    (body := (fun i r => do let x ← rd a i; let y ← rd r i; let z ← NttRed.mul_red x y; wr r i z))
    (fun i r r' st hI hi _ hab => ?_) (forUp_shared hn sc sb (fun i c c' hab => ?_) h)
  rotate_left
  · simp only [bind_ok] at hab
    obtain ⟨x, h1, y, h2, z, h3, h4⟩ := hab
    exact ⟨_, h4, fun r hr => by simp only [hr, h1, h2, h3, ok_bind]⟩
  simp only [bind_ok] at hab
  obtain ⟨x, h1, y, h2, z, h3, h4⟩ := hab
  have hcv : st.env n!"c" = some (.ptr ob 0 1) := by
    rw [hI.keep _ (by decide)]; simp only [crun, Nat.reduceEqDiff, reduceIte]
  have hav : st.env n!"a" = some (.ptr oa 0 1) := by
    rw [hI.keep _ (by decide)]; simp only [crun, Nat.reduceEqDiff, reduceIte]
  have hbv : st.env n!"b" = some (.ptr ob 0 1) := by
    rw [hI.keep _ (by decide)]; simp only [crun, Nat.reduceEqDiff, reduceIte]
  obtain ⟨h5, h6⟩ := hI.put hcv (Ev.var hi rfl)
    (Ev.mul_red hP (Ev.elem hav hi ((hI.other hoa).trans hma) h1) (Ev.elem hbv hi hI.arr h2) (ha _ _ h1) (hI.wf _ _ h2) h3)
    (mul_red_rng h3) h4
  exact ⟨_, Ex.seq h5 (Ex.skip _), h6, hi⟩

theorem mul_reduce_array_calls_shared {oc oa ob n : Nat} {t : Ty} {c c' a b : Array Int} {mem : Nat → Obj} (hP : Has P Src.ntt_red) (hn : n < 4294967296)
    (hoc : oc = oa ∨ oc = ob) (hab : oa ≠ ob) (sc : c.size = n) (sa : a.size = n) (hma : mem oa = ⟨.i32, a⟩) (ha : Wf a) (sb : b.size = n) (hmb : mem ob = ⟨.i32, b⟩)
    (hb : Wf b) (h : NttRed.mul_reduce_array c n a b = .ok c') :
    Calls P G n!"mul_reduce_array" [.ptr oc 0 1, .int t n, .ptr oa 0 1, .ptr ob 0 1] mem (setMem mem oc ⟨.i32, c'⟩) ∧ Wf c' := by
  rcases hoc with rfl | rfl
  · exact mul_reduce_array_calls_inA hP hn sc sa hma ha hab.symm hmb hb h
  · exact mul_reduce_array_calls_inB hP hn sc sb hab hma ha hmb hb h

namespace NttTr

theorem mul_array_calls_inA {oa ob n : Nat} {t : Ty} {c c' a b : Array Int} {mem : Nat → Obj} (hP : Has P Src.ntt) (hn : n < 4294967296)
    (sc : c.size = n) (sa : a.size = n) (hma : mem oa = ⟨.i32, a⟩) (ha : Wf a) (hob : ob ≠ oa) (hmb : mem ob = ⟨.i32, b⟩)
    (hb : Wf b) (h : Ntt.mul_array c n a b = .ok c') :
    Calls P G n!"mul_array" [.ptr oa 0 1, .int t n, .ptr oa 0 1, .ptr ob 0 1] mem (setMem mem oa ⟨.i32, c'⟩) ∧ Wf c' := by
  refine Calls.loop1 (hP _ Src.ntt.mul_array (by rfl)) rfl
    (env := setEnv (setEnv (setEnv (setEnv (fun _ => none) n!"b" (.ptr ob 0 1)) n!"a" (.ptr oa 0 1)) n!"n" (.int .u32 (some (n : Int)))) n!"c" (.ptr oa 0 1))
    (by simp only [Src.ntt.mul_array, bindParams, ok_bind, conv_u32_nat, u32_of hn, if_true])
    (by simp only [crun, Nat.reduceEqDiff, reduceIte]) hn hma ha
    (body := (fun i r => do let x ← rd r i; let y ← rd b i; let z ← i32 (x * y); wr r i (Ntt.modq z)))
    (fun i r r' st hI hi _ hab => ?_) (forUp_shared hn sc sa (fun i c c' hab => ?_) h)
  rotate_left
  · simp only [bind_ok] at hab
    obtain ⟨x, h1, y, h2, z, h3, h4⟩ := hab
    exact ⟨_, h4, fun r hr => by simp only [hr, h1, h2, h3, ok_bind]⟩
  simp only [bind_ok] at hab
  obtain ⟨x, h1, y, h2, z, h0, h4⟩ := hab
  have hcv : st.env n!"c" = some (.ptr oa 0 1) := by
    rw [hI.keep _ (by decide)]; simp only [crun, Nat.reduceEqDiff, reduceIte]
  have hav : st.env n!"a" = some (.ptr oa 0 1) := by
    rw [hI.keep _ (by decide)]; simp only [crun, Nat.reduceEqDiff, reduceIte]
  have hbv : st.env n!"b" = some (.ptr ob 0 1) := by
    rw [hI.keep _ (by decide)]; simp only [crun, Nat.reduceEqDiff, reduceIte]
  have hev : Ev P G (.bin .mul (.idx (.var n!"a") (.var n!"i")) (.idx (.var n!"b") (.var n!"i"))) st (.int .i32 z) :=
    Ev.bin32 (Ev.elem hav hi hI.arr h1) (Ev.elem hbv hi ((hI.other hob).trans hmb) h2) (binop_mul32 (hI.wf _ _ h1) (hb _ _ h2)) h0
  obtain ⟨h5, h6⟩ := hI.put hcv (Ev.var hi rfl) (Ev.modq hP hev (i32_rng h0)) (modq_rng z) h4
  exact ⟨_, Ex.seq h5 (Ex.skip _), h6, hi⟩

theorem mul_array_calls_inB {oa ob n : Nat} {t : Ty} {c c' a b : Array Int} {mem : Nat → Obj} (hP : Has P Src.ntt) (hn : n < 4294967296)
    (sc : c.size = n) (sb : b.size = n) (hoa : oa ≠ ob) (hma : mem oa = ⟨.i32, a⟩) (ha : Wf a) (hmb : mem ob = ⟨.i32, b⟩)
    (hb : Wf b) (h : Ntt.mul_array c n a b = .ok c') :
    Calls P G n!"mul_array" [.ptr ob 0 1, .int t n, .ptr oa 0 1, .ptr ob 0 1] mem (setMem mem ob ⟨.i32, c'⟩) ∧ Wf c' := by
  refine Calls.loop1 (hP _ Src.ntt.mul_array (by rfl)) rfl
    (env := setEnv (setEnv (setEnv (setEnv (fun _ => none) n!"b" (.ptr ob 0 1)) n!"a" (.ptr oa 0 1)) n!"n" (.int .u32 (some (n : Int)))) n!"c" (.ptr ob 0 1))
    (by simp only [Src.ntt.mul_array, bindParams, ok_bind, conv_u32_nat, u32_of hn, if_true])
    (by simp only [crun, Nat.reduceEqDiff, reduceIte]) hn hmb hb
    (body := (fun i r => do let x ← rd a i; let y ← rd r i; let z ← i32 (x * y); wr r i (Ntt.modq z)))
    (fun i r r' st hI hi _ hab => ?_) (forUp_shared hn sc sb (fun i c c' hab => ?_) h)
  rotate_left
  · simp only [bind_ok] at hab
    obtain ⟨x, h1, y, h2, z, h3, h4⟩ := hab
    exact ⟨_, h4, fun r hr => by simp only [hr, h1, h2, h3, ok_bind]⟩
  simp only [bind_ok] at hab
  obtain ⟨x, h1, y, h2, z, h0, h4⟩ := hab
  have hcv : st.env n!"c" = some (.ptr ob 0 1) := by
    rw [hI.keep _ (by decide)]; simp only [crun, Nat.reduceEqDiff, reduceIte]
  have hav : st.env n!"a" = some (.ptr oa 0 1) := by
    rw [hI.keep _ (by decide)]; simp only [crun, Nat.reduceEqDiff, reduceIte]
  have hbv : st.env n!"b" = some (.ptr ob 0 1) := by
    rw [hI.keep _ (by decide)]; simp only [crun, Nat.reduceEqDiff, reduceIte]
  have hev : Ev P G (.bin .mul (.idx (.var n!"a") (.var n!"i")) (.idx (.var n!"b") (.var n!"i"))) st (.int .i32 z) :=
    Ev.bin32 (Ev.elem hav hi ((hI.other hoa).trans hma) h1) (Ev.elem hbv hi hI.arr h2) (binop_mul32 (ha _ _ h1) (hI.wf _ _ h2)) h0
  obtain ⟨h5, h6⟩ := hI.put hcv (Ev.var hi rfl) (Ev.modq hP hev (i32_rng h0)) (modq_rng z) h4
  exact ⟨_, Ex.seq h5 (Ex.skip _), h6, hi⟩

theorem mul_array_calls_shared {oc oa ob n : Nat} {t : Ty} {c c' a b : Array Int} {mem : Nat → Obj} (hP : Has P Src.ntt) (hn : n < 4294967296)
    (hoc : oc = oa ∨ oc = ob) (hab : oa ≠ ob) (sc : c.size = n) (sa : a.size = n) (hma : mem oa = ⟨.i32, a⟩) (ha : Wf a) (sb : b.size = n) (hmb : mem ob = ⟨.i32, b⟩)
    (hb : Wf b) (h : Ntt.mul_array c n a b = .ok c') :
    Calls P G n!"mul_array" [.ptr oc 0 1, .int t n, .ptr oa 0 1, .ptr ob 0 1] mem (setMem mem oc ⟨.i32, c'⟩) ∧ Wf c' := by
  rcases hoc with rfl | rfl
  · exact mul_array_calls_inA hP hn sc sa hma ha hab.symm hmb hb h
  · exact mul_array_calls_inB hP hn sc sb hab hma ha hmb hb h

end NttTr

namespace NaiveTr

theorem mul_array_calls_inA {oa ob n : Nat} {t : Ty} {tq : Ty} {c c' a b : Array Int} {mem : Nat → Obj} {q : Int} (hq : 0 < q) (hq32 : I32 q) (hP : Has P Src.naive_ntt) (hn : n < 4294967296)
    (sc : c.size = n) (sa : a.size = n) (hma : mem oa = ⟨.i32, a⟩) (ha : Wf a) (hob : ob ≠ oa) (hmb : mem ob = ⟨.i32, b⟩)
    (hb : Wf b) (h : Naive.mul_array c n a b q = .ok c') :
    Calls P G n!"mul_array_naive" [.ptr oa 0 1, .int t n, .ptr oa 0 1, .ptr ob 0 1, .int tq q] mem (setMem mem oa ⟨.i32, c'⟩) ∧ Wf c' := by
  refine Calls.loop1 (hP _ Src.naive_ntt.mul_array_naive (by rfl)) rfl
    (env := setEnv (setEnv (setEnv (setEnv (setEnv (fun _ => none) n!"q" (.int .i32 (some q))) n!"b" (.ptr ob 0 1)) n!"a" (.ptr oa 0 1)) n!"n" (.int .u32 (some (n : Int)))) n!"c" (.ptr oa 0 1))
    (by simp only [Src.naive_ntt.mul_array_naive, bindParams, ok_bind, conv_u32_nat, u32_of hn, if_true, conv_i32, toI32_of hq32])
    (by simp only [crun, Nat.reduceEqDiff, reduceIte]) hn hma ha
    (body := (fun i r => do let x ← rd r i; let y ← rd b i; let z ← i32 (x * y); let z ← crem z q; wr r i z))
    (fun i r r' st hI hi _ hab => ?_) (forUp_shared hn sc sa (fun i c c' hab => ?_) h)
  rotate_left
  · simp only [bind_ok] at hab
    obtain ⟨x, h1, y, h2, z, h0, w, h3, h4⟩ := hab
    exact ⟨_, h4, fun r hr => by simp only [hr, h1, h2, h3, h0, ok_bind]⟩
  simp only [bind_ok] at hab
  obtain ⟨x, h1, y, h2, z, h0, w, h3, h4⟩ := hab
  have hcv : st.env n!"c" = some (.ptr oa 0 1) := by
    rw [hI.keep _ (by decide)]; simp only [crun, Nat.reduceEqDiff, reduceIte]
  have hav : st.env n!"a" = some (.ptr oa 0 1) := by
    rw [hI.keep _ (by decide)]; simp only [crun, Nat.reduceEqDiff, reduceIte]
  have hbv : st.env n!"b" = some (.ptr ob 0 1) := by
    rw [hI.keep _ (by decide)]; simp only [crun, Nat.reduceEqDiff, reduceIte]
  have hqv : st.env n!"q" = some (.int .i32 (some q)) := by
    rw [hI.keep _ (by decide)]; simp only [crun, Nat.reduceEqDiff, reduceIte]
  have hev : Ev P G (.bin .mul (.idx (.var n!"a") (.var n!"i")) (.idx (.var n!"b") (.var n!"i"))) st (.int .i32 z) :=
    Ev.bin32 (Ev.elem hav hi hI.arr h1) (Ev.elem hbv hi ((hI.other hob).trans hmb) h2) (binop_mul32 (hI.wf _ _ h1) (hb _ _ h2)) h0
  obtain ⟨h5, h6⟩ := hI.put hcv (Ev.var hi rfl) (Ev.rem hq hq32 hev (i32_rng h0) (Ev.var hqv rfl) h3) (crem_rng hq hq32 h3) h4
  exact ⟨_, Ex.seq h5 (Ex.skip _), h6, hi⟩

theorem mul_array_calls_inB {oa ob n : Nat} {t : Ty} {tq : Ty} {c c' a b : Array Int} {mem : Nat → Obj} {q : Int} (hq : 0 < q) (hq32 : I32 q) (hP : Has P Src.naive_ntt) (hn : n < 4294967296)
    (sc : c.size = n) (sb : b.size = n) (hoa : oa ≠ ob) (hma : mem oa = ⟨.i32, a⟩) (ha : Wf a) (hmb : mem ob = ⟨.i32, b⟩)
    (hb : Wf b) (h : Naive.mul_array c n a b q = .ok c') :
    Calls P G n!"mul_array_naive" [.ptr ob 0 1, .int t n, .ptr oa 0 1, .ptr ob 0 1, .int tq q] mem (setMem mem ob ⟨.i32, c'⟩) ∧ Wf c' := by
  refine Calls.loop1 (hP _ Src.naive_ntt.mul_array_naive (by rfl)) rfl
    (env := setEnv (setEnv (setEnv (setEnv (setEnv (fun _ => none) n!"q" (.int .i32 (some q))) n!"b" (.ptr ob 0 1)) n!"a" (.ptr oa 0 1)) n!"n" (.int .u32 (some (n : Int)))) n!"c" (.ptr ob 0 1))
    (by simp only [Src.naive_ntt.mul_array_naive, bindParams, ok_bind, conv_u32_nat, u32_of hn, if_true, conv_i32, toI32_of hq32])
    (by simp only [crun, Nat.reduceEqDiff, reduceIte]) hn hmb hb
    (body := (fun i r => do let x ← rd a i; let y ← rd r i; let z ← i32 (x * y); let z ← crem z q; wr r i z))
    (fun i r r' st hI hi _ hab => ?_) (forUp_shared hn sc sb (fun i c c' hab => ?_) h)
  rotate_left
  · simp only [bind_ok] at hab
    obtain ⟨x, h1, y, h2, z, h0, w, h3, h4⟩ := hab
    exact ⟨_, h4, fun r hr => by simp only [hr, h1, h2, h3, h0, ok_bind]⟩
  simp only [bind_ok] at hab
  obtain ⟨x, h1, y, h2, z, h0, w, h3, h4⟩ := hab
  have hcv : st.env n!"c" = some (.ptr ob 0 1) := by
    rw [hI.keep _ (by decide)]; simp only [crun, Nat.reduceEqDiff, reduceIte]
  have hav : st.env n!"a" = some (.ptr oa 0 1) := by
    rw [hI.keep _ (by decide)]; simp only [crun, Nat.reduceEqDiff, reduceIte]
  have hbv : st.env n!"b" = some (.ptr ob 0 1) := by
    rw [hI.keep _ (by decide)]; simp only [crun, Nat.reduceEqDiff, reduceIte]
  have hqv : st.env n!"q" = some (.int .i32 (some q)) := by
    rw [hI.keep _ (by decide)]; simp only [crun, Nat.reduceEqDiff, reduceIte]
  have hev : Ev P G (.bin .mul (.idx (.var n!"a") (.var n!"i")) (.idx (.var n!"b") (.var n!"i"))) st (.int .i32 z) :=
    Ev.bin32 (Ev.elem hav hi ((hI.other hoa).trans hma) h1) (Ev.elem hbv hi hI.arr h2) (binop_mul32 (ha _ _ h1) (hI.wf _ _ h2)) h0
  obtain ⟨h5, h6⟩ := hI.put hcv (Ev.var hi rfl) (Ev.rem hq hq32 hev (i32_rng h0) (Ev.var hqv rfl) h3) (crem_rng hq hq32 h3) h4
  exact ⟨_, Ex.seq h5 (Ex.skip _), h6, hi⟩

theorem mul_array_calls_shared {oc oa ob n : Nat} {t : Ty} {tq : Ty} {c c' a b : Array Int} {mem : Nat → Obj} {q : Int} (hq : 0 < q) (hq32 : I32 q) (hP : Has P Src.naive_ntt) (hn : n < 4294967296)
    (hoc : oc = oa ∨ oc = ob) (hab : oa ≠ ob) (sc : c.size = n) (sa : a.size = n) (hma : mem oa = ⟨.i32, a⟩) (ha : Wf a) (sb : b.size = n) (hmb : mem ob = ⟨.i32, b⟩)
    (hb : Wf b) (h : Naive.mul_array c n a b q = .ok c') :
    Calls P G n!"mul_array_naive" [.ptr oc 0 1, .int t n, .ptr oa 0 1, .ptr ob 0 1, .int tq q] mem (setMem mem oc ⟨.i32, c'⟩) ∧ Wf c' := by
  rcases hoc with rfl | rfl
  · exact mul_array_calls_inA hq hq32 hP hn sc sa hma ha hab.symm hmb hb h
  · exact mul_array_calls_inB hq hq32 hP hn sc sb hab hma ha hmb hb h

end NaiveTr

end

/-- The memory, before and after the call that computes `c`. -/
def memP (ph : Bool) (mem : Nat → Obj) (oc oa ob : Nat) (c a b : Array Int) : Nat → Obj :=
  if ph then prodMem mem oc oa ob c a b else setMem (setMem mem oa ⟨.i32, a⟩) ob ⟨.i32, b⟩

/-- Execution of `s` changes the arrays from `x` to `y`; before the product is computed, `c` is not used. -/
def RunP (P : Prog) (G : Name → Option Cell) (mem : Nat → Obj) (oc oa ob : Nat) (ph ph' : Bool) (s : Stmt) (x y : Array Int × Array Int × Array Int) : Prop :=
  Wf x.1 → Wf x.2.1 → Wf x.2.2 →
    Ex P G s ⟨prodEnv oc oa ob, memP ph mem oc oa ob x.1 x.2.1 x.2.2⟩ ⟨prodEnv oc oa ob, memP ph' mem oc oa ob y.1 y.2.1 y.2.2⟩ ∧
    Wf y.1 ∧ Wf y.2.1 ∧ Wf y.2.2

section
variable {P : Prog} {G : Name → Option Cell} {mem : Nat → Obj} {oc oa ob : Nat} {s s' : Stmt} {x y z : Array Int × Array Int × Array Int}
  {g : Name} {rest : Expr} {F : Array Int → M (Array Int)} {c a b a' : Array Int} {ph ph' ph'' : Bool}

theorem RunP.skip : RunP P G mem oc oa ob ph ph .skip x x := fun h1 h2 h3 => ⟨Ex.skip _, h1, h2, h3⟩

theorem RunP.seq (h : RunP P G mem oc oa ob ph ph' s x y) (h' : RunP P G mem oc oa ob ph' ph'' s' y z) : RunP P G mem oc oa ob ph ph'' (.seq s s') x z := by
  intro h1 h2 h3
  obtain ⟨e, h1, h2, h3⟩ := h h1 h2 h3
  obtain ⟨e', h1, h2, h3⟩ := h' h1 h2 h3
  exact ⟨Ex.seq e e', h1, h2, h3⟩

theorem memP_out (o : Nat) (h : o ∉ [oc, oa, ob]) : memP false mem oc oa ob c a b o = mem o := by
  simp only [List.mem_cons, List.not_mem_nil, or_false, not_or] at h
  show setMem (setMem mem oa ⟨.i32, a⟩) ob ⟨.i32, b⟩ o = _
  rw [setMem_ne h.2.2, setMem_ne h.2.1]

theorem memP_a (h : oa ≠ ob) : memP false mem oc oa ob c a b oa = ⟨.i32, a⟩ := by
  show setMem (setMem mem oa ⟨.i32, a⟩) ob ⟨.i32, b⟩ oa = _
  rw [setMem_ne h, setMem_self]

theorem memP_b : memP false mem oc oa ob c a b ob = ⟨.i32, b⟩ := setMem_self _ _ _

theorem RunP.opC (h : Op P G mem [oc, oa, ob] g rest F) (hF : F c = .ok a') :
    RunP P G mem oc oa ob true true (.expr (.call g (.cons (.var n!"c") rest))) (c, a, b) (a', a, b) := Run.opC h hF

theorem RunP.opB (h : Op P G mem [oc, oa, ob] g rest F) (hF : F b = .ok a') :
    RunP P G mem oc oa ob false false (.expr (.call g (.cons (.var n!"b") rest))) (c, a, b) (c, a, a') := by
  intro h1 h2 h3
  obtain ⟨⟨vs, e1, e2⟩, h4⟩ := h ⟨prodEnv oc oa ob, memP false mem oc oa ob c a b⟩ ob b a' prodEnv_locals (fun o ho => memP_out (c := c) o ho) (by simp)
    (memP_b (oc := oc) (c := c)) h3 hF
  rw [show setMem (memP false mem oc oa ob c a b) ob ⟨.i32, a'⟩ = memP false mem oc oa ob c a a' from setMem_setMem _ _ _ _] at e2
  exact ⟨Ex.call (EvA.cons (Ev.ptr (env_b oc oa ob)) e1) e2, h1, h2, h4⟩

theorem RunP.opA (hab : oa ≠ ob) (h : Op P G mem [oc, oa, ob] g rest F) (hF : F a = .ok a') :
    RunP P G mem oc oa ob false false (.expr (.call g (.cons (.var n!"a") rest))) (c, a, b) (c, a', b) := by
  intro h1 h2 h3
  obtain ⟨⟨vs, e1, e2⟩, h4⟩ := h ⟨prodEnv oc oa ob, memP false mem oc oa ob c a b⟩ oa a a' prodEnv_locals (fun o ho => memP_out (c := c) o ho) (by simp)
    (memP_a (oc := oc) (c := c) hab) h2 hF
  have hm : setMem (memP false mem oc oa ob c a b) oa ⟨.i32, a'⟩ = memP false mem oc oa ob c a' b := by
    show setMem (setMem (setMem mem oa ⟨.i32, a⟩) ob ⟨.i32, b⟩) oa ⟨.i32, a'⟩ = setMem (setMem mem oa ⟨.i32, a'⟩) ob ⟨.i32, b⟩
    rw [setMem_comm _ hab.symm, setMem_setMem]
  rw [hm] at e2
  exact ⟨Ex.call (EvA.cons (Ev.ptr (env_a oc oa ob)) e1) e2, h1, h4, h3⟩

/-- The call that computes `c` from `a` and `b`. -/
theorem RunP.mul {n : Nat} {tail : Expr} {vs : List Val} {c' : Array Int} (hn : n ≤ 2147483647) (hab : oa ≠ ob)
    (ht : ∀ st, EvA P G tail st vs)
    (h : ∀ mem : Nat → Obj, mem oa = ⟨.i32, a⟩ → Wf a → mem ob = ⟨.i32, b⟩ → Wf b →
      Calls P G g (.ptr oc 0 1 :: .int .i32 n :: .ptr oa 0 1 :: .ptr ob 0 1 :: vs) mem (setMem mem oc ⟨.i32, c'⟩) ∧ Wf c') :
    RunP P G mem oc oa ob false true (.expr (.call g (.cons (.var n!"c") (.cons (.num n) (.cons (.var n!"a") (.cons (.var n!"b") tail)))))) (c, a, b) (c', a, b) := by
  intro h1 h2 h3
  obtain ⟨e2, h4⟩ := h (memP false mem oc oa ob c a b) (memP_a (oc := oc) (c := c) hab) h2 (memP_b (oc := oc) (c := c)) h3
  exact ⟨Ex.call (EvA.cons (Ev.ptr (env_c oc oa ob)) (EvA.cons (Ev.num hn) (EvA.cons (Ev.ptr (env_a oc oa ob)) (EvA.cons (Ev.ptr (env_b oc oa ob)) (ht _))))) e2, h4, h2, h3⟩

/-- A product. -/
theorem Calls.prodP {pr : Name} {body : Stmt} (hl : P.lookup pr = some ⟨none, [(n!"c", .ptr 1), (n!"a", .ptr 1), (n!"b", .ptr 1)], body⟩)
    (ha : mem oa = ⟨.i32, x.2.1⟩) (hb : mem ob = ⟨.i32, x.2.2⟩)
    (wc : Wf x.1) (wa : Wf x.2.1) (wb : Wf x.2.2) (h : RunP P G mem oc oa ob false true body x y) :
    Calls P G pr [.ptr oc 0 1, .ptr oa 0 1, .ptr ob 0 1] mem (prodMem mem oc oa ob y.1 y.2.1 y.2.2) := by
  obtain ⟨e, _⟩ := h wc wa wb
  have hm : memP false mem oc oa ob x.1 x.2.1 x.2.2 = mem := by
    show setMem (setMem mem oa ⟨.i32, x.2.1⟩) ob ⟨.i32, x.2.2⟩ = mem
    rw [setMem_eq mem oa ha, setMem_eq mem ob hb]
  rw [hm] at e
  exact Calls.mk (st' := ⟨prodEnv oc oa ob, prodMem mem oc oa ob y.1 y.2.1 y.2.2⟩) hl (by simp only [bindParams, ok_bind, if_true]; rfl) e

end

namespace RedProd
open Tables

section
variable {P : Prog} {N : ConstNames} {W : Wraps} {n : Nat} {G : Name → Option Cell} {mem : Nat → Obj} {oc oa ob : Nat} {t : RedTables}
  {c a b c' a' b' : Array Int}

theorem run_shiftAP {sh : Bool} {s : Stmt} {y : Array Int × Array Int × Array Int} (h : Ctx P N W n) (hab : oa ≠ ob)
    (hF : NttRed.shiftInput n sh a = .ok a') (hs : RunP P G mem oc oa ob false true s (c, a', b) y) :
    RunP P G mem oc oa ob false true (shifted n sh n!"a" s) (c, a, b) y := by
  cases sh with
  | true => exact RunP.seq (RunP.opA hab (op_shift_array h) (by simpa [NttRed.shiftInput] using hF)) hs
  | false =>
    simp only [NttRed.shiftInput, Bool.false_eq_true, if_false, pure_ok] at hF
    subst hF
    exact hs

theorem run_shiftBP {sh : Bool} {s : Stmt} {y : Array Int × Array Int × Array Int} (h : Ctx P N W n)
    (hF : NttRed.shiftInput n sh b = .ok b') (hs : RunP P G mem oc oa ob false true s (c, a, b') y) :
    RunP P G mem oc oa ob false true (shifted n sh n!"b" s) (c, a, b) y := by
  cases sh with
  | true => exact RunP.seq (RunP.opB (op_shift_array h) (by simpa [NttRed.shiftInput] using hF)) hs
  | false =>
    simp only [NttRed.shiftInput, Bool.false_eq_true, if_false, pure_ok] at hF
    subst hF
    exact hs

theorem run1P {sh : Bool} (h : Ctx P N W n) (hab : oa ≠ ob) (hT : Globals N .i16 (redConsts t) G mem [oc, oa, ob])
    (hw : WfC (redConsts t)) (hF : NttRed.product1 t n sh c a b = .ok (c', a', b')) (hoc : oc = oa ∨ oc = ob) (sc : c.size = n) (sa : a'.size = n) (sb : b'.size = n) :
    RunP P G mem oc oa ob false true (body1 N W n sh) (c, a, b) (c', a', b') := by
  simp only [NttRed.product1, bind_ok, pure_ok, Prod.mk.injEq] at hF
  obtain ⟨_, h1, _, h2, _, h3, _, h4, _, h5, _, h6, _, h7, _, h8, _, h9, _, h10, _, h11, _, h12, _, h13, _, h14, rfl, rfl, rfl⟩ := hF
  exact run_shiftAP h hab h1 (
    RunP.seq (RunP.opA hab (op_mul_psi_powers h hT hw) h2) (
    RunP.seq (RunP.opA hab (op_fwd_ct_std2rev h hT hw) h3) (
    RunP.seq (RunP.opA hab (op_reduce_array h) h4) (
    run_shiftBP h h5 (
    RunP.seq (RunP.opB (op_mul_psi_powers h hT hw) h6) (
    RunP.seq (RunP.opB (op_fwd_ct_std2rev h hT hw) h7) (
    RunP.seq (RunP.opB (op_reduce_array h) h8) (
    RunP.seq (RunP.mul h.le hab (fun _ => EvA.nil _) fun _ m2 w2 m3 w3 => mul_reduce_array_calls_shared h.has h.lt hoc hab sc sa m2 w2 sb m3 w3 h9) (
    RunP.seq (RunP.opC (op_reduce_array_twice h) h10) (
    RunP.seq (RunP.opC (op_intt_ct_rev2std h hT hw) h11) (
    RunP.seq (RunP.opC (op_mul_scaled_inv_psi_powers h hT hw) h12) (
    RunP.seq (RunP.opC (op_reduce_array_twice h) h13) (
    RunP.seq (RunP.opC (op_correct h) h14) (
    RunP.skip))))))))))))))

theorem run2P {sh : Bool} (h : Ctx P N W n) (hab : oa ≠ ob) (hT : Globals N .i16 (redConsts t) G mem [oc, oa, ob])
    (hw : WfC (redConsts t)) (hF : NttRed.product2 t n sh c a b = .ok (c', a', b')) (hoc : oc = oa ∨ oc = ob) (sc : c.size = n) (sa : a'.size = n) (sb : b'.size = n) :
    RunP P G mem oc oa ob false true (body2 N W n sh) (c, a, b) (c', a', b') := by
  simp only [NttRed.product2, bind_ok, pure_ok, Prod.mk.injEq] at hF
  obtain ⟨_, h1, _, h2, _, h3, _, h4, _, h5, _, h6, _, h7, _, h8, _, h9, _, h10, _, h11, _, h12, _, h13, _, h14, rfl, rfl, rfl⟩ := hF
  exact run_shiftAP h hab h1 (
    RunP.seq (RunP.opA hab (op_mul_psi_powers h hT hw) h2) (
    RunP.seq (RunP.opA hab (op_fwd_gs_std2rev h hT hw) h3) (
    RunP.seq (RunP.opA hab (op_reduce_array h) h4) (
    run_shiftBP h h5 (
    RunP.seq (RunP.opB (op_mul_psi_powers h hT hw) h6) (
    RunP.seq (RunP.opB (op_fwd_gs_std2rev h hT hw) h7) (
    RunP.seq (RunP.opB (op_reduce_array h) h8) (
    RunP.seq (RunP.mul h.le hab (fun _ => EvA.nil _) fun _ m2 w2 m3 w3 => mul_reduce_array_calls_shared h.has h.lt hoc hab sc sa m2 w2 sb m3 w3 h9) (
    RunP.seq (RunP.opC (op_reduce_array_twice h) h10) (
    RunP.seq (RunP.opC (op_intt_ct_rev2std h hT hw) h11) (
    RunP.seq (RunP.opC (op_mul_scaled_inv_psi_powers h hT hw) h12) (
    RunP.seq (RunP.opC (op_reduce_array_twice h) h13) (
    RunP.seq (RunP.opC (op_correct h) h14) (
    RunP.skip))))))))))))))

theorem run3P {sh : Bool} (h : Ctx P N W n) (hab : oa ≠ ob) (hT : Globals N .i16 (redConsts t) G mem [oc, oa, ob])
    (hw : WfC (redConsts t)) (hF : NttRed.product3 t n sh c a b = .ok (c', a', b')) (hoc : oc = oa ∨ oc = ob) (sc : c.size = n) (sa : a'.size = n) (sb : b'.size = n) :
    RunP P G mem oc oa ob false true (body3 N W n sh) (c, a, b) (c', a', b') := by
  simp only [NttRed.product3, bind_ok, pure_ok, Prod.mk.injEq] at hF
  obtain ⟨_, h1, _, h2, _, h3, _, h4, _, h5, _, h6, _, h7, _, h8, _, h9, _, h10, _, h11, _, h12, _, h13, _, h14, rfl, rfl, rfl⟩ := hF
  exact run_shiftAP h hab h1 (
    RunP.seq (RunP.opA hab (op_mul_psi_powers h hT hw) h2) (
    RunP.seq (RunP.opA hab (op_fwd_ct_std2rev h hT hw) h3) (
    RunP.seq (RunP.opA hab (op_reduce_array h) h4) (
    run_shiftBP h h5 (
    RunP.seq (RunP.opB (op_mul_psi_powers h hT hw) h6) (
    RunP.seq (RunP.opB (op_fwd_ct_std2rev h hT hw) h7) (
    RunP.seq (RunP.opB (op_reduce_array h) h8) (
    RunP.seq (RunP.mul h.le hab (fun _ => EvA.nil _) fun _ m2 w2 m3 w3 => mul_reduce_array_calls_shared h.has h.lt hoc hab sc sa m2 w2 sb m3 w3 h9) (
    RunP.seq (RunP.opC (op_reduce_array_twice h) h10) (
    RunP.seq (RunP.opC (op_intt_gs_rev2std h hT hw) h11) (
    RunP.seq (RunP.opC (op_mul_scaled_inv_psi_powers h hT hw) h12) (
    RunP.seq (RunP.opC (op_reduce_array_twice h) h13) (
    RunP.seq (RunP.opC (op_correct h) h14) (
    RunP.skip))))))))))))))

theorem run4P {sh : Bool} (h : Ctx P N W n) (hab : oa ≠ ob) (hT : Globals N .i16 (redConsts t) G mem [oc, oa, ob])
    (hw : WfC (redConsts t)) (hF : NttRed.product4 t n sh c a b = .ok (c', a', b')) (hoc : oc = oa ∨ oc = ob) (sc : c.size = n) (sa : a'.size = n) (sb : b'.size = n) :
    RunP P G mem oc oa ob false true (body4 N W n sh) (c, a, b) (c', a', b') := by
  simp only [NttRed.product4, bind_ok, pure_ok, Prod.mk.injEq] at hF
  obtain ⟨_, h1, _, h2, _, h3, _, h4, _, h5, _, h6, _, h7, _, h8, _, h9, _, h10, _, h11, _, h12, _, h13, _, h14, rfl, rfl, rfl⟩ := hF
  exact run_shiftAP h hab h1 (
    RunP.seq (RunP.opA hab (op_mul_psi_powers h hT hw) h2) (
    RunP.seq (RunP.opA hab (op_fwd_gs_std2rev h hT hw) h3) (
    RunP.seq (RunP.opA hab (op_reduce_array h) h4) (
    run_shiftBP h h5 (
    RunP.seq (RunP.opB (op_mul_psi_powers h hT hw) h6) (
    RunP.seq (RunP.opB (op_fwd_gs_std2rev h hT hw) h7) (
    RunP.seq (RunP.opB (op_reduce_array h) h8) (
    RunP.seq (RunP.mul h.le hab (fun _ => EvA.nil _) fun _ m2 w2 m3 w3 => mul_reduce_array_calls_shared h.has h.lt hoc hab sc sa m2 w2 sb m3 w3 h9) (
    RunP.seq (RunP.opC (op_reduce_array_twice h) h10) (
    RunP.seq (RunP.opC (op_intt_gs_rev2std h hT hw) h11) (
    RunP.seq (RunP.opC (op_mul_scaled_inv_psi_powers h hT hw) h12) (
    RunP.seq (RunP.opC (op_reduce_array_twice h) h13) (
    RunP.seq (RunP.opC (op_correct h) h14) (
    RunP.skip))))))))))))))

theorem run5P {sh : Bool} (h : Ctx P N W n) (hab : oa ≠ ob) (hT : Globals N .i16 (redConsts t) G mem [oc, oa, ob])
    (hw : WfC (redConsts t)) (hF : NttRed.product5 t n sh c a b = .ok (c', a', b')) (hoc : oc = oa ∨ oc = ob) (sc : c.size = n) (sa : a'.size = n) (sb : b'.size = n) :
    RunP P G mem oc oa ob false true (body5 N W n sh) (c, a, b) (c', a', b') := by
  simp only [NttRed.product5, bind_ok, pure_ok, Prod.mk.injEq] at hF
  obtain ⟨_, h1, _, h2, _, h3, _, h4, _, h5, _, h6, _, h7, _, h8, _, h9, _, h10, _, h11, _, h12, rfl, rfl, rfl⟩ := hF
  exact run_shiftAP h hab h1 (
    RunP.seq (RunP.opA hab (op_fwdmul_ct_std2rev h hT hw) h2) (
    RunP.seq (RunP.opA hab (op_reduce_array h) h3) (
    run_shiftBP h h4 (
    RunP.seq (RunP.opB (op_fwdmul_ct_std2rev h hT hw) h5) (
    RunP.seq (RunP.opB (op_reduce_array h) h6) (
    RunP.seq (RunP.mul h.le hab (fun _ => EvA.nil _) fun _ m2 w2 m3 w3 => mul_reduce_array_calls_shared h.has h.lt hoc hab sc sa m2 w2 sb m3 w3 h7) (
    RunP.seq (RunP.opC (op_reduce_array_twice h) h8) (
    RunP.seq (RunP.opC (op_inttmul_gs_rev2std h hT hw) h9) (
    RunP.seq (RunP.opC (op_scalar h hT hw) h10) (
    RunP.seq (RunP.opC (op_reduce_array_twice h) h11) (
    RunP.seq (RunP.opC (op_correct h) h12) (
    RunP.skip))))))))))))

end

end RedProd

namespace NttProd
open Tables

section
variable {P : Prog} {N : ConstNames} {W : Wraps} {n : Nat} {G : Name → Option Cell} {mem : Nat → Obj} {oc oa ob : Nat} {t : Nttables}
  {c a b c' a' b' : Array Int}

theorem run1P (h : Ctx P N W n) (hab : oa ≠ ob) (hT : Globals N .u16 (nttConsts t) G mem [oc, oa, ob])
    (hw : WfC (nttConsts t)) (hF : Ntt.product1 t n c a b = .ok (c', a', b')) (hoc : oc = oa ∨ oc = ob) (sc : c.size = n) (sa : a'.size = n) (sb : b'.size = n) :
    RunP P G mem oc oa ob false true (body1 N W n) (c, a, b) (c', a', b') := by
  simp only [Ntt.product1, bind_ok, pure_ok, Prod.mk.injEq] at hF
  obtain ⟨_, h1, _, h2, _, h3, _, h4, _, h5, _, h6, _, h7, rfl, rfl, rfl⟩ := hF
  exact RunP.seq (RunP.opA hab (op_mul_psi_powers h hT hw) h1) (
    RunP.seq (RunP.opA hab (op_fwd_ct_std2rev h hT hw) h2) (
    RunP.seq (RunP.opB (op_mul_psi_powers h hT hw) h3) (
    RunP.seq (RunP.opB (op_fwd_ct_std2rev h hT hw) h4) (
    RunP.seq (RunP.mul h.le hab (fun _ => EvA.nil _) fun _ m2 w2 m3 w3 => NttTr.mul_array_calls_shared h.has h.lt hoc hab sc sa m2 w2 sb m3 w3 h5) (
    RunP.seq (RunP.opC (op_intt_ct_rev2std h hT hw) h6) (
    RunP.seq (RunP.opC (op_mul_scaled_inv_psi_powers h hT hw) h7) (
    RunP.skip)))))))

theorem run2P (h : Ctx P N W n) (hab : oa ≠ ob) (hT : Globals N .u16 (nttConsts t) G mem [oc, oa, ob])
    (hw : WfC (nttConsts t)) (hF : Ntt.product2 t n c a b = .ok (c', a', b')) (hoc : oc = oa ∨ oc = ob) (sc : c.size = n) (sa : a'.size = n) (sb : b'.size = n) :
    RunP P G mem oc oa ob false true (body2 N W n) (c, a, b) (c', a', b') := by
  simp only [Ntt.product2, bind_ok, pure_ok, Prod.mk.injEq] at hF
  obtain ⟨_, h1, _, h2, _, h3, _, h4, _, h5, _, h6, _, h7, rfl, rfl, rfl⟩ := hF
  exact RunP.seq (RunP.opA hab (op_mul_psi_powers h hT hw) h1) (
    RunP.seq (RunP.opA hab (op_fwd_gs_std2rev h hT hw) h2) (
    RunP.seq (RunP.opB (op_mul_psi_powers h hT hw) h3) (
    RunP.seq (RunP.opB (op_fwd_gs_std2rev h hT hw) h4) (
    RunP.seq (RunP.mul h.le hab (fun _ => EvA.nil _) fun _ m2 w2 m3 w3 => NttTr.mul_array_calls_shared h.has h.lt hoc hab sc sa m2 w2 sb m3 w3 h5) (
    RunP.seq (RunP.opC (op_intt_ct_rev2std h hT hw) h6) (
    RunP.seq (RunP.opC (op_mul_scaled_inv_psi_powers h hT hw) h7) (
    RunP.skip)))))))

theorem run3P (h : Ctx P N W n) (hab : oa ≠ ob) (hT : Globals N .u16 (nttConsts t) G mem [oc, oa, ob])
    (hw : WfC (nttConsts t)) (hF : Ntt.product3 t n c a b = .ok (c', a', b')) (hoc : oc = oa ∨ oc = ob) (sc : c.size = n) (sa : a'.size = n) (sb : b'.size = n) :
    RunP P G mem oc oa ob false true (body3 N W n) (c, a, b) (c', a', b') := by
  simp only [Ntt.product3, bind_ok, pure_ok, Prod.mk.injEq] at hF
  obtain ⟨_, h1, _, h2, _, h3, _, h4, _, h5, _, h6, _, h7, rfl, rfl, rfl⟩ := hF
  exact RunP.seq (RunP.opA hab (op_mul_psi_powers h hT hw) h1) (
    RunP.seq (RunP.opA hab (op_fwd_ct_std2rev h hT hw) h2) (
    RunP.seq (RunP.opB (op_mul_psi_powers h hT hw) h3) (
    RunP.seq (RunP.opB (op_fwd_ct_std2rev h hT hw) h4) (
    RunP.seq (RunP.mul h.le hab (fun _ => EvA.nil _) fun _ m2 w2 m3 w3 => NttTr.mul_array_calls_shared h.has h.lt hoc hab sc sa m2 w2 sb m3 w3 h5) (
    RunP.seq (RunP.opC (op_intt_gs_rev2std h hT hw) h6) (
    RunP.seq (RunP.opC (op_mul_scaled_inv_psi_powers h hT hw) h7) (
    RunP.skip)))))))

theorem run4P (h : Ctx P N W n) (hab : oa ≠ ob) (hT : Globals N .u16 (nttConsts t) G mem [oc, oa, ob])
    (hw : WfC (nttConsts t)) (hF : Ntt.product4 t n c a b = .ok (c', a', b')) (hoc : oc = oa ∨ oc = ob) (sc : c.size = n) (sa : a'.size = n) (sb : b'.size = n) :
    RunP P G mem oc oa ob false true (body4 N W n) (c, a, b) (c', a', b') := by
  simp only [Ntt.product4, bind_ok, pure_ok, Prod.mk.injEq] at hF
  obtain ⟨_, h1, _, h2, _, h3, _, h4, _, h5, _, h6, _, h7, rfl, rfl, rfl⟩ := hF
  exact RunP.seq (RunP.opA hab (op_mul_psi_powers h hT hw) h1) (
    RunP.seq (RunP.opA hab (op_fwd_gs_std2rev h hT hw) h2) (
    RunP.seq (RunP.opB (op_mul_psi_powers h hT hw) h3) (
    RunP.seq (RunP.opB (op_fwd_gs_std2rev h hT hw) h4) (
    RunP.seq (RunP.mul h.le hab (fun _ => EvA.nil _) fun _ m2 w2 m3 w3 => NttTr.mul_array_calls_shared h.has h.lt hoc hab sc sa m2 w2 sb m3 w3 h5) (
    RunP.seq (RunP.opC (op_intt_gs_rev2std h hT hw) h6) (
    RunP.seq (RunP.opC (op_mul_scaled_inv_psi_powers h hT hw) h7) (
    RunP.skip)))))))

theorem run5P (h : Ctx P N W n) (hab : oa ≠ ob) (hT : Globals N .u16 (nttConsts t) G mem [oc, oa, ob])
    (hw : WfC (nttConsts t)) (hF : Ntt.product5 t n c a b = .ok (c', a', b')) (hoc : oc = oa ∨ oc = ob) (sc : c.size = n) (sa : a'.size = n) (sb : b'.size = n) :
    RunP P G mem oc oa ob false true (body5 N W n) (c, a, b) (c', a', b') := by
  simp only [Ntt.product5, bind_ok, pure_ok, Prod.mk.injEq] at hF
  obtain ⟨_, h1, _, h2, _, h3, _, h4, _, h5, rfl, rfl, rfl⟩ := hF
  exact RunP.seq (RunP.opA hab (op_fwdmul_ct_std2rev h hT hw) h1) (
    RunP.seq (RunP.opB (op_fwdmul_ct_std2rev h hT hw) h2) (
    RunP.seq (RunP.mul h.le hab (fun _ => EvA.nil _) fun _ m2 w2 m3 w3 => NttTr.mul_array_calls_shared h.has h.lt hoc hab sc sa m2 w2 sb m3 w3 h3) (
    RunP.seq (RunP.opC (op_inttmul_gs_rev2std h hT hw) h4) (
    RunP.seq (RunP.opC (op_scalar h hT hw) h5) (
    RunP.skip)))))

end

end NttProd

namespace NaiveProd
open Tables

section
variable {P : Prog} {N : ConstNames} {W : Wraps} {n : Nat} {G : Name → Option Cell} {mem : Nat → Obj} {oc oa ob : Nat} {t : Nttables}
  {c a b c' a' b' : Array Int}

theorem run1P (h : Ctx P N W n) (hab : oa ≠ ob) (hT : Globals N .u16 (nttConsts t) G mem [oc, oa, ob])
    (hw : WfC (nttConsts t)) (hF : Naive.product1 t n c a b = .ok (c', a', b')) (hoc : oc = oa ∨ oc = ob) (sc : c.size = n) (sa : a'.size = n) (sb : b'.size = n) :
    RunP P G mem oc oa ob false true (body1 N W n) (c, a, b) (c', a', b') := by
  simp only [Naive.product1, bind_ok, pure_ok, Prod.mk.injEq] at hF
  obtain ⟨_, h1, _, h2, _, h3, _, h4, _, h5, _, h6, _, h7, rfl, rfl, rfl⟩ := hF
  exact RunP.seq (RunP.opA hab (op_mul_psi_powers h hT hw) h1) (
    RunP.seq (RunP.opA hab (op_fwd_ct_std2rev h hT hw) h2) (
    RunP.seq (RunP.opB (op_mul_psi_powers h hT hw) h3) (
    RunP.seq (RunP.opB (op_fwd_ct_std2rev h hT hw) h4) (
    RunP.seq (RunP.mul h.le hab (fun _ => EvA.one (Ev.num (by decide))) fun _ m2 w2 m3 w3 => NaiveTr.mul_array_calls_shared (by decide) (by decide) h.has h.lt hoc hab sc sa m2 w2 sb m3 w3 h5) (
    RunP.seq (RunP.opC (op_intt_ct_rev2std h hT hw) h6) (
    RunP.seq (RunP.opC (op_mul_scaled_inv_psi_powers h hT hw) h7) (
    RunP.skip)))))))

theorem run2P (h : Ctx P N W n) (hab : oa ≠ ob) (hT : Globals N .u16 (nttConsts t) G mem [oc, oa, ob])
    (hw : WfC (nttConsts t)) (hF : Naive.product2 t n c a b = .ok (c', a', b')) (hoc : oc = oa ∨ oc = ob) (sc : c.size = n) (sa : a'.size = n) (sb : b'.size = n) :
    RunP P G mem oc oa ob false true (body2 N W n) (c, a, b) (c', a', b') := by
  simp only [Naive.product2, bind_ok, pure_ok, Prod.mk.injEq] at hF
  obtain ⟨_, h1, _, h2, _, h3, _, h4, _, h5, _, h6, _, h7, rfl, rfl, rfl⟩ := hF
  exact RunP.seq (RunP.opA hab (op_mul_psi_powers h hT hw) h1) (
    RunP.seq (RunP.opA hab (op_fwd_gs_std2rev h hT hw) h2) (
    RunP.seq (RunP.opB (op_mul_psi_powers h hT hw) h3) (
    RunP.seq (RunP.opB (op_fwd_gs_std2rev h hT hw) h4) (
    RunP.seq (RunP.mul h.le hab (fun _ => EvA.one (Ev.num (by decide))) fun _ m2 w2 m3 w3 => NaiveTr.mul_array_calls_shared (by decide) (by decide) h.has h.lt hoc hab sc sa m2 w2 sb m3 w3 h5) (
    RunP.seq (RunP.opC (op_intt_ct_rev2std h hT hw) h6) (
    RunP.seq (RunP.opC (op_mul_scaled_inv_psi_powers h hT hw) h7) (
    RunP.skip)))))))

theorem run3P (h : Ctx P N W n) (hab : oa ≠ ob) (hT : Globals N .u16 (nttConsts t) G mem [oc, oa, ob])
    (hw : WfC (nttConsts t)) (hF : Naive.product3 t n c a b = .ok (c', a', b')) (hoc : oc = oa ∨ oc = ob) (sc : c.size = n) (sa : a'.size = n) (sb : b'.size = n) :
    RunP P G mem oc oa ob false true (body3 N W n) (c, a, b) (c', a', b') := by
  simp only [Naive.product3, bind_ok, pure_ok, Prod.mk.injEq] at hF
  obtain ⟨_, h1, _, h2, _, h3, _, h4, _, h5, _, h6, _, h7, rfl, rfl, rfl⟩ := hF
  exact RunP.seq (RunP.opA hab (op_mul_psi_powers h hT hw) h1) (
    RunP.seq (RunP.opA hab (op_fwd_ct_std2rev h hT hw) h2) (
    RunP.seq (RunP.opB (op_mul_psi_powers h hT hw) h3) (
    RunP.seq (RunP.opB (op_fwd_ct_std2rev h hT hw) h4) (
    RunP.seq (RunP.mul h.le hab (fun _ => EvA.one (Ev.num (by decide))) fun _ m2 w2 m3 w3 => NaiveTr.mul_array_calls_shared (by decide) (by decide) h.has h.lt hoc hab sc sa m2 w2 sb m3 w3 h5) (
    RunP.seq (RunP.opC (op_intt_gs_rev2std h hT hw) h6) (
    RunP.seq (RunP.opC (op_mul_scaled_inv_psi_powers h hT hw) h7) (
    RunP.skip)))))))

theorem run4P (h : Ctx P N W n) (hab : oa ≠ ob) (hT : Globals N .u16 (nttConsts t) G mem [oc, oa, ob])
    (hw : WfC (nttConsts t)) (hF : Naive.product4 t n c a b = .ok (c', a', b')) (hoc : oc = oa ∨ oc = ob) (sc : c.size = n) (sa : a'.size = n) (sb : b'.size = n) :
    RunP P G mem oc oa ob false true (body4 N W n) (c, a, b) (c', a', b') := by
  simp only [Naive.product4, bind_ok, pure_ok, Prod.mk.injEq] at hF
  obtain ⟨_, h1, _, h2, _, h3, _, h4, _, h5, _, h6, _, h7, rfl, rfl, rfl⟩ := hF
  exact RunP.seq (RunP.opA hab (op_mul_psi_powers h hT hw) h1) (
    RunP.seq (RunP.opA hab (op_fwd_gs_std2rev h hT hw) h2) (
    RunP.seq (RunP.opB (op_mul_psi_powers h hT hw) h3) (
    RunP.seq (RunP.opB (op_fwd_gs_std2rev h hT hw) h4) (
    RunP.seq (RunP.mul h.le hab (fun _ => EvA.one (Ev.num (by decide))) fun _ m2 w2 m3 w3 => NaiveTr.mul_array_calls_shared (by decide) (by decide) h.has h.lt hoc hab sc sa m2 w2 sb m3 w3 h5) (
    RunP.seq (RunP.opC (op_intt_gs_rev2std h hT hw) h6) (
    RunP.seq (RunP.opC (op_mul_scaled_inv_psi_powers h hT hw) h7) (
    RunP.skip)))))))

theorem run5P (h : Ctx P N W n) (hab : oa ≠ ob) (hT : Globals N .u16 (nttConsts t) G mem [oc, oa, ob])
    (hw : WfC (nttConsts t)) (hF : Naive.product5 t n c a b = .ok (c', a', b')) (hoc : oc = oa ∨ oc = ob) (sc : c.size = n) (sa : a'.size = n) (sb : b'.size = n) :
    RunP P G mem oc oa ob false true (body5 N W n) (c, a, b) (c', a', b') := by
  simp only [Naive.product5, bind_ok, pure_ok, Prod.mk.injEq] at hF
  obtain ⟨_, h1, _, h2, _, h3, _, h4, _, h5, rfl, rfl, rfl⟩ := hF
  exact RunP.seq (RunP.opA hab (op_fwdmul_ct_std2rev h hT hw) h1) (
    RunP.seq (RunP.opB (op_fwdmul_ct_std2rev h hT hw) h2) (
    RunP.seq (RunP.mul h.le hab (fun _ => EvA.one (Ev.num (by decide))) fun _ m2 w2 m3 w3 => NaiveTr.mul_array_calls_shared (by decide) (by decide) h.has h.lt hoc hab sc sa m2 w2 sb m3 w3 h3) (
    RunP.seq (RunP.opC (op_inttmul_gs_rev2std h hT hw) h4) (
    RunP.seq (RunP.opC (op_scalar h hT hw) h5) (
    RunP.skip)))))

end

end NaiveProd

open Spec Tables NTT

theorem RedProd.multipliesInPlace {k : Nat} {xn xpsi : Int} (h : GoodParams k xn xpsi) {buf : Nat → Array Nat} (hbuf : ∀ n, (buf n).size = n) {t : RedTables}
    (ht : make_red_tables buf xn xpsi = .ok t) {P : Prog} {N : ConstNames} {W : RedProd.Wraps} (sh : Bool) {n : Nat} (hn : n = 2 ^ k) (hc : RedProd.Ctx P N W n)
    {g1 g2 g3 g4 g5 : Name} (h1 : P.lookup g1 = some ⟨none, RedProd.sig, RedProd.body1 N W n sh⟩)
    (h2 : P.lookup g2 = some ⟨none, RedProd.sig, RedProd.body2 N W n sh⟩)
    (h3 : P.lookup g3 = some ⟨none, RedProd.sig, RedProd.body3 N W n sh⟩)
    (h4 : P.lookup g4 = some ⟨none, RedProd.sig, RedProd.body4 N W n sh⟩)
    (h5 : P.lookup g5 = some ⟨none, RedProd.sig, RedProd.body5 N W n sh⟩)
    : ∀ g ∈ [g1, g2, g3, g4, g5], MultipliesInPlace k P N .i16 (redConsts t) 0 12288 g := by
  subst hn
  have hw := RedProd.wfC h hbuf ht
  intro g hg G mem oc oa ob a b hoc hab hT ma mb sa sb ra rb
  have wa := Wf.of_range ra (by decide) (by decide)
  have wb := Wf.of_range rb (by decide) (by decide)
  have key : ∀ (F : Array Int → Array Int → Array Int → M (Array Int × Array Int × Array Int)) (g : Name) (body : Stmt),
      F ∈ [NttRed.product1 t (2 ^ k) sh, NttRed.product2 t (2 ^ k) sh, NttRed.product3 t (2 ^ k) sh, NttRed.product4 t (2 ^ k) sh, NttRed.product5 t (2 ^ k) sh] → P.lookup g = some ⟨none, RedProd.sig, body⟩ →
      (∀ c' a' b', F a a b = .ok (c', a', b') → a'.size = 2 ^ k → b'.size = 2 ^ k → RunP P G mem oc oa ob false true body (a, a, b) (c', a', b')) →
      ∃ mem' c', Calls P G g [.ptr oc 0 1, .ptr oa 0 1, .ptr ob 0 1] mem mem' ∧ mem' oc = ⟨.i32, c'⟩ ∧ c'.size = 2 ^ k ∧ InRange 0 12288 c' ∧
        (∀ i, i < 2 ^ k → coeff c' i = negacyclic (2 ^ k) (coeff a) (coeff b) i) ∧ ∀ o, o ∉ [oc, oa, ob] → mem' o = mem o := by
    intro F g body hF hl hR
    obtain ⟨c', a', b', e, s, s2, s3, r, v⟩ := Props.C21_products h hbuf ht sh a a b sa sa sb ra rb F hF
    exact ⟨_, c', Calls.prodP (x := (a, a, b)) hl ma mb wa wa wb (hR c' a' b' e s2 s3), prodMem_c, s, r, v, fun o ho => prodMem_out o ho⟩
  simp only [List.mem_cons, List.not_mem_nil, or_false] at hg
  rcases hg with rfl | rfl | rfl | rfl | rfl
  · exact key _ _ _ (by simp) h1 fun c' a' b' e s2 s3 => RedProd.run1P hc hab hT hw e hoc sa s2 s3
  · exact key _ _ _ (by simp) h2 fun c' a' b' e s2 s3 => RedProd.run2P hc hab hT hw e hoc sa s2 s3
  · exact key _ _ _ (by simp) h3 fun c' a' b' e s2 s3 => RedProd.run3P hc hab hT hw e hoc sa s2 s3
  · exact key _ _ _ (by simp) h4 fun c' a' b' e s2 s3 => RedProd.run4P hc hab hT hw e hoc sa s2 s3
  · exact key _ _ _ (by simp) h5 fun c' a' b' e s2 s3 => RedProd.run5P hc hab hT hw e hoc sa s2 s3

theorem NttProd.multipliesInPlace {k : Nat} {xn xpsi : Int} (h : GoodParams k xn xpsi) {buf : Nat → Array Nat} (hbuf : ∀ n, (buf n).size = n) {t : Nttables}
    (ht : make_tables buf xn xpsi = .ok t) {P : Prog} {N : ConstNames} {W : NttProd.Wraps} {n : Nat} (hn : n = 2 ^ k) (hc : NttProd.Ctx P N W n)
    {g1 g2 g3 g4 g5 : Name} (h1 : P.lookup g1 = some ⟨none, NttProd.sig, NttProd.body1 N W n⟩)
    (h2 : P.lookup g2 = some ⟨none, NttProd.sig, NttProd.body2 N W n⟩)
    (h3 : P.lookup g3 = some ⟨none, NttProd.sig, NttProd.body3 N W n⟩)
    (h4 : P.lookup g4 = some ⟨none, NttProd.sig, NttProd.body4 N W n⟩)
    (h5 : P.lookup g5 = some ⟨none, NttProd.sig, NttProd.body5 N W n⟩)
    : ∀ g ∈ [g1, g2, g3, g4, g5], MultipliesInPlace k P N .u16 (nttConsts t) 0 12288 g := by
  subst hn
  have hw := NttProd.wfC h hbuf ht
  intro g hg G mem oc oa ob a b hoc hab hT ma mb sa sb ra rb
  have wa := Wf.of_range ra (by decide) (by decide)
  have wb := Wf.of_range rb (by decide) (by decide)
  have key : ∀ (F : Array Int → Array Int → Array Int → M (Array Int × Array Int × Array Int)) (g : Name) (body : Stmt),
      F ∈ [Ntt.product1 t (2 ^ k), Ntt.product2 t (2 ^ k), Ntt.product3 t (2 ^ k), Ntt.product4 t (2 ^ k), Ntt.product5 t (2 ^ k)] → P.lookup g = some ⟨none, NttProd.sig, body⟩ →
      (∀ c' a' b', F a a b = .ok (c', a', b') → a'.size = 2 ^ k → b'.size = 2 ^ k → RunP P G mem oc oa ob false true body (a, a, b) (c', a', b')) →
      ∃ mem' c', Calls P G g [.ptr oc 0 1, .ptr oa 0 1, .ptr ob 0 1] mem mem' ∧ mem' oc = ⟨.i32, c'⟩ ∧ c'.size = 2 ^ k ∧ InRange 0 12288 c' ∧
        (∀ i, i < 2 ^ k → coeff c' i = negacyclic (2 ^ k) (coeff a) (coeff b) i) ∧ ∀ o, o ∉ [oc, oa, ob] → mem' o = mem o := by
    intro F g body hF hl hR
    obtain ⟨c', a', b', e, s, s2, s3, r, v⟩ := Props.C11_products h hbuf ht a a b sa sa sb ra rb F hF
    exact ⟨_, c', Calls.prodP (x := (a, a, b)) hl ma mb wa wa wb (hR c' a' b' e s2 s3), prodMem_c, s, r, v, fun o ho => prodMem_out o ho⟩
  simp only [List.mem_cons, List.not_mem_nil, or_false] at hg
  rcases hg with rfl | rfl | rfl | rfl | rfl
  · exact key _ _ _ (by simp) h1 fun c' a' b' e s2 s3 => NttProd.run1P hc hab hT hw e hoc sa s2 s3
  · exact key _ _ _ (by simp) h2 fun c' a' b' e s2 s3 => NttProd.run2P hc hab hT hw e hoc sa s2 s3
  · exact key _ _ _ (by simp) h3 fun c' a' b' e s2 s3 => NttProd.run3P hc hab hT hw e hoc sa s2 s3
  · exact key _ _ _ (by simp) h4 fun c' a' b' e s2 s3 => NttProd.run4P hc hab hT hw e hoc sa s2 s3
  · exact key _ _ _ (by simp) h5 fun c' a' b' e s2 s3 => NttProd.run5P hc hab hT hw e hoc sa s2 s3

theorem NaiveProd.multipliesInPlace {k : Nat} {xn xpsi : Int} (h : GoodParams k xn xpsi) {buf : Nat → Array Nat} (hbuf : ∀ n, (buf n).size = n) {t : Nttables}
    (ht : make_tables buf xn xpsi = .ok t) {P : Prog} {N : ConstNames} {W : NaiveProd.Wraps} {n : Nat} (hn : n = 2 ^ k) (hc : NaiveProd.Ctx P N W n)
    {g1 g2 g3 g4 g5 : Name} (h1 : P.lookup g1 = some ⟨none, NaiveProd.sig, NaiveProd.body1 N W n⟩)
    (h2 : P.lookup g2 = some ⟨none, NaiveProd.sig, NaiveProd.body2 N W n⟩)
    (h3 : P.lookup g3 = some ⟨none, NaiveProd.sig, NaiveProd.body3 N W n⟩)
    (h4 : P.lookup g4 = some ⟨none, NaiveProd.sig, NaiveProd.body4 N W n⟩)
    (h5 : P.lookup g5 = some ⟨none, NaiveProd.sig, NaiveProd.body5 N W n⟩)
    : ∀ g ∈ [g1, g2, g3, g4, g5], MultipliesInPlace k P N .u16 (nttConsts t) (-12288) 12288 g := by
  subst hn
  have hw := NaiveProd.wfC h hbuf ht
  intro g hg G mem oc oa ob a b hoc hab hT ma mb sa sb ra rb
  have wa := Wf.of_range ra (by decide) (by decide)
  have wb := Wf.of_range rb (by decide) (by decide)
  have key : ∀ (F : Array Int → Array Int → Array Int → M (Array Int × Array Int × Array Int)) (g : Name) (body : Stmt),
      F ∈ [Naive.product1 t (2 ^ k), Naive.product2 t (2 ^ k), Naive.product3 t (2 ^ k), Naive.product4 t (2 ^ k), Naive.product5 t (2 ^ k)] → P.lookup g = some ⟨none, NaiveProd.sig, body⟩ →
      (∀ c' a' b', F a a b = .ok (c', a', b') → a'.size = 2 ^ k → b'.size = 2 ^ k → RunP P G mem oc oa ob false true body (a, a, b) (c', a', b')) →
      ∃ mem' c', Calls P G g [.ptr oc 0 1, .ptr oa 0 1, .ptr ob 0 1] mem mem' ∧ mem' oc = ⟨.i32, c'⟩ ∧ c'.size = 2 ^ k ∧ InRange (-12288) 12288 c' ∧
        (∀ i, i < 2 ^ k → coeff c' i = negacyclic (2 ^ k) (coeff a) (coeff b) i) ∧ ∀ o, o ∉ [oc, oa, ob] → mem' o = mem o := by
    intro F g body hF hl hR
    obtain ⟨c', a', b', e, s, s2, s3, r, v⟩ := Props.C23_products h hbuf ht a a b sa sa sb ra rb F hF
    exact ⟨_, c', Calls.prodP (x := (a, a, b)) hl ma mb wa wa wb (hR c' a' b' e s2 s3), prodMem_c, s, r, v, fun o ho => prodMem_out o ho⟩
  simp only [List.mem_cons, List.not_mem_nil, or_false] at hg
  rcases hg with rfl | rfl | rfl | rfl | rfl
  · exact key _ _ _ (by simp) h1 fun c' a' b' e s2 s3 => NaiveProd.run1P hc hab hT hw e hoc sa s2 s3
  · exact key _ _ _ (by simp) h2 fun c' a' b' e s2 s3 => NaiveProd.run2P hc hab hT hw e hoc sa s2 s3
  · exact key _ _ _ (by simp) h3 fun c' a' b' e s2 s3 => NaiveProd.run3P hc hab hT hw e hoc sa s2 s3
  · exact key _ _ _ (by simp) h4 fun c' a' b' e s2 s3 => NaiveProd.run4P hc hab hT hw e hoc sa s2 s3
  · exact key _ _ _ (by simp) h5 fun c' a' b' e s2 s3 => NaiveProd.run5P hc hab hT hw e hoc sa s2 s3

end CLang
