import Verif.Proofs.CRunNtt
import Verif.Proofs.CRunNaive

/-
The bit-reversal functions of src/ntt.c and src/naive_ntt.c: `bitrev_shuffle` and `shuffle_with_table`.
-/

namespace CLang
open C NTT

variable {P : Prog} {G : Name → Option Cell}

/-! ### Statements -/

theorem Ex.ite {c : Expr} {a b : Stmt} {st st' : State} {v : Bool} (hc : Ev P G c st (truth v)) (h : Ex P G (if v then a else b) st st') :
    Ex P G (.ite c a b) st st' := by
  obtain ⟨N, hN⟩ := hc
  obtain ⟨N', hN'⟩ := h
  refine ⟨max N N' + 1, fun f hf => ?_⟩
  obtain ⟨g, rfl⟩ := Nat.exists_eq_add_of_le' (show 1 ≤ f by omega)
  have h1 := hN g (by omega)
  have h2 := hN' g (by omega)
  simp only [exec_ite, h1, ok_bind, test_truth]
  cases v <;> simpa using h2

theorem Ex.doWhile_false {c : Expr} {s : Stmt} {st st₁ : State} (hs : Ex P G s st st₁) (hc : Ev P G c st₁ (truth false)) :
    Ex P G (.doWhile s c) st st₁ := by
  obtain ⟨N, hN⟩ := hs
  obtain ⟨N', hN'⟩ := hc
  refine ⟨max N N' + 1, fun f hf => ?_⟩
  obtain ⟨g, rfl⟩ := Nat.exists_eq_add_of_le' (show 1 ≤ f by omega)
  rw [exec]
  simp only [hN g (by omega), ok_bind, hN' g (by omega), test_truth]
  rfl

theorem Ex.doWhile_true {c : Expr} {s : Stmt} {st st₁ st₂ : State} (hs : Ex P G s st st₁) (hc : Ev P G c st₁ (truth true))
    (h : Ex P G (.doWhile s c) st₁ st₂) : Ex P G (.doWhile s c) st st₂ := by
  obtain ⟨N, hN⟩ := hs
  obtain ⟨N', hN'⟩ := hc
  obtain ⟨N'', hN''⟩ := h
  refine ⟨max (max N N') N'' + 1, fun f hf => ?_⟩
  obtain ⟨g, rfl⟩ := Nat.exists_eq_add_of_le' (show 1 ≤ f by omega)
  rw [exec]
  simp only [hN g (by omega), ok_bind, hN' g (by omega), test_truth, hN'' g (by omega), if_true]

/-! ### Operations -/

theorem binop_xorU {x y : Nat} (hx : x < 4294967296) (hy : y < 4294967296) :
    binop .xor (.int .u32 (x : Int)) (.int .u32 (y : Int)) = .ok (.int .u32 (x ^^^ y : Nat)) := by
  simp only [binop, common, promote, conv_u32_nat, u32_of hx, u32_of hy, arith_xorU hx hy]
theorem binop_andU {x y : Nat} (hx : x < 4294967296) (hy : y < 4294967296) :
    binop .and (.int .u32 (x : Int)) (.int .u32 (y : Int)) = .ok (.int .u32 (x &&& y : Nat)) := by
  simp only [binop, common, promote, conv_u32_nat, u32_of hx, u32_of hy, arith_andU hx hy]
theorem binop_eq0U {x : Nat} (hx : x < 4294967296) :
    binop .eq (.int .u32 (x : Int)) (.int .i32 0) = .ok (truth (decide (x = 0))) := by
  have h := conv_u32_nat 0
  rw [Nat.cast_zero] at h
  simp only [binop, common, promote, conv_u32_nat, u32_of hx, arith_eq, h, u32_of (show 0 < 4294967296 by decide), Nat.cast_inj]
theorem binop_decU {x : Nat} (hx : x < 4294967296) (h0 : 0 < x) :
    binop .sub (.int .u32 (x : Int)) (.int .i32 1) = .ok (.int .u32 (x - 1 : Nat)) := by
  have h := conv_u32_nat 1
  rw [Nat.cast_one] at h
  have h' := arith_subU (x := x) (y := 1) h0
  rw [Nat.cast_one] at h'
  simp only [binop, common, promote, conv_u32_nat, u32_of hx, h, u32_of (show 1 < 4294967296 by decide), Nat.cast_one, h',
    u32_of (show x - 1 < 4294967296 by omega)]

/-! ### Exchange of two elements -/

section
local notation "va" => (Expr.var n!"a")
local notation "vn" => (Expr.var n!"n")
local notation "vi" => (Expr.var n!"i")
local notation "vj" => (Expr.var n!"j")
local notation "vk" => (Expr.var n!"k")

abbrev DS : List (Name × Ty) := [(n!"i", .u32), (n!"j", .u32), (n!"k", .u32), (n!"x", .i32)]

/-- `x = a[i]; a[i] = a[j]; a[j] = x;` -/
abbrev swapS (i j : Name) : Stmt := .seq (.assign n!"x" (.idx va (.var i))) (.seq (.store va (.var i) (.idx va (.var j)))
  (.seq (.store va (.var j) (.var n!"x")) .skip))

theorem swap_sim {o : Nat} {st₀ st : State} {a a' : Array Int} {iv jv : Name} {i j : Nat} (hI : Inv DS st₀ o a st)
    (ha : st.env n!"a" = some (.ptr o 0 1)) (hi : st.env iv = cu i) (hj : st.env jv = cu j) (hix : iv ≠ n!"x") (hjx : jv ≠ n!"x")
    (h : Ntt.swap a i j = .ok a') :
    ∃ st', Ex P G (swapS iv jv) st st' ∧ Inv DS st₀ o a' st' ∧ ∀ y, y ≠ n!"x" → st'.env y = st.env y := by
  unfold Ntt.swap at h
  simp only [bind_ok] at h
  obtain ⟨x, hx, y, hy, a₁, h1, h2⟩ := h
  have e1 := hI.set (P := P) (G := G) (x := n!"x") (t := .i32) (by simp) (Ev.elem ha hi hI.arr hx)
  rw [conv_i32, toI32_of (hI.wf _ _ hx)] at e1
  have I1 := hI.assign (x := n!"x") (t := .i32) (by simp) x
  have k1 : ∀ z, z ≠ n!"x" → (setEnv st.env n!"x" (.int .i32 (some x))) z = st.env z := fun z hz => setEnv_ne hz
  have e2 := I1.put (P := P) (G := G) (x := n!"a") ((k1 _ (by decide)).trans ha) (Ev.var ((k1 _ hix).trans hi) rfl)
    (Ev.elem ((k1 _ (by decide)).trans ha) ((k1 _ hjx).trans hj) I1.arr hy) (hI.wf _ _ hy) h1
  have e3 := e2.2.put (P := P) (G := G) (x := n!"a") ((k1 _ (by decide)).trans ha) (Ev.var ((k1 _ hjx).trans hj) rfl)
    (Ev.var (c := .int .i32 (some x)) (setEnv_self _ _ _) rfl) (hI.wf _ _ hx) h2
  exact ⟨_, e1.seq (e2.1.seq (e3.1.seq (Ex.skip _))), e3.2, k1⟩

/-- `do { k >>= 1; j ^= k; } while ((j & k) == 0);` -/
abbrev nextS : Stmt := .doWhile (.seq (.assign n!"k" (.bin .shr vk (.num 1))) (.seq (.assign n!"j" (.bin .xor vj vk)) .skip))
  (.bin .eq (.bin .and vj vk) (.num 0))

theorem next_sim {o : Nat} {st₀ : State} {a : Array Int} {j' : Nat} : ∀ (f j k : Nat) (st : State), Inv DS st₀ o a st → st.env n!"j" = cu j →
    st.env n!"k" = cu k → j < 4294967296 → k < 4294967296 → Ntt.bitrevNext f j k = .ok j' →
    ∃ st', Ex P G nextS st st' ∧ Inv DS st₀ o a st' ∧ st'.env n!"j" = cu j' ∧ j' < 4294967296 ∧ st'.env n!"i" = st.env n!"i" := by
  intro f
  induction f with
  | zero => intro j k st _ _ _ _ _ h; simp [Ntt.bitrevNext] at h
  | succ f ih =>
    intro j k st hI hj hk hjl hkl h
    have hk2 : k / 2 < 4294967296 := by omega
    have hx : j ^^^ (k / 2) < 4294967296 := Nat.xor_lt_two_pow (n := 32) hjl hk2
    have hA : (j ^^^ (k / 2)) &&& (k / 2) < 4294967296 := lt_of_le_of_lt Nat.and_le_right hk2
    obtain ⟨s1, x1, I1, k1, o1, _⟩ := hI.setU (P := P) (G := G) (x := n!"k") (e := .bin .shr vk (.num 1)) (v := k / 2) (by simp)
      (Ev.bin (Ev.var hk rfl) (ev_num _ 1 (by decide)) (by simpa using binop_shrU hkl)) hk2
    obtain ⟨s2, x2, I2, j2, o2, _⟩ := I1.setU (P := P) (G := G) (x := n!"j") (e := .bin .xor vj vk) (v := j ^^^ (k / 2)) (by simp)
      (Ev.bin (Ev.var ((o1 _ (by decide)).trans hj) rfl) (Ev.var k1 rfl) (binop_xorU hjl hk2)) hx
    have k2 : s2.env n!"k" = cu (k / 2) := (o2 _ (by decide)).trans k1
    have hc : Ev P G (.bin .eq (.bin .and vj vk) (.num 0)) s2 (truth (decide ((j ^^^ (k / 2)) &&& (k / 2) = 0))) :=
      Ev.bin (Ev.bin (Ev.var j2 rfl) (Ev.var k2 rfl) (binop_andU hx hk2)) (ev_num _ 0 (by decide)) (by simpa using binop_eq0U hA)
    have hi : s2.env n!"i" = st.env n!"i" := (o2 _ (by decide)).trans (o1 _ (by decide))
    rw [Ntt.bitrevNext] at h
    by_cases h0 : (j ^^^ (k / 2)) &&& (k / 2) = 0
    · rw [if_pos h0] at h
      rw [decide_eq_true h0] at hc
      obtain ⟨s3, x3, I3, j3, l3, i3⟩ := ih _ _ s2 I2 j2 k2 hx hk2 h
      exact ⟨s3, Ex.doWhile_true (x1.seq (x2.seq (Ex.skip _))) hc x3, I3, j3, l3, i3.trans hi⟩
    · rw [if_neg h0] at h
      rw [decide_eq_false h0] at hc
      cases h
      exact ⟨s2, Ex.doWhile_false (x1.seq (x2.seq (Ex.skip _))) hc, I2, j2, hx, hi⟩

/-! ### The functions -/

theorem declS_ok : Decls P G (.seq (.decl .u32 n!"i") (.seq (.decl .u32 n!"j") (.decl .u32 n!"k")))
    [(n!"i", .u32), (n!"j", .u32), (n!"k", .u32)] :=
  (Decls.one _ _).seq ((Decls.one _ _).seq (Decls.one _ _) (by decide)) (by decide)

theorem inc_sim {o : Nat} {st₀ st : State} {a : Array Int} {i : Nat} (hI : Inv DS st₀ o a st) (hi : st.env n!"i" = cu i) (hl : i < 4294967296) :
    ∃ st', Ex P G (.assign n!"i" (.bin .add vi (.num 1))) st st' ∧ Inv DS st₀ o a st' ∧ st'.env n!"i" = cu (u32 (i + 1)) ∧
      u32 (i + 1) < 4294967296 ∧ ∀ y, y ≠ n!"i" → st'.env y = st.env y := by
  have hu : u32 (i + 1) < 4294967296 := Nat.mod_lt _ (by decide)
  obtain ⟨s, x, I, e, k, _⟩ := hI.setU (P := P) (G := G) (x := n!"i") (e := .bin .add vi (.num 1)) (v := u32 (i + 1)) (by simp)
    (Ev.bin (Ev.var hi rfl) (ev_num _ 1 (by decide)) (by simpa using binop_incU hl)) hu
  exact ⟨s, x, I, e, hu, k⟩

/-- `bitrev_shuffle` -/
theorem bitrev_shuffle_calls {g : Name} {o n : Nat} {t : Ty} {a a' : Array Int} {mem : Nat → Obj} (hg : P.lookup g = some Src.ntt.bitrev_shuffle)
    (hn : n < 4294967296) (hm : mem o = ⟨.i32, a⟩) (ha : Wf a) (h : Ntt.bitrev_shuffle a n = .ok a') :
    Calls P G g [.ptr o 0 1, .int t n] mem (setMem mem o ⟨.i32, a'⟩) ∧ Wf a' := by
  unfold Ntt.bitrev_shuffle at h
  simp only [bind_ok] at h
  obtain ⟨_, h0, r, h1, h2⟩ := h
  cases h2
  obtain ⟨hn0, hand⟩ : 0 < n ∧ n &&& (n - 1) = 0 := by
    unfold cassert at h0
    split at h0
    · next hc => simpa using hc
    · simp at h0
  refine Calls.tr (D := DS) hg rfl (bind_an hn) declS_ok (Decls.one _ _) (by decide) (by decide) (by decide) hm ha ?_
  · intro st hst hk hI
    have ea : st.env n!"a" = some (.ptr o 0 1) := (hk _ (by decide)).trans (by simp only [setEnv_self])
    have en : st.env n!"n" = cu n := (hk _ (by decide)).trans (by rw [setEnv_ne (by decide), setEnv_self])
    have hn1 : ∀ s : State, s.env n!"n" = cu n → Ev P G (.bin .sub vn (.num 1)) s (.int .u32 (n - 1 : Nat)) := fun s hs =>
      Ev.bin (Ev.var hs rfl) (ev_num _ 1 (by decide)) (by simpa using binop_decU hn hn0)
    have hand' : n &&& (n - 1) < 4294967296 := by rw [hand]; decide
    have xa : Ex P G (.assert (.land (.bin .gt vn (.num 0)) (.bin .eq (.bin .and vn (.bin .sub vn (.num 1))) (.num 0)))) st st := by
      obtain ⟨N1, c1⟩ : Ev P G (.bin .gt vn (.num 0)) st (truth (decide (0 < n))) :=
        Ev.bin (Ev.var en rfl) (ev_num _ 0 (by decide)) (by simpa using binop_posU hn)
      obtain ⟨N2, c2⟩ : Ev P G (.bin .eq (.bin .and vn (.bin .sub vn (.num 1))) (.num 0)) st (truth (decide (n &&& (n - 1) = 0))) :=
        Ev.bin (Ev.bin (Ev.var en rfl) (hn1 st en) (binop_andU hn (by omega))) (ev_num _ 0 (by decide)) (by simpa using binop_eq0U hand')
      refine ⟨max N1 N2 + 2, fun f hf => ?_⟩
      obtain ⟨g, rfl⟩ := Nat.exists_eq_add_of_le' (show 2 ≤ f by omega)
      simp only [exec_assert, eval_land, c1 g (by omega), c2 g (by omega), ok_bind, test_truth, decide_eq_true hn0, decide_eq_true hand, cassert, if_true]
    obtain ⟨s1, x1, I1, j1, o1, _⟩ := hI.setU (P := P) (G := G) (x := n!"j") (e := .bin .shr vn (.num 1)) (v := n / 2) (by simp)
      (Ev.bin (Ev.var en rfl) (ev_num _ 1 (by decide)) (by simpa using binop_shrU hn)) (by omega)
    obtain ⟨s2, x2, I2, i2, o2, _⟩ := I1.setU (P := P) (G := G) (x := n!"i") (e := .num 1) (v := 1) (by simp)
      (ev_num _ 1 (by decide)) (by decide)
    unfold forUp at h1
    obtain ⟨s3, x3, I3⟩ := Inv.loop2 (P := P) (G := G) (iv := n!"i") (uv := n!"j") (c := .bin .lt vi (.bin .sub vn (.num 1)))
      (b := .seq (.seq (.ite (.bin .lt vi vj) (swapS n!"i" n!"j") .skip) (.seq (.assign n!"k" vn) (.seq nextS .skip)))
        (.assign n!"i" (.bin .add vi (.num 1))))
      (fun i b s hs hi hl => Ev.bin (Ev.var hi rfl) (hn1 s ((hs.keep _ (by decide)).trans en)) (binop_ltU hl (by omega)))
      (fun i u b u' b' s hs hi hl hu hul _ hb => by
        simp only [bind_ok] at hb
        obtain ⟨b₁, hb1, u₁, hb2, hb3⟩ := hb
        cases hb3
        have ean : s.env n!"a" = some (.ptr o 0 1) := (hs.keep _ (by decide)).trans ea
        have : ∃ s1, Ex P G (if decide (i < u) then swapS n!"i" n!"j" else .skip) s s1 ∧ Inv DS st o b' s1 ∧
            ∀ y, y ≠ n!"x" → s1.env y = s.env y := by
          by_cases hiu : i < u
          · rw [if_pos hiu] at hb1
            simp only [hiu, decide_true, if_true]
            exact swap_sim hs ean hi hu (by decide) (by decide) hb1
          · rw [if_neg hiu] at hb1
            cases hb1
            simp only [hiu, decide_false]
            exact ⟨s, Ex.skip _, hs, fun _ _ => rfl⟩
        obtain ⟨s1, x1, I1, o1⟩ := this
        have c1 : Ev P G (.bin .lt vi vj) s (truth (decide (i < u))) := Ev.bin (Ev.var hi rfl) (Ev.var hu rfl) (binop_ltU hl hul)
        have en1 : s1.env n!"n" = cu n := (I1.keep _ (by decide)).trans en
        obtain ⟨s2, x2, I2, k2, o2, _⟩ := I1.setU (P := P) (G := G) (x := n!"k") (e := vn) (v := n) (by simp) (Ev.var en1 rfl) hn
        obtain ⟨s3, x3, I3, j3, l3, i3⟩ := next_sim (P := P) (G := G) _ _ _ s2 I2 ((o2 _ (by decide)).trans ((o1 _ (by decide)).trans hu)) k2 hul hn hb2
        have i3' : s3.env n!"i" = cu i := i3.trans ((o2 _ (by decide)).trans ((o1 _ (by decide)).trans hi))
        obtain ⟨s4, x4, I4, i4, l4, o4⟩ := inc_sim (P := P) (G := G) I3 i3' hl
        exact ⟨s4, ((Ex.ite c1 x1).seq (x2.seq (x3.seq (Ex.skip _)))).seq x4, I4, i4, l4, (o4 _ (by decide)).trans j3, l3⟩)
      I2 i2 (by decide) ((o2 _ (by decide)).trans j1) (by omega) h1
    exact ⟨s3, xa.seq (x1.seq ((x2.seq x3).seq (Ex.skip _))), I3⟩

theorem position_row (i : Nat) : position 0 2 (i : Int) = .ok (2 * i) := by
  unfold position; rw [if_neg (by omega)]; congr 1; omega
theorem position_zero (k : Nat) : position k 1 0 = .ok k := by
  unfold position; rw [if_neg (by omega)]; congr 1
theorem position_one (k : Nat) : position k 1 1 = .ok (k + 1) := by
  unfold position; rw [if_neg (by omega)]; congr 1

/-- Object `d` holds the pairs of `p`, one after the other. -/
def PairsRd (d : Array Int) (p : Array (Nat × Nat)) : Prop :=
  ∀ i jk, rd p i = .ok jk → rd d (2 * i) = .ok (jk.1 : Int) ∧ rd d (2 * i + 1) = .ok (jk.2 : Int) ∧ jk.1 < 4294967296 ∧ jk.2 < 4294967296

/-- `shuffle_with_table` -/
theorem shuffle_with_table_calls {g : Name} {o op n : Nat} {t tp : Ty} {a a' d : Array Int} {p : Array (Nat × Nat)} {mem : Nat → Obj}
    (hg : P.lookup g = some Src.ntt.shuffle_with_table) (hn : n < 4294967296) (hm : mem o = ⟨.i32, a⟩) (ha : Wf a) (hmp : mem op = ⟨tp, d⟩)
    (hd : PairsRd d p) (hop : op ≠ o) (h : Ntt.shuffle_with_table a p n = .ok a') :
    Calls P G g [.ptr o 0 1, .ptr op 0 2, .int t n] mem (setMem mem o ⟨.i32, a'⟩) ∧ Wf a' := by
  refine Calls.tr (D := DS) hg rfl (env := setEnv (setEnv (setEnv (fun _ => none) n!"n" (.int .u32 (some (n : Int)))) n!"p" (.ptr op 0 2)) n!"a" (.ptr o 0 1)) ?_ declS_ok
    (Decls.one _ _) (by decide) (by decide) (by decide) hm ha ?_
  · simp only [Src.ntt.shuffle_with_table, bindParams, ok_bind, conv_u32_nat, u32_of hn, if_true]
  · intro st hst hk hI
    have ea : st.env n!"a" = some (.ptr o 0 1) := (hk _ (by decide)).trans (by simp only [setEnv_self])
    have ep : st.env n!"p" = some (.ptr op 0 2) := (hk _ (by decide)).trans (by rw [setEnv_ne (by decide), setEnv_self])
    have en : st.env n!"n" = cu n := (hk _ (by decide)).trans (by rw [setEnv_ne (by decide), setEnv_ne (by decide), setEnv_self])
    obtain ⟨s2, x2, I2, i2, o2, _⟩ := hI.setU (P := P) (G := G) (x := n!"i") (e := .num 0) (v := 0) (by simp) (ev_num _ 0 (by decide)) (by decide)
    unfold Ntt.shuffle_with_table forUp at h
    obtain ⟨s3, j3, x3, I3, _⟩ := Ex.while_cfor (P := P) (G := G) (c := .bin .lt vi vn)
      (s := .seq (.seq (.assign n!"j" (.idx (.idx (.var n!"p") vi) (.num 0))) (.seq (.assign n!"k" (.idx (.idx (.var n!"p") vi) (.num 1)))
        (swapS n!"j" n!"k"))) (.assign n!"i" (.bin .add vi (.num 1))))
      (fun i (x : Array Int) s => Inv DS st o x s ∧ s.env n!"i" = cu i ∧ i < 4294967296)
      (fun i x s hR => Ev.bin (Ev.var hR.2.1 rfl) (Ev.var ((hR.1.keep _ (by decide)).trans en) rfl) (binop_ltU hR.2.2 hn))
      (fun i b b' s hR hi hb => by
        obtain ⟨hs, hi, hl⟩ := hR
        simp only [bind_ok] at hb
        obtain ⟨jk, hb1, hb2⟩ := hb
        obtain ⟨d1, d2, l1, l2⟩ := hd _ _ hb1
        have hrow : ∀ s : State, Inv DS st o b s → s.env n!"i" = cu i → Ev P G (.idx (.var n!"p") vi) s (.ptr op (2 * i) 1) := by
          intro s hs hi
          refine Ev.idx (Ev.var ((hs.keep _ (by decide)).trans ep) rfl) (Ev.var hi rfl) ?_
          simp only [load, position_row, ok_bind]
          rfl
        have hmo : ∀ s : State, Inv DS st o b s → s.mem op = ⟨tp, d⟩ := fun s hs => (hs.other hop).trans (by rw [hst, hmp])
        obtain ⟨s1, x1, I1, j1, o1, _⟩ := hs.setU (P := P) (G := G) (x := n!"j") (e := .idx (.idx (.var n!"p") vi) (.num 0)) (v := jk.1) (t' := tp) (by simp)
          (Ev.idx (hrow s hs hi) (ev_num _ 0 (by decide)) (by simp only [load, hmo s hs, Nat.cast_zero, position_zero, ok_bind, d1, if_true])) l1
        have i1 : s1.env n!"i" = cu i := (o1 _ (by decide)).trans hi
        obtain ⟨s2, x2, I2, k2, o2, _⟩ := I1.setU (P := P) (G := G) (x := n!"k") (e := .idx (.idx (.var n!"p") vi) (.num 1)) (v := jk.2) (t' := tp) (by simp)
          (Ev.idx (hrow s1 I1 i1) (ev_num _ 1 (by decide)) (by simp only [load, hmo s1 I1, Nat.cast_one, position_one, ok_bind, d2, if_true])) l2
        obtain ⟨s3, x3, I3, o3⟩ := swap_sim (P := P) (G := G) I2 ((I2.keep _ (by decide)).trans ea) ((o2 _ (by decide)).trans j1) k2 (by decide) (by decide) hb2
        obtain ⟨s4, x4, I4, i4, l4, _⟩ := inc_sim (P := P) (G := G) I3 ((o3 _ (by decide)).trans ((o2 _ (by decide)).trans i1)) hl
        exact ⟨s4, (x1.seq (x2.seq x3)).seq x4, I4, i4, l4⟩)
      _ 0 a a' s2 ⟨I2, i2, by decide⟩ h
    exact ⟨s3, (x2.seq x3).seq (Ex.skip _), I3⟩

end

theorem naive_bitrev_shuffle : Src.naive_ntt.bitrev_shuffle = Src.ntt.bitrev_shuffle := by decide
theorem naive_shuffle_with_table : Src.naive_ntt.shuffle_with_table = Src.ntt.shuffle_with_table := by decide

end CLang
