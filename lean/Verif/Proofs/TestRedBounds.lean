import Verif.SpecTestRedBounds
import Verif.Proofs.RedBoundsNtt
import Verif.Proofs.TestRed
import Verif.Props.TestTables
import Mathlib.Tactic.IntervalCases

/-
Proofs about src/test_red_bounds.c.
-/

namespace TestRedBounds
open C Spec RedBounds
open TestRed (Line)
open NttRed (ok_bind)
open TestTables

theorem red_zero : Spec.red 0 = 0 := by decide

theorem max_abs_red_eq (dbg : Bool) {b : Int} (h0 : 0 ≤ b) (h1 : b ≤ 2147483647) :
    ∃ r, max_abs_red dbg b = .ok r ∧ IsGreatest (absRedSet b) r ∧ 0 ≤ r ∧ r ≤ 600000 := by
  have I1 : I64 (-b) := ⟨by omega, by omega⟩
  have I2 : I64 b := ⟨by omega, by omega⟩
  obtain ⟨⟨mn, xn⟩, e1, hx1, g1, hn⟩ := wp_total.1 (wp_min_red (dbg := dbg) I1 I2 (by omega))
  obtain ⟨⟨mx, xx⟩, e2, hx2, g2, hm⟩ := wp_total.1 (wp_max_red (dbg := dbg) I1 I2 (by omega))
  dsimp only at hx1 hx2 g1 g2 hn hm
  subst g1 g2
  have n0 := hn 0 (by omega) (by omega)
  have m0 := hm 0 (by omega) (by omega)
  rw [red_zero] at n0 m0
  have b1 : -600000 ≤ Spec.red xn := by unfold Spec.red; omega
  have b2 : Spec.red xx ≤ 600000 := by unfold Spec.red; omega
  unfold max_abs_red
  rw [NttRed.i64_ok I1, ok_bind, e1, ok_bind]
  dsimp only
  rw [e2, ok_bind]
  dsimp only
  rw [if_neg (by omega), if_neg (by omega), NttRed.i64_ok ⟨by omega, by omega⟩, ok_bind]
  refine ⟨_, rfl, ⟨?_, ?_⟩, ?_, ?_⟩
  · split
    · exact ⟨xx, abs_le.2 hx2, (abs_of_nonneg m0).symm⟩
    · exact ⟨xn, abs_le.2 hx1, (abs_of_nonpos n0).symm⟩
  · rintro v ⟨x, hx, rfl⟩
    rw [abs_le] at hx
    have a1 := hn x hx.1 hx.2
    have a2 := hm x hx.1 hx.2
    rw [abs_le]
    split <;> omega
  · split <;> omega
  · split <;> omega

/-- What a function computing bounds for rounds has to satisfy. -/
structure BoundFun (S : Int → Set Int) (f : Int → M Int) : Prop where
  eq : ∀ b, 0 ≤ b → b ≤ 2147483647 → ∃ c, f b = .ok c ∧ IsGreatest (S b) c
  le : ∀ b c, 0 ≤ b → IsGreatest (S b) c → 0 ≤ c ∧ c ≤ 6 * b + 12286

theorem iteration_eq {S : Int → Set Int} {f : Int → M Int} (hf : BoundFun S f) (dbg : Bool) {b : Int} (h0 : 0 ≤ b)
    (h1 : b ≤ 2147483647) : ∃ l, iteration dbg f b = .ok l ∧ BestLines S 20 0 b l := by
  unfold iteration
  have key : Wp NoErr (forUp 0 20 1 (fun i (s : Int × List Line) => do
    let nb ← f s.1
    if nb > 2147483647 then do
      let r ← max_abs_red dbg s.1
      let nb ← f r
      pure (nb, s.2 ++ [.bound i s.1, .reduction r])
    else pure (nb, s.2 ++ [.bound i s.1])) (b, [])) (fun s => BestLines S 20 0 b s.2) := by
    refine wp_forUp1 (fun i s => (0 ≤ s.1 ∧ s.1 ≤ 2147483647) ∧
      ∀ l, BestLines S (20 - i) i s.1 l → BestLines S 20 0 b (s.2 ++ l)) (by norm_num) (by norm_num)
      ⟨⟨h0, h1⟩, fun l hl => hl⟩ ?_ ?_
    · rintro i ⟨c, L⟩ - hi ⟨⟨hc0, hc1⟩, hI⟩
      dsimp only at hc0 hc1 hI ⊢
      obtain ⟨d, ed, hd⟩ := hf.eq c hc0 hc1
      have hd' := hf.le c d hc0 hd
      rw [ed, ok_bind]
      have e20 : 20 - i = (20 - (i + 1)) + 1 := by omega
      by_cases hov : d > 2147483647
      · rw [if_pos hov]
        obtain ⟨r, er, hr, hr0, hr1⟩ := max_abs_red_eq dbg hc0 hc1
        obtain ⟨d', ed', hd2⟩ := hf.eq r hr0 (by omega)
        have hd3 := hf.le r d' hr0 hd2
        rw [er, ok_bind, ed', ok_bind, wp_pure]
        refine ⟨⟨hd3.1, by dsimp only; omega⟩, fun l hl => ?_⟩
        dsimp only at hl ⊢
        rw [List.append_assoc]
        refine hI _ ?_
        rw [e20]
        exact .reduced _ _ _ _ _ _ _ hd hov hr hd2 (by omega) hl
      · rw [if_neg hov, wp_pure]
        refine ⟨⟨hd'.1, by dsimp only; omega⟩, fun l hl => ?_⟩
        dsimp only at hl ⊢
        rw [List.append_assoc]
        refine hI _ ?_
        rw [e20]
        exact .round _ _ _ _ _ hd (by omega) hl
    · rintro ⟨c, L⟩ ⟨-, hI⟩
      have := hI [] (.done _ _)
      rwa [List.append_nil] at this
  obtain ⟨s, e, h⟩ := wp_total.1 key
  rw [e, ok_bind]
  exact ⟨_, rfl, h⟩

theorem fits {b w : Int} {c : Int} (hc : 0 ≤ c) (hb : b ≤ 2147483647) (hb0 : 0 ≤ b) (hcb : c ≤ 2 * b) (hw : |w| ≤ 12288) :
    RedMulFits (-c) c w := by
  unfold RedMulFits
  rw [abs_neg, abs_of_nonneg hc]
  have : |w| * (c + 1) ≤ 12288 * (c + 1) := mul_le_mul_of_nonneg_right hw (by omega)
  constructor <;> omega

theorem ct_fun {low high : Int} (hlh : low ≤ high) (hl : -12288 ≤ low) (hh : high ≤ 12288) :
    BoundFun (fun b => ctSet b (fun v => low ≤ v ∧ v ≤ high)) (fun b => ct_bound false b low high) where
  eq b h0 h1 := wp_total.1 (wp_ct_bound hlh ⟨by omega, by omega⟩ ⟨by omega, by omega⟩ (fun _ => .inl rfl) h0
    (.inr ⟨fun w h2 h3 => fits h0 h1 h0 (by omega) (abs_le.2 ⟨by omega, by omega⟩), by omega⟩))
  le b c h0 h := by
    obtain ⟨⟨x, y, w, hx, hy, hw, hv⟩, -⟩ := h
    have := TestRed.ct_round (b := b) (b' := 4 * b + 12286) (by omega) (by omega) x y w hx hy (abs_le.2 ⟨by omega, by omega⟩)
    rcases hv with rfl | rfl
    · exact ⟨abs_nonneg _, by omega⟩
    · exact ⟨abs_nonneg _, by omega⟩

theorem gs_fun {low high : Int} (hlh : low ≤ high) (hl : -12288 ≤ low) (hh : high ≤ 12288) :
    BoundFun (fun b => gsSet b (fun v => low ≤ v ∧ v ≤ high)) (fun b => gs_bound false b low high) where
  eq b h0 h1 := wp_total.1 (wp_gs_bound hlh ⟨by omega, by omega⟩ ⟨by omega, by omega⟩ (fun _ => .inl rfl) h0
    (.inr ⟨fun w h2 h3 => by
      have := fits (c := 2 * b) (by omega) h1 h0 (by omega) (abs_le.2 ⟨by omega, by omega⟩ : |w| ≤ 12288)
      rwa [← neg_mul] at this, by omega⟩))
  le b c h0 h := by
    obtain ⟨⟨x, y, w, hx, hy, hw, hv⟩, -⟩ := h
    have := TestRed.gs_round (b := b) (b' := 6 * b + 12286) (by omega) (by omega) x y w hx hy (abs_le.2 ⟨by omega, by omega⟩)
    rcases hv with rfl | rfl
    · exact ⟨abs_nonneg _, by omega⟩
    · exact ⟨abs_nonneg _, by omega⟩

/-! ### Products of intervals -/

theorem prodLine_eq {a b low high : Int} (ha : a ≤ 0) (hb : 0 ≤ b) (hs : -b ≤ a) (hl : low ≤ 0) (hh : 0 ≤ high) (hb' : b ≤ 600000)
    (hl' : -600000 ≤ low) (hh' : high ≤ 600000) :
    ∃ l, prodLine false a b low high = .ok l ∧ ProdLineOK a b low high l := by
  have hfit : ∀ w, low ≤ w → w ≤ high → RedMulFits a b w := by
    intro w h1 h2
    have hw : |w| ≤ 600000 := abs_le.2 ⟨by omega, by omega⟩
    have h3 : |a| + 1 ≤ 600001 := by have : |a| ≤ 600000 := abs_le.2 ⟨by omega, by omega⟩; omega
    have h4 : |b| + 1 ≤ 600001 := by have : |b| ≤ 600000 := abs_le.2 ⟨by omega, by omega⟩; omega
    have h5 := mul_le_mul hw h3 (by positivity) (by norm_num)
    have h6 := mul_le_mul hw h4 (by positivity) (by norm_num)
    unfold RedMulFits
    constructor <;> omega
  have I1 : I64 low := ⟨by omega, by omega⟩
  have I2 : I64 high := ⟨by omega, by omega⟩
  obtain ⟨s, e1, -, ha1, hm⟩ := wp_total.1 (wp_min_red_mul_interval (dbg := false) (a := a) (b := b) (by omega) hs (.inr hfit) I1 I2
    (by omega) (fun _ => .inl rfl))
  obtain ⟨t, e2, -, ha2, hx⟩ := wp_total.1 (wp_max_red_mul_interval (dbg := false) (a := a) (b := b) (by omega) hs (.inr hfit) I1 I2
    (by omega))
  have mem {s : Best} (h : Att a b low high s) : s.r ∈ prodSet a b low high := by
    rcases h with h | ⟨h1, h2, h3⟩
    · rw [h]
      exact ⟨0, 0, ⟨hl, hh⟩, ⟨ha, hb⟩, by decide⟩
    · exact ⟨s.w, s.x, h2, h1, h3⟩
  unfold prodLine
  rw [e1, ok_bind, e2, ok_bind]
  refine ⟨_, rfl, ⟨mem ha1, ?_⟩, mem ha2, ?_⟩
  · rintro v ⟨w, x, hw, hx', rfl⟩
    exact hm w hw.1 hw.2 x hx'.1 hx'.2
  · rintro v ⟨w, x, hw, hx', rfl⟩
    exact hx w hw.1 hw.2 x hx'.1 hx'.2

theorem maxAbs_eq {a b low high : Int} {l : ProdLine} (h : ProdLineOK a b low high l) (ha : a ≤ 0) (hb : 0 ≤ b) (hl : low ≤ 0)
    (hh : 0 ≤ high) (ha' : -12288 ≤ a) (hb' : b ≤ 12288) (hl' : -12288 ≤ low) (hh' : high ≤ 12288) :
    ∃ r, maxAbs l = .ok r ∧ IsGreatest (absProdSet a b low high) r ∧ 0 ≤ r ∧ r ≤ 2147483647 := by
  obtain ⟨⟨⟨w1, x1, hw1, hx1, e1⟩, hmin⟩, ⟨w2, x2, hw2, hx2, e2⟩, hmax⟩ := h
  have bd {w x : Int} (hw : low ≤ w ∧ w ≤ high) (hx : a ≤ x ∧ x ≤ b) : -50000 ≤ Spec.red (w * x) ∧ Spec.red (w * x) ≤ 50000 := by
    have : |w * x| ≤ 12288 * 12288 := by
      rw [abs_mul]
      exact mul_le_mul (abs_le.2 ⟨by omega, by omega⟩) (abs_le.2 ⟨by omega, by omega⟩) (abs_nonneg _) (by norm_num)
    rw [abs_le] at this
    generalize w * x = z at *
    unfold Spec.red
    omega
  have z0 : (0 : Int) ∈ prodSet a b low high := ⟨0, 0, ⟨hl, hh⟩, ⟨ha, hb⟩, by decide⟩
  have n0 := hmin z0
  have m0 := hmax z0
  have b1 := bd hw1 hx1
  have b2 := bd hw2 hx2
  rw [← e1] at b1
  rw [← e2] at b2
  have e3 : (if l.min.r < 0 then i64 (-l.min.r) else pure l.min.r) = .ok (-l.min.r) := by
    split
    · exact NttRed.i64_ok ⟨by omega, by omega⟩
    · show Except.ok _ = _
      congr 1; omega
  unfold maxAbs
  rw [e3, ok_bind, if_neg (by omega)]
  refine ⟨_, rfl, ⟨?_, ?_⟩, ?_, ?_⟩
  · split
    · exact ⟨w2, x2, hw2, hx2, by rw [← e2, abs_of_nonneg m0]⟩
    · exact ⟨w1, x1, hw1, hx1, by rw [← e1, abs_of_nonpos n0]⟩
  · rintro v ⟨w, x, hw, hx, rfl⟩
    have a1 := hmin ⟨w, x, hw, hx, rfl⟩
    have a2 := hmax ⟨w, x, hw, hx, rfl⟩
    rw [abs_le]
    split <;> omega
  · split <;> omega
  · split <;> omega

/-! ### Tables -/

/-- A line is right, and its bounds are results of `ntt_ct_bounds` and `ntt_gs_bounds`. -/
def LineOK (k : Nat) (p : Array Int) (x : TableLine) : Prop :=
  TableLineOK k p x ∧ (∃ u v, ntt_ct_bounds false x.b0 (2 ^ k) p u = .ok (x.ct, v)) ∧
    ∃ u v, ntt_gs_bounds false x.b0 (2 ^ k) p u = .ok (x.gs, v)

theorem table_eq {k : Nat} {p bound : Array Int} {b0 : Int} (hb0 : 0 ≤ b0) (hb1 : b0 ≤ 36864) (hk : k ≤ 11)
    (hp : ∀ i, 0 < i → i < 2 ^ k → ∃ w, p[i]? = some w ∧ w ≠ 0 ∧ |w| ≤ 6144) (hp16 : Table16 p) (hs : bound.size = 12) :
    ∃ ct gs b b', ntt_ct_bounds false b0 (2 ^ k) p bound = .ok (ct, b) ∧ b.size = 12 ∧
      ntt_gs_bounds false b0 (2 ^ k) p b = .ok (gs, b') ∧ b'.size = 12 ∧
      LineOK k p ⟨b0, ct, decide (ct ≥ 2147483647), gs, decide (gs ≥ 2147483647)⟩ := by
  have h3 : (3 : Int) ^ k ≤ 3 ^ 11 := pow_le_pow_right₀ (by norm_num) hk
  have hB : (3 : Int) ^ k * (b0 + 6144) ≤ 1099511627776 := by
    have := mul_le_mul h3 (show b0 + 6144 ≤ 43008 by omega) (by omega) (by norm_num)
    omega
  obtain ⟨⟨ct, b⟩, e1⟩ := ntt_ct_bounds_total (dbg := false) (bound := bound) (by omega) hb0 hB hp (by omega)
  obtain ⟨⟨h1, h2⟩, h4, h5⟩ := ntt_ct_bounds_ok (by omega) hb0 hp16 e1
  obtain ⟨⟨gs, b'⟩, e2⟩ := ntt_gs_bounds_total (dbg := false) (bound := b) (by omega) hb0 hB hp (by omega)
  obtain ⟨⟨g1, g2⟩, g4, g5⟩ := ntt_gs_bounds_ok (by omega) hb0 hp16 e2
  exact ⟨ct, gs, b, b', e1, by omega, e2, by omega,
    ⟨⟨_, h5, h4⟩, ⟨_, g5, g4⟩, decide_eq_true_iff, decide_eq_true_iff⟩, ⟨_, _, e1⟩, _, _, e2⟩

theorem fold_eq {k : Nat} {p : Array Int} (hk : k ≤ 11)
    (hp : ∀ i, 0 < i → i < 2 ^ k → ∃ w, p[i]? = some w ∧ w ≠ 0 ∧ |w| ≤ 6144) (hp16 : Table16 p) :
    ∀ (L : List Int), (∀ b ∈ L, 0 ≤ b ∧ b ≤ 36864) → ∀ (s : Array Int × List TableLine), s.1.size = 12 →
    ∃ t l, L.foldlM (fun (s : Array Int × List TableLine) (b0 : Int) => (do
      let (ct, bound) ← ntt_ct_bounds false b0 (2 ^ k) p s.1
      let (gs, bound) ← ntt_gs_bounds false b0 (2 ^ k) p bound
      pure (bound, s.2 ++ [⟨b0, ct, decide (ct ≥ 2147483647), gs, decide (gs ≥ 2147483647)⟩]) : M (Array Int × List TableLine))) s
        = .ok (t, s.2 ++ l) ∧ l.map TableLine.b0 = L ∧ ∀ x ∈ l, LineOK k p x := by
  intro L
  induction L with
  | nil =>
    rintro - ⟨a, l0⟩ -
    exact ⟨a, [], by rw [List.foldlM_nil, List.append_nil]; rfl, rfl, by simp⟩
  | cons c L ih =>
    rintro hL ⟨a, l0⟩ hs
    have hc := hL c List.mem_cons_self
    obtain ⟨ct, gs, b, b', e1, hs1, e2, hs2, hok⟩ := table_eq hc.1 hc.2 hk hp hp16 hs
    obtain ⟨t, l, e3, h1, h2⟩ := ih (fun b hb => hL b (List.mem_cons_of_mem _ hb))
      (b', l0 ++ [⟨c, ct, decide (ct ≥ 2147483647), gs, decide (gs ≥ 2147483647)⟩]) hs2
    refine ⟨t, ⟨c, ct, decide (ct ≥ 2147483647), gs, decide (gs ≥ 2147483647)⟩ :: l, ?_, ?_, ?_⟩
    · rw [List.foldlM_cons]
      dsimp only at e1 ⊢
      rw [e1]
      simp only [ok_bind]
      rw [e2]
      simp only [ok_bind]
      refine e3.trans ?_
      rw [List.append_assoc]
      rfl
    · rw [List.map_cons, h1]
    · intro x hx
      rcases List.mem_cons.1 hx with rfl | hx
      · exact hok
      · exact h2 x hx

theorem show_eq {k : Nat} {p bound : Array Int} (hk : k ≤ 11)
    (hp : ∀ i, 0 < i → i < 2 ^ k → ∃ w, p[i]? = some w ∧ w ≠ 0 ∧ |w| ≤ 6144) (hp16 : Table16 p) (hs : bound.size = 12) :
    ∃ l, show_ct_bounds false (2 ^ k) p bound = .ok l ∧ l.map TableLine.b0 = [6144, 12288, 21499, 30709, 36864] ∧
      ∀ x ∈ l, LineOK k p x := by
  have hn : (2 : Nat) ^ k ≤ 2048 := by
    calc 2 ^ k ≤ 2 ^ 11 := Nat.pow_le_pow_right (by norm_num) hk
      _ = 2048 := by norm_num
  obtain ⟨t, l, e, h1, h2⟩ := fold_eq hk hp hp16 [6144, 12288, 21499, 30709, 36864] (by decide) (bound, []) hs
  unfold show_ct_bounds
  have hc : cassert (decide (2 ^ k ≤ 2048)) = .ok () := by simp [cassert, hn]
  rw [hc, ok_bind]
  simp only [e, ok_bind]
  exact ⟨_, rfl, h1, h2⟩

/-- The entries of a table are as the bound functions need them. -/
structure Good (k : Nat) (p : Array Int) : Prop where
  size : p.size = 2 ^ k
  range : InRange (-6144) 6144 p
  ne : ∀ m j, m < k → j < 2 ^ m → elt p (2 ^ m + j) ≠ 0

theorem Good.entries {k : Nat} {p : Array Int} (h : Good k p) :
    (∀ i, 0 < i → i < 2 ^ k → ∃ w, p[i]? = some w ∧ w ≠ 0 ∧ |w| ≤ 6144) := by
  intro i h0 hi
  have hi' : i < p.size := by rw [h.size]; exact hi
  have e : p[i]? = some (elt p i) := by
    unfold elt; rw [Array.getElem?_eq_getElem hi']; simp [hi']
  refine ⟨_, e, ?_, abs_le.2 (h.range i hi')⟩
  have hl := Nat.log2_self_le (n := i) (by omega)
  have hm : Nat.log2 i < k := (Nat.log2_lt (by omega)).2 hi
  have hj := Nat.lt_log2_self (n := i)
  have := h.ne (Nat.log2 i) (i - 2 ^ Nat.log2 i) hm (by rw [pow_succ] at hj; omega)
  rwa [Nat.add_sub_cancel' hl] at this

theorem Good.all {k : Nat} {p : Array Int} (h : Good k p) {i : Nat} {w : Int} (hw : p[i]? = some w) : |w| ≤ 6144 := by
  obtain ⟨hi, e⟩ := Array.getElem?_eq_some_iff.1 hw
  have := h.range i hi
  have e' : elt p i = w := by unfold elt; rw [← e]; simp [hi]
  rw [e'] at this
  exact abs_le.2 this

theorem Good.table16 {k : Nat} {p : Array Int} (h : Good k p) : Table16 p := by
  intro i w hw
  have := abs_le.1 (h.all hw)
  omega

theorem good_of {k : Nat} {κ c ω : Zq} {p : Array Int} (hs : p.size = 2 ^ k ∧ InRange (-6144) 6144 p) (hc : c ≠ 0) (hω : ω ≠ 0)
    (h : StdTable κ c ω (-6144) 6144 k p ∨ RevTable κ c ω (-6144) 6144 k p) : Good k p := by
  refine ⟨hs.1, hs.2, fun m j hm hj h0 => ?_⟩
  have hq : coeff p (2 ^ m + j) = 0 := by
    show ((elt p (2 ^ m + j) : Int) : Zq) = 0
    rw [h0]; rfl
  rcases h with h | h
  · have := (h.2 m j hm hj).2
    rw [hq, mul_zero] at this
    exact mul_ne_zero (pow_ne_zero _ hc) (pow_ne_zero _ (pow_ne_zero _ hω)) this.symm
  · have := (h.2 m j hm hj).2
    rw [hq, mul_zero] at this
    exact mul_ne_zero (pow_ne_zero _ hc) (pow_ne_zero _ (pow_ne_zero _ hω)) this.symm

theorem good4 {k : Nat} {κ ψ : Zq} {p pr s sr : Array Int} (hψ : ψ ≠ 0) (h : TwiddlesOK κ ψ (-6144) 6144 k p pr s sr) :
    ∀ np ∈ [(2 ^ k, p), (2 ^ k, pr), (2 ^ k, s), (2 ^ k, sr)], np.1 = 2 ^ k ∧ Good k np.2 := by
  intro np hnp
  have hω := pow_ne_zero 2 hψ
  have h1 : (1 : Zq) ≠ 0 := by decide
  have he := h.entries
  simp only [List.mem_cons, List.not_mem_nil, or_false] at hnp
  rcases hnp with rfl | rfl | rfl | rfl
  · exact ⟨rfl, good_of (he _ (by simp)) h1 hω (.inl h.std)⟩
  · exact ⟨rfl, good_of (he _ (by simp)) h1 hω (.inr h.rev)⟩
  · exact ⟨rfl, good_of (he _ (by simp)) hψ hω (.inl h.scaled)⟩
  · exact ⟨rfl, good_of (he _ (by simp)) hψ hω (.inr h.scaled_rev)⟩

theorem log_of {np : Nat × Array Int} (h : np ∈ tables) : ∃ k ≤ 11, np.1 = 2 ^ k ∧ Good k np.2 := by
  obtain ⟨t4, t7, t8, t9, t10, t11⟩ := Props.C60_test_ntt_sred_tables
  have e : tables = [(2 ^ 4, shoup_sred_ntt16_12289), (2 ^ 4, rev_shoup_sred_ntt16_12289),
   (2 ^ 4, shoup_sred_scaled_ntt16_12289), (2 ^ 4, rev_shoup_sred_scaled_ntt16_12289)] ++
   [(2 ^ 7, shoup_sred_ntt128_12289), (2 ^ 7, rev_shoup_sred_ntt128_12289),
   (2 ^ 7, shoup_sred_scaled_ntt128_12289), (2 ^ 7, rev_shoup_sred_scaled_ntt128_12289)] ++
   [(2 ^ 8, shoup_sred_ntt256_12289), (2 ^ 8, rev_shoup_sred_ntt256_12289),
   (2 ^ 8, shoup_sred_scaled_ntt256_12289), (2 ^ 8, rev_shoup_sred_scaled_ntt256_12289)] ++
   [(2 ^ 9, shoup_sred_ntt512_12289), (2 ^ 9, rev_shoup_sred_ntt512_12289),
   (2 ^ 9, shoup_sred_scaled_ntt512_12289), (2 ^ 9, rev_shoup_sred_scaled_ntt512_12289)] ++
   [(2 ^ 10, shoup_sred_ntt1024_12289), (2 ^ 10, rev_shoup_sred_ntt1024_12289),
   (2 ^ 10, shoup_sred_scaled_ntt1024_12289), (2 ^ 10, rev_shoup_sred_scaled_ntt1024_12289)] ++
   [(2 ^ 11, shoup_sred_ntt2048_12289), (2 ^ 11, rev_shoup_sred_ntt2048_12289),
   (2 ^ 11, shoup_sred_scaled_ntt2048_12289), (2 ^ 11, rev_shoup_sred_scaled_ntt2048_12289)] := rfl
  rw [e] at h
  simp only [List.mem_append] at h
  rcases h with ((((h | h) | h) | h) | h) | h
  · exact ⟨4, by omega, good4 (by decide +kernel) t4 _ h⟩
  · exact ⟨7, by omega, good4 (by decide +kernel) t7 _ h⟩
  · exact ⟨8, by omega, good4 (by decide +kernel) t8 _ h⟩
  · exact ⟨9, by omega, good4 (by decide +kernel) t9 _ h⟩
  · exact ⟨10, by omega, good4 (by decide +kernel) t10 _ h⟩
  · exact ⟨11, by omega, good4 (by decide +kernel) t11 _ h⟩

theorem tables_fold (bound : Nat → Array Int) (hb : ∀ i, (bound i).size = 12) : ∀ (L : List (Nat × Array Int)), (∀ np ∈ L, np ∈ tables) →
    ∀ (s : Nat × List (List TableLine)), ∃ t l, L.foldlM (fun (s : Nat × List (List TableLine)) (np : Nat × Array Int) => (do
      let l ← show_ct_bounds false np.1 np.2 (bound s.1)
      pure (s.1 + 1, s.2 ++ [l]) : M (Nat × List (List TableLine)))) s = .ok (t, s.2 ++ l) ∧
      List.Forall₂ (fun np l => l.map TableLine.b0 = [6144, 12288, 21499, 30709, 36864] ∧
        ∀ x ∈ l, ∃ k ≤ 11, np.1 = 2 ^ k ∧ LineOK k np.2 x) L l := by
  intro L
  induction L with
  | nil => rintro - ⟨a, l0⟩; exact ⟨a, [], by rw [List.foldlM_nil, List.append_nil]; rfl, .nil⟩
  | cons np L ih =>
    rintro hL ⟨a, l0⟩
    have hc := hL np List.mem_cons_self
    obtain ⟨k, hk, ek, hg⟩ := log_of hc
    obtain ⟨l1, e1, h1, h2⟩ := show_eq hk hg.entries hg.table16 (hb a)
    rw [← ek] at e1
    obtain ⟨t, l, e2, h3⟩ := ih (fun b hb => hL b (List.mem_cons_of_mem _ hb)) (a + 1, l0 ++ [l1])
    refine ⟨t, l1 :: l, ?_, .cons ⟨h1, fun x hx => ⟨k, hk, ek, h2 x hx⟩⟩ h3⟩
    rw [List.foldlM_cons]
    simp only [e1, ok_bind]
    refine e2.trans ?_
    rw [List.append_assoc]
    rfl

theorem Good.chain_ct {k : Nat} {p : Array Int} (h : Good k p) {b0 : Int} (hb0 : 0 ≤ b0) {B : Nat → Int}
    (hc : Chain ctSet p (fun m => 2 ^ m) k b0 B) : ∀ m, m ≤ k → 0 ≤ B m ∧ 2 ^ m * (B m + 8192) ≤ 5 ^ m * (b0 + 8192)
  | 0, _ => by rw [hc.1]; exact ⟨hb0, by omega⟩
  | m + 1, hm => by
    have ih := h.chain_ct hb0 hc m (by omega)
    obtain ⟨⟨x, y, w, hx, hy, ⟨i, -, hw⟩, hv⟩, -⟩ := hc.2 m hm
    have hw := h.all hw
    have h1 := red_small hw hy
    have h2 : 2 * B (m + 1) ≤ 5 * B m + 24574 := by
      rw [abs_le] at hx
      have hr := abs_le.1 (show |Spec.red (w * y)| ≤ |Spec.red (w * y)| from le_rfl)
      rcases hv with e | e <;> rw [e]
      · have : |x + Spec.red (w * y)| ≤ B m + |Spec.red (w * y)| := abs_le.2 ⟨by omega, by omega⟩
        omega
      · have : |x - Spec.red (w * y)| ≤ B m + |Spec.red (w * y)| := abs_le.2 ⟨by omega, by omega⟩
        omega
    refine ⟨by rcases hv with e | e <;> rw [e] <;> exact abs_nonneg _, ?_⟩
    calc (2 : Int) ^ (m + 1) * (B (m + 1) + 8192) = 2 ^ m * (2 * (B (m + 1) + 8192)) := by ring
      _ ≤ 2 ^ m * (5 * (B m + 8192)) := mul_le_mul_of_nonneg_left (by omega) (by positivity)
      _ = 5 * (2 ^ m * (B m + 8192)) := by ring
      _ ≤ 5 * (5 ^ m * (b0 + 8192)) := by omega
      _ = 5 ^ (m + 1) * (b0 + 8192) := by ring

theorem Good.chain_gs {k : Nat} {p : Array Int} (h : Good k p) {b0 : Int} (hb0 : 0 ≤ b0) {T : Nat → Nat} {B : Nat → Int}
    (hc : Chain gsSet p T k b0 B) : ∀ m, m ≤ k → 0 ≤ B m ∧ B m + 6144 ≤ 3 ^ m * (b0 + 6144)
  | 0, _ => by rw [hc.1]; exact ⟨hb0, by omega⟩
  | m + 1, hm => by
    have ih := h.chain_gs hb0 hc m (by omega)
    obtain ⟨⟨x, y, w, hx, hy, ⟨i, -, hw⟩, hv⟩, -⟩ := hc.2 m hm
    have hw := h.all hw
    rw [abs_le] at hx hy
    have h1 := red_small (b := 2 * B m) (y := x - y) hw (abs_le.2 ⟨by omega, by omega⟩)
    have h2 : B (m + 1) ≤ 3 * B m + 12287 := by
      rcases hv with e | e <;> rw [e]
      · exact abs_le.2 ⟨by omega, by omega⟩
      · omega
    refine ⟨by rcases hv with e | e <;> rw [e] <;> exact abs_nonneg _, ?_⟩
    calc B (m + 1) + 6144 ≤ 3 * (B m + 6144) := by omega
      _ ≤ 3 * (3 ^ m * (b0 + 6144)) := by omega
      _ = 3 ^ (m + 1) * (b0 + 6144) := by ring

/-- Bounds for the lines on Cooley-Tukey transforms. -/
theorem Good.ct_le {k : Nat} {p : Array Int} (h : Good k p) (hk : k ≤ 11) {x : TableLine} (hb0 : 0 ≤ x.b0) (hb1 : x.b0 ≤ 36864)
    (hl : TableLineOK k p x) : x.ct ≤ 1431647249 := by
  obtain ⟨⟨B, hc, e⟩, -⟩ := hl
  have := (h.chain_ct hb0 hc k le_rfl).2
  rw [← e] at this
  interval_cases k <;> norm_num at this <;> omega

theorem Good.gs_le {k : Nat} {p : Array Int} (h : Good k p) (hk : k ≤ 9) {x : TableLine} (hb0 : 0 ≤ x.b0) (hb1 : x.b0 ≤ 36864)
    (hl : TableLineOK k p x) : x.gs ≤ 1431647249 := by
  obtain ⟨-, ⟨B, hc, e⟩, -⟩ := hl
  have := (h.chain_gs hb0 hc k le_rfl).2
  rw [← e] at this
  interval_cases k <;> norm_num at this <;> omega

/-- The first entry of each round of a table without `psi`. -/
theorem one_of {k : Nat} {ω : Zq} {p : Array Int}
    (h : StdTable 3 1 ω (-6144) 6144 k p ∨ RevTable 3 1 ω (-6144) 6144 k p) : ∀ m, m < k → p[2 ^ m]? = some (-4096) := by
  intro m hm
  have key : 2 ^ k ≤ p.size ∧ (-6144 ≤ elt p (2 ^ m) ∧ elt p (2 ^ m) ≤ 6144) ∧ 3 * coeff p (2 ^ m) = 1 := by
    rcases h with h | h
    · have := h.2 m 0 hm (Nat.two_pow_pos m)
      rw [Nat.add_zero, pow_zero, one_pow, one_mul] at this
      exact ⟨h.1, this⟩
    · have := h.2 m 0 hm (Nat.two_pow_pos m)
      rw [show Spec.rev m 0 = 0 from rev_zero m, Nat.add_zero, pow_zero, one_pow, one_mul] at this
      exact ⟨h.1, this⟩
  obtain ⟨hs, hr, he⟩ := key
  have hi : 2 ^ m < p.size := lt_of_lt_of_le (Nat.pow_lt_pow_right (by norm_num) hm) hs
  have e : p[2 ^ m]? = some (elt p (2 ^ m)) := by unfold elt; rw [Array.getElem?_eq_getElem hi]; simp [hi]
  rw [e]
  congr 1
  have h2 : ((3 * elt p (2 ^ m) - 1 : Int) : Zq) = 0 := by
    push_cast
    rw [sub_eq_zero]
    exact he
  have h3 := (ZMod.intCast_zmod_eq_zero_iff_dvd _ 12289).1 h2
  omega

end TestRedBounds
