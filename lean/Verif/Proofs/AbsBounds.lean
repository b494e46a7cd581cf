import Verif.Proofs.AbsLoops
import Verif.Proofs.AnyTable

/-
Growth of the intervals in the abstract transforms: the same bounds as for the transforms themselves.
-/

namespace RedBounds
open C
open Spec (RedMulFits)

section attained
variable {E : Err → Prop} {a b low high : Int} (hab : a ≤ b)
  (hB : ∀ w, low ≤ w → w ≤ high → RedMulFits a b w) (hl64 : I64 low) (hh64 : I64 high)
include hab hB hl64 hh64

theorem att_maxNeg {h : Int} (h0 : h ≤ 0) :
    ∀ (fuel : Nat) (w : Int) (s : Best), h - w < fuel → (∀ v, w ≤ v → v < h → low ≤ v ∧ v ≤ high) →
      Att a b low high s → 0 < fuel →
      Wp E (maxNeg false a b h fuel w s) (fun s' => s.r ≤ s'.r ∧ Att a b low high s') := by
  intro fuel
  induction fuel with
  | zero => intro w s _ _ _ h; omega
  | succ fuel ih =>
    intro w s hf hr hA _
    unfold maxNeg
    split
    · next hwh =>
      have hw0 : w < 0 := by omega
      have hlw := hr w (le_refl w) hwh
      have hfw : RedMulFits a b w := hB w hlw.1 hlw.2
      rw [wp_bind]
      refine wp_dassert_pure (by simpa using hw0) ?_
      have hfb := redMulFits_mul hfw hab (le_refl b)
      simp only [wp_bind]
      refine wp_i64f (Or.inr ⟨by omega, by omega⟩) ?_
      unfold divd
      rw [NttRed.sar12]
      refine wp_i64f (Or.inr ⟨by omega, by omega⟩) ?_
      refine wp_i64f (Or.inr ⟨by omega, by omega⟩) ?_
      split
      · exact wp_pure.2 ⟨le_refl _, hA⟩
      · rw [wp_bind]
        refine (wp_max_red_mul (by omega) ⟨by have := hl64.1; omega, by have := hh64.2; omega⟩
          hab (Or.inr hfw)).mono ?_
        rintro ⟨r, x⟩ ⟨hx, hrx, hall⟩
        dsimp only at hx hrx hall ⊢
        rw [wp_bind]
        refine wp_i64f (Or.inr ⟨by have := hl64.1; omega, by omega⟩) ?_
        refine (ih (w + 1) _ (by omega) (fun v h1 h2 => hr v (by omega) h2) ?_ ?_).mono ?_
        · split
          · exact Or.inr ⟨hx, hlw, hrx⟩
          · exact hA
        · omega
        · rintro s' ⟨hs1, hs2⟩
          refine ⟨?_, hs2⟩
          split at hs1
          · dsimp only at hs1; omega
          · exact hs1
    · exact wp_pure.2 ⟨le_refl _, hA⟩

theorem att_maxPos {l : Int} (h0 : 0 ≤ l) :
    ∀ (fuel : Nat) (w : Int) (s : Best), w - l < fuel → (∀ v, v ≤ w → l < v → low ≤ v ∧ v ≤ high) →
      Att a b low high s → 0 < fuel →
      Wp E (maxPos false a b l fuel w s) (fun s' => s.r ≤ s'.r ∧ Att a b low high s') := by
  intro fuel
  induction fuel with
  | zero => intro w s _ _ _ h; omega
  | succ fuel ih =>
    intro w s hf hr hA _
    unfold maxPos
    split
    · next hwh =>
      have hw0 : 0 < w := by omega
      have hlw := hr w (le_refl w) hwh
      have hfw : RedMulFits a b w := hB w hlw.1 hlw.2
      rw [wp_bind]
      refine wp_dassert_pure (by simpa using hw0) ?_
      have hfb := redMulFits_mul hfw hab (le_refl b)
      simp only [wp_bind]
      refine wp_i64f (Or.inr (by have := redMulFits_w hfw; exact ⟨by omega, by omega⟩)) ?_
      rw [neg_mul]
      refine wp_i64f (Or.inr ⟨by omega, by omega⟩) ?_
      unfold divd
      rw [NttRed.sar12]
      refine wp_i64f (Or.inr ⟨by omega, by omega⟩) ?_
      refine wp_i64f (Or.inr ⟨by omega, by omega⟩) ?_
      split
      · exact wp_pure.2 ⟨le_refl _, hA⟩
      · rw [wp_bind]
        refine (wp_max_red_mul (by omega) ⟨by have := hl64.1; omega, by have := hh64.2; omega⟩
          hab (Or.inr hfw)).mono ?_
        rintro ⟨r, x⟩ ⟨hx, hrx, hall⟩
        dsimp only at hx hrx hall ⊢
        rw [wp_bind]
        refine wp_i64f (Or.inr ⟨by omega, by have := hh64.2; omega⟩) ?_
        refine (ih (w - 1) _ (by omega) (fun v h1 h2 => hr v (by omega) h2) ?_ ?_).mono ?_
        · split
          · exact Or.inr ⟨hx, hlw, hrx⟩
          · exact hA
        · omega
        · rintro s' ⟨hs1, hs2⟩
          refine ⟨?_, hs2⟩
          split at hs1
          · dsimp only at hs1; omega
          · exact hs1
    · exact wp_pure.2 ⟨le_refl _, hA⟩

omit hh64 in
theorem att_minNeg {h : Int} (h0 : h ≤ 1) :
    ∀ (fuel : Nat) (w : Int) (s : Best), h - w < fuel → (∀ v, w ≤ v → v < h → low ≤ v ∧ v ≤ high) →
      Att a b low high s → s.r ≤ 0 → 0 < fuel →
      Wp E (minNeg false a b h fuel w s) (fun s' => s'.r ≤ s.r ∧ Att a b low high s') := by
  intro fuel
  induction fuel with
  | zero => intro w s _ _ _ _ h; omega
  | succ fuel ih =>
    intro w s hf hr hA hs0 _
    unfold minNeg
    split
    · next hwh =>
      have hlw := hr w (le_refl w) hwh
      have hfw : RedMulFits a b w := hB w hlw.1 hlw.2
      have hfb := redMulFits_mul hfw hab (le_refl b)
      unfold dassert
      simp only [wp_bind]
      refine wp_pure.2 (wp_i64f (Or.inr (by have := redMulFits_w hfw; exact ⟨by omega, by omega⟩)) ?_)
      rw [neg_mul]
      refine wp_i64f (Or.inr ⟨by omega, by omega⟩) ?_
      unfold divd
      rw [NttRed.sar12]
      refine wp_i64f (Or.inr ⟨by omega, by omega⟩) ?_
      split
      · exact wp_pure.2 ⟨le_refl _, hA⟩
      · next he =>
        have hw : w ≠ 0 := by
          rintro rfl
          apply he
          rw [zero_mul]
          simpa using hs0
        rw [wp_bind]
        refine (wp_min_red_mul hw hab (Or.inr hfw)).mono ?_
        rintro ⟨r, x⟩ ⟨hx, hrx, hall⟩
        dsimp only at hx hrx hall ⊢
        rw [wp_bind]
        refine wp_i64f (Or.inr ⟨by have := hl64.1; omega, by omega⟩) ?_
        refine (ih (w + 1) _ (by omega) (fun v h1 h2 => hr v (by omega) h2) ?_ ?_ ?_).mono ?_
        · split
          · exact Or.inr ⟨hx, hlw, hrx⟩
          · exact hA
        · split
          · dsimp only; omega
          · exact hs0
        · omega
        · rintro s' ⟨hs1, hs2⟩
          refine ⟨?_, hs2⟩
          split at hs1
          · dsimp only at hs1; omega
          · exact hs1
    · exact wp_pure.2 ⟨le_refl _, hA⟩

omit hl64 in
theorem att_minPos {l : Int} (h0 : -1 ≤ l) :
    ∀ (fuel : Nat) (w : Int) (s : Best), w - l < fuel → (∀ v, v ≤ w → l < v → low ≤ v ∧ v ≤ high) →
      Att a b low high s → s.r ≤ 0 → 0 < fuel →
      Wp E (minPos false a b l fuel w s) (fun s' => s'.r ≤ s.r ∧ Att a b low high s') := by
  intro fuel
  induction fuel with
  | zero => intro w s _ _ _ _ h; omega
  | succ fuel ih =>
    intro w s hf hr hA hs0 _
    unfold minPos
    split
    · next hwh =>
      have hlw := hr w (le_refl w) hwh
      have hfw : RedMulFits a b w := hB w hlw.1 hlw.2
      have hfb := redMulFits_mul hfw hab (le_refl b)
      unfold dassert
      simp only [wp_bind]
      refine wp_pure.2 (wp_i64f (Or.inr ⟨by omega, by omega⟩) ?_)
      unfold divd
      rw [NttRed.sar12]
      refine wp_i64f (Or.inr ⟨by omega, by omega⟩) ?_
      split
      · exact wp_pure.2 ⟨le_refl _, hA⟩
      · next he =>
        have hw : w ≠ 0 := by
          rintro rfl
          apply he
          rw [zero_mul]
          simpa using hs0
        rw [wp_bind]
        refine (wp_min_red_mul hw hab (Or.inr hfw)).mono ?_
        rintro ⟨r, x⟩ ⟨hx, hrx, hall⟩
        dsimp only at hx hrx hall ⊢
        rw [wp_bind]
        refine wp_i64f (Or.inr ⟨by omega, by have := hh64.2; omega⟩) ?_
        refine (ih (w - 1) _ (by omega) (fun v h1 h2 => hr v (by omega) h2) ?_ ?_ ?_).mono ?_
        · split
          · exact Or.inr ⟨hx, hlw, hrx⟩
          · exact hA
        · split
          · dsimp only; omega
          · exact hs0
        · omega
        · rintro s' ⟨hs1, hs2⟩
          refine ⟨?_, hs2⟩
          split at hs1
          · dsimp only at hs1; omega
          · exact hs1
    · exact wp_pure.2 ⟨le_refl _, hA⟩

theorem att_max_interval (hlh : low ≤ high) :
    Wp E (max_red_mul_interval false a b low high) (fun s => 0 ≤ s.r ∧ Att a b low high s) := by
  unfold max_red_mul_interval
  rw [wp_bind]
  refine wp_dassert_pure (by simp [hab, hlh]) ?_
  have hh : Wp E (if high ≥ 0 then pure 0 else i64 (high + 1))
      (fun h => (0 ≤ high → h = 0) ∧ (high < 0 → h = high + 1)) := by
    split
    · rw [wp_pure]; exact ⟨fun _ => rfl, fun h => by omega⟩
    · exact wp_i64f (Or.inr ⟨by have := hh64.1; omega, by omega⟩) ⟨fun h => by omega, fun _ => rfl⟩
  have hl : Wp E (if low ≤ 0 then pure 0 else i64 (low - 1))
      (fun l => (low ≤ 0 → l = 0) ∧ (0 < low → l = low - 1)) := by
    split
    · rw [wp_pure]; exact ⟨fun _ => rfl, fun h => by omega⟩
    · exact wp_i64f (Or.inr ⟨by omega, by have := hl64.2; omega⟩) ⟨fun h => by omega, fun _ => rfl⟩
  simp only [wp_bind]
  refine hh.mono ?_
  rintro h ⟨hh1, hh2⟩
  refine (att_maxNeg hab hB hl64 hh64 (h := h) (by omega) _ _ ⟨0, 0, 0⟩ (by push_cast; omega)
    (fun v h1 h2 => ?_) (Or.inl rfl) (by omega)).mono ?_
  · split at h1 <;> omega
  rintro s ⟨hs1, hs2⟩
  refine hl.mono ?_
  rintro l ⟨hl1, hl2⟩
  refine (att_maxPos hab hB hl64 hh64 (l := l) (by omega) _ _ s (by push_cast; omega)
    (fun v h1 h2 => ?_) hs2 (by omega)).mono ?_
  · split at h1 <;> omega
  rintro s' ⟨hs1', hs2'⟩
  dsimp only at hs1
  exact ⟨by omega, hs2'⟩

theorem att_min_interval (hlh : low ≤ high) :
    Wp E (min_red_mul_interval false a b low high) (fun s => s.r ≤ 0 ∧ Att a b low high s) := by
  unfold min_red_mul_interval
  rw [wp_bind]
  refine wp_dassert_pure (by simp [hab, hlh]) ?_
  have hh : Wp E (if high > 0 then pure 0 else i64 (high + 1))
      (fun h => (0 < high → h = 0) ∧ (high ≤ 0 → h = high + 1)) := by
    split
    · rw [wp_pure]; exact ⟨fun _ => rfl, fun h => by omega⟩
    · exact wp_i64f (Or.inr ⟨by have := hh64.1; omega, by omega⟩) ⟨fun h => by omega, fun _ => rfl⟩
  have hl : Wp E (if low < 0 then pure 0 else i64 (low - 1))
      (fun l => (low < 0 → l = 0) ∧ (0 ≤ low → l = low - 1)) := by
    split
    · rw [wp_pure]; exact ⟨fun _ => rfl, fun h => by omega⟩
    · exact wp_i64f (Or.inr ⟨by omega, by have := hl64.2; omega⟩) ⟨fun h => by omega, fun _ => rfl⟩
  simp only [wp_bind]
  refine hh.mono ?_
  rintro h ⟨hh1, hh2⟩
  refine (att_minNeg hab hB hl64 (h := h) (by omega) _ _
    ⟨0, 0, 0⟩ (by push_cast; omega)
    (fun v h1 h2 => ?_) (Or.inl rfl) (le_refl _) (by omega)).mono ?_
  · split at h1 <;> omega
  rintro s ⟨hs1, hs2⟩
  refine hl.mono ?_
  rintro l ⟨hl1, hl2⟩
  dsimp only at hs1
  refine (att_minPos hab hB hh64 (l := l) (by omega) _ _ s
    (by push_cast; omega)
    (fun v h1 h2 => ?_) hs2 hs1 (by omega)).mono ?_
  · split at h1 <;> omega
  rintro s' ⟨hs1', hs2'⟩
  exact ⟨by omega, hs2'⟩

end attained

end RedBounds

namespace NttRedInterval
open C NTT Intervals RedBounds AnyTable
open Spec (RedMulFits)

/-- A non-empty interval included in `[-L, L]`. -/
def In (L : Int) (X : Ivl) : Prop := -L ≤ X.min ∧ X.min ≤ X.max ∧ X.max ≤ L

variable {τ : Type} {E : Err → Prop} {dbg : Bool} {n s t m : Nat} {L : Int}

/-- The multiplication takes intervals in `[-L, L]` to intervals in `[-(3 L + 24574) / 2, (3 L + 24574) / 2]`. -/
def MulIn (mul : Ivl → M Ivl) : Prop :=
  ∀ (L : Int) (X : Ivl), 0 ≤ L → L ≤ 1099511627776 → In L X → Wp NoErr (mul X)
    (fun R => R.min ≤ R.max ∧ -(3 * L + 24574) ≤ 2 * R.min ∧ 2 * R.max ≤ 3 * L + 24574)

theorem red_in {w x : Int} (hw : |w| ≤ 6144) (hx : |x| ≤ L) :
    -(3 * L + 24574) ≤ 2 * Spec.red (w * x) ∧ 2 * Spec.red (w * x) ≤ 3 * L + 24574 := by
  have := red_small hw hx
  have h := abs_le.1 (le_refl |Spec.red (w * x)|)
  omega

theorem fits_in {X : Ivl} (hL0 : 0 ≤ L) (hL : L ≤ 1099511627776) (h : In L X) {w : Int} (hw : |w| ≤ 6144) :
    RedMulFits X.min X.max w := by
  obtain ⟨h1, h2, h3⟩ := h
  have a1 : |X.min| ≤ L := abs_le.2 ⟨by omega, by omega⟩
  have a2 : |X.max| ≤ L := abs_le.2 ⟨by omega, by omega⟩
  have p1 : |w| * (|X.min| + 1) ≤ 6144 * (1099511627776 + 1) :=
    mul_le_mul hw (by omega) (by have := abs_nonneg X.min; omega) (by omega)
  have p2 : |w| * (|X.max| + 1) ≤ 6144 * (1099511627776 + 1) :=
    mul_le_mul hw (by omega) (by have := abs_nonneg X.max; omega) (by omega)
  unfold RedMulFits
  omega

theorem mulIn_scale {w : Int} (h0 : w ≠ 0) (hw : |w| ≤ 6144) : MulIn (red_scale dbg w) := by
  intro L X hL0 hL hX
  have hw' := abs_le.1 hw
  refine (wp_red_scale hX.2.1 h0 ⟨by omega, by omega⟩ (Or.inr (fits_in hL0 hL hX hw))).mono ?_
  rintro R ⟨hR, ⟨⟨x, hx, e1⟩, _⟩, ⟨y, hy, e2⟩, _⟩
  obtain ⟨h1, h2, h3⟩ := hX
  rw [mem_iff] at hx hy
  have i1 := red_in hw (x := x) (L := L) (abs_le.2 ⟨by omega, by omega⟩)
  have i2 := red_in hw (x := y) (L := L) (abs_le.2 ⟨by omega, by omega⟩)
  simp only at e1 e2
  rw [← e1] at i1
  rw [← e2] at i2
  exact ⟨hR, i1.1, i2.2⟩

theorem mulIn_mul {W : Ivl} (hW : In 6144 W) : MulIn (fun x => red_mul false x W) := by
  intro L X hL0 hL hX
  obtain ⟨w1, w2, w3⟩ := hW
  obtain ⟨x1, x2, x3⟩ := hX
  have prod : ∀ x w, X.min ≤ x → x ≤ X.max → W.min ≤ w → w ≤ W.max →
      -(3 * L + 24574) ≤ 2 * Spec.red (w * x) ∧ 2 * Spec.red (w * x) ≤ 3 * L + 24574 :=
    fun x w h1 h2 h3 h4 => red_in (abs_le.2 ⟨by omega, by omega⟩) (abs_le.2 ⟨by omega, by omega⟩)
  show Wp NoErr (red_mul false X W) _
  unfold red_mul
  simp only [wp_bind]
  refine wp_size x2 (Or.inr ⟨by omega, by omega⟩) (fun _ => ?_)
  refine wp_size w2 (Or.inr ⟨by omega, by omega⟩) (fun _ => ?_)
  have core : ∀ A B : Ivl, A.min ≤ A.max → B.min ≤ B.max → I64 B.min → I64 B.max →
      (∀ w, B.min ≤ w → w ≤ B.max → RedMulFits A.min A.max w) →
      (∀ x w, A.min ≤ x → x ≤ A.max → B.min ≤ w → w ≤ B.max →
        -(3 * L + 24574) ≤ 2 * Spec.red (w * x) ∧ 2 * Spec.red (w * x) ≤ 3 * L + 24574) →
      Wp NoErr (min_red_mul_interval false A.min A.max B.min B.max) (fun mn =>
        Wp NoErr (max_red_mul_interval false A.min A.max B.min B.max) (fun mx =>
          Wp NoErr (make_interval false mn.r mx.r) (fun R => R.min ≤ R.max ∧ -(3 * L + 24574) ≤ 2 * R.min ∧
            2 * R.max ≤ 3 * L + 24574))) := by
    intro A B hA hB hl hh hf hp
    refine (att_min_interval hA hf hl hh hB).mono ?_
    rintro mn ⟨mn0, mnA⟩
    refine (att_max_interval hA hf hl hh hB).mono ?_
    rintro mx ⟨mx0, mxA⟩
    refine wp_make (by omega) ⟨by simp only; omega, ?_, ?_⟩
    · rcases mnA with h | ⟨h1, h2, h3⟩
      · simp only [h]; omega
      · simp only [h3]; exact (hp _ _ h1.1 h1.2 h2.1 h2.2).1
    · rcases mxA with h | ⟨h1, h2, h3⟩
      · simp only [h]; omega
      · simp only [h3]; exact (hp _ _ h1.1 h1.2 h2.1 h2.2).2
  split
  · refine core W X w2 x2 ⟨by omega, by omega⟩ ⟨by omega, by omega⟩ ?_ ?_
    · intro w h1 h2
      have aw : |w| ≤ L := abs_le.2 ⟨by omega, by omega⟩
      have a1 : |W.min| ≤ 6144 := abs_le.2 ⟨by omega, by omega⟩
      have a2 : |W.max| ≤ 6144 := abs_le.2 ⟨by omega, by omega⟩
      have p1 : |w| * (|W.min| + 1) ≤ 1099511627776 * (6144 + 1) :=
        mul_le_mul (by omega) (by omega) (by have := abs_nonneg W.min; omega) (by omega)
      have p2 : |w| * (|W.max| + 1) ≤ 1099511627776 * (6144 + 1) :=
        mul_le_mul (by omega) (by omega) (by have := abs_nonneg W.max; omega) (by omega)
      unfold RedMulFits
      omega
    · intro x w h1 h2 h3 h4
      rw [mul_comm w x]
      exact prod w x h3 h4 h1 h2
  · exact core X W x2 w2 ⟨by omega, by omega⟩ ⟨by omega, by omega⟩
      (fun w h1 h2 => fits_in hL0 hL ⟨x1, x2, x3⟩ (abs_le.2 ⟨by omega, by omega⟩)) prod

theorem bf0_in {L' : Int} (hL' : L' ≤ 1099511627776) (h2 : 2 * L ≤ L') :
    BfSpec NoErr (absBf0 dbg s t) n s t (fun _ => In L) (fun _ => In L') := by
  rintro a Y X ha hY hX ⟨y1, y2, y3⟩ ⟨x1, x2, x3⟩
  unfold absBf0
  simp only [wp_bind]
  refine wp_rd_some hX (wp_rd_some hY ?_)
  refine wp_sub y2 x2 (Or.inr ⟨⟨by omega, by omega⟩, ⟨by omega, by omega⟩⟩) ?_
  refine wp_wr (getElem?_lt hX) ?_
  refine wp_add y2 x2 (Or.inr ⟨⟨by omega, by omega⟩, ⟨by omega, by omega⟩⟩) ?_
  refine wp_wr (by simpa using getElem?_lt hY) ⟨_, _, rfl, ?_, ?_⟩
  · unfold In; simp only; omega
  · unfold In; simp only; omega

theorem ct_in {mul : Ivl → M Ivl} {L' : Int} (hm : MulIn mul) (hL0 : 0 ≤ L) (hL : L ≤ 1099511627776)
    (hL' : L' ≤ 1099511627776) (h2 : (5 * L + 24575) / 2 ≤ L') :
    BfSpec NoErr (absCt dbg mul s t) n s t (fun _ => In L) (fun _ => In L') := by
  rintro a Y X ha hY hX ⟨y1, y2, y3⟩ hIX
  unfold absCt
  simp only [wp_bind]
  refine wp_rd_some hX (wp_rd_some hY ?_)
  refine (hm L X hL0 hL hIX).mono ?_
  rintro R ⟨r1, r2, r3⟩
  refine wp_sub y2 r1 (Or.inr ⟨⟨by omega, by omega⟩, ⟨by omega, by omega⟩⟩) ?_
  refine wp_wr (getElem?_lt hX) ?_
  refine wp_add y2 r1 (Or.inr ⟨⟨by omega, by omega⟩, ⟨by omega, by omega⟩⟩) ?_
  refine wp_wr (by simpa using getElem?_lt hY) ⟨_, _, rfl, ?_, ?_⟩
  · unfold In; simp only; omega
  · unfold In; simp only; omega

theorem gs_in {mul : Ivl → M Ivl} {L' : Int} (hm : MulIn mul) (hL0 : 0 ≤ L)
    (hL' : L' ≤ 1099511627776) (h2 : 3 * L + 12287 ≤ L') :
    BfSpec NoErr (absGs dbg mul s t) n s t (fun _ => In L) (fun _ => In L') := by
  rintro a Y X ha hY hX ⟨y1, y2, y3⟩ ⟨x1, x2, x3⟩
  unfold absGs
  simp only [wp_bind]
  refine wp_rd_some hX (wp_rd_some hY ?_)
  refine wp_sub y2 x2 (Or.inr ⟨⟨by omega, by omega⟩, ⟨by omega, by omega⟩⟩) ?_
  refine (hm (2 * L) _ (by omega) (by omega) (by unfold In; simp only; omega)).mono ?_
  rintro R ⟨r1, r2, r3⟩
  refine wp_wr (getElem?_lt hX) ?_
  refine wp_add y2 x2 (Or.inr ⟨⟨by omega, by omega⟩, ⟨by omega, by omega⟩⟩) ?_
  refine wp_wr (by simpa using getElem?_lt hY) ⟨_, _, rfl, ?_, ?_⟩
  · unfold In; simp only; omega
  · unfold In; omega

/-! ### The transforms -/

theorem idx_lt {k m j : Nat} (hm : m < k) (hj : j < 2 ^ m) : 0 < 2 ^ m + j ∧ 2 ^ m + j < 2 ^ k := by
  have h1 : 2 ^ (m + 1) ≤ 2 ^ k := Nat.pow_le_pow_right (by omega) hm
  have h2 := Nat.two_pow_pos m
  rw [pow_succ] at h1
  omega

section
variable {mul : τ → Ivl → M Ivl} {k : Nat} {p : Array τ} {A : Array Ivl}
  (hp : 2 ^ k ≤ p.size) (hmul : ∀ i w, 0 < i → i < 2 ^ k → p[i]? = some w → MulIn (mul w))
  (hA : A.size = 2 ^ k) (hI : ∀ (i : Nat) (X : Ivl), A[i]? = some X → In 21499 X)
include hp hmul hA hI

/-- What the runs give: the arrays displayed before each round and at the end, within the bounds. -/
abbrev Bounded (k : Nat) (B : Nat → Int) (r : Array Ivl × List Shown) : Prop :=
  PW (2 ^ k) (fun _ => In (B k)) r.1 ∧ Logged (2 ^ k) (fun m _ => In (B m)) (k + 1) r.2

theorem ctRev_in (hk : k ≤ 12) : Wp NoErr
    (absUp (fun t _ a => roundA (absBf0 dbg) (fun w => absCt dbg (mul w)) (2 ^ k) p t a) A (2 ^ k))
    (Bounded k ctB) := by
  refine wp_absUp (P := fun m _ => In (ctB m)) (by omega) (fun m c hm hc => ?_) ⟨hA, hI⟩
  obtain ⟨h0, h1, h2⟩ := ctB_ok m (by omega)
  have e : ctB (m + 1) = (5 * ctB m + 24575) / 2 := rfl
  have hp0 := Nat.two_pow_pos m
  exact wp_roundA (pow_split hm) (pow31 (by omega)) hp0 (Nat.pow_lt_pow_right (by omega) (by omega)) hp
    (fun b hb => bf0_in (by omega) (by omega))
    (fun b j w hb hj0 hj hw => ct_in (hmul _ w (idx_lt hm hj).1 (idx_lt hm hj).2 hw) h0 (by omega) (by omega) (by omega)) hc

theorem mulCtRev_in (hk : k ≤ 12) : Wp NoErr
    (absUp (fun t _ a => roundAMul (fun w => absCt dbg (mul w)) (2 ^ k) p t a) A (2 ^ k))
    (Bounded k ctB) := by
  refine wp_absUp (P := fun m _ => In (ctB m)) (by omega) (fun m c hm hc => ?_) ⟨hA, hI⟩
  obtain ⟨h0, h1, h2⟩ := ctB_ok m (by omega)
  have e : ctB (m + 1) = (5 * ctB m + 24575) / 2 := rfl
  have hp0 := Nat.two_pow_pos m
  exact wp_roundAMul (pow_split hm) (pow31 (by omega)) hp0 (Nat.pow_lt_pow_right (by omega) (by omega)) hp
    (fun b j w hb hj hw => ct_in (hmul _ w (idx_lt hm hj).1 (idx_lt hm hj).2 hw) h0 (by omega) (by omega) (by omega)) hc

theorem ctStd_in (hk : k ≤ 12) : Wp NoErr
    (absUp (fun t d a => roundBCt (absBf0 dbg) (fun w => absCt dbg (mul w)) p t d a) A (2 ^ k))
    (Bounded k ctB) := by
  refine wp_absUp (P := fun m _ => In (ctB m)) (by omega) (fun m c hm hc => ?_) ⟨hA, hI⟩
  obtain ⟨h0, h1, h2⟩ := ctB_ok m (by omega)
  have e : ctB (m + 1) = (5 * ctB m + 24575) / 2 := rfl
  have hp0 := Nat.two_pow_pos (k - 1 - m)
  exact wp_roundBCt (pow_split' hm) (pow31 (by omega)) (Nat.two_pow_pos _) hp0 hp
    (fun r h => bf0_in (by omega) (by omega))
    (fun j r w hj0 hj h hw => ct_in (hmul _ w (idx_lt hm hj).1 (idx_lt hm hj).2 hw) h0 (by omega) (by omega) (by omega)) hc

theorem mulCtStd_in (hk : k ≤ 12) : Wp NoErr
    (absUp (fun t d a => roundBMul (fun w => absCt dbg (mul w)) p t d a) A (2 ^ k))
    (Bounded k ctB) := by
  refine wp_absUp (P := fun m _ => In (ctB m)) (by omega) (fun m c hm hc => ?_) ⟨hA, hI⟩
  obtain ⟨h0, h1, h2⟩ := ctB_ok m (by omega)
  have e : ctB (m + 1) = (5 * ctB m + 24575) / 2 := rfl
  have hp0 := Nat.two_pow_pos (k - 1 - m)
  exact wp_roundBMul (pow_split' hm) (pow31 (by omega)) (Nat.two_pow_pos _) hp0 hp
    (fun j r w hj h hw => ct_in (hmul _ w (idx_lt hm hj).1 (idx_lt hm hj).2 hw) h0 (by omega) (by omega) (by omega)) hc

theorem gsRev_in (hk : k ≤ 10) : Wp NoErr
    (absUp (fun d t a => roundBGs (absBf0 dbg) (fun w => absGs dbg (mul w)) p t d a) A (2 ^ k))
    (Bounded k gsB) := by
  refine wp_absUp (P := fun m _ => In (gsB m)) (by omega) (fun m c hm hc => ?_) ⟨hA, hI⟩
  obtain ⟨h0, h1, h2⟩ := gsB_ok m (by omega)
  have e : gsB (m + 1) = 3 * gsB m + 12287 := rfl
  have hp0 := Nat.two_pow_pos m
  have hm' : k - 1 - m < k := by omega
  exact wp_roundBGs (pow_split hm) (pow31 (by omega)) (Nat.two_pow_pos _) hp0 hp
    (fun r h => bf0_in (by omega) (by omega))
    (fun j r w hj0 hj h hw => gs_in (hmul _ w (idx_lt hm' hj).1 (idx_lt hm' hj).2 hw) h0 (by omega) (by omega)) hc

theorem gsMulRev_in (hk : k ≤ 10) : Wp NoErr
    (absUp (fun d t a => roundBMul (fun w => absGs dbg (mul w)) p t d a) A (2 ^ k))
    (Bounded k gsB) := by
  refine wp_absUp (P := fun m _ => In (gsB m)) (by omega) (fun m c hm hc => ?_) ⟨hA, hI⟩
  obtain ⟨h0, h1, h2⟩ := gsB_ok m (by omega)
  have e : gsB (m + 1) = 3 * gsB m + 12287 := rfl
  have hp0 := Nat.two_pow_pos m
  have hm' : k - 1 - m < k := by omega
  exact wp_roundBMul (pow_split hm) (pow31 (by omega)) (Nat.two_pow_pos _) hp0 hp
    (fun j r w hj h hw => gs_in (hmul _ w (idx_lt hm' hj).1 (idx_lt hm' hj).2 hw) h0 (by omega) (by omega)) hc

theorem gsStd_in (hk : k ≤ 10) : Wp NoErr
    (absDown (fun t a => roundA (absBf0 dbg) (fun w => absGs dbg (mul w)) (2 ^ k) p t a) A (2 ^ k))
    (Bounded k gsB) := by
  refine wp_absDown (P := fun m _ => In (gsB m)) (by omega) (fun m c hm hc => ?_) ⟨hA, hI⟩
  obtain ⟨h0, h1, h2⟩ := gsB_ok m (by omega)
  have e : gsB (m + 1) = 3 * gsB m + 12287 := rfl
  have hp0 := Nat.two_pow_pos (k - 1 - m)
  have hm' : k - 1 - m < k := by omega
  exact wp_roundA (pow_split' hm) (pow31 (by omega)) hp0 (Nat.pow_lt_pow_right (by omega) (by omega)) hp
    (fun b hb => bf0_in (by omega) (by omega))
    (fun b j w hb hj0 hj hw => gs_in (hmul _ w (idx_lt hm' hj).1 (idx_lt hm' hj).2 hw) h0 (by omega) (by omega)) hc

theorem gsMulStd_in (hk : k ≤ 10) : Wp NoErr
    (absDown (fun t a => roundAMul (fun w => absGs dbg (mul w)) (2 ^ k) p t a) A (2 ^ k))
    (Bounded k gsB) := by
  refine wp_absDown (P := fun m _ => In (gsB m)) (by omega) (fun m c hm hc => ?_) ⟨hA, hI⟩
  obtain ⟨h0, h1, h2⟩ := gsB_ok m (by omega)
  have e : gsB (m + 1) = 3 * gsB m + 12287 := rfl
  have hp0 := Nat.two_pow_pos (k - 1 - m)
  have hm' : k - 1 - m < k := by omega
  exact wp_roundAMul (pow_split' hm) (pow31 (by omega)) hp0 (Nat.pow_lt_pow_right (by omega) (by omega)) hp
    (fun b j w hb hj hw => gs_in (hmul _ w (idx_lt hm' hj).1 (idx_lt hm' hj).2 hw) h0 (by omega) (by omega)) hc

end

end NttRedInterval
