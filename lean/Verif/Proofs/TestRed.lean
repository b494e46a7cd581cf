import Verif.SpecTestRed
import Verif.Proofs.RedBounds

/-
Proofs about src/test_red.c.
-/

namespace TestRed
open C Spec
open NttRed (ok_bind)

theorem i64_ok {x : Int} (h : I64 x) : i64 x = .ok x := by unfold i64; rw [if_pos h]

theorem cdiv_ok {x y : Int} (h : y ≠ 0) : cdiv x y = .ok (x.tdiv y) := by unfold cdiv; rw [if_neg h]

theorem red_eq {x : Int} (h : I64 x) : TestRed.red x = .ok (Spec.red x) := by
  unfold TestRed.red
  unfold I64 at h
  rw [NttRed.land64_4095, NttRed.sar12, i64_ok ⟨by omega, by omega⟩, ok_bind, i64_ok ⟨by omega, by omega⟩]
  rfl

/-- `red(x)` does not fit in `int32_t`. -/
def Over (x : Int) : Prop := Spec.red x < -2147483648 ∨ 2147483647 < Spec.red x

instance (x : Int) : Decidable (Over x) := inferInstanceAs (Decidable (_ ∨ _))

theorem test_overflow_eq {x : Int} (h : I64 x) : test_overflow x = .ok (decide (Over x)) := by
  unfold test_overflow
  rw [red_eq h, ok_bind]
  show Except.ok _ = _
  congr 1
  unfold Over
  by_cases h1 : 2147483647 < Spec.red x <;> by_cases h2 : Spec.red x < -2147483648 <;> simp [h1, h2]

theorem overflow_loop_eq {x : Int} (hx : -2251799813685248 ≤ x ∧ x ≤ 2251799813685247) : ∀ (fuel : Nat) (w : Int), 0 ≤ w →
    w ≤ 4096 → 4096 - w < fuel → ∃ b, overflow_loop (x * 4096) fuel w = .ok b ∧
      (b = true ↔ ∃ v, w ≤ v ∧ v < 4096 ∧ Over (x * 4096 + v)) := by
  intro fuel
  induction fuel with
  | zero => intro w h1 h2 h3; omega
  | succ f ih =>
    intro w h1 h2 h3
    unfold overflow_loop
    by_cases hw : w < 4096
    · rw [if_pos hw, i64_ok ⟨by omega, by omega⟩, ok_bind, test_overflow_eq ⟨by omega, by omega⟩, ok_bind]
      by_cases ho : Over (x * 4096 + w)
      · exact ⟨true, by simp [ho]; rfl, fun _ => ⟨w, by omega, hw, ho⟩, fun _ => rfl⟩
      · obtain ⟨b, e, hb⟩ := ih (w + 1) (by omega) (by omega) (by omega)
        refine ⟨b, ?_, hb.trans ⟨?_, ?_⟩⟩
        · simp only [ho, decide_false, Bool.false_eq_true, if_false]
          rw [i64_ok ⟨by omega, by omega⟩, ok_bind, e]
        · rintro ⟨v, h1, h2, h3⟩; exact ⟨v, by omega, h2, h3⟩
        · rintro ⟨v, h1, h2, h3⟩
          refine ⟨v, ?_, h2, h3⟩
          by_contra hv
          exact ho ((show v = w by omega) ▸ h3)
    · rw [if_neg hw]
      exact ⟨false, rfl, ⟨fun h => absurd h (by decide), by rintro ⟨v, h1, h2, -⟩; omega⟩⟩

theorem over_block {x : Int} : (∃ v, 0 ≤ v ∧ v < 4096 ∧ Over (x * 4096 + v)) ↔ x < -2147471362 ∨ 2147483648 < x := by
  unfold Over Spec.red
  constructor
  · rintro ⟨v, h1, h2, h3⟩; omega
  · rintro (h | h)
    · exact ⟨4095, by omega, by omega, by omega⟩
    · exact ⟨0, by omega, by omega, by omega⟩

theorem test_overflow2_eq {x : Int} (hx : -2251799813685248 ≤ x ∧ x ≤ 2251799813685247) :
    test_overflow2 x = .ok (decide (x < -2147471362 ∨ 2147483648 < x)) := by
  unfold test_overflow2
  rw [i64_ok ⟨by omega, by omega⟩, ok_bind]
  obtain ⟨b, e, hb⟩ := overflow_loop_eq hx 4097 0 (by omega) (by omega) (by omega)
  rw [e]
  rw [over_block] at hb
  congr 1
  rw [Bool.eq_iff_iff, hb, decide_eq_true_eq]

theorem lower_loop_eq : ∀ (fuel : Nat) (l h : Int), -2251799813685248 ≤ l → l < -2147471362 → -2147471362 ≤ h → h ≤ -1 → 2 ≤ h - l →
    h - l ≤ 2 ^ fuel → lower_loop fuel l h = .ok (-2147471362) := by
  intro fuel
  induction fuel with
  | zero => intro l h _ _ _ _ h1 h2; rw [pow_zero] at h2; omega
  | succ f ih =>
    intro l h hl1 hl2 hh1 hh2 h1 h2
    rw [pow_succ] at h2
    have hd : (l + h).tdiv 2 = -(-(l + h) / 2) := by
      have : l + h = -(-(l + h)) := by ring
      rw [this, Int.neg_tdiv, Int.tdiv_eq_ediv_of_nonneg (by omega), neg_neg]
    unfold lower_loop
    rw [i64_ok ⟨by omega, by omega⟩, ok_bind, cdiv_ok (by norm_num), ok_bind, hd]
    generalize hx : -(-(l + h) / 2) = x
    have hx1 : l < x ∧ x < h := by omega
    have : (decide (l < x) && decide (x ≤ h)) = true := by
      rw [decide_eq_true hx1.1, decide_eq_true hx1.2.le]; rfl
    rw [this]
    show (i64 (l + 1) >>= _) = _
    rw [i64_ok ⟨by omega, by omega⟩, ok_bind, test_overflow2_eq ⟨by omega, by omega⟩, ok_bind]
    by_cases ho : x < -2147471362
    · rw [decide_eq_true (Or.inl ho), if_pos rfl, i64_ok ⟨by omega, by omega⟩, ok_bind]
      by_cases hc : x + 1 < h
      · rw [if_pos hc]
        exact ih x h (by omega) ho hh1 hh2 (by omega) (by omega)
      · rw [if_neg hc]
        show Except.ok _ = _
        congr 1; omega
    · rw [decide_eq_false (by omega), if_neg (by decide)]
      by_cases hc : l + 1 < x
      · rw [if_pos hc]
        exact ih l x hl1 hl2 (by omega) (by omega) (by omega) (by omega)
      · rw [if_neg hc]
        show Except.ok _ = _
        congr 1; omega

theorem upper_loop_eq : ∀ (fuel : Nat) (l h : Int), 0 ≤ l → l ≤ 2147483648 → 2147483648 < h → h ≤ 2251799813685247 → 2 ≤ h - l →
    h - l ≤ 2 ^ fuel → upper_loop fuel l h = .ok 2147483648 := by
  intro fuel
  induction fuel with
  | zero => intro l h _ _ _ _ h1 h2; rw [pow_zero] at h2; omega
  | succ f ih =>
    intro l h hl1 hl2 hh1 hh2 h1 h2
    rw [pow_succ] at h2
    have hd : (l + h).tdiv 2 = (l + h) / 2 := Int.tdiv_eq_ediv_of_nonneg (by omega)
    unfold upper_loop
    rw [i64_ok ⟨by omega, by omega⟩, ok_bind, cdiv_ok (by norm_num), ok_bind, hd]
    generalize hx : (l + h) / 2 = x
    have hx1 : l < x ∧ x < h := by omega
    have : (decide (l ≤ x) && decide (x < h)) = true := by
      rw [decide_eq_true hx1.1.le, decide_eq_true hx1.2]; rfl
    rw [this]
    show (i64 (l + 1) >>= _) = _
    rw [i64_ok ⟨by omega, by omega⟩, ok_bind, test_overflow2_eq ⟨by omega, by omega⟩, ok_bind]
    by_cases ho : 2147483648 < x
    · rw [decide_eq_true (Or.inr ho), if_pos rfl]
      by_cases hc : l + 1 < x
      · rw [if_pos hc]
        exact ih l x hl1 hl2 (by omega) (by omega) (by omega) (by omega)
      · rw [if_neg hc]
        show Except.ok _ = _
        congr 1; omega
    · rw [decide_eq_false (by omega), if_neg (by decide), i64_ok ⟨by omega, by omega⟩, ok_bind]
      by_cases hc : x + 1 < h
      · rw [if_pos hc]
        exact ih x h (by omega) (by omega) hh1 hh2 (by omega) (by omega)
      · rw [if_neg hc]
        show Except.ok _ = _
        congr 1; omega

theorem find_lower_bound_eq : find_lower_bound = .ok (-8796042698752) := by
  unfold find_lower_bound
  rw [lower_loop_eq 64 _ _ (by norm_num) (by norm_num) (by norm_num) (by norm_num) (by norm_num) (by norm_num), ok_bind,
    i64_ok ⟨by norm_num, by norm_num⟩]
  norm_num

theorem find_upper_bound_eq : find_upper_bound = .ok 8796093026303 := by
  unfold find_upper_bound
  rw [upper_loop_eq 64 _ _ (by norm_num) (by norm_num) (by norm_num) (by norm_num) (by norm_num) (by norm_num), ok_bind,
    i64_ok ⟨by norm_num, by norm_num⟩, ok_bind, i64_ok ⟨by norm_num, by norm_num⟩]
  norm_num

/-- The loops that print overflows: in increasing order, the values in `pts` that have been passed. -/
theorem scan_eq {bound start stop : Int} (h1 : -4611686018427387904 ≤ bound ∧ bound ≤ 4611686018427387903)
    (h2 : -1000000000 ≤ start) (h3 : start ≤ stop) (h4 : stop ≤ 1000000000) {pts : List Int} (hs : pts.Pairwise (· < ·))
    (hp : ∀ x, start ≤ x → x < stop → (Over (bound + x) ↔ x ∈ pts)) (hin : ∀ x ∈ pts, start ≤ x ∧ x < stop) :
    scan bound start stop = .ok pts := by
  have key : Wp NoErr (cwhile (fun s : Int × List Int => decide (s.1 < stop)) (fun s => do
    let y ← i64 (bound + s.1)
    let b ← test_overflow y
    let x ← i64 (s.1 + 1)
    pure (x, if b then s.2 ++ [s.1] else s.2)) ((stop - start).toNat + 1) (start, []))
      (fun s => s.2 = pts) := by
    refine wp_cwhile (fun s : Int × List Int => (start ≤ s.1 ∧ s.1 ≤ stop) ∧ s.2 = pts.filter (fun x => decide (x < s.1)))
      (fun s => (stop - s.1).toNat) ?_ ?_ _ _ (by simp) ⟨⟨le_refl _, h3⟩, ?_⟩
    · rintro ⟨x, l⟩ ⟨hx, hl⟩ hc
      have hc := of_decide_eq_true hc
      dsimp only at hx hl hc ⊢
      simp only [wp_bind]
      refine wp_i64 ⟨by omega, by omega⟩ ?_
      rw [test_overflow_eq ⟨by omega, by omega⟩, wp_ok]
      refine wp_i64 ⟨by omega, by omega⟩ ?_
      rw [wp_pure]
      refine ⟨⟨⟨by dsimp only; omega, by dsimp only; omega⟩, ?_⟩, by dsimp only; omega⟩
      dsimp only
      rw [hl]
      clear hl hin
      have hp := hp x hx.1 hc
      clear h1 h2 h3 h4
      by_cases ho : Over (bound + x)
      · simp only [ho, decide_true, if_true]
        have hm := hp.1 ho
        clear hp ho
        clear * - hs hm
        induction pts with
        | nil => cases hm
        | cons p ps ih =>
          rw [List.pairwise_cons] at hs
          rcases List.mem_cons.1 hm with rfl | hm
          · have e1 : ps.filter (fun y => decide (y < x)) = [] := by
              rw [List.filter_eq_nil_iff]; intro y hy
              have := hs.1 y hy
              simp; omega
            have e2 : ps.filter (fun y => decide (y < x + 1)) = [] := by
              rw [List.filter_eq_nil_iff]; intro y hy
              have := hs.1 y hy
              simp; omega
            rw [List.filter_cons_of_neg (by simp), List.filter_cons_of_pos (by simp), e1, e2]
            rfl
          · have := hs.1 x hm
            rw [List.filter_cons_of_pos (by simpa using this), List.filter_cons_of_pos (by simp; omega), List.cons_append,
              ih hs.2 hm]
      · simp only [ho, decide_false, Bool.false_eq_true, if_false]
        refine List.filter_congr fun y hy => ?_
        have : y ≠ x := fun h => ho (hp.2 (h ▸ hy))
        simp only [decide_eq_decide]; omega
    · rintro ⟨x, l⟩ ⟨hx, hl⟩ hc
      have hc := of_decide_eq_false hc
      dsimp only at hx hl hc ⊢
      rw [hl, List.filter_eq_self]
      intro y hy
      have := hin y hy
      simp; omega
    · symm
      rw [List.filter_eq_nil_iff]
      intro y hy
      have := hin y hy
      simp; omega
  obtain ⟨s, e, h⟩ := wp_total.1 key
  unfold scan
  rw [e, ok_bind, ← h]
  rfl

/-! ### Bounds -/

theorem red_mul_bound {b y w : Int} (hy : |y| ≤ b) (hw : |w| ≤ 12288) :
    -(3 * b) ≤ Spec.red (w * y) ∧ (Spec.red (w * y) ≤ 3 * b ∨ Spec.red (w * y) ≤ 3 * b + 12285 - b / 4096) := by
  have hb : 0 ≤ b := le_trans (abs_nonneg _) hy
  by_cases h : |w| ≤ 12287
  · have hz : |w * y| ≤ 12287 * b := by
      rw [abs_mul]; exact mul_le_mul h hy (abs_nonneg _) (by norm_num)
    rw [abs_le] at hz
    generalize w * y = z at *
    unfold Spec.red
    constructor
    · omega
    · right; omega
  · have hw' : w = 12288 ∨ w = -12288 := by
      rw [abs_le] at hw
      rcases le_or_gt 0 w with h0 | h0
      · left; rw [abs_of_nonneg h0] at h; omega
      · right; rw [abs_of_neg h0] at h; omega
    rw [abs_le] at hy
    unfold Spec.red
    rcases hw' with rfl | rfl
    · constructor
      · omega
      · left; omega
    · constructor
      · omega
      · left; omega

theorem ct_round {b b' : Int} (h : 4 * b ≤ b') (h' : 4 * b + 12285 - b / 4096 ≤ b') : CtRound b b' := by
  intro x y w hx hy hw
  have := red_mul_bound hy hw
  rw [abs_le] at hx
  rw [abs_le, abs_le]
  generalize Spec.red (w * y) = z at *
  omega

theorem gs_round {b b' : Int} (h : 6 * b ≤ b') (h' : 6 * b + 12285 - 2 * b / 4096 ≤ b') : GsRound b b' := by
  intro x y w hx hy hw
  have hxy : |x - y| ≤ 2 * b := by rw [abs_le] at *; omega
  have := red_mul_bound hxy hw
  rw [abs_le] at hx hy
  rw [abs_le, abs_le]
  generalize Spec.red (w * (x - y)) = z at *
  omega

theorem reduces {b b' : Int} (h : b / 4096 + 12286 ≤ b') : Reduces b b' := by
  intro x hx
  rw [abs_le] at *
  unfold Spec.red
  omega

theorem tdiv_nonneg {x : Int} (h : 0 ≤ x) : x.tdiv 4096 = x / 4096 := Int.tdiv_eq_ediv_of_nonneg h

section
variable {b : Int} (hb : 0 ≤ b) (hb' : b ≤ 1000000000000000000)
include hb hb'

theorem reduced_bound_eq : reduced_bound b = .ok (b / 4096 + 12286) := by
  unfold reduced_bound
  rw [cdiv_ok (by norm_num), ok_bind, tdiv_nonneg hb, i64_ok ⟨by omega, by omega⟩, ok_bind, i64_ok ⟨by omega, by omega⟩]
  congr 1; omega

theorem ct_bound0_eq : ct_bound0 b = .ok (4 * b + 12286) := by
  unfold ct_bound0
  rw [i64_ok ⟨by omega, by omega⟩, ok_bind, i64_ok ⟨by omega, by omega⟩, ok_bind, i64_ok ⟨by omega, by omega⟩]
  congr 1; omega

theorem gs_bound0_eq : gs_bound0 b = .ok (6 * b + 12286) := by
  unfold gs_bound0
  rw [i64_ok ⟨by omega, by omega⟩, ok_bind, i64_ok ⟨by omega, by omega⟩, ok_bind, i64_ok ⟨by omega, by omega⟩]
  congr 1; omega

theorem ct_bound_eq : ct_bound b = .ok (4 * b + max 0 (12286 - (b + 1) / 4096)) := by
  unfold ct_bound
  rw [i64_ok ⟨by omega, by omega⟩, ok_bind, cdiv_ok (by norm_num), ok_bind, tdiv_nonneg (by omega), i64_ok ⟨by omega, by omega⟩,
    ok_bind, i64_ok ⟨by omega, by omega⟩, ok_bind]
  split
  · show Except.ok _ = _
    congr 1; omega
  · rw [i64_ok ⟨by omega, by omega⟩]
    congr 1; omega

theorem gs_bound_eq : gs_bound b = .ok (6 * b + max 0 (12286 - (2 * b + 1) / 4096)) := by
  unfold gs_bound
  rw [i64_ok ⟨by omega, by omega⟩, ok_bind, i64_ok ⟨by omega, by omega⟩, ok_bind, cdiv_ok (by norm_num), ok_bind,
    tdiv_nonneg (by omega), i64_ok ⟨by omega, by omega⟩, ok_bind, i64_ok ⟨by omega, by omega⟩, ok_bind]
  split
  · show Except.ok _ = _
    congr 1; omega
  · rw [i64_ok ⟨by omega, by omega⟩]
    congr 1; omega

end

/-- `f` computes a bound for a round. -/
def BoundFor (R : Int → Int → Prop) (f : Int → M Int) : Prop :=
  ∀ b, 0 ≤ b → b ≤ 1000000000000000000 → ∃ b', f b = .ok b' ∧ R b b'

theorem bound_ct0 : BoundFor CtRound ct_bound0 := fun _ h h' => ⟨_, ct_bound0_eq h h', ct_round (by omega) (by omega)⟩
theorem bound_ct : BoundFor CtRound ct_bound := fun _ h h' => ⟨_, ct_bound_eq h h', ct_round (by omega) (by omega)⟩
theorem bound_gs0 : BoundFor GsRound gs_bound0 := fun _ h h' => ⟨_, gs_bound0_eq h h', gs_round (by omega) (by omega)⟩
theorem bound_gs : BoundFor GsRound gs_bound := fun _ h h' => ⟨_, gs_bound_eq h h', gs_round (by omega) (by omega)⟩
theorem bound_reduced : BoundFor Reduces reduced_bound := fun _ h h' => ⟨_, reduced_bound_eq h h', reduces (by omega)⟩

/-- The lines follow the function `f`. -/
def follows (f : Int → M Int) : List Line → Bool
  | [.bound _ _] => true
  | [.bound _ b, .reduction r] => decide (0 ≤ b ∧ b ≤ 2147483647) && (reduced_bound b == .ok r)
  | .bound i b :: .bound j b' :: l =>
    decide (0 ≤ b ∧ b ≤ 2147483647) && decide (j = i + 1) && (f b == .ok b') && decide (b' ≤ 2147483647) &&
      follows f (.bound j b' :: l)
  | .bound i b :: .reduction r :: .bound j b' :: l =>
    decide (0 ≤ b ∧ b ≤ 2147483647) && decide (0 ≤ r ∧ r ≤ 2147483647) && decide (j = i + 1) && (reduced_bound b == .ok r) &&
      (f r == .ok b') && decide (b' ≤ 2147483647) && follows f (.bound j b' :: l)
  | _ => false

theorem sound_of_follows {R : Int → Int → Prop} {f : Int → M Int} (hf : BoundFor R f) : ∀ (l : List Line) (i : Nat) (b : Int),
    follows f (.bound i b :: l) = true → SoundLines R i b (.bound i b :: l)
  | [], i, b, _ => .last i b
  | [.reduction r], i, b, h => by
    simp only [follows, Bool.and_eq_true, decide_eq_true_eq, beq_iff_eq] at h
    obtain ⟨r', e, hr⟩ := bound_reduced b h.1.1 (by omega)
    rw [h.2] at e
    cases e
    exact .lastReduced i b r hr
  | .bound j b' :: l, i, b, h => by
    simp only [follows, Bool.and_eq_true, decide_eq_true_eq, beq_iff_eq] at h
    obtain ⟨r', e, hr⟩ := hf b h.1.1.1.1.1 (by omega)
    rw [h.1.1.2] at e
    cases e
    obtain rfl := h.1.1.1.2
    exact .round i b b' _ hr h.1.2 (sound_of_follows hf l _ _ h.2)
  | .reduction r :: .bound j b' :: l, i, b, h => by
    simp only [follows, Bool.and_eq_true, decide_eq_true_eq, beq_iff_eq] at h
    obtain ⟨⟨⟨⟨⟨⟨hb, hr⟩, rfl⟩, e1⟩, e2⟩, hb'⟩, h⟩ := h
    obtain ⟨r1, e, h1⟩ := bound_reduced b hb.1 (by omega)
    rw [e1] at e
    cases e
    obtain ⟨r2, e, h2⟩ := hf r hr.1 (by omega)
    rw [e2] at e
    cases e
    exact .reduced i b r b' _ h1 h2 hb' (sound_of_follows hf l _ _ h)
  | .reduction r :: .reduction r' :: l, i, b, h => by simp [follows] at h

end TestRed
