import Verif.SpecIntervals
import Verif.Proofs.RedBounds

/-
Proofs about src/intervals.c.
-/

namespace Intervals
open C
open RedBounds (dassert wp_dassert wp_dassert_pure Fit wp_i64f wp_tol wp_tol_ok)
open Spec (RedMulFits)

variable {E : Err → Prop} {dbg : Bool}

theorem wp_make {x y : Int} {P : Ivl → Prop} (h : x ≤ y) (hP : P ⟨x, y⟩) :
    Wp E (make_interval dbg x y) P := by
  unfold make_interval
  rw [wp_bind]
  exact wp_dassert_pure (by simpa using h) (wp_pure.2 hP)

theorem wp_add64 {x y : Int} {P : Int → Prop} (h : Fit E (x + y)) (hP : P (x + y)) :
    Wp E (add64 x y) P := by
  unfold add64
  rw [wp_bind]
  refine wp_i64f h ?_
  rw [if_neg (by omega)]
  exact wp_pure.2 hP

theorem wp_sub64 {x y : Int} {P : Int → Prop} (h : Fit E (x - y)) (hP : P (x - y)) :
    Wp E (sub64 x y) P := by
  unfold sub64
  rw [wp_bind]
  refine wp_i64f h ?_
  rw [if_neg (by omega)]
  exact wp_pure.2 hP

theorem wp_add {a b : Ivl} {P : Ivl → Prop} (ha : a.min ≤ a.max) (hb : b.min ≤ b.max)
    (hB : E .overflow ∨ (I64 (a.min + b.min) ∧ I64 (a.max + b.max)))
    (hP : P ⟨a.min + b.min, a.max + b.max⟩) : Wp E (add dbg a b) P := by
  unfold add
  simp only [wp_bind]
  exact wp_add64 (hB.imp_right And.left) (wp_add64 (hB.imp_right And.right)
    (wp_make (by omega) hP))

theorem wp_sub {a b : Ivl} {P : Ivl → Prop} (ha : a.min ≤ a.max) (hb : b.min ≤ b.max)
    (hB : E .overflow ∨ (I64 (a.min - b.max) ∧ I64 (a.max - b.min)))
    (hP : P ⟨a.min - b.max, a.max - b.min⟩) : Wp E (sub dbg a b) P := by
  unfold sub
  simp only [wp_bind]
  exact wp_sub64 (hB.imp_right And.left) (wp_sub64 (hB.imp_right And.right)
    (wp_make (by omega) hP))

theorem wp_red {a : Ivl} (ha : Valid a) :
    Wp E (red dbg a) (fun r => r.min ≤ r.max ∧ IsHull Spec.red a r) := by
  obtain ⟨h1, h2, h3⟩ := ha
  unfold red
  simp only [wp_bind]
  refine (RedBounds.wp_min_red h1 h2 h3).mono ?_
  rintro ⟨mn, x⟩ ⟨hx, hmn, hmin⟩
  refine (RedBounds.wp_max_red h1 h2 h3).mono ?_
  rintro ⟨mx, y⟩ ⟨hy, hmx, hmax⟩
  simp only at hmn hmx hmin hmax hx hy
  have hle : mn ≤ mx := by rw [hmx]; exact hmin y hy.1 hy.2
  refine wp_make hle ⟨hle, ⟨⟨x, hx, hmn⟩, ?_⟩, ⟨y, hy, hmx⟩, ?_⟩
  · rintro v ⟨z, hz, rfl⟩; exact hmin z hz.1 hz.2
  · rintro v ⟨z, hz, rfl⟩; exact hmax z hz.1 hz.2

theorem red_i64 {x : Int} (h : I64 x) : I64 (Spec.red x) := by
  unfold I64 Spec.red at *; omega

theorem wp_red_twice {a : Ivl} (ha : Valid a) :
    Wp E (red_twice dbg a) (fun r => r.min ≤ r.max ∧
      ∃ b, Valid b ∧ IsHull Spec.red a b ∧ IsHull Spec.red b r) := by
  obtain ⟨h1, h2, h3⟩ := ha
  unfold red_twice
  simp only [wp_bind]
  refine (RedBounds.wp_min_red h1 h2 h3).mono ?_
  rintro ⟨mn, x⟩ ⟨hx, hmn, hmin⟩
  refine (RedBounds.wp_max_red h1 h2 h3).mono ?_
  rintro ⟨mx, y⟩ ⟨hy, hmx, hmax⟩
  simp only at hmn hmx hmin hmax hx hy
  have hle : mn ≤ mx := by rw [hmx]; exact hmin y hy.1 hy.2
  have h64 : ∀ z, a.min ≤ z → z ≤ a.max → I64 z := fun z hz1 hz2 =>
    ⟨by have := h1.1; omega, by have := h2.2; omega⟩
  have hv : Valid ⟨mn, mx⟩ := ⟨by rw [hmn]; exact red_i64 (h64 x hx.1 hx.2),
    by rw [hmx]; exact red_i64 (h64 y hy.1 hy.2), hle⟩
  refine wp_dassert_pure (by simpa using hle) ?_
  have key := wp_red (E := E) (dbg := dbg) hv
  unfold red at key
  simp only [wp_bind] at key
  refine key.mono ?_
  rintro ⟨mn2, x2⟩ key2
  refine key2.mono ?_
  rintro ⟨mx2, y2⟩ key3
  refine key3.mono ?_
  rintro r ⟨hr1, hr2⟩
  refine ⟨hr1, ⟨mn, mx⟩, hv, ⟨⟨⟨x, hx, hmn⟩, ?_⟩, ⟨y, hy, hmx⟩, ?_⟩, hr2⟩
  · rintro v ⟨z, hz, rfl⟩; exact hmin z hz.1 hz.2
  · rintro v ⟨z, hz, rfl⟩; exact hmax z hz.1 hz.2

theorem IsHull.sound {f : Int → Int} {a r : Ivl} (h : IsHull f a r) {x : Int} (hx : x ∈ a) :
    f x ∈ r :=
  ⟨h.1.2 ⟨x, hx, rfl⟩, h.2.2 ⟨x, hx, rfl⟩⟩

theorem wp_red_scale {a : Ivl} {k : Int} (ha : a.min ≤ a.max) (hk : k ≠ 0) (hk64 : I64 k)
    (hB : E .overflow ∨ RedMulFits a.min a.max k) :
    Wp E (red_scale dbg k a) (fun r => r.min ≤ r.max ∧ IsHull (fun x => Spec.red (k * x)) a r) := by
  unfold red_scale
  simp only [wp_bind]
  refine (RedBounds.wp_min_red_mul hk ha hB).mono ?_
  rintro ⟨mn, x⟩ ⟨hx, hmn, hmin⟩
  refine (RedBounds.wp_max_red_mul hk hk64 ha hB).mono ?_
  rintro ⟨mx, y⟩ ⟨hy, hmx, hmax⟩
  simp only at hmn hmx hmin hmax hx hy
  have hle : mn ≤ mx := by rw [hmx]; exact hmin y hy.1 hy.2
  refine wp_make hle ⟨hle, ⟨⟨x, hx, hmn⟩, ?_⟩, ⟨y, hy, hmx⟩, ?_⟩
  · rintro v ⟨z, hz, rfl⟩; exact hmin z hz.1 hz.2
  · rintro v ⟨z, hz, rfl⟩; exact hmax z hz.1 hz.2

theorem red_scale_zero {a : Ivl} (ha : a.min ≤ a.max) :
    red_scale dbg 0 a = .error .divZero := by
  unfold red_scale
  rw [RedBounds.min_red_mul_zero ha]
  rfl

theorem red_scale_ok {a r : Ivl} {k : Int} (ha : a.min ≤ a.max) (hk64 : I64 k)
    (h : red_scale dbg k a = .ok r) :
    r.min ≤ r.max ∧ IsHull (fun x => Spec.red (k * x)) a r := by
  by_cases hk : k = 0
  · subst hk
    rw [red_scale_zero ha] at h
    cases h
  · have key := wp_red_scale (E := fun _ => True) (dbg := dbg) ha hk hk64 (Or.inl trivial)
    rw [h, wp_ok] at key
    exact key

theorem wp_i64g {x : Int} {P : Int → Prop} (hB : Fit E x) (hP : I64 x → P x) :
    Wp E (i64 x) P := by
  unfold i64
  split
  · next h => exact wp_ok.2 (hP h)
  · next h => exact wp_error.2 (hB.resolve_right h)

theorem wp_size {a : Ivl} {P : Nat → Prop} (ha : a.min ≤ a.max)
    (hB : Fit E (a.max - a.min)) (hP : I64 (a.max - a.min) → P (a.max - a.min).toNat) :
    Wp E (size dbg a) P := by
  unfold size
  simp only [wp_bind]
  refine wp_dassert_pure (by simpa using ha) (wp_i64g hB (fun h => wp_pure.2 ?_))
  have e : toU64 (a.max - a.min) = (a.max - a.min).toNat := by
    unfold toU64
    rw [Int.emod_eq_of_lt (by omega) (by have := h.2; omega)]
  rw [e]
  exact hP h

/-- The interval of `red_mul` used for `x`: the larger one. -/
def larger (a b : Ivl) : Ivl := if a.max - a.min < b.max - b.min then b else a

/-- The interval of `red_mul` used for `w`: the smaller one. -/
def smaller (a b : Ivl) : Ivl := if a.max - a.min < b.max - b.min then a else b

theorem wp_red_mul {a b : Ivl} (ha : Valid a) (hb : Valid b)
    (hsym : -(larger a b).max ≤ (larger a b).min)
    (hB : E .overflow ∨ (I64 (a.max - a.min) ∧ I64 (b.max - b.min) ∧
      ∀ w, w ∈ smaller a b → RedMulFits (larger a b).min (larger a b).max w))
    (hA : ((smaller a b).min = 0 ∨ (smaller a b).max = 0) → dbg = false ∨ E .assertFail) :
    Wp E (red_mul dbg a b) (fun r => (r.min ≤ 0 ∧ 0 ≤ r.max) ∧
      (∀ x y, x ∈ a → y ∈ b → Spec.red (x * y) ∈ r) ∧
      (r.min = 0 ∨ ∃ x y, x ∈ a ∧ y ∈ b ∧ r.min = Spec.red (x * y)) ∧
      (r.max = 0 ∨ ∃ x y, x ∈ a ∧ y ∈ b ∧ r.max = Spec.red (x * y))) := by
  unfold red_mul
  simp only [wp_bind]
  refine wp_size ha.2.2 (hB.imp_right And.left) (fun hsa => ?_)
  refine wp_size hb.2.2 (hB.imp_right (fun h => h.2.1)) (fun hsb => ?_)
  have hcase : (if (a.max - a.min).toNat < (b.max - b.min).toNat then (b, a) else (a, b)) =
      (larger a b, smaller a b) := by
    have := ha.2.2
    have := hb.2.2
    unfold larger smaller
    by_cases h : a.max - a.min < b.max - b.min
    · rw [if_pos h, if_pos h, if_pos (by omega)]
    · rw [if_neg h, if_neg h, if_neg (by omega)]
  rw [hcase]
  simp only
  have hL : Valid (larger a b) := by unfold larger; split <;> assumption
  have hS : Valid (smaller a b) := by unfold smaller; split <;> assumption
  have hmem : ∀ x y, (x ∈ larger a b ∧ y ∈ smaller a b) →
      ∃ x' y', x' ∈ a ∧ y' ∈ b ∧ x' * y' = y * x := by
    unfold larger smaller
    intro x y
    split
    · rintro ⟨h1, h2⟩; exact ⟨y, x, h2, h1, rfl⟩
    · rintro ⟨h1, h2⟩; exact ⟨x, y, h1, h2, mul_comm _ _⟩
  have hmem2 : ∀ x y, x ∈ a → y ∈ b →
      ∃ x' y', x' ∈ larger a b ∧ y' ∈ smaller a b ∧ x * y = y' * x' := by
    unfold larger smaller
    intro x y h1 h2
    split
    · exact ⟨y, x, h2, h1, rfl⟩
    · exact ⟨x, y, h1, h2, mul_comm _ _⟩
  have hfit : E .overflow ∨ ∀ w, (smaller a b).min ≤ w → w ≤ (smaller a b).max →
      RedMulFits (larger a b).min (larger a b).max w :=
    hB.imp_right (fun h w h1 h2 => h.2.2 w ⟨h1, h2⟩)
  generalize larger a b = L at *
  generalize smaller a b = S at *
  refine (RedBounds.wp_min_red_mul_interval hL.2.2 hsym hfit hS.1 hS.2.1 hS.2.2 hA).mono ?_
  rintro mn ⟨hmn0, hmnA, hmn⟩
  refine (RedBounds.wp_max_red_mul_interval hL.2.2 hsym hfit hS.1 hS.2.1 hS.2.2).mono ?_
  rintro mx ⟨hmx0, hmxA, hmx⟩
  refine wp_make (by omega) ⟨⟨hmn0, hmx0⟩, ?_, ?_, ?_⟩
  · intro x y hx hy
    obtain ⟨x', y', h1, h2, e⟩ := hmem2 x y hx hy
    rw [e]
    exact ⟨hmn y' h2.1 h2.2 x' h1.1 h1.2, hmx y' h2.1 h2.2 x' h1.1 h1.2⟩
  · rcases hmnA with h | ⟨h1, h2, h3⟩
    · exact Or.inl h
    · obtain ⟨x', y', h4, h5, e⟩ := hmem _ _ ⟨h1, h2⟩
      exact Or.inr ⟨x', y', h4, h5, by rw [e]; exact h3⟩
  · rcases hmxA with h | ⟨h1, h2, h3⟩
    · exact Or.inl h
    · obtain ⟨x', y', h4, h5, e⟩ := hmem _ _ ⟨h1, h2⟩
      exact Or.inr ⟨x', y', h4, h5, by rw [e]; exact h3⟩

theorem wp_rem_q {x : Int} {P : Int → Prop} (hP : P (x % 12289)) :
    Wp E (rem_q dbg x) P := by
  unfold rem_q
  simp only [wp_bind]
  have h1 : crem x 12289 = .ok (x.tmod 12289) := by unfold crem; rw [if_neg (by decide)]
  rw [h1, wp_ok]
  have h2 : Wp E (if x.tmod 12289 < 0 then i64 (x.tmod 12289 + 12289) else pure (x.tmod 12289))
      (fun r => r = x % 12289) := by
    have h3 : x.tmod 12289 = if 0 ≤ x ∨ x % 12289 = 0 then x % 12289 else x % 12289 - 12289 := by
      rw [Int.tmod_eq_emod]
      by_cases h : 0 ≤ x ∨ (12289 : Int) ∣ x
      · rw [if_pos h, if_pos (by omega)]; simp
      · rw [if_neg h, if_neg (by omega)]; simp
    rw [h3]
    split
    · rw [if_neg (by omega)]; exact wp_pure.2 rfl
    · rw [if_pos (by omega)]; exact wp_i64 ⟨by omega, by omega⟩ (by omega)
  refine h2.mono ?_
  rintro r rfl
  refine wp_dassert_pure ?_ (wp_pure.2 hP)
  simp only [Bool.and_eq_true, decide_eq_true_eq]
  omega

/-- Way to prove `IsHull`: soundness, and two points where the bounds are attained. -/
theorem isHull_of {f : Int → Int} {a r : Ivl} (h : ∀ x, x ∈ a → f x ∈ r) (x y : Int) (hx : x ∈ a)
    (hy : y ∈ a) (h1 : r.min = f x) (h2 : r.max = f y) : IsHull f a r := by
  refine ⟨⟨⟨x, hx, h1⟩, ?_⟩, ⟨y, hy, h2⟩, ?_⟩
  · rintro v ⟨z, hz, rfl⟩; exact (h z hz).1
  · rintro v ⟨z, hz, rfl⟩; exact (h z hz).2

theorem wp_normal {a : Ivl} (ha : a.min ≤ a.max) (hB : Fit E (a.max - a.min)) :
    Wp E (normal dbg a) (fun r => r.min ≤ r.max ∧ (0 ≤ r.min ∧ r.max ≤ 12288) ∧
      IsHull (fun x => x % 12289) a r) := by
  unfold normal
  simp only [wp_bind]
  refine wp_size ha hB (fun _ => ?_)
  have hall : ∀ (x : Int), x % 12289 ∈ (⟨0, 12288⟩ : Ivl) := by
    intro x
    rw [mem_iff]
    simp only
    omega
  split
  · refine wp_make (by omega) ⟨by simp, by simp, isHull_of (fun x _ => hall x)
      (a.min + (12289 - a.min % 12289) % 12289) (a.min + (12288 - a.min % 12289)) ?_ ?_ ?_ ?_⟩
    · rw [mem_iff]; omega
    · rw [mem_iff]; omega
    · simp only; omega
    · simp only; omega
  · rw [wp_bind]
    refine wp_rem_q ?_
    rw [wp_bind]
    refine wp_rem_q ?_
    split
    · next h1 h2 =>
      refine wp_make h2 ⟨h2, ?_, isHull_of ?_ a.min a.max ⟨le_refl _, ha⟩ ⟨ha, le_refl _⟩ rfl rfl⟩
      · simp only; omega
      · intro x hx
        rw [mem_iff] at hx ⊢
        simp only
        omega
    · refine wp_make (by omega) ⟨by simp, by simp, isHull_of (fun x _ => hall x)
        (a.min + (12289 - a.min % 12289) % 12289) (a.min + (12288 - a.min % 12289)) ?_ ?_ ?_ ?_⟩
      · rw [mem_iff]; omega
      · rw [mem_iff]; omega
      · simp only; omega
      · simp only; omega

theorem wp_normal_inv3 {a : Ivl} :
    Wp E (normal_inv3 dbg a) (fun r => r.min ≤ r.max ∧ (0 ≤ r.min ∧ r.max ≤ 12288) ∧
      ∀ x, x ∈ a → (x * 8193) % 12289 ∈ r) := by
  unfold normal_inv3
  split
  · next h =>
    rw [wp_bind]
    refine wp_rem_q ?_
    rw [wp_bind]
    refine wp_i64 ⟨by omega, by omega⟩ ?_
    rw [wp_bind]
    refine wp_rem_q ?_
    refine wp_make (le_refl _) ⟨le_refl _, ?_, ?_⟩
    · simp only; omega
    · intro x hx
      rw [mem_iff] at hx ⊢
      have : x = a.min := by omega
      subst this
      simp only
      omega
  · refine wp_make (by omega) ⟨by simp, by simp, ?_⟩
    intro x _
    rw [mem_iff]
    simp only
    omega

theorem wp_shift {a : Ivl} (ha : a.min ≤ a.max) (h0 : 0 ≤ a.min) (h1 : a.max ≤ 12288) :
    Wp E (shift dbg a) (fun r => r.min ≤ r.max ∧ (-6144 ≤ r.min ∧ r.max ≤ 6144) ∧
      IsHull (fun x => if x > 6144 then x - 12289 else x) a r) := by
  unfold shift
  simp only [wp_bind]
  refine wp_dassert_pure (by simp [ha, h0, h1]) ?_
  split
  · rw [wp_bind]
    refine wp_i64 ⟨by omega, by omega⟩ ?_
    rw [wp_bind]
    refine wp_i64 ⟨by omega, by omega⟩ ?_
    refine wp_make (by omega) ⟨by simp only; omega, by simp only; omega,
      isHull_of ?_ a.min a.max ⟨le_refl _, ha⟩ ⟨ha, le_refl _⟩ ?_ ?_⟩
    · intro x hx
      rw [mem_iff] at hx ⊢
      simp only
      split <;> omega
    · simp only; split <;> omega
    · simp only; split <;> omega
  · split
    · refine wp_make ha ⟨ha, by simp only; omega,
        isHull_of ?_ a.min a.max ⟨le_refl _, ha⟩ ⟨ha, le_refl _⟩ ?_ ?_⟩
      · intro x hx
        rw [mem_iff] at hx ⊢
        simp only
        split <;> omega
      · simp only; split <;> omega
      · simp only; split <;> omega
    · refine wp_make (by omega) ⟨by simp, by simp, isHull_of ?_ 6145 6144 ?_ ?_ ?_ ?_⟩
      · intro x hx
        rw [mem_iff] at hx ⊢
        simp only
        split <;> omega
      · rw [mem_iff]; omega
      · rw [mem_iff]; omega
      · decide
      · decide

theorem wp_correct {a : Ivl} (ha : a.min ≤ a.max) (h0 : -12289 ≤ a.min) (h1 : a.max < 24578) :
    Wp E (correct dbg a) (fun r => r.min ≤ r.max ∧ (0 ≤ r.min ∧ r.max ≤ 12288) ∧
      IsHull (fun x => if x < 0 then x + 12289 else if x ≥ 12289 then x - 12289 else x) a r) := by
  unfold correct
  simp only [wp_bind]
  refine wp_dassert_pure (by simp [ha, h0, h1]) ?_
  split
  · rw [wp_bind]
    refine wp_dassert ?_ ?_
    · simp only [wp_bind]
      refine wp_i64 ⟨by omega, by omega⟩ (wp_i64 ⟨by omega, by omega⟩ (wp_pure.2 ?_))
      simp only [Bool.and_eq_true, decide_eq_true_eq]
      omega
    · simp only [wp_bind]
      refine wp_i64 ⟨by omega, by omega⟩ (wp_i64 ⟨by omega, by omega⟩ (wp_make (by omega) ?_))
      refine ⟨by simp only; omega, by simp only; omega,
        isHull_of ?_ a.min a.max ⟨le_refl _, ha⟩ ⟨ha, le_refl _⟩ ?_ ?_⟩
      · intro x hx
        rw [mem_iff] at hx ⊢
        simp only
        split <;> omega
      · simp only; split <;> omega
      · simp only; split <;> omega
  · split
    · rw [wp_bind]
      refine wp_dassert ?_ ?_
      · simp only [wp_bind]
        refine wp_i64 ⟨by omega, by omega⟩ (wp_i64 ⟨by omega, by omega⟩ (wp_pure.2 ?_))
        simp only [Bool.and_eq_true, decide_eq_true_eq]
        omega
      · simp only [wp_bind]
        refine wp_i64 ⟨by omega, by omega⟩ (wp_i64 ⟨by omega, by omega⟩ (wp_make (by omega) ?_))
        refine ⟨by simp only; omega, by simp only; omega,
          isHull_of ?_ a.min a.max ⟨le_refl _, ha⟩ ⟨ha, le_refl _⟩ ?_ ?_⟩
        · intro x hx
          rw [mem_iff] at hx ⊢
          simp only
          split
          · omega
          · split <;> omega
        · simp only
          rw [if_neg (by omega), if_pos (by omega)]
        · simp only
          rw [if_neg (by omega), if_pos (by omega)]
    · split
      · refine wp_make ha ⟨ha, by simp only; omega,
          isHull_of ?_ a.min a.max ⟨le_refl _, ha⟩ ⟨ha, le_refl _⟩ ?_ ?_⟩
        · intro x hx
          rw [mem_iff] at hx ⊢
          simp only
          split
          · omega
          · split <;> omega
        · simp only
          rw [if_neg (by omega), if_neg (by omega)]
        · simp only
          rw [if_neg (by omega), if_neg (by omega)]
      · refine wp_make (by omega) ⟨by simp, by simp, ?_⟩
        have hall : ∀ x, x ∈ a →
            (if x < 0 then x + 12289 else if x ≥ 12289 then x - 12289 else x) ∈
              (⟨0, 12288⟩ : Ivl) := by
          intro x hx
          rw [mem_iff] at hx ⊢
          simp only
          split
          · omega
          · split <;> omega
        by_cases h : a.min < 0
        · refine isHull_of hall 0 (-1) ?_ ?_ (by decide) (by decide)
          · rw [mem_iff]; omega
          · rw [mem_iff]; omega
        · refine isHull_of hall 12289 12288 ?_ ?_ (by decide) (by decide)
          · rw [mem_iff]; omega
          · rw [mem_iff]; omega

end Intervals
