import Verif.SpecTestAvx
import Verif.Proofs.TestPrograms
import Verif.Proofs.TestDetect
import Verif.Props.AsmElementwise

/-
Proofs about src/test_avx.c.
-/

namespace TestAvx
open C Spec Asm
open TestProg (elt_set run_equal_arrays equal_arrays)
open NttRed (ok_bind wp_of_eq)

variable {w : World}

theorem wp_i32_free {E : Err → Prop} (hE : E .overflow) {x : Int} {P : Int → Prop} (h : P x) : Wp E (i32 x) P := by
  unfold i32; split
  · exact wp_ok.2 h
  · exact wp_error.2 hE

theorem coeff_eq {n : Int} (hn : 0 < n) (k : Nat) : random_coeff true w n k = (do
    let r ← crem (w.random k) (toI32 (2 * n))
    let x ← i32 (toI32 r - n)
    cassert (decide (-n ≤ x) && decide (x ≤ n - 1))
    (pure (x, k + 1) : M (Int × Nat))) := by
  unfold random_coeff
  have : cassert (decide (n > 0)) = .ok () := by unfold cassert; rw [if_pos (by simpa using hn)]
  rw [this]
  rfl

theorem coeff30 (hw : WorldOK w) (k : Nat) :
    random_coeff true w 1073741824 k = .ok ((w.random k : Int) - 1073741824, k + 1) := by
  have h := hw.random k
  have hc : crem (w.random k : Int) (toI32 (2 * 1073741824)) = .ok (w.random k : Int) := by
    unfold crem
    rw [if_neg (by decide), show toI32 (2 * 1073741824) = -2147483648 by decide, Int.tmod_neg,
      Int.tmod_eq_of_lt (by omega) (by omega)]
  rw [coeff_eq (by norm_num), hc, ok_bind, NttRed.toI32_of ⟨by omega, by omega⟩, NttRed.i32_ok ⟨by omega, by omega⟩, ok_bind]
  have : cassert (decide (-1073741824 ≤ (w.random k : Int) - 1073741824) && decide ((w.random k : Int) - 1073741824 ≤ 1073741824 - 1)) = .ok () := by
    unfold cassert
    rw [if_pos]
    simp
    omega
  rw [this]
  rfl

theorem coeff15 (k : Nat) :
    ∃ x, random_coeff true w 32768 k = .ok (x, k + 1) ∧ -32768 ≤ x ∧ x ≤ 32767 := by
  have hc : crem (w.random k : Int) (toI32 (2 * 32768)) = .ok ((w.random k : Int) % 65536) := by
    unfold crem
    rw [if_neg (by decide), show toI32 (2 * 32768) = 65536 by decide, Int.tmod_eq_emod_of_nonneg (by omega)]
  refine ⟨(w.random k : Int) % 65536 - 32768, ?_, by omega, by omega⟩
  rw [coeff_eq (by norm_num), hc, ok_bind, NttRed.toI32_of ⟨by omega, by omega⟩, NttRed.i32_ok ⟨by omega, by omega⟩, ok_bind]
  have : cassert (decide (-32768 ≤ (w.random k : Int) % 65536 - 32768) && decide ((w.random k : Int) % 65536 - 32768 ≤ 32768 - 1)) = .ok () := by
    unfold cassert
    rw [if_pos]
    simp
    omega
  rw [this]
  rfl

/-- Without wrapping, the first call overflows. -/
theorem coeff_overflow (k : Nat) : random_coeff false w 1073741824 k = .error .overflow := by
  unfold random_coeff
  rfl

/-- An array filled by a generator. -/
theorem wp_fill {E : Err → Prop} {gen : Nat → M (Int × Nat)} {lo hi : Int}
    (hg : ∀ k, ∃ x k', gen k = .ok (x, k') ∧ lo ≤ x ∧ x ≤ hi) {n : Nat} (hn : n < 4294967296) {a : Array Int} (ha : a.size = n) (k : Nat) :
    Wp E (forUp 0 n 1 (fun i (s : Array Int × Nat) => do
      let x ← gen s.2
      let a ← wr s.1 i x.1
      pure (a, x.2)) (a, k)) (fun r => r.1.size = n ∧ InRange lo hi r.1) := by
  refine wp_forUp1 (fun i s => s.1.size = n ∧ ∀ l, l < i → lo ≤ elt s.1 l ∧ elt s.1 l ≤ hi) hn (Nat.zero_le _)
    ⟨ha, fun l hl => absurd hl (Nat.not_lt_zero _)⟩ ?_ ?_
  · rintro i ⟨a, k'⟩ - hi ⟨hs, hv⟩
    obtain ⟨x, k'', ex, hx⟩ := hg k'
    dsimp only at hs hv ⊢
    rw [wp_bind]
    refine wp_of_eq ex ?_
    rw [wp_bind]
    refine wp_wr (show i < a.size by omega) ?_
    rw [wp_pure]
    refine ⟨by simp [hs], fun l hl => ?_⟩
    dsimp only
    rw [elt_set (by omega)]
    by_cases hli : l = i
    · rw [if_pos hli]; exact hx
    · rw [if_neg hli]; exact hv l (by omega)
  · rintro ⟨a, k'⟩ ⟨hs, hv⟩
    exact ⟨hs, fun l hl => hv l (by dsimp only at hs hl; omega)⟩

theorem elt_drawn {n k i : Nat} (h : i < n) : elt (drawn w n k) i = (w.random (k + i) : Int) - 1073741824 := by
  unfold drawn elt
  simp [h]

theorem run_random_array (hw : WorldOK w) {n : Nat} (hn : n < 4294967296) {a : Array Int} (ha : a.size = n) (k : Nat) :
    random_array true w a n k = .ok (drawn w n k, k + n) := by
  have : Wp NoErr (random_array true w a n k) (fun r => r = (drawn w n k, k + n)) := by
    unfold random_array
    refine wp_forUp1 (fun i s => s.2 = k + i ∧ s.1.size = n ∧ ∀ l, l < i → elt s.1 l = (w.random (k + l) : Int) - 1073741824) hn
      (Nat.zero_le _) ⟨rfl, ha, fun l hl => absurd hl (Nat.not_lt_zero _)⟩ ?_ ?_
    · rintro i ⟨a, k'⟩ - hi ⟨hk, hs, hv⟩
      dsimp only at hk hs hv ⊢
      subst hk
      rw [coeff30 hw, ok_bind, wp_bind]
      refine wp_wr (show i < a.size by omega) ?_
      rw [wp_pure]
      refine ⟨rfl, by simp [hs], fun l hl => ?_⟩
      dsimp only
      rw [elt_set (by omega)]
      by_cases hli : l = i
      · rw [if_pos hli, hli]
      · rw [if_neg hli]; exact hv l (by omega)
    · rintro ⟨a, k'⟩ ⟨hk, hs, hv⟩
      dsimp only at hk hs hv
      subst hk
      rw [Is.ext (n := n) ⟨hs, hv⟩ ⟨by simp [drawn], fun i hi => elt_drawn hi⟩]
  obtain ⟨r, h1, h2⟩ := wp_total.1 this
  rw [h1, h2]

theorem wp_random_array {E : Err → Prop} (hw : WorldOK w) {n : Nat} (hn : n < 4294967296) {a : Array Int} (ha : a.size = n) (k : Nat) :
    Wp E (random_array true w a n k) (fun r => r.1.size = n ∧ InRange (-1073741824) 1073741823 r.1) :=
  wp_of_eq (run_random_array hw hn ha k) ⟨by simp [drawn], fun i hi => by
    have h : i < n := by simpa [drawn] using hi
    have := hw.random (k + i)
    dsimp only
    rw [elt_drawn h]
    omega⟩

theorem wp_for_correct {E : Err → Prop} {n : Nat} (hn : n < 4294967296) {a : Array Int} (ha : a.size = n) (k : Nat) :
    Wp E (random_array_for_correct w a n k) (fun r => r.1.size = n ∧ InRange (-12289) 24577 r.1) := by
  refine wp_fill (fun k => ⟨(w.random k : Int) % 36867 - 12289, k + 1, ?_, by omega, by omega⟩) hn ha k
  unfold random_elem_for_correct
  have hc : crem (w.random k : Int) (3 * 12289) = .ok ((w.random k : Int) % 36867) := by
    unfold crem
    rw [if_neg (by decide), Int.tmod_eq_emod_of_nonneg (by omega)]
    rfl
  rw [hc, ok_bind, NttRed.toI32_of ⟨by omega, by omega⟩, NttRed.i32_ok ⟨by omega, by omega⟩, ok_bind]
  have : cassert (decide (-12289 ≤ (w.random k : Int) % 36867 - 12289) && decide ((w.random k : Int) % 36867 - 12289 ≤ 2 * 12289 - 1)) = .ok () := by
    unfold cassert
    rw [if_pos]
    simp
    omega
  rw [this]
  rfl

theorem wp_for_shift {E : Err → Prop} {n : Nat} (hn : n < 4294967296) {a : Array Int} (ha : a.size = n) (k : Nat) :
    Wp E (random_array_for_shift w a n k) (fun r => r.1.size = n ∧ InRange 0 12288 r.1) := by
  have := wp_fill (E := E) (gen := fun k => do let r ← crem (w.random k) 12289; pure (toI32 r, k + 1)) (lo := 0) (hi := 12288)
    (fun k => ⟨(w.random k : Int) % 12289, k + 1, by
      unfold crem
      rw [if_neg (by decide), Int.tmod_eq_emod_of_nonneg (by omega), ok_bind, NttRed.toI32_of ⟨by omega, by omega⟩]
      rfl, by omega, by omega⟩) hn ha k
  refine Eq.mp ?_ this
  unfold random_array_for_shift
  congr 2

theorem wp_copy {E : Err → Prop} {n : Nat} (hn : n < 4294967296) {a b : Array Int} (ha : a.size = n) (hb : b.size = n) :
    Wp E (copy_array b a n) (fun r => r = a) := by
  unfold copy_array
  refine wp_forUp1 (fun i s => s.size = n ∧ ∀ l, l < i → elt s l = elt a l) hn (Nat.zero_le _)
    ⟨hb, fun l hl => absurd hl (Nat.not_lt_zero _)⟩ ?_ ?_
  · rintro i s - hi ⟨hs, hv⟩
    rw [wp_bind]
    refine wp_rd_some (NTT.some_elt (by omega)) (wp_wr (by omega) ⟨by simp [hs], fun l hl => ?_⟩)
    rw [elt_set (by omega)]
    by_cases hli : l = i
    · rw [if_pos hli, hli]
    · rw [if_neg hli]; exact hv l (by omega)
  · rintro s ⟨hs, hv⟩
    exact Is.ext ⟨hs, hv⟩ (Is.self ha)

theorem wp_same {E : Err → Prop} {α : Type} {n : Nat} (hn : n < 4294967296) {a : Array Int} (ha : a.size = n) {x : α} {P : α → Prop} (h : P x) :
    Wp E (do
      let e ← equal_arrays a a n
      if !e then .error .abort else pure x) P := by
  obtain ⟨e, h1, h2⟩ := run_equal_arrays hn ha ha
  rw [h1, ok_bind, h2.2 rfl]
  exact wp_pure.2 h

/-- `f` and `g` agree on arrays of `n` elements in a range. -/
def AgreeOn (n : Nat) (lo hi : Int) (f g : Array Int → Nat → M (Array Int)) : Prop :=
  ∀ a : Array Int, a.size = n → InRange lo hi a → ∃ a', f a n = .ok a' ∧ g a n = .ok a' ∧ a'.size = n

theorem wp_cross_check {E : Err → Prop} (hw : WorldOK w) {n : Nat} (hn : n < 4294967296) {f g : Array Int → Nat → M (Array Int)}
    (hfg : AgreeOn n (-1073741824) 1073741823 f g) (k : Nat) : Wp E (cross_check true w n f g k) (fun _ => True) := by
  unfold cross_check
  rw [wp_bind]
  refine wp_forUp1 (fun _ s => s.1.size = n ∧ s.2.1.size = n) (by norm_num) (by norm_num) ⟨hw.junk _ _, hw.junk _ _⟩ ?_
    (fun _ _ => wp_pure.2 trivial)
  rintro i ⟨a, b, k⟩ - - ⟨h1, h2⟩
  dsimp only at h1 h2 ⊢
  rw [wp_bind]
  refine (wp_random_array hw hn h1 k).mono ?_
  rintro ⟨a', k'⟩ ⟨h3, h4⟩
  dsimp only at h3 h4 ⊢
  rw [wp_bind]
  refine (wp_copy hn h3 h2).mono ?_
  rintro _ rfl
  obtain ⟨c, e1, e2, h5⟩ := hfg _ h3 h4
  rw [e1, ok_bind, e2, ok_bind]
  exact wp_same (P := fun s : Array Int × Array Int × Nat => s.1.size = n ∧ s.2.1.size = n) hn h5 ⟨h5, h5⟩

theorem wp_test_with {E : Err → Prop} (hw : WorldOK w) {n : Nat} (hn : n < 4294967296) {gen : Array Int → Nat → Nat → M (Array Int × Nat)}
    {lo hi : Int} (hg : ∀ a : Array Int, a.size = n → ∀ k, Wp E (gen a n k) (fun r => r.1.size = n ∧ InRange lo hi r.1))
    {f g : Array Int → Nat → M (Array Int)} (hfg : AgreeOn n lo hi f g) (k : Nat) : Wp E (test_with w gen f g n k) (fun _ => True) := by
  unfold test_with
  rw [wp_bind]
  refine wp_forUp1 (fun _ s => s.1.size = n ∧ s.2.1.size = n ∧ s.2.2.1.size = n) (by norm_num) (by norm_num)
    ⟨hw.junk _ _, hw.junk _ _, hw.junk _ _⟩ ?_ (fun _ _ => wp_pure.2 trivial)
  rintro i ⟨a, b, c, k⟩ - - ⟨h1, h2, h2'⟩
  dsimp only at h1 h2 h2' ⊢
  rw [wp_bind]
  refine (hg a h1 k).mono ?_
  rintro ⟨a', k'⟩ ⟨h3, h4⟩
  dsimp only at h3 h4 ⊢
  rw [wp_bind]
  refine (wp_copy hn h3 h2).mono ?_
  rintro _ rfl
  rw [wp_bind]
  refine (wp_copy hn h3 h2').mono ?_
  rintro _ rfl
  obtain ⟨c, e1, e2, h5⟩ := hfg _ h3 h4
  rw [e1, ok_bind, e2, ok_bind]
  exact wp_same (P := fun s : Array Int × Array Int × Array Int × Nat => s.1.size = n ∧ s.2.1.size = n ∧ s.2.2.1.size = n) hn h5 ⟨h5, h5, h3⟩

/-! ### Products -/

theorem wp_mul_red {E : Err → Prop} (hE : E .overflow) {x y : Int} (hI : I64 (x * y)) (hA : InDoc (x * y) ∨ E .assertFail) :
    Wp E (NttRed.mul_red x y) (fun _ => True) := by
  unfold NttRed.mul_red
  rw [wp_bind]
  refine wp_i64 hI ?_
  rw [wp_bind]
  unfold cassert
  split
  · rw [wp_ok, wp_bind]
    refine wp_i32_free hE ?_
    exact wp_i32_free hE trivial
  · next h =>
    refine wp_error.2 (hA.resolve_left fun hd => h ?_)
    simp only [Bool.and_eq_true, decide_eq_true_eq]
    exact hd

theorem bound62 {x y : Int} (hx : -2147483648 ≤ x ∧ x ≤ 2147483647) (hy : -2147483648 ≤ y ∧ y ≤ 2147483647) : I64 (x * y) := by
  have h : |x * y| ≤ 2147483648 * 2147483648 := by
    rw [abs_mul]
    exact mul_le_mul (abs_le.2 ⟨by omega, by omega⟩) (abs_le.2 ⟨by omega, by omega⟩) (abs_nonneg _) (by norm_num)
  rw [abs_le] at h
  exact ⟨by omega, by omega⟩

/-- The loops of the C functions on products. -/
theorem wp_products {E : Err → Prop} (hE : E .overflow) {n : Nat} (hn : n < 4294967296) {c : Array Int} (hc : c.size = n)
    {body : Nat → Array Int → M (Array Int)} (F : Nat → M Int)
    (hb : ∀ i s, i < n → s.size = n → (∀ l, i ≤ l → l < n → elt s l = elt c l) → body i s = (do let z ← F i; wr s i z))
    (hF : ∀ i, i < n → Wp E (F i) (fun _ => True)) : Wp E (forUp 0 n 1 body c) (fun _ => True) := by
  refine wp_forUp1 (fun i s => s.size = n ∧ ∀ l, i ≤ l → l < n → elt s l = elt c l) hn (Nat.zero_le _) ⟨hc, fun _ _ _ => rfl⟩ ?_
    (fun _ _ => trivial)
  rintro i s - hi ⟨hs, hv⟩
  rw [hb i s hi hs hv, wp_bind]
  refine (hF i hi).mono fun z _ => wp_wr (by omega) ⟨by simp [hs], fun l h1 h2 => ?_⟩
  rw [elt_set (by omega), if_neg (by omega)]
  exact hv l (by omega) h2

theorem rd_ok {a : Array Int} {i : Nat} (h : i < a.size) : rd a i = .ok (elt a i) := by
  unfold rd; rw [NTT.some_elt h]

theorem wp_c16 {E : Err → Prop} (hE : E .overflow) {n : Nat} (hn : n < 4294967296) {a p : Array Int} (ha : a.size = n) (hp : p.size = n)
    (h : ∀ i, i < n → I64 (elt a i * elt p i) ∧ (InDoc (elt a i * elt p i) ∨ E .assertFail)) :
    Wp E (NttRed.mul_reduce_array16 a n p) (fun _ => True) := by
  unfold NttRed.mul_reduce_array16
  refine wp_products hE hn ha (fun i => NttRed.mul_red (elt a i) (elt p i)) (fun i s hi hs hv => ?_)
    (fun i hi => wp_mul_red hE (h i hi).1 (h i hi).2)
  rw [rd_ok (by omega), ok_bind, rd_ok (by omega), ok_bind, hv i le_rfl hi]

theorem wp_c {E : Err → Prop} (hE : E .overflow) {n : Nat} (hn : n < 4294967296) {d a b : Array Int} (hd : d.size = n) (ha : a.size = n)
    (hb : b.size = n) (h : ∀ i, i < n → I64 (elt a i * elt b i) ∧ (InDoc (elt a i * elt b i) ∨ E .assertFail)) :
    Wp E (NttRed.mul_reduce_array d n a b) (fun _ => True) := by
  unfold NttRed.mul_reduce_array
  refine wp_products hE hn hd (fun i => NttRed.mul_red (elt a i) (elt b i)) (fun i s hi hs hv => ?_)
    (fun i hi => wp_mul_red hE (h i hi).1 (h i hi).2)
  rw [rd_ok (by omega), ok_bind, rd_ok (by omega), ok_bind]

theorem wp_cs {E : Err → Prop} (hE : E .overflow) {n : Nat} (hn : n < 4294967296) {a : Array Int} {c : Int} (ha : a.size = n)
    (h : ∀ i, i < n → I64 (elt a i * c) ∧ (InDoc (elt a i * c) ∨ E .assertFail)) :
    Wp E (NttRed.scalar_mul_reduce_array a n c) (fun _ => True) := by
  unfold NttRed.scalar_mul_reduce_array
  refine wp_products hE hn ha (fun i => NttRed.mul_red (elt a i) c) (fun i s hi hs hv => ?_)
    (fun i hi => wp_mul_red hE (h i hi).1 (h i hi).2)
  rw [rd_ok (by omega), ok_bind, hv i le_rfl hi]

/-- One comparison: the C function may stop with one of the errors `E`, otherwise the results are equal. -/
theorem wp_compare {E : Err → Prop} {α : Type} {n : Nat} (hn : n < 4294967296) {asm c : M (Array Int)} (hc : Wp E c (fun _ => True))
    (hs : ∀ a', c = .ok a' → asm = .ok a' ∧ a'.size = n) (ha : ∃ a', asm = .ok a') (x : Array Int → Array Int → α) {P : α → Prop}
    (h : ∀ a, a.size = n → P (x a a)) :
    Wp E (do
      let a ← asm
      let b ← c
      let e ← equal_arrays a b n
      if !e then .error .abort else pure (x a b)) P := by
  obtain ⟨a', ea⟩ := ha
  cases hc' : c with
  | error e =>
    rw [hc'] at hc
    rw [ea, ok_bind]
    exact wp_error.2 (wp_error.1 hc)
  | ok b =>
    obtain ⟨e, hb⟩ := hs b hc'
    rw [e, ok_bind, ok_bind]
    exact wp_same hn hb (h b hb)

/-! ### Generators for the products -/

theorem wp_cwhile_nt {σ : Type} {E : Err → Prop} {cond : σ → Bool} {body : σ → M σ} (hE : E .nonterm) (I : σ → Prop)
    (step : ∀ s, I s → cond s = true → Wp E (body s) I) {P : σ → Prop} (done : ∀ s, I s → cond s = false → P s) :
    ∀ fuel s, I s → Wp E (cwhile cond body fuel s) P := by
  intro fuel
  induction fuel with
  | zero => intro s _; exact wp_error.2 hE
  | succ f ih =>
    intro s hI
    unfold cwhile
    cases hc : cond s with
    | false => exact wp_ok.2 (done s hI hc)
    | true => exact wp_bind.2 ((step s hI hc).mono ih)

theorem sar1 (y : Int) : sar y 1 = y / 2 := by
  unfold sar
  norm_num

theorem wp_halve {E : Err → Prop} {x y : Int} (hx : B30 x) (hy : B30 y) :
    Wp E (halve x y) (fun y' => B30 y' ∧ InDoc (x * y')) := by
  have hI : ∀ y, B30 y → I64 (x * y) := fun y hy => bound62 ⟨by have := hx.1; omega, by have := hx.2; omega⟩
    ⟨by have := hy.1; omega, by have := hy.2; omega⟩
  unfold halve
  rw [wp_bind]
  refine wp_i64 (hI y hy) ?_
  rw [wp_bind]
  have key : ∀ t : Nat, t ≤ 30 → ∀ fuel, t < fuel → ∀ y, -(2 ^ t : Int) ≤ y ∧ y < 2 ^ t → B30 y →
      Wp E (cwhile (fun s : Int × Int => decide (s.2 < -8796042698752) || decide (s.2 > 8796093026303)) (fun s => do
        let y := sar s.1 1
        let z ← i64 (x * y)
        pure (y, z)) fuel (y, x * y)) (fun s => B30 s.1 ∧ InDoc (x * s.1)) := by
    intro t
    induction t with
    | zero =>
      intro _ fuel hf y hy hB
      obtain ⟨f, rfl⟩ : ∃ f, fuel = f + 1 := ⟨fuel - 1, by omega⟩
      unfold cwhile
      have hd : InDoc (x * y) := by
        have h : y = -1 ∨ y = 0 := by omega
        unfold B30 at hx
        rcases h with rfl | rfl
        · exact ⟨by omega, by omega⟩
        · exact ⟨by omega, by omega⟩
      rw [if_neg (by
        simp only [Bool.or_eq_true, decide_eq_true_eq, not_or, not_lt]
        exact ⟨hd.1, hd.2⟩)]
      exact wp_ok.2 ⟨hB, hd⟩
    | succ t ih =>
      intro ht fuel hf y hy hB
      obtain ⟨f, rfl⟩ : ∃ f, fuel = f + 1 := ⟨fuel - 1, by omega⟩
      unfold cwhile
      split
      · rw [wp_bind]
        dsimp only
        rw [sar1, wp_bind]
        have hB' : B30 (y / 2) := by unfold B30 at hB ⊢; omega
        refine wp_i64 (hI _ hB') ?_
        rw [wp_pure]
        refine ih (by omega) f (by omega) _ ?_ hB'
        rw [pow_succ] at hy
        omega
      · next h =>
        simp only [Bool.or_eq_true, decide_eq_true_eq, not_or, not_lt] at h
        exact wp_ok.2 ⟨hB, h⟩
  refine (key 30 le_rfl 33 (by norm_num) y ⟨by unfold B30 at hy; norm_num; omega, by unfold B30 at hy; norm_num; omega⟩ hy).mono ?_
  rintro ⟨y', z⟩ h
  exact wp_pure.2 h

theorem wp_halve_scalar {E : Err → Prop} {mn mx x : Int} (h1 : B30 mn) (h2 : B30 mx) (hx : B30 x) :
    Wp E (halve_scalar mn mx x) (fun c => B30 c ∧ -8796042698752 ≤ c * mn ∧ c * mx ≤ 8796093026303) := by
  have key : ∀ t : Nat, t ≤ 30 → ∀ fuel, t < fuel → ∀ x, -(2 ^ t : Int) ≤ x ∧ x < 2 ^ t → B30 x →
      Wp E (cwhile (fun x : Int => decide (x * mn < -8796042698752) || decide (x * mx > 8796093026303)) (fun x => pure (sar x 1))
        fuel x) (fun c => B30 c ∧ -8796042698752 ≤ c * mn ∧ c * mx ≤ 8796093026303) := by
    intro t
    induction t with
    | zero =>
      intro _ fuel hf y hy hB
      obtain ⟨f, rfl⟩ : ∃ f, fuel = f + 1 := ⟨fuel - 1, by omega⟩
      unfold cwhile
      have hd : -8796042698752 ≤ y * mn ∧ y * mx ≤ 8796093026303 := by
        have h : y = -1 ∨ y = 0 := by omega
        unfold B30 at h1 h2
        rcases h with rfl | rfl
        · exact ⟨by omega, by omega⟩
        · exact ⟨by omega, by omega⟩
      rw [if_neg (by
        simp only [Bool.or_eq_true, decide_eq_true_eq, not_or, not_lt]
        exact ⟨hd.1, hd.2⟩)]
      exact wp_ok.2 ⟨hB, hd⟩
    | succ t ih =>
      intro ht fuel hf y hy hB
      obtain ⟨f, rfl⟩ : ∃ f, fuel = f + 1 := ⟨fuel - 1, by omega⟩
      unfold cwhile
      split
      · rw [wp_bind, wp_pure, sar1]
        have hB' : B30 (y / 2) := by unfold B30 at hB ⊢; omega
        refine ih (by omega) f (by omega) _ ?_ hB'
        rw [pow_succ] at hy
        omega
      · next h =>
        simp only [Bool.or_eq_true, decide_eq_true_eq, not_or, not_lt] at h
        exact wp_ok.2 ⟨hB, h⟩
  exact key 30 le_rfl 33 (by norm_num) x ⟨by unfold B30 at hx; norm_num; omega, by unfold B30 at hx; norm_num; omega⟩ hx

theorem B30.drawn (hw : WorldOK w) (k : Nat) : B30 ((w.random k : Int) - 1073741824) := by
  have := hw.random k
  exact ⟨by omega, by omega⟩

theorem B30.I64 {x y : Int} (hx : B30 x) (hy : B30 y) : C.I64 (x * y) :=
  bound62 ⟨by have := hx.1; omega, by have := hx.2; omega⟩ ⟨by have := hy.1; omega, by have := hy.2; omega⟩

theorem wp_pairs {E : Err → Prop} (hw : WorldOK w) {n : Nat} (hn : n < 4294967296) {a b : Array Int} (ha : a.size = n) (hb : b.size = n)
    (k : Nat) : Wp E (random_arrays_for_mul_reduce true w a b n k) (fun r => Pairs n r.1 r.2.1) := by
  unfold random_arrays_for_mul_reduce
  refine wp_forUp1 (fun i s => s.1.size = n ∧ s.2.1.size = n ∧
    ∀ l, l < i → B30 (elt s.1 l) ∧ B30 (elt s.2.1 l) ∧ InDoc (elt s.1 l * elt s.2.1 l)) hn (Nat.zero_le _)
    ⟨ha, hb, fun l hl => absurd hl (Nat.not_lt_zero _)⟩ ?_
    (fun s h => ⟨h.1, h.2.1, h.2.2⟩)
  rintro i ⟨a, b, k⟩ - hi ⟨h1, h2, hv⟩
  dsimp only at h1 h2 hv ⊢
  rw [coeff30 hw, ok_bind]
  dsimp only
  rw [coeff30 hw, ok_bind, wp_bind]
  refine (wp_halve (B30.drawn hw _) (B30.drawn hw _)).mono fun y' hy' => ?_
  rw [wp_bind]
  refine wp_wr (show i < a.size by omega) ?_
  rw [wp_bind]
  refine wp_wr (show i < b.size by omega) ?_
  rw [wp_pure]
  refine ⟨by simp [h1], by simp [h2], fun l hl => ?_⟩
  dsimp only
  rw [elt_set (by omega), elt_set (by omega)]
  by_cases hli : l = i
  · rw [if_pos hli, if_pos hli]; exact ⟨B30.drawn hw _, hy'⟩
  · rw [if_neg hli, if_neg hli]; exact hv l (by omega)

theorem wp_pairs16 {E : Err → Prop} (hE : E .nonterm) (hw : WorldOK w) {n : Nat} (hn : n < 4294967296) {a b : Array Int} (ha : a.size = n)
    (hb : b.size = n) (fuel k : Nat) :
    Wp E (random_arrays_for_mul_reduce16 true fuel w a b n k)
      (fun r => Pairs n r.1 r.2.1 ∧ ∀ i, i < n → -32768 ≤ elt r.2.1 i ∧ elt r.2.1 i ≤ 32767) := by
  unfold random_arrays_for_mul_reduce16
  rw [wp_bind]
  refine wp_cwhile_nt hE (fun s => s.2.2.1 ≤ n ∧ s.1.size = n ∧ s.2.1.size = n ∧
    ∀ l, l < s.2.2.1 → B30 (elt s.1 l) ∧ (-32768 ≤ elt s.2.1 l ∧ elt s.2.1 l ≤ 32767) ∧ InDoc (elt s.1 l * elt s.2.1 l)) ?_ ?_ fuel _
    ⟨Nat.zero_le _, ha, hb, fun l hl => absurd hl (Nat.not_lt_zero _)⟩
  · rintro ⟨a, b, i, k⟩ ⟨h0, h1, h2, hv⟩ hc
    dsimp only at h0 h1 h2 hv hc ⊢
    have hi : i < n := of_decide_eq_true hc
    rw [coeff30 hw, ok_bind]
    dsimp only
    obtain ⟨y, ey, hy⟩ := coeff15 (w := w) (k + 1)
    rw [ey, ok_bind]
    dsimp only
    rw [wp_bind]
    refine wp_cassert (by simp [hy]) ?_
    have hB := B30.drawn hw k
    have hBy : B30 y := ⟨by omega, by omega⟩
    rw [wp_bind]
    refine wp_i64 (hB.I64 hBy) ?_
    split
    · next hd =>
      rw [wp_bind]
      refine wp_wr (show i < a.size by omega) ?_
      rw [wp_bind]
      refine wp_wr (show i < b.size by omega) ?_
      rw [wp_pure]
      have e16 : Tables.toI16 y = y := by unfold Tables.toI16; omega
      have eu : u32 (i + 1) = i + 1 := by unfold u32; omega
      dsimp only
      rw [e16, eu]
      refine ⟨hi, by simp [h1], by simp [h2], fun l hl => ?_⟩
      rw [elt_set (by omega), elt_set (by omega)]
      by_cases hli : l = i
      · rw [if_pos hli, if_pos hli]; exact ⟨hB, hy, hd⟩
      · rw [if_neg hli, if_neg hli]; exact hv l (by omega)
    · exact wp_pure.2 ⟨h0, h1, h2, hv⟩
  · rintro ⟨a, b, i, k⟩ ⟨h0, h1, h2, hv⟩ hc
    dsimp only at h0 h1 h2 hv hc ⊢
    have hi : i = n := by have := of_decide_eq_false hc; omega
    subst hi
    rw [wp_pure]
    refine ⟨⟨h1, h2, fun l hl => ⟨(hv l hl).1, ?_, (hv l hl).2.2⟩⟩, fun l hl => (hv l hl).2.1⟩
    have := (hv l hl).2.1
    exact ⟨by dsimp only; omega, by dsimp only; omega⟩

theorem wp_scaled {E : Err → Prop} (hw : WorldOK w) {n : Nat} (h0 : 0 < n) (hn : n < 4294967296) {a : Array Int} (ha : a.size = n)
    (k : Nat) : Wp E (random_array_for_scalar_mul true w a n k) (fun r => Scaled n r.1 r.2.1) := by
  unfold random_array_for_scalar_mul
  rw [wp_bind]
  refine wp_forUp1 (fun i s => s.1.size = n ∧ (0 < i → B30 s.2.1 ∧ B30 s.2.2.1) ∧ (i = 0 → s.2.1 = 2147483647 ∧ s.2.2.1 = -2147483648) ∧
    ∀ l, l < i → B30 (elt s.1 l) ∧ s.2.1 ≤ elt s.1 l ∧ elt s.1 l ≤ s.2.2.1) hn (Nat.zero_le _)
    ⟨ha, fun h => absurd h (lt_irrefl _), fun _ => ⟨rfl, rfl⟩, fun l hl => absurd hl (Nat.not_lt_zero _)⟩ ?_ ?_
  · rintro i ⟨a, mn, mx, k⟩ - hi ⟨h1, h2, h3, hv⟩
    dsimp only at h1 h2 h3 hv ⊢
    rw [coeff30 hw, ok_bind]
    dsimp only
    have hB := B30.drawn hw k
    generalize (w.random k : Int) - 1073741824 = x at hB ⊢
    rw [wp_bind]
    refine wp_wr (show i < a.size by omega) ?_
    rw [wp_pure]
    have hm : B30 (if x < mn then x else mn) ∧ B30 (if x > mx then x else mx) := by
      rcases Nat.eq_zero_or_pos i with h | h
      · obtain ⟨e1, e2⟩ := h3 h
        unfold B30 at hB
        rw [if_pos (by omega), if_pos (by omega)]
        exact ⟨hB, hB⟩
      · obtain ⟨e1, e2⟩ := h2 h
        exact ⟨by split <;> assumption, by split <;> assumption⟩
    refine ⟨by simp [h1], fun _ => hm, fun h => absurd h (Nat.succ_ne_zero i), fun l hl => ?_⟩
    dsimp only
    rw [elt_set (by omega)]
    by_cases hli : l = i
    · rw [if_pos hli]; exact ⟨hB, by split <;> omega, by split <;> omega⟩
    · rw [if_neg hli]
      have := hv l (by omega)
      exact ⟨this.1, by split <;> omega, by split <;> omega⟩
  · rintro ⟨a, mn, mx, k⟩ ⟨h1, h2, -, hv⟩
    dsimp only at h1 h2 hv ⊢
    rw [coeff30 hw, ok_bind]
    dsimp only
    rw [wp_bind]
    refine (wp_halve_scalar (h2 h0).1 (h2 h0).2 (B30.drawn hw k)).mono ?_
    rintro c ⟨hc, h4, h5⟩
    rw [wp_pure]
    refine ⟨h1, hc, fun i hi => ⟨(hv i hi).1, fun hc0 => ?_⟩⟩
    dsimp only at hc0
    have h6 := mul_le_mul_of_nonneg_left (hv i hi).2.1 hc0
    have h7 := mul_le_mul_of_nonneg_left (hv i hi).2.2 hc0
    dsimp only
    rw [mul_comm]
    exact ⟨by omega, by omega⟩

/-! ### The tests -/

theorem wp_test16 {E : Err → Prop} (hE : E .overflow) (hE' : E .nonterm) (hw : WorldOK w) {m : Nat} (hm : 0 < m) (hn : 16 * m < 4294967296)
    (fuel k : Nat) : Wp E (test_mul_reduce_array16 true fuel w (16 * m) k) (fun _ => True) := by
  unfold test_mul_reduce_array16
  rw [wp_bind]
  refine wp_forUp1 (fun _ s => s.1.size = 16 * m ∧ s.2.1.size = 16 * m ∧ s.2.2.1.size = 16 * m ∧ s.2.2.2.1.size = 16 * m) (by norm_num)
    (by norm_num) ⟨hw.junk _ _, hw.junk _ _, hw.junk _ _, hw.junk _ _⟩ ?_ (fun _ _ => wp_pure.2 trivial)
  rintro i ⟨a, b, c, p, k⟩ - - ⟨h1, h2, h3, h4⟩
  dsimp only at h1 h2 h3 h4 ⊢
  rw [wp_bind]
  refine (wp_pairs16 hE' hw hn h1 h4 fuel k).mono ?_
  rintro ⟨a', p', k'⟩ ⟨⟨s1, s2, hv⟩, -⟩
  dsimp only at s1 s2 hv ⊢
  rw [wp_bind]
  refine (wp_copy hn s1 h2).mono ?_
  rintro _ rfl
  rw [wp_bind]
  refine (wp_copy hn s1 h3).mono ?_
  rintro _ rfl
  obtain ⟨r, er, hr⟩ := wp_total.1 (wp_mul16_asm (m := 2 * m) (E := NoErr) (by omega) (by omega) (Is.self s1) (p := p') (by omega))
  exact wp_compare (P := fun s : Array Int × Array Int × Array Int × Array Int × Nat =>
      s.1.size = 16 * m ∧ s.2.1.size = 16 * m ∧ s.2.2.1.size = 16 * m ∧ s.2.2.2.1.size = 16 * m) hn
    (wp_c16 hE hn s1 s2 fun i hi => ⟨(hv i hi).1.I64 (hv i hi).2.1, .inl (hv i hi).2.2⟩)
    (fun x hx => by
      have e := Props.C35_mul_reduce_array16_asm hm hn _ _ _ s1 (by omega) hx
      refine ⟨e, ?_⟩
      rw [er] at e
      rw [← Except.ok.inj e]; exact hr.1) ⟨r, er⟩ (fun a b => (a, b, _, p', k')) (fun a ha => ⟨ha, ha, s1, s2⟩)

theorem wp_test32 {E : Err → Prop} (hE : E .overflow) (hw : WorldOK w) {m : Nat} (hm : 0 < m) (hn : 16 * m < 4294967296)
    (k : Nat) : Wp E (test_mul_reduce_array true w (16 * m) k) (fun _ => True) := by
  unfold test_mul_reduce_array
  rw [wp_bind]
  refine wp_forUp1 (fun _ s => s.1.size = 16 * m ∧ s.2.1.size = 16 * m ∧ s.2.2.1.size = 16 * m ∧ s.2.2.2.1.size = 16 * m) (by norm_num)
    (by norm_num) ⟨hw.junk _ _, hw.junk _ _, hw.junk _ _, hw.junk _ _⟩ ?_ (fun _ _ => wp_pure.2 trivial)
  rintro i ⟨a, b, c, d, k⟩ - - ⟨h1, h2, h3, h4⟩
  dsimp only at h1 h2 h3 h4 ⊢
  rw [wp_bind]
  refine (wp_pairs hw hn h2 h3 k).mono ?_
  rintro ⟨b', c', k'⟩ ⟨s1, s2, hv⟩
  dsimp only at s1 s2 hv ⊢
  obtain ⟨r, er, hr⟩ := wp_total.1 (wp_mul_asm (m := 2 * m) (E := NoErr) (n := 16 * m) (a := a) (b := b') (c := c') (by omega) (by omega) h1
    (by omega) (by omega))
  exact wp_compare (P := fun s : Array Int × Array Int × Array Int × Array Int × Nat =>
      s.1.size = 16 * m ∧ s.2.1.size = 16 * m ∧ s.2.2.1.size = 16 * m ∧ s.2.2.2.1.size = 16 * m) hn
    (wp_c hE hn h4 s1 s2 fun i hi => ⟨(hv i hi).1.I64 (hv i hi).2.1, .inl (hv i hi).2.2⟩)
    (fun x hx => by
      obtain ⟨r', er', hr'⟩ := wp_total.1 (wp_mul_asm (m := 2 * m) (E := NoErr) (n := 16 * m) (a := d) (b := b') (c := c') (by omega)
        (by omega) h4 (by omega) (by omega))
      have e := Props.C35_mul_reduce_array_asm hm hn _ _ _ _ h4 (by omega) (by omega) hx
      rw [er'] at e
      have e := Except.ok.inj e
      subst e
      rw [er, Is.ext hr hr']
      exact ⟨rfl, hr'.1⟩) ⟨r, er⟩ (fun a d => (a, b', c', d, k')) (fun a ha => ⟨ha, s1, s2, ha⟩)

theorem wp_testS {E : Err → Prop} (hE : E .overflow) (hE' : E .assertFail) (hw : WorldOK w) {m : Nat} (hm : 0 < m) (hn : 16 * m < 4294967296)
    (k : Nat) : Wp E (test_scalar_mul_reduce_array true w (16 * m) k) (fun _ => True) := by
  unfold test_scalar_mul_reduce_array
  rw [wp_bind]
  refine wp_forUp1 (fun _ s => s.1.size = 16 * m ∧ s.2.1.size = 16 * m ∧ s.2.2.1.size = 16 * m) (by norm_num)
    (by norm_num) ⟨hw.junk _ _, hw.junk _ _, hw.junk _ _⟩ ?_ (fun _ _ => wp_pure.2 trivial)
  rintro i ⟨a, b, d, k⟩ - - ⟨h1, h2, h3⟩
  dsimp only at h1 h2 h3 ⊢
  rw [wp_bind]
  refine (wp_scaled hw (by omega) hn h1 k).mono ?_
  rintro ⟨a', c, k'⟩ ⟨s1, s2, hv⟩
  dsimp only at s1 s2 hv ⊢
  rw [wp_bind]
  refine (wp_copy hn s1 h2).mono ?_
  rintro _ rfl
  rw [wp_bind]
  refine (wp_copy hn s1 h3).mono ?_
  rintro _ rfl
  have ec : toI32 c = c := NttRed.toI32_of ⟨by unfold B30 at s2; omega, by unfold B30 at s2; omega⟩
  obtain ⟨r, er, hr⟩ := wp_total.1 (wp_scalar_mul_asm (m := 2 * m) (E := NoErr) ec (by omega) (by omega) (Is.self s1))
  exact wp_compare (P := fun s : Array Int × Array Int × Array Int × Nat =>
      s.1.size = 16 * m ∧ s.2.1.size = 16 * m ∧ s.2.2.1.size = 16 * m) hn
    (wp_cs hE hn s1 fun i hi => ⟨(hv i hi).1.I64 s2, .inr hE'⟩)
    (fun x hx => by
      have e := Props.C35_scalar_mul_reduce_array_asm hm hn _ _ _ _ ec s1 hx
      refine ⟨e, ?_⟩
      rw [er] at e
      rw [← Except.ok.inj e]; exact hr.1) ⟨r, er⟩ (fun a b => (a, b, _, k')) (fun a ha => ⟨ha, ha, s1⟩)

section
variable {m : Nat} (hm : 0 < m) (hn : 16 * m < 4294967296)
include hm hn

theorem agree_red : AgreeOn (16 * m) (-1073741824) 1073741823 reduce_array_asm NttRed.reduce_array ∧
    AgreeOn (16 * m) (-1073741824) 1073741823 reduce_array_asm2 NttRed.reduce_array ∧
    AgreeOn (16 * m) (-1073741824) 1073741823 reduce_array_twice_asm NttRed.reduce_array_twice ∧
    AgreeOn (16 * m) (-1073741824) 1073741823 reduce_array_twice_asm2 NttRed.reduce_array_twice := by
  have h32 : ∀ a : Array Int, InRange (-1073741824) 1073741823 a → (∀ i, i < a.size → I32 (elt a i)) := fun a h i hi => by
    have := h i hi
    exact ⟨by omega, by omega⟩
  refine ⟨fun a ha hr => ?_, fun a ha hr => ?_, fun a ha hr => ?_, fun a ha hr => ?_⟩
  · obtain ⟨a', e, s, -⟩ := NttRed.run_reduce_array hn ha (fun i hi => h32 a hr i (by omega))
    exact ⟨a', (Props.C35_reduce_array_asm hm hn a ha (h32 a hr)).trans e, e, s⟩
  · obtain ⟨a', e, s, -⟩ := NttRed.run_reduce_array hn ha (fun i hi => h32 a hr i (by omega))
    exact ⟨a', (Props.C35_reduce_array_asm2 hm hn a ha (h32 a hr)).trans e, e, s⟩
  · obtain ⟨a', e, s, -⟩ := NttRed.run_reduce_array_twice hn ha (fun i hi => h32 a hr i (by omega))
    exact ⟨a', (Props.C35_reduce_array_twice_asm hm hn a ha (h32 a hr)).trans e, e, s⟩
  · obtain ⟨a', e, s, -⟩ := NttRed.run_reduce_array_twice hn ha (fun i hi => h32 a hr i (by omega))
    exact ⟨a', (Props.C35_reduce_array_twice_asm2 hm hn a ha (h32 a hr)).trans e, e, s⟩

theorem agree_correct : AgreeOn (16 * m) (-12289) 24577 correct_asm NttRed.normalize := by
  intro a ha hr
  obtain ⟨a', e, s, v⟩ := NttRed.run_correct hn ha (fun i hi => hr i (by omega))
  obtain ⟨a'', e', s', v'⟩ := NttRed.run_normalize hn ha
  have : a'' = a' := Is.ext (f := fun i => elt a i % 12289) ⟨s', v'⟩ ⟨s, v⟩
  subst this
  refine ⟨_, (Props.C35_correct_asm hm hn a ha (fun i hi => ?_)).trans e, e', s⟩
  have := hr i hi
  omega

theorem agree_shift : AgreeOn (16 * m) 0 12288 shift_array_asm NttRed.shift_array := by
  intro a ha hr
  have h32 : (∀ i, i < a.size → I32 (elt a i)) := fun i hi => by have := hr i hi; exact ⟨by omega, by omega⟩
  obtain ⟨a', e, s, -⟩ := NttRed.run_shift_array hn ha (fun i hi => h32 i (by omega))
  exact ⟨a', (Props.C35_shift_array_asm hm hn a ha h32).trans e, e, s⟩

theorem wp_test_correction {E : Err → Prop} (hw : WorldOK w) (k : Nat) : Wp E (test_correction w (16 * m) k) (fun _ => True) :=
  wp_test_with hw hn (fun _ ha k => wp_for_correct hn ha k) (agree_correct hm hn) k

theorem wp_test_shift {E : Err → Prop} (hw : WorldOK w) (k : Nat) : Wp E (test_shift w (16 * m) k) (fun _ => True) :=
  wp_test_with hw hn (fun _ ha k => wp_for_shift hn ha k) (agree_shift hm hn) k

theorem wp_tests {E : Err → Prop} (hE : E .overflow) (hE' : E .nonterm) (hE'' : E .assertFail) (hw : WorldOK w) (fuel k : Nat) :
    Wp E (tests true fuel w (16 * m) k) (fun _ => True) := by
  obtain ⟨a1, a2, a3, a4⟩ := agree_red hm hn
  unfold tests
  rw [wp_bind]; refine (wp_cross_check hw hn a1 k).mono fun k _ => ?_
  rw [wp_bind]; refine (wp_cross_check hw hn a2 k).mono fun k _ => ?_
  rw [wp_bind]; refine (wp_cross_check hw hn a3 k).mono fun k _ => ?_
  rw [wp_bind]; refine (wp_cross_check hw hn a4 k).mono fun k _ => ?_
  rw [wp_bind]; refine (wp_test_correction hm hn hw k).mono fun k _ => ?_
  rw [wp_bind]; refine (wp_test_shift hm hn hw k).mono fun k _ => ?_
  rw [wp_bind]; refine (wp_test16 hE hE' hw hm hn fuel k).mono fun k _ => ?_
  rw [wp_bind]; refine (wp_test32 hE hw hm hn k).mono fun k _ => ?_
  exact wp_testS hE hE'' hw hm hn k

end

/-! ### What success means -/

theorem cross_check_meaning (hw : WorldOK w) {n : Nat} (hn : n < 4294967296) {f g : Array Int → Nat → M (Array Int)}
    (hf : ∀ a b, a.size = n → f a n = .ok b → b.size = n) (hg : ∀ a b, a.size = n → g a n = .ok b → b.size = n) (k : Nat) :
    Wp TestProg.AnyErr (cross_check true w n f g k) (fun k' => k' = k + 2 + 10000 * n ∧
      ∀ j, j < 10000 → ∃ r, f (drawn w n (k + 2 + j * n)) n = .ok r ∧ g (drawn w n (k + 2 + j * n)) n = .ok r) := by
  unfold cross_check
  rw [wp_bind]
  refine wp_forUp1 (fun i s => s.2.2 = k + 2 + i * n ∧ s.1.size = n ∧ s.2.1.size = n ∧
    ∀ j, j < i → ∃ r, f (drawn w n (k + 2 + j * n)) n = .ok r ∧ g (drawn w n (k + 2 + j * n)) n = .ok r) (by norm_num) (by norm_num)
    ⟨by simp, hw.junk _ _, hw.junk _ _, fun _ h => absurd h (Nat.not_lt_zero _)⟩ ?_ (fun _ h => wp_pure.2 ⟨h.1, h.2.2.2⟩)
  rintro i ⟨a, b, k'⟩ - - ⟨h0, h1, h2, hv⟩
  dsimp only at h0 h1 h2 hv ⊢
  subst h0
  have hd : (drawn w n (k + 2 + i * n)).size = n := by simp [drawn]
  rw [run_random_array hw hn h1, ok_bind, wp_bind]
  refine (wp_copy hn hd h2).mono ?_
  rintro _ rfl
  dsimp only
  cases e1 : f (drawn w n (k + 2 + i * n)) n with
  | error e => exact wp_error.2 trivial
  | ok u =>
    cases e2 : g (drawn w n (k + 2 + i * n)) n with
    | error e => exact wp_error.2 trivial
    | ok v =>
      have su := hf _ _ hd e1
      have sv := hg _ _ hd e2
      obtain ⟨e, h3, h4⟩ := run_equal_arrays hn su sv
      rw [ok_bind, ok_bind, h3, ok_bind]
      cases he : e with
      | false => exact wp_error.2 trivial
      | true =>
        have huv := h4.1 he
        refine wp_pure.2 ⟨by ring, su, sv, fun j hj => ?_⟩
        by_cases hji : j = i
        · subst hji
          exact ⟨u, e1, by rw [e2, huv]⟩
        · exact hv j (by omega)

/-! ### The program as compiled by a C compiler without `-fwrapv` -/

theorem of_wp_false {α : Type} {e : Err} {m : M α} (h : Wp (· = e) m (fun _ => False)) : m = .error e := by
  cases m with
  | error e' => rw [wp_error.1 h]
  | ok x => exact absurd (wp_ok.1 h) id

theorem random_array_overflow {n : Nat} (h0 : 0 < n) (hn : n < 4294967296) (a : Array Int) (k : Nat) :
    random_array false w a n k = .error .overflow := by
  refine of_wp_false ?_
  unfold random_array
  refine wp_forUp1 (fun i _ => i = 0) hn (Nat.zero_le _) rfl ?_ (fun _ h => by omega)
  rintro i s - - -
  rw [coeff_overflow]
  exact wp_error.2 rfl

theorem cross_check_overflow {n : Nat} (h0 : 0 < n) (hn : n < 4294967296) (f g : Array Int → Nat → M (Array Int)) (k : Nat) :
    cross_check false w n f g k = .error .overflow := by
  refine of_wp_false ?_
  unfold cross_check
  rw [wp_bind]
  refine wp_forUp1 (fun i _ => i = 0) (by norm_num) (Nat.zero_le _) rfl ?_ (fun _ h => absurd h (by norm_num))
  rintro i s - - -
  rw [random_array_overflow h0 hn]
  exact wp_error.2 rfl

theorem main_overflow (fuel : Nat) : main false fuel w true = .error .overflow := by
  unfold main run_tests
  rw [if_pos rfl, List.foldlM_cons]
  unfold tests
  rw [cross_check_overflow (by norm_num) (by norm_num)]
  rfl

/-! ### A source of numbers with which the generator never stops -/

theorem gen_forever (hz : ∀ k, w.random k = 0) {n : Nat} (h0 : 0 < n) (fuel : Nat) (a p : Array Int) (k : Nat) :
    random_arrays_for_mul_reduce16 true fuel w a p n k = .error .nonterm := by
  have c15 : ∀ k, random_coeff true w 32768 k = .ok (-32768, k + 1) := fun k => by
    rw [coeff_eq (by norm_num), hz]; rfl
  have c30 : ∀ k, random_coeff true w 1073741824 k = .ok (-1073741824, k + 1) := fun k => by
    rw [coeff_eq (by norm_num), hz]; rfl
  refine of_wp_false ?_
  unfold random_arrays_for_mul_reduce16
  rw [wp_bind]
  refine wp_cwhile_nt (E := (· = Err.nonterm)) rfl (fun s : Array Int × Array Int × Nat × Nat => s.2.2.1 = 0) ?_ ?_ fuel (a, p, 0, k) rfl
  · rintro ⟨a, p, i, k⟩ hi -
    dsimp only at hi ⊢
    rw [c30, ok_bind]
    dsimp only
    rw [c15, ok_bind]
    dsimp only
    rw [wp_bind]
    refine wp_cassert (by simp) ?_
    rw [wp_bind]
    refine wp_i64 ⟨by norm_num, by norm_num⟩ ?_
    rw [if_neg (by norm_num)]
    exact wp_pure.2 hi
  · rintro ⟨a, p, i, k⟩ hi hc
    dsimp only at hi hc
    have := of_decide_eq_false hc
    omega

theorem test16_forever (hz : ∀ k, w.random k = 0) {n : Nat} (h0 : 0 < n) (fuel k : Nat) :
    test_mul_reduce_array16 true fuel w n k = .error .nonterm := by
  refine of_wp_false ?_
  unfold test_mul_reduce_array16
  rw [wp_bind]
  refine wp_forUp1 (fun i _ => i = 0) (by norm_num) (Nat.zero_le _) rfl ?_ (fun _ h => absurd h (by norm_num))
  rintro i s - - -
  rw [gen_forever hz h0]
  exact wp_error.2 rfl

end TestAvx
