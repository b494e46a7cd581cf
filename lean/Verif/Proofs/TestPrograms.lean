import Verif.SpecTestPrograms
import Verif.Proofs.Naive
import Verif.Proofs.Params
import Verif.Proofs.NttRed
import Verif.Proofs.Shuffle

/-
Proofs about the functions of the test programs: the oracles, and the loops of the tests.
-/

namespace TestProg
open C Spec NTT

/-! ### Mathematics -/

theorem ntt_mono (n : Nat) (ω : Zq) {j : Nat} (hj : j < n) (i : Nat) :
    ntt n ω (mono j) i = (ω ^ j) ^ i := by
  unfold ntt evalPoly mono
  rw [Finset.sum_eq_single j]
  · rw [if_pos rfl, one_mul, ← pow_mul, ← pow_mul, Nat.mul_comm]
  · intro b _ hb; rw [if_neg hb, zero_mul]
  · intro h; exact absurd (Finset.mem_range.2 hj) h

/-- The position of the nonzero component after two transforms of `X^j`. -/
def opp (n j : Nat) : Nat := if j = 0 then 0 else n - j

theorem ntt_congr {n : Nat} {ω : Zq} {A B : Nat → Zq} (h : ∀ i, i < n → A i = B i) (i : Nat) :
    ntt n ω A i = ntt n ω B i := by
  unfold ntt evalPoly
  exact Finset.sum_congr rfl fun l hl => by rw [h l (Finset.mem_range.1 hl)]

/-- Two transforms with the same root reverse the order. -/
theorem ntt_twice {k : Nat} {ω ω' : Zq} (hω : 0 < k → ω ^ 2 ^ (k - 1) = -1) (hinv : ω * ω' = 1)
    (h1 : ω ^ 2 ^ k = 1) (A : Nat → Zq) {i : Nat} (hi : i < 2 ^ k) :
    ntt (2 ^ k) ω (ntt (2 ^ k) ω A) i = 2 ^ k * A (opp (2 ^ k) i) := by
  have ho : opp (2 ^ k) i < 2 ^ k := by unfold opp; split <;> omega
  rw [← ntt_ntt two_ne_zero_Zq hω hinv A ho]
  have : ω ^ i = ω' ^ opp (2 ^ k) i := by
    unfold opp
    split
    · next h => rw [h]; simp
    · have e : ω ^ i * ω ^ (2 ^ k - i) = 1 := by
        rw [← pow_add, show i + (2 ^ k - i) = 2 ^ k by omega, h1]
      have e2 : ω ^ (2 ^ k - i) * ω' ^ (2 ^ k - i) = 1 := by rw [← mul_pow, hinv, one_pow]
      calc ω ^ i = ω ^ i * (ω ^ (2 ^ k - i) * ω' ^ (2 ^ k - i)) := by rw [e2, mul_one]
        _ = ω' ^ (2 ^ k - i) := by rw [← mul_assoc, e, one_mul]
  show evalPoly _ _ (ω ^ i) = evalPoly _ _ (ω' ^ _)
  rw [this]

theorem opp_iff {n i j : Nat} (hi : i < n) (hj : j < n) : opp n i = j ↔ i = opp n j := by
  unfold opp; split <;> split <;> omega

/-- Products of monomials. -/
theorem negacyclic_mono {n i j : Nat} (hi : i < n) (hj : j < n) (l : Nat) :
    negacyclic n (mono i) (mono j) l =
      if i + j = l then 1 else if i + j = l + n then -1 else 0 := by
  unfold negacyclic mono
  rw [Finset.sum_eq_single i, Finset.sum_eq_single j]
  · simp
  · intro b _ hb; simp [hb]
  · intro h; exact absurd (Finset.mem_range.2 hj) h
  · intro b _ hb; simp [hb]
  · intro h; exact absurd (Finset.mem_range.2 hi) h

/-! ### Elementary functions -/

theorem ok_bind {α β : Type} (x : α) (f : α → M β) : ((Except.ok x : M α) >>= f) = f x := rfl

/-- The loops that return false as soon as a test fails. -/
theorem run_scan {σ : Type} {n : Nat} {body : Nat → σ → M (Option σ)} (g : Nat → Prop)
    (I : Nat → σ → Prop) (hn : n < 4294967296)
    (hbody : ∀ i s, i < n → I i s → (¬ g i ∧ body i s = .ok none) ∨
      (g i ∧ ∃ s', body i s = .ok (some s') ∧ I (i + 1) s')) :
    ∀ fuel i s, n - i < fuel → i ≤ n → I i s →
      ∃ b, scan n body fuel i s = .ok b ∧ (b = true ↔ ∀ l, i ≤ l → l < n → g l) := by
  intro fuel
  induction fuel with
  | zero => intro i s h; omega
  | succ fuel ih =>
    intro i s hf hin hI
    unfold scan
    by_cases hi : i < n
    · rw [if_pos hi]
      rcases hbody i s hi hI with ⟨hg, e⟩ | ⟨hg, s', e, hI'⟩
      · rw [e]
        refine ⟨false, rfl, ?_⟩
        simp only [Bool.false_eq_true, false_iff]
        intro h
        exact hg (h i (Nat.le_refl _) hi)
      · rw [e]
        obtain ⟨b, hb, hiff⟩ := ih (i + 1) s' (by omega) (by omega) hI'
        refine ⟨b, ?_, ?_⟩
        · have : u32 (i + 1) = i + 1 := by unfold u32; omega
          show scan n body fuel (u32 (i + 1)) s' = _
          rw [this, hb]
        · rw [hiff]
          constructor
          · intro h l h1 h2
            rcases Nat.eq_or_lt_of_le h1 with rfl | h3
            · exact hg
            · exact h l h3 h2
          · intro h l h1 h2
            exact h l (by omega) h2
    · rw [if_neg hi]
      exact ⟨true, rfl, by simp only [true_iff]; intro l h1 h2; omega⟩

theorem run_equal_arrays {n : Nat} (hn : n < 4294967296) {a b : Array Int} (ha : a.size = n)
    (hb : b.size = n) :
    ∃ e, equal_arrays a b n = .ok e ∧ (e = true ↔ a = b) := by
  obtain ⟨e, h1, h2⟩ := run_scan (n := n) (body := fun i (_ : Unit) => do
    let x ← rd a i
    let y ← rd b i
    pure (if x ≠ y then none else some ())) (fun i => elt a i = elt b i) (fun _ _ => True) hn
    (fun i s hi _ => by
      have hx := some_elt (a := a) (i := i) (by omega)
      have hy := some_elt (a := b) (i := i) (by omega)
      by_cases h : elt a i = elt b i
      · right; refine ⟨h, (), ?_, trivial⟩
        simp only [rd, hx, hy]
        show Except.ok (if elt a i ≠ elt b i then none else some ()) = _
        rw [if_neg (by simpa using h)]
      · left; refine ⟨h, ?_⟩
        simp only [rd, hx, hy]
        show Except.ok (if elt a i ≠ elt b i then none else some ()) = _
        rw [if_pos h])
    (n + 1) 0 () (by omega) (Nat.zero_le _) trivial
  refine ⟨e, h1, h2.trans ⟨fun h => ?_, fun h l _ _ => by rw [h]⟩⟩
  apply Array.ext_getElem?
  intro i
  by_cases hi : i < n
  · rw [some_elt (by omega), some_elt (by omega), h i (Nat.zero_le _) hi]
  · rw [Array.getElem?_eq_none (by omega), Array.getElem?_eq_none (by omega)]

theorem elt_set {a : Array Int} {i l : Nat} {x : Int} (hi : i < a.size) :
    elt (a.setIfInBounds i x) l = if l = i then x else elt a l := by
  unfold elt
  by_cases h : l = i
  · subst h
    simp [Array.getD_eq_getD_getElem?, Array.getElem?_setIfInBounds_self_of_lt hi]
  · rw [if_neg h]
    simp [Array.getD_eq_getD_getElem?, Array.getElem?_setIfInBounds_ne (Ne.symm h)]

/-- A loop that writes `F i` at each position. -/
theorem run_fill {n : Nat} (hn : n < 4294967296) {a : Array Int} (ha : a.size = n) (F : Nat → Int)
    {body : Nat → Array Int → M (Array Int)}
    (hb : ∀ i a, i < n → a.size = n → body i a = .ok (a.setIfInBounds i (F i))) :
    ∃ a', forUp 0 n 1 body a = .ok a' ∧ a'.size = n ∧ ∀ i, i < n → elt a' i = F i := by
  refine wp_total.1 (wp_forUp1 (fun i a => a.size = n ∧ ∀ l, l < i → elt a l = F l) hn (Nat.zero_le _)
    ⟨ha, fun l hl => absurd hl (Nat.not_lt_zero _)⟩ ?_ fun s h => h)
  rintro i a - hi ⟨hs, hv⟩
  rw [hb i a hi hs, wp_ok]
  refine ⟨by simp [hs], fun l hl => ?_⟩
  rw [elt_set (by omega)]
  split
  · next h => rw [h]
  · exact hv l (by omega)

theorem wr_ok {α : Type} {a : Array α} {i : Nat} {x : α} (h : i < a.size) :
    wr a i x = .ok (a.setIfInBounds i x) := by unfold wr; rw [if_pos h]

theorem run_simple_poly {n j : Nat} (hn : n < 4294967296) (hj : j < n) {a : Array Int}
    (ha : a.size = n) : ∃ a', simple_poly a j n = .ok a' ∧ IsMono n j a' := by
  obtain ⟨b, e, s, v⟩ := run_fill hn ha (fun _ => 0) (body := fun i a => wr a i 0)
    (fun i a hi hs => wr_ok (by omega))
  refine ⟨b.setIfInBounds j 1, ?_, by simp [s], fun i hi => ?_⟩
  · unfold simple_poly cassert
    rw [decide_eq_true hj]
    show (forUp 0 n 1 (fun i a => wr a i 0) a >>= fun a => wr a j 1) = _
    rw [e]
    exact wr_ok (by omega)
  · rw [elt_set (by omega), v i hi]

theorem _root_.Spec.IsMono.reduced {n j : Nat} {a : Array Int} (h : IsMono n j a) : Reduced a := fun i hi => by
  rw [h.2 i (by have := h.1; omega)]; split <;> omega

theorem _root_.Spec.IsMono.coeff {n j : Nat} {a : Array Int} (h : IsMono n j a) :
    ∀ i, i < n → Spec.coeff a i = mono j i := fun i hi => by
  unfold Spec.coeff mono
  rw [h.2 i hi]; split <;> simp

theorem run_random_coeff {n : Nat} {w : World} (hw : WorldOK n w) (k : Nat) :
    ∃ x, random_coeff w k = .ok (x, k + 1) ∧ 0 ≤ x ∧ x ≤ 12288 := by
  have h1 : Int.tmod (w.random k : Int) 12289 = ((w.random k % 12289 : Nat) : Int) := by
    rw [Int.tmod_eq_emod_of_nonneg (by omega)]; omega
  have h2 : toI32 ((w.random k % 12289 : Nat) : Int) = ((w.random k % 12289 : Nat) : Int) := by
    unfold toI32; omega
  refine ⟨((w.random k % 12289 : Nat) : Int), ?_, by omega, by omega⟩
  unfold random_coeff
  rw [Naive.crem_q, h1, ok_bind]
  simp only [h2]
  have h3 : (decide (0 ≤ ((w.random k % 12289 : Nat) : Int)) &&
      decide (((w.random k % 12289 : Nat) : Int) ≤ 12288)) = true := by
    rw [Bool.and_eq_true]; constructor <;> (apply decide_eq_true; omega)
  rw [h3]; rfl

theorem run_random_poly {n : Nat} (hn : n < 4294967296) {w : World} (hw : WorldOK n w) {a : Array Int}
    (ha : a.size = n) (k : Nat) :
    ∃ a', random_poly w a n k = .ok (a', k + n) ∧ a'.size = n ∧ Reduced a' := by
  obtain ⟨⟨a', k'⟩, e, h1, h2, rfl⟩ := wp_total.1 (wp_forUp1 (E := NoErr) (lo := 0) (hi := n)
    (body := fun i (s : Array Int × Nat) => do
      let x ← random_coeff w s.2
      let a ← wr s.1 i x.1
      pure (a, x.2)) (s := (a, k))
    (fun i s => s.1.size = n ∧ (∀ l, l < i → 0 ≤ elt s.1 l ∧ elt s.1 l ≤ 12288) ∧ s.2 = k + i) hn
    (Nat.zero_le _) ⟨ha, fun l hl => absurd hl (Nat.not_lt_zero _), rfl⟩ (by
      rintro i ⟨a, k'⟩ - hi ⟨hs, hv, rfl⟩
      obtain ⟨x, ex, hx⟩ := run_random_coeff hw (k + i)
      simp only at hs
      rw [wp_bind]
      refine NttRed.wp_of_eq ex ?_
      rw [wp_bind]
      refine wp_wr (show i < a.size by omega) ?_
      rw [wp_pure]
      refine ⟨by simp [hs], fun l hl => ?_, by simp only; omega⟩
      simp only at hv ⊢
      rw [elt_set (by omega)]
      by_cases hli : l = i
      · rw [if_pos hli]; exact hx
      · rw [if_neg hli]; exact hv l (by omega))
    (P := fun s => s.1.size = n ∧ (∀ l, l < n → 0 ≤ elt s.1 l ∧ elt s.1 l ≤ 12288) ∧ s.2 = k + n)
    fun s h => h)
  exact ⟨a', e, h1, fun i hi => h2 i (by simp only at h1; omega)⟩

theorem run_power {x : Int} (hx : 0 ≤ x ∧ x ≤ 12288) {k : Nat} (hk : k < 4294967296) :
    ∃ y, power x k = .ok y ∧ (0 ≤ y ∧ y ≤ 12288) ∧ (y : Zq) = (x : Zq) ^ k := by
  have small : ∀ u v : Int, (0 ≤ u ∧ u ≤ 12288) → (0 ≤ v ∧ v ≤ 12288) → I32 (u * v) ∧
      0 ≤ (u * v).tmod 12289 ∧ (u * v).tmod 12289 ≤ 12288 := by
    intro u v hu hv
    have h0 : 0 ≤ u * v := mul_nonneg hu.1 hv.1
    have h1 : u * v ≤ 12288 * 12288 := mul_le_mul hu.2 hv.2 hv.1 (by omega)
    have := Naive.tmod_small (u * v)
    exact ⟨⟨by omega, by omega⟩, Int.tmod_nonneg _ h0, this.2⟩
  obtain ⟨⟨k', x', y'⟩, e, h⟩ := wp_total.1 (wp_cwhile (E := NoErr)
    (cond := fun s : Nat × Int × Int => decide (s.1 ≠ 0)) (body := fun s => do
      let y ← (if s.1 &&& 1 ≠ 0 then do let z ← i32 (s.2.2 * s.2.1); crem z 12289 else pure s.2.2)
      let z ← i32 (s.2.1 * s.2.1)
      let x ← crem z 12289
      pure (s.1 / 2, x, y))
    (fun s => s.1 < 4294967296 ∧ (0 ≤ s.2.1 ∧ s.2.1 ≤ 12288) ∧ (0 ≤ s.2.2 ∧ s.2.2 ≤ 12288) ∧
      (s.2.2 : Zq) * (s.2.1 : Zq) ^ s.1 = (x : Zq) ^ k)
    (fun s => if s.1 = 0 then 0 else s.1.log2 + 1) (by
      rintro ⟨m, u, v⟩ ⟨hm, hu, hv, he⟩ hc
      simp only at hm hu hv he hc ⊢
      have hm0 : m ≠ 0 := by simpa using hc
      have hmu := small u u hu hu
      have hvu := small v u hv hu
      have hand : m &&& 1 = m % 2 := Nat.and_one_is_mod m
      have hlog : (if m / 2 = 0 then 0 else (m / 2).log2 + 1) < (if m = 0 then 0 else m.log2 + 1) := by
        rw [if_neg hm0]
        split
        · omega
        · have := Nat.log2_def m
          rw [if_pos (show 2 ≤ m by omega)] at this
          omega
      have hpow : (u : Zq) ^ m = ((u : Zq) * u) ^ (m / 2) * (u : Zq) ^ (m % 2) := by
        conv_lhs => rw [← Nat.div_add_mod m 2, pow_add, pow_mul, pow_two]
      rw [wp_bind, hand]
      by_cases hb : m % 2 = 0
      · rw [if_neg (by omega), wp_pure, wp_bind]
        refine wp_i32 hmu.1 ?_
        rw [wp_bind]
        refine NttRed.wp_of_eq (Naive.crem_q _) ?_
        rw [wp_pure]
        refine ⟨⟨by simp only; omega, hmu.2, hv, ?_⟩, hlog⟩
        simp only [Naive.zq_tmod]
        rw [← he, hpow, hb]; push_cast; ring
      · rw [if_pos hb, wp_bind]
        refine wp_i32 hvu.1 (NttRed.wp_of_eq (Naive.crem_q _) ?_)
        rw [wp_bind]
        refine wp_i32 hmu.1 ?_
        rw [wp_bind]
        refine NttRed.wp_of_eq (Naive.crem_q _) ?_
        rw [wp_pure]
        refine ⟨⟨by simp only; omega, hmu.2, hvu.2, ?_⟩, hlog⟩
        simp only [Naive.zq_tmod]
        rw [← he, hpow, show m % 2 = 1 by omega]; push_cast; ring)
    (P := fun s => (0 ≤ s.2.2 ∧ s.2.2 ≤ 12288) ∧ (s.2.2 : Zq) = (x : Zq) ^ k) (by
      rintro ⟨m, u, v⟩ ⟨hm, hu, hv, he⟩ hc
      have hm0 : m = 0 := by simpa using hc
      subst hm0
      exact ⟨hv, by simpa using he⟩) 33 (k, x, 1) (by
      simp only
      split
      · omega
      · next h =>
        have : k.log2 < 32 := (Nat.log2_lt h).2 hk
        omega) ⟨hk, hx, ⟨Int.zero_le_ofNat 1, show (1 : Int) ≤ 12288 by decide⟩, by simp⟩)
  refine ⟨y', ?_, h⟩
  unfold power
  rw [e]; rfl

theorem eq_canon {x y : Int} (hx : 0 ≤ x ∧ x ≤ 12288) :
    y = x ↔ (0 ≤ y ∧ y ≤ 12288) ∧ (y : Zq) = (x : Zq) := by
  rw [zq_eq_iff]; constructor
  · rintro rfl; exact ⟨hx, rfl⟩
  · rintro ⟨h1, h2⟩; omega

theorem run_check_ntt_simple {n k : Nat} (hn : n < 4294967296) (hk : k < n) {a : Array Int}
    (ha : a.size = n) {om : Int} (hom : 0 ≤ om ∧ om ≤ 12288) :
    ∃ b, check_ntt_simple a n k om = .ok b ∧
      (b = true ↔ Reduced a ∧ ∀ i, i < n → coeff a i = ntt n (om : Zq) (mono k) i) := by
  obtain ⟨y, ey, hy, hyv⟩ := run_power hom (k := k) (by omega)
  have small : ∀ u : Int, (0 ≤ u ∧ u ≤ 12288) → I32 (u * y) ∧
      0 ≤ (u * y).tmod 12289 ∧ (u * y).tmod 12289 ≤ 12288 := by
    intro u hu
    have h0 : 0 ≤ u * y := mul_nonneg hu.1 hy.1
    have h1 : u * y ≤ 12288 * 12288 := mul_le_mul hu.2 hy.2 hy.1 (by omega)
    have := Naive.tmod_small (u * y)
    exact ⟨⟨by omega, by omega⟩, Int.tmod_nonneg _ h0, this.2⟩
  obtain ⟨b, e, hb⟩ := run_scan (n := n) (body := fun i x => do
    let v ← rd a i
    if v ≠ x then pure none
    else do
      let z ← i32 (x * y)
      let x ← crem z 12289
      pure (some x))
    (fun i => (0 ≤ elt a i ∧ elt a i ≤ 12288) ∧ coeff a i = ntt n (om : Zq) (mono k) i)
    (fun i x => (0 ≤ x ∧ x ≤ 12288) ∧ (x : Zq) = ntt n (om : Zq) (mono k) i) hn
    (fun i x hi ⟨hx, hv⟩ => by
      have hr := some_elt (a := a) (i := i) (by omega)
      have hc := eq_canon (y := elt a i) hx
      rw [hv] at hc
      by_cases h : elt a i = x
      · right
        refine ⟨hc.1 h, (x * y).tmod 12289, ?_, (small x hx).2, ?_⟩
        · simp only [rd, hr]
          show (if elt a i ≠ x then _ else _) = _
          rw [if_neg (by simpa using h)]
          unfold i32
          rw [if_pos (small x hx).1]
          rfl
        · rw [Naive.zq_tmod]; push_cast
          rw [hv, hyv, ntt_mono n _ hk, ntt_mono n _ hk, pow_succ]
      · left
        refine ⟨fun hh => h (hc.2 hh), ?_⟩
        simp only [rd, hr]
        show (if elt a i ≠ x then _ else _) = _
        rw [if_pos h]; rfl)
    (n + 1) 0 1 (by omega) (Nat.zero_le _) ⟨⟨by decide, by decide⟩, by rw [ntt_mono n _ hk]; simp⟩
  refine ⟨b, ?_, hb.trans ⟨fun h => ⟨fun i hi => (h i (Nat.zero_le _) (by omega)).1,
    fun i hi => (h i (Nat.zero_le _) hi).2⟩, fun h i _ hi => ⟨h.1 i (by omega), h.2 i hi⟩⟩⟩
  unfold check_ntt_simple
  rw [ey]
  exact e

theorem toU32_iff {v : Int} {n : Nat} (hv : I32 v) (hn : n < 2147483648) : toU32 v = n ↔ v = n := by
  obtain ⟨h1, h2⟩ := hv
  unfold toU32
  omega

theorem run_check_ntt_ntt_simple {n k : Nat} (hn : n < 2147483648) (hk : k < n) {a : Array Int}
    (ha : a.size = n) (hr : ∀ i, i < n → I32 (elt a i)) :
    ∃ b, check_ntt_ntt_simple a n k = .ok b ∧
      (b = true ↔ ∀ i, i < n → elt a i = if i = opp n k then (n : Int) else 0) := by
  obtain ⟨b, e, hb⟩ := run_scan (n := n) (body := fun i (_ : Unit) => do
    if i = (if k = 0 then 0 else n - k) then do
      let v ← rd a i
      pure (if toU32 v ≠ n then none else some ())
    else do
      let v ← rd a i
      pure (if v ≠ 0 then none else some ()))
    (fun i => elt a i = if i = opp n k then (n : Int) else 0) (fun _ _ => True) (by omega)
    (fun i _ hi _ => by
      have hx := some_elt (a := a) (i := i) (by omega)
      have hu := toU32_iff (hr i hi) hn
      unfold opp
      simp only [rd, hx]
      by_cases h : i = (if k = 0 then 0 else n - k)
      · rw [if_pos h, if_pos h]
        by_cases h2 : elt a i = n
        · right; refine ⟨h2, (), ?_, trivial⟩
          show Except.ok (if toU32 (elt a i) ≠ n then none else some ()) = _
          rw [if_neg (by simpa using hu.2 h2)]
        · left; refine ⟨h2, ?_⟩
          show Except.ok (if toU32 (elt a i) ≠ n then none else some ()) = _
          rw [if_pos (fun hh => h2 (hu.1 hh))]
      · rw [if_neg h, if_neg h]
        by_cases h2 : elt a i = 0
        · right; refine ⟨h2, (), ?_, trivial⟩
          show Except.ok (if elt a i ≠ 0 then none else some ()) = _
          rw [if_neg (by simpa using h2)]
        · left; refine ⟨h2, ?_⟩
          show Except.ok (if elt a i ≠ 0 then none else some ()) = _
          rw [if_pos h2])
    (n + 1) 0 () (by omega) (Nat.zero_le _) trivial
  refine ⟨b, ?_, hb.trans ⟨fun h i hi => h i (Nat.zero_le _) hi, fun h i _ hi => h i hi⟩⟩
  unfold check_ntt_ntt_simple cassert
  rw [decide_eq_true hk]
  exact e

theorem run_equal_simple_poly {n i j : Nat} (hn : n < 2147483648) (hi : i < n) (hj : j < n)
    {c : Array Int} (hc : c.size = n) :
    ∃ b, equal_simple_poly c n (u32 (i + j)) = .ok b ∧
      (b = true ↔ Reduced c ∧ ∀ l, l < n → coeff c l = negacyclic n (mono i) (mono j) l) := by
  have e1 : u32 (i + j) = i + j := by unfold u32; omega
  have e2 : u32 (2 * n) = 2 * n := by unfold u32; omega
  have m1 : ((-1 : Int) : Zq) = ((12288 : Int) : Zq) := by decide
  obtain ⟨b, e, hb⟩ := run_scan (n := n) (body := fun l (_ : Unit) => do
    let v ← rd c l
    pure (if (l = (if i + j ≥ n then i + j - n else i + j) ∧ v ≠ (if i + j ≥ n then 12288 else 1)) ∨
      (l ≠ (if i + j ≥ n then i + j - n else i + j) ∧ v ≠ 0) then none else some ()))
    (fun l => (0 ≤ elt c l ∧ elt c l ≤ 12288) ∧ coeff c l = negacyclic n (mono i) (mono j) l)
    (fun _ _ => True) (by omega)
    (fun l _ hl _ => by
      have hx := some_elt (a := c) (i := l) (by omega)
      have key : ((0 ≤ elt c l ∧ elt c l ≤ 12288) ∧ coeff c l = negacyclic n (mono i) (mono j) l) ↔
          ¬ ((l = (if i + j ≥ n then i + j - n else i + j) ∧
            elt c l ≠ (if i + j ≥ n then 12288 else 1)) ∨
            (l ≠ (if i + j ≥ n then i + j - n else i + j) ∧ elt c l ≠ 0)) := by
        rw [negacyclic_mono hi hj]
        unfold coeff
        have c0 := eq_canon (x := 0) (y := elt c l) ⟨by decide, by decide⟩
        have c1 := eq_canon (x := 1) (y := elt c l) ⟨by decide, by decide⟩
        have c2 := eq_canon (x := 12288) (y := elt c l) ⟨by decide, by decide⟩
        rw [← m1] at c2
        push_cast at c0 c1 c2
        by_cases h : i + j ≥ n
        · rw [if_pos h, if_pos h, if_neg (show ¬ i + j = l by omega)]
          by_cases h2 : i + j = l + n
          · rw [if_pos h2, ← c2]; omega
          · rw [if_neg h2, ← c0]; omega
        · rw [if_neg h, if_neg h, if_neg (show ¬ i + j = l + n by omega)]
          by_cases h2 : i + j = l
          · rw [if_pos h2, ← c1]; omega
          · rw [if_neg h2, ← c0]; omega
      simp only [rd, hx]
      by_cases h : ((l = (if i + j ≥ n then i + j - n else i + j) ∧
            elt c l ≠ (if i + j ≥ n then 12288 else 1)) ∨
            (l ≠ (if i + j ≥ n then i + j - n else i + j) ∧ elt c l ≠ 0))
      · left
        refine ⟨fun hh => key.1 hh h, ?_⟩
        show Except.ok (if _ then none else some ()) = _
        rw [if_pos h]
      · right
        refine ⟨key.2 h, (), ?_, trivial⟩
        show Except.ok (if _ then none else some ()) = _
        rw [if_neg h])
    (n + 1) 0 () (by omega) (Nat.zero_le _) trivial
  refine ⟨b, ?_, hb.trans ⟨fun h => ⟨fun l hl => (h l (Nat.zero_le _) (by omega)).1,
    fun l hl => (h l (Nat.zero_le _) hl).2⟩, fun h l _ hl => ⟨h.1 l (by omega), h.2 l hl⟩⟩⟩
  unfold equal_simple_poly cassert
  rw [e1, e2, decide_eq_true (show i + j < 2 * n by omega)]
  exact e

theorem run_add_q {n : Nat} (hn : n < 4294967296) {a : Array Int} (ha : a.size = n)
    (hr : InRange (-12288) 12288 a) :
    ∃ a', add_q a n = .ok a' ∧ a'.size = n ∧ Reduced a' ∧ ∀ i, i < n → coeff a' i = coeff a i := by
  have key : ∃ a', add_q a n = .ok a' ∧ a'.size = n ∧
      ∀ i, i < n → elt a' i = if elt a i < 0 then elt a i + 12289 else elt a i := by
    refine wp_total.1 (wp_forUp1 (fun i b => b.size = n ∧ ∀ l, l < n → elt b l =
      if l < i then (if elt a l < 0 then elt a l + 12289 else elt a l) else elt a l) hn (Nat.zero_le _)
      ⟨ha, fun l hl => by rw [if_neg (Nat.not_lt_zero _)]⟩ ?_ fun s h => ⟨h.1, fun l hl => by
        rw [h.2 l hl, if_pos hl]⟩)
    rintro i b - hi ⟨hs, hv⟩
    have hb := hv i hi
    rw [if_neg (Nat.lt_irrefl _)] at hb
    have hra := hr i (by omega)
    rw [wp_bind]
    refine wp_rd_some (some_elt (by omega)) ?_
    rw [hb]
    by_cases h0 : elt a i < 0
    · rw [if_pos h0, wp_bind]
      refine wp_i32 ⟨by omega, by omega⟩ (wp_wr (by omega) ⟨by simp [hs], fun l hl => ?_⟩)
      rw [elt_set (by omega)]
      by_cases hl' : l = i
      · subst hl'; rw [if_pos rfl, if_pos (by omega), if_pos h0]
      · rw [if_neg hl', hv l hl]
        split_ifs <;> omega
    · rw [if_neg h0, wp_pure]
      refine ⟨hs, fun l hl => ?_⟩
      rw [hv l hl]
      by_cases hl' : l = i
      · subst hl'; rw [if_neg (Nat.lt_irrefl _), if_pos (by omega), if_neg h0]
      · split_ifs <;> omega
  obtain ⟨a', e, s, v⟩ := key
  refine ⟨a', e, s, fun i hi => ?_, fun i hi => ?_⟩
  · rw [v i (by omega)]
    have := hr i (by omega)
    split <;> omega
  · unfold coeff
    rw [v i hi]
    split
    · push_cast; rw [show (12289 : Zq) = 0 by decide, add_zero]
    · rfl

end TestProg
