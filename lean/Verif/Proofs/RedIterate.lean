import Verif.Proofs.NttRed
import Verif.Proofs.TightMax
import Verif.Proofs.TestSpeed

/-
Repeated application of the plain Cooley-Tukey transform of src/ntt_red.c to its own results.

Whatever the table, `a'[0]` is the sum of `a` and the sum of `a'` is `n a[0]`, exactly: no reduction is involved.
-/

namespace NttRed
open C NTT Spec

/-- The errors that an arithmetic operation or an assertion can raise. -/
def Stop (e : Err) : Prop := e = .overflow ∨ e = .assertFail

theorem wp_i32_stop {x : Int} {P : Int → Prop} (h : I32 x → P x) : Wp Stop (i32 x) P := by
  by_cases hx : I32 x
  · exact wp_i32 hx (h hx)
  · unfold i32
    rw [if_neg hx]
    exact wp_error.2 (Or.inl rfl)

theorem ctBf_eq : ctBf = TightMax.ctBf mul_red := rfl

variable {mul : Int → Int → M Int} (hmul : TightMax.MulOk mul)

include hmul in
theorem wp_mul_stop (x y : Int) : Wp Stop (mul x y) (fun z => mul x y = .ok z) := by
  have h := hmul x y
  cases e : mul x y with
  | ok z => exact wp_ok.2 rfl
  | error e' => rw [e] at h; exact wp_error.2 (wp_error.1 h)

/-- The term of the butterfly at `j` of the first block. -/
def term (mul : Int → Int → M Int) (a p : Array Int) (t j : Nat) : Int :=
  if j = 0 then elt a t else match mul (elt a (j + t)) (elt p (t + j)) with
    | .ok z => z
    | .error _ => 0

def RoundPost (mul : Int → Int → M Int) (a p : Array Int) (t i : Nat) (x : Int) : Prop :=
  I32 x ∧ (i % (2 * t) = 0 → x = elt a i + elt a (i + t)) ∧ (i < t → x = elt a i + term mul a p t i) ∧
    (t ≤ i → i < 2 * t → x = elt a (i - t) - term mul a p t (i - t))

theorem elt_of_some {a : Array Int} {i : Nat} {x : Int} (h : a[i]? = some x) : elt a i = x := by
  rw [elt, Array.getD_eq_getD_getElem?, h]; rfl

private theorem block {t b j : Nat} (hj : j < 2 * t) : (2 * t * b + j < 2 * t → b = 0) ∧ (2 * t * b + j) % (2 * t) = j := by
  refine ⟨fun h => ?_, by rw [Nat.mul_add_mod, Nat.mod_eq_of_lt hj]⟩
  by_contra hb
  have : 2 * t * 1 ≤ 2 * t * b := Nat.mul_le_mul_left _ (by omega)
  omega

include hmul in
theorem round_post {n t m : Nat} {a p : Array Int} (hn : n = 2 * t * m) (hn31 : n ≤ 2147483648) (ht : 0 < t) (htn : t < n)
    (hp : n ≤ p.size) (ha : a.size = n) :
    Wp Stop (roundA bf0 (TightMax.ctBf mul) n p t a) (PW n (RoundPost mul a p t)) := by
  refine wp_roundA (Pre := fun i x => x = elt a i) hn hn31 ht htn hp ?_ ?_ ⟨ha, fun i x h => (elt_of_some h).symm⟩
  · intro b hb c x y hc hx hy ex ey
    unfold bf0
    simp only [wp_bind]
    refine wp_rd_some hy (wp_rd_some hx (wp_i32_stop fun hv => wp_wr (getElem?_lt hy) (wp_rd_some (Ntt.get_set_ne (by omega) hx)
      (wp_i32_stop fun hu => wp_wr (by simpa using getElem?_lt hx) ⟨_, _, rfl, ⟨hu, ?_, ?_, ?_⟩, hv, ?_, ?_, ?_⟩))))
    · intro _; rw [ex, ey]
    · intro h
      have hb0 : b = 0 := (block (t := t) (j := 0) (by omega)).1 (by omega)
      subst hb0
      rw [ex, ey]
      simp [term]
    · intro h1 h2
      have hb0 : b = 0 := (block (t := t) (j := 0) (by omega)).1 (by omega)
      subst hb0; omega
    · intro h
      rw [(block (by omega)).2] at h; omega
    · intro h; omega
    · intro h1 h2
      have hb0 : b = 0 := (block (t := t) (j := t) (by omega)).1 (by omega)
      subst hb0
      rw [ex, ey]
      simp [term]
  · intro b j w hb hj0 hj hw c x y hc hx hy ex ey
    unfold TightMax.ctBf
    simp only [wp_bind]
    refine wp_rd_some hy ((wp_mul_stop hmul y w).mono fun z hz => wp_rd_some hx (wp_i32_stop fun hv =>
      wp_wr (getElem?_lt hy) (wp_rd_some (Ntt.get_set_ne (by omega) hx)
      (wp_i32_stop fun hu => wp_wr (by simpa using getElem?_lt hx) ⟨_, _, rfl, ⟨hu, ?_, ?_, ?_⟩, hv, ?_, ?_, ?_⟩))))
    · intro h
      rw [(block (by omega)).2] at h; omega
    · intro h
      have hb0 : b = 0 := (block (t := t) (j := j) (by omega)).1 (by omega)
      subst hb0
      rw [Nat.mul_zero, Nat.zero_add] at *
      rw [ex]
      unfold term
      rw [if_neg (by omega), elt_of_some hw, ← ey, hz]
    · intro h1 h2
      have hb0 : b = 0 := (block (t := t) (j := j) (by omega)).1 (by omega)
      subst hb0; omega
    · intro h
      rw [Nat.add_assoc, (block (by omega)).2] at h; omega
    · intro h; omega
    · intro h1 h2
      have hb0 : b = 0 := (block (t := t) (j := j) (by omega)).1 (by omega)
      subst hb0
      rw [Nat.mul_zero, Nat.zero_add] at *
      rw [Nat.add_sub_cancel, ex]
      unfold term
      rw [if_neg (by omega), elt_of_some hw, ← ey, hz]

/-- The sum of the `n` elements. -/
def total (n : Nat) (a : Array Int) : Int := ∑ i ∈ Finset.range n, elt a i

include hmul in
theorem ct_sums_gen {k : Nat} (hk : k ≤ 31) {a p : Array Int} (hp : 2 ^ k ≤ p.size) (ha : a.size = 2 ^ k)
    (hi : ∀ i, i < 2 ^ k → I32 (elt a i)) :
    Wp Stop (ctRev2std bf0 (TightMax.ctBf mul) a (2 ^ k) p) (fun a' => a'.size = 2 ^ k ∧ (∀ i, i < 2 ^ k → I32 (elt a' i)) ∧
      elt a' 0 = total (2 ^ k) a ∧ total (2 ^ k) a' = 2 ^ k * elt a 0) := by
  unfold ctRev2std
  refine wp_forShl (fun m c => c.size = 2 ^ k ∧ (∀ i, i < 2 ^ k → I32 (elt c i)) ∧
    (∀ i, i < 2 ^ k → i % 2 ^ m = 0 → elt c i = ∑ l ∈ Finset.range (2 ^ m), elt a (i + l)) ∧
    ∑ i ∈ Finset.range (2 ^ m), elt c i = 2 ^ m * elt a 0) hk ⟨ha, hi, ?_, ?_⟩ ?_ ?_
  · intro i _ _; simp
  · simp
  · rintro m c hm ⟨hc, _, h1, h2⟩
    have hs := pow_split hm
    have ht := Nat.two_pow_pos m
    refine (round_post hmul hs (pow31 hk) ht (Nat.pow_lt_pow_right (by omega) hm) hp hc).mono ?_
    rintro c' ⟨hc', hv⟩
    have hv' : ∀ i, i < 2 ^ k → RoundPost mul c p (2 ^ m) i (elt c' i) := fun i hi => hv i _ (some_elt (by omega))
    have e2 : 2 ^ (m + 1) = 2 ^ m + 2 ^ m := by rw [pow_succ]; omega
    have e2' : 2 ^ (m + 1) = 2 * 2 ^ m := by rw [pow_succ]; omega
    have hle : 2 ^ (m + 1) ≤ 2 ^ k := Nat.pow_le_pow_right (by omega) hm
    refine ⟨hc', fun i hi => (hv' i hi).1, fun i hi h0 => ?_, ?_⟩
    · rw [e2'] at h0
      have hlt : i + 2 ^ m < 2 ^ k := by
        obtain ⟨q, hq⟩ := Nat.dvd_of_mod_eq_zero h0
        obtain ⟨r, hr⟩ : 2 ^ (m + 1) ∣ 2 ^ k := Nat.pow_dvd_pow 2 hm
        rw [hr, e2'] at hi ⊢
        rw [hq] at hi ⊢
        have : q < r := Nat.lt_of_mul_lt_mul_left hi
        have := Nat.mul_le_mul_left (2 * 2 ^ m) (show q + 1 ≤ r by omega)
        rw [Nat.mul_add] at this
        omega
      rw [(hv' i hi).2.1 h0, e2, Finset.sum_range_add, h1 i hi, h1 (i + 2 ^ m) hlt]
      · simp only [Nat.add_assoc]
      · have := Nat.dvd_of_mod_eq_zero h0
        exact Nat.mod_eq_zero_of_dvd ((Dvd.dvd.mul_left (dvd_refl _) 2 |>.trans this).add (dvd_refl _))
      · have := Nat.dvd_of_mod_eq_zero h0
        exact Nat.mod_eq_zero_of_dvd (Dvd.dvd.mul_left (dvd_refl _) 2 |>.trans this)
    · rw [e2, Finset.sum_range_add, ← Finset.sum_add_distrib]
      have : ∀ j ∈ Finset.range (2 ^ m), elt c' j + elt c' (2 ^ m + j) = 2 * elt c j := fun j hj => by
        have hj := Finset.mem_range.1 hj
        rw [(hv' j (by omega)).2.2.1 hj, (hv' (2 ^ m + j) (by omega)).2.2.2 (by omega) (by omega), Nat.add_sub_cancel_left]
        ring
      rw [Finset.sum_congr rfl this, ← Finset.mul_sum, h2, pow_succ]
      ring
  · rintro c ⟨hc, hi, h1, h2⟩
    refine ⟨hc, hi, ?_, h2⟩
    rw [h1 0 (Nat.two_pow_pos k) (Nat.zero_mod _)]
    simp [total]

open TestProg (iter)

theorem ok_or_stop {σ : Type} {m : M σ} {P : σ → Prop} (h : Wp Stop m P) :
    (∃ e, m = .error e ∧ Stop e) ∨ ∃ x, m = .ok x ∧ P x := by
  cases m with
  | ok x => exact Or.inr ⟨x, rfl, wp_ok.1 h⟩
  | error e => exact Or.inl ⟨e, rfl, wp_error.1 h⟩

include hmul in
/-- Two calls multiply `a[0]` and the sum by `n`. -/
theorem iter_sums_gen {k : Nat} (hk : k ≤ 31) {p : Array Int} (hp : 2 ^ k ≤ p.size) (m : Nat) : ∀ {a : Array Int}, a.size = 2 ^ k →
    (∀ i, i < 2 ^ k → I32 (elt a i)) →
    (∃ e, iter (fun a => ctRev2std bf0 (TightMax.ctBf mul) a (2 ^ k) p) (2 * m) a = .error e ∧ Stop e) ∨
      ∃ a', iter (fun a => ctRev2std bf0 (TightMax.ctBf mul) a (2 ^ k) p) (2 * m) a = .ok a' ∧ a'.size = 2 ^ k ∧
        (∀ i, i < 2 ^ k → I32 (elt a' i)) ∧ elt a' 0 = (2 ^ k) ^ m * elt a 0 := by
  induction m with
  | zero => intro a ha hi; exact Or.inr ⟨a, rfl, ha, hi, by simp⟩
  | succ m ih =>
    intro a ha hi
    have hu : iter (fun a => ctRev2std bf0 (TightMax.ctBf mul) a (2 ^ k) p) (2 * (m + 1)) a = (do
        let b ← ctRev2std bf0 (TightMax.ctBf mul) a (2 ^ k) p
        let c ← ctRev2std bf0 (TightMax.ctBf mul) b (2 ^ k) p
        iter (fun a => ctRev2std bf0 (TightMax.ctBf mul) a (2 ^ k) p) (2 * m) c) := rfl
    rw [hu]
    rcases ok_or_stop (ct_sums_gen hmul hk hp ha hi) with ⟨e, h, s⟩ | ⟨b, h, hb, ib, b0, bs⟩
    · exact Or.inl ⟨e, by rw [h]; rfl, s⟩
    rw [h, ok_bind]
    rcases ok_or_stop (ct_sums_gen hmul hk hp hb ib) with ⟨e, h, s⟩ | ⟨c, h, hc, ic, c0, cs⟩
    · exact Or.inl ⟨e, by rw [h]; rfl, s⟩
    rw [h, ok_bind]
    rcases ih hc ic with h | ⟨d, h, hd, id, d0⟩
    · exact Or.inl h
    · refine Or.inr ⟨d, h, hd, id, ?_⟩
      rw [d0, c0, bs, pow_succ]; ring

theorem iter_error_mono {σ : Type} {f : σ → M σ} {e : Err} : ∀ {m m' : Nat} {x : σ}, m ≤ m' → iter f m x = .error e →
    iter f m' x = .error e := by
  intro m
  induction m with
  | zero => intro m' x _ h; cases h
  | succ m ih =>
    intro m' x hm h
    obtain ⟨m', rfl⟩ : ∃ r, m' = r + 1 := ⟨m' - 1, by omega⟩
    unfold iter at h ⊢
    cases e : f x with
    | error e' => rw [e] at h; exact h
    | ok y =>
      rw [e] at h
      exact ih (by omega) h

include hmul in
/-- 65 calls in place cannot succeed, unless `a[0]` and the sum of the elements are 0. -/
theorem iter_stops_gen {k : Nat} (hk0 : 0 < k) (hk : k ≤ 31) {p : Array Int} (hp : 2 ^ k ≤ p.size) {a : Array Int}
    (ha : a.size = 2 ^ k) (hi : ∀ i, i < 2 ^ k → I32 (elt a i)) (h0 : elt a 0 ≠ 0 ∨ total (2 ^ k) a ≠ 0) :
    ∃ e, iter (fun a => ctRev2std bf0 (TightMax.ctBf mul) a (2 ^ k) p) 65 a = .error e ∧ Stop e := by
  have big : ∀ x : Int, x ≠ 0 → ¬ I32 ((2 ^ k) ^ 32 * x) := by
    intro x hx h
    have h2 : (2 : Int) ≤ 2 ^ k := by
      calc (2 : Int) = 2 ^ 1 := by norm_num
        _ ≤ 2 ^ k := pow_le_pow_right₀ (by norm_num) hk0
    have h3 : (2 : Int) ^ 32 ≤ (2 ^ k) ^ 32 := pow_le_pow_left₀ (by norm_num) h2 32
    unfold I32 at h
    rcases lt_or_gt_of_ne hx with hx | hx
    · nlinarith
    · nlinarith
  have key : ∀ b : Array Int, b.size = 2 ^ k → (∀ i, i < 2 ^ k → I32 (elt b i)) → elt b 0 ≠ 0 →
      ∃ e, iter (fun a => ctRev2std bf0 (TightMax.ctBf mul) a (2 ^ k) p) 64 b = .error e ∧ Stop e := by
    intro b hb ib h
    rcases iter_sums_gen hmul hk hp 32 hb ib with h1 | ⟨c, -, -, ic, c0⟩
    · exact h1
    · exact absurd (c0 ▸ ic 0 (Nat.two_pow_pos k)) (big _ h)
  rcases h0 with h0 | h0
  · obtain ⟨e, h, s⟩ := key a ha hi h0
    exact ⟨e, iter_error_mono (by omega) h, s⟩
  · have hu : iter (fun a => ctRev2std bf0 (TightMax.ctBf mul) a (2 ^ k) p) 65 a = (do
        let b ← ctRev2std bf0 (TightMax.ctBf mul) a (2 ^ k) p
        iter (fun a => ctRev2std bf0 (TightMax.ctBf mul) a (2 ^ k) p) 64 b) := rfl
    rw [hu]
    rcases ok_or_stop (ct_sums_gen hmul hk hp ha hi) with ⟨e, h, s⟩ | ⟨b, h, hb, ib, b0, -⟩
    · exact ⟨e, by rw [h]; rfl, s⟩
    · rw [h, ok_bind]
      exact key b hb ib (by rw [b0]; exact h0)

theorem ct_sums {k : Nat} (hk : k ≤ 31) {a p : Array Int} (hp : 2 ^ k ≤ p.size) (ha : a.size = 2 ^ k)
    (hi : ∀ i, i < 2 ^ k → I32 (elt a i)) :
    Wp Stop (ntt_red_ct_rev2std a (2 ^ k) p) (fun a' => a'.size = 2 ^ k ∧ (∀ i, i < 2 ^ k → I32 (elt a' i)) ∧
      elt a' 0 = total (2 ^ k) a ∧ total (2 ^ k) a' = 2 ^ k * elt a 0) := ct_sums_gen TightMax.mulOk hk hp ha hi

theorem iter_stops {k : Nat} (hk0 : 0 < k) (hk : k ≤ 31) {p : Array Int} (hp : 2 ^ k ≤ p.size) {a : Array Int}
    (ha : a.size = 2 ^ k) (hi : ∀ i, i < 2 ^ k → I32 (elt a i)) (h0 : elt a 0 ≠ 0 ∨ total (2 ^ k) a ≠ 0) :
    ∃ e, iter (fun a => ntt_red_ct_rev2std a (2 ^ k) p) 65 a = .error e ∧ Stop e :=
  iter_stops_gen TightMax.mulOk hk0 hk hp ha hi h0

end NttRed
