import Verif.Proofs.MemSafe

/-
Arrays with equal elements: the transforms of src/ntt_red.c without multiplication by the table entries 1, and the
Gentleman-Sande transforms, compute the sum of the elements, which must fit in an `int32_t`.
-/

namespace TightMax
open C NTT

theorem wp_i32_ok {x : Int} {P : Int → Prop} (h : I32 x → P x) : Wp Arith (i32 x) P := by
  by_cases hx : I32 x
  · exact wp_i32 hx (h hx)
  · unfold i32
    rw [if_neg hx]
    exact wp_error.2 (Or.inl rfl)

/-- The multiplication only fails by an overflow or an assertion, and returns an `int32_t`. -/
def MulOk (mul : Int → Int → M Int) : Prop := ∀ x y, Wp Arith (mul x y) I32

theorem mulOk : MulOk NttRed.mul_red := by
  intro x y
  unfold NttRed.mul_red
  simp only [wp_bind]
  exact wp_i64_any (wp_cassert_any (wp_i32_any (wp_i32_ok fun h => h)))

/-- `NttRed.ctBf` with another multiplication. -/
def ctBf (mul : Int → Int → M Int) (w : Int) (s k : Nat) (a : Array Int) : M (Array Int) := do
  let z ← rd a k
  let x ← mul z w
  let y ← rd a s
  let v ← i32 (y - x)
  let a ← wr a k v
  let y ← rd a s
  let u ← i32 (y + x)
  wr a s u

/-- `NttRed.gsBf` with another multiplication. -/
def gsBf (mul : Int → Int → M Int) (w : Int) (s k : Nat) (a : Array Int) : M (Array Int) := do
  let x ← rd a k
  let y ← rd a s
  let d ← i32 (y - x)
  let v ← mul d w
  let a ← wr a k v
  let y ← rd a s
  let u ← i32 (y + x)
  wr a s u

section
variable {mul : Int → Int → M Int} (hm : MulOk mul) {n s k : Nat} {Pre Post : Nat → Int → Prop} {w : Int} (hsk : s ≠ k) (hk : ∀ v, I32 v → Post k v)
include hsk hk

theorem sum_bf0 (h : ∀ x y, Pre s x → Pre k y → I32 (x + y) → Post s (x + y)) :
    BfSpec Arith (NttRed.bf0 s k) n s k Pre Post := by
  intro a x y ha hx hy px py
  unfold NttRed.bf0
  simp only [wp_bind]
  exact wp_rd_some hy (wp_rd_some hx (wp_i32_ok fun h1 => wp_wr (getElem?_lt hy)
    (wp_rd_some (Ntt.get_set_ne hsk hx) (wp_i32_ok fun h2 =>
    (wp_wr (by simpa using getElem?_lt hx) ⟨_, _, rfl, h x y px py h2, hk _ h1⟩)))))

include hm in
theorem sum_gsBf (h : ∀ x y, Pre s x → Pre k y → I32 (x + y) → Post s (x + y)) :
    BfSpec Arith (gsBf mul w s k) n s k Pre Post := by
  intro a x y ha hx hy px py
  unfold gsBf
  simp only [wp_bind]
  exact wp_rd_some hy (wp_rd_some hx (wp_i32_any ((hm _ _).mono fun z h1 => wp_wr (getElem?_lt hy)
    (wp_rd_some (Ntt.get_set_ne hsk hx) (wp_i32_ok fun h2 =>
    (wp_wr (by simpa using getElem?_lt hx) ⟨_, _, rfl, h x y px py h2, hk _ h1⟩))))))

include hm in
theorem any_ctBf (h : ∀ v, I32 v → Post s v) : BfSpec Arith (ctBf mul w s k) n s k Pre Post := by
  intro a x y ha hx hy px py
  unfold ctBf
  simp only [wp_bind]
  exact wp_rd_some hy ((hm _ _).mono fun z _ => wp_rd_some hx (wp_i32_ok fun h1 => wp_wr (getElem?_lt hy)
    (wp_rd_some (Ntt.get_set_ne hsk hx) (wp_i32_ok fun h2 =>
    (wp_wr (by simpa using getElem?_lt hx) ⟨_, _, rfl, h _ h2, hk _ h1⟩)))))

end

/-- The elements in `S m` are `2^m X`. -/
def Inv (S : Nat → Nat → Prop) (X : Int) (m i : Nat) (x : Int) : Prop := I32 x ∧ (S m i → x = 2 ^ m * X)

/-- Multiples of `2^m`. -/
def Mul (m i : Nat) : Prop := i % 2 ^ m = 0
/-- Numbers below `2^(k-m)`. -/
def Low (k m i : Nat) : Prop := i < 2 ^ (k - m)

theorem sum_step {S : Nat → Nat → Prop} {X : Int} {m s t : Nat} (h : S (m + 1) s → S m s ∧ S m t) {x y : Int}
    (hx : Inv S X m s x) (hy : Inv S X m t y) (hi : I32 (x + y)) : Inv S X (m + 1) s (x + y) := by
  refine ⟨hi, fun hs => ?_⟩
  rw [hx.2 (h hs).1, hy.2 (h hs).2, pow_succ]; ring

theorem no_step {S : Nat → Nat → Prop} {X : Int} {m s : Nat} (h : ¬ S m s) {v : Int} (hi : I32 v) : Inv S X m s v :=
  ⟨hi, fun hs => absurd hs h⟩

theorem mul_lo {m b j : Nat} (hj : j < 2 ^ m) (h : Mul (m + 1) (2 * 2 ^ m * b + j)) :
    Mul m (2 * 2 ^ m * b + j) ∧ Mul m (2 * 2 ^ m * b + j + 2 ^ m) := by
  unfold Mul at *
  rw [show (2 : Nat) ^ (m + 1) = 2 * 2 ^ m by ring, Nat.mul_add_mod, Nat.mod_eq_of_lt (by omega)] at h
  subst h
  rw [Nat.add_mod_right, Nat.add_zero, Nat.mul_right_comm, Nat.mul_comm]
  exact ⟨Nat.mul_mod_right _ _, Nat.mul_mod_right _ _⟩

theorem mul_hi {m b j : Nat} (hj : j < 2 ^ m) : ¬ Mul (m + 1) (2 * 2 ^ m * b + j + 2 ^ m) := by
  unfold Mul
  have := Nat.two_pow_pos m
  rw [show (2 : Nat) ^ (m + 1) = 2 * 2 ^ m by ring, Nat.add_assoc, Nat.mul_add_mod, Nat.mod_eq_of_lt (by omega)]
  omega

theorem mul_ne {m b j : Nat} (h0 : 0 < j) (hj : j < 2 ^ m) : ¬ Mul (m + 1) (2 * 2 ^ m * b + j) := by
  unfold Mul
  rw [show (2 : Nat) ^ (m + 1) = 2 * 2 ^ m by ring, Nat.mul_add_mod, Nat.mod_eq_of_lt (by omega)]
  omega

theorem low_pow {k m : Nat} (hm : m < k) : (2 : Nat) ^ (k - m) = 2 * 2 ^ (k - 1 - m) := by
  rw [show k - m = k - 1 - m + 1 by omega, pow_succ]; ring

theorem low_lo {k m s : Nat} (hm : m < k) (h : Low k (m + 1) s) : Low k m s ∧ Low k m (s + 2 ^ (k - 1 - m)) := by
  unfold Low at *
  rw [show k - (m + 1) = k - 1 - m by omega] at h
  rw [low_pow hm]; omega

theorem low_hi {k m s : Nat} (hm : m < k) : ¬ Low k (m + 1) (s + 2 ^ (k - 1 - m)) := by
  unfold Low
  rw [show k - (m + 1) = k - 1 - m by omega]; omega

theorem low_ne {k m j r : Nat} (hm : m < k) (h0 : 0 < j) : ¬ Low k (m + 1) (2 * 2 ^ (k - 1 - m) * j + r) := by
  unfold Low
  rw [show k - (m + 1) = k - 1 - m by omega]
  have h1 : 2 * 2 ^ (k - 1 - m) * 1 ≤ 2 * 2 ^ (k - 1 - m) * j := Nat.mul_le_mul_left _ h0
  omega

/-- The runs on arrays with equal elements. -/
theorem stops {S : Nat → Nat → Prop} {X : Int} {k : Nat} {f : M (Array Int)} (h0 : S k 0) (hX : 2147483648 ≤ 2 ^ k * X)
    (h : Wp Arith f (PW (2 ^ k) (Inv S X k))) : ∃ e, f = .error e ∧ (e = .overflow ∨ e = .assertFail) := by
  rcases f with e | a
  · exact ⟨e, rfl, (wp_error (E := Arith)).1 h⟩
  · exfalso
    obtain ⟨hs, h⟩ := wp_ok.1 h
    have hl : 0 < a.size := by rw [hs]; exact Nat.two_pow_pos k
    have h1 := h 0 a[0] (Array.getElem?_eq_getElem hl)
    have h2 := h1.2 h0
    have h3 := h1.1
    unfold I32 at h3
    omega

theorem init {S : Nat → Nat → Prop} {X : Int} {n : Nat} (h : I32 X) : PW n (Inv S X 0) (Array.replicate n X) := by
  refine ⟨Array.size_replicate, fun i x hx => ?_⟩
  obtain ⟨hi, e⟩ := Array.getElem?_eq_some_iff.1 hx
  rw [Array.getElem_replicate] at e
  subst e
  exact ⟨h, fun _ => by rw [pow_zero, one_mul]⟩

section
variable {mul : Int → Int → M Int} (hmul : MulOk mul) {k : Nat} {X : Int} {p : Array Int} (hk : k ≤ 31) (hp : 2 ^ k ≤ p.size) (hI : I32 X) (hX : 2147483648 ≤ 2 ^ k * X)
open Ntt (ne_add_pow)
theorem low_last {k : Nat} : Low k k 0 := by unfold Low; rw [Nat.sub_self]; norm_num

include hmul hk hp hI hX

theorem ct_rev2std : ∃ e, ctRev2std NttRed.bf0 (ctBf mul) (Array.replicate (2 ^ k) X) (2 ^ k) p = .error e ∧
    (e = .overflow ∨ e = .assertFail) := by
  refine stops (S := Mul) (Nat.zero_mod _) hX (wp_ctRev2std (P := Inv Mul X) hk hp ?_ ?_ (init hI))
  · intro m b hm hb
    have h0 : 0 < 2 ^ m := Nat.two_pow_pos m
    exact sum_bf0 (ne_add_pow _ _) (fun v hv => no_step (mul_hi (b := b) h0) hv)
      fun x y hx hy hi => sum_step (mul_lo (b := b) h0) hx hy hi
  · intro m b j w hm hb hj0 hj hw
    exact any_ctBf hmul (ne_add_pow _ _) (fun v hv => no_step (mul_hi hj) hv) fun v hv => no_step (mul_ne hj0 hj) hv

theorem ct_std2rev : ∃ e, ctStd2rev NttRed.bf0 (ctBf mul) (Array.replicate (2 ^ k) X) (2 ^ k) p = .error e ∧
    (e = .overflow ∨ e = .assertFail) := by
  refine stops (S := Low k) low_last hX (wp_ctStd2rev (P := Inv (Low k) X) hk hp ?_ ?_ (init hI))
  · intro m r hm hr
    exact sum_bf0 (ne_add_pow _ _) (fun v hv => no_step (low_hi hm) hv)
      fun x y hx hy hi => sum_step (low_lo hm) hx hy hi
  · intro m j r w hm hj0 hj hr hw
    exact any_ctBf hmul (ne_add_pow _ _) (fun v hv => no_step (low_hi hm) hv) fun v hv => no_step (low_ne hm hj0) hv

theorem gs_rev2std : ∃ e, gsRev2std NttRed.bf0 (gsBf mul) (Array.replicate (2 ^ k) X) (2 ^ k) p = .error e ∧
    (e = .overflow ∨ e = .assertFail) := by
  refine stops (S := Mul) (Nat.zero_mod _) hX (wp_gsRev2std (P := Inv Mul X) hk hp ?_ ?_ (init hI))
  · intro m r hm hr
    have h1 := mul_lo (b := 0) hr
    have h2 := mul_hi (b := 0) hr
    rw [Nat.mul_zero, Nat.zero_add] at h1 h2
    exact sum_bf0 (ne_add_pow _ _) (fun v hv => no_step h2 hv) fun x y hx hy hi => sum_step h1 hx hy hi
  · intro m j r w hm hj0 hj hr hw
    exact sum_gsBf hmul (ne_add_pow _ _) (fun v hv => no_step (mul_hi hr) hv) fun x y hx hy hi => sum_step (mul_lo hr) hx hy hi

theorem gsmul_rev2std : ∃ e, gsMulRev2std (gsBf mul) (Array.replicate (2 ^ k) X) (2 ^ k) p = .error e ∧
    (e = .overflow ∨ e = .assertFail) := by
  refine stops (S := Mul) (Nat.zero_mod _) hX (wp_gsMulRev2std (P := Inv Mul X) hk hp ?_ (init hI))
  intro m j r w hm hj hr hw
  exact sum_gsBf hmul (ne_add_pow _ _) (fun v hv => no_step (mul_hi hr) hv) fun x y hx hy hi => sum_step (mul_lo hr) hx hy hi

theorem gs_std2rev : ∃ e, gsStd2rev NttRed.bf0 (gsBf mul) (Array.replicate (2 ^ k) X) (2 ^ k) p = .error e ∧
    (e = .overflow ∨ e = .assertFail) := by
  refine stops (S := Low k) low_last hX (wp_gsStd2rev (P := Inv (Low k) X) hk hp ?_ ?_ (init hI))
  · intro m b hm hb
    exact sum_bf0 (ne_add_pow _ _) (fun v hv => no_step (low_hi hm) hv) fun x y hx hy hi => sum_step (low_lo hm) hx hy hi
  · intro m b j w hm hb hj0 hj hw
    exact sum_gsBf hmul (ne_add_pow _ _) (fun v hv => no_step (low_hi hm) hv) fun x y hx hy hi => sum_step (low_lo hm) hx hy hi

theorem gsmul_std2rev : ∃ e, gsMulStd2rev (gsBf mul) (Array.replicate (2 ^ k) X) (2 ^ k) p = .error e ∧
    (e = .overflow ∨ e = .assertFail) := by
  refine stops (S := Low k) low_last hX (wp_gsMulStd2rev (P := Inv (Low k) X) hk hp ?_ (init hI))
  intro m b j w hm hb hj hw
  exact sum_gsBf hmul (ne_add_pow _ _) (fun v hv => no_step (low_hi hm) hv) fun x y hx hy hi => sum_step (low_lo hm) hx hy hi

end

end TightMax
