import Verif.Proofs.Ntt
import Verif.Model.NttRed

/-
Proofs about src/ntt_red.c.
-/

namespace Spec

theorem red_def (x : Int) : 4096 * red x = 12289 * (x % 4096) - x := by unfold red; omega

theorem red_zq (x : Int) : ((red x : Int) : Zq) = 3 * (x : Zq) := by
  have h : red x = 3 * x - 12289 * (x / 4096) := by unfold red; omega
  rw [h]; push_cast
  rw [show (12289 : Zq) = 0 by decide]; ring

end Spec

namespace NttRed
open C NTT Spec

theorem land32_4095 (x : Int) : land32 x 4095 = x % 4096 := by
  unfold land32 toU32
  rw [show ((4095 : Int) % 4294967296).toNat = 2 ^ 12 - 1 by decide, Nat.and_two_pow_sub_one_eq_mod]
  unfold toI32
  simp only [Int.ofNat_eq_natCast]
  omega

theorem land64_4095 (x : Int) : land64 x 4095 = x % 4096 := by
  unfold land64 toU64
  rw [show ((4095 : Int) % 18446744073709551616).toNat = 2 ^ 12 - 1 by decide,
    Nat.and_two_pow_sub_one_eq_mod]
  unfold toI64
  simp only [Int.ofNat_eq_natCast]
  omega

theorem sar12 (x : Int) : sar x 12 = x / 4096 := by unfold sar; norm_num

theorem sar16 {x : Int} (h1 : -65536 ≤ x) (h2 : x < 65536) :
    sar x 16 = if x < 0 then -1 else 0 := by
  unfold sar
  split <;> (norm_num; omega)

theorem toI32_of {x : Int} (h : I32 x) : toI32 x = x := by unfold toI32; unfold I32 at h; omega

theorem i32_ok {x : Int} (h : I32 x) : i32 x = .ok x := if_pos h
theorem i64_ok {x : Int} (h : I64 x) : i64 x = .ok x := if_pos h

theorem red_eq {x : Int} (h : I32 x) : red x = .ok (Spec.red x) := by
  unfold red
  obtain ⟨h1, h2⟩ := h
  rw [land32_4095, i32_ok ⟨by omega, by omega⟩]
  show i32 (3 * (x % 4096) - sar x 12) = _
  rw [sar12, i32_ok ⟨by omega, by omega⟩]; rfl

/-- `mul_red` is exact for products in `[-8796042698752, 2^43 - 1]`. -/
theorem mul_red_eq {x y : Int} (h1 : -8796042698752 ≤ x * y) (h2 : x * y ≤ 8796093022207) :
    mul_red x y = .ok (Spec.red (x * y)) := by
  have h : Wp NoErr (mul_red x y) (fun r => r = Spec.red (x * y)) := by
    unfold mul_red
    generalize x * y = z at *
    simp only [wp_bind]
    refine wp_i64 ⟨by omega, by omega⟩ (wp_cassert (by simp; omega) ?_)
    rw [land64_4095, sar12, toI32_of ⟨by omega, by omega⟩, toI32_of ⟨by omega, by omega⟩]
    exact wp_i32 ⟨by omega, by omega⟩ (wp_i32 ⟨by omega, by omega⟩ rfl)
  obtain ⟨r, e, rfl⟩ := wp_total.1 h
  exact e

theorem ok_bind {α β : Type} (a : α) (f : α → M β) : ((Except.ok a : M α) >>= f) = f a := rfl

/-- For larger products in the range that `mul_red` asserts, the subtraction overflows. -/
theorem mul_red_overflow {x y : Int} (h1 : 8796093022208 ≤ x * y) (h2 : x * y ≤ 8796093026303) :
    mul_red x y = .error .overflow := by
  unfold mul_red
  generalize x * y = z at *
  rw [i64_ok ⟨by omega, by omega⟩]
  have hs : sar z 12 = 2147483648 := by rw [sar12]; omega
  have hl := land64_4095 z
  have hc : cassert (decide (-8796042698752 ≤ z) && decide (z ≤ 8796093026303)) = .ok () := by
    unfold cassert; rw [if_pos]; simp; omega
  have hi : i32 (3 * (z % 4096)) = .ok (3 * (z % 4096)) := i32_ok ⟨by omega, by omega⟩
  have ht : toI32 (z % 4096) = z % 4096 := toI32_of ⟨by omega, by omega⟩
  simp only [ok_bind, hs, hl, hc, ht, hi]
  rw [show toI32 2147483648 = -2147483648 by decide]
  unfold i32
  rw [if_neg]
  unfold I32; omega

theorem wp_of_eq {α : Type} {E : Err → Prop} {m : M α} {v : α} {P : α → Prop} (h : m = .ok v)
    (hP : P v) : Wp E m P := by rw [h]; exact wp_ok.2 hP

/-! ### Elementwise functions -/

theorem run_map {body : Nat → Array Int → M (Array Int)} {n : Nat} {a : Array Int} {F : Nat → Int}
    (hn : n < 4294967296) (ha : a.size = n)
    (hb : ∀ i b, i < n → b.size = n → b[i]? = some (elt a i) →
      Wp NoErr (body i b) (fun b' => b' = b.setIfInBounds i (F i))) :
    ∃ a', forUp 0 n 1 body a = .ok a' ∧ a'.size = n ∧ ∀ i, i < n → elt a' i = F i := by
  obtain ⟨a', e, h⟩ := wp_total.1 (wp_map (E := NoErr) (body := body) (n := n)
    (Pre := fun i x => x = elt a i) (Post := fun i x => x = F i) hn
    (fun i b x hi hs hx hp => by
      subst hp
      exact (hb i b hi hs hx).mono fun b' e => ⟨_, e, rfl⟩)
    (pw_elts.2 ⟨ha, fun _ _ => rfl⟩))
  rw [pw_elts] at h
  exact ⟨a', e, h.1, h.2⟩

theorem run_reduce_array {n : Nat} (hn : n < 4294967296) {a : Array Int} (ha : a.size = n)
    (hr : ∀ i, i < n → I32 (elt a i)) :
    ∃ a', reduce_array a n = .ok a' ∧ a'.size = n ∧ ∀ i, i < n → elt a' i = Spec.red (elt a i) := by
  refine run_map hn ha fun i b hi hs hx => ?_
  simp only [wp_bind]
  exact wp_rd_some hx (wp_of_eq (red_eq (hr i hi)) (wp_wr (by omega) rfl))

theorem red_i32 {x : Int} (h : I32 x) : -524287 ≤ Spec.red x ∧ Spec.red x ≤ 536573 := by
  unfold I32 at h; unfold Spec.red; omega

theorem red_red_i32 {x : Int} (h : I32 x) :
    -130 ≤ Spec.red (Spec.red x) ∧ Spec.red (Spec.red x) ≤ 12413 := by
  have := red_i32 h
  generalize Spec.red x = y at *
  unfold Spec.red; omega

theorem run_reduce_array_twice {n : Nat} (hn : n < 4294967296) {a : Array Int} (ha : a.size = n)
    (hr : ∀ i, i < n → I32 (elt a i)) :
    ∃ a', reduce_array_twice a n = .ok a' ∧ a'.size = n ∧
      ∀ i, i < n → elt a' i = Spec.red (Spec.red (elt a i)) := by
  refine run_map hn ha fun i b hi hs hx => ?_
  simp only [wp_bind]
  have h := red_i32 (hr i hi)
  exact wp_rd_some hx (wp_of_eq (red_eq (hr i hi)) (wp_of_eq (red_eq ⟨by omega, by omega⟩)
    (wp_wr (by omega) rfl)))

theorem run_correct {n : Nat} (hn : n < 4294967296) {a : Array Int} (ha : a.size = n)
    (hr : ∀ i, i < n → -12289 ≤ elt a i ∧ elt a i ≤ 24577) :
    ∃ a', correct a n = .ok a' ∧ a'.size = n ∧ ∀ i, i < n → elt a' i = elt a i % 12289 := by
  refine run_map hn ha fun i b hi hs hx => ?_
  simp only [wp_bind]
  have h := hr i hi
  generalize elt a i = x at *
  refine wp_rd_some hx ?_
  have e1 : x + land32 (sar x 16) 12289 = if x < 0 then x + 12289 else x := by
    rw [sar16 (by omega) (by omega)]
    split
    · rw [show land32 (-1) 12289 = 12289 by decide]
    · rw [show land32 0 12289 = 0 by decide]; omega
  rw [e1]
  refine wp_i32 (by split <;> exact ⟨by omega, by omega⟩) ?_
  refine wp_i32 (by split <;> exact ⟨by omega, by omega⟩) ?_
  generalize hy : (if x < 0 then x + 12289 else x) - 12289 = y
  have hy1 : -12289 ≤ y ∧ y ≤ 12288 := by split at hy <;> omega
  have e2 : y + land32 (sar y 16) 12289 = if y < 0 then y + 12289 else y := by
    rw [sar16 (by omega) (by omega)]
    split
    · rw [show land32 (-1) 12289 = 12289 by decide]
    · rw [show land32 0 12289 = 0 by decide]; omega
  rw [e2]
  refine wp_i32 (by split <;> exact ⟨by omega, by omega⟩) ?_
  refine wp_wr (by omega) ?_
  congr 1
  split at hy <;> split <;> omega

theorem run_shift_array {n : Nat} (hn : n < 4294967296) {a : Array Int} (ha : a.size = n)
    (hr : ∀ i, i < n → -2147483648 ≤ elt a i ∧ elt a i ≤ 2147483647) :
    ∃ a', shift_array a n = .ok a' ∧ a'.size = n ∧
      ∀ i, i < n → elt a' i = if elt a i > 6144 then elt a i - 12289 else elt a i := by
  refine run_map hn ha fun i b hi hs hx => ?_
  simp only [wp_bind]
  have h := hr i hi
  refine wp_rd_some hx ?_
  split
  · exact wp_i32 ⟨by omega, by omega⟩ (wp_wr (by omega) rfl)
  · exact wp_pure.2 (wp_wr (by omega) rfl)

theorem tmod_fix (x : Int) :
    (if x.tmod 12289 < 0 then x.tmod 12289 + 12289 else x.tmod 12289) = x % 12289 := by
  have h1 := Int.tmod_add_mul_tdiv x 12289
  have h2 : x.tmod 12289 < 12289 := Int.tmod_lt_of_pos _ (by norm_num)
  have h3 : -12289 < x.tmod 12289 := Int.lt_tmod_of_pos _ (by norm_num)
  generalize x.tmod 12289 = r at *
  generalize x.tdiv 12289 = q at *
  split <;> omega

theorem run_normalize {n : Nat} (hn : n < 4294967296) {a : Array Int} (ha : a.size = n) :
    ∃ a', normalize a n = .ok a' ∧ a'.size = n ∧ ∀ i, i < n → elt a' i = elt a i % 12289 := by
  refine run_map hn ha fun i b hi hs hx => ?_
  simp only [wp_bind]
  refine wp_rd_some hx ?_
  generalize elt a i = x at *
  have h := tmod_fix x
  have h2 : x.tmod 12289 < 12289 := Int.tmod_lt_of_pos _ (by norm_num)
  have h3 : -12289 < x.tmod 12289 := Int.lt_tmod_of_pos _ (by norm_num)
  refine wp_of_eq (v := x.tmod 12289) (by unfold crem; rw [if_neg (by norm_num)]) ?_
  split
  · rw [if_pos (by assumption)] at h
    refine wp_i32 ⟨by omega, by omega⟩ ?_
    rw [h]
    exact wp_cassert (by simp; omega) (wp_wr (by omega) rfl)
  · rw [if_neg (by assumption)] at h
    rw [wp_pure, h]
    exact wp_cassert (by simp; omega) (wp_wr (by omega) rfl)

theorem run_normalize_inv3 {n : Nat} (hn : n < 4294967296) {a : Array Int} (ha : a.size = n)
    (hr : ∀ i, i < n → I32 (elt a i)) :
    ∃ a', normalize_inv3 a n = .ok a' ∧ a'.size = n ∧
      ∀ i, i < n → elt a' i = (elt a i * 8193) % 12289 := by
  refine run_map hn ha fun i b hi hs hx => ?_
  simp only [wp_bind]
  refine wp_rd_some hx ?_
  have hI := hr i hi
  unfold I32 at hI
  generalize elt a i = x at *
  refine wp_i64 ⟨by omega, by omega⟩ ?_
  generalize x * 8193 = z at *
  have h := tmod_fix z
  have h2 : z.tmod 12289 < 12289 := Int.tmod_lt_of_pos _ (by norm_num)
  have h3 : -12289 < z.tmod 12289 := Int.lt_tmod_of_pos _ (by norm_num)
  refine wp_of_eq (v := z.tmod 12289) (by unfold crem; rw [if_neg (by norm_num)]) ?_
  rw [toI32_of ⟨by omega, by omega⟩]
  split
  · rw [if_pos (by assumption)] at h
    refine wp_i32 ⟨by omega, by omega⟩ ?_
    rw [h]
    exact wp_cassert (by simp; omega) (wp_wr (by omega) rfl)
  · rw [if_neg (by assumption)] at h
    rw [wp_pure, h]
    exact wp_cassert (by simp; omega) (wp_wr (by omega) rfl)

/-- Products for which `mul_red` is exact. -/
def Safe (z : Int) : Prop := -8796042698752 ≤ z ∧ z ≤ 8796093022207

theorem run_mul_reduce_array16 {n : Nat} (hn : n < 4294967296) {a p : Array Int} (ha : a.size = n)
    (hp : n ≤ p.size) (hr : ∀ i, i < n → Safe (elt a i * elt p i)) :
    ∃ a', mul_reduce_array16 a n p = .ok a' ∧ a'.size = n ∧
      ∀ i, i < n → elt a' i = Spec.red (elt a i * elt p i) := by
  refine run_map hn ha fun i b hi hs hx => ?_
  simp only [wp_bind]
  exact wp_rd_some hx (wp_rd_some (some_elt (by omega))
    (wp_of_eq (mul_red_eq (hr i hi).1 (hr i hi).2) (wp_wr (by omega) rfl)))

theorem run_mul_reduce_array {n : Nat} (hn : n < 4294967296) {a b c : Array Int} (hc : c.size = n)
    (ha : n ≤ a.size) (hb : n ≤ b.size) (hr : ∀ i, i < n → Safe (elt a i * elt b i)) :
    ∃ c', mul_reduce_array c n a b = .ok c' ∧ c'.size = n ∧
      ∀ i, i < n → elt c' i = Spec.red (elt a i * elt b i) := by
  refine run_map hn hc fun i c1 hi hs hx => ?_
  simp only [wp_bind]
  exact wp_rd_some (some_elt (by omega)) (wp_rd_some (some_elt (by omega))
    (wp_of_eq (mul_red_eq (hr i hi).1 (hr i hi).2) (wp_wr (by omega) rfl)))

theorem run_scalar_mul_reduce_array {n : Nat} (hn : n < 4294967296) {a : Array Int} {c : Int}
    (ha : a.size = n) (hr : ∀ i, i < n → Safe (elt a i * c)) :
    ∃ a', scalar_mul_reduce_array a n c = .ok a' ∧ a'.size = n ∧
      ∀ i, i < n → elt a' i = Spec.red (elt a i * c) := by
  refine run_map hn ha fun i b hi hs hx => ?_
  simp only [wp_bind]
  exact wp_rd_some hx
    (wp_of_eq (mul_red_eq (hr i hi).1 (hr i hi).2) (wp_wr (by omega) rfl))

/-! ### Butterflies -/

theorem mul_bound {x y B W : Int} (hx : -B ≤ x ∧ x ≤ B) (hy : -W ≤ y ∧ y ≤ W) :
    -(B * W) ≤ x * y ∧ x * y ≤ B * W := by
  have h1 : |x| ≤ B := abs_le.2 hx
  have h2 : |y| ≤ W := abs_le.2 hy
  have h3 : |x * y| ≤ B * W := by
    rw [abs_mul]
    exact mul_le_mul h1 h2 (abs_nonneg _) (le_trans (abs_nonneg _) h1)
  exact abs_le.1 h3

theorem red_bound {z P Z : Int} (hz : -P ≤ z ∧ z ≤ P) (hZ : P + 50323455 ≤ 4096 * Z) :
    -Z ≤ Spec.red z ∧ Spec.red z ≤ Z := by
  have := red_def z
  omega

abbrev val : Int → Zq := fun x => (x : Zq)

theorem bf0_ct {E : Err → Prop} {n s k : Nat} {B B' : Nat → Int → Prop} (hsk : s ≠ k)
    (hb : ∀ x y, B s x → B k y → I32 (x + y) ∧ I32 (x - y) ∧ B' s (x + y) ∧ B' k (x - y)) :
    CtBf (R := Zq) E val (bf0 s k) n s k B B' 1 := by
  intro a x y ha hx hy hbx hby
  obtain ⟨h1, h2, h3, h4⟩ := hb x y hbx hby
  unfold bf0
  simp only [wp_bind]
  refine wp_rd_some hy (wp_rd_some hx (wp_i32 h2 (wp_wr (getElem?_lt hy)
    (wp_rd_some (Ntt.get_set_ne hsk hx) (wp_i32 h1
    (wp_wr (by simpa using getElem?_lt hx) ⟨x + y, x - y, rfl, ⟨h3, ?_⟩, h4, ?_⟩))))))
  · simp only [val]; push_cast; ring
  · simp only [val]; push_cast; ring

theorem bf0_gs {E : Err → Prop} {n s k : Nat} {B B' : Nat → Int → Prop} (hsk : s ≠ k)
    (hb : ∀ x y, B s x → B k y → I32 (x + y) ∧ I32 (x - y) ∧ B' s (x + y) ∧ B' k (x - y)) :
    GsBf (R := Zq) E val (bf0 s k) n s k B B' 1 := by
  intro a x y ha hx hy hbx hby
  refine (bf0_ct hsk hb a x y ha hx hy hbx hby).mono ?_
  rintro a' ⟨u, v, e, hu, hv⟩
  refine ⟨u, v, e, ⟨hu.1, ?_⟩, hv.1, ?_⟩
  · rw [hu.2]; ring
  · rw [hv.2]; ring

theorem ctBf_ct {E : Err → Prop} {n s k : Nat} {B B' : Nat → Int → Prop} (hsk : s ≠ k) {w : Int}
    {ζ : Zq} (hζ : 3 * (w : Zq) = ζ)
    (hb : ∀ x y, B s x → B k y → Safe (y * w) ∧ I32 (x + Spec.red (y * w)) ∧
      I32 (x - Spec.red (y * w)) ∧ B' s (x + Spec.red (y * w)) ∧ B' k (x - Spec.red (y * w))) :
    CtBf (R := Zq) E val (ctBf w s k) n s k B B' ζ := by
  intro a x y ha hx hy hbx hby
  obtain ⟨h0, h1, h2, h3, h4⟩ := hb x y hbx hby
  unfold ctBf
  simp only [wp_bind]
  refine wp_rd_some hy (wp_of_eq (mul_red_eq h0.1 h0.2) (wp_rd_some hx (wp_i32 h2
    (wp_wr (getElem?_lt hy) (wp_rd_some (Ntt.get_set_ne hsk hx) (wp_i32 h1
    (wp_wr (by simpa using getElem?_lt hx) ⟨_, _, rfl, ⟨h3, ?_⟩, h4, ?_⟩)))))))
  · simp only [val]; push_cast; rw [red_zq, ← hζ]; push_cast; ring
  · simp only [val]; push_cast; rw [red_zq, ← hζ]; push_cast; ring

theorem gsBf_gs {E : Err → Prop} {n s k : Nat} {B B' : Nat → Int → Prop} (hsk : s ≠ k) {w : Int}
    {ζ : Zq} (hζ : 3 * (w : Zq) = ζ)
    (hb : ∀ x y, B s x → B k y → Safe ((x - y) * w) ∧ I32 (x + y) ∧ I32 (x - y) ∧
      B' s (x + y) ∧ B' k (Spec.red ((x - y) * w))) :
    GsBf (R := Zq) E val (gsBf w s k) n s k B B' ζ := by
  intro a x y ha hx hy hbx hby
  obtain ⟨h0, h1, h2, h3, h4⟩ := hb x y hbx hby
  unfold gsBf
  simp only [wp_bind]
  refine wp_rd_some hy (wp_rd_some hx (wp_i32 h2 (wp_of_eq (mul_red_eq h0.1 h0.2)
    (wp_wr (getElem?_lt hy) (wp_rd_some (Ntt.get_set_ne hsk hx) (wp_i32 h1
    (wp_wr (by simpa using getElem?_lt hx) ⟨_, _, rfl, ⟨h3, ?_⟩, h4, ?_⟩)))))))
  · simp only [val]; push_cast; ring
  · simp only [val]; rw [red_zq, ← hζ]; push_cast; ring

/-! ### Uniform bounds -/

/-- `[L, U]`. -/
abbrev IB (L U : Int) : Nat → Int → Prop := fun _ x => L ≤ x ∧ x ≤ U

/-- One round of Cooley-Tukey butterflies maps `[-b, b]` to `[-b', b']` without overflow. -/
def CtStep (b b' : Int) : Prop := 0 ≤ b ∧ 5 * b + 24574 ≤ 2 * b' ∧ b' ≤ 2147483647

/-- One round of Gentleman-Sande butterflies maps `[l, u]` to `[l', u']` without overflow. -/
def GsStep (l u l' u' : Int) : Prop :=
  l ≤ u ∧ l' ≤ 2 * l ∧ 2 * u ≤ u' ∧ 2 * l' ≤ -3 * (u - l) ∧ 3 * (u - l) + 24574 ≤ 2 * u' ∧
  (u - l) * 6144 ≤ 8796042698752 ∧ u' ≤ 2147483647 ∧ -2147483648 ≤ l'

instance (b b' : Int) : Decidable (CtStep b b') := inferInstanceAs (Decidable (_ ∧ _ ∧ _))
instance (l u l' u' : Int) : Decidable (GsStep l u l' u') :=
  inferInstanceAs (Decidable (_ ∧ _ ∧ _ ∧ _ ∧ _ ∧ _ ∧ _ ∧ _))

theorem ct0_step {E : Err → Prop} {n s k : Nat} {b b' : Int} (hsk : s ≠ k) (h : CtStep b b') :
    CtBf (R := Zq) E val (bf0 s k) n s k (IB (-b) b) (IB (-b') b') 1 := by
  obtain ⟨h0, h1, h2⟩ := h
  exact bf0_ct hsk fun x y hx hy => ⟨⟨by omega, by omega⟩, ⟨by omega, by omega⟩,
    ⟨by omega, by omega⟩, ⟨by omega, by omega⟩⟩

theorem ct_step {E : Err → Prop} {n s k : Nat} {b b' w : Int} {ζ : Zq} (hsk : s ≠ k)
    (h : CtStep b b') (hw : -6144 ≤ w ∧ w ≤ 6144) (hζ : 3 * (w : Zq) = ζ) :
    CtBf (R := Zq) E val (ctBf w s k) n s k (IB (-b) b) (IB (-b') b') ζ := by
  obtain ⟨h0, h1, h2⟩ := h
  refine ctBf_ct hsk hζ fun x y hx hy => ?_
  have hm := mul_bound hy hw
  have hd := red_def (y * w)
  generalize y * w = z at *
  generalize Spec.red z = r at *
  exact ⟨⟨by omega, by omega⟩, ⟨by omega, by omega⟩, ⟨by omega, by omega⟩,
    ⟨by omega, by omega⟩, ⟨by omega, by omega⟩⟩

theorem gs0_step {E : Err → Prop} {n s k : Nat} {l u l' u' : Int} (hsk : s ≠ k)
    (h : GsStep l u l' u') :
    GsBf (R := Zq) E val (bf0 s k) n s k (IB l u) (IB l' u') 1 := by
  obtain ⟨h0, h1, h2, h3, h4, h5, h6, h7⟩ := h
  exact bf0_gs hsk fun x y hx hy => ⟨⟨by omega, by omega⟩, ⟨by omega, by omega⟩,
    ⟨by omega, by omega⟩, ⟨by omega, by omega⟩⟩

theorem gs_step {E : Err → Prop} {n s k : Nat} {l u l' u' w : Int} {ζ : Zq} (hsk : s ≠ k)
    (h : GsStep l u l' u') (hw : -6144 ≤ w ∧ w ≤ 6144) (hζ : 3 * (w : Zq) = ζ) :
    GsBf (R := Zq) E val (gsBf w s k) n s k (IB l u) (IB l' u') ζ := by
  obtain ⟨h0, h1, h2, h3, h4, h5, h6, h7⟩ := h
  refine gsBf_gs hsk hζ fun x y hx hy => ?_
  have hm := mul_bound (x := x - y) (B := u - l) ⟨by omega, by omega⟩ hw
  have hd := red_def ((x - y) * w)
  generalize (x - y) * w = z at *
  generalize Spec.red z = r at *
  exact ⟨⟨by omega, by omega⟩, ⟨by omega, by omega⟩, ⟨by omega, by omega⟩,
    ⟨by omega, by omega⟩, ⟨by omega, by omega⟩⟩

/-! ### Transforms -/

theorem total_of_wp {m : M (Array Int)} {n : Nat} {L U : Int} {F : Nat → Zq}
    (h : Wp NoErr m (PW n (fun i (x : Int) => IB L U i x ∧ (x : Zq) = F i))) :
    ∃ a', m = .ok a' ∧ a'.size = n ∧ InRange L U a' ∧ ∀ i, i < n → coeff a' i = F i := by
  obtain ⟨a', h1, h2⟩ := wp_total.1 h
  rw [pw_elts] at h2
  exact ⟨a', h1, h2.1, fun i hi => (h2.2 i (by omega)).1, fun i hi => (h2.2 i hi).2⟩

theorem pw_range {n : Nat} {a : Array Int} {L U : Int} {F : Nat → Zq} (ha : a.size = n)
    (hr : InRange L U a) (hF : ∀ i, i < n → coeff a i = F i) :
    PW n (fun i (x : Int) => IB L U i x ∧ (x : Zq) = F i) a := by
  rw [pw_elts]
  exact ⟨ha, fun i hi => ⟨hr i (by omega), hF i hi⟩⟩

section
variable {k : Nat} {c ω : Zq} {p a : Array Int} {β l u : Nat → Int}
open Ntt (ne_add_pow)

theorem run_ct_rev2std (hk : k ≤ 31) (hω : 0 < k → ω ^ 2 ^ (k - 1) = -1)
    (hp : StdTable 3 1 ω (-6144) 6144 k p) (hβ : ∀ m, m < k → CtStep (β m) (β (m + 1)))
    (A : Nat → Zq) (ha : a.size = 2 ^ k) (hr : InRange (-β 0) (β 0) a)
    (hA : ∀ i, i < 2 ^ k → coeff a i = A (rev k i)) :
    ∃ a', ntt_red_ct_rev2std a (2 ^ k) p = .ok a' ∧ a'.size = 2 ^ k ∧ InRange (-β k) (β k) a' ∧
      ∀ i, i < 2 ^ k → coeff a' i = ntt (2 ^ k) ω A i := by
  refine total_of_wp (sem_ctRev2std (B := fun m => IB (-β m) (β m)) hk hp.1 hω ?_ ?_
    (pw_range ha hr hA))
  · intro m b hm _; exact ct0_step (ne_add_pow _ _) (hβ m hm)
  · intro m b j w hm _ _ hj hw
    have := hp.entry hm hj hw
    exact ct_step (ne_add_pow _ _) (hβ m hm) this.1 this.2

theorem run_mulct_rev2std (hk : k ≤ 31) (hω : 0 < k → ω ^ 2 ^ (k - 1) = -1)
    (hp : StdTable 3 c ω (-6144) 6144 k p) (hβ : ∀ m, m < k → CtStep (β m) (β (m + 1)))
    (A : Nat → Zq) (ha : a.size = 2 ^ k) (hr : InRange (-β 0) (β 0) a)
    (hA : ∀ i, i < 2 ^ k → coeff a i = A (rev k i)) :
    ∃ a', mulntt_red_ct_rev2std a (2 ^ k) p = .ok a' ∧ a'.size = 2 ^ k ∧
      InRange (-β k) (β k) a' ∧
      ∀ i, i < 2 ^ k → coeff a' i = evalPoly (2 ^ k) A (c * ω ^ i) := by
  refine total_of_wp (sem_mulCtRev2std (B := fun m => IB (-β m) (β m)) hk hp.1 hω ?_
    (pw_range ha hr hA))
  intro m b j w hm _ hj hw
  have := hp.entry hm hj hw
  exact ct_step (ne_add_pow _ _) (hβ m hm) this.1 this.2

theorem run_ct_std2rev (hk : k ≤ 31) (hω : 0 < k → ω ^ 2 ^ (k - 1) = -1)
    (hp : RevTable 3 1 ω (-6144) 6144 k p) (hβ : ∀ m, m < k → CtStep (β m) (β (m + 1)))
    (A : Nat → Zq) (ha : a.size = 2 ^ k) (hr : InRange (-β 0) (β 0) a)
    (hA : ∀ i, i < 2 ^ k → coeff a i = A i) :
    ∃ a', ntt_red_ct_std2rev a (2 ^ k) p = .ok a' ∧ a'.size = 2 ^ k ∧ InRange (-β k) (β k) a' ∧
      ∀ i, i < 2 ^ k → coeff a' i = ntt (2 ^ k) ω A (rev k i) := by
  refine total_of_wp (sem_ctStd2rev (B := fun m => IB (-β m) (β m)) hk hp.1 hω ?_ ?_
    (pw_range ha hr hA))
  · intro m b hm _; exact ct0_step (ne_add_pow _ _) (hβ m hm)
  · intro m j r w hm _ hj _ hw
    have := hp.entry hm hj hw
    exact ct_step (ne_add_pow _ _) (hβ m hm) this.1 this.2

theorem run_mulct_std2rev (hk : k ≤ 31) (hω : 0 < k → ω ^ 2 ^ (k - 1) = -1)
    (hp : RevTable 3 c ω (-6144) 6144 k p) (hβ : ∀ m, m < k → CtStep (β m) (β (m + 1)))
    (A : Nat → Zq) (ha : a.size = 2 ^ k) (hr : InRange (-β 0) (β 0) a)
    (hA : ∀ i, i < 2 ^ k → coeff a i = A i) :
    ∃ a', mulntt_red_ct_std2rev a (2 ^ k) p = .ok a' ∧ a'.size = 2 ^ k ∧
      InRange (-β k) (β k) a' ∧
      ∀ i, i < 2 ^ k → coeff a' i = evalPoly (2 ^ k) A (c * ω ^ rev k i) := by
  refine total_of_wp (sem_mulCtStd2rev (B := fun m => IB (-β m) (β m)) hk hp.1 hω ?_
    (pw_range ha hr hA))
  intro m j r w hm hj _ hw
  have := hp.entry hm hj hw
  exact ct_step (ne_add_pow _ _) (hβ m hm) this.1 this.2

theorem run_gs_rev2std (hk : k ≤ 31) (hω : 0 < k → ω ^ 2 ^ (k - 1) = -1)
    (hp : RevTable 3 1 ω (-6144) 6144 k p)
    (hβ : ∀ m, m < k → GsStep (l m) (u m) (l (m + 1)) (u (m + 1)))
    (A : Nat → Zq) (ha : a.size = 2 ^ k) (hr : InRange (l 0) (u 0) a)
    (hA : ∀ i, i < 2 ^ k → coeff a i = A (rev k i)) :
    ∃ a', ntt_red_gs_rev2std a (2 ^ k) p = .ok a' ∧ a'.size = 2 ^ k ∧ InRange (l k) (u k) a' ∧
      ∀ i, i < 2 ^ k → coeff a' i = ntt (2 ^ k) ω A i := by
  refine total_of_wp (sem_gsRev2std (B := fun m => IB (l m) (u m)) hk hp.1 hω ?_ ?_
    (pw_range ha hr hA))
  · intro m b hm _; exact gs0_step (ne_add_pow _ _) (hβ m hm)
  · intro m j r w hm _ hj _ hw
    have := hp.entry (by omega) hj hw
    exact gs_step (ne_add_pow _ _) (hβ m hm) this.1 this.2

theorem run_gsmul_rev2std (hk : k ≤ 31) (hω : 0 < k → ω ^ 2 ^ (k - 1) = -1)
    (hp : RevTable 3 c ω (-6144) 6144 k p)
    (hβ : ∀ m, m < k → GsStep (l m) (u m) (l (m + 1)) (u (m + 1)))
    (A : Nat → Zq) (ha : a.size = 2 ^ k) (hr : InRange (l 0) (u 0) a)
    (hA : ∀ i, i < 2 ^ k → coeff a i = A (rev k i)) :
    ∃ a', nttmul_red_gs_rev2std a (2 ^ k) p = .ok a' ∧ a'.size = 2 ^ k ∧
      InRange (l k) (u k) a' ∧
      ∀ i, i < 2 ^ k → coeff a' i = c ^ i * ntt (2 ^ k) ω A i := by
  refine total_of_wp (sem_gsMulRev2std (B := fun m => IB (l m) (u m)) hk hp.1 hω ?_
    (pw_range ha hr hA))
  intro m j r w hm hj _ hw
  have := hp.entry (by omega) hj hw
  exact gs_step (ne_add_pow _ _) (hβ m hm) this.1 this.2

theorem run_gs_std2rev (hk : k ≤ 31) (hω : 0 < k → ω ^ 2 ^ (k - 1) = -1)
    (hp : StdTable 3 1 ω (-6144) 6144 k p)
    (hβ : ∀ m, m < k → GsStep (l m) (u m) (l (m + 1)) (u (m + 1)))
    (A : Nat → Zq) (ha : a.size = 2 ^ k) (hr : InRange (l 0) (u 0) a)
    (hA : ∀ i, i < 2 ^ k → coeff a i = A i) :
    ∃ a', ntt_red_gs_std2rev a (2 ^ k) p = .ok a' ∧ a'.size = 2 ^ k ∧ InRange (l k) (u k) a' ∧
      ∀ i, i < 2 ^ k → coeff a' i = ntt (2 ^ k) ω A (rev k i) := by
  refine total_of_wp (sem_gsStd2rev (B := fun m => IB (l m) (u m)) hk hp.1 hω ?_ ?_
    (pw_range ha hr hA))
  · intro m b hm _; exact gs0_step (ne_add_pow _ _) (hβ m hm)
  · intro m b j w hm _ _ hj hw
    have := hp.entry (by omega) hj hw
    exact gs_step (ne_add_pow _ _) (hβ m hm) this.1 this.2

theorem run_gsmul_std2rev (hk : k ≤ 31) (hω : 0 < k → ω ^ 2 ^ (k - 1) = -1)
    (hp : StdTable 3 c ω (-6144) 6144 k p)
    (hβ : ∀ m, m < k → GsStep (l m) (u m) (l (m + 1)) (u (m + 1)))
    (A : Nat → Zq) (ha : a.size = 2 ^ k) (hr : InRange (l 0) (u 0) a)
    (hA : ∀ i, i < 2 ^ k → coeff a i = A i) :
    ∃ a', nttmul_red_gs_std2rev a (2 ^ k) p = .ok a' ∧ a'.size = 2 ^ k ∧
      InRange (l k) (u k) a' ∧
      ∀ i, i < 2 ^ k → coeff a' i = c ^ rev k i * ntt (2 ^ k) ω A (rev k i) := by
  refine total_of_wp (sem_gsMulStd2rev (B := fun m => IB (l m) (u m)) hk hp.1 hω ?_
    (pw_range ha hr hA))
  intro m b j w hm _ hj hw
  have := hp.entry (by omega) hj hw
  exact gs_step (ne_add_pow _ _) (hβ m hm) this.1 this.2

end

/-! ### Bound sequences -/

/-- Bounds for Cooley-Tukey rounds starting from `b`. -/
def ctSeq (b : Int) : Nat → Int
  | 0 => b
  | m + 1 => (5 * ctSeq b m + 24575) / 2

/-- Bounds for Gentleman-Sande rounds starting from `[l, u]`. -/
def gsSeq (l u : Int) : Nat → Int × Int
  | 0 => (l, u)
  | m + 1 =>
    let r := gsSeq l u m
    (min (2 * r.1) (-(3 * (r.2 - r.1) + 1) / 2), max (2 * r.2) ((3 * (r.2 - r.1) + 24575) / 2))

end NttRed
