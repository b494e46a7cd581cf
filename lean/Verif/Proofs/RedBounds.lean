import Verif.Model.RedBounds
import Verif.SpecBounds
import Verif.Proofs.NttRed
import Mathlib.Tactic.Linarith

/-
Proofs about src/red_bounds.c.
-/

namespace RedBounds
open C
open Spec (RedMulFits ctSet gsSet)

/-! ### bit operations -/

theorem lor64_4095 {a : Int} (h : I64 a) : lor64 a 4095 = a - a % 4096 + 4095 := by
  obtain ⟨h1, h2⟩ := h
  unfold lor64
  have e : ∀ m : Nat, m ||| 4095 = m - m % 4096 + 4095 := by
    intro m
    have h : m ||| 4095 = (m >>> 12) <<< 12 + 4095 := by
      rw [Nat.shiftLeft_add_eq_or_of_lt (b := 4095) (i := 12) (by norm_num) (m >>> 12)]
      apply Nat.eq_of_testBit_eq
      intro i
      simp only [Nat.testBit_or, Nat.testBit_shiftLeft, Nat.testBit_shiftRight]
      rw [show (4095 : Nat) = 2 ^ 12 - 1 by norm_num, Nat.testBit_two_pow_sub_one]
      by_cases hi : i < 12
      · simp [hi]
      · have h12 : 12 ≤ i := by omega
        simp [hi, h12]
    rw [h, Nat.shiftLeft_eq, Nat.shiftRight_eq_div_pow]
    omega
  rw [show toU64 4095 = 4095 by decide, e]
  unfold toU64 toI64
  simp only [Int.ofNat_eq_natCast]
  omega

theorem land64_neg4096 {b : Int} (h : I64 b) : land64 b (-4096) = b - b % 4096 := by
  obtain ⟨h1, h2⟩ := h
  unfold land64
  have e : ∀ m : Nat, m < 18446744073709551616 → m &&& 18446744073709547520 = m - m % 4096 := by
    intro m hm
    have h : m &&& 18446744073709547520 = (m >>> 12) <<< 12 := by
      apply Nat.eq_of_testBit_eq
      intro i
      simp only [Nat.testBit_and, Nat.testBit_shiftLeft, Nat.testBit_shiftRight]
      rw [show (18446744073709547520 : Nat) = (2 ^ 52 - 1) <<< 12 by decide,
        Nat.testBit_shiftLeft, Nat.testBit_two_pow_sub_one]
      by_cases hi : 12 ≤ i
      · by_cases hi2 : i - 12 < 52
        · simp [hi, hi2]
        · have : m.testBit i = false := by
            apply Nat.testBit_lt_two_pow
            calc m < 2 ^ 64 := by norm_num; omega
              _ ≤ 2 ^ i := Nat.pow_le_pow_right (by norm_num) (by omega)
          simp [hi, this]
      · simp [hi]
    rw [h, Nat.shiftLeft_eq, Nat.shiftRight_eq_div_pow]
    omega
  rw [show toU64 (-4096) = 18446744073709547520 by decide, e _ (by unfold toU64; omega)]
  unfold toU64 toI64
  simp only [Int.ofNat_eq_natCast]
  omega

theorem land64_one (x : Int) : land64 x 1 = x % 2 := by
  unfold land64 toU64
  rw [show ((1 : Int) % 18446744073709551616).toNat = 2 ^ 1 - 1 by decide,
    Nat.and_two_pow_sub_one_eq_mod]
  unfold toI64
  simp only [Int.ofNat_eq_natCast]
  omega

/-! ### errors: overflow is either tolerated or excluded -/

/-- The operation with exact result `x` either fits 64 bits, or overflows are tolerated. -/
abbrev Fit (E : Err → Prop) (x : Int) : Prop := E .overflow ∨ I64 x

theorem wp_i64f {E : Err → Prop} {x : Int} {P : Int → Prop} (h : Fit E x) (hP : P x) :
    Wp E (i64 x) P := by
  rcases h with h | h
  · unfold i64; split
    · exact wp_ok.2 hP
    · exact wp_error.2 h
  · exact wp_i64 h hP

theorem wp_dassert {E : Err → Prop} {dbg : Bool} {e : M Bool} {P : Unit → Prop}
    (h : Wp E e (fun b => b = true)) (hP : P ()) : Wp E (dassert dbg e) P := by
  unfold dassert
  split
  · rw [wp_bind]
    refine h.mono ?_
    rintro b rfl
    exact wp_cassert rfl hP
  · exact wp_ok.2 hP

theorem wp_dassert_pure {E : Err → Prop} {dbg b : Bool} {P : Unit → Prop}
    (h : b = true) (hP : P ()) : Wp E (dassert dbg (pure b)) P :=
  wp_dassert (wp_pure.2 h) hP

theorem wp_red {E : Err → Prop} {x : Int} {P : Int → Prop} (h : Fit E x) (hP : P (Spec.red x)) :
    Wp E (red x) P := by
  unfold red
  rw [wp_bind, NttRed.land64_4095, NttRed.sar12]
  refine wp_i64 ⟨by omega, by omega⟩ ?_
  refine wp_i64f ?_ hP
  rcases h with h | ⟨h1, h2⟩
  · exact Or.inl h
  · exact Or.inr ⟨by omega, by omega⟩

/-! ### max_red, min_red -/

theorem wp_max_red {E : Err → Prop} {dbg : Bool} {a b : Int} (ha : I64 a) (hb : I64 b)
    (hab : a ≤ b) : Wp E (max_red dbg a b) (fun r =>
      (a ≤ r.2 ∧ r.2 ≤ b) ∧ r.1 = Spec.red r.2 ∧ ∀ x, a ≤ x → x ≤ b → Spec.red x ≤ r.1) := by
  unfold max_red
  rw [wp_bind]
  refine wp_dassert_pure (by simpa using hab) ?_
  simp only [wp_bind, lor64_4095 ha]
  obtain ⟨ha1, ha2⟩ := ha
  obtain ⟨hb1, hb2⟩ := hb
  unfold Spec.red
  split
  · refine wp_red (Or.inr ⟨by omega, by omega⟩) ?_
    rw [wp_pure]
    exact ⟨⟨by omega, by omega⟩, rfl, fun x h1 h2 => by unfold Spec.red; omega⟩
  · refine wp_red (Or.inr ⟨by omega, by omega⟩) ?_
    rw [wp_pure]
    exact ⟨⟨by omega, by omega⟩, rfl, fun x h1 h2 => by unfold Spec.red; omega⟩

theorem wp_min_red {E : Err → Prop} {dbg : Bool} {a b : Int} (ha : I64 a) (hb : I64 b)
    (hab : a ≤ b) : Wp E (min_red dbg a b) (fun r =>
      (a ≤ r.2 ∧ r.2 ≤ b) ∧ r.1 = Spec.red r.2 ∧ ∀ x, a ≤ x → x ≤ b → r.1 ≤ Spec.red x) := by
  unfold min_red
  rw [wp_bind]
  refine wp_dassert_pure (by simpa using hab) ?_
  simp only [wp_bind, land64_neg4096 hb]
  obtain ⟨ha1, ha2⟩ := ha
  obtain ⟨hb1, hb2⟩ := hb
  split
  · refine wp_red (Or.inr ⟨by omega, by omega⟩) ?_
    rw [wp_pure]
    exact ⟨⟨by omega, by omega⟩, rfl, fun x h1 h2 => by unfold Spec.red; omega⟩
  · refine wp_red (Or.inr ⟨by omega, by omega⟩) ?_
    rw [wp_pure]
    exact ⟨⟨by omega, by omega⟩, rfl, fun x h1 h2 => by unfold Spec.red; omega⟩

/-! ### gcd4096 -/

theorem wp_gcd4096 {E : Err → Prop} {w : Int} (hw : w ≠ 0) (h1 : Fit E (-w)) (h2 : I64 w) :
    Wp E (gcd4096 w) (fun g => 0 < g ∧ g ∣ 4096 ∧ g ∣ w) := by
  unfold gcd4096
  rw [wp_bind]
  refine wp_cwhile
    (fun (st : Int × Int) => ∃ i : Nat, i ≤ 63 ∧ st.1 = 2 ^ i ∧ st.1 * st.2 = w)
    (fun st => 64 - Nat.log2 st.1.toNat) ?_ ?_ _ _ ?_ ?_
  · rintro ⟨g, v⟩ ⟨i, hi, rfl, hv⟩ hc
    simp only [decide_eq_true_eq, land64_one] at hc hv
    have hsar : sar v 1 = v / 2 := by unfold sar; norm_num
    have hv2 : v = 2 * (v / 2) := by omega
    have hw' : (2 : Int) ^ (i + 1) * (v / 2) = w := by
      rw [← hv]; conv_rhs => rw [hv2]
      ring
    have hv0 : v / 2 ≠ 0 := by rintro h; rw [h, mul_zero] at hw'; exact hw hw'.symm
    have hpos : (0 : Int) < 2 ^ (i + 1) := by positivity
    have hle : (2 : Int) ^ (i + 1) ≤ |w| := by
      rw [← hw', abs_mul, abs_of_pos hpos]
      nlinarith [Int.one_le_abs hv0]
    have hlog : ∀ j : Nat, Nat.log2 ((2 : Int) ^ j).toNat = j := by
      intro j
      have : ((2 : Int) ^ j).toNat = 2 ^ j := by
        rw [show (2 : Int) ^ j = ((2 ^ j : Nat) : Int) by push_cast; rfl, Int.toNat_natCast]
      rw [this, Nat.log2_two_pow]
    have h63 : (2 : Int) ^ (i + 1) ≤ 9223372036854775808 := by
      obtain ⟨h3, h4⟩ := h2
      refine le_trans hle (abs_le.2 ⟨by omega, by omega⟩)
    have hi63 : i + 1 ≤ 63 := by
      by_contra hcon
      have : (2 : Int) ^ 64 ≤ 2 ^ (i + 1) := pow_le_pow_right₀ (by norm_num) (by omega)
      norm_num at this; omega
    rw [wp_bind]
    refine wp_i64f ?_ ?_
    · rcases h1 with h1 | h1
      · exact Or.inl h1
      · right
        obtain ⟨h3, h4⟩ := h2
        obtain ⟨h5, h6⟩ := h1
        have : |w| ≤ 9223372036854775807 := abs_le.2 ⟨by omega, by omega⟩
        have e : (2 : Int) * 2 ^ i = 2 ^ (i + 1) := by ring
        rw [e]
        exact ⟨by omega, by omega⟩
    · rw [wp_pure]
      refine ⟨⟨i + 1, hi63, by ring, ?_⟩, ?_⟩
      · dsimp only; rw [hsar, ← hw']; ring
      · have e : (2 : Int) * 2 ^ i = 2 ^ (i + 1) := by ring
        dsimp only
        rw [e, hlog, hlog]; omega
  · rintro ⟨g, v⟩ ⟨i, hi, rfl, hv⟩ hc
    simp only [wp_pure] at hv ⊢
    split
    · next h =>
      have hi12 : i ≤ 12 := by
        by_contra hcon
        have : (2 : Int) ^ 13 ≤ 2 ^ i := pow_le_pow_right₀ (by norm_num) (by omega)
        norm_num at this; omega
      refine ⟨by positivity, ?_, ⟨v, hv.symm⟩⟩
      rw [show (4096 : Int) = 2 ^ 12 by norm_num]
      exact pow_dvd_pow 2 hi12
    · next h =>
      have hi12 : 12 ≤ i := by
        by_contra hcon
        have : (2 : Int) ^ i ≤ 2 ^ 11 := pow_le_pow_right₀ (by norm_num) (by omega)
        norm_num at this; omega
      refine ⟨by norm_num, dvd_rfl, ?_⟩
      rw [← hv]
      refine Dvd.dvd.mul_right ?_ v
      rw [show (4096 : Int) = 2 ^ 12 by norm_num]
      exact pow_dvd_pow 2 hi12
  · dsimp only
    omega
  · exact ⟨0, by omega, by norm_num, by ring⟩

theorem _root_.Int.dvd_emod_of_dvd {g m x : Int} (h1 : g ∣ m) (h2 : g ∣ x) : g ∣ x % m := by
  rw [Int.emod_def]
  exact Int.dvd_sub h2 (Dvd.dvd.mul_right h1 _)

/-! ### lmax, lmin -/

theorem cdiv_pos {x w : Int} (hx : 0 ≤ x) (hw : 0 < w) : cdiv x w = .ok (x / w) := by
  unfold cdiv
  rw [if_neg (by omega), Int.tdiv_eq_ediv_of_nonneg hx]

/-- What `lmax` computes: the largest `y` with `⌊wy/4096⌋ = ⌊wx/4096⌋`. -/
def IsLmax (w x y : Int) : Prop :=
  x ≤ y ∧ (w * y) / 4096 = (w * x) / 4096 ∧ (w * x) / 4096 < (w * (y + 1)) / 4096

/-- What `lmin` computes: the smallest `y` with `⌊wy/4096⌋ = ⌊wx/4096⌋`. -/
def IsLmin (w x y : Int) : Prop :=
  y ≤ x ∧ (w * y) / 4096 = (w * x) / 4096 ∧ (w * (y - 1)) / 4096 < (w * x) / 4096

theorem wp_lmax {E : Err → Prop} {dbg : Bool} {w x : Int} (hw : 0 < w)
    (hB : E .overflow ∨ (-9223372036854775808 ≤ w * x ∧ w * x + w + 4095 ≤ 9223372036854775807)) :
    Wp E (lmax dbg w x) (IsLmax w x) := by
  unfold lmax
  rw [wp_bind]
  refine wp_i64f (hB.imp_right fun h => ⟨h.1, by omega⟩) ?_
  rw [NttRed.land64_4095, cdiv_pos (by omega) hw]
  simp only [wp_bind, wp_ok]
  set z := w * x with hz
  set k := (4095 - z % 4096) / w with hk
  have hk0 : 0 ≤ k := Int.ediv_nonneg (by omega) (by omega)
  have hk1 : w * k ≤ 4095 - z % 4096 := Int.mul_ediv_self_le (by omega)
  have hk2 : 4095 - z % 4096 < w * k + w := by
    have := Int.lt_mul_ediv_self_add (x := 4095 - z % 4096) hw
    omega
  have hkk : k ≤ w * k := by nlinarith
  have ex : w * (x + k) = z + w * k := by rw [hz]; ring
  have ex1 : w * (x + k + 1) = z + w * k + w := by rw [hz]; ring
  have hfit : -9223372036854775808 ≤ z ∧ z + w + 4095 ≤ 9223372036854775807 →
      (-9223372036854775808 ≤ x ∧ x + k + 1 ≤ 9223372036854775807) := by
    rintro ⟨h1, h2⟩
    by_cases hx : 0 ≤ x
    · have : x ≤ z := by rw [hz]; nlinarith
      omega
    · have : z ≤ x := by rw [hz]; nlinarith
      omega
  refine wp_i64f (hB.imp_right fun h => ?_) ?_
  · have := hfit h; exact ⟨by omega, by omega⟩
  refine wp_dassert ?_ ?_
  · simp only [wp_bind]
    refine wp_i64f (hB.imp_right fun h => by rw [ex]; exact ⟨by omega, by omega⟩) ?_
    refine wp_i64f (hB.imp_right fun h => ⟨by omega, by omega⟩) ?_
    rw [wp_pure, NttRed.sar12, NttRed.sar12, ex]
    simp only [decide_eq_true_eq]
    omega
  refine wp_dassert ?_ ?_
  · simp only [wp_bind]
    refine wp_i64f (hB.imp_right fun h => ?_) ?_
    · have := hfit h; exact ⟨by omega, by omega⟩
    refine wp_i64f (hB.imp_right fun h => by rw [ex1]; exact ⟨by omega, by omega⟩) ?_
    refine wp_i64f (hB.imp_right fun h => ⟨by omega, by omega⟩) ?_
    rw [wp_pure, NttRed.sar12, NttRed.sar12, ex1]
    simp only [decide_eq_true_eq]
    omega
  rw [wp_pure]
  refine ⟨by omega, ?_, ?_⟩
  · rw [ex]; omega
  · rw [ex1]; omega

theorem wp_lmin {E : Err → Prop} {dbg : Bool} {w x : Int} (hw : 0 < w)
    (hB : E .overflow ∨ (-9223372036854775808 ≤ w * x - w - 4095 ∧ w * x ≤ 9223372036854775807)) :
    Wp E (lmin dbg w x) (IsLmin w x) := by
  unfold lmin
  rw [wp_bind]
  refine wp_i64f (hB.imp_right fun h => ⟨by omega, h.2⟩) ?_
  rw [NttRed.land64_4095, cdiv_pos (by omega) hw]
  simp only [wp_bind, wp_ok]
  set z := w * x with hz
  set k := (z % 4096) / w with hk
  have hk0 : 0 ≤ k := Int.ediv_nonneg (by omega) (by omega)
  have hk1 : w * k ≤ z % 4096 := Int.mul_ediv_self_le (by omega)
  have hk2 : z % 4096 < w * k + w := by
    have := Int.lt_mul_ediv_self_add (x := z % 4096) hw
    omega
  have hkk : k ≤ w * k := by nlinarith
  have ex : w * (x - k) = z - w * k := by rw [hz]; ring
  have ex1 : w * (x - k - 1) = z - w * k - w := by rw [hz]; ring
  have hfit : -9223372036854775808 ≤ z - w - 4095 ∧ z ≤ 9223372036854775807 →
      (-9223372036854775808 ≤ x - k - 1 ∧ x ≤ 9223372036854775807) := by
    rintro ⟨h1, h2⟩
    by_cases hx : 0 ≤ x
    · have : x ≤ z := by rw [hz]; nlinarith
      omega
    · have : z ≤ x := by rw [hz]; nlinarith
      omega
  refine wp_i64f (hB.imp_right fun h => ?_) ?_
  · have := hfit h; exact ⟨by omega, by omega⟩
  refine wp_dassert ?_ ?_
  · simp only [wp_bind]
    refine wp_i64f (hB.imp_right fun h => by rw [ex]; exact ⟨by omega, by omega⟩) ?_
    refine wp_i64f (hB.imp_right fun h => ⟨by omega, by omega⟩) ?_
    rw [wp_pure, NttRed.sar12, NttRed.sar12, ex]
    simp only [decide_eq_true_eq]
    omega
  refine wp_dassert ?_ ?_
  · simp only [wp_bind]
    refine wp_i64f (hB.imp_right fun h => ?_) ?_
    · have := hfit h; exact ⟨by omega, by omega⟩
    refine wp_i64f (hB.imp_right fun h => by rw [ex1]; exact ⟨by omega, by omega⟩) ?_
    refine wp_i64f (hB.imp_right fun h => ⟨by omega, by omega⟩) ?_
    rw [wp_pure, NttRed.sar12, NttRed.sar12, ex1]
    simp only [decide_eq_true_eq]
    omega
  rw [wp_pure]
  refine ⟨by omega, ?_, ?_⟩
  · rw [ex]; omega
  · rw [ex1]; omega

/-! ### the loops -/

/-- Bounds that exclude overflow for the products `w * x` with `x` in `[a, b]`, `w > 0`. -/
def MulFits (w a b : Int) : Prop :=
  -9223372036854775808 ≤ w * a - w - 4095 ∧ w * b + w + 4095 ≤ 9223372036854775807

theorem mulFits_x {w a b x : Int} (hw : 0 < w) (h : MulFits w a b) (h1 : a ≤ x) (h2 : x ≤ b) :
    -9223372036854775808 ≤ w * x - w - 4095 ∧ w * x + w + 4095 ≤ 9223372036854775807 := by
  obtain ⟨h3, h4⟩ := h
  have : w * a ≤ w * x := Int.mul_le_mul_of_nonneg_left h1 (by omega)
  have : w * x ≤ w * b := Int.mul_le_mul_of_nonneg_left h2 (by omega)
  omega

theorem fits_id {w x : Int} (hw : 0 < w)
    (h : -9223372036854775808 ≤ w * x - w - 4095 ∧ w * x + w + 4095 ≤ 9223372036854775807) :
    -9223372036854775808 ≤ x - 1 ∧ x + 1 ≤ 9223372036854775807 := by
  by_cases hx : 0 ≤ x
  · have : x ≤ w * x := by nlinarith
    omega
  · have : w * x ≤ x := by nlinarith
    omega

theorem wp_maxLoop {E : Err → Prop} {dbg : Bool} {w a b g : Int} (hw : 0 < w)
    (hB : E .overflow ∨ MulFits w a b) (hg1 : 0 < g) (hg2 : g ∣ 4096) (hg3 : g ∣ w) :
    ∀ (fuel : Nat) (x xm rm : Int), a ≤ x → x ≤ b → b - x < fuel → a ≤ xm → xm ≤ b →
      rm = Spec.red (w * xm) → Spec.red (w * b) ≤ rm →
      (∀ y, a ≤ y → y < x → Spec.red (w * y) ≤ rm) →
      Wp E (maxLoop dbg w b (3 * (4096 - g)) (4096 - g) fuel x xm rm) (fun r =>
        (a ≤ r.1 ∧ r.1 ≤ b) ∧ r.2 = Spec.red (w * r.1) ∧
        ∀ y, a ≤ y → y ≤ b → Spec.red (w * y) ≤ r.2) := by
  intro fuel
  have hrem : ∀ y, (w * y) % 4096 ≤ 4096 - g := by
    intro y
    obtain ⟨c, hc⟩ := hg2
    have hd : g ∣ (w * y) % 4096 :=
      (Int.dvd_emod_of_dvd ⟨c, hc⟩ (Dvd.dvd.mul_right hg3 y))
    obtain ⟨d, hd⟩ := hd
    have h1 : (w * y) % 4096 < 4096 := Int.emod_lt_of_pos _ (by norm_num)
    have : d < c := by
      by_contra hcon
      have : g * c ≤ g * d := Int.mul_le_mul_of_nonneg_left (by omega) (by omega)
      omega
    have : g * (d + 1) ≤ g * c := Int.mul_le_mul_of_nonneg_left (by omega) (by omega)
    have e : g * (d + 1) = g * d + g := by ring
    omega
  have hred : ∀ y, Spec.red (w * y) ≤ 3 * (4096 - g) - (w * y) / 4096 := by
    intro y
    have := hrem y
    unfold Spec.red; omega
  induction fuel with
  | zero => intro x xm rm h1 h2 h3; omega
  | succ fuel ih =>
    intro x xm rm hax hxb hf haxm hxmb hrm hrb hlow
    unfold maxLoop
    rw [wp_bind]
    refine (wp_lmax hw (hB.imp_right fun h => ?_)).mono ?_
    · have := mulFits_x hw h hax hxb
      omega
    rintro y ⟨hxy, hy1, hy2⟩
    have mono : ∀ u v : Int, u ≤ v → w * u ≤ w * v := fun u v h =>
      Int.mul_le_mul_of_nonneg_left h (by omega)
    -- all values between x and y are at most the value at y
    have hblock : ∀ z, x ≤ z → z ≤ y → Spec.red (w * z) ≤ Spec.red (w * y) := by
      intro z h1 h2
      have := mono _ _ h1
      have := mono _ _ h2
      unfold Spec.red
      omega
    split
    · next hyb =>
      rw [wp_pure]
      refine ⟨⟨haxm, hxmb⟩, hrm, fun z h1 h2 => ?_⟩
      by_cases hz : z < x
      · exact hlow z h1 hz
      · have := mono x z (by omega)
        have := mono z b h2
        have := mono b y hyb
        refine le_trans ?_ hrb
        unfold Spec.red
        omega
    · next hyb =>
      have hyb : y < b := by omega
      have hfy : E .overflow ∨ (-9223372036854775808 ≤ w * y - w - 4095 ∧
          w * y + w + 4095 ≤ 9223372036854775807) :=
        hB.imp_right fun h => mulFits_x hw h (by omega) (by omega)
      simp only [wp_bind]
      refine wp_i64f (hfy.imp_right fun h => ⟨by omega, by omega⟩) ?_
      unfold divd remd
      rw [NttRed.sar12]
      refine wp_i64f (hfy.imp_right fun h => ⟨by omega, by omega⟩) ?_
      have hg4 : g ≤ 4096 := Int.le_of_dvd (by norm_num) hg2
      refine wp_i64f (hfy.imp_right fun h => ⟨by omega, by omega⟩) ?_
      split
      · next he =>
        rw [wp_pure]
        refine ⟨⟨haxm, hxmb⟩, hrm, fun z h1 h2 => ?_⟩
        by_cases hz : z < x
        · exact hlow z h1 hz
        · have h3 := hred z
          have := mono x z (by omega)
          omega
      · next he =>
        simp only [wp_bind]
        refine wp_i64f (hfy.imp_right fun h => ⟨by omega, by omega⟩) ?_
        refine wp_red (hfy.imp_right fun h => ⟨by omega, by omega⟩) ?_
        have hx1 : Fit E (y + 1) := hfy.imp_right fun h => by
          have := fits_id hw h; exact ⟨by omega, by omega⟩
        split
        · next hr =>
          simp only [wp_bind]
          refine wp_i64f (hfy.imp_right fun h => ⟨by omega, by omega⟩) ?_
          rw [NttRed.land64_4095]
          split
          · next hm =>
            rw [wp_pure]
            refine ⟨⟨by dsimp only; omega, by dsimp only; omega⟩, rfl, fun z h1 h2 => ?_⟩
            dsimp only
            by_cases hz : z < x
            · exact le_trans (hlow z h1 hz) (by omega)
            · by_cases hzy : z ≤ y
              · exact hblock z (by omega) hzy
              · have := mono y z (by omega)
                have := hred z
                have : Spec.red (w * y) = 3 * (4096 - g) - (w * y) / 4096 := by
                  unfold Spec.red; omega
                omega
          · next hm =>
            simp only [wp_bind]
            refine wp_i64f hx1 ?_
            refine ih (y + 1) y _ (by omega) (by omega) (by omega) (by omega) (by omega) rfl
              (by omega) (fun z h1 h2 => ?_)
            by_cases hz : z < x
            · exact le_trans (hlow z h1 hz) (by omega)
            · exact hblock z (by omega) (by omega)
        · next hr =>
          simp only [wp_bind]
          refine wp_i64f hx1 ?_
          refine ih (y + 1) xm rm (by omega) (by omega) (by omega) haxm hxmb hrm hrb
            (fun z h1 h2 => ?_)
          by_cases hz : z < x
          · exact hlow z h1 hz
          · exact le_trans (hblock z (by omega) (by omega)) (by omega)

theorem wp_minLoop {E : Err → Prop} {dbg : Bool} {w a b : Int} (hw : 0 < w)
    (hB : E .overflow ∨ MulFits w a b) :
    ∀ (fuel : Nat) (x xm rm : Int), a ≤ x → x ≤ b → x - a < fuel → a ≤ xm → xm ≤ b →
      rm = Spec.red (w * xm) → rm ≤ Spec.red (w * a) →
      (∀ y, x < y → y ≤ b → rm ≤ Spec.red (w * y)) →
      Wp E (minLoop dbg w a fuel x xm rm) (fun r =>
        (a ≤ r.1 ∧ r.1 ≤ b) ∧ r.2 = Spec.red (w * r.1) ∧
        ∀ y, a ≤ y → y ≤ b → r.2 ≤ Spec.red (w * y)) := by
  intro fuel
  have hred : ∀ y, - ((w * y) / 4096) ≤ Spec.red (w * y) := by
    intro y
    unfold Spec.red; omega
  induction fuel with
  | zero => intro x xm rm h1 h2 h3; omega
  | succ fuel ih =>
    intro x xm rm hax hxb hf haxm hxmb hrm hrb hlow
    unfold minLoop
    rw [wp_bind]
    refine (wp_lmin hw (hB.imp_right fun h => ?_)).mono ?_
    · have := mulFits_x hw h hax hxb
      omega
    rintro y ⟨hxy, hy1, hy2⟩
    have mono : ∀ u v : Int, u ≤ v → w * u ≤ w * v := fun u v h =>
      Int.mul_le_mul_of_nonneg_left h (by omega)
    have hblock : ∀ z, y ≤ z → z ≤ x → Spec.red (w * y) ≤ Spec.red (w * z) := by
      intro z h1 h2
      have := mono _ _ h1
      have := mono _ _ h2
      unfold Spec.red
      omega
    split
    · next hyb =>
      rw [wp_pure]
      refine ⟨⟨haxm, hxmb⟩, hrm, fun z h1 h2 => ?_⟩
      by_cases hz : x < z
      · exact hlow z hz h2
      · have := mono z x (by omega)
        have := mono a z h1
        have := mono y a hyb
        refine le_trans hrb ?_
        unfold Spec.red
        omega
    · next hyb =>
      have hyb : a < y := by omega
      have hfy : E .overflow ∨ (-9223372036854775808 ≤ w * y - w - 4095 ∧
          w * y + w + 4095 ≤ 9223372036854775807) :=
        hB.imp_right fun h => mulFits_x hw h (by omega) (by omega)
      simp only [wp_bind]
      refine wp_i64f (hfy.imp_right fun h => ⟨by omega, by omega⟩) ?_
      unfold divd remd
      rw [NttRed.sar12]
      refine wp_i64f (hfy.imp_right fun h => ⟨by omega, by omega⟩) ?_
      split
      · next he =>
        rw [wp_pure]
        refine ⟨⟨haxm, hxmb⟩, hrm, fun z h1 h2 => ?_⟩
        by_cases hz : x < z
        · exact hlow z hz h2
        · have h3 := hred z
          have := mono z x (by omega)
          omega
      · next he =>
        simp only [wp_bind]
        refine wp_i64f (hfy.imp_right fun h => ⟨by omega, by omega⟩) ?_
        refine wp_red (hfy.imp_right fun h => ⟨by omega, by omega⟩) ?_
        have hx1 : Fit E (y - 1) := hfy.imp_right fun h => by
          have := fits_id hw h; exact ⟨by omega, by omega⟩
        split
        · next hr =>
          simp only [wp_bind]
          refine wp_i64f (hfy.imp_right fun h => ⟨by omega, by omega⟩) ?_
          rw [NttRed.land64_4095]
          split
          · next hm =>
            rw [wp_pure]
            refine ⟨⟨by dsimp only; omega, by dsimp only; omega⟩, rfl, fun z h1 h2 => ?_⟩
            dsimp only
            by_cases hz : x < z
            · exact le_trans (by omega) (hlow z hz h2)
            · by_cases hzy : y ≤ z
              · exact hblock z (by omega) (by omega)
              · have := mono z y (by omega)
                have := hred z
                have : Spec.red (w * y) = - ((w * y) / 4096) := by
                  unfold Spec.red; omega
                omega
          · next hm =>
            simp only [wp_bind]
            refine wp_i64f hx1 ?_
            refine ih (y - 1) y _ (by omega) (by omega) (by omega) (by omega) (by omega) rfl
              (by omega) (fun z h1 h2 => ?_)
            by_cases hz : x < z
            · exact le_trans (by omega) (hlow z hz h2)
            · exact hblock z (by omega) (by omega)
        · next hr =>
          simp only [wp_bind]
          refine wp_i64f hx1 ?_
          refine ih (y - 1) xm rm (by omega) (by omega) (by omega) haxm hxmb hrm hrb
            (fun z h1 h2 => ?_)
          by_cases hz : x < z
          · exact hlow z hz h2
          · exact le_trans (by omega) (hblock z (by omega) (by omega))

/-! ### max_red_mul, min_red_mul -/

theorem wp_absArgs {E : Err → Prop} {a b w : Int} (hw : w ≠ 0) (hab : a ≤ b)
    (hB : E .overflow ∨ RedMulFits a b w) {P : Int × Int × Int → Prop}
    (hP : ∀ a' b' pw, 0 < pw → (pw = w ∨ pw = -w) → a' ≤ b' → (E .overflow ∨ MulFits pw a' b') →
      (E .overflow ∨ (I64 (-w) ∧ I64 w)) →
      (∀ y, (a' ≤ y ∧ y ≤ b') ↔ (a ≤ (if w < 0 then -y else y) ∧ (if w < 0 then -y else y) ≤ b)) →
      (∀ y, pw * y = w * (if w < 0 then -y else y)) → P (a', b', pw)) :
    Wp E (absArgs a b w) P := by
  have key : ∀ x : Int, |w| * (|x| + 1) + 4095 < 9223372036854775808 →
      (|w| < 9223372036854775808 - 4095 ∧ |x| < 9223372036854775808 - 4095) := by
    intro x h
    have h1 : 1 ≤ |w| := Int.one_le_abs hw
    have h2 : 0 ≤ |x| := abs_nonneg x
    constructor
    · nlinarith
    · nlinarith
  unfold absArgs
  split
  · next hneg =>
    have habs : |w| = -w := abs_of_neg hneg
    have hF : E .overflow ∨ (MulFits (-w) (-b) (-a) ∧ (I64 (-w) ∧ I64 w) ∧ I64 (-a) ∧ I64 (-b)) := by
      refine hB.imp_right fun ⟨h1, h2⟩ => ?_
      have ⟨k1, k2⟩ := key a h1
      have ⟨k3, k4⟩ := key b h2
      rw [abs_lt] at k1 k2 k3 k4
      rw [habs] at h1 h2
      refine ⟨⟨?_, ?_⟩, ⟨⟨by omega, by omega⟩, by omega, by omega⟩, ⟨by omega, by omega⟩,
        by omega, by omega⟩
      · have : (-w) * b ≤ (-w) * |b| := Int.mul_le_mul_of_nonneg_left (le_abs_self b) (by omega)
        linarith
      · have : (-w) * (-a) ≤ (-w) * |a| := Int.mul_le_mul_of_nonneg_left (neg_le_abs a) (by omega)
        linarith
    simp only [wp_bind]
    refine wp_i64f (hF.imp_right fun h => h.2.2.1) ?_
    refine wp_i64f (hF.imp_right fun h => h.2.2.2) ?_
    refine wp_i64f (hF.imp_right fun h => h.2.1.1) ?_
    rw [wp_pure]
    refine hP _ _ _ (by omega) (Or.inr rfl) (by omega) (hF.imp_right fun h => h.1)
      (hF.imp_right fun h => h.2.1) (fun y => ?_) (fun y => ?_)
    · rw [if_pos hneg]; constructor <;> intro h <;> omega
    · rw [if_pos hneg]; ring
  · next hneg =>
    have habs : |w| = w := abs_of_nonneg (by omega)
    have hF : E .overflow ∨ (MulFits w a b ∧ (I64 (-w) ∧ I64 w)) := by
      refine hB.imp_right fun ⟨h1, h2⟩ => ?_
      have ⟨k1, k2⟩ := key a h1
      rw [abs_lt] at k1
      rw [habs] at h1 h2
      refine ⟨⟨?_, ?_⟩, ⟨by omega, by omega⟩, by omega, by omega⟩
      · have : w * (-a) ≤ w * |a| := Int.mul_le_mul_of_nonneg_left (neg_le_abs a) (by omega)
        linarith
      · have : w * b ≤ w * |b| := Int.mul_le_mul_of_nonneg_left (le_abs_self b) (by omega)
        linarith
    rw [wp_pure]
    refine hP _ _ _ (by omega) (Or.inl rfl) hab (hF.imp_right fun h => h.1)
      (hF.imp_right fun h => h.2) (fun y => ?_) (fun y => ?_)
    · rw [if_neg hneg]
    · rw [if_neg hneg]

/-- `(r, m)` is the maximum of `red (w * x)` over `[a, b]` with a point where it is attained. -/
def IsMax (a b w : Int) (r : Int × Int) : Prop :=
  (a ≤ r.2 ∧ r.2 ≤ b) ∧ r.1 = Spec.red (w * r.2) ∧ ∀ x, a ≤ x → x ≤ b → Spec.red (w * x) ≤ r.1

/-- `(r, m)` is the minimum of `red (w * x)` over `[a, b]` with a point where it is attained. -/
def IsMin (a b w : Int) (r : Int × Int) : Prop :=
  (a ≤ r.2 ∧ r.2 ≤ b) ∧ r.1 = Spec.red (w * r.2) ∧ ∀ x, a ≤ x → x ≤ b → r.1 ≤ Spec.red (w * x)

theorem wp_max_red_mul {E : Err → Prop} {dbg : Bool} {a b w : Int} (hw : w ≠ 0) (hw64 : I64 w)
    (hab : a ≤ b) (hB : E .overflow ∨ RedMulFits a b w) :
    Wp E (max_red_mul dbg a b w) (IsMax a b w) := by
  unfold max_red_mul
  rw [wp_bind]
  refine wp_dassert_pure (by simpa using hab) ?_
  rw [wp_bind]
  refine wp_absArgs hw hab hB ?_
  intro a' b' pw hpw hpw2 hab' hF hI hiff hmul
  simp only [wp_bind]
  have hfb : E .overflow ∨ I64 (pw * b') :=
    hF.imp_right fun h => by
      have := mulFits_x hpw h hab' (le_refl b')
      exact ⟨by omega, by omega⟩
  refine wp_i64f hfb ?_
  refine wp_red hfb ?_
  refine (wp_gcd4096 hw (hI.imp_right fun h => h.1) hw64).mono ?_
  rintro g ⟨hg1, hg2, hg3⟩
  refine (wp_maxLoop (a := a') hpw hF hg1 hg2 ?_ _ a' b' _ (le_refl _) hab' ?_ hab' (le_refl _)
    rfl (le_refl _) (fun y h1 h2 => absurd h1 (by omega))).mono ?_
  · rcases hpw2 with h | h
    · rw [h]; exact hg3
    · rw [h]; exact (dvd_neg).2 hg3
  · push_cast; omega
  rintro ⟨x, r⟩ ⟨hx, hr, hall⟩
  dsimp only at hx hr hall ⊢
  have hxx := (hiff x).1 hx
  have hall' : ∀ y, a ≤ y → y ≤ b → Spec.red (w * y) ≤ r := by
    intro y h1 h2
    have hy := hiff (if w < 0 then -y else y)
    have hyy : (if w < 0 then -(if w < 0 then -y else y) else (if w < 0 then -y else y)) = y := by
      split <;> ring
    rw [hyy] at hy
    have h3 := hy.2 ⟨h1, h2⟩
    have h4 := hall _ h3.1 h3.2
    rwa [hmul, hyy] at h4
  rw [hmul] at hr
  by_cases hneg : w < 0
  · rw [if_pos hneg] at hxx hr ⊢
    refine wp_i64f (hF.imp_right fun h => ?_) ?_
    · have := fits_id hpw (mulFits_x hpw h hx.1 hx.2)
      exact ⟨by omega, by omega⟩
    rw [wp_pure]
    exact ⟨hxx, hr, hall'⟩
  · rw [if_neg hneg] at hxx hr ⊢
    rw [wp_pure, wp_pure]
    exact ⟨hxx, hr, hall'⟩

theorem wp_min_red_mul {E : Err → Prop} {dbg : Bool} {a b w : Int} (hw : w ≠ 0)
    (hab : a ≤ b) (hB : E .overflow ∨ RedMulFits a b w) :
    Wp E (min_red_mul dbg a b w) (IsMin a b w) := by
  unfold min_red_mul
  rw [wp_bind]
  refine wp_dassert_pure (by simpa using hab) ?_
  rw [wp_bind]
  refine wp_absArgs hw hab hB ?_
  intro a' b' pw hpw hpw2 hab' hF hI hiff hmul
  simp only [wp_bind]
  have hfb : E .overflow ∨ I64 (pw * a') :=
    hF.imp_right fun h => by
      have := mulFits_x hpw h (le_refl a') hab'
      exact ⟨by omega, by omega⟩
  refine wp_i64f hfb ?_
  refine wp_red hfb ?_
  refine (wp_minLoop (b := b') hpw hF _ b' a' _ hab' (le_refl _) ?_ (le_refl _) hab'
    rfl (le_refl _) (fun y h1 h2 => absurd h1 (by omega))).mono ?_
  · push_cast; omega
  rintro ⟨x, r⟩ ⟨hx, hr, hall⟩
  dsimp only at hx hr hall ⊢
  have hxx := (hiff x).1 hx
  have hall' : ∀ y, a ≤ y → y ≤ b → r ≤ Spec.red (w * y) := by
    intro y h1 h2
    have hy := hiff (if w < 0 then -y else y)
    have hyy : (if w < 0 then -(if w < 0 then -y else y) else (if w < 0 then -y else y)) = y := by
      split <;> ring
    rw [hyy] at hy
    have h3 := hy.2 ⟨h1, h2⟩
    have h4 := hall _ h3.1 h3.2
    rwa [hmul, hyy] at h4
  rw [hmul] at hr
  by_cases hneg : w < 0
  · rw [if_pos hneg] at hxx hr ⊢
    refine wp_i64f (hF.imp_right fun h => ?_) ?_
    · have := fits_id hpw (mulFits_x hpw h hx.1 hx.2)
      exact ⟨by omega, by omega⟩
    rw [wp_pure]
    exact ⟨hxx, hr, hall'⟩
  · rw [if_neg hneg] at hxx hr ⊢
    rw [wp_pure, wp_pure]
    exact ⟨hxx, hr, hall'⟩

/-! ### products of two intervals -/

theorem redMulFits_mul {a b w x : Int} (h : RedMulFits a b w) (h1 : a ≤ x) (h2 : x ≤ b) :
    -9223372036854771713 < w * x ∧ w * x < 9223372036854771713 := by
  obtain ⟨h3, h4⟩ := h
  rw [← abs_lt, abs_mul]
  have h5 : |x| ≤ max |a| |b| := abs_le_max_abs_abs h1 h2
  have h6 : 0 ≤ |w| := abs_nonneg w
  rcases le_max_iff.1 h5 with h | h
  · have := Int.mul_le_mul_of_nonneg_left h h6
    nlinarith
  · have := Int.mul_le_mul_of_nonneg_left h h6
    nlinarith

theorem redMulFits_w {a b w : Int} (h : RedMulFits a b w) :
    -9223372036854771713 < w ∧ w < 9223372036854771713 := by
  obtain ⟨h3, h4⟩ := h
  have h6 : 0 ≤ |w| := abs_nonneg w
  have h7 : 0 ≤ |a| := abs_nonneg a
  rw [← abs_lt]
  nlinarith

/-- The bound `s` is the initial one, or is attained. -/
def Att (a b low high : Int) (s : Best) : Prop :=
  s.r = 0 ∨ ((a ≤ s.x ∧ s.x ≤ b) ∧ (low ≤ s.w ∧ s.w ≤ high) ∧ s.r = Spec.red (s.w * s.x))

theorem abs_mul_le {x w v b : Int} (hx : |x| ≤ b) (hv : |v| ≤ w) :
    -(w * b) ≤ v * x ∧ v * x ≤ w * b := by
  rw [← abs_le, abs_mul]
  exact mul_le_mul hv hx (abs_nonneg x) (le_trans (abs_nonneg v) hv)

section intervals
variable {E : Err → Prop} {dbg : Bool} {a b low high : Int} (hab : a ≤ b) (hsym : -b ≤ a)
  (hB : E .overflow ∨ ∀ w, low ≤ w → w ≤ high → RedMulFits a b w) (hl64 : I64 low)
  (hh64 : I64 high)
include hab hsym hB hl64 hh64

theorem wp_maxNeg {h : Int} (h0 : h ≤ 0) :
    ∀ (fuel : Nat) (w : Int) (s : Best), h - w < fuel → (∀ v, w ≤ v → v < h → low ≤ v ∧ v ≤ high) →
      Att a b low high s →
      0 < fuel → Wp E (maxNeg dbg a b h fuel w s) (fun s' => s.r ≤ s'.r ∧ Att a b low high s' ∧
        ∀ v, w ≤ v → v < h → ∀ x, a ≤ x → x ≤ b → Spec.red (v * x) ≤ s'.r) := by
  intro fuel
  induction fuel with
  | zero => intro w s _ _ _ h; omega
  | succ fuel ih =>
    intro w s hf hr hA _
    unfold maxNeg
    split
    · next hwh =>
      have hw0 : w < 0 := by omega
      have hlw := hr w (le_refl w) hwh
      have hfw : E .overflow ∨ RedMulFits a b w := hB.imp_right fun h => h w hlw.1 hlw.2
      rw [wp_bind]
      refine wp_dassert_pure (by simpa using hw0) ?_
      have hfb : E .overflow ∨ (-9223372036854771713 < w * b ∧ w * b < 9223372036854771713) :=
        hfw.imp_right fun h => redMulFits_mul h hab (le_refl b)
      simp only [wp_bind]
      refine wp_i64f (hfb.imp_right fun h => ⟨by omega, by omega⟩) ?_
      unfold divd
      rw [NttRed.sar12]
      refine wp_i64f (hfb.imp_right fun h => ⟨by omega, by omega⟩) ?_
      refine wp_i64f (hfb.imp_right fun h => ⟨by omega, by omega⟩) ?_
      split
      · next he =>
        rw [wp_pure]
        refine ⟨le_refl _, hA, fun v h1 h2 x h3 h4 => ?_⟩
        have := abs_mul_le (x := x) (b := b) (v := v) (w := -w) (abs_le.2 ⟨by omega, h4⟩)
          (abs_le.2 ⟨by omega, by omega⟩)
        rw [neg_mul, neg_neg] at this
        unfold Spec.red
        omega
      · next he =>
        rw [wp_bind]
        refine (wp_max_red_mul (by omega) ⟨by have := hl64.1; omega, by have := hh64.2; omega⟩
          hab hfw).mono ?_
        rintro ⟨r, x⟩ ⟨hx, hrx, hall⟩
        dsimp only at hx hrx hall ⊢
        rw [wp_bind]
        refine wp_i64f (Or.inr ⟨by have := hl64.1; omega, by omega⟩) ?_
        refine (ih (w + 1) _ (by omega) (fun v h1 h2 => hr v (by omega) h2) ?_ ?_).mono ?_
        · split
          · exact Or.inr ⟨hx, hlw, hrx⟩
          · exact hA
        · omega
        · rintro s' ⟨hs1, hs2, hs3⟩
          have hrs : s.r ≤ s'.r ∧ r ≤ s'.r := by
            split at hs1
            · dsimp only at hs1; omega
            · omega
          refine ⟨hrs.1, hs2, fun v h1 h2 x h3 h4 => ?_⟩
          by_cases hv : v = w
          · subst hv
            exact le_trans (hall x h3 h4) hrs.2
          · exact hs3 v (by omega) h2 x h3 h4
    · next hwh =>
      rw [wp_pure]
      exact ⟨le_refl _, hA, fun v h1 h2 => by omega⟩

theorem wp_maxPos {l : Int} (h0 : 0 ≤ l) :
    ∀ (fuel : Nat) (w : Int) (s : Best), w - l < fuel → (∀ v, v ≤ w → l < v → low ≤ v ∧ v ≤ high) →
      Att a b low high s →
      0 < fuel → Wp E (maxPos dbg a b l fuel w s) (fun s' => s.r ≤ s'.r ∧ Att a b low high s' ∧
        ∀ v, v ≤ w → l < v → ∀ x, a ≤ x → x ≤ b → Spec.red (v * x) ≤ s'.r) := by
  intro fuel
  induction fuel with
  | zero => intro w s _ _ _ h; omega
  | succ fuel ih =>
    intro w s hf hr hA _
    unfold maxPos
    split
    · next hwh =>
      have hw0 : 0 < w := by omega
      have hlw := hr w (le_refl w) hwh
      have hfw : E .overflow ∨ RedMulFits a b w := hB.imp_right fun h => h w hlw.1 hlw.2
      rw [wp_bind]
      refine wp_dassert_pure (by simpa using hw0) ?_
      have hfb : E .overflow ∨ (-9223372036854771713 < w * b ∧ w * b < 9223372036854771713) :=
        hfw.imp_right fun h => redMulFits_mul h hab (le_refl b)
      simp only [wp_bind]
      refine wp_i64f (hfw.imp_right fun h => by
        have := redMulFits_w h; exact ⟨by omega, by omega⟩) ?_
      rw [neg_mul]
      refine wp_i64f (hfb.imp_right fun h => ⟨by omega, by omega⟩) ?_
      unfold divd
      rw [NttRed.sar12]
      refine wp_i64f (hfb.imp_right fun h => ⟨by omega, by omega⟩) ?_
      refine wp_i64f (hfb.imp_right fun h => ⟨by omega, by omega⟩) ?_
      split
      · next he =>
        rw [wp_pure]
        refine ⟨le_refl _, hA, fun v h1 h2 x h3 h4 => ?_⟩
        have := abs_mul_le (x := x) (b := b) (v := v) (w := w) (abs_le.2 ⟨by omega, h4⟩)
          (abs_le.2 ⟨by omega, by omega⟩)
        unfold Spec.red
        omega
      · next he =>
        rw [wp_bind]
        refine (wp_max_red_mul (by omega) ⟨by have := hl64.1; omega, by have := hh64.2; omega⟩
          hab hfw).mono ?_
        rintro ⟨r, x⟩ ⟨hx, hrx, hall⟩
        dsimp only at hx hrx hall ⊢
        rw [wp_bind]
        refine wp_i64f (Or.inr ⟨by omega, by have := hh64.2; omega⟩) ?_
        refine (ih (w - 1) _ (by omega) (fun v h1 h2 => hr v (by omega) h2) ?_ ?_).mono ?_
        · split
          · exact Or.inr ⟨hx, hlw, hrx⟩
          · exact hA
        · omega
        · rintro s' ⟨hs1, hs2, hs3⟩
          have hrs : s.r ≤ s'.r ∧ r ≤ s'.r := by
            split at hs1
            · dsimp only at hs1; omega
            · omega
          refine ⟨hrs.1, hs2, fun v h1 h2 x h3 h4 => ?_⟩
          by_cases hv : v = w
          · subst hv
            exact le_trans (hall x h3 h4) hrs.2
          · exact hs3 v (by omega) h2 x h3 h4
    · next hwh =>
      rw [wp_pure]
      exact ⟨le_refl _, hA, fun v h1 h2 => by omega⟩

theorem wp_max_red_mul_interval (hlh : low ≤ high) :
    Wp E (max_red_mul_interval dbg a b low high) (fun s => 0 ≤ s.r ∧ Att a b low high s ∧
      ∀ w, low ≤ w → w ≤ high → ∀ x, a ≤ x → x ≤ b → Spec.red (w * x) ≤ s.r) := by
  unfold max_red_mul_interval
  rw [wp_bind]
  refine wp_dassert_pure (by simp [hab, hlh]) ?_
  have hh : Wp E (if high ≥ 0 then pure 0 else i64 (high + 1))
      (fun h => (0 ≤ high → h = 0) ∧ (high < 0 → h = high + 1)) := by
    split
    · rw [wp_pure]; exact ⟨fun _ => rfl, fun h => by omega⟩
    · exact wp_i64f (Or.inr ⟨by have := hh64.1; omega, by omega⟩) ⟨fun h => by omega, fun _ => rfl⟩
  have hl : Wp E (if low ≤ 0 then pure 0 else i64 (low - 1))
      (fun l => (low ≤ 0 → l = 0) ∧ (0 < low → l = low - 1)) := by
    split
    · rw [wp_pure]; exact ⟨fun _ => rfl, fun h => by omega⟩
    · exact wp_i64f (Or.inr ⟨by omega, by have := hl64.2; omega⟩) ⟨fun h => by omega, fun _ => rfl⟩
  simp only [wp_bind]
  refine hh.mono ?_
  rintro h ⟨hh1, hh2⟩
  refine (wp_maxNeg hab hsym hB hl64 hh64 (h := h) (by omega) _ _ ⟨0, 0, 0⟩ (by push_cast; omega)
    (fun v h1 h2 => ?_) (Or.inl rfl) (by omega)).mono ?_
  · split at h1 <;> omega
  rintro s ⟨hs1, hs2, hs3⟩
  refine hl.mono ?_
  rintro l ⟨hl1, hl2⟩
  refine (wp_maxPos hab hsym hB hl64 hh64 (l := l) (by omega) _ _ s (by push_cast; omega)
    (fun v h1 h2 => ?_) hs2 (by omega)).mono ?_
  · split at h1 <;> omega
  rintro s' ⟨hs1', hs2', hs3'⟩
  dsimp only at hs1
  refine ⟨by omega, hs2', fun w h1 h2 x h3 h4 => ?_⟩
  rcases lt_trichotomy w 0 with hw | hw | hw
  · refine le_trans (hs3 w ?_ (by omega) x h3 h4) hs1'
    split <;> omega
  · rw [hw, zero_mul]
    unfold Spec.red
    omega
  · refine hs3' w ?_ (by omega) x h3 h4
    split <;> omega

theorem wp_minNeg {h : Int} (h0 : h ≤ 1)
    (hA1 : h = 1 → dbg = false ∨ E .assertFail) :
    ∀ (fuel : Nat) (w : Int) (s : Best), h - w < fuel → (∀ v, w ≤ v → v < h → low ≤ v ∧ v ≤ high) →
      Att a b low high s → s.r ≤ 0 →
      0 < fuel → Wp E (minNeg dbg a b h fuel w s) (fun s' => s'.r ≤ s.r ∧ Att a b low high s' ∧
        ∀ v, w ≤ v → v < h → ∀ x, a ≤ x → x ≤ b → s'.r ≤ Spec.red (v * x)) := by
  intro fuel
  induction fuel with
  | zero => intro w s _ _ _ _ h; omega
  | succ fuel ih =>
    intro w s hf hr hA hs0 _
    unfold minNeg
    split
    · next hwh =>
      have hlw := hr w (le_refl w) hwh
      by_cases hw1 : w = 0
      · -- `w = 0` is reached: the assertion fails, or the loop ends
        subst hw1
        have hfin : ∀ v, 0 ≤ v → v < h → ∀ x, a ≤ x → x ≤ b → s.r ≤ Spec.red (v * x) := by
          intro v h1 h2 x h3 h4
          have : v = 0 := by omega
          rw [this, zero_mul]
          unfold Spec.red; omega
        rcases hA1 (by omega) with hd | hd
        · subst hd
          unfold dassert
          simp only [wp_bind]
          norm_num
          refine wp_i64 ⟨by norm_num, by norm_num⟩ ?_
          rw [zero_mul]
          refine wp_i64 ⟨by norm_num, by norm_num⟩ ?_
          unfold divd
          rw [NttRed.sar12]
          refine wp_i64 ⟨by norm_num, by norm_num⟩ ?_
          norm_num
          rw [if_pos hs0, wp_pure]
          exact ⟨le_refl _, hA, hfin⟩
        · rw [wp_bind]
          unfold dassert
          split
          · rw [wp_bind, wp_pure]
            unfold cassert
            norm_num
            exact hd
          · norm_num
            refine wp_i64 ⟨by norm_num, by norm_num⟩ ?_
            rw [zero_mul]
            refine wp_i64 ⟨by norm_num, by norm_num⟩ ?_
            unfold divd
            rw [NttRed.sar12]
            refine wp_i64 ⟨by norm_num, by norm_num⟩ ?_
            norm_num
            rw [if_pos hs0, wp_pure]
            exact ⟨le_refl _, hA, hfin⟩
      · have hw0 : w < 0 := by omega
        have hfw : E .overflow ∨ RedMulFits a b w := hB.imp_right fun h => h w hlw.1 hlw.2
        rw [wp_bind]
        refine wp_dassert_pure (by simpa using hw0) ?_
        have hfb : E .overflow ∨ (-9223372036854771713 < w * b ∧ w * b < 9223372036854771713) :=
          hfw.imp_right fun h => redMulFits_mul h hab (le_refl b)
        simp only [wp_bind]
        refine wp_i64f (hfw.imp_right fun h => by
          have := redMulFits_w h; exact ⟨by omega, by omega⟩) ?_
        rw [neg_mul]
        refine wp_i64f (hfb.imp_right fun h => ⟨by omega, by omega⟩) ?_
        unfold divd
        rw [NttRed.sar12]
        refine wp_i64f (hfb.imp_right fun h => ⟨by omega, by omega⟩) ?_
        split
        · next he =>
          rw [wp_pure]
          refine ⟨le_refl _, hA, fun v h1 h2 x h3 h4 => ?_⟩
          have := abs_mul_le (x := x) (b := b) (v := v) (w := -w) (abs_le.2 ⟨by omega, h4⟩)
            (abs_le.2 ⟨by omega, by omega⟩)
          rw [neg_mul, neg_neg] at this
          unfold Spec.red
          omega
        · next he =>
          rw [wp_bind]
          refine (wp_min_red_mul (by omega) hab hfw).mono ?_
          rintro ⟨r, x⟩ ⟨hx, hrx, hall⟩
          dsimp only at hx hrx hall ⊢
          rw [wp_bind]
          refine wp_i64f (Or.inr ⟨by have := hl64.1; omega, by omega⟩) ?_
          refine (ih (w + 1) _ (by omega) (fun v h1 h2 => hr v (by omega) h2) ?_ ?_ ?_).mono ?_
          · split
            · exact Or.inr ⟨hx, hlw, hrx⟩
            · exact hA
          · split
            · dsimp only; omega
            · exact hs0
          · omega
          · rintro s' ⟨hs1, hs2, hs3⟩
            have hrs : s'.r ≤ s.r ∧ s'.r ≤ r := by
              split at hs1
              · dsimp only at hs1; omega
              · omega
            refine ⟨hrs.1, hs2, fun v h1 h2 x h3 h4 => ?_⟩
            by_cases hv : v = w
            · subst hv
              exact le_trans hrs.2 (hall x h3 h4)
            · exact hs3 v (by omega) h2 x h3 h4
    · next hwh =>
      rw [wp_pure]
      exact ⟨le_refl _, hA, fun v h1 h2 => by omega⟩

theorem wp_minPos {l : Int} (h0 : -1 ≤ l)
    (hA1 : l = -1 → dbg = false ∨ E .assertFail) :
    ∀ (fuel : Nat) (w : Int) (s : Best), w - l < fuel → (∀ v, v ≤ w → l < v → low ≤ v ∧ v ≤ high) →
      Att a b low high s → s.r ≤ 0 →
      0 < fuel → Wp E (minPos dbg a b l fuel w s) (fun s' => s'.r ≤ s.r ∧ Att a b low high s' ∧
        ∀ v, v ≤ w → l < v → ∀ x, a ≤ x → x ≤ b → s'.r ≤ Spec.red (v * x)) := by
  intro fuel
  induction fuel with
  | zero => intro w s _ _ _ _ h; omega
  | succ fuel ih =>
    intro w s hf hr hA hs0 _
    unfold minPos
    split
    · next hwh =>
      have hlw := hr w (le_refl w) hwh
      by_cases hw1 : w = 0
      · subst hw1
        have hfin : ∀ v, v ≤ 0 → l < v → ∀ x, a ≤ x → x ≤ b → s.r ≤ Spec.red (v * x) := by
          intro v h1 h2 x h3 h4
          have : v = 0 := by omega
          rw [this, zero_mul]
          unfold Spec.red; omega
        have hz : Wp E (do
            let z ← i64 (0 * b)
            let e ← i64 (-(divd z))
            if e ≥ s.r then pure s
            else do
              let (r, x) ← min_red_mul dbg a b 0
              let w' ← i64 (0 - 1)
              minPos dbg a b l fuel w' (if r < s.r then ⟨r, x, 0⟩ else s)) (fun s' =>
            s'.r ≤ s.r ∧ Att a b low high s' ∧
              ∀ v, v ≤ 0 → l < v → ∀ x, a ≤ x → x ≤ b → s'.r ≤ Spec.red (v * x)) := by
          rw [wp_bind, zero_mul]
          refine wp_i64 ⟨by norm_num, by norm_num⟩ ?_
          unfold divd
          rw [NttRed.sar12, wp_bind]
          refine wp_i64 ⟨by norm_num, by norm_num⟩ ?_
          rw [if_pos (by omega), wp_pure]
          exact ⟨le_refl _, hA, hfin⟩
        rw [wp_bind]
        unfold dassert
        split
        · next hdd =>
          rcases hA1 (by omega) with hd | hd
          · rw [hd] at hdd; exact absurd hdd (by decide)
          · rw [wp_bind, wp_pure]
            unfold cassert
            norm_num
            exact hd
        · rw [wp_ok]
          exact hz
      · have hw0 : 0 < w := by omega
        have hfw : E .overflow ∨ RedMulFits a b w := hB.imp_right fun h => h w hlw.1 hlw.2
        rw [wp_bind]
        refine wp_dassert_pure (by simpa using hw0) ?_
        have hfb : E .overflow ∨ (-9223372036854771713 < w * b ∧ w * b < 9223372036854771713) :=
          hfw.imp_right fun h => redMulFits_mul h hab (le_refl b)
        simp only [wp_bind]
        refine wp_i64f (hfb.imp_right fun h => ⟨by omega, by omega⟩) ?_
        unfold divd
        rw [NttRed.sar12]
        refine wp_i64f (hfb.imp_right fun h => ⟨by omega, by omega⟩) ?_
        split
        · next he =>
          rw [wp_pure]
          refine ⟨le_refl _, hA, fun v h1 h2 x h3 h4 => ?_⟩
          have := abs_mul_le (x := x) (b := b) (v := v) (w := w) (abs_le.2 ⟨by omega, h4⟩)
            (abs_le.2 ⟨by omega, by omega⟩)
          unfold Spec.red
          omega
        · next he =>
          rw [wp_bind]
          refine (wp_min_red_mul (by omega) hab hfw).mono ?_
          rintro ⟨r, x⟩ ⟨hx, hrx, hall⟩
          dsimp only at hx hrx hall ⊢
          rw [wp_bind]
          refine wp_i64f (Or.inr ⟨by omega, by have := hh64.2; omega⟩) ?_
          refine (ih (w - 1) _ (by omega) (fun v h1 h2 => hr v (by omega) h2) ?_ ?_ ?_).mono ?_
          · split
            · exact Or.inr ⟨hx, hlw, hrx⟩
            · exact hA
          · split
            · dsimp only; omega
            · exact hs0
          · omega
          · rintro s' ⟨hs1, hs2, hs3⟩
            have hrs : s'.r ≤ s.r ∧ s'.r ≤ r := by
              split at hs1
              · dsimp only at hs1; omega
              · omega
            refine ⟨hrs.1, hs2, fun v h1 h2 x h3 h4 => ?_⟩
            by_cases hv : v = w
            · subst hv
              exact le_trans hrs.2 (hall x h3 h4)
            · exact hs3 v (by omega) h2 x h3 h4
    · next hwh =>
      rw [wp_pure]
      exact ⟨le_refl _, hA, fun v h1 h2 => by omega⟩

theorem wp_min_red_mul_interval (hlh : low ≤ high)
    (hA1 : (low = 0 ∨ high = 0) → dbg = false ∨ E .assertFail) :
    Wp E (min_red_mul_interval dbg a b low high) (fun s => s.r ≤ 0 ∧ Att a b low high s ∧
      ∀ w, low ≤ w → w ≤ high → ∀ x, a ≤ x → x ≤ b → s.r ≤ Spec.red (w * x)) := by
  unfold min_red_mul_interval
  rw [wp_bind]
  refine wp_dassert_pure (by simp [hab, hlh]) ?_
  have hh : Wp E (if high > 0 then pure 0 else i64 (high + 1))
      (fun h => (0 < high → h = 0) ∧ (high ≤ 0 → h = high + 1)) := by
    split
    · rw [wp_pure]; exact ⟨fun _ => rfl, fun h => by omega⟩
    · exact wp_i64f (Or.inr ⟨by have := hh64.1; omega, by omega⟩) ⟨fun h => by omega, fun _ => rfl⟩
  have hl : Wp E (if low < 0 then pure 0 else i64 (low - 1))
      (fun l => (low < 0 → l = 0) ∧ (0 ≤ low → l = low - 1)) := by
    split
    · rw [wp_pure]; exact ⟨fun _ => rfl, fun h => by omega⟩
    · exact wp_i64f (Or.inr ⟨by omega, by have := hl64.2; omega⟩) ⟨fun h => by omega, fun _ => rfl⟩
  simp only [wp_bind]
  refine hh.mono ?_
  rintro h ⟨hh1, hh2⟩
  refine (wp_minNeg hab hsym hB hl64 hh64 (h := h) (by omega) (fun h => hA1 (by omega)) _ _
    ⟨0, 0, 0⟩ (by push_cast; omega)
    (fun v h1 h2 => ?_) (Or.inl rfl) (le_refl _) (by omega)).mono ?_
  · split at h1 <;> omega
  rintro s ⟨hs1, hs2, hs3⟩
  refine hl.mono ?_
  rintro l ⟨hl1, hl2⟩
  dsimp only at hs1
  refine (wp_minPos hab hsym hB hl64 hh64 (l := l) (by omega) (fun h => hA1 (by omega)) _ _ s
    (by push_cast; omega)
    (fun v h1 h2 => ?_) hs2 hs1 (by omega)).mono ?_
  · split at h1 <;> omega
  rintro s' ⟨hs1', hs2', hs3'⟩
  refine ⟨by omega, hs2', fun w h1 h2 x h3 h4 => ?_⟩
  rcases lt_trichotomy w 0 with hw | hw | hw
  · refine le_trans hs1' (hs3 w ?_ (by omega) x h3 h4)
    split <;> omega
  · rw [hw, zero_mul]
    unfold Spec.red
    omega
  · refine hs3' w ?_ (by omega) x h3 h4
    split <;> omega

end intervals

end RedBounds

namespace RedBounds
open C
open Spec (RedMulFits ctSet gsSet)

/-! ### bounds of butterflies -/

/-- `mn`, `mx` are the minimum and maximum of `red(w * x)` for `|x| ≤ c`, `w` in `W`. -/
def Extrema (c : Int) (W : Int → Prop) (mn mx : Int) : Prop :=
  (∀ w, W w → ∀ x, |x| ≤ c → mn ≤ Spec.red (w * x) ∧ Spec.red (w * x) ≤ mx) ∧
  (∃ w x, W w ∧ |x| ≤ c ∧ mn = Spec.red (w * x)) ∧ (∃ w x, W w ∧ |x| ≤ c ∧ mx = Spec.red (w * x))

theorem red_zero (w : Int) : Spec.red (w * 0) = 0 := by rw [mul_zero]; rfl

theorem Extrema.sign {c mn mx : Int} {W : Int → Prop} (h : Extrema c W mn mx) (hc : 0 ≤ c) :
    mn ≤ 0 ∧ 0 ≤ mx := by
  obtain ⟨h1, ⟨w, x, hw, _⟩, _⟩ := h
  have := h1 w hw 0 (by simpa using hc)
  rwa [red_zero] at this

theorem ct_greatest {b mn mx : Int} {W : Int → Prop} (hb : 0 ≤ b) (h : Extrema b W mn mx) :
    IsGreatest (ctSet b W) (if b + mx < b - mn then b - mn else b + mx) := by
  have hs := h.sign hb
  obtain ⟨h1, ⟨w, x, hw, hx, e⟩, ⟨w', x', hw', hx', e'⟩⟩ := h
  have hbb : |b| ≤ b := by rw [abs_of_nonneg hb]
  constructor
  · split
    · refine ⟨b, x, w, hbb, hx, hw, Or.inr ?_⟩
      rw [← e, abs_of_nonneg (by omega)]
    · refine ⟨b, x', w', hbb, hx', hw', Or.inl ?_⟩
      rw [← e', abs_of_nonneg (by omega)]
  · rintro v ⟨y, z, u, hy, hz, hu, hv⟩
    have := h1 u hu z hz
    rw [abs_le] at hy
    rcases hv with rfl | rfl
    · rw [abs_le]; split <;> omega
    · rw [abs_le]; split <;> omega

theorem gs_greatest {b mn mx : Int} {W : Int → Prop} (hb : 0 ≤ b) (h : Extrema (2 * b) W mn mx) :
    IsGreatest (gsSet b W) (if (if mx > -mn then mx else -mn) < 2 * b then 2 * b
      else (if mx > -mn then mx else -mn)) := by
  have hs := h.sign (by omega)
  obtain ⟨h1, ⟨w, x, hw, hx, e⟩, ⟨w', x', hw', hx', e'⟩⟩ := h
  have hbb : |b| ≤ b := by rw [abs_of_nonneg hb]
  have half : ∀ x : Int, |x| ≤ 2 * b → ∃ y z, |y| ≤ b ∧ |z| ≤ b ∧ y - z = x := by
    intro x hx
    rw [abs_le] at hx
    exact ⟨x / 2, x / 2 - x, abs_le.2 ⟨by omega, by omega⟩, abs_le.2 ⟨by omega, by omega⟩,
      by omega⟩
  have hatt : ∃ y z u, |y| ≤ b ∧ |z| ≤ b ∧ W u ∧
      (if mx > -mn then mx else -mn) = |Spec.red (u * (y - z))| := by
    split
    · obtain ⟨y, z, hy, hz, hyz⟩ := half x' hx'
      exact ⟨y, z, w', hy, hz, hw', by rw [hyz, ← e', abs_of_nonneg (by omega)]⟩
    · obtain ⟨y, z, hy, hz, hyz⟩ := half x hx
      exact ⟨y, z, w, hy, hz, hw, by rw [hyz, ← e, abs_of_nonpos (by omega)]⟩
  have hM : mx ≤ (if mx > -mn then mx else -mn) ∧ -mn ≤ (if mx > -mn then mx else -mn) := by
    split <;> omega
  generalize (if mx > -mn then mx else -mn) = M at *
  constructor
  · split
    · refine ⟨b, b, w, hbb, hbb, hw, Or.inl ?_⟩
      rw [abs_of_nonneg (by omega)]; ring
    · obtain ⟨y, z, u, hy, hz, hu, h⟩ := hatt
      exact ⟨y, z, u, hy, hz, hu, Or.inr h⟩
  · rintro v ⟨y, z, u, hy, hz, hu, hv⟩
    have hyz : |y - z| ≤ 2 * b := by
      rw [abs_le] at hy hz ⊢
      omega
    have := h1 u hu _ hyz
    rw [abs_le] at hy hz
    rcases hv with rfl | rfl
    · rw [abs_le]; split <;> omega
    · rw [abs_le]; split <;> omega

theorem wp_ctCombine {E : Err → Prop} {b mn mx : Int} {P : Int → Prop} (hb : 0 ≤ b) (hmn : mn ≤ 0)
    (hmx : 0 ≤ mx) (h1 : Fit E (b + mx)) (h2 : Fit E (b - mn))
    (hP : P (if b + mx < b - mn then b - mn else b + mx)) : Wp E (ctCombine b mn mx) P := by
  unfold ctCombine
  simp only [wp_bind]
  refine wp_i64f h1 (wp_i64f h2 ?_)
  rw [if_neg (by omega), if_neg (by omega), wp_pure, wp_pure, wp_pure]
  exact hP

theorem wp_gsCombine {E : Err → Prop} {b mn mx : Int} {P : Int → Prop} (hmn : mn ≤ 0)
    (hmx : 0 ≤ mx) (h1 : Fit E (-mn)) (h2 : Fit E (2 * b))
    (hP : P (if (if mx > -mn then mx else -mn) < 2 * b then 2 * b
      else (if mx > -mn then mx else -mn))) : Wp E (gsCombine b mn mx) P := by
  unfold gsCombine
  simp only [wp_bind]
  refine wp_i64f h1 (wp_i64f h2 ?_)
  have e : (if mx < 0 then -mn else if mn > 0 then mx else if mx > -mn then mx else -mn) =
      (if mx > -mn then mx else -mn) := by
    rw [if_neg (by omega), if_neg (by omega)]
  rw [e, wp_pure]
  exact hP

/-- Bound on extrema when the products fit. -/
theorem red_bound {a b w x : Int} (h : RedMulFits a b w) (h1 : a ≤ x) (h2 : x ≤ b) :
    -2251799813685248 ≤ Spec.red (w * x) ∧ Spec.red (w * x) ≤ 2251799813697534 := by
  have := redMulFits_mul h h1 h2
  unfold Spec.red
  omega

theorem wp_extrema_fixed {E : Err → Prop} {dbg : Bool} {c w : Int} (hw : w ≠ 0) (hw64 : I64 w)
    (hc : 0 ≤ c) (hB : E .overflow ∨ RedMulFits (-c) c w) {f : Int → Int → M Int}
    {P : Int → Prop}
    (hf : ∀ mn mx, Extrema c (fun v => v = w) mn mx →
      (E .overflow ∨ (-2251799813685248 ≤ mn ∧ mx ≤ 2251799813697534)) → Wp E (f mn mx) P) :
    Wp E (do
      let mn ← min_red_mul dbg (-c) c w
      let mx ← max_red_mul dbg (-c) c w
      f mn.1 mx.1) P := by
  simp only [wp_bind]
  refine (wp_min_red_mul hw (by omega) hB).mono ?_
  rintro ⟨mn, y⟩ ⟨hy, e, hall⟩
  refine (wp_max_red_mul hw hw64 (by omega) hB).mono ?_
  rintro ⟨mx, y'⟩ ⟨hy', e', hall'⟩
  dsimp only at *
  refine hf mn mx ⟨?_, ⟨w, y, rfl, abs_le.2 hy, e⟩, ⟨w, y', rfl, abs_le.2 hy', e'⟩⟩ ?_
  · rintro v rfl x hx
    rw [abs_le] at hx
    exact ⟨hall x hx.1 hx.2, hall' x hx.1 hx.2⟩
  · refine hB.imp_right fun h => ?_
    have := red_bound h hy.1 hy.2
    have := red_bound h hy'.1 hy'.2
    omega

theorem wp_ct_bound_fixed {E : Err → Prop} {dbg : Bool} {b w : Int} (hw : w ≠ 0) (hw64 : I64 w)
    (hb : 0 ≤ b) (hB : E .overflow ∨ (RedMulFits (-b) b w ∧ b ≤ 4611686018427387904)) :
    Wp E (ct_bound_fixed dbg b w) (IsGreatest (ctSet b (fun v => v = w))) := by
  unfold ct_bound_fixed
  rw [wp_bind]
  refine wp_dassert_pure (by simpa using hb) ?_
  rw [wp_bind]
  refine wp_i64f (hB.imp_right fun h => ⟨by omega, by omega⟩) ?_
  refine wp_extrema_fixed hw hw64 hb (hB.imp_right And.left) fun mn mx hx hr => ?_
  have hs := hx.sign hb
  refine wp_ctCombine hb hs.1 hs.2 ?_ ?_ (ct_greatest hb hx)
  · rcases hr with h | h
    · exact Or.inl h
    · exact hB.imp_right fun h' => ⟨by omega, by omega⟩
  · rcases hr with h | h
    · exact Or.inl h
    · exact hB.imp_right fun h' => ⟨by omega, by omega⟩

theorem wp_gs_bound_fixed {E : Err → Prop} {dbg : Bool} {b w : Int} (hw : w ≠ 0) (hw64 : I64 w)
    (hb : 0 ≤ b)
    (hB : E .overflow ∨ (RedMulFits (-2 * b) (2 * b) w ∧ b < 4611686018427387904)) :
    Wp E (gs_bound_fixed dbg b w) (IsGreatest (gsSet b (fun v => v = w))) := by
  unfold gs_bound_fixed
  rw [wp_bind]
  refine wp_dassert_pure (by simpa using hb) ?_
  rw [wp_bind]
  refine wp_i64f (hB.imp_right fun h => ⟨by omega, by omega⟩) ?_
  rw [wp_bind]
  refine wp_i64f (hB.imp_right fun h => ⟨by omega, by omega⟩) ?_
  have e : -2 * b = -(2 * b) := by ring
  rw [e] at hB ⊢
  refine wp_extrema_fixed hw hw64 (by omega) (hB.imp_right And.left) fun mn mx hx hr => ?_
  have hs := hx.sign (by omega)
  refine wp_gsCombine hs.1 hs.2 ?_ ?_ (gs_greatest hb hx)
  · exact hr.imp_right fun h => ⟨by omega, by omega⟩
  · exact hB.imp_right fun h => ⟨by omega, by omega⟩

theorem wp_extrema_interval {E : Err → Prop} {dbg : Bool} {c low high : Int}
    (hlh : low ≤ high) (hl64 : I64 low) (hh64 : I64 high)
    (hA1 : (low = 0 ∨ high = 0) → dbg = false ∨ E .assertFail)
    (hc : 0 ≤ c) (hB : E .overflow ∨ ∀ w, low ≤ w → w ≤ high → RedMulFits (-c) c w)
    {f : Int → Int → M Int} {P : Int → Prop}
    (hf : ∀ mn mx, Extrema c (fun v => low ≤ v ∧ v ≤ high) mn mx →
      (E .overflow ∨ (-2251799813685248 ≤ mn ∧ mx ≤ 2251799813697534)) → Wp E (f mn mx) P) :
    Wp E (do
      let mn ← min_red_mul_interval dbg (-c) c low high
      let mx ← max_red_mul_interval dbg (-c) c low high
      f mn.r mx.r) P := by
  simp only [wp_bind]
  refine (wp_min_red_mul_interval (by omega) (by omega) hB hl64 hh64 hlh hA1).mono ?_
  rintro mn ⟨_, e, hall⟩
  refine (wp_max_red_mul_interval (by omega) (by omega) hB hl64 hh64 hlh).mono ?_
  rintro mx ⟨_, e', hall'⟩
  have att : ∀ s : Best, Att (-c) c low high s →
      ∃ w x, (low ≤ w ∧ w ≤ high) ∧ |x| ≤ c ∧ s.r = Spec.red (w * x) := by
    rintro s (h | ⟨h1, h2, h3⟩)
    · exact ⟨low, 0, ⟨le_refl _, hlh⟩, by simpa using hc, by rw [h, red_zero]⟩
    · exact ⟨s.w, s.x, h2, abs_le.2 h1, h3⟩
  refine hf mn.r mx.r ⟨?_, att mn e, att mx e'⟩ ?_
  · rintro v ⟨hv1, hv2⟩ x hx
    rw [abs_le] at hx
    exact ⟨hall v hv1 hv2 x hx.1 hx.2, hall' v hv1 hv2 x hx.1 hx.2⟩
  · refine hB.imp_right fun h => ?_
    obtain ⟨w, x, hw, hx, e1⟩ := att mn e
    obtain ⟨w', x', hw', hx', e1'⟩ := att mx e'
    rw [abs_le] at hx hx'
    have := red_bound (h w hw.1 hw.2) hx.1 hx.2
    have := red_bound (h w' hw'.1 hw'.2) hx'.1 hx'.2
    omega

theorem wp_ct_bound {E : Err → Prop} {dbg : Bool} {b low high : Int}
    (hlh : low ≤ high) (hl64 : I64 low) (hh64 : I64 high)
    (hA1 : (low = 0 ∨ high = 0) → dbg = false ∨ E .assertFail) (hb : 0 ≤ b)
    (hB : E .overflow ∨ ((∀ w, low ≤ w → w ≤ high → RedMulFits (-b) b w) ∧
      b ≤ 4611686018427387904)) :
    Wp E (ct_bound dbg b low high) (IsGreatest (ctSet b (fun v => low ≤ v ∧ v ≤ high))) := by
  unfold ct_bound
  rw [wp_bind]
  refine wp_dassert_pure (by simp [hb, hlh]) ?_
  rw [wp_bind]
  refine wp_i64f (hB.imp_right fun h => ⟨by omega, by omega⟩) ?_
  refine wp_extrema_interval hlh hl64 hh64 hA1 hb (hB.imp_right And.left) fun mn mx hx hr => ?_
  have hs := hx.sign hb
  refine wp_ctCombine hb hs.1 hs.2 ?_ ?_ (ct_greatest hb hx)
  · rcases hr with h | h
    · exact Or.inl h
    · exact hB.imp_right fun h' => ⟨by omega, by omega⟩
  · rcases hr with h | h
    · exact Or.inl h
    · exact hB.imp_right fun h' => ⟨by omega, by omega⟩

theorem wp_gs_bound {E : Err → Prop} {dbg : Bool} {b low high : Int}
    (hlh : low ≤ high) (hl64 : I64 low) (hh64 : I64 high)
    (hA1 : (low = 0 ∨ high = 0) → dbg = false ∨ E .assertFail) (hb : 0 ≤ b)
    (hB : E .overflow ∨ ((∀ w, low ≤ w → w ≤ high → RedMulFits (-2 * b) (2 * b) w) ∧
      b < 4611686018427387904)) :
    Wp E (gs_bound dbg b low high) (IsGreatest (gsSet b (fun v => low ≤ v ∧ v ≤ high))) := by
  unfold gs_bound
  rw [wp_bind]
  refine wp_dassert_pure (by simp [hb, hlh]) ?_
  rw [wp_bind]
  refine wp_i64f (hB.imp_right fun h => ⟨by omega, by omega⟩) ?_
  rw [wp_bind]
  refine wp_i64f (hB.imp_right fun h => ⟨by omega, by omega⟩) ?_
  have e : -2 * b = -(2 * b) := by ring
  rw [e] at hB ⊢
  refine wp_extrema_interval hlh hl64 hh64 hA1 (by omega) (hB.imp_right And.left)
    fun mn mx hx hr => ?_
  have hs := hx.sign (by omega)
  refine wp_gsCombine hs.1 hs.2 ?_ ?_ (gs_greatest hb hx)
  · exact hr.imp_right fun h => ⟨by omega, by omega⟩
  · exact hB.imp_right fun h => ⟨by omega, by omega⟩

/-! ### a zero multiplier -/

theorem gcd4096_zero : gcd4096 0 = .error .overflow := by decide +kernel

theorem min_red_mul_zero {dbg : Bool} {a b : Int} (h : a ≤ b) :
    min_red_mul dbg a b 0 = .error .divZero := by
  have key : Wp (fun e => e = .divZero) (min_red_mul dbg a b 0) (fun _ => False) := by
    unfold min_red_mul absArgs
    rw [wp_bind]
    refine wp_dassert_pure (by simpa using h) ?_
    rw [if_neg (by omega)]
    simp only [wp_bind, wp_pure]
    rw [zero_mul]
    refine wp_i64 ⟨by norm_num, by norm_num⟩ ?_
    refine wp_red (Or.inr ⟨by norm_num, by norm_num⟩) ?_
    unfold minLoop lmin
    simp only [wp_bind]
    rw [zero_mul]
    refine wp_i64 ⟨by norm_num, by norm_num⟩ ?_
    unfold cdiv
    rw [if_pos rfl, wp_error]
  cases hm : min_red_mul dbg a b 0 with
  | ok r => rw [hm, wp_ok] at key; exact key.elim
  | error e => rw [hm, wp_error] at key; rw [key]

theorem max_red_mul_zero {dbg : Bool} {a b : Int} (h : a ≤ b) :
    max_red_mul dbg a b 0 = .error .overflow := by
  have key : Wp (fun e => e = .overflow) (max_red_mul dbg a b 0) (fun _ => False) := by
    unfold max_red_mul absArgs
    rw [wp_bind]
    refine wp_dassert_pure (by simpa using h) ?_
    rw [if_neg (by omega)]
    simp only [wp_bind, wp_pure]
    rw [zero_mul]
    refine wp_i64 ⟨by norm_num, by norm_num⟩ ?_
    refine wp_red (Or.inr ⟨by norm_num, by norm_num⟩) ?_
    rw [gcd4096_zero, wp_error]
  cases hm : max_red_mul dbg a b 0 with
  | ok r => rw [hm, wp_ok] at key; exact key.elim
  | error e => rw [hm, wp_error] at key; rw [key]

theorem wp_tol {α : Type} {m : M α} {P : α → Prop} (h : ∀ r, m = .ok r → P r) :
    Wp (fun _ => True) m P := by
  cases m with
  | ok r => exact wp_ok.2 (h r rfl)
  | error e => exact wp_error.2 trivial

theorem wp_tol_ok {α : Type} {m : M α} {P : α → Prop} {r : α} (h : Wp (fun _ => True) m P)
    (hm : m = .ok r) : P r := by
  rw [hm, wp_ok] at h; exact h

end RedBounds
