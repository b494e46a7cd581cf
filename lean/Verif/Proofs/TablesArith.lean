import Verif.Proofs.Wp
import Verif.Model.Tables
import Verif.Math.Rev
import Mathlib.Tactic.Ring
import Mathlib.Tactic.Linarith
import Mathlib.Tactic.LinearCombination
import Mathlib.Data.Nat.ModEq
import Mathlib.Data.Int.GCD
import Mathlib.Data.Nat.Prime.Basic

/-
Proofs about the scalar functions of the table generators: `power`, `inverse`, `logtwo`,
`reverse`, `is_primitive_root`.
-/

namespace Tables
open C Spec

theorem total_eq {α : Type} {m : M α} {v : α} (h : Wp NoErr m (fun r => r = v)) : m = .ok v := by
  obtain ⟨a, h1, h2⟩ := wp_total.1 h
  rw [h1, h2]

theorem wp_urem {E : Err → Prop} {x y : Nat} {P : Nat → Prop} (hy : y ≠ 0) (h : P (x % y)) :
    Wp E (urem x y) P := by
  simp [urem, hy, h]

theorem u32_mul {x y : Nat} (hx : x < 65536) (hy : y < 65536) : u32 (x * y) = x * y := by
  unfold u32
  refine Nat.mod_eq_of_lt ?_
  calc x * y ≤ 65535 * 65535 := Nat.mul_le_mul (by omega) (by omega)
    _ < _ := by norm_num

theorem land_one (k : Nat) : k &&& 1 = k % 2 := Nat.and_one_is_mod k

/-! ### power -/

theorem wp_power {E : Err → Prop} {x k q : Nat} (hq : 2 ≤ q) (hq' : q ≤ 65536) (hx : x < 65536)
    (hk : k < 4294967296) : Wp E (power x k q) (fun r => r = x ^ k % q) := by
  unfold power
  rw [wp_bind]
  refine wp_cassert (by simp; omega) ?_
  rw [wp_bind]
  refine wp_cwhile
    (fun (st : Nat × Nat × Nat) => st.1 < 65536 ∧ st.2.1 < q ∧ st.2.2 < 4294967296 ∧
      st.2.1 * st.1 ^ st.2.2 ≡ x ^ k [MOD q])
    (fun st => if st.2.2 = 0 then 0 else Nat.log2 st.2.2 + 1) ?_ ?_ _ _ ?_ ?_
  · rintro ⟨x', y', k'⟩ ⟨h1, h2, h3, h4⟩ hc
    simp only [decide_eq_true_eq] at hc h1 h2 h3 h4
    simp only [land_one]
    have hμ : (if k' / 2 = 0 then 0 else Nat.log2 (k' / 2) + 1) < (if k' = 0 then 0 else Nat.log2 k' + 1) := by
      rw [if_neg hc]
      split
      · omega
      · have : Nat.log2 k' = Nat.log2 (k' / 2) + 1 := by
          conv_lhs => rw [Nat.log2_def]
          rw [if_pos (by omega)]
        omega
    have hlt : x' * x' % q < 65536 := Nat.lt_of_lt_of_le (Nat.mod_lt _ (by omega)) hq'
    have hsq : (x' * x' % q) ^ (k' / 2) ≡ x' ^ (2 * (k' / 2)) [MOD q] := by
      rw [pow_mul, pow_two]
      exact (Nat.mod_modEq _ _).pow _
    rcases Nat.mod_two_eq_zero_or_one k' with h | h
    · simp only [h, ne_eq, not_true_eq_false, if_false, wp_bind, wp_ok]
      refine wp_urem (by omega) ?_
      rw [u32_mul h1 h1]
      refine wp_pure.2 ⟨⟨hlt, h2, by show k' / 2 < _; omega, ?_⟩, hμ⟩
      simp only
      have e : 2 * (k' / 2) = k' := by omega
      rw [e] at hsq
      exact (hsq.mul_left y').trans h4
    · simp only [h, ne_eq, one_ne_zero, not_false_eq_true, if_true, wp_bind]
      refine wp_urem (by omega) (wp_urem (by omega) ?_)
      rw [u32_mul h1 h1, u32_mul (by omega) h1]
      refine wp_pure.2 ⟨⟨hlt, Nat.mod_lt _ (by omega), by show k' / 2 < _; omega, ?_⟩, hμ⟩
      simp only
      refine ((Nat.mod_modEq _ _).mul hsq).trans ?_
      have e : y' * x' * x' ^ (2 * (k' / 2)) = y' * x' ^ k' := by
        conv_rhs => rw [show k' = 2 * (k' / 2) + 1 by omega]
        rw [pow_succ]; ring
      rw [e]; exact h4
  · rintro ⟨x', y', k'⟩ ⟨h1, h2, h3, h4⟩ hc
    simp only [decide_eq_false_iff_not, not_not] at hc h1 h2 h3 h4
    subst hc
    rw [pow_zero, mul_one] at h4
    rw [wp_pure]
    show y' = _
    rw [← h4, Nat.mod_eq_of_lt h2]
  · show (if k = 0 then 0 else Nat.log2 k + 1) < 34
    split
    · omega
    · next h =>
      have := (Nat.log2_lt h).2 (show k < 2 ^ 32 by simpa using hk)
      omega
  · refine ⟨hx, by show 1 < q; omega, hk, ?_⟩
    show 1 * x ^ k ≡ _ [MOD q]
    rw [one_mul]

theorem power_eq {x k q : Nat} (hq : 2 ≤ q) (hq' : q ≤ 65536) (hx : x < 65536)
    (hk : k < 4294967296) : power x k q = .ok (x ^ k % q) :=
  total_eq (wp_power hq hq' hx hk)

/-! ### inverse -/

theorem toI32_small {x : Nat} (h : x < 2147483648) : toI32 (x : Int) = x := by
  unfold toI32; omega

/-- Invariant of the extended Euclid loop; `s` is the sign of the `u`/`v` coefficients. -/
structure EInv (x q : Int) (s a b c d : Int) (e : Euclid) : Prop where
  u1 : e.u1 = s * a
  u2 : e.u2 = - (s * b)
  v1 : e.v1 = - (s * c)
  v2 : e.v2 = s * d
  a0 : 0 ≤ a
  b0 : 0 ≤ b
  c0 : 0 ≤ c
  d0 : 0 ≤ d
  r1 : 1 ≤ e.r1
  r2 : 0 ≤ e.r2
  hq : a * e.r2 + b * e.r1 = q
  hx : c * e.r2 + d * e.r1 = x
  e1 : e.r1 = x * e.u1 + q * e.v1
  e2 : e.r2 = x * e.u2 + q * e.v2
  gcd : Int.gcd e.r1 e.r2 = Int.gcd x q

theorem le_of_mul_add {a r b s q : Int} (ha : 0 ≤ a) (hr : 1 ≤ r) (hb : 0 ≤ b) (hs : 0 ≤ s)
    (h : a * r + b * s = q) : a ≤ q := by
  have h1 : 0 ≤ b * s := mul_nonneg hb hs
  have h2 : 0 ≤ a * (r - 1) := mul_nonneg ha (by omega)
  linarith

theorem wp_inverseStep {E : Err → Prop} {x q : Nat} (hxq : x * q < 2147483648)
    (hx1 : 1 ≤ x) (hq1 : 1 ≤ q)
    {s a b c d : Int} (hs : s = 1 ∨ s = -1) {e : Euclid} (h : EInv x q s a b c d e)
    (hc : 0 < e.r2) :
    Wp E (inverseStep x q e) (fun e' =>
      (∃ a' b' c' d', EInv x q (-s) a' b' c' d' e') ∧ e'.r2.toNat < e.r2.toNat) := by
  have hx31 : x < 2147483648 := Nat.lt_of_le_of_lt (Nat.le_mul_of_pos_right x (by omega)) hxq
  have hq31 : q < 2147483648 := Nat.lt_of_le_of_lt (Nat.le_mul_of_pos_left q (by omega)) hxq
  have hxq' : (x : Int) * q < 2147483648 := by exact_mod_cast hxq
  have haq : a ≤ q := le_of_mul_add h.a0 (by omega) h.b0 (by have := h.r1; omega) h.hq
  have hbq : b ≤ q := le_of_mul_add h.b0 h.r1 h.a0 h.r2 (by rw [add_comm]; exact h.hq)
  have hcx : c ≤ x := le_of_mul_add h.c0 (by omega) h.d0 (by have := h.r1; omega) h.hx
  have hdx : d ≤ x := le_of_mul_add h.d0 h.r1 h.c0 h.r2 (by rw [add_comm]; exact h.hx)
  have hr1x : e.r1 ≤ 2147483647 ∧ e.r2 ≤ 2147483647 := by
    -- each remainder is bounded: one of a, b is positive and one of c, d
    have h1 := h.hq
    have h2 := h.hx
    constructor
    · rcases eq_or_lt_of_le h.b0 with hb | hb
      · rcases eq_or_lt_of_le h.d0 with hd | hd
        · exfalso
          have h3 := h.e2
          rw [h.u2, h.v2, ← hb, ← hd] at h3
          simp at h3; omega
        · have : e.r1 ≤ x := by
            have h4 : 0 ≤ c * e.r2 := mul_nonneg h.c0 h.r2
            have h5 : 0 ≤ (d - 1) * e.r1 := mul_nonneg (by omega) (by have := h.r1; omega)
            linarith
          omega
      · have : e.r1 ≤ q := by
          have h4 : 0 ≤ a * e.r2 := mul_nonneg h.a0 h.r2
          have h5 : 0 ≤ (b - 1) * e.r1 := mul_nonneg (by omega) (by have := h.r1; omega)
          linarith
        omega
    · rcases eq_or_lt_of_le h.a0 with hb | hb
      · rcases eq_or_lt_of_le h.c0 with hd | hd
        · exfalso
          have h3 := h.e1
          rw [h.u1, h.v1, ← hb, ← hd] at h3
          simp at h3
          have := h.r1; omega
        · have : e.r2 ≤ x := by
            have h4 : 0 ≤ d * e.r1 := mul_nonneg h.d0 (by have := h.r1; omega)
            have h5 : 0 ≤ (c - 1) * e.r2 := mul_nonneg (by omega) h.r2
            linarith
          omega
      · have : e.r2 ≤ q := by
          have h4 : 0 ≤ b * e.r1 := mul_nonneg h.b0 (by have := h.r1; omega)
          have h5 : 0 ≤ (a - 1) * e.r2 := mul_nonneg (by omega) h.r2
          linarith
        omega
  have bnd : ∀ {y z w : Int}, 0 ≤ y → 0 ≤ z → z ≤ w → y * w < 2147483648 →
      ∀ t, (t = z ∨ t = -z) → I32 (y * t) := by
    intro y z w hy hz hzw hyw t ht
    have h1 : y * z ≤ y * w := mul_le_mul_of_nonneg_left hzw hy
    have h2 : 0 ≤ y * z := mul_nonneg hy hz
    rcases ht with rfl | rfl
    · exact ⟨by omega, by omega⟩
    · rw [mul_neg]; exact ⟨by omega, by omega⟩
  have hu1 : e.u1 = a ∨ e.u1 = -a := by rw [h.u1]; rcases hs with rfl | rfl <;> simp
  have hu2 : e.u2 = b ∨ e.u2 = -b := by rw [h.u2]; rcases hs with rfl | rfl <;> simp
  have hv1 : e.v1 = c ∨ e.v1 = -c := by rw [h.v1]; rcases hs with rfl | rfl <;> simp
  have hv2 : e.v2 = d ∨ e.v2 = -d := by rw [h.v2]; rcases hs with rfl | rfl <;> simp
  have hqx : (q : Int) * x < 2147483648 := by rw [mul_comm]; exact hxq'
  have hr1 := h.r1
  unfold inverseStep
  simp only [toI32_small hx31, toI32_small hq31, wp_bind]
  refine wp_i32 (bnd (by omega) h.a0 haq hxq' _ hu1) ?_
  refine wp_i32 (bnd (by omega) h.c0 hcx hqx _ hv1) ?_
  refine wp_i32 (by rw [← h.e1]; exact ⟨by omega, by omega⟩) ?_
  refine wp_cassert (by simpa using h.e1) ?_
  refine wp_i32 (bnd (by omega) h.b0 hbq hxq' _ hu2) ?_
  refine wp_i32 (bnd (by omega) h.d0 hdx hqx _ hv2) ?_
  refine wp_i32 (by rw [← h.e2]; exact ⟨by omega, by omega⟩) ?_
  refine wp_cassert (by simpa using h.e2) ?_
  refine wp_cassert (by simp; omega) ?_
  have hdiv : cdiv e.r1 e.r2 = .ok (e.r1 / e.r2) := by
    unfold cdiv
    rw [if_neg (by omega), Int.tdiv_eq_ediv_of_nonneg (by omega)]
  rw [hdiv, wp_ok]
  have hg0 : 0 ≤ e.r1 / e.r2 := Int.ediv_nonneg (by omega) (by omega)
  have hmod := Int.emod_add_mul_ediv e.r1 e.r2
  have hm0 := Int.emod_nonneg e.r1 (show e.r2 ≠ 0 by omega)
  have hm1 := Int.emod_lt_of_pos e.r1 hc
  have hsub : e.r1 - e.r1 / e.r2 * e.r2 = e.r1 % e.r2 := by linarith
  have hgcd : Int.gcd e.r2 (e.r1 % e.r2) = Int.gcd x q := by
    rw [← h.gcd, Int.gcd_comm e.r2, Int.gcd_emod]
  generalize e.r1 / e.r2 = g at *
  generalize e.r1 % e.r2 = r at *
  have hgr : 0 ≤ g * e.r2 := mul_nonneg hg0 h.r2
  refine wp_i32 ⟨by omega, by omega⟩ ?_
  rw [hsub]
  refine wp_i32 ⟨by omega, by omega⟩ ?_
  have hgb : 0 ≤ g * b := mul_nonneg hg0 h.b0
  have hgd : 0 ≤ g * d := mul_nonneg hg0 h.d0
  have hq' : b * r + (a + g * b) * e.r2 = q := by
    rw [← h.hq, ← hsub]; ring
  have hx' : d * r + (c + g * d) * e.r2 = x := by
    rw [← h.hx, ← hsub]; ring
  have ha0 := h.a0
  have hc0 := h.c0
  have hab : a + g * b ≤ q :=
    le_of_mul_add (r := e.r2) (s := r) (by omega) (by omega) h.b0 hm0 (by rw [add_comm]; exact hq')
  have hcd : c + g * d ≤ x :=
    le_of_mul_add (r := e.r2) (s := r) (by omega) (by omega) h.d0 hm0 (by rw [add_comm]; exact hx')
  have inv' : EInv x q (-s) b (a + g * b) d (c + g * d)
      { r1 := e.r2, r2 := r, u1 := e.u2, u2 := e.u1 - g * e.u2, v1 := e.v2, v2 := e.v1 - g * e.v2 } := by
    refine ⟨?_, ?_, ?_, ?_, h.b0, by omega, h.d0, by omega, by simp only; omega, hm0, hq', hx', h.e2, ?_, hgcd⟩
    · show e.u2 = _; rw [h.u2]; ring
    · show e.u1 - g * e.u2 = _; rw [h.u1, h.u2]; ring
    · show e.v2 = _; rw [h.v2]; ring
    · show e.v1 - g * e.v2 = _; rw [h.v1, h.v2]; ring
    · show r = x * (e.u1 - g * e.u2) + q * (e.v1 - g * e.v2)
      rw [← hsub]
      linear_combination h.e1 - g * h.e2
  refine wp_i32 ?_ (wp_i32 ?_ (wp_i32 ?_ (wp_i32 ?_ ?_)))
  · rcases hu2 with h' | h' <;> rw [h']
    · exact ⟨by omega, by omega⟩
    · rw [mul_neg]; exact ⟨by omega, by omega⟩
  · have h6 : e.u1 - g * e.u2 = (a + g * b) ∨ e.u1 - g * e.u2 = -(a + g * b) := by
      rw [h.u1, h.u2]
      rcases hs with rfl | rfl
      · left; ring
      · right; ring
    rcases h6 with h6 | h6 <;> rw [h6] <;> exact ⟨by omega, by omega⟩
  · rcases hv2 with h' | h' <;> rw [h']
    · exact ⟨by omega, by omega⟩
    · rw [mul_neg]; exact ⟨by omega, by omega⟩
  · have h6 : e.v1 - g * e.v2 = (c + g * d) ∨ e.v1 - g * e.v2 = -(c + g * d) := by
      rw [h.v1, h.v2]
      rcases hs with rfl | rfl
      · right; ring
      · left; ring
    rcases h6 with h6 | h6 <;> rw [h6] <;> exact ⟨by omega, by omega⟩
  · refine wp_pure.2 ⟨⟨_, _, _, _, inv'⟩, ?_⟩
    show r.toNat < e.r2.toNat
    omega

/-- The invariant of the loop of `inverse`. -/
def EI (x q : Nat) (e : Euclid) : Prop :=
  ∃ s a b c d : Int, (s = 1 ∨ s = -1) ∧ EInv x q s a b c d e

theorem wp_inverseStep' {E : Err → Prop} {x q : Nat} (hxq : x * q < 2147483648)
    (hx1 : 1 ≤ x) (hq1 : 1 ≤ q) {e : Euclid} (h : EI x q e) (hc : decide (e.r2 > 0) = true) :
    Wp E (inverseStep x q e) (fun e' => EI x q e' ∧ e'.r2.toNat < e.r2.toNat) := by
  obtain ⟨s, a, b, c, d, hs, h⟩ := h
  refine (wp_inverseStep hxq hx1 hq1 hs h (of_decide_eq_true hc)).mono ?_
  rintro e' ⟨⟨a', b', c', d', h'⟩, hlt⟩
  exact ⟨⟨-s, a', b', c', d', by rcases hs with rfl | rfl <;> simp, h'⟩, hlt⟩

theorem wp_inverse {E : Err → Prop} {x q : Nat} (hx1 : 1 ≤ x) (hq2 : 2 ≤ q)
    (hxq : x * q < 2147483648) :
    Wp E (inverse x q) (fun r =>
      (Nat.gcd x q = 1 ∧ ∃ y, y < q ∧ r = some y ∧ x * y % q = 1) ∨ (Nat.gcd x q ≠ 1 ∧ r = none)) := by
  have hx31 : x < 2147483648 := Nat.lt_of_le_of_lt (Nat.le_mul_of_pos_right x (by omega)) hxq
  have hq31 : q < 2147483648 := Nat.lt_of_le_of_lt (Nat.le_mul_of_pos_left q (by omega)) hxq
  have hxq' : (x : Int) * q < 2147483648 := by exact_mod_cast hxq
  unfold inverse
  rw [wp_bind]
  generalize hf : q + 2 = fuel
  have hq1 : 1 ≤ q := by omega
  refine wp_cwhile (EI x q)
    (fun e => e.r2.toNat) ?_ ?_ _ _ ?_ ?_
  · exact fun e h hcond => wp_inverseStep' hxq hx1 hq1 h hcond
  · rintro e ⟨s, a, b, c, d, hs, h⟩ hcond
    simp only [decide_eq_false_iff_not, gt_iff_lt, not_lt] at hcond
    have hr20 : e.r2 = 0 := le_antisymm hcond h.r2
    have hgcd := h.gcd
    rw [hr20, Int.gcd_zero_right, Int.gcd_natCast_natCast] at hgcd
    have hr1 := h.r1
    split
    · next h1 =>
      have hg : Nat.gcd x q = 1 := by rw [← hgcd, h1]; rfl
      have e1 := h.e1
      rw [h1] at e1
      rw [toI32_small hq31, toI32_small hx31, wp_bind]
      have hcr : crem e.u1 (q : Int) = .ok (e.u1.tmod q) := by
        unfold crem; rw [if_neg (by omega)]
      rw [hcr, wp_ok]
      -- the final value is the representative of u1 modulo q
      have hval : (if e.u1.tmod q < 0 then toI32 (u32 (toU32 (e.u1.tmod q) + q) : Nat)
          else e.u1.tmod q) = e.u1 % q := by
        have hlt : e.u1.tmod q < q := Int.tmod_lt_of_pos _ (by omega)
        have hgt : -(q : Int) < e.u1.tmod q := by
          have := Int.tmod_eq_emod (a := e.u1) (b := q)
          have h8 := Int.emod_nonneg e.u1 (show (q : Int) ≠ 0 by omega)
          have h9 := Int.emod_lt_of_pos e.u1 (show (0 : Int) < q by omega)
          split at this <;> simp at this <;> omega
        have hem : (e.u1.tmod q) % q = e.u1 % q := by
          rw [Int.tmod_eq_emod]
          split
          · simp
          · simp
        split
        · next hneg =>
          rw [← hem]
          generalize e.u1.tmod q = t at *
          have h5 : t % q = t + q := by
            rw [← Int.add_emod_right, Int.emod_eq_of_lt (by omega) (by omega)]
          rw [h5]
          unfold toI32 u32 toU32
          omega
        · next hpos =>
          rw [← hem, Int.emod_eq_of_lt (by omega) (by omega)]
      simp only [hval]
      have hy0 := Int.emod_nonneg e.u1 (show (q : Int) ≠ 0 by omega)
      have hy1 := Int.emod_lt_of_pos e.u1 (show (0 : Int) < q by omega)
      have hmul : ((x : Int) * (e.u1 % q)) % q = 1 := by
        rw [Int.mul_emod, Int.emod_emod, ← Int.mul_emod]
        have : (x : Int) * e.u1 = 1 + q * (- e.v1) := by linarith
        rw [this, Int.add_mul_emod_self_left]
        exact Int.emod_eq_of_lt (by omega) (by omega)
      generalize e.u1 % q = y at *
      obtain ⟨y', rfl⟩ := Int.eq_ofNat_of_zero_le hy0
      have hb : (x : Int) * y' ≤ x * q := mul_le_mul_of_nonneg_left (by omega) (by omega)
      have hb0 : (0 : Int) ≤ x * y' := mul_nonneg (by omega) (by omega)
      rw [wp_bind]
      refine wp_i32 ⟨by omega, by omega⟩ ?_
      rw [wp_bind]
      have hcr : crem ((x : Int) * y') q = .ok 1 := by
        unfold crem
        rw [if_neg (by omega), Int.tmod_eq_emod_of_nonneg hb0, hmul]
      rw [hcr, wp_ok, wp_bind]
      refine wp_cassert (by simp) ?_
      rw [wp_pure]
      left
      refine ⟨hg, y', by omega, ?_, by exact_mod_cast hmul⟩
      unfold toU32
      congr 1
      omega
    · next h1 =>
      rw [wp_pure]
      right
      refine ⟨?_, rfl⟩
      rw [← hgcd]; omega
  · show (toI32 q).toNat < fuel
    rw [toI32_small hq31]; omega
  · refine ⟨1, 1, 0, 0, 1, Or.inl rfl, ?_⟩
    rw [toI32_small hq31, toI32_small hx31]
    exact ⟨rfl, rfl, rfl, rfl, by omega, by omega, by omega, by omega, by simp only; omega, by simp,
      by simp, by simp, by simp, by simp, rfl⟩

/-! ### logtwo -/

theorem wp_logtwo {E : Err → Prop} {n : Nat} (h0 : 0 < n) (h1 : n < 4294967296) :
    Wp E (logtwo n) (fun r => (∃ k, n = 2 ^ k ∧ r = some k) ∨ ((∀ k, n ≠ 2 ^ k) ∧ r = none)) := by
  unfold logtwo
  rw [wp_bind]
  refine wp_cwhile (fun (st : Nat × Nat) => 2 ^ st.1 * st.2 = n ∧ 0 < st.2 ∧ st.1 ≤ 31)
    (fun st => 32 - st.1) ?_ ?_ _ _ ?_ ?_
  · rintro ⟨l, m⟩ ⟨h2, h3, h4⟩ hc
    simp only [decide_eq_true_eq, land_one] at hc h2 h3 h4
    have he : 2 ^ (l + 1) * (m / 2) = n := by
      rw [← h2, pow_succ, mul_assoc]; congr 1; omega
    have hl : l + 1 ≤ 31 := by
      by_contra hcon
      have : l = 31 := by omega
      subst this
      have : 1 ≤ m / 2 := by omega
      have : 2 ^ (31 + 1) * 1 ≤ 2 ^ (31 + 1) * (m / 2) := Nat.mul_le_mul_left _ this
      rw [he] at this
      norm_num at this
      omega
    have hu : u32 (l + 1) = l + 1 := by unfold u32; omega
    simp only [wp_pure, hu]
    exact ⟨⟨he, by omega, hl⟩, by omega⟩
  · rintro ⟨l, m⟩ ⟨h2, h3, h4⟩ hc
    simp only [decide_eq_false_iff_not, land_one] at hc h2 h3 h4
    split
    · next h =>
      simp only at h
      subst h
      rw [wp_pure]
      left
      exact ⟨l, by omega, rfl⟩
    · next h =>
      simp only at h
      rw [wp_pure]
      right
      refine ⟨?_, rfl⟩
      intro k hk
      rw [hk] at h2
      -- an odd number > 1 does not divide a power of two
      have hodd : Nat.Coprime m 2 := by
        rw [Nat.coprime_two_right, Nat.odd_iff]; omega
      have hd : m ∣ 2 ^ k := ⟨2 ^ l, by rw [← h2]; ring⟩
      exact h (Nat.Coprime.eq_one_of_dvd (Nat.Coprime.pow_right k hodd) hd)
  · show 32 - 0 < 34; omega
  · exact ⟨by simp, h0, by simp⟩

theorem logtwo_pow {k : Nat} (hk : k ≤ 31) : logtwo (2 ^ k) = .ok (some k) := by
  refine total_eq ((wp_logtwo (Nat.two_pow_pos k) ?_).mono ?_)
  · calc 2 ^ k ≤ 2 ^ 31 := Nat.pow_le_pow_right (by omega) hk
      _ < _ := by norm_num
  · rintro r (⟨k', h1, h2⟩ | ⟨h, _⟩)
    · rw [Nat.pow_right_injective (le_refl 2) h1, h2]
    · exact absurd rfl (h k)

theorem logtwo_none {n : Nat} (h0 : 0 < n) (h1 : n < 4294967296) (h : ∀ k, n ≠ 2 ^ k) :
    logtwo n = .ok none := by
  refine total_eq ((wp_logtwo h0 h1).mono ?_)
  rintro r (⟨k', h2, _⟩ | ⟨_, h3⟩)
  · exact absurd h2 (h k')
  · exact h3

/-! ### reverse -/

theorem wp_reverse {E : Err → Prop} {i k : Nat} (hk : k ≤ 32) :
    Wp E (reverse i k) (fun r => r = rev k i) := by
  unfold reverse
  rw [wp_bind]
  refine wp_forUp1 (fun j (st : Nat × Nat) => st.1 = rev j (i % 2 ^ j) ∧ st.2 = i / 2 ^ j)
    (by omega) (by omega) ?_ ?_ ?_
  · simp [rev]
  · rintro j ⟨r, i'⟩ _ hj ⟨h1, h2⟩
    simp only at h1 h2
    subst h1 h2
    simp only [wp_pure]
    have hr := rev_lt j (i % 2 ^ j)
    have hp : 2 ^ j ≤ 2 ^ 31 := Nat.pow_le_pow_right (by omega) (by omega)
    have hu : u32 (2 * rev j (i % 2 ^ j)) = 2 * rev j (i % 2 ^ j) := by
      unfold u32
      refine Nat.mod_eq_of_lt ?_
      norm_num at hp; omega
    refine ⟨?_, ?_⟩
    · rw [hu, land_one]
      have e1 : i % 2 ^ (j + 1) = (i / 2 ^ j % 2) * 2 ^ j + i % 2 ^ j := by
        rw [Nat.pow_succ, Nat.mod_mul]; ring
      rw [e1, rev_high j _ _ (by omega) (Nat.mod_lt _ (Nat.two_pow_pos j))]
      have := Nat.two_pow_add_eq_or_of_lt (i := 1) (b := i / 2 ^ j % 2) (by omega) (rev j (i % 2 ^ j))
      rw [pow_one] at this
      exact this.symm
    · rw [Nat.div_div_eq_div_mul, Nat.pow_succ]
  · rintro ⟨r, i'⟩ ⟨h1, _⟩
    simp only at h1
    simp only [wp_pure]
    rw [h1]
    -- the reversal only depends on the low k bits
    have e := Nat.div_add_mod i (2 ^ k)
    have := rev_append k 0 (i / 2 ^ k) (i % 2 ^ k) (Nat.mod_lt _ (Nat.two_pow_pos k))
    rw [show i / 2 ^ k * 2 ^ k + i % 2 ^ k = i by rw [mul_comm]; exact e] at this
    simp only [Nat.add_zero, pow_zero, mul_one, rev] at this
    exact this.symm

theorem reverse_eq {i k : Nat} (hk : k ≤ 32) : reverse i k = .ok (rev k i) :=
  total_eq (wp_reverse hk)

/-! ### is_primitive_root -/

theorem wp_is_primitive_root {E : Err → Prop} {x n q : Nat} (hn : n < 4294967296) (h1n : 1 ≤ n)
    (hq : 2 ≤ q) (hq' : q ≤ 65536) (hx : x < 65536) :
    Wp E (is_primitive_root x n q) (fun b =>
      b = true ↔ (x ^ n % q = 1 ∧ ∀ i, 1 ≤ i → i < n → x ^ i % q ≠ 1)) := by
  unfold is_primitive_root
  rw [wp_bind]
  refine wp_forUp1 (fun i (f : Bool) => f = true ↔ ∃ j, 1 ≤ j ∧ j < i ∧ x ^ j % q = 1)
    hn h1n ?_ ?_ ?_
  · simp only [Bool.false_eq_true, false_iff, not_exists]
    rintro j ⟨h1, h2, _⟩; omega
  · intro i f hi1 hin hf
    split
    · next hft =>
      simp only [wp_pure, true_iff]
      obtain ⟨j, h1, h2, h3⟩ := hf.1 hft
      exact ⟨j, h1, by omega, h3⟩
    · next hff =>
      rw [wp_bind]
      refine (wp_power hq hq' hx (by omega)).mono ?_
      rintro p rfl
      simp only [wp_pure, decide_eq_true_eq]
      constructor
      · intro h; exact ⟨i, hi1, by omega, h⟩
      · rintro ⟨j, h1, h2, h3⟩
        rcases Nat.lt_or_ge j i with h | h
        · exact absurd (hf.2 ⟨j, h1, h, h3⟩) hff
        · have : j = i := by omega
          rwa [this] at h3
  · intro f hf
    split
    · next hft =>
      obtain ⟨j, h1, h2, h3⟩ := hf.1 hft
      simp only [wp_pure, Bool.false_eq_true, false_iff, not_and]
      intro _ h
      exact h j h1 h2 h3
    · next hff =>
      rw [wp_bind]
      refine (wp_power hq hq' hx hn).mono ?_
      rintro p rfl
      simp only [wp_pure, decide_eq_true_eq]
      constructor
      · intro h
        refine ⟨h, fun i h1 h2 h3 => hff (hf.2 ⟨i, h1, h2, h3⟩)⟩
      · exact fun h => h.1

end Tables
