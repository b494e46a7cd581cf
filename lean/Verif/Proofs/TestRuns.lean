import Verif.Proofs.TestPrograms

/-
Runs of the tests of the test programs on a correct library.
-/

namespace TestProg
open C Spec NTT

/-- Ranges of the inputs and outputs of the transforms of a library. -/
def Variant.lo : Variant → Int
  | .naive => -12288
  | .exact => 0
  | .red => -21499
def Variant.hi : Variant → Int
  | .naive => 12288
  | .exact => 12288
  | .red => 21499
def Variant.lo' : Variant → Int
  | .naive => -12288
  | .exact => 0
  | .red => -2147483648
def Variant.hi' : Variant → Int
  | .naive => 12288
  | .exact => 12288
  | .red => 2147483647
/-- Lower bound for the results of the products. -/
def Variant.plo : Variant → Int
  | .naive => -12288
  | _ => 0

/-- A transform in the terms of the variant. -/
def Transform (v : Variant) (k : Nat) (ω : Zq) (std2rev : Bool) (f : Array Int → M (Array Int)) : Prop :=
  if std2rev then Std2Rev k ω 1 1 v.lo v.hi v.lo' v.hi' f
  else Rev2Std k ω 1 1 v.lo v.hi v.lo' v.hi' f

/-- A correct library. -/
structure LibOK (k : Nat) (ψ : Zq) (L : Lib) : Prop where
  k_le : k ≤ 13
  psi : ψ ^ 2 ^ k = -1
  n : L.n = 2 ^ k
  shuffle : ∀ a : Array Int, a.size = 2 ^ k →
    Ntt.shuffle_with_table a L.bitrev L.npairs = Ntt.bitrev_shuffle a (2 ^ k)
  omega : (0 ≤ L.omega ∧ L.omega ≤ 12288) ∧ (L.omega : Zq) = ψ ^ 2
  inv_omega : (0 ≤ L.inv_omega ∧ L.inv_omega ≤ 12288) ∧ (L.inv_omega : Zq) = (ψ ^ 2)⁻¹
  inv_n : (0 ≤ L.inv_n ∧ L.inv_n ≤ 12288) ∧ (L.inv_n : Zq) = (2 ^ k : Zq)⁻¹
  rev2std : ∀ f ∈ [L.ct_rev2std, L.gs_rev2std], Transform L.variant k (ψ ^ 2) false f
  std2rev : ∀ f ∈ [L.ct_std2rev, L.gs_std2rev], Transform L.variant k (ψ ^ 2) true f
  inv_rev2std : ∀ f ∈ [L.inv_ct_rev2std, L.inv_gs_rev2std], Transform L.variant k (ψ ^ 2)⁻¹ false f
  inv_std2rev : ∀ f ∈ [L.inv_ct_std2rev, L.inv_gs_std2rev], Transform L.variant k (ψ ^ 2)⁻¹ true f
  products : ∀ f ∈ [L.product1, L.product2, L.product3, L.product4, L.product5],
    ∀ c a b : Array Int, c.size = 2 ^ k → a.size = 2 ^ k → b.size = 2 ^ k → Reduced a → Reduced b →
    ∃ c' a' b', f c a b = .ok (c', a', b') ∧ c'.size = 2 ^ k ∧ InRange L.variant.plo 12288 c' ∧
      ∀ i, i < 2 ^ k → coeff c' i = negacyclic (2 ^ k) (coeff a) (coeff b) i

theorem scaledNtt_one (n : Nat) (ω : Zq) (A : Nat → Zq) (i : Nat) :
    scaledNtt n ω 1 1 A i = ntt n ω A i := by
  unfold scaledNtt
  simp only [one_pow, mul_one, one_mul]

theorem reduced_range {a : Array Int} (h : Reduced a) (v : Variant) : InRange v.lo v.hi a := by
  intro i hi
  have := h i hi
  cases v <;> simp only [Variant.lo, Variant.hi] <;> omega

theorem run_shuffle {k : Nat} (hk : k ≤ 31) {a : Array Int} (ha : a.size = 2 ^ k) :
    ∃ a', Ntt.bitrev_shuffle a (2 ^ k) = .ok a' ∧ a'.size = 2 ^ k ∧
      ∀ i, i < 2 ^ k → elt a' i = elt a (rev k i) := by
  obtain ⟨a', e, s, v⟩ := wp_total.1 (Ntt.wp_bitrev_shuffle hk a ha)
  refine ⟨a', e, s, fun i hi => ?_⟩
  have := v i hi
  rw [some_elt (by omega), some_elt (by have := rev_lt k i; omega)] at this
  exact Option.some.inj this

/-- `normalize` keeps the coefficients. -/
theorem run_norm {n : Nat} (hn : n < 4294967296) {a : Array Int} (ha : a.size = n) :
    ∃ a', NttRed.normalize a n = .ok a' ∧ a'.size = n ∧ Reduced a' ∧
      ∀ i, i < n → coeff a' i = coeff a i := by
  obtain ⟨a', e, s, v⟩ := NttRed.run_normalize hn ha
  refine ⟨a', e, s, fun i hi => ?_, fun i hi => ?_⟩
  · rw [v i (by omega)]; omega
  · unfold coeff; rw [zq_eq_iff, v i hi]; omega

/-- `shift_array` keeps the coefficients. -/
theorem run_shift {n : Nat} (hn : n < 4294967296) {a : Array Int} (ha : a.size = n)
    (hr : Reduced a) :
    ∃ a', NttRed.shift_array a n = .ok a' ∧ a'.size = n ∧ InRange (-6144) 6144 a' ∧
      ∀ i, i < n → coeff a' i = coeff a i := by
  obtain ⟨a', e, s, v⟩ := NttRed.run_shift_array hn ha (fun i hi => by
    have := hr i (by omega); constructor <;> omega)
  refine ⟨a', e, s, fun i hi => ?_, fun i hi => ?_⟩
  · have := hr i (by omega); rw [v i (by omega)]; split <;> omega
  · unfold coeff; rw [zq_eq_iff, v i hi]; split <;> omega

section
variable {k : Nat} {ψ : Zq} {L : Lib} (hL : LibOK k ψ L)
include hL

theorem LibOK.lt : 2 ^ k < 2147483648 := by
  have := Nat.pow_le_pow_right (show 0 < 2 by decide) hL.k_le; omega

theorem LibOK.le : 2 ^ k ≤ 8192 := by
  have := Nat.pow_le_pow_right (show 0 < 2 by decide) hL.k_le; omega

/-- A transform followed or preceded by the shuffle, on a canonical array. -/
theorem run_apply {ω : Zq} {std2rev : Bool} {f : Array Int → M (Array Int)}
    (hf : Transform L.variant k ω std2rev f) {a : Array Int} (ha : a.size = 2 ^ k) (hr : Reduced a) :
    ∃ a1 a', apply_ntt L a f std2rev = .ok a1 ∧ fixSigns L a1 = .ok a' ∧ a'.size = 2 ^ k ∧
      Reduced a' ∧ ∀ i, i < 2 ^ k → coeff a' i = ntt (2 ^ k) ω (coeff a) i := by
  have hlt := hL.lt
  have hk31 : k ≤ 31 := by have := hL.k_le; omega
  -- the transform and the shuffle on an array in range
  have core : ∀ b : Array Int, b.size = 2 ^ k → InRange L.variant.lo L.variant.hi b →
      (∀ i, i < 2 ^ k → coeff b i = coeff a i) →
      (std2rev = true → ∃ b1 b2, f b = .ok b1 ∧
        Ntt.shuffle_with_table b1 L.bitrev L.npairs = .ok b2 ∧ b2.size = 2 ^ k ∧
        InRange L.variant.lo' L.variant.hi' b2 ∧
        ∀ i, i < 2 ^ k → coeff b2 i = ntt (2 ^ k) ω (coeff a) i) ∧
      (std2rev = false → ∃ b1 b2, Ntt.shuffle_with_table b L.bitrev L.npairs = .ok b1 ∧
        f b1 = .ok b2 ∧ b2.size = 2 ^ k ∧ InRange L.variant.lo' L.variant.hi' b2 ∧
        ∀ i, i < 2 ^ k → coeff b2 i = ntt (2 ^ k) ω (coeff a) i) := by
    intro b hb hbr hbv
    constructor
    · rintro rfl
      unfold Transform at hf
      rw [if_pos rfl] at hf
      obtain ⟨b1, e1, s1, r1, v1⟩ := hf b hb hbr
      obtain ⟨b2, e2, s2, v2⟩ := run_shuffle hk31 s1
      refine ⟨b1, b2, e1, (hL.shuffle b1 s1).trans e2, s2, fun i hi => ?_, fun i hi => ?_⟩
      · rw [v2 i (by omega)]; exact r1 _ (by have := rev_lt k i; omega)
      · unfold coeff; rw [v2 i hi]
        have := v1 (rev k i) (rev_lt k i)
        unfold coeff at this
        rw [this, scaledNtt_one, rev_rev k i hi]
        exact ntt_congr hbv i
    · rintro rfl
      unfold Transform at hf
      rw [if_neg Bool.false_ne_true] at hf
      obtain ⟨b1, e1, s1, v1⟩ := run_shuffle hk31 hb
      obtain ⟨b2, e2, s2, r2, v2⟩ := hf b1 s1 (fun i hi => by
        rw [v1 i (by omega)]; exact hbr _ (by have := rev_lt k i; omega))
      refine ⟨b1, b2, (hL.shuffle b hb).trans e1, e2, s2, r2, fun i hi => ?_⟩
      rw [v2 i hi, scaledNtt_one]
      refine ntt_congr (fun l hl => ?_) i
      rw [← hbv l hl]
      unfold coeff
      rw [v1 _ (rev_lt k l), rev_rev k l hl]
  have hn := hL.n
  cases hv : L.variant with
  | red =>
    obtain ⟨b, eb, sb, rb, vb⟩ := run_shift (n := 2 ^ k) (by omega) ha hr
    have hcore := core b sb (fun i hi => by
      have := rb i hi; rw [hv]; simp only [Variant.lo, Variant.hi]; omega) vb
    cases std2rev with
    | true =>
      obtain ⟨b1, b2, e1, e2, s2, r2, v2⟩ := hcore.1 rfl
      obtain ⟨b3, e3, s3, r3, v3⟩ := run_norm (n := 2 ^ k) (by omega) s2
      refine ⟨b3, b3, ?_, ?_, s3, r3, fun i hi => by rw [v3 i hi, v2 i hi]⟩
      · unfold apply_ntt; rw [hv]
        simp only [if_true]
        rw [hn, eb, ok_bind, e1, ok_bind, e2, ok_bind, e3]
      · unfold fixSigns; rw [hv]; rfl
    | false =>
      obtain ⟨b1, b2, e1, e2, s2, r2, v2⟩ := hcore.2 rfl
      obtain ⟨b3, e3, s3, r3, v3⟩ := run_norm (n := 2 ^ k) (by omega) s2
      refine ⟨b3, b3, ?_, ?_, s3, r3, fun i hi => by rw [v3 i hi, v2 i hi]⟩
      · unfold apply_ntt; rw [hv]
        simp only [Bool.false_eq_true, if_false]
        rw [hn, eb, ok_bind, e1, ok_bind, e2, ok_bind, e3]
      · unfold fixSigns; rw [hv]; rfl
  | exact =>
    have hcore := core a ha (reduced_range hr _) (fun _ _ => rfl)
    cases std2rev with
    | true =>
      obtain ⟨b1, b2, e1, e2, s2, r2, v2⟩ := hcore.1 rfl
      rw [hv] at r2
      refine ⟨b2, b2, ?_, ?_, s2, r2, v2⟩
      · unfold apply_ntt; rw [hv]
        simp only [if_true]
        rw [e1, ok_bind, e2]
      · unfold fixSigns; rw [hv]; rfl
    | false =>
      obtain ⟨b1, b2, e1, e2, s2, r2, v2⟩ := hcore.2 rfl
      rw [hv] at r2
      refine ⟨b2, b2, ?_, ?_, s2, r2, v2⟩
      · unfold apply_ntt; rw [hv]
        simp only [Bool.false_eq_true, if_false]
        rw [e1, ok_bind, e2]
      · unfold fixSigns; rw [hv]; rfl
  | naive =>
    have hcore := core a ha (reduced_range hr _) (fun _ _ => rfl)
    cases std2rev with
    | true =>
      obtain ⟨b1, b2, e1, e2, s2, r2, v2⟩ := hcore.1 rfl
      rw [hv] at r2
      obtain ⟨b3, e3, s3, r3, v3⟩ := run_add_q (n := 2 ^ k) (by omega) s2 r2
      refine ⟨b2, b3, ?_, ?_, s3, r3, fun i hi => by rw [v3 i hi, v2 i hi]⟩
      · unfold apply_ntt; rw [hv]
        simp only [if_true]
        rw [e1, ok_bind, e2]
      · unfold fixSigns; rw [hv, hn]; exact e3
    | false =>
      obtain ⟨b1, b2, e1, e2, s2, r2, v2⟩ := hcore.2 rfl
      rw [hv] at r2
      obtain ⟨b3, e3, s3, r3, v3⟩ := run_add_q (n := 2 ^ k) (by omega) s2 r2
      refine ⟨b2, b3, ?_, ?_, s3, r3, fun i hi => by rw [v3 i hi, v2 i hi]⟩
      · unfold apply_ntt; rw [hv]
        simp only [Bool.false_eq_true, if_false]
        rw [e1, ok_bind, e2]
      · unfold fixSigns; rw [hv, hn]; exact e3

/-- `test_simple_polys` succeeds for a correct transform. -/
theorem run_test_simple_polys {w : World} (hw : WorldOK (2 ^ k) w) {om : Int} {ω' : Zq}
    (hom : 0 ≤ om ∧ om ≤ 12288) (hω : 0 < k → (om : Zq) ^ 2 ^ (k - 1) = -1)
    (hinv : (om : Zq) * ω' = 1) (h1 : (om : Zq) ^ 2 ^ k = 1)
    {std2rev : Bool} {f : Array Int → M (Array Int)}
    (hf : Transform L.variant k (om : Zq) std2rev f) (c : Nat) :
    test_simple_polys L w f om std2rev c = .ok (c + 1) := by
  have hlt := hL.lt
  have hle := hL.le
  have hn := hL.n
  have step : ∀ j a, j < 2 ^ k → a.size = 2 ^ k →
      ∃ a', test_simple_poly L f om std2rev j a = .ok a' ∧ a'.size = 2 ^ k := by
    intro j a hj ha
    obtain ⟨b, eb, hb⟩ := run_simple_poly (n := 2 ^ k) (by omega) hj ha
    obtain ⟨c1, c2, e1, e2, s2, r2, v2⟩ := run_apply hL hf hb.1 hb.reduced
    obtain ⟨t1, et1, ht1⟩ := run_check_ntt_simple (n := 2 ^ k) (k := j) (by omega) hj s2 hom
    have ht1 : t1 = true := ht1.2 ⟨r2, fun i hi => by rw [v2 i hi]; exact ntt_congr hb.coeff i⟩
    obtain ⟨d1, d2, e3, e4, s4, r4, v4⟩ := run_apply hL hf s2 r2
    obtain ⟨t2, et2, ht2⟩ := run_check_ntt_ntt_simple (n := 2 ^ k) (k := j) (by omega) hj s4
      (fun i hi => by have := r4 i (by omega); exact ⟨by omega, by omega⟩)
    have ht2 : t2 = true := by
      refine ht2.2 fun i hi => ?_
      have hv : coeff d2 i = 2 ^ k * mono j (opp (2 ^ k) i) := by
        rw [v4 i hi, ntt_congr v2 i, ← ntt_twice hω hinv h1 _ hi]
        exact ntt_congr (fun l _ => ntt_congr hb.coeff l) i
      have hr := r4 i (by omega)
      unfold coeff mono at hv
      have hoi := opp_iff hi hj
      by_cases h : i = opp (2 ^ k) j
      · rw [if_pos h]
        rw [if_pos (hoi.2 h), mul_one] at hv
        have : ((elt d2 i : Int) : Zq) = (((2 ^ k : Nat) : Int) : Zq) := by rw [hv]; push_cast; rfl
        rw [zq_eq_iff] at this
        omega
      · rw [if_neg h]
        rw [if_neg (fun hh => h (hoi.1 hh)), mul_zero] at hv
        have : ((elt d2 i : Int) : Zq) = ((0 : Int) : Zq) := by rw [hv]; push_cast; rfl
        rw [zq_eq_iff] at this
        omega
    subst ht1 ht2
    refine ⟨d2, ?_, s4⟩
    unfold test_simple_poly
    rw [hn, eb, ok_bind, e1, ok_bind, e2, ok_bind, et1, ok_bind]
    simp only [Bool.not_true, Bool.false_eq_true, if_false]
    rw [e3, ok_bind, e4, ok_bind, et2, ok_bind]
    rfl
  unfold test_simple_polys
  obtain ⟨a', e, _⟩ := wp_total.1 (wp_forUp1 (E := NoErr) (lo := 0) (hi := 2 ^ k)
    (body := test_simple_poly L f om std2rev) (s := w.junk c) (fun _ a => a.size = 2 ^ k) (by omega)
    (Nat.zero_le _) (hw.junk c) (fun j a _ hj ha => wp_total.2 (step j a hj ha)) (P := fun _ => True)
    (fun _ _ => trivial))
  rw [hn, e]
  rfl

/-- `check_inverse` succeeds when one function inverts the other up to the factor `n`. -/
theorem run_check_inverse {b1 b2 : Bool} {ω1 ω2 : Zq} {f g : Array Int → M (Array Int)}
    (hf : Transform L.variant k ω1 b1 f) (hg : Transform L.variant k ω2 b2 g) (hb : b2 = !b1)
    (hω : 0 < k → ω1 ^ 2 ^ (k - 1) = -1) (hinv : ω1 * ω2 = 1)
    {a b : Array Int} (ha : a.size = 2 ^ k) (hr : Reduced a) (hbs : b.size = 2 ^ k) :
    check_inverse L a b f g = .ok () := by
  have hlt := hL.lt
  have hn := hL.n
  obtain ⟨c, ec, sc, vc⟩ := run_fill (n := 2 ^ k) (by omega) hbs (fun i => elt a i)
    (body := fun i b => do let x ← rd a i; wr b i x) (fun i b hi hs => by
      simp only [rd, some_elt (show i < a.size by omega)]
      exact wr_ok (by omega))
  have hca : c = a := by
    apply Array.ext_getElem?
    intro i
    by_cases hi : i < 2 ^ k
    · rw [some_elt (by omega), some_elt (by omega), vc i hi]
    · rw [Array.getElem?_eq_none (by omega), Array.getElem?_eq_none (by omega)]
  subst hca
  -- the two transforms: arrays in range with the right coefficients
  have both : ∀ b0 : Array Int, b0.size = 2 ^ k → InRange L.variant.lo L.variant.hi b0 →
      (∀ i, i < 2 ^ k → coeff b0 i = coeff c i) →
      ∃ b1, f b0 = .ok b1 ∧ b1.size = 2 ^ k ∧ InRange L.variant.lo' L.variant.hi' b1 ∧
        ∀ d : Array Int, d.size = 2 ^ k → InRange L.variant.lo L.variant.hi d →
          (∀ i, i < 2 ^ k → coeff d i = coeff b1 i) →
          ∃ b2, g d = .ok b2 ∧ b2.size = 2 ^ k ∧ InRange L.variant.lo' L.variant.hi' b2 ∧
            ∀ i, i < 2 ^ k → coeff b2 i = 2 ^ k * coeff c i := by
    intro b0 hb0 hr0 hv0
    subst hb
    cases b1 with
    | true =>
      obtain ⟨c1, e1, s1, r1, v1⟩ := (show Std2Rev k ω1 1 1 _ _ _ _ f from hf) b0 hb0 hr0
      refine ⟨c1, e1, s1, r1, fun d sd rd' vd => ?_⟩
      obtain ⟨c2, e2, s2, r2, v2⟩ := (show Rev2Std k ω2 1 1 _ _ _ _ g from hg) d sd rd'
      refine ⟨c2, e2, s2, r2, fun i hi => ?_⟩
      rw [v2 i hi, scaledNtt_one, ← ntt_ntt two_ne_zero_Zq hω hinv (coeff c) hi]
      refine ntt_congr (fun l hl => ?_) i
      rw [vd _ (rev_lt k l), v1 _ (rev_lt k l), scaledNtt_one, rev_rev k l hl]
      exact ntt_congr hv0 l
    | false =>
      obtain ⟨c1, e1, s1, r1, v1⟩ := (show Rev2Std k ω1 1 1 _ _ _ _ f from hf) b0 hb0 hr0
      refine ⟨c1, e1, s1, r1, fun d sd rd' vd => ?_⟩
      obtain ⟨c2, e2, s2, r2, v2⟩ := (show Std2Rev k ω2 1 1 _ _ _ _ g from hg) d sd rd'
      refine ⟨c2, e2, s2, r2, fun i hi => ?_⟩
      rw [v2 i hi, scaledNtt_one, ntt_congr (fun l hl => (vd l hl).trans ((v1 l hl).trans
        (scaledNtt_one _ _ _ _))), ntt_ntt two_ne_zero_Zq hω hinv _ (rev_lt k i), rev_rev k i hi,
        hv0 i hi]
  have h2 : (2 ^ k : Zq) * (2 ^ k : Zq)⁻¹ = 1 := mul_inv_cancel₀ (pow_ne_zero k two_ne_zero_Zq)
  -- the end: an array equal to `a`
  have fin : ∀ d : Array Int, d.size = 2 ^ k → Reduced d → (∀ i, i < 2 ^ k → coeff d i = coeff c i) →
      (do let e ← equal_arrays c d (2 ^ k); if !e then .error .abort else pure () : M Unit) = .ok () := by
    intro d hd hrd hvd
    have : d = c := reduced_ext (by omega) hrd hr fun i hi => hvd i (by omega)
    subst this
    obtain ⟨e, he, hiff⟩ := run_equal_arrays (n := 2 ^ k) (by omega) hd hd
    rw [he, ok_bind, hiff.2 rfl]
    rfl
  unfold check_inverse
  rw [hn, ec, ok_bind]
  cases hv : L.variant with
  | exact =>
    rw [hv] at both
    obtain ⟨d1, e1, s1, r1, hnext⟩ := both c ha (reduced_range hr _) (fun _ _ => rfl)
    obtain ⟨d2, e2, s2, r2, v2⟩ := hnext d1 s1 r1 (fun _ _ => rfl)
    obtain ⟨d3, e3, s3, r3, v3⟩ := Ntt.run_scalar_mul_array (n := 2 ^ k) (by omega) s2 r2 hL.inv_n.1
    simp only [e1, e2, e3, ok_bind]
    refine fin d3 s3 r3 fun i hi => ?_
    rw [v3 i hi, v2 i hi, hL.inv_n.2]
    linear_combination coeff c i * h2
  | naive =>
    rw [hv] at both
    obtain ⟨d1, e1, s1, r1, hnext⟩ := both c ha (reduced_range hr _) (fun _ _ => rfl)
    obtain ⟨d2, e2, s2, r2, v2⟩ := hnext d1 s1 r1 (fun _ _ => rfl)
    obtain ⟨d3, e3, s3, v3⟩ := Naive.run_scalar_mul_array (n := 2 ^ k) (by omega) s2 r2
      (c := L.inv_n) ⟨by have := hL.inv_n.1; omega, hL.inv_n.1.2⟩
    obtain ⟨d4, e4, s4, r4, v4⟩ := run_add_q (n := 2 ^ k) (by omega) s3 (Naive.small_of_tmod s3 v3)
    simp only [e1, e2, e3, e4, ok_bind]
    refine fin d4 s4 r4 fun i hi => ?_
    rw [v4 i hi, Naive.coeff_mul (v3 i hi), hL.inv_n.2]
    show coeff d2 i * _ = _
    rw [v2 i hi]
    linear_combination coeff c i * h2
  | red =>
    rw [hv] at both
    have sh : ∀ d : Array Int, d.size = 2 ^ k → Reduced d → ∃ d', shiftIf L L.shifts d = .ok d' ∧
        d'.size = 2 ^ k ∧ InRange Variant.red.lo Variant.red.hi d' ∧
        ∀ i, i < 2 ^ k → coeff d' i = coeff d i := by
      intro d hd hrd
      unfold shiftIf
      split
      · obtain ⟨d', e', s', r', v'⟩ := run_shift (n := 2 ^ k) (by omega) hd hrd
        refine ⟨d', by rw [hn]; exact e', s', fun i hi => ?_, v'⟩
        have := r' i hi
        simp only [Variant.lo, Variant.hi]; omega
      · exact ⟨d, rfl, hd, reduced_range hrd _, fun _ _ => rfl⟩
    obtain ⟨d0, e0, s0, r0, v0⟩ := sh c ha hr
    obtain ⟨d1, e1, s1, r1, hnext⟩ := both d0 s0 r0 v0
    obtain ⟨d2, e2, s2, r2, v2⟩ := run_norm (n := 2 ^ k) (by omega) s1
    obtain ⟨d3, e3, s3, r3, v3⟩ := sh d2 s2 r2
    obtain ⟨d4, e4, s4, r4, v4⟩ := hnext d3 s3 r3 (fun i hi => by rw [v3 i hi, v2 i hi])
    obtain ⟨d5, e5, s5, r5, v5⟩ := run_norm (n := 2 ^ k) (by omega) s4
    obtain ⟨d6, e6, s6, r6, v6⟩ := Ntt.run_scalar_mul_array (n := 2 ^ k) (by omega) s5 r5 hL.inv_n.1
    simp only [e0, e1, e2, e3, e4, e5, e6, ok_bind]
    refine fin d6 s6 r6 fun i hi => ?_
    rw [v6 i hi, v5 i hi, v4 i hi, hL.inv_n.2]
    linear_combination coeff c i * h2

theorem run_test_forward_inverse {w : World} (hw : WorldOK (2 ^ k) w) {b1 b2 : Bool} {ω1 ω2 : Zq}
    {f g : Array Int → M (Array Int)}
    (hf : Transform L.variant k ω1 b1 f) (hg : Transform L.variant k ω2 b2 g) (hb : b2 = !b1)
    (hω : 0 < k → ω1 ^ 2 ^ (k - 1) = -1) (hinv : ω1 * ω2 = 1) (c : Nat) :
    ∃ c', test_forward_inverse L w f g c = .ok c' := by
  have hlt := hL.lt
  obtain ⟨s, e, _⟩ := wp_total.1 (wp_forUp1 (E := NoErr) (lo := 0) (hi := 1000)
    (body := fun _ (s : Array Int × Nat) => do
      let r ← random_poly w s.1 L.n s.2
      check_inverse L r.1 (w.junk r.2) f g
      pure (r.1, r.2 + 1)) (s := (w.junk c, c + 1)) (fun _ s => s.1.size = 2 ^ k) (by decide)
    (Nat.zero_le _) (hw.junk c) (fun j s _ _ hs => by
      obtain ⟨a, ea, sa, ra⟩ := run_random_poly (n := 2 ^ k) (by omega) hw hs s.2
      refine wp_total.2 ⟨(a, s.2 + 2 ^ k + 1), ?_, sa⟩
      rw [hL.n, ea, ok_bind, run_check_inverse hL hf hg hb hω hinv sa ra (hw.junk _), ok_bind]
      rfl) (P := fun _ => True) (fun _ _ => trivial))
  exact ⟨s.2, by unfold test_forward_inverse; rw [e]; rfl⟩

theorem run_test_simple_product {w : World} (hw : WorldOK (2 ^ k) w)
    {f : Array Int → Array Int → Array Int → M (Array Int × Array Int × Array Int)}
    (hf : f ∈ [L.product1, L.product2, L.product3, L.product4, L.product5]) {i j : Nat}
    (hi : i < 2 ^ k) (hj : j < 2 ^ k) (c : Nat) :
    test_simple_product L w f i j c = .ok (c + 3) := by
  have hlt := hL.lt
  have hn := hL.n
  obtain ⟨a, ea, ha⟩ := run_simple_poly (n := 2 ^ k) (by omega) hi (hw.junk c)
  obtain ⟨b, eb, hb⟩ := run_simple_poly (n := 2 ^ k) (by omega) hj (hw.junk (c + 1))
  obtain ⟨d, a', b', ed, sd, rd', vd⟩ := hL.products f hf (w.junk (c + 2)) a b (hw.junk _) ha.1 hb.1
    ha.reduced hb.reduced
  have fix : ∃ d', fixSigns L d = .ok d' ∧ d'.size = 2 ^ k ∧ Reduced d' ∧
      ∀ l, l < 2 ^ k → coeff d' l = coeff d l := by
    unfold fixSigns
    cases hv : L.variant with
    | naive =>
      rw [hv] at rd'
      rw [hn]
      exact run_add_q (by omega) sd rd'
    | exact => rw [hv] at rd'; exact ⟨d, rfl, sd, rd', fun _ _ => rfl⟩
    | red => rw [hv] at rd'; exact ⟨d, rfl, sd, rd', fun _ _ => rfl⟩
  obtain ⟨d', ed', sd', rd'', vd'⟩ := fix
  obtain ⟨e, ee, he⟩ := run_equal_simple_poly (n := 2 ^ k) hlt hi hj sd'
  have he : e = true := he.2 ⟨rd'', fun l hl => by
    rw [vd' l hl, vd l hl]
    unfold negacyclic
    refine Finset.sum_congr rfl fun x hx => Finset.sum_congr rfl fun y hy => ?_
    rw [ha.coeff x (Finset.mem_range.1 hx), hb.coeff y (Finset.mem_range.1 hy)]⟩
  subst he
  unfold test_simple_product
  rw [hn, ea, ok_bind, eb, ok_bind, ed, ok_bind]
  simp only []
  rw [ed', ok_bind, ee, ok_bind]
  rfl

theorem run_test_simple_products {w : World} (hw : WorldOK (2 ^ k) w)
    {f : Array Int → Array Int → Array Int → M (Array Int × Array Int × Array Int)}
    (hf : f ∈ [L.product1, L.product2, L.product3, L.product4, L.product5]) (c : Nat) :
    ∃ c', test_simple_products L w f c = .ok c' := by
  have hlt := hL.lt
  obtain ⟨s, e, _⟩ := wp_total.1 (wp_forUp1 (E := NoErr) (lo := 0) (hi := 2 ^ k)
    (body := fun n k => forUp 0 L.n 1 (fun m k => test_simple_product L w f n m k) k) (s := c)
    (fun _ _ => True) (by omega) (Nat.zero_le _) trivial (fun i s _ hi _ => by
      rw [hL.n]
      refine wp_forUp1 (fun _ _ => True) (by omega) (Nat.zero_le _) trivial (fun j s _ hj _ => ?_)
        (fun _ _ => trivial)
      exact wp_total.2 ⟨_, run_test_simple_product hL hw hf hi hj s, trivial⟩)
    (P := fun _ => True) (fun _ _ => trivial))
  exact ⟨s, by unfold test_simple_products; rw [← hL.n] at e; exact e⟩

/-- All tests succeed. -/
theorem run_tests {w : World} (hw : WorldOK (2 ^ k) w) (c : Nat) : ∃ c', tests L w c = .ok c' := by
  have hψ := hL.psi
  obtain ⟨p0, -, p1, p2, p3, -⟩ := psi_facts hψ
  have p1' : (ψ ^ 2)⁻¹ * ψ ^ 2 = 1 := by rw [mul_comm]; exact p1
  have o1 : (ψ ^ 2) ^ 2 ^ k = 1 := by rw [← pow_mul, Nat.mul_comm, pow_mul, hψ]; ring
  have o2 : ((ψ ^ 2)⁻¹) ^ 2 ^ k = 1 := by rw [inv_pow, o1, inv_one]
  have A : ∀ f ∈ [L.ct_rev2std, L.gs_rev2std], ∀ c, test_simple_polys L w f L.omega false c = .ok (c + 1) :=
    fun f hf c => run_test_simple_polys hL hw hL.omega.1 (by rw [hL.omega.2]; exact p2)
      (by rw [hL.omega.2]; exact p1) (by rw [hL.omega.2]; exact o1)
      (by rw [hL.omega.2]; exact hL.rev2std f hf) c
  have B : ∀ f ∈ [L.ct_std2rev, L.gs_std2rev], ∀ c, test_simple_polys L w f L.omega true c = .ok (c + 1) :=
    fun f hf c => run_test_simple_polys hL hw hL.omega.1 (by rw [hL.omega.2]; exact p2)
      (by rw [hL.omega.2]; exact p1) (by rw [hL.omega.2]; exact o1)
      (by rw [hL.omega.2]; exact hL.std2rev f hf) c
  have A' : ∀ f ∈ [L.inv_ct_rev2std, L.inv_gs_rev2std], ∀ c,
      test_simple_polys L w f L.inv_omega false c = .ok (c + 1) :=
    fun f hf c => run_test_simple_polys hL hw hL.inv_omega.1 (by rw [hL.inv_omega.2]; exact p3)
      (by rw [hL.inv_omega.2]; exact p1') (by rw [hL.inv_omega.2]; exact o2)
      (by rw [hL.inv_omega.2]; exact hL.inv_rev2std f hf) c
  have B' : ∀ f ∈ [L.inv_ct_std2rev, L.inv_gs_std2rev], ∀ c,
      test_simple_polys L w f L.inv_omega true c = .ok (c + 1) :=
    fun f hf c => run_test_simple_polys hL hw hL.inv_omega.1 (by rw [hL.inv_omega.2]; exact p3)
      (by rw [hL.inv_omega.2]; exact p1') (by rw [hL.inv_omega.2]; exact o2)
      (by rw [hL.inv_omega.2]; exact hL.inv_std2rev f hf) c
  have F : ∀ f ∈ [L.ct_std2rev, L.gs_std2rev], ∀ g ∈ [L.inv_ct_rev2std, L.inv_gs_rev2std], ∀ c,
      ∃ c', test_forward_inverse L w f g c = .ok c' := fun f hf g hg c =>
    run_test_forward_inverse hL hw (hL.std2rev f hf) (hL.inv_rev2std g hg) rfl p2 p1 c
  have G : ∀ f ∈ [L.ct_std2rev, L.gs_std2rev], ∀ g ∈ [L.inv_ct_rev2std, L.inv_gs_rev2std], ∀ c,
      ∃ c', test_forward_inverse L w g f c = .ok c' := fun f hf g hg c =>
    run_test_forward_inverse hL hw (hL.inv_rev2std g hg) (hL.std2rev f hf) rfl p3 p1' c
  have P := fun f hf c => run_test_simple_products (w := w) hL hw (f := f) hf c
  unfold tests
  rw [A _ (by simp), ok_bind, A _ (by simp), ok_bind, B _ (by simp), ok_bind, B _ (by simp), ok_bind,
    A' _ (by simp), ok_bind, A' _ (by simp), ok_bind, B' _ (by simp), ok_bind, B' _ (by simp), ok_bind]
  obtain ⟨_, e⟩ := F L.ct_std2rev (by simp) L.inv_ct_rev2std (by simp) (c + 1 + 1 + 1 + 1 + 1 + 1 + 1 + 1)
  rw [e, ok_bind]
  obtain ⟨_, e⟩ := G L.ct_std2rev (by simp) L.inv_ct_rev2std (by simp) _
  rw [e, ok_bind]
  obtain ⟨_, e⟩ := F L.ct_std2rev (by simp) L.inv_gs_rev2std (by simp) _
  rw [e, ok_bind]
  obtain ⟨_, e⟩ := G L.ct_std2rev (by simp) L.inv_gs_rev2std (by simp) _
  rw [e, ok_bind]
  obtain ⟨_, e⟩ := F L.gs_std2rev (by simp) L.inv_gs_rev2std (by simp) _
  rw [e, ok_bind]
  obtain ⟨_, e⟩ := G L.gs_std2rev (by simp) L.inv_gs_rev2std (by simp) _
  rw [e, ok_bind]
  obtain ⟨_, e⟩ := P L.product1 (by simp) _
  rw [e, ok_bind]
  obtain ⟨_, e⟩ := P L.product2 (by simp) _
  rw [e, ok_bind]
  obtain ⟨_, e⟩ := P L.product3 (by simp) _
  rw [e, ok_bind]
  obtain ⟨_, e⟩ := P L.product4 (by simp) _
  rw [e, ok_bind]
  exact P L.product5 (by simp) _

end

end TestProg
