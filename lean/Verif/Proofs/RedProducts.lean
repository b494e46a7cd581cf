import Verif.Model.RedProducts
import Verif.Proofs.NttRed
import Verif.Proofs.Levels
import Verif.Proofs.Products

/-
Proofs about the products of src/ntt_red<n>.c.
-/

namespace NttRed
open C NTT Spec Tables

theorem ctStep_30717 : ∀ m, m < 11 → CtStep (ctSeq 30717 m) (ctSeq 30717 (m + 1)) := by decide
theorem ctStep_12413 : ∀ m, m < 11 → CtStep (ctSeq 12413 m) (ctSeq 12413 (m + 1)) := by decide
theorem gsStep_mid : ∀ m, m < 10 → GsStep (gsSeq (-18432) 30717 m).1 (gsSeq (-18432) 30717 m).2
    (gsSeq (-18432) 30717 (m + 1)).1 (gsSeq (-18432) 30717 (m + 1)).2 := by decide
theorem gsStep_low : ∀ m, m < 10 → GsStep (gsSeq (-130) 12413 m).1 (gsSeq (-130) 12413 m).2
    (gsSeq (-130) 12413 (m + 1)).1 (gsSeq (-130) 12413 (m + 1)).2 := by decide
theorem ctEnd_mid : ∀ k, k < 12 → ctSeq 30717 k ≤ 2147483647 := by decide
theorem gsEnd_mid : ∀ k, k < 11 → -2147483647 ≤ (gsSeq (-18432) 30717 k).1 ∧
    (gsSeq (-18432) 30717 k).2 ≤ 2147483647 := by decide
theorem ctEnd_low : ∀ k, k < 12 → ctSeq 12413 k ≤ 740000000 := by decide
theorem gsEnd_low : ∀ k, k < 11 → -740000000 ≤ (gsSeq (-130) 12413 k).1 ∧
    (gsSeq (-130) 12413 k).2 ≤ 740000000 := by decide
theorem gsEnd_low9 : ∀ k, k < 10 → -250000000 ≤ (gsSeq (-130) 12413 k).1 ∧
    (gsSeq (-130) 12413 k).2 ≤ 250000000 := by decide

theorem coeff_of_elt {a' : Array Int} {i : Nat} {z : Int} (h : elt a' i = z) : coeff a' i = z := by
  unfold coeff; rw [h]

theorem run_shiftInput {n : Nat} (hn : n < 4294967296) (sh : Bool) {a : Array Int}
    (ha : a.size = n) (hr : Reduced a) :
    ∃ a', shiftInput n sh a = .ok a' ∧ a'.size = n ∧ InRange (-6144) 12288 a' ∧
      ∀ i, i < n → coeff a' i = coeff a i := by
  unfold shiftInput
  cases sh with
  | false => exact ⟨a, rfl, ha, fun i hi => by have := hr i hi; omega, fun _ _ => rfl⟩
  | true =>
    obtain ⟨a', e, s, v⟩ := run_shift_array hn ha (fun i hi => by
      have := hr i (by omega); omega)
    refine ⟨a', e, s, fun i hi => ?_, fun i hi => ?_⟩
    · have := hr i (by omega)
      rw [v i (by omega)]; split <;> omega
    · rw [coeff_of_elt (v i hi)]
      split
      · push_cast; rw [show (12289 : Zq) = 0 by decide]; unfold coeff; ring
      · rfl

/-- Multiplication of an array in `[-6144, 12288]` by a table in `[-6144, 6144]`. -/
theorem run_scale {k : Nat} (hk : k ≤ 31) {s c : Zq} {p a : Array Int}
    (hp : PowTable 3 s c (-6144) 6144 (2 ^ k) p) (ha : a.size = 2 ^ k)
    (hr : InRange (-6144) 12288 a) :
    ∃ a', mul_reduce_array16 a (2 ^ k) p = .ok a' ∧ a'.size = 2 ^ k ∧ InRange (-18432) 30717 a' ∧
      ∀ i, i < 2 ^ k → coeff a' i = coeff a i * (s * c ^ i) := by
  have hn : 2 ^ k < 4294967296 := by have := pow31 hk; omega
  have hm : ∀ i, i < 2 ^ k → -75497472 ≤ elt a i * elt p i ∧ elt a i * elt p i ≤ 75497472 := by
    intro i hi
    have h1 := hr i (by omega)
    exact mul_bound (B := 12288) (W := 6144) ⟨by omega, h1.2⟩ (hp.2 i hi).1
  obtain ⟨a', e, sz, v⟩ := run_mul_reduce_array16 hn ha hp.1 (fun i hi => by
    have := hm i hi; exact ⟨by omega, by omega⟩)
  refine ⟨a', e, sz, fun i hi => ?_, fun i hi => ?_⟩
  · have := hm i (by omega)
    rw [v i (by omega)]
    have hd := red_def (elt a i * elt p i)
    omega
  · rw [coeff_of_elt (v i hi), red_zq, ← (hp.2 i hi).2]
    push_cast; unfold coeff; ring

theorem run_reduce {n : Nat} (hn : n < 4294967296) {a : Array Int} {F : Nat → Zq} (ha : a.size = n)
    (hr : InRange (-2147483648) 2147483647 a) (hF : ∀ i, i < n → coeff a i = F i) :
    ∃ a', reduce_array a n = .ok a' ∧ a'.size = n ∧ InRange (-524287) 536573 a' ∧
      ∀ i, i < n → coeff a' i = 3 * F i := by
  obtain ⟨a', e, s, v⟩ := run_reduce_array hn ha (fun i hi => hr i (by omega))
  refine ⟨a', e, s, fun i hi => ?_, fun i hi => ?_⟩
  · rw [v i (by omega)]; exact red_i32 (hr i (by omega))
  · rw [coeff_of_elt (v i hi), red_zq, ← hF i hi]; rfl

theorem run_twice {n : Nat} (hn : n < 4294967296) {a : Array Int} {F : Nat → Zq} (ha : a.size = n)
    (hr : InRange (-2147483648) 2147483647 a) (hF : ∀ i, i < n → coeff a i = F i) :
    ∃ a', reduce_array_twice a n = .ok a' ∧ a'.size = n ∧ InRange (-130) 12413 a' ∧
      ∀ i, i < n → coeff a' i = 9 * F i := by
  obtain ⟨a', e, s, v⟩ := run_reduce_array_twice hn ha (fun i hi => hr i (by omega))
  refine ⟨a', e, s, fun i hi => ?_, fun i hi => ?_⟩
  · rw [v i (by omega)]; exact red_red_i32 (hr i (by omega))
  · rw [coeff_of_elt (v i hi), red_zq, red_zq, ← hF i hi]; unfold coeff; ring

theorem run_pointwise {n : Nat} (hn : n < 4294967296) {a b c : Array Int} {F G : Nat → Zq}
    (hc : c.size = n) (ha : a.size = n) (hb : b.size = n) (hra : InRange (-524287) 536573 a)
    (hrb : InRange (-524287) 536573 b) (hF : ∀ i, i < n → coeff a i = F i)
    (hG : ∀ i, i < n → coeff b i = G i) :
    ∃ c', mul_reduce_array c n a b = .ok c' ∧ c'.size = n ∧
      InRange (-2147483648) 2147483647 c' ∧ ∀ i, i < n → coeff c' i = 3 * (F i * G i) := by
  have hm : ∀ i, i < n → -287910584329 ≤ elt a i * elt b i ∧ elt a i * elt b i ≤ 287910584329 := by
    intro i hi
    have h1 := hra i (by omega)
    have h2 := hrb i (by omega)
    have := mul_bound (x := elt a i) (y := elt b i) (B := 536573) (W := 536573)
      ⟨by omega, by omega⟩ ⟨by omega, by omega⟩
    constructor <;> linarith
  obtain ⟨c', e, s, v⟩ := run_mul_reduce_array (a := a) (b := b) hn hc (by omega) (by omega) (fun i hi => by
    have := hm i hi; exact ⟨by omega, by omega⟩)
  refine ⟨c', e, s, fun i hi => ?_, fun i hi => ?_⟩
  · have := hm i (by omega)
    rw [v i (by omega)]
    have hd := red_def (elt a i * elt b i)
    omega
  · rw [coeff_of_elt (v i hi), red_zq, ← hF i hi, ← hG i hi]; push_cast; rfl

theorem run_canon {n : Nat} (hn : n < 4294967296) {a : Array Int} {F : Nat → Zq} (ha : a.size = n)
    (hr : InRange (-130) 12413 a) (hF : ∀ i, i < n → coeff a i = F i) :
    ∃ a', correct a n = .ok a' ∧ a'.size = n ∧ Reduced a' ∧ ∀ i, i < n → coeff a' i = F i := by
  obtain ⟨a', e, s, v⟩ := run_correct hn ha (fun i hi => by
    have := hr i (by omega); exact ⟨by omega, by omega⟩)
  refine ⟨a', e, s, fun i hi => ?_, fun i hi => ?_⟩
  · rw [v i (by omega)]; omega
  · rw [coeff_of_elt (v i hi), Ntt.zq_mod, ← hF i hi]; rfl

theorem three_ne : (3 : Zq) ≠ 0 := by decide

/-- The scaling constants cancel. -/
theorem rescale {k : Nat} {ψ : Zq} (hψ : ψ ^ 2 ^ k = -1) (C : Nat → Zq) {i : Nat}
    (hi : i < 2 ^ k) :
    9 * (3 * (ntt (2 ^ k) (ψ ^ 2)⁻¹ (fun j => 243 * ntt (2 ^ k) (ψ ^ 2) (fun l => C l * ψ ^ l) j) i *
      ((3 ^ 8 * 2 ^ k : Zq)⁻¹ * ψ⁻¹ ^ i))) = C i := by
  have e : ntt (2 ^ k) (ψ ^ 2)⁻¹ (fun j => 243 * ntt (2 ^ k) (ψ ^ 2) (fun l => C l * ψ ^ l) j) i =
      243 * ntt (2 ^ k) (ψ ^ 2)⁻¹ (ntt (2 ^ k) (ψ ^ 2) (fun l => C l * ψ ^ l)) i := by
    unfold ntt evalPoly
    rw [Finset.mul_sum]
    exact Finset.sum_congr rfl fun l _ => by ring
  conv_rhs => rw [← unscale hψ C hi]
  rw [e, mul_inv]
  have h3 : (3 ^ 8 : Zq) * (3 ^ 8 : Zq)⁻¹ = 1 := mul_inv_cancel₀ (pow_ne_zero 8 three_ne)
  generalize ntt (2 ^ k) (ψ ^ 2)⁻¹ (ntt (2 ^ k) (ψ ^ 2) (fun l => C l * ψ ^ l)) i = X
  linear_combination X * (2 ^ k : Zq)⁻¹ * ψ⁻¹ ^ i * h3

/-- What a product routine must do on inputs `a`, `b` of size `2^k`, for any initial `c`. -/
abbrev ProductSpec (k : Nat) (a b : Array Int) (m : M (Array Int × Array Int × Array Int)) : Prop :=
  ∃ r, m = .ok r ∧ r.1.size = 2 ^ k ∧ r.2.1.size = 2 ^ k ∧ r.2.2.size = 2 ^ k ∧
    Reduced r.1 ∧ ∀ i, i < 2 ^ k → coeff r.1 i = negacyclic (2 ^ k) (coeff a) (coeff b) i

/-- Result of a transform. -/
abbrev Gives (m : M (Array Int)) (n : Nat) (B : Int) (F : Nat → Zq) : Prop :=
  ∃ a', m = .ok a' ∧ a'.size = n ∧ InRange (-B) B a' ∧ ∀ i, i < n → coeff a' i = F i

theorem InRange.mono {l u l' u' : Int} {a : Array Int} (h : InRange l u a) (hl : l' ≤ l)
    (hu : u ≤ u') : InRange l' u' a := fun i hi => by have := h i hi; omega

/-- Products 1 to 4. -/
theorem product_scheme {k : Nat} (hk : k ≤ 11) {ψ : Zq} (hψ : ψ ^ 2 ^ k = -1)
    {fwd inv : Array Int → M (Array Int)} {pp ps : Array Int}
    (hpp : PowTable 3 1 ψ (-6144) 6144 (2 ^ k) pp)
    (hps : PowTable 1 (3 ^ 8 * 2 ^ k : Zq)⁻¹ ψ⁻¹ (-6144) 6144 (2 ^ k) ps)
    (hf : ∀ a A, a.size = 2 ^ k → InRange (-18432) 30717 a → (∀ i, i < 2 ^ k → coeff a i = A i) →
      Gives (fwd a) (2 ^ k) 2147483647 (fun i => ntt (2 ^ k) (ψ ^ 2) A (rev k i)))
    (hv : ∀ a A, a.size = 2 ^ k → InRange (-130) 12413 a →
      (∀ i, i < 2 ^ k → coeff a i = A (rev k i)) →
      Gives (inv a) (2 ^ k) 1100000000 (ntt (2 ^ k) (ψ ^ 2)⁻¹ A))
    (sh : Bool)
    {c a b : Array Int} (hc : c.size = 2 ^ k) (ha : a.size = 2 ^ k) (hb : b.size = 2 ^ k)
    (hra : Reduced a) (hrb : Reduced b) :
    ProductSpec k a b (do
      let a ← shiftInput (2 ^ k) sh a
      let a ← mul_reduce_array16 a (2 ^ k) pp
      let a ← fwd a
      let a ← reduce_array a (2 ^ k)
      let b ← shiftInput (2 ^ k) sh b
      let b ← mul_reduce_array16 b (2 ^ k) pp
      let b ← fwd b
      let b ← reduce_array b (2 ^ k)
      let c ← mul_reduce_array c (2 ^ k) a b
      let c ← reduce_array_twice c (2 ^ k)
      let c ← inv c
      let c ← mul_reduce_array16 c (2 ^ k) ps
      let c ← reduce_array_twice c (2 ^ k)
      let c ← correct c (2 ^ k)
      pure (c, a, b)) := by
  have hk' : k ≤ 31 := by omega
  have hn : 2 ^ k < 4294967296 := by have := pow31 hk'; omega
  refine wp_total.1 ?_
  simp only [wp_bind, wp_pure]
  refine (wp_total.2 (run_shiftInput hn sh ha hra)).mono ?_
  rintro a1 ⟨sa1, ra1, va1⟩
  refine (wp_total.2 (run_scale hk' hpp sa1 ra1)).mono ?_
  rintro a2 ⟨sa2, ra2, va2⟩
  refine (wp_total.2 (hf a2 (fun i => coeff a i * ψ ^ i) sa2 ra2
    (fun i hi => by rw [va2 i hi, va1 i hi, one_mul]))).mono ?_
  rintro a3 ⟨sa3, ra3, va3⟩
  refine (wp_total.2 (run_reduce hn sa3 (InRange.mono ra3 (by omega) (by omega)) va3)).mono ?_
  rintro a4 ⟨sa4, ra4, va4⟩
  refine (wp_total.2 (run_shiftInput hn sh hb hrb)).mono ?_
  rintro b1 ⟨sb1, rb1, vb1⟩
  refine (wp_total.2 (run_scale hk' hpp sb1 rb1)).mono ?_
  rintro b2 ⟨sb2, rb2, vb2⟩
  refine (wp_total.2 (hf b2 (fun i => coeff b i * ψ ^ i) sb2 rb2
    (fun i hi => by rw [vb2 i hi, vb1 i hi, one_mul]))).mono ?_
  rintro b3 ⟨sb3, rb3, vb3⟩
  refine (wp_total.2 (run_reduce hn sb3 (InRange.mono rb3 (by omega) (by omega)) vb3)).mono ?_
  rintro b4 ⟨sb4, rb4, vb4⟩
  refine (wp_total.2 (run_pointwise hn hc sa4 sb4 ra4 rb4 va4 vb4)).mono ?_
  rintro c1 ⟨sc1, rc1, vc1⟩
  refine (wp_total.2 (run_twice hn sc1 rc1 vc1)).mono ?_
  rintro c2 ⟨sc2, rc2, vc2⟩
  refine (wp_total.2 (hv c2 (fun j => 243 * ntt (2 ^ k) (ψ ^ 2)
      (fun l => negacyclic (2 ^ k) (coeff a) (coeff b) l * ψ ^ l) j) sc2 rc2
    (fun i hi => by
      rw [vc2 i hi, ← conv_point hψ, evalPoly_scale, evalPoly_scale]
      unfold ntt; ring))).mono ?_
  rintro c3 ⟨sc3, rc3, vc3⟩
  have hm : ∀ i, i < 2 ^ k → -6758400000000 ≤ elt c3 i * elt ps i ∧
      elt c3 i * elt ps i ≤ 6758400000000 := fun i hi => by
    have := mul_bound (rc3 i (by omega)) (hps.2 i hi).1
    constructor <;> linarith
  refine (wp_total.2 (run_mul_reduce_array16 hn sc3 hps.1
    (fun i hi => by have := hm i hi; exact ⟨by omega, by omega⟩))).mono ?_
  rintro c4 ⟨sc4, vc4⟩
  refine (wp_total.2 (run_twice hn sc4 (fun i hi => by
    have := hm i (by omega)
    rw [vc4 i (by omega)]
    have hd := red_def (elt c3 i * elt ps i)
    omega) (F := coeff c4) (fun _ _ => rfl))).mono ?_
  rintro c5 ⟨sc5, rc5, vc5⟩
  refine (wp_total.2 (run_canon hn sc5 rc5 vc5)).mono ?_
  rintro c6 ⟨sc6, rc6, vc6⟩
  refine ⟨sc6, sa4, sb4, rc6, fun i hi => ?_⟩
  rw [vc6 i hi, coeff_of_elt (vc4 i hi), red_zq]
  rw [← rescale hψ (negacyclic (2 ^ k) (coeff a) (coeff b)) hi, ← vc3 i hi, ← (hps.2 i hi).2]
  push_cast; unfold coeff; ring

section
variable {k : Nat} (hk : k ≤ 11) {ψ : Zq} (hψ : ψ ^ 2 ^ k = -1) {t : RedTables}
  (ht : RedTablesOK k ψ t)
include hk hψ ht

theorem gives_fwd_ct (a : Array Int) (A : Nat → Zq) (ha : a.size = 2 ^ k)
    (hr : InRange (-18432) 30717 a) (hA : ∀ i, i < 2 ^ k → coeff a i = A i) :
    Gives (fwd_ct_std2rev t (2 ^ k) a) (2 ^ k) 2147483647
      (fun i => ntt (2 ^ k) (ψ ^ 2) A (rev k i)) := by
  obtain ⟨a', e, s, r, v⟩ := run_ct_std2rev (β := ctSeq 30717) (by omega) (psi_facts hψ).2.2.2.1
    ht.omega_powers_rev (fun m hm => ctStep_30717 m (by omega)) A ha
    (InRange.mono hr (by decide) (by decide)) hA
  have := ctEnd_mid k (by omega)
  exact ⟨a', e, s, InRange.mono r (by omega) (by omega), v⟩

theorem gives_fwd_gs (a : Array Int) (A : Nat → Zq) (ha : a.size = 2 ^ k)
    (hr : InRange (-18432) 30717 a) (hA : ∀ i, i < 2 ^ k → coeff a i = A i) :
    Gives (fwd_gs_std2rev t (2 ^ k) a) (2 ^ k) 2147483647
      (fun i => ntt (2 ^ k) (ψ ^ 2) A (rev k i)) := by
  rcases Nat.lt_or_ge k 11 with h | h
  · obtain ⟨a', e, s, r, v⟩ := run_gs_std2rev (l := fun m => (gsSeq (-18432) 30717 m).1)
      (u := fun m => (gsSeq (-18432) 30717 m).2) (by omega) (psi_facts hψ).2.2.2.1
      ht.omega_powers (fun m hm => gsStep_mid m (by omega)) A ha hr hA
    have := gsEnd_mid k (by omega)
    exact ⟨a', e, s, InRange.mono r (by omega) (by omega), v⟩
  · obtain rfl : k = 11 := by omega
    obtain ⟨a', e, s, r, v⟩ := lv_gs_std2rev (b := lvSeq lvPlain 30717) (by decide) (psi_facts hψ).2.2.2.1
      ht.omega_powers lvP_mid A ha (InRange.mono hr (by decide) (by decide)) hA
    have := lv_end
    exact ⟨a', e, s, InRange.mono r (by omega) (by omega), v⟩

theorem gives_inv_ct (a : Array Int) (A : Nat → Zq) (ha : a.size = 2 ^ k)
    (hr : InRange (-130) 12413 a) (hA : ∀ i, i < 2 ^ k → coeff a i = A (rev k i)) :
    Gives (intt_ct_rev2std t (2 ^ k) a) (2 ^ k) 1100000000 (ntt (2 ^ k) (ψ ^ 2)⁻¹ A) := by
  obtain ⟨a', e, s, r, v⟩ := run_ct_rev2std (β := ctSeq 12413) (by omega) (psi_facts hψ).2.2.2.2.1
    ht.inv_omega_powers (fun m hm => ctStep_12413 m (by omega)) A ha
    (InRange.mono hr (by decide) (by decide)) hA
  have := ctEnd_low k (by omega)
  exact ⟨a', e, s, InRange.mono r (by omega) (by omega), v⟩

theorem gives_inv_gs (a : Array Int) (A : Nat → Zq) (ha : a.size = 2 ^ k)
    (hr : InRange (-130) 12413 a) (hA : ∀ i, i < 2 ^ k → coeff a i = A (rev k i)) :
    Gives (intt_gs_rev2std t (2 ^ k) a) (2 ^ k) 1100000000 (ntt (2 ^ k) (ψ ^ 2)⁻¹ A) := by
  rcases Nat.lt_or_ge k 11 with h | h
  · obtain ⟨a', e, s, r, v⟩ := run_gs_rev2std (l := fun m => (gsSeq (-130) 12413 m).1)
      (u := fun m => (gsSeq (-130) 12413 m).2) (by omega) (psi_facts hψ).2.2.2.2.1
      ht.inv_omega_powers_rev (fun m hm => gsStep_low m (by omega)) A ha hr hA
    have := gsEnd_low k (by omega)
    exact ⟨a', e, s, InRange.mono r (by omega) (by omega), v⟩
  · obtain rfl : k = 11 := by omega
    obtain ⟨a', e, s, r, v⟩ := lv_gs_rev2std (b := lvSeq lvPlain 12413) (by decide) (psi_facts hψ).2.2.2.2.1
      ht.inv_omega_powers_rev lvP_low A ha (InRange.mono hr (by decide) (by decide)) hA
    have := lv_end
    exact ⟨a', e, s, InRange.mono r (by omega) (by omega), v⟩

omit hk in
/-- `rescale8 = (3^8 * 2^10)^-1 = 8350` for `n = 1024`. -/
theorem rescale8_small : k = 10 → t.rescale8 ≤ 8350 := by
  intro hk10
  subst hk10
  have h1 := ht.rescale8
  have h2 : ((8350 : Nat) : Zq) = (3 ^ 8 * 2 ^ 10 : Zq)⁻¹ := by
    refine eq_inv_of_mul_eq_one_left ?_
    decide
  rw [← h2] at h1
  rw [ZMod.natCast_eq_natCast_iff] at h1
  have := h1.1
  unfold Nat.ModEq at this
  omega

omit hk in
/-- `rescale8 = (3^8 * 2^11)^-1 = 4175` for `n = 2048`. -/
theorem rescale8_small11 : k = 11 → t.rescale8 ≤ 4175 := by
  intro hk11
  subst hk11
  have h1 := ht.rescale8
  have h2 : ((4175 : Nat) : Zq) = (3 ^ 8 * 2 ^ 11 : Zq)⁻¹ := by
    refine eq_inv_of_mul_eq_one_left ?_
    decide
  rw [← h2] at h1
  rw [ZMod.natCast_eq_natCast_iff] at h1
  have := h1.1
  unfold Nat.ModEq at this
  omega

/-- The inverse transform of product 5: its elements can be multiplied by `rescale8`. -/
theorem gives_invmul_gs (a : Array Int) (A : Nat → Zq) (ha : a.size = 2 ^ k)
    (hr : InRange (-130) 12413 a) (hA : ∀ i, i < 2 ^ k → coeff a i = A (rev k i)) :
    ∃ a', nttmul_red_gs_rev2std a (2 ^ k) t.inv_mixed_powers_rev = .ok a' ∧ a'.size = 2 ^ k ∧
      (∀ i, i < 2 ^ k → -6179000000000 ≤ elt a' i * (t.rescale8 : Int) ∧
        elt a' i * (t.rescale8 : Int) ≤ 6179000000000) ∧
      ∀ i, i < 2 ^ k → coeff a' i = ψ⁻¹ ^ i * ntt (2 ^ k) (ψ ^ 2)⁻¹ A i := by
  have hp := psi_facts hψ
  rcases Nat.lt_or_ge k 11 with h | h
  · obtain ⟨a', e, s, r, v⟩ := run_gsmul_rev2std (l := fun m => (gsSeq (-130) 12413 m).1)
      (u := fun m => (gsSeq (-130) 12413 m).2) (by omega) hp.2.2.2.2.1 ht.inv_mixed_powers_rev
      (fun m hm => gsStep_low m (by omega)) A ha hr hA
    refine ⟨a', e, s, fun i hi => ?_, v⟩
    have hr := r i (by omega)
    by_cases h9 : k = 10
    · have h1 := gsEnd_low k (by omega)
      have h2 := rescale8_small hψ ht h9
      have := mul_bound (x := elt a' i) (y := (t.rescale8 : Int)) (B := 740000000) (W := 8350)
        ⟨by omega, by omega⟩ ⟨by omega, by omega⟩
      constructor <;> linarith
    · have h1 := gsEnd_low9 k (by omega)
      have h2 := ht.rescale8.2
      have := mul_bound (x := elt a' i) (y := (t.rescale8 : Int)) (B := 250000000) (W := 12288)
        ⟨by omega, by omega⟩ ⟨by omega, by omega⟩
      constructor <;> linarith
  · have h11 : k = 11 := by omega
    have h2 := rescale8_small11 hψ ht h11
    subst h11
    obtain ⟨a', e, s, r, v⟩ := lv_gsmul_rev2std (b := lvSeq lvMixed 12413) (by decide) hp.2.2.2.2.1
      (by rw [inv_pow, hψ, inv_neg, inv_one]) ht.inv_mixed_powers_rev lvM_low A ha
      (InRange.mono hr (by decide) (by decide)) hA
    refine ⟨a', e, s, fun i hi => ?_, v⟩
    have hr := r i (by omega)
    have := lv_end
    have := mul_bound (x := elt a' i) (y := (t.rescale8 : Int)) (B := 1100000000) (W := 4175)
      ⟨by omega, by omega⟩ ⟨by omega, by omega⟩
    constructor <;> linarith

variable (sh : Bool) {c a b : Array Int} (hc : c.size = 2 ^ k) (ha : a.size = 2 ^ k)
  (hb : b.size = 2 ^ k) (hra : Reduced a) (hrb : Reduced b)
include hc ha hb hra hrb

theorem run_product1 : ProductSpec k a b (product1 t (2 ^ k) sh c a b) :=
  product_scheme hk hψ ht.psi_powers ht.scaled_inv_psi_powers (gives_fwd_ct hk hψ ht)
    (gives_inv_ct hk hψ ht) sh hc ha hb hra hrb

theorem run_product2 : ProductSpec k a b (product2 t (2 ^ k) sh c a b) :=
  product_scheme hk hψ ht.psi_powers ht.scaled_inv_psi_powers (gives_fwd_gs hk hψ ht)
    (gives_inv_ct hk hψ ht) sh hc ha hb hra hrb

theorem run_product3 : ProductSpec k a b (product3 t (2 ^ k) sh c a b) :=
  product_scheme hk hψ ht.psi_powers ht.scaled_inv_psi_powers (gives_fwd_ct hk hψ ht)
    (gives_inv_gs hk hψ ht) sh hc ha hb hra hrb

theorem run_product4 : ProductSpec k a b (product4 t (2 ^ k) sh c a b) :=
  product_scheme hk hψ ht.psi_powers ht.scaled_inv_psi_powers (gives_fwd_gs hk hψ ht)
    (gives_inv_gs hk hψ ht) sh hc ha hb hra hrb

theorem run_product5 : ProductSpec k a b (product5 t (2 ^ k) sh c a b) := by
  have hk' : k ≤ 31 := by omega
  have hn : 2 ^ k < 4294967296 := by have := pow31 hk'; omega
  have hp := psi_facts hψ
  have hend := ctEnd_mid k (by omega)
  refine wp_total.1 ?_
  unfold product5 fwdmul_ct_std2rev inttmul_gs_rev2std
  simp only [wp_bind, wp_pure]
  refine (wp_total.2 (run_shiftInput hn sh ha hra)).mono ?_
  rintro a1 ⟨sa1, ra1, va1⟩
  refine (wp_total.2 (run_mulct_std2rev (β := ctSeq 30717) hk' hp.2.2.2.1 ht.mixed_powers_rev
    (fun m hm => ctStep_30717 m (by omega)) (coeff a) sa1
    (InRange.mono ra1 (by decide) (by decide)) va1)).mono ?_
  rintro a3 ⟨sa3, ra3, va3⟩
  refine (wp_total.2 (run_reduce hn sa3 (InRange.mono ra3 (by omega) (by omega)) va3)).mono ?_
  rintro a4 ⟨sa4, ra4, va4⟩
  refine (wp_total.2 (run_shiftInput hn sh hb hrb)).mono ?_
  rintro b1 ⟨sb1, rb1, vb1⟩
  refine (wp_total.2 (run_mulct_std2rev (β := ctSeq 30717) hk' hp.2.2.2.1 ht.mixed_powers_rev
    (fun m hm => ctStep_30717 m (by omega)) (coeff b) sb1
    (InRange.mono rb1 (by decide) (by decide)) vb1)).mono ?_
  rintro b3 ⟨sb3, rb3, vb3⟩
  refine (wp_total.2 (run_reduce hn sb3 (InRange.mono rb3 (by omega) (by omega)) vb3)).mono ?_
  rintro b4 ⟨sb4, rb4, vb4⟩
  refine (wp_total.2 (run_pointwise hn hc sa4 sb4 ra4 rb4 va4 vb4)).mono ?_
  rintro c1 ⟨sc1, rc1, vc1⟩
  refine (wp_total.2 (run_twice hn sc1 rc1 vc1)).mono ?_
  rintro c2 ⟨sc2, rc2, vc2⟩
  refine (wp_total.2 (gives_invmul_gs hk hψ ht c2 (fun j => 243 * ntt (2 ^ k) (ψ ^ 2)
      (fun l => negacyclic (2 ^ k) (coeff a) (coeff b) l * ψ ^ l) j) sc2 rc2
    (fun i hi => by
      rw [vc2 i hi, ← conv_point hψ]; ring))).mono ?_
  rintro c3 ⟨sc3, hm, vc3⟩
  refine (wp_total.2 (run_scalar_mul_reduce_array hn sc3
    (fun i hi => by have := hm i hi; exact ⟨by omega, by omega⟩))).mono ?_
  rintro c4 ⟨sc4, vc4⟩
  refine (wp_total.2 (run_twice hn sc4 (fun i hi => by
    have := hm i (by omega)
    rw [vc4 i (by omega)]
    have hd := red_def (elt c3 i * (t.rescale8 : Int))
    omega) (F := coeff c4) (fun _ _ => rfl))).mono ?_
  rintro c5 ⟨sc5, rc5, vc5⟩
  refine (wp_total.2 (run_canon hn sc5 rc5 vc5)).mono ?_
  rintro c6 ⟨sc6, rc6, vc6⟩
  refine ⟨sc6, sa4, sb4, rc6, fun i hi => ?_⟩
  rw [vc6 i hi, coeff_of_elt (vc4 i hi), red_zq]
  rw [← rescale hψ (negacyclic (2 ^ k) (coeff a) (coeff b)) hi]
  have e1 : ((t.rescale8 : Int) : Zq) = (3 ^ 8 * 2 ^ k : Zq)⁻¹ := by rw [← ht.rescale8.1]; simp
  have e2 : ((elt c3 i : Int) : Zq) = _ := vc3 i hi
  push_cast at e1 ⊢
  rw [e1, e2]; ring

end
end NttRed
