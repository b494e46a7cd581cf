import Verif.Proofs.AsmProducts

/-
The first product of src/ntt_red_asm1024.c.  It omits a reduction, so the bound on the result of the
forward transform has to be smaller than what follows from `|p[i]| ≤ 6144`.  The proof uses one bound
for each block of each round, computed from the actual table (psi = 1014).
-/

namespace AsmProducts
open C NTT Spec Tables Asm
open NttRed (InRange.mono ProductSpec Gives coeff_of_elt mul_bound ctSeq CtStep Safe red_bound
  bf0_ct ctBf_ct val)

/-! ### Cooley-Tukey, standard to bit-reverse order, with a bound for each block -/

theorem block_lo {m k j r : Nat} (hm : m < k) (hr : r < 2 ^ (k - 1 - m)) :
    (2 * 2 ^ (k - 1 - m) * j + r) / 2 ^ (k - m) = j ∧
    (2 * 2 ^ (k - 1 - m) * j + r) / 2 ^ (k - (m + 1)) = 2 * j := by
  have e1 : 2 ^ (k - m) = 2 * 2 ^ (k - 1 - m) := by
    rw [show k - m = k - 1 - m + 1 by omega, pow_succ]; ring
  rw [e1, show k - (m + 1) = k - 1 - m by omega]
  generalize 2 ^ (k - 1 - m) = h at *
  constructor
  · rw [Nat.mul_add_div (by omega), Nat.div_eq_of_lt (by omega), Nat.add_zero]
  · rw [show 2 * h * j + r = h * (2 * j) + r by ring, Nat.mul_add_div (by omega),
      Nat.div_eq_of_lt (by omega), Nat.add_zero]

theorem block_hi {m k j r : Nat} (hm : m < k) (hr : r < 2 ^ (k - 1 - m)) :
    (2 * 2 ^ (k - 1 - m) * j + r + 2 ^ (k - 1 - m)) / 2 ^ (k - m) = j ∧
    (2 * 2 ^ (k - 1 - m) * j + r + 2 ^ (k - 1 - m)) / 2 ^ (k - (m + 1)) = 2 * j + 1 := by
  have e1 : 2 ^ (k - m) = 2 * 2 ^ (k - 1 - m) := by
    rw [show k - m = k - 1 - m + 1 by omega, pow_succ]; ring
  rw [e1, show k - (m + 1) = k - 1 - m by omega]
  generalize 2 ^ (k - 1 - m) = h at *
  constructor
  · rw [Nat.add_assoc, Nat.mul_add_div (by omega), Nat.div_eq_of_lt (by omega), Nat.add_zero]
  · rw [show 2 * h * j + r + h = h * (2 * j + 1) + r by ring, Nat.mul_add_div (by omega),
      Nat.div_eq_of_lt (by omega), Nat.add_zero]

/-- `β m j` bounds the elements of block `j` before round `m`, `W m j` bounds entry `2^m+j` of the
table. -/
theorem run_ct_std2rev_blocks {k : Nat} {ω : Zq} {p a : Array Int} {β W : Nat → Nat → Int}
    (hk : k ≤ 31) (hω : 0 < k → ω ^ 2 ^ (k - 1) = -1) (hp : RevTable 3 1 ω (-6144) 6144 k p)
    (hW : ∀ m j, m < k → j < 2 ^ m → -W m j ≤ elt p (2 ^ m + j) ∧ elt p (2 ^ m + j) ≤ W m j)
    (h0 : ∀ m, m < k → 2 * β m 0 ≤ β (m + 1) 0 ∧ 2 * β m 0 ≤ β (m + 1) 1)
    (hβ : ∀ m j, m < k → 0 < j → j < 2 ^ m → ∀ s, s < 2 →
      4096 * β m j + β m j * W m j + 50323455 ≤ 4096 * β (m + 1) (2 * j + s))
    (hS : ∀ m j, m < k → j < 2 ^ m → β m j * W m j ≤ 8796042698752)
    (hT : ∀ m j, m ≤ k → j < 2 ^ m → β m j ≤ 2147483647)
    (A : Nat → Zq) (ha : a.size = 2 ^ k) (hr : InRange (-β 0 0) (β 0 0) a)
    (hA : ∀ i, i < 2 ^ k → coeff a i = A i) :
    ∃ a', NttRed.ntt_red_ct_std2rev a (2 ^ k) p = .ok a' ∧ a'.size = 2 ^ k ∧
      (∀ i, i < 2 ^ k → -β k i ≤ elt a' i ∧ elt a' i ≤ β k i) ∧
      ∀ i, i < 2 ^ k → coeff a' i = ntt (2 ^ k) ω A (rev k i) := by
  have key := wp_total.1 (sem_ctStd2rev (val := val) (E := NoErr)
    (bf0 := NttRed.bf0) (bf := NttRed.ctBf) (a := a)
    (B := fun m i x => -β m (i / 2 ^ (k - m)) ≤ x ∧ x ≤ β m (i / 2 ^ (k - m)))
    (A := A) hk hp.1 hω ?_ ?_ ?_)
  · obtain ⟨a', e, h⟩ := key
    rw [pw_elts] at h
    refine ⟨a', e, h.1, fun i hi => ?_, fun i hi => (h.2 i hi).2⟩
    have := (h.2 i hi).1
    rwa [Nat.sub_self, pow_zero, Nat.div_one] at this
  · intro m r hm hr
    have e1 := block_lo (j := 0) hm hr
    have e2 := block_hi (j := 0) hm hr
    rw [Nat.mul_zero, Nat.zero_add] at e1 e2
    have hb := h0 m hm
    have hp0 := Nat.two_pow_pos (m + 1)
    have t0 := hT (m + 1) 0 (by omega) hp0
    have t1 := hT (m + 1) 1 (by omega) (Nat.one_lt_two_pow (by omega))
    refine bf0_ct (by omega) ?_
    rw [e1.1, e1.2, e2.1, e2.2]
    intro x y hx hy
    simp only [Nat.mul_zero, Nat.zero_add] at *
    unfold I32
    refine ⟨⟨by omega, by omega⟩, ⟨by omega, by omega⟩, ⟨by omega, by omega⟩, ⟨by omega, by omega⟩⟩
  · intro m j r w hm hj0 hj hr hw
    have e1 := block_lo (j := j) hm hr
    have e2 := block_hi (j := j) hm hr
    have hz := hp.entry hm hj hw
    have hw2 := hW m j hm hj
    rw [elt_of_some hw] at hw2
    have b0 : _ ≤ 4096 * β (m + 1) (2 * j) := hβ m j hm hj0 hj 0 (by omega)
    have b1 := hβ m j hm hj0 hj 1 (by omega)
    have hs := hS m j hm hj
    have hlt : 2 * j + 1 < 2 ^ (m + 1) := by rw [pow_succ]; omega
    have t0 := hT (m + 1) (2 * j) (by omega) (by omega)
    have t1 := hT (m + 1) (2 * j + 1) (by omega) hlt
    have hh := Nat.two_pow_pos (k - 1 - m)
    refine ctBf_ct (by omega) hz.2 ?_
    rw [e1.1, e1.2, e2.1, e2.2]
    intro x y hx hy
    have hm := mul_bound hy hw2
    have hd := red_def (y * w)
    generalize y * w = z at *
    generalize Spec.red z = r at *
    generalize β m j * W m j = P at *
    unfold Safe I32
    refine ⟨⟨by omega, by omega⟩, ⟨by omega, by omega⟩, ⟨by omega, by omega⟩, ⟨by omega, by omega⟩,
      ⟨by omega, by omega⟩⟩
  · rw [pw_elts]
    refine ⟨ha, fun i hi => ⟨?_, hA i hi⟩⟩
    have := hr i (by omega)
    rwa [Nat.sub_zero, Nat.div_eq_of_lt hi]

/-! ### The table for n = 1024, psi = 1014 -/

/-- Absolute value of entry `2^m + j` of the table of powers of omega in bit-reverse order. -/
def tabW (m j : Nat) : Nat :=
  let w := 8193 * 1014 ^ (2 * (512 / 2 ^ m * rev m j)) % 12289
  if w ≤ 6144 then w else 12289 - w

theorem tabW_ok {p : Array Int} (hp : RevTable 3 1 ((1014 : Zq) ^ 2) (-6144) 6144 10 p) {m j : Nat}
    (hm : m < 10) (hj : j < 2 ^ m) :
    -(tabW m j : Int) ≤ elt p (2 ^ m + j) ∧ elt p (2 ^ m + j) ≤ tabW m j := by
  obtain ⟨⟨h1, h2⟩, h3⟩ := hp.2 m j hm hj
  have e : 2 ^ 10 / (2 * 2 ^ m) = 512 / 2 ^ m := by rw [← Nat.div_div_eq_div_mul]; norm_num
  rw [one_pow, one_mul, e, ← pow_mul, ← pow_mul] at h3
  unfold coeff at h3
  generalize hx : elt p (2 ^ m + j) = x at *
  have h4 : ((x - ((8193 * 1014 ^ (2 * (512 / 2 ^ m * rev m j)) : Nat) : Int) : Int) : Zq) = 0 := by
    push_cast
    rw [← h3]
    have : (8193 : Zq) * 3 = 1 := by decide
    linear_combination (-(x : Zq)) * this
  rw [ZMod.intCast_zmod_eq_zero_iff_dvd] at h4
  unfold tabW
  generalize 8193 * 1014 ^ (2 * (512 / 2 ^ m * rev m j)) = N at *
  obtain ⟨c, hc⟩ := h4
  push_cast at hc
  dsimp only
  split <;> omega

/-- Bounds for the elements of block `j` before round `m`. -/
def tabB : Nat → Nat → Nat
  | 0, _ => 30717
  | m + 1, j => if j / 2 = 0 then 2 * tabB m 0 else
      (tabB m (j / 2) * (4096 + tabW m (j / 2)) + 50323455) / 4096 + 1

theorem tabB_le : ∀ m, m < 11 → ∀ j, j < 2 ^ m → tabB m j ≤ 32000000 := by decide +kernel


theorem tabB_nonneg (m j : Nat) : (0 : Int) ≤ tabB m j := Int.natCast_nonneg _

theorem tabW_le : ∀ m j, tabW m j ≤ 6144 := by
  intro m j
  unfold tabW
  generalize 8193 * 1014 ^ (2 * (512 / 2 ^ m * rev m j)) = N
  dsimp only
  split <;> omega

/-- The forward transform of the product: the bound 32000000 instead of 265588351. -/
theorem gives_fwd_1024 {p : Array Int} (hp : RevTable 3 1 ((1014 : Zq) ^ 2) (-6144) 6144 10 p)
    (hω : 0 < 10 → ((1014 : Zq) ^ 2) ^ 2 ^ (10 - 1) = -1) (a : Array Int) (A : Nat → Zq)
    (ha : a.size = 2 ^ 10) (hr : InRange (-18432) 30717 a) (hA : ∀ i, i < 2 ^ 10 → coeff a i = A i) :
    Gives (ntt_red_ct_std2rev_asm a (2 ^ 10) p) (2 ^ 10) 32000000
      (fun i => ntt (2 ^ 10) ((1014 : Zq) ^ 2) A (rev 10 i)) := by
  have hi32 := Props.tr_i32 (InRange.mono hr (by decide) (by decide))
  have hc : Gives (NttRed.ntt_red_ct_std2rev a (2 ^ 10) p) (2 ^ 10) 32000000
      (fun i => ntt (2 ^ 10) ((1014 : Zq) ^ 2) A (rev 10 i)) := by
    have key := run_ct_std2rev_blocks (β := fun m j => (tabB m j : Int))
      (W := fun m j => (tabW m j : Int)) (by omega) hω hp (fun m j => tabW_ok hp) ?_ ?_ ?_ ?_ A ha
      (InRange.mono hr (by decide) (by decide)) hA
    · obtain ⟨a', e, s, r, v⟩ := key
      refine ⟨a', e, s, fun i hi => ?_, v⟩
      have h1 := r i (by omega)
      have h2 := tabB_le 10 (by omega) i (by omega)
      omega
    · intro m hm
      have e0 : tabB (m + 1) 0 = 2 * tabB m 0 := rfl
      have e1 : tabB (m + 1) 1 = 2 * tabB m 0 := rfl
      omega
    · intro m j hm hj0 hj s hs
      have e0 : tabB (m + 1) (2 * j + s) = (tabB m j * (4096 + tabW m j) + 50323455) / 4096 + 1 := by
        rw [tabB, show (2 * j + s) / 2 = j by omega, if_neg (by omega)]
      have e1 : tabB m j * (4096 + tabW m j) = 4096 * tabB m j + tabB m j * tabW m j := by ring
      rw [e0, e1]
      push_cast
      generalize (tabB m j : Int) * (tabW m j : Int) = P
      omega
    · intro m j hm hj
      have h1 := tabB_le m (by omega) j hj
      have h2 := tabW_le m j
      have := Nat.mul_le_mul h1 h2
      have h3 : (tabB m j : Int) * (tabW m j : Int) = ((tabB m j * tabW m j : Nat) : Int) := by push_cast; rfl
      show (tabB m j : Int) * (tabW m j : Int) ≤ _
      rw [h3]; omega
    · intro m j hm hj
      have h1 := tabB_le m (by omega) j hj
      show (tabB m j : Int) ≤ _
      omega
  refine lift (fun a' e => ?_) hc
  exact Props.tr_eq (c_ct_std2rev (by omega) hp.1 (Props.unit_rev hp) ha hi32 e)
    (wp_ct_std2rev_asm (by omega) hp.1 (rev_i16 hp) (Props.unit_rev hp) (Is.self ha) hi32)

theorem ctStep_135500 : ∀ m, m < 10 → CtStep (ctSeq 135500 m) (ctSeq 135500 (m + 1)) := by decide
theorem ctEnd_135500 : ctSeq 135500 10 ≤ 1371000000 := by decide

/-- Reduction of elements in `[-32000000, 32000000]`. -/
theorem run_reduce_1024 {a : Array Int} {F : Nat → Zq} (ha : a.size = 2 ^ 10)
    (hr : InRange (-32000000) 32000000 a) (hF : ∀ i, i < 2 ^ 10 → coeff a i = F i) :
    ∃ a', reduce_array_asm a (2 ^ 10) = .ok a' ∧ a'.size = 2 ^ 10 ∧ InRange (-20100) 20100 a' ∧
      ∀ i, i < 2 ^ 10 → coeff a' i = 3 * F i := by
  obtain ⟨h1, h2, h3, h4⟩ := size_facts (k := 10) (by omega) (by omega)
  have hi : InRange (-2147483648) 2147483647 a := InRange.mono hr (by decide) (by decide)
  have hc : ∃ a', NttRed.reduce_array a (2 ^ 10) = .ok a' ∧ a'.size = 2 ^ 10 ∧
      InRange (-20100) 20100 a' ∧ ∀ i, i < 2 ^ 10 → coeff a' i = 3 * F i := by
    obtain ⟨a', e, s, v⟩ := NttRed.run_reduce_array h4 ha (fun i h => hi i (by omega))
    refine ⟨a', e, s, fun i hi => ?_, fun i hi => ?_⟩
    · rw [v i (by omega)]
      exact red_bound (P := 32000000) (hr i (by omega)) (by omega)
    · rw [coeff_of_elt (v i hi), red_zq, ← hF i hi]; rfl
  refine lift_eq ?_ hc
  rw [h1]
  exact Props.C35_reduce_array_asm h2 h3 a (by omega) hi

theorem run_pointwise_1024 {a b c : Array Int} {F G : Nat → Zq} (hc : c.size = 2 ^ 10)
    (ha : a.size = 2 ^ 10) (hb : b.size = 2 ^ 10) (hra : InRange (-20100) 20100 a)
    (hrb : InRange (-20100) 20100 b) (hF : ∀ i, i < 2 ^ 10 → coeff a i = F i)
    (hG : ∀ i, i < 2 ^ 10 → coeff b i = G i) :
    ∃ c', mul_reduce_array_asm c (2 ^ 10) a b = .ok c' ∧ c'.size = 2 ^ 10 ∧
      InRange (-135500) 135500 c' ∧ ∀ i, i < 2 ^ 10 → coeff c' i = 3 * (F i * G i) := by
  obtain ⟨h1, h2, h3, h4⟩ := size_facts (k := 10) (by omega) (by omega)
  have hm : ∀ i, i < 2 ^ 10 → -404010000 ≤ elt a i * elt b i ∧ elt a i * elt b i ≤ 404010000 :=
    fun i hi => mul_bound (B := 20100) (W := 20100) (hra i (by omega)) (hrb i (by omega))
  have hcc : ∃ c', NttRed.mul_reduce_array c (2 ^ 10) a b = .ok c' ∧ c'.size = 2 ^ 10 ∧
      InRange (-135500) 135500 c' ∧ ∀ i, i < 2 ^ 10 → coeff c' i = 3 * (F i * G i) := by
    obtain ⟨c', e, s, v⟩ := NttRed.run_mul_reduce_array (a := a) (b := b) h4 hc (by omega) (by omega)
      (fun i hi => by have := hm i hi; exact ⟨by omega, by omega⟩)
    refine ⟨c', e, s, fun i hi => ?_, fun i hi => ?_⟩
    · rw [v i (by omega)]
      exact red_bound (hm i (by omega)) (by omega)
    · rw [coeff_of_elt (v i hi), red_zq, ← hF i hi, ← hG i hi]; push_cast; rfl
  refine lift (fun c' e => ?_) hcc
  rw [h1] at e ⊢
  exact Props.C35_mul_reduce_array_asm h2 h3 c a b c' (by omega) (by omega) (by omega) e

theorem gives_inv_1024 {ω : Zq} {p : Array Int} (hp : StdTable 3 1 ω (-6144) 6144 10 p)
    (hω : 0 < 10 → ω ^ 2 ^ (10 - 1) = -1) (a : Array Int) (A : Nat → Zq)
    (ha : a.size = 2 ^ 10) (hr : InRange (-135500) 135500 a)
    (hA : ∀ i, i < 2 ^ 10 → coeff a i = A (rev 10 i)) :
    Gives (ntt_red_ct_rev2std_asm a (2 ^ 10) p) (2 ^ 10) 1371000000 (ntt (2 ^ 10) ω A) := by
  have hi32 := Props.tr_i32 (InRange.mono hr (by decide) (by decide))
  have hc : Gives (NttRed.ntt_red_ct_rev2std a (2 ^ 10) p) (2 ^ 10) 1371000000 (ntt (2 ^ 10) ω A) := by
    obtain ⟨a', e, s, r, v⟩ := NttRed.run_ct_rev2std (β := ctSeq 135500) (by omega) hω hp
      ctStep_135500 A ha hr hA
    have := ctEnd_135500
    exact ⟨a', e, s, InRange.mono r (by omega) (by omega), v⟩
  refine lift (fun a' e => ?_) hc
  exact Props.tr_eq (c_ct_rev2std (by omega) hp.1 (Props.unit_std hp) ha hi32 e)
    (wp_ct_rev2std_asm (by omega) hp.1 (Props.unit_std hp) (Is.self ha) hi32)

theorem rescale6 {k : Nat} {ψ : Zq} (hψ : ψ ^ 2 ^ k = -1) (C : Nat → Zq) {i : Nat}
    (hi : i < 2 ^ k) :
    9 * (3 * (ntt (2 ^ k) (ψ ^ 2)⁻¹ (fun j => 27 * ntt (2 ^ k) (ψ ^ 2) (fun l => C l * ψ ^ l) j) i *
      ((3 ^ 6 * 2 ^ k : Zq)⁻¹ * ψ⁻¹ ^ i))) = C i := by
  have e : ntt (2 ^ k) (ψ ^ 2)⁻¹ (fun j => 27 * ntt (2 ^ k) (ψ ^ 2) (fun l => C l * ψ ^ l) j) i =
      27 * ntt (2 ^ k) (ψ ^ 2)⁻¹ (ntt (2 ^ k) (ψ ^ 2) (fun l => C l * ψ ^ l)) i := by
    unfold ntt evalPoly
    rw [Finset.mul_sum]
    exact Finset.sum_congr rfl fun l _ => by ring
  conv_rhs => rw [← unscale hψ C hi]
  rw [e, mul_inv]
  have h3 : (3 ^ 6 : Zq) * (3 ^ 6 : Zq)⁻¹ = 1 := mul_inv_cancel₀ (pow_ne_zero 6 NttRed.three_ne)
  generalize ntt (2 ^ k) (ψ ^ 2)⁻¹ (ntt (2 ^ k) (ψ ^ 2) (fun l => C l * ψ ^ l)) i = X
  linear_combination X * (2 ^ k : Zq)⁻¹ * ψ⁻¹ ^ i * h3

theorem run_product1_1024 (hψ : (1014 : Zq) ^ 2 ^ 10 = -1) {t : RedTables}
    (ht : RedTablesOK 10 (1014 : Zq) t) {c a b : Array Int} (hc : c.size = 2 ^ 10)
    (ha : a.size = 2 ^ 10) (hb : b.size = 2 ^ 10) (hra : Reduced a) (hrb : Reduced b) :
    ProductSpec 10 a b (product1_1024 t (2 ^ 10) c a b) := by
  have hk4 : 4 ≤ 10 := by omega
  have hk' : 10 ≤ 31 := by omega
  have hp := psi_facts hψ
  have low : ∀ {x : Array Int}, Reduced x → InRange (-6144) 12288 x := fun h i hi => by
    have := h i hi; omega
  refine wp_total.1 ?_
  unfold product1_1024 fwd_ct_std2rev intt_ct_rev2std
  simp only [wp_bind, wp_pure]
  refine (wp_total.2 (run_scale hk4 hk' ht.psi_powers ha (low hra))).mono ?_
  rintro a2 ⟨sa2, ra2, va2⟩
  refine (wp_total.2 (gives_fwd_1024 ht.omega_powers_rev hp.2.2.2.1 a2
    (fun i => coeff a i * 1014 ^ i) sa2 ra2 (fun i hi => by rw [va2 i hi, one_mul]))).mono ?_
  rintro a3 ⟨sa3, ra3, va3⟩
  refine (wp_total.2 (run_reduce_1024 sa3 ra3 va3)).mono ?_
  rintro a4 ⟨sa4, ra4, va4⟩
  refine (wp_total.2 (run_scale hk4 hk' ht.psi_powers hb (low hrb))).mono ?_
  rintro b2 ⟨sb2, rb2, vb2⟩
  refine (wp_total.2 (gives_fwd_1024 ht.omega_powers_rev hp.2.2.2.1 b2
    (fun i => coeff b i * 1014 ^ i) sb2 rb2 (fun i hi => by rw [vb2 i hi, one_mul]))).mono ?_
  rintro b3 ⟨sb3, rb3, vb3⟩
  refine (wp_total.2 (run_reduce_1024 sb3 rb3 vb3)).mono ?_
  rintro b4 ⟨sb4, rb4, vb4⟩
  refine (wp_total.2 (run_pointwise_1024 hc sa4 sb4 ra4 rb4 va4 vb4)).mono ?_
  rintro c1 ⟨sc1, rc1, vc1⟩
  refine (wp_total.2 (gives_inv_1024 ht.inv_omega_powers hp.2.2.2.2.1 c1
    (fun j => 27 * ntt (2 ^ 10) ((1014 : Zq) ^ 2)
      (fun l => negacyclic (2 ^ 10) (coeff a) (coeff b) l * 1014 ^ l) j) sc1 rc1
    (fun i hi => by
      rw [vc1 i hi, ← conv_point hψ, evalPoly_scale, evalPoly_scale]
      unfold ntt; ring))).mono ?_
  rintro c3 ⟨sc3, rc3, vc3⟩
  have hps := ht.scaled_inv_psi_powers_var
  have hm : ∀ i, i < 2 ^ 10 → -8423424000000 ≤ elt c3 i * elt t.scaled_inv_psi_powers_var i ∧
      elt c3 i * elt t.scaled_inv_psi_powers_var i ≤ 8423424000000 := fun i hi => by
    have := mul_bound (rc3 i (by omega)) (hps.2 i hi).1
    constructor <;> linarith
  refine (wp_total.2 (run_mul16 hk4 hk' sc3 hps.1
    (fun i hi => by have := hm i hi; exact ⟨by omega, by omega⟩))).mono ?_
  rintro c4 ⟨sc4, vc4⟩
  refine (wp_total.2 (run_twice hk4 hk' sc4 (fun i hi => by
    have := hm i (by omega)
    rw [vc4 i (by omega)]
    have hd := red_def (elt c3 i * elt t.scaled_inv_psi_powers_var i)
    omega) (F := coeff c4) (fun _ _ => rfl))).mono ?_
  rintro c5 ⟨sc5, rc5, vc5⟩
  refine (wp_total.2 (run_canon hk4 hk' sc5 rc5 vc5)).mono ?_
  rintro c6 ⟨sc6, rc6, vc6⟩
  refine ⟨sc6, sa4, sb4, rc6, fun i hi => ?_⟩
  rw [vc6 i hi, coeff_of_elt (vc4 i hi), red_zq]
  rw [← rescale6 hψ (negacyclic (2 ^ 10) (coeff a) (coeff b)) hi, ← vc3 i hi, ← (hps.2 i hi).2]
  push_cast; unfold coeff; ring

end AsmProducts
