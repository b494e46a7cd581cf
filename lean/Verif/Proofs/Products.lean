import Verif.Model.Products
import Verif.Proofs.Ntt
import Verif.SpecTables

/-
Proofs about the inverse transforms and the polynomial products of src/ntt<n>.{h,c}.
-/

namespace Spec
open NTT

/-- Facts about `ψ` used by the products. -/
theorem psi_facts {k : Nat} {ψ : Zq} (hψ : ψ ^ 2 ^ k = -1) :
    ψ ≠ 0 ∧ ψ * ψ⁻¹ = 1 ∧ ψ ^ 2 * (ψ ^ 2)⁻¹ = 1 ∧ (0 < k → (ψ ^ 2) ^ 2 ^ (k - 1) = -1) ∧
    (0 < k → ((ψ ^ 2)⁻¹) ^ 2 ^ (k - 1) = -1) ∧ (2 ^ k : Zq) * (2 ^ k : Zq)⁻¹ = 1 := by
  have h0 : ψ ≠ 0 := by
    rintro rfl
    rw [zero_pow (by have := Nat.two_pow_pos k; omega)] at hψ
    exact absurd hψ (by decide)
  have h1 : 0 < k → (ψ ^ 2) ^ 2 ^ (k - 1) = -1 := by
    intro hk
    rw [← pow_mul, ← Nat.pow_succ', show (k - 1).succ = k by omega]
    exact hψ
  refine ⟨h0, mul_inv_cancel₀ h0, mul_inv_cancel₀ (pow_ne_zero 2 h0), h1, ?_,
    mul_inv_cancel₀ (pow_ne_zero k two_ne_zero_Zq)⟩
  intro hk
  rw [inv_pow, h1 hk, inv_neg, inv_one]

theorem root_of_negacyclic {k : Nat} {ψ : Zq} (hψ : ψ ^ 2 ^ k = -1) (j : Nat) :
    (ψ * (ψ ^ 2) ^ j) ^ 2 ^ k = -1 := by
  rw [mul_pow, hψ, ← pow_mul, ← pow_mul, show 2 * (j * 2 ^ k) = 2 ^ k * (2 * j) by ring, pow_mul,
    hψ, pow_mul]
  simp

/-- Pointwise product of two transforms, in terms of the negacyclic product. -/
theorem conv_point {k : Nat} {ψ : Zq} (hψ : ψ ^ 2 ^ k = -1) (A B : Nat → Zq) (j : Nat) :
    evalPoly (2 ^ k) A (ψ * (ψ ^ 2) ^ j) * evalPoly (2 ^ k) B (ψ * (ψ ^ 2) ^ j) =
      ntt (2 ^ k) (ψ ^ 2) (fun l => negacyclic (2 ^ k) A B l * ψ ^ l) j := by
  rw [← evalPoly_negacyclic _ _ _ _ (root_of_negacyclic hψ j), evalPoly_scale]; rfl

theorem unscale {k : Nat} {ψ : Zq} (hψ : ψ ^ 2 ^ k = -1) (C : Nat → Zq) {i : Nat} (hi : i < 2 ^ k) :
    ntt (2 ^ k) (ψ ^ 2)⁻¹ (ntt (2 ^ k) (ψ ^ 2) (fun l => C l * ψ ^ l)) i *
      ((2 ^ k : Zq)⁻¹ * ψ⁻¹ ^ i) = C i := by
  obtain ⟨_, h1, h2, h3, _, h5⟩ := psi_facts hψ
  rw [ntt_ntt two_ne_zero_Zq h3 h2 _ hi]
  have : ψ ^ i * ψ⁻¹ ^ i = 1 := by rw [← mul_pow, h1, one_pow]
  linear_combination C i * (2 ^ k * (2 ^ k : Zq)⁻¹) * this + C i * h5

end Spec

namespace Ntt
open C NTT Spec Tables

/-- What a product routine must do on inputs `a`, `b` of size `2^k`, for any initial `c`. -/
def ProductSpec (k : Nat) (a b : Array Int) (m : M (Array Int × Array Int × Array Int)) : Prop :=
  ∃ c' a' b', m = .ok (c', a', b') ∧ c'.size = 2 ^ k ∧ a'.size = 2 ^ k ∧ b'.size = 2 ^ k ∧
    Reduced c' ∧ ∀ i, i < 2 ^ k → coeff c' i = negacyclic (2 ^ k) (coeff a) (coeff b) i

/-- The same, and the operands are left reduced. -/
def ProductSpec' (k : Nat) (a b : Array Int) (m : M (Array Int × Array Int × Array Int)) : Prop :=
  ∃ c' a' b', m = .ok (c', a', b') ∧ c'.size = 2 ^ k ∧ a'.size = 2 ^ k ∧ b'.size = 2 ^ k ∧
    Reduced c' ∧ Reduced a' ∧ Reduced b' ∧
    ∀ i, i < 2 ^ k → coeff c' i = negacyclic (2 ^ k) (coeff a) (coeff b) i

theorem ProductSpec'.weak {k : Nat} {a b : Array Int} {m : M (Array Int × Array Int × Array Int)}
    (h : ProductSpec' k a b m) : ProductSpec k a b m := by
  obtain ⟨c', a', b', h1, h2, h3, h4, h5, -, -, h6⟩ := h
  exact ⟨c', a', b', h1, h2, h3, h4, h5, h6⟩

/-- Result of a transform. -/
abbrev Gives (m : M (Array Int)) (n : Nat) (F : Nat → Zq) : Prop :=
  ∃ a', m = .ok a' ∧ a'.size = n ∧ Reduced a' ∧ ∀ i, i < n → coeff a' i = F i

/-- Products 1 to 4. -/
theorem product_scheme {k : Nat} (hk : k ≤ 31) {ψ : Zq} (hψ : ψ ^ 2 ^ k = -1)
    {fwd inv : Array Int → M (Array Int)} {pp ps : Array Int}
    (hpp : PowTable 1 1 ψ 0 12288 (2 ^ k) pp)
    (hps : PowTable 1 (2 ^ k : Zq)⁻¹ ψ⁻¹ 0 12288 (2 ^ k) ps)
    (hf : ∀ a A, a.size = 2 ^ k → Reduced a → (∀ i, i < 2 ^ k → coeff a i = A i) →
      Gives (fwd a) (2 ^ k) (fun i => ntt (2 ^ k) (ψ ^ 2) A (rev k i)))
    (hv : ∀ a A, a.size = 2 ^ k → Reduced a → (∀ i, i < 2 ^ k → coeff a i = A (rev k i)) →
      Gives (inv a) (2 ^ k) (ntt (2 ^ k) (ψ ^ 2)⁻¹ A))
    {c a b : Array Int} (hc : c.size = 2 ^ k) (ha : a.size = 2 ^ k) (hb : b.size = 2 ^ k)
    (hra : Reduced a) (hrb : Reduced b) :
    ProductSpec' k a b (do
      let a ← mul_array16 a (2 ^ k) pp
      let a ← fwd a
      let b ← mul_array16 b (2 ^ k) pp
      let b ← fwd b
      let c ← mul_array c (2 ^ k) a b
      let c ← inv c
      let c ← mul_array16 c (2 ^ k) ps
      pure (c, a, b)) := by
  have hn : 2 ^ k < 4294967296 := by have := pow31 hk; omega
  obtain ⟨a1, ea1, sa1, ra1, va1⟩ := run_mul_array16 hn ha hra hpp.1 (fun i hi => (hpp.2 i hi).1)
  obtain ⟨a2, ea2, sa2, ra2, va2⟩ := hf a1 (fun i => coeff a i * ψ ^ i) sa1 ra1 (fun i hi => by
    rw [va1 i hi]; have := (hpp.2 i hi).2; rw [one_mul, one_mul] at this; rw [this])
  obtain ⟨b1, eb1, sb1, rb1, vb1⟩ := run_mul_array16 hn hb hrb hpp.1 (fun i hi => (hpp.2 i hi).1)
  obtain ⟨b2, eb2, sb2, rb2, vb2⟩ := hf b1 (fun i => coeff b i * ψ ^ i) sb1 rb1 (fun i hi => by
    rw [vb1 i hi]; have := (hpp.2 i hi).2; rw [one_mul, one_mul] at this; rw [this])
  obtain ⟨c1, ec1, sc1, rc1, vc1⟩ := run_mul_array hn hc sa2 ra2 sb2 rb2
  obtain ⟨c2, ec2, sc2, rc2, vc2⟩ := hv c1
    (ntt (2 ^ k) (ψ ^ 2) (fun l => negacyclic (2 ^ k) (coeff a) (coeff b) l * ψ ^ l)) sc1 rc1
    (fun i hi => by
      rw [vc1 i hi, va2 i hi, vb2 i hi, ← conv_point hψ]
      unfold ntt
      rw [evalPoly_scale, evalPoly_scale])
  obtain ⟨c3, ec3, sc3, rc3, vc3⟩ := run_mul_array16 hn sc2 rc2 hps.1 (fun i hi => (hps.2 i hi).1)
  refine ⟨c3, a2, b2, ?_, sc3, sa2, sb2, rc3, ra2, rb2, fun i hi => ?_⟩
  · rw [ea1]
    show (fwd a1 >>= _) = _
    rw [ea2]
    show (mul_array16 b _ pp >>= _) = _
    rw [eb1]
    show (fwd b1 >>= _) = _
    rw [eb2]
    show (mul_array c _ a2 b2 >>= _) = _
    rw [ec1]
    show (inv c1 >>= _) = _
    rw [ec2]
    show (mul_array16 c2 _ ps >>= _) = _
    rw [ec3]; rfl
  · rw [vc3 i hi, vc2 i hi]
    have := (hps.2 i hi).2
    rw [one_mul] at this
    rw [this]
    exact unscale hψ _ hi

section
variable {k : Nat} (hk : k ≤ 31) {ψ : Zq} (hψ : ψ ^ 2 ^ k = -1) {t : Nttables}
  (ht : TablesOK k ψ t)
include hk hψ ht

theorem gives_fwd_ct (a : Array Int) (A : Nat → Zq) (ha : a.size = 2 ^ k) (hr : Reduced a)
    (hA : ∀ i, i < 2 ^ k → coeff a i = A i) :
    Gives (fwd_ct_std2rev t (2 ^ k) a) (2 ^ k) (fun i => ntt (2 ^ k) (ψ ^ 2) A (rev k i)) :=
  run_ct_std2rev hk (psi_facts hψ).2.2.2.1 ht.omega_powers_rev A ha hr hA

theorem gives_fwd_gs (a : Array Int) (A : Nat → Zq) (ha : a.size = 2 ^ k) (hr : Reduced a)
    (hA : ∀ i, i < 2 ^ k → coeff a i = A i) :
    Gives (fwd_gs_std2rev t (2 ^ k) a) (2 ^ k) (fun i => ntt (2 ^ k) (ψ ^ 2) A (rev k i)) :=
  run_gs_std2rev hk (psi_facts hψ).2.2.2.1 ht.omega_powers A ha hr hA

theorem gives_inv_ct (a : Array Int) (A : Nat → Zq) (ha : a.size = 2 ^ k) (hr : Reduced a)
    (hA : ∀ i, i < 2 ^ k → coeff a i = A (rev k i)) :
    Gives (intt_ct_rev2std t (2 ^ k) a) (2 ^ k) (ntt (2 ^ k) (ψ ^ 2)⁻¹ A) :=
  run_ct_rev2std hk (psi_facts hψ).2.2.2.2.1 ht.inv_omega_powers A ha hr hA

theorem gives_inv_gs (a : Array Int) (A : Nat → Zq) (ha : a.size = 2 ^ k) (hr : Reduced a)
    (hA : ∀ i, i < 2 ^ k → coeff a i = A (rev k i)) :
    Gives (intt_gs_rev2std t (2 ^ k) a) (2 ^ k) (ntt (2 ^ k) (ψ ^ 2)⁻¹ A) :=
  run_gs_rev2std hk (psi_facts hψ).2.2.2.2.1 ht.inv_omega_powers_rev A ha hr hA

variable {c a b : Array Int} (hc : c.size = 2 ^ k) (ha : a.size = 2 ^ k) (hb : b.size = 2 ^ k)
  (hra : Reduced a) (hrb : Reduced b)
include hc ha hb hra hrb

theorem run_product1' : ProductSpec' k a b (product1 t (2 ^ k) c a b) :=
  product_scheme hk hψ ht.psi_powers ht.scaled_inv_psi_powers (gives_fwd_ct hk hψ ht)
    (gives_inv_ct hk hψ ht) hc ha hb hra hrb

theorem run_product2' : ProductSpec' k a b (product2 t (2 ^ k) c a b) :=
  product_scheme hk hψ ht.psi_powers ht.scaled_inv_psi_powers (gives_fwd_gs hk hψ ht)
    (gives_inv_ct hk hψ ht) hc ha hb hra hrb

theorem run_product3' : ProductSpec' k a b (product3 t (2 ^ k) c a b) :=
  product_scheme hk hψ ht.psi_powers ht.scaled_inv_psi_powers (gives_fwd_ct hk hψ ht)
    (gives_inv_gs hk hψ ht) hc ha hb hra hrb

theorem run_product4' : ProductSpec' k a b (product4 t (2 ^ k) c a b) :=
  product_scheme hk hψ ht.psi_powers ht.scaled_inv_psi_powers (gives_fwd_gs hk hψ ht)
    (gives_inv_gs hk hψ ht) hc ha hb hra hrb

theorem run_product5' : ProductSpec' k a b (product5 t (2 ^ k) c a b) := by
  have hn : 2 ^ k < 4294967296 := by have := pow31 hk; omega
  have hp := psi_facts hψ
  obtain ⟨a1, ea1, sa1, ra1, va1⟩ := run_mulct_std2rev hk hp.2.2.2.1 ht.mixed_powers_rev (coeff a)
    ha hra (fun _ _ => rfl)
  obtain ⟨b1, eb1, sb1, rb1, vb1⟩ := run_mulct_std2rev hk hp.2.2.2.1 ht.mixed_powers_rev (coeff b)
    hb hrb (fun _ _ => rfl)
  obtain ⟨c1, ec1, sc1, rc1, vc1⟩ := run_mul_array hn hc sa1 ra1 sb1 rb1
  obtain ⟨c2, ec2, sc2, rc2, vc2⟩ := run_gsmul_rev2std hk hp.2.2.2.2.1 ht.inv_mixed_powers_rev
    (ntt (2 ^ k) (ψ ^ 2) (fun l => negacyclic (2 ^ k) (coeff a) (coeff b) l * ψ ^ l)) sc1 rc1
    (fun i hi => by rw [vc1 i hi, va1 i hi, vb1 i hi, ← conv_point hψ])
  have hin : Rq (t.inv_n : Int) := ⟨by omega, by have := ht.inv_n.2; omega⟩
  obtain ⟨c3, ec3, sc3, rc3, vc3⟩ := run_scalar_mul_array hn sc2 rc2 hin
  refine ⟨c3, a1, b1, ?_, sc3, sa1, sb1, rc3, ra1, rb1, fun i hi => ?_⟩
  · unfold product5 fwdmul_ct_std2rev inttmul_gs_rev2std
    rw [ea1]
    show (mulntt_ct_std2rev b _ _ >>= _) = _
    rw [eb1]
    show (mul_array c _ a1 b1 >>= _) = _
    rw [ec1]
    show (nttmul_gs_rev2std c1 _ _ >>= _) = _
    rw [ec2]
    show (scalar_mul_array c2 _ _ >>= _) = _
    rw [ec3]; rfl
  · rw [vc3 i hi, vc2 i hi]
    rw [show ((t.inv_n : Int) : Zq) = (2 ^ k : Zq)⁻¹ by rw [← ht.inv_n.1]; simp]
    conv_rhs => rw [← unscale hψ (negacyclic (2 ^ k) (coeff a) (coeff b)) hi]
    ring

theorem run_product1 : ProductSpec k a b (product1 t (2 ^ k) c a b) :=
  (run_product1' hk hψ ht hc ha hb hra hrb).weak

theorem run_product2 : ProductSpec k a b (product2 t (2 ^ k) c a b) :=
  (run_product2' hk hψ ht hc ha hb hra hrb).weak

theorem run_product3 : ProductSpec k a b (product3 t (2 ^ k) c a b) :=
  (run_product3' hk hψ ht hc ha hb hra hrb).weak

theorem run_product4 : ProductSpec k a b (product4 t (2 ^ k) c a b) :=
  (run_product4' hk hψ ht hc ha hb hra hrb).weak

theorem run_product5 : ProductSpec k a b (product5 t (2 ^ k) c a b) :=
  (run_product5' hk hψ ht hc ha hb hra hrb).weak

end
end Ntt
