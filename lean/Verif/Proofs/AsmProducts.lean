import Verif.Model.AsmProducts
import Verif.Proofs.RedProducts
import Verif.Props.AsmElementwise
import Verif.Props.AsmTransforms

/-
Proofs about the products of src/ntt_red_asm<n>.c: each assembly function leaves the array that the C
function leaves (C35, C36), so the proofs for the C products apply.
-/

namespace AsmProducts
open C NTT Spec Tables Asm
open NttRed (InRange.mono ProductSpec Gives coeff_of_elt mul_bound rescale ctSeq gsSeq
  ctStep_30717 ctStep_12413 gsStep_mid gsStep_low ctEnd_mid gsEnd_mid ctEnd_low gsEnd_low gsEnd_low9
  rescale8_small Safe red_bound)

theorem lift {α : Type} {m m' : M α} {P : α → Prop} (h : ∀ a', m = .ok a' → m' = .ok a')
    (g : ∃ a', m = .ok a' ∧ P a') : ∃ a', m' = .ok a' ∧ P a' := by
  obtain ⟨a', e, p⟩ := g
  exact ⟨a', h a' e, p⟩

theorem lift_eq {α : Type} {m m' : M α} {P : α → Prop} (h : m' = m)
    (g : ∃ a', m = .ok a' ∧ P a') : ∃ a', m' = .ok a' ∧ P a' := by
  rw [h]; exact g

section
variable {k : Nat} (hk4 : 4 ≤ k) (hk : k ≤ 31)
include hk4 hk

theorem size_facts : 2 ^ k = 16 * 2 ^ (k - 4) ∧ 0 < 2 ^ (k - 4) ∧ 16 * 2 ^ (k - 4) < 2 ^ 32 ∧
    2 ^ k < 4294967296 := by
  have h1 := pow16 hk4
  have h2 := pow31 hk
  have h3 := Nat.two_pow_pos (k - 4)
  refine ⟨h1, h3, ?_, ?_⟩ <;> omega

theorem run_shiftInput (sh : Bool) {a : Array Int} (ha : a.size = 2 ^ k) (hr : Reduced a) :
    ∃ a', shiftInput (2 ^ k) sh a = .ok a' ∧ a'.size = 2 ^ k ∧ InRange (-6144) 12288 a' ∧
      ∀ i, i < 2 ^ k → coeff a' i = coeff a i := by
  obtain ⟨h1, h2, h3, h4⟩ := size_facts hk4 hk
  refine lift_eq ?_ (NttRed.run_shiftInput h4 sh ha hr)
  unfold shiftInput NttRed.shiftInput
  cases sh
  · rfl
  · rw [if_pos rfl, if_pos rfl, h1]
    exact Props.C35_shift_array_asm h2 h3 a (by omega) (fun i hi => by have := hr i hi; omega)

theorem run_mul16 {a p : Array Int} (ha : a.size = 2 ^ k) (hp : 2 ^ k ≤ p.size)
    (h : ∀ i, i < 2 ^ k → Safe (elt a i * elt p i)) :
    ∃ a', mul_reduce_array16_asm a (2 ^ k) p = .ok a' ∧ a'.size = 2 ^ k ∧
      ∀ i, i < 2 ^ k → elt a' i = Spec.red (elt a i * elt p i) := by
  obtain ⟨h1, h2, h3, h4⟩ := size_facts hk4 hk
  refine lift (fun a' e => ?_) (NttRed.run_mul_reduce_array16 h4 ha hp h)
  rw [h1] at e ⊢
  exact Props.C35_mul_reduce_array16_asm h2 h3 a p a' (by omega) (by omega) e

theorem run_scale {s c : Zq} {p a : Array Int} (hp : PowTable 3 s c (-6144) 6144 (2 ^ k) p)
    (ha : a.size = 2 ^ k) (hr : InRange (-6144) 12288 a) :
    ∃ a', mul_reduce_array16_asm a (2 ^ k) p = .ok a' ∧ a'.size = 2 ^ k ∧
      InRange (-18432) 30717 a' ∧ ∀ i, i < 2 ^ k → coeff a' i = coeff a i * (s * c ^ i) := by
  obtain ⟨h1, h2, h3, h4⟩ := size_facts hk4 hk
  refine lift (fun a' e => ?_) (NttRed.run_scale hk hp ha hr)
  have := hp.1
  rw [h1] at e ⊢
  exact Props.C35_mul_reduce_array16_asm h2 h3 a p a' (by omega) (by omega) e

theorem run_reduce {a : Array Int} {F : Nat → Zq} (ha : a.size = 2 ^ k)
    (hr : InRange (-2147483648) 2147483647 a) (hF : ∀ i, i < 2 ^ k → coeff a i = F i) :
    ∃ a', reduce_array_asm a (2 ^ k) = .ok a' ∧ a'.size = 2 ^ k ∧ InRange (-524287) 536573 a' ∧
      ∀ i, i < 2 ^ k → coeff a' i = 3 * F i := by
  obtain ⟨h1, h2, h3, h4⟩ := size_facts hk4 hk
  refine lift_eq ?_ (NttRed.run_reduce h4 ha hr hF)
  rw [h1]
  exact Props.C35_reduce_array_asm h2 h3 a (by omega) hr

theorem run_twice {a : Array Int} {F : Nat → Zq} (ha : a.size = 2 ^ k)
    (hr : InRange (-2147483648) 2147483647 a) (hF : ∀ i, i < 2 ^ k → coeff a i = F i) :
    ∃ a', reduce_array_twice_asm a (2 ^ k) = .ok a' ∧ a'.size = 2 ^ k ∧ InRange (-130) 12413 a' ∧
      ∀ i, i < 2 ^ k → coeff a' i = 9 * F i := by
  obtain ⟨h1, h2, h3, h4⟩ := size_facts hk4 hk
  refine lift_eq ?_ (NttRed.run_twice h4 ha hr hF)
  rw [h1]
  exact Props.C35_reduce_array_twice_asm h2 h3 a (by omega) hr

theorem run_pointwise {a b c : Array Int} {F G : Nat → Zq} (hc : c.size = 2 ^ k) (ha : a.size = 2 ^ k)
    (hb : b.size = 2 ^ k) (hra : InRange (-524287) 536573 a) (hrb : InRange (-524287) 536573 b)
    (hF : ∀ i, i < 2 ^ k → coeff a i = F i) (hG : ∀ i, i < 2 ^ k → coeff b i = G i) :
    ∃ c', mul_reduce_array_asm c (2 ^ k) a b = .ok c' ∧ c'.size = 2 ^ k ∧
      InRange (-2147483648) 2147483647 c' ∧ ∀ i, i < 2 ^ k → coeff c' i = 3 * (F i * G i) := by
  obtain ⟨h1, h2, h3, h4⟩ := size_facts hk4 hk
  refine lift (fun c' e => ?_) (NttRed.run_pointwise h4 hc ha hb hra hrb hF hG)
  rw [h1] at e ⊢
  exact Props.C35_mul_reduce_array_asm h2 h3 c a b c' (by omega) (by omega) (by omega) e

theorem run_scalar {a : Array Int} {c up : Int} (hI : I32 c) (ha : a.size = 2 ^ k)
    (h : ∀ i, i < 2 ^ k → Safe (elt a i * c)) :
    ∃ a', scalar_mul_reduce_array_asm a (2 ^ k) (c + 4294967296 * up) = .ok a' ∧ a'.size = 2 ^ k ∧
      ∀ i, i < 2 ^ k → elt a' i = Spec.red (elt a i * c) := by
  obtain ⟨h1, h2, h3, h4⟩ := size_facts hk4 hk
  refine lift (fun a' e => ?_) (NttRed.run_scalar_mul_reduce_array h4 ha h)
  rw [h1] at e ⊢
  refine Props.C35_scalar_mul_reduce_array_asm h2 h3 a a' c _ ?_ (by omega) e
  unfold I32 at hI; unfold toI32; omega

theorem run_canon {a : Array Int} {F : Nat → Zq} (ha : a.size = 2 ^ k)
    (hr : InRange (-130) 12413 a) (hF : ∀ i, i < 2 ^ k → coeff a i = F i) :
    ∃ a', correct_asm a (2 ^ k) = .ok a' ∧ a'.size = 2 ^ k ∧ Reduced a' ∧
      ∀ i, i < 2 ^ k → coeff a' i = F i := by
  obtain ⟨h1, h2, h3, h4⟩ := size_facts hk4 hk
  refine lift_eq ?_ (NttRed.run_canon h4 ha hr hF)
  rw [h1]
  exact Props.C35_correct_asm h2 h3 a (by omega) (InRange.mono hr (by decide) (by decide))

omit hk4 hk in
/-- The entries 1 to n-1 of a table are `int16_t`. -/
theorem rev_i16 {c ω : Zq} {p : Array Int} (h : RevTable 3 c ω (-6144) 6144 k p) :
    ∀ i, 0 < i → i < 2 ^ k → I16 (elt p i) := by
  intro i h0 hi
  have hm : 2 ^ Nat.log2 i ≤ i := Nat.log2_self_le (by omega)
  have hm2 : i < 2 ^ (Nat.log2 i + 1) := Nat.lt_log2_self
  have hmk : Nat.log2 i < k := (Nat.log2_lt (by omega)).2 hi
  have := h.2 (Nat.log2 i) (i - 2 ^ Nat.log2 i) hmk (by rw [pow_succ] at hm2; omega)
  rw [show 2 ^ Nat.log2 i + (i - 2 ^ Nat.log2 i) = i by omega] at this
  unfold I16; omega

theorem run_mulct_std2rev {β : Nat → Int} {c ω : Zq} {p a : Array Int}
    (hω : 0 < k → ω ^ 2 ^ (k - 1) = -1) (hp : RevTable 3 c ω (-6144) 6144 k p)
    (hβ : ∀ m, m < k → NttRed.CtStep (β m) (β (m + 1))) (A : Nat → Zq) (ha : a.size = 2 ^ k)
    (hr : InRange (-β 0) (β 0) a) (hA : ∀ i, i < 2 ^ k → coeff a i = A i) :
    ∃ a', mulntt_red_ct_std2rev_asm a (2 ^ k) p = .ok a' ∧ a'.size = 2 ^ k ∧
      InRange (-β k) (β k) a' ∧
      ∀ i, i < 2 ^ k → coeff a' i = evalPoly (2 ^ k) A (c * ω ^ rev k i) := by
  refine lift (fun a' e => ?_) (NttRed.run_mulct_std2rev hk hω hp hβ A ha hr hA)
  exact Props.tr_eq (c_mulct_std2rev hk hp.1 ha e)
    (wp_mulct_std2rev_asm hk4 hp.1 (rev_i16 hp) (Is.self ha))

theorem run_gsmul_rev2std {l u : Nat → Int} {c ω : Zq} {p a : Array Int}
    (hω : 0 < k → ω ^ 2 ^ (k - 1) = -1) (hp : RevTable 3 c ω (-6144) 6144 k p)
    (hβ : ∀ m, m < k → NttRed.GsStep (l m) (u m) (l (m + 1)) (u (m + 1)))
    (A : Nat → Zq) (ha : a.size = 2 ^ k) (hr : InRange (l 0) (u 0) a)
    (hA : ∀ i, i < 2 ^ k → coeff a i = A (rev k i)) :
    ∃ a', nttmul_red_gs_rev2std_asm a (2 ^ k) p = .ok a' ∧ a'.size = 2 ^ k ∧
      InRange (l k) (u k) a' ∧ ∀ i, i < 2 ^ k → coeff a' i = c ^ i * ntt (2 ^ k) ω A i := by
  refine lift (fun a' e => ?_) (NttRed.run_gsmul_rev2std hk hω hp hβ A ha hr hA)
  exact Props.tr_eq (c_gsmul_rev2std hk hp.1 ha e)
    (wp_gsmul_rev2std_asm hk4 hp.1 (rev_i16 hp) (Is.self ha))

end

/-- Products 1 to 4. -/
theorem product_scheme {k : Nat} (hk4 : 4 ≤ k) (hk : k ≤ 11) {ψ : Zq} (hψ : ψ ^ 2 ^ k = -1)
    {fwd inv : Array Int → M (Array Int)} {pp ps : Array Int}
    (hpp : PowTable 3 1 ψ (-6144) 6144 (2 ^ k) pp)
    (hps : PowTable 1 (3 ^ 8 * 2 ^ k : Zq)⁻¹ ψ⁻¹ (-6144) 6144 (2 ^ k) ps)
    (hf : ∀ a A, a.size = 2 ^ k → InRange (-18432) 30717 a → (∀ i, i < 2 ^ k → coeff a i = A i) →
      Gives (fwd a) (2 ^ k) 2147483647 (fun i => ntt (2 ^ k) (ψ ^ 2) A (rev k i)))
    (hv : ∀ a A, a.size = 2 ^ k → InRange (-130) 12413 a →
      (∀ i, i < 2 ^ k → coeff a i = A (rev k i)) →
      Gives (inv a) (2 ^ k) 1100000000 (ntt (2 ^ k) (ψ ^ 2)⁻¹ A))
    (sh : Bool)
    {c a b : Array Int} (hc : c.size = 2 ^ k) (ha : a.size = 2 ^ k) (hb : b.size = 2 ^ k)
    (hra : Reduced a) (hrb : Reduced b) :
    ProductSpec k a b (do
      let a ← shiftInput (2 ^ k) sh a
      let a ← mul_reduce_array16_asm a (2 ^ k) pp
      let a ← fwd a
      let a ← reduce_array_asm a (2 ^ k)
      let b ← shiftInput (2 ^ k) sh b
      let b ← mul_reduce_array16_asm b (2 ^ k) pp
      let b ← fwd b
      let b ← reduce_array_asm b (2 ^ k)
      let c ← mul_reduce_array_asm c (2 ^ k) a b
      let c ← reduce_array_twice_asm c (2 ^ k)
      let c ← inv c
      let c ← mul_reduce_array16_asm c (2 ^ k) ps
      let c ← reduce_array_twice_asm c (2 ^ k)
      let c ← correct_asm c (2 ^ k)
      pure (c, a, b)) := by
  have hk' : k ≤ 31 := by omega
  have hn : 2 ^ k < 4294967296 := by have := pow31 hk'; omega
  refine wp_total.1 ?_
  simp only [wp_bind, wp_pure]
  refine (wp_total.2 (run_shiftInput hk4 hk' sh ha hra)).mono ?_
  rintro a1 ⟨sa1, ra1, va1⟩
  refine (wp_total.2 (run_scale hk4 hk' hpp sa1 ra1)).mono ?_
  rintro a2 ⟨sa2, ra2, va2⟩
  refine (wp_total.2 (hf a2 (fun i => coeff a i * ψ ^ i) sa2 ra2
    (fun i hi => by rw [va2 i hi, va1 i hi, one_mul]))).mono ?_
  rintro a3 ⟨sa3, ra3, va3⟩
  refine (wp_total.2 (run_reduce hk4 hk' sa3 (InRange.mono ra3 (by omega) (by omega)) va3)).mono ?_
  rintro a4 ⟨sa4, ra4, va4⟩
  refine (wp_total.2 (run_shiftInput hk4 hk' sh hb hrb)).mono ?_
  rintro b1 ⟨sb1, rb1, vb1⟩
  refine (wp_total.2 (run_scale hk4 hk' hpp sb1 rb1)).mono ?_
  rintro b2 ⟨sb2, rb2, vb2⟩
  refine (wp_total.2 (hf b2 (fun i => coeff b i * ψ ^ i) sb2 rb2
    (fun i hi => by rw [vb2 i hi, vb1 i hi, one_mul]))).mono ?_
  rintro b3 ⟨sb3, rb3, vb3⟩
  refine (wp_total.2 (run_reduce hk4 hk' sb3 (InRange.mono rb3 (by omega) (by omega)) vb3)).mono ?_
  rintro b4 ⟨sb4, rb4, vb4⟩
  refine (wp_total.2 (run_pointwise hk4 hk' hc sa4 sb4 ra4 rb4 va4 vb4)).mono ?_
  rintro c1 ⟨sc1, rc1, vc1⟩
  refine (wp_total.2 (run_twice hk4 hk' sc1 rc1 vc1)).mono ?_
  rintro c2 ⟨sc2, rc2, vc2⟩
  refine (wp_total.2 (hv c2 (fun j => 243 * ntt (2 ^ k) (ψ ^ 2)
      (fun l => negacyclic (2 ^ k) (coeff a) (coeff b) l * ψ ^ l) j) sc2 rc2
    (fun i hi => by
      rw [vc2 i hi, ← conv_point hψ, evalPoly_scale, evalPoly_scale]
      unfold ntt; ring))).mono ?_
  rintro c3 ⟨sc3, rc3, vc3⟩
  have hm : ∀ i, i < 2 ^ k → -6758400000000 ≤ elt c3 i * elt ps i ∧
      elt c3 i * elt ps i ≤ 6758400000000 := fun i hi => by
    have := mul_bound (rc3 i (by omega)) (hps.2 i hi).1
    constructor <;> linarith
  refine (wp_total.2 (run_mul16 hk4 hk' sc3 hps.1
    (fun i hi => by have := hm i hi; exact ⟨by omega, by omega⟩))).mono ?_
  rintro c4 ⟨sc4, vc4⟩
  refine (wp_total.2 (run_twice hk4 hk' sc4 (fun i hi => by
    have := hm i (by omega)
    rw [vc4 i (by omega)]
    have hd := red_def (elt c3 i * elt ps i)
    omega) (F := coeff c4) (fun _ _ => rfl))).mono ?_
  rintro c5 ⟨sc5, rc5, vc5⟩
  refine (wp_total.2 (run_canon hk4 hk' sc5 rc5 vc5)).mono ?_
  rintro c6 ⟨sc6, rc6, vc6⟩
  refine ⟨sc6, sa4, sb4, rc6, fun i hi => ?_⟩
  rw [vc6 i hi, coeff_of_elt (vc4 i hi), red_zq]
  rw [← rescale hψ (negacyclic (2 ^ k) (coeff a) (coeff b)) hi, ← vc3 i hi, ← (hps.2 i hi).2]
  push_cast; unfold coeff; ring

section
variable {k : Nat} (hk4 : 4 ≤ k) (hk : k ≤ 11) {ψ : Zq} (hψ : ψ ^ 2 ^ k = -1) {t : RedTables}
  (ht : RedTablesOK k ψ t)
include hk4 hk hψ ht

theorem gives_fwd_ct (a : Array Int) (A : Nat → Zq) (ha : a.size = 2 ^ k)
    (hr : InRange (-18432) 30717 a) (hA : ∀ i, i < 2 ^ k → coeff a i = A i) :
    Gives (fwd_ct_std2rev t (2 ^ k) a) (2 ^ k) 2147483647
      (fun i => ntt (2 ^ k) (ψ ^ 2) A (rev k i)) := by
  refine lift (fun a' e => ?_) (NttRed.gives_fwd_ct hk hψ ht a A ha hr hA)
  have hp := ht.omega_powers_rev
  have hi32 := Props.tr_i32 (InRange.mono hr (by decide) (by decide))
  exact Props.tr_eq (c_ct_std2rev (by omega) hp.1 (Props.unit_rev hp) ha hi32 e)
    (wp_ct_std2rev_asm hk4 hp.1 (rev_i16 hp) (Props.unit_rev hp) (Is.self ha) hi32)

theorem gives_fwd_gs (a : Array Int) (A : Nat → Zq) (ha : a.size = 2 ^ k)
    (hr : InRange (-18432) 30717 a) (hA : ∀ i, i < 2 ^ k → coeff a i = A i) :
    Gives (fwd_gs_std2rev t (2 ^ k) a) (2 ^ k) 2147483647
      (fun i => ntt (2 ^ k) (ψ ^ 2) A (rev k i)) := by
  refine lift (fun a' e => ?_) (NttRed.gives_fwd_gs hk hψ ht a A ha hr hA)
  have hp := ht.omega_powers
  exact Props.tr_eq (c_gs_std2rev (by omega) hp.1 (Props.unit_std hp) ha e)
    (wp_gs_std2rev_asm hk4 hp.1 (Props.unit_std hp) (Is.self ha))

theorem gives_inv_ct (a : Array Int) (A : Nat → Zq) (ha : a.size = 2 ^ k)
    (hr : InRange (-130) 12413 a) (hA : ∀ i, i < 2 ^ k → coeff a i = A (rev k i)) :
    Gives (intt_ct_rev2std t (2 ^ k) a) (2 ^ k) 1100000000 (ntt (2 ^ k) (ψ ^ 2)⁻¹ A) := by
  refine lift (fun a' e => ?_) (NttRed.gives_inv_ct hk hψ ht a A ha hr hA)
  have hp := ht.inv_omega_powers
  have hi32 := Props.tr_i32 (InRange.mono hr (by decide) (by decide))
  exact Props.tr_eq (c_ct_rev2std (by omega) hp.1 (Props.unit_std hp) ha hi32 e)
    (wp_ct_rev2std_asm hk4 hp.1 (Props.unit_std hp) (Is.self ha) hi32)

theorem gives_inv_gs (a : Array Int) (A : Nat → Zq) (ha : a.size = 2 ^ k)
    (hr : InRange (-130) 12413 a) (hA : ∀ i, i < 2 ^ k → coeff a i = A (rev k i)) :
    Gives (intt_gs_rev2std t (2 ^ k) a) (2 ^ k) 1100000000 (ntt (2 ^ k) (ψ ^ 2)⁻¹ A) := by
  refine lift (fun a' e => ?_) (NttRed.gives_inv_gs hk hψ ht a A ha hr hA)
  have hp := ht.inv_omega_powers_rev
  exact Props.tr_eq (c_gs_rev2std (by omega) hp.1 (Props.unit_rev hp) ha e)
    (wp_gs_rev2std_asm hk4 hp.1 (rev_i16 hp) (Props.unit_rev hp) (Is.self ha))

theorem gives_invmul_gs (a : Array Int) (A : Nat → Zq) (ha : a.size = 2 ^ k)
    (hr : InRange (-130) 12413 a) (hA : ∀ i, i < 2 ^ k → coeff a i = A (rev k i)) :
    ∃ a', nttmul_red_gs_rev2std_asm a (2 ^ k) t.inv_mixed_powers_rev = .ok a' ∧ a'.size = 2 ^ k ∧
      (∀ i, i < 2 ^ k → -6179000000000 ≤ elt a' i * (t.rescale8 : Int) ∧
        elt a' i * (t.rescale8 : Int) ≤ 6179000000000) ∧
      ∀ i, i < 2 ^ k → coeff a' i = ψ⁻¹ ^ i * ntt (2 ^ k) (ψ ^ 2)⁻¹ A i := by
  refine lift (fun a' e => ?_) (NttRed.gives_invmul_gs hk hψ ht a A ha hr hA)
  have hp := ht.inv_mixed_powers_rev
  exact Props.tr_eq (c_gsmul_rev2std (by omega) hp.1 ha e)
    (wp_gsmul_rev2std_asm hk4 hp.1 (rev_i16 hp) (Is.self ha))

variable (sh : Bool) (up : Int) {c a b : Array Int} (hc : c.size = 2 ^ k) (ha : a.size = 2 ^ k)
  (hb : b.size = 2 ^ k) (hra : Reduced a) (hrb : Reduced b)
include hc ha hb hra hrb

theorem run_product1 : ProductSpec k a b (product1 t (2 ^ k) sh c a b) :=
  product_scheme hk4 hk hψ ht.psi_powers ht.scaled_inv_psi_powers (gives_fwd_ct hk4 hk hψ ht)
    (gives_inv_ct hk4 hk hψ ht) sh hc ha hb hra hrb

theorem run_product2 : ProductSpec k a b (product2 t (2 ^ k) sh c a b) :=
  product_scheme hk4 hk hψ ht.psi_powers ht.scaled_inv_psi_powers (gives_fwd_gs hk4 hk hψ ht)
    (gives_inv_ct hk4 hk hψ ht) sh hc ha hb hra hrb

theorem run_product3 : ProductSpec k a b (product3 t (2 ^ k) sh c a b) :=
  product_scheme hk4 hk hψ ht.psi_powers ht.scaled_inv_psi_powers (gives_fwd_ct hk4 hk hψ ht)
    (gives_inv_gs hk4 hk hψ ht) sh hc ha hb hra hrb

theorem run_product4 : ProductSpec k a b (product4 t (2 ^ k) sh c a b) :=
  product_scheme hk4 hk hψ ht.psi_powers ht.scaled_inv_psi_powers (gives_fwd_gs hk4 hk hψ ht)
    (gives_inv_gs hk4 hk hψ ht) sh hc ha hb hra hrb

theorem run_product5 : ProductSpec k a b (product5 t (2 ^ k) up sh c a b) := by
  have hk' : k ≤ 31 := by omega
  have hn : 2 ^ k < 4294967296 := by have := pow31 hk'; omega
  have hp := psi_facts hψ
  have hend := ctEnd_mid k (by omega)
  refine wp_total.1 ?_
  unfold product5 fwdmul_ct_std2rev inttmul_gs_rev2std
  simp only [wp_bind, wp_pure]
  refine (wp_total.2 (run_shiftInput hk4 hk' sh ha hra)).mono ?_
  rintro a1 ⟨sa1, ra1, va1⟩
  refine (wp_total.2 (run_mulct_std2rev hk4 (β := ctSeq 30717) hk' hp.2.2.2.1 ht.mixed_powers_rev
    (fun m hm => ctStep_30717 m (by omega)) (coeff a) sa1
    (InRange.mono ra1 (by decide) (by decide)) va1)).mono ?_
  rintro a3 ⟨sa3, ra3, va3⟩
  refine (wp_total.2 (run_reduce hk4 hk' sa3 (InRange.mono ra3 (by omega) (by omega)) va3)).mono ?_
  rintro a4 ⟨sa4, ra4, va4⟩
  refine (wp_total.2 (run_shiftInput hk4 hk' sh hb hrb)).mono ?_
  rintro b1 ⟨sb1, rb1, vb1⟩
  refine (wp_total.2 (run_mulct_std2rev hk4 (β := ctSeq 30717) hk' hp.2.2.2.1 ht.mixed_powers_rev
    (fun m hm => ctStep_30717 m (by omega)) (coeff b) sb1
    (InRange.mono rb1 (by decide) (by decide)) vb1)).mono ?_
  rintro b3 ⟨sb3, rb3, vb3⟩
  refine (wp_total.2 (run_reduce hk4 hk' sb3 (InRange.mono rb3 (by omega) (by omega)) vb3)).mono ?_
  rintro b4 ⟨sb4, rb4, vb4⟩
  refine (wp_total.2 (run_pointwise hk4 hk' hc sa4 sb4 ra4 rb4 va4 vb4)).mono ?_
  rintro c1 ⟨sc1, rc1, vc1⟩
  refine (wp_total.2 (run_twice hk4 hk' sc1 rc1 vc1)).mono ?_
  rintro c2 ⟨sc2, rc2, vc2⟩
  refine (wp_total.2 (gives_invmul_gs hk4 hk hψ ht c2 (fun j => 243 * ntt (2 ^ k) (ψ ^ 2)
      (fun l => negacyclic (2 ^ k) (coeff a) (coeff b) l * ψ ^ l) j) sc2 rc2
    (fun i hi => by
      rw [vc2 i hi, ← conv_point hψ]; ring))).mono ?_
  rintro c3 ⟨sc3, hm, vc3⟩
  refine (wp_total.2 (run_scalar hk4 hk' (up := up) (c := (t.rescale8 : Int)) (by have := ht.rescale8.2; unfold I32; omega) sc3
    (fun i hi => by have := hm i hi; exact ⟨by omega, by omega⟩))).mono ?_
  rintro c4 ⟨sc4, vc4⟩
  refine (wp_total.2 (run_twice hk4 hk' sc4 (fun i hi => by
    have := hm i (by omega)
    rw [vc4 i (by omega)]
    have hd := red_def (elt c3 i * (t.rescale8 : Int))
    omega) (F := coeff c4) (fun _ _ => rfl))).mono ?_
  rintro c5 ⟨sc5, rc5, vc5⟩
  refine (wp_total.2 (run_canon hk4 hk' sc5 rc5 vc5)).mono ?_
  rintro c6 ⟨sc6, rc6, vc6⟩
  refine ⟨sc6, sa4, sb4, rc6, fun i hi => ?_⟩
  rw [vc6 i hi, coeff_of_elt (vc4 i hi), red_zq]
  rw [← rescale hψ (negacyclic (2 ^ k) (coeff a) (coeff b)) hi]
  have e1 : ((t.rescale8 : Int) : Zq) = (3 ^ 8 * 2 ^ k : Zq)⁻¹ := by rw [← ht.rescale8.1]; simp
  have e2 : ((elt c3 i : Int) : Zq) = _ := vc3 i hi
  push_cast at e1 ⊢
  rw [e1, e2]; ring

end
end AsmProducts
