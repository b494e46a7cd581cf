import Verif.Proofs.Params

/-
C10: the inverse transforms of src/ntt<n>.h undo the forward transforms, exactly, for the tables
that `make_tables` prints.
-/

namespace Props
open C Spec Ntt NTT Tables

section
variable {k : Nat} {ψ : Zq} {t : Nttables}

private theorem scale_back (hk : k ≤ 31) (ht : TablesOK k ψ t) {a a2 : Array Int}
    (ha : a.size = 2 ^ k) (hr : Reduced a) (s2 : a2.size = 2 ^ k) (r2 : Reduced a2)
    (v2 : ∀ i, i < 2 ^ k → coeff a2 i = 2 ^ k * coeff a i) :
    scalar_mul_array a2 (2 ^ k) t.inv_n = .ok a := by
  have hn : 2 ^ k < 4294967296 := by have := pow31 hk; omega
  have hin : Rq (t.inv_n : Int) := ⟨by omega, by have := ht.inv_n.2; omega⟩
  obtain ⟨a3, e3, s3, r3, v3⟩ := run_scalar_mul_array hn s2 r2 hin
  rw [e3]; congr 1
  refine reduced_ext (by omega) r3 hr fun i hi => ?_
  rw [s3] at hi
  have h2 : (2 ^ k : Zq) * (2 ^ k : Zq)⁻¹ = 1 := mul_inv_cancel₀ (pow_ne_zero k two_ne_zero_Zq)
  rw [v3 i hi, v2 i hi, show ((t.inv_n : Int) : Zq) = (2 ^ k : Zq)⁻¹ by rw [← ht.inv_n.1]; simp]
  linear_combination coeff a i * h2

private theorem std_rev (hk : k ≤ 31) (hψ : ψ ^ 2 ^ k = -1) (ht : TablesOK k ψ t)
    {fwd inv : Array Int → M (Array Int)}
    (hf : ∀ a A, a.size = 2 ^ k → Reduced a → (∀ i, i < 2 ^ k → coeff a i = A i) →
      Gives (fwd a) (2 ^ k) (fun i => ntt (2 ^ k) (ψ ^ 2) A (rev k i)))
    (hv : ∀ a A, a.size = 2 ^ k → Reduced a → (∀ i, i < 2 ^ k → coeff a i = A (rev k i)) →
      Gives (inv a) (2 ^ k) (ntt (2 ^ k) (ψ ^ 2)⁻¹ A))
    {a : Array Int} (ha : a.size = 2 ^ k) (hr : Reduced a) :
    (do let a1 ← fwd a; let a2 ← inv a1; scalar_mul_array a2 (2 ^ k) t.inv_n) = .ok a := by
  obtain ⟨a1, e1, s1, r1, v1⟩ := hf a (coeff a) ha hr (fun _ _ => rfl)
  obtain ⟨a2, e2, s2, r2, v2⟩ := hv a1 _ s1 r1 v1
  rw [e1]
  show (inv a1 >>= _) = _
  rw [e2]
  refine scale_back hk ht ha hr s2 r2 fun i hi => ?_
  rw [v2 i hi, ntt_ntt two_ne_zero_Zq (psi_facts hψ).2.2.2.1 (psi_facts hψ).2.2.1 _ hi]

private theorem rev_std (hk : k ≤ 31) (hψ : ψ ^ 2 ^ k = -1) (ht : TablesOK k ψ t)
    {fwd inv : Array Int → M (Array Int)}
    (hf : ∀ a A, a.size = 2 ^ k → Reduced a → (∀ i, i < 2 ^ k → coeff a i = A (rev k i)) →
      Gives (fwd a) (2 ^ k) (ntt (2 ^ k) (ψ ^ 2) A))
    (hv : ∀ a A, a.size = 2 ^ k → Reduced a → (∀ i, i < 2 ^ k → coeff a i = A i) →
      Gives (inv a) (2 ^ k) (fun i => ntt (2 ^ k) (ψ ^ 2)⁻¹ A (rev k i)))
    {a : Array Int} (ha : a.size = 2 ^ k) (hr : Reduced a) :
    (do let a1 ← fwd a; let a2 ← inv a1; scalar_mul_array a2 (2 ^ k) t.inv_n) = .ok a := by
  obtain ⟨a1, e1, s1, r1, v1⟩ := hf a (fun l => coeff a (rev k l)) ha hr
    (fun i hi => by rw [rev_rev k i hi])
  obtain ⟨a2, e2, s2, r2, v2⟩ := hv a1 _ s1 r1 v1
  rw [e1]
  show (inv a1 >>= _) = _
  rw [e2]
  refine scale_back hk ht ha hr s2 r2 fun i hi => ?_
  rw [v2 i hi]
  show ntt (2 ^ k) (ψ ^ 2)⁻¹ (ntt (2 ^ k) (ψ ^ 2) _) (rev k i) = _
  rw [ntt_ntt two_ne_zero_Zq (psi_facts hψ).2.2.2.1 (psi_facts hψ).2.2.1 _ (rev_lt k i),
    rev_rev k i hi]

end

/-- Forward transform to bit-reverse order, inverse transform back, multiplication by `n^-1`:
each of the four combinations returns the input array. -/
theorem C10_std2rev_rev2std {k : Nat} {xn xpsi : Int} (h : GoodParams k xn xpsi)
    {buf : Nat → Array Nat} (hb : ∀ n, (buf n).size = n) {t : Nttables}
    (ht : make_tables buf xn xpsi = .ok t) (a : Array Int) (ha : a.size = 2 ^ k)
    (hr : Reduced a) :
    ∀ fwd ∈ [fwd_ct_std2rev t (2 ^ k), fwd_gs_std2rev t (2 ^ k)],
    ∀ inv ∈ [intt_ct_rev2std t (2 ^ k), intt_gs_rev2std t (2 ^ k)],
    (do let a1 ← fwd a; let a2 ← inv a1; scalar_mul_array a2 (2 ^ k) t.inv_n) = .ok a := by
  obtain ⟨t', e, hok⟩ := tables_ok h hb
  have : t' = t := by rw [ht] at e; injection e with e; exact e.symm
  subst this
  have hk : k ≤ 31 := by
    have := k_le_16 (h.2.1 ▸ h.2.2.1); omega
  have hψ := good_psi h
  intro fwd hf inv hv
  simp only [List.mem_cons, List.not_mem_nil, or_false] at hf hv
  rcases hf with rfl | rfl <;> rcases hv with rfl | rfl
  · exact std_rev hk hψ hok (gives_fwd_ct hk hψ hok) (gives_inv_ct hk hψ hok) ha hr
  · exact std_rev hk hψ hok (gives_fwd_ct hk hψ hok) (gives_inv_gs hk hψ hok) ha hr
  · exact std_rev hk hψ hok (gives_fwd_gs hk hψ hok) (gives_inv_ct hk hψ hok) ha hr
  · exact std_rev hk hψ hok (gives_fwd_gs hk hψ hok) (gives_inv_gs hk hψ hok) ha hr

/-- The same through the transforms from bit-reverse order to standard order. -/
theorem C10_rev2std_std2rev {k : Nat} {xn xpsi : Int} (h : GoodParams k xn xpsi)
    {buf : Nat → Array Nat} (hb : ∀ n, (buf n).size = n) {t : Nttables}
    (ht : make_tables buf xn xpsi = .ok t) (a : Array Int) (ha : a.size = 2 ^ k)
    (hr : Reduced a) :
    ∀ fwd ∈ [fwd_ct_rev2std t (2 ^ k), fwd_gs_rev2std t (2 ^ k)],
    ∀ inv ∈ [intt_ct_std2rev t (2 ^ k), intt_gs_std2rev t (2 ^ k)],
    (do let a1 ← fwd a; let a2 ← inv a1; scalar_mul_array a2 (2 ^ k) t.inv_n) = .ok a := by
  obtain ⟨t', e, hok⟩ := tables_ok h hb
  have : t' = t := by rw [ht] at e; injection e with e; exact e.symm
  subst this
  have hk : k ≤ 31 := by
    have := k_le_16 (h.2.1 ▸ h.2.2.1); omega
  have hψ := good_psi h
  have f1 := fun a A ha hr hA =>
    run_ct_rev2std (a := a) hk (psi_facts hψ).2.2.2.1 hok.omega_powers A ha hr hA
  have f2 := fun a A ha hr hA =>
    run_gs_rev2std (a := a) hk (psi_facts hψ).2.2.2.1 hok.omega_powers_rev A ha hr hA
  have v1 := fun a A ha hr hA =>
    run_ct_std2rev (a := a) hk (psi_facts hψ).2.2.2.2.1 hok.inv_omega_powers_rev A ha hr hA
  have v2 := fun a A ha hr hA =>
    run_gs_std2rev (a := a) hk (psi_facts hψ).2.2.2.2.1 hok.inv_omega_powers A ha hr hA
  intro fwd hf inv hv
  simp only [List.mem_cons, List.not_mem_nil, or_false] at hf hv
  rcases hf with rfl | rfl <;> rcases hv with rfl | rfl
  · exact rev_std hk hψ hok f1 v1 ha hr
  · exact rev_std hk hψ hok f1 v2 ha hr
  · exact rev_std hk hψ hok f2 v1 ha hr
  · exact rev_std hk hψ hok f2 v2 ha hr

/-- The combined transforms: `mulntt` followed by the matching `inttmul`. -/
theorem C10_mulntt_inttmul {k : Nat} {xn xpsi : Int} (h : GoodParams k xn xpsi)
    {buf : Nat → Array Nat} (hb : ∀ n, (buf n).size = n) {t : Nttables}
    (ht : make_tables buf xn xpsi = .ok t) (a : Array Int) (ha : a.size = 2 ^ k)
    (hr : Reduced a) :
    (do let a1 ← fwdmul_ct_std2rev t (2 ^ k) a; let a2 ← inttmul_gs_rev2std t (2 ^ k) a1
        scalar_mul_array a2 (2 ^ k) t.inv_n) = .ok a ∧
    (do let a1 ← fwdmul_ct_rev2std t (2 ^ k) a; let a2 ← inttmul_gs_std2rev t (2 ^ k) a1
        scalar_mul_array a2 (2 ^ k) t.inv_n) = .ok a := by
  obtain ⟨t', e, hok⟩ := tables_ok h hb
  have : t' = t := by rw [ht] at e; injection e with e; exact e.symm
  subst this
  have hk : k ≤ 31 := by
    have := k_le_16 (h.2.1 ▸ h.2.2.1); omega
  have hψ := good_psi h
  have hp := psi_facts hψ
  constructor
  · obtain ⟨a1, e1, s1, r1, v1⟩ := run_mulct_std2rev hk hp.2.2.2.1 hok.mixed_powers_rev (coeff a)
      ha hr (fun _ _ => rfl)
    obtain ⟨a2, e2, s2, r2, v2⟩ := run_gsmul_rev2std hk hp.2.2.2.2.1 hok.inv_mixed_powers_rev
      (ntt (2 ^ k) ((xpsi : Zq) ^ 2) (fun l => coeff a l * (xpsi : Zq) ^ l)) s1 r1
      (fun i hi => by rw [v1 i hi, evalPoly_scale]; rfl)
    unfold fwdmul_ct_std2rev inttmul_gs_rev2std
    rw [e1]
    show (nttmul_gs_rev2std a1 _ _ >>= _) = _
    rw [e2]
    refine scale_back hk hok ha hr s2 r2 fun i hi => ?_
    rw [v2 i hi, ntt_ntt two_ne_zero_Zq hp.2.2.2.1 hp.2.2.1 _ hi]
    have : (xpsi : Zq) ^ i * (xpsi : Zq)⁻¹ ^ i = 1 := by rw [← mul_pow, hp.2.1, one_pow]
    linear_combination coeff a i * 2 ^ k * this
  · obtain ⟨a1, e1, s1, r1, v1⟩ := run_mulct_rev2std hk hp.2.2.2.1 hok.mixed_powers
      (fun l => coeff a (rev k l)) ha hr (fun i hi => by rw [rev_rev k i hi])
    obtain ⟨a2, e2, s2, r2, v2⟩ := run_gsmul_std2rev hk hp.2.2.2.2.1 hok.inv_mixed_powers
      (ntt (2 ^ k) ((xpsi : Zq) ^ 2) (fun l => coeff a (rev k l) * (xpsi : Zq) ^ l)) s1 r1
      (fun i hi => by rw [v1 i hi, evalPoly_scale]; rfl)
    unfold fwdmul_ct_rev2std inttmul_gs_std2rev
    rw [e1]
    show (nttmul_gs_std2rev a1 _ _ >>= _) = _
    rw [e2]
    refine scale_back hk hok ha hr s2 r2 fun i hi => ?_
    rw [v2 i hi, ntt_ntt two_ne_zero_Zq hp.2.2.2.1 hp.2.2.1 _ (rev_lt k i), rev_rev k i hi]
    have : (xpsi : Zq) ^ rev k i * (xpsi : Zq)⁻¹ ^ rev k i = 1 := by
      rw [← mul_pow, hp.2.1, one_pow]
    linear_combination coeff a i * 2 ^ k * this

/-- The hypotheses are met by the tables for 1024 and psi = 1014. -/
example : ∃ t, GoodParams 10 1024 1014 ∧ make_tables someBuf 1024 1014 = .ok t := by
  obtain ⟨t, e, _⟩ := tables_ok good1024 someBuf_size
  exact ⟨t, good1024, e⟩

end Props
