import Verif.SpecTransforms
import Verif.Proofs.AsmProducts
import Verif.Proofs.Naive
import Verif.Props.RedTransforms

/-
C49: the twelve transforms of src/ntt<n>.h, src/naive_ntt<n>.h, src/ntt_red<n>.h and
src/ntt_red_asm<n>.h compute what
their names say with the tables that the generators print, and in the two Longa-Naehrig libraries the
inverse transforms undo the forward transforms up to the documented factors.
-/

namespace Props
open C Spec NTT Tables

private theorem plain (n : Nat) (ω : Zq) (A : Nat → Zq) (i : Nat) :
    scaledNtt n ω 1 1 A i = ntt n ω A i := by
  unfold scaledNtt
  simp only [one_pow, mul_one, one_mul]

private theorem pre_only (n : Nat) (ω ψ : Zq) (A : Nat → Zq) (i : Nat) :
    scaledNtt n ω ψ 1 A i = ntt n ω (fun l => A l * ψ ^ l) i := by
  unfold scaledNtt
  simp only [one_pow, one_mul]

private theorem post_only (n : Nat) (ω ψ : Zq) (A : Nat → Zq) (i : Nat) :
    scaledNtt n ω 1 ψ A i = ψ ^ i * ntt n ω A i := by
  unfold scaledNtt
  simp only [one_pow, mul_one]

/-! ### The exact library (src/ntt<n>.h) -/

section
open Ntt

/-- The twelve transforms of src/ntt<n>.h, for every size `n = 2^k` and `psi` that `make_tables`
accepts: inputs and outputs are reduced modulo q. -/
theorem C49_ntt_transforms {k : Nat} {xn xpsi : Int} (h : GoodParams k xn xpsi)
    {buf : Nat → Array Nat} (hb : ∀ n, (buf n).size = n) {t : Nttables}
    (ht : make_tables buf xn xpsi = .ok t) :
    (∀ f ∈ [fwd_ct_rev2std t (2 ^ k), fwd_gs_rev2std t (2 ^ k)],
      Rev2Std k ((xpsi : Zq) ^ 2) 1 1 0 12288 0 12288 f) ∧
    (∀ f ∈ [fwd_ct_std2rev t (2 ^ k), fwd_gs_std2rev t (2 ^ k)],
      Std2Rev k ((xpsi : Zq) ^ 2) 1 1 0 12288 0 12288 f) ∧
    (∀ f ∈ [intt_ct_rev2std t (2 ^ k), intt_gs_rev2std t (2 ^ k)],
      Rev2Std k ((xpsi : Zq) ^ 2)⁻¹ 1 1 0 12288 0 12288 f) ∧
    (∀ f ∈ [intt_ct_std2rev t (2 ^ k), intt_gs_std2rev t (2 ^ k)],
      Std2Rev k ((xpsi : Zq) ^ 2)⁻¹ 1 1 0 12288 0 12288 f) ∧
    Rev2Std k ((xpsi : Zq) ^ 2) xpsi 1 0 12288 0 12288 (fwdmul_ct_rev2std t (2 ^ k)) ∧
    Std2Rev k ((xpsi : Zq) ^ 2) xpsi 1 0 12288 0 12288 (fwdmul_ct_std2rev t (2 ^ k)) ∧
    Rev2Std k ((xpsi : Zq) ^ 2)⁻¹ 1 (xpsi : Zq)⁻¹ 0 12288 0 12288 (inttmul_gs_rev2std t (2 ^ k)) ∧
    Std2Rev k ((xpsi : Zq) ^ 2)⁻¹ 1 (xpsi : Zq)⁻¹ 0 12288 0 12288 (inttmul_gs_std2rev t (2 ^ k)) := by
  obtain ⟨t', e, hok⟩ := tables_ok h hb
  have : t' = t := by rw [ht] at e; injection e with e; exact e.symm
  subst this
  have hk : k ≤ 31 := by
    have := k_le_16 (h.2.1 ▸ h.2.2.1); omega
  have hψ := good_psi h
  obtain ⟨-, -, -, p1, p2, -⟩ := psi_facts hψ
  have cv : ∀ {a : Array Int}, InRange 0 12288 a → Reduced a := fun hr i hi => by
    have := hr i hi; omega
  have vc : ∀ {a : Array Int}, Reduced a → InRange 0 12288 a := fun hr i hi => by
    have := hr i hi; omega
  refine ⟨fun f hf => ?_, fun f hf => ?_, fun f hf => ?_, fun f hf => ?_, ?_, ?_, ?_, ?_⟩
  all_goals try simp only [List.mem_cons, List.not_mem_nil, or_false] at hf
  · rcases hf with rfl | rfl <;> intro a ha hr
    · obtain ⟨a', e, s, r, v⟩ := run_ct_rev2std hk p1 hok.omega_powers (fun l => coeff a (rev k l)) ha
        (cv hr) (fun i hi => by rw [rev_rev k i hi])
      exact ⟨a', e, s, vc r, fun i hi => by rw [plain]; exact v i hi⟩
    · obtain ⟨a', e, s, r, v⟩ := run_gs_rev2std hk p1 hok.omega_powers_rev (fun l => coeff a (rev k l)) ha
        (cv hr) (fun i hi => by rw [rev_rev k i hi])
      exact ⟨a', e, s, vc r, fun i hi => by rw [plain]; exact v i hi⟩
  · rcases hf with rfl | rfl <;> intro a ha hr
    · obtain ⟨a', e, s, r, v⟩ := run_ct_std2rev hk p1 hok.omega_powers_rev (coeff a) ha (cv hr) (fun _ _ => rfl)
      exact ⟨a', e, s, vc r, fun i hi => by rw [plain]; exact v i hi⟩
    · obtain ⟨a', e, s, r, v⟩ := run_gs_std2rev hk p1 hok.omega_powers (coeff a) ha (cv hr) (fun _ _ => rfl)
      exact ⟨a', e, s, vc r, fun i hi => by rw [plain]; exact v i hi⟩
  · rcases hf with rfl | rfl <;> intro a ha hr
    · obtain ⟨a', e, s, r, v⟩ := run_ct_rev2std hk p2 hok.inv_omega_powers (fun l => coeff a (rev k l)) ha
        (cv hr) (fun i hi => by rw [rev_rev k i hi])
      exact ⟨a', e, s, vc r, fun i hi => by rw [plain]; exact v i hi⟩
    · obtain ⟨a', e, s, r, v⟩ := run_gs_rev2std hk p2 hok.inv_omega_powers_rev (fun l => coeff a (rev k l)) ha
        (cv hr) (fun i hi => by rw [rev_rev k i hi])
      exact ⟨a', e, s, vc r, fun i hi => by rw [plain]; exact v i hi⟩
  · rcases hf with rfl | rfl <;> intro a ha hr
    · obtain ⟨a', e, s, r, v⟩ := run_ct_std2rev hk p2 hok.inv_omega_powers_rev (coeff a) ha (cv hr) (fun _ _ => rfl)
      exact ⟨a', e, s, vc r, fun i hi => by rw [plain]; exact v i hi⟩
    · obtain ⟨a', e, s, r, v⟩ := run_gs_std2rev hk p2 hok.inv_omega_powers (coeff a) ha (cv hr) (fun _ _ => rfl)
      exact ⟨a', e, s, vc r, fun i hi => by rw [plain]; exact v i hi⟩
  · intro a ha hr
    obtain ⟨a', e, s, r, v⟩ := run_mulct_rev2std hk p1 hok.mixed_powers (fun l => coeff a (rev k l)) ha
      (cv hr) (fun i hi => by rw [rev_rev k i hi])
    exact ⟨a', e, s, vc r, fun i hi => by rw [pre_only, v i hi, evalPoly_scale]; rfl⟩
  · intro a ha hr
    obtain ⟨a', e, s, r, v⟩ := run_mulct_std2rev hk p1 hok.mixed_powers_rev (coeff a) ha (cv hr) (fun _ _ => rfl)
    exact ⟨a', e, s, vc r, fun i hi => by rw [pre_only, v i hi, evalPoly_scale]; rfl⟩
  · intro a ha hr
    obtain ⟨a', e, s, r, v⟩ := run_gsmul_rev2std hk p2 hok.inv_mixed_powers_rev (fun l => coeff a (rev k l)) ha
      (cv hr) (fun i hi => by rw [rev_rev k i hi])
    exact ⟨a', e, s, vc r, fun i hi => by rw [post_only]; exact v i hi⟩
  · intro a ha hr
    obtain ⟨a', e, s, r, v⟩ := run_gsmul_std2rev hk p2 hok.inv_mixed_powers (coeff a) ha (cv hr) (fun _ _ => rfl)
    exact ⟨a', e, s, vc r, fun i hi => by rw [post_only]; exact v i hi⟩

end

/-! ### The naive library (src/naive_ntt<n>.h) -/

section
open Naive

/-- The twelve transforms of src/naive_ntt<n>.h, for every size `n = 2^k` and `psi` that `make_tables`
accepts: the elements of inputs and outputs are strictly between -Q and Q. -/
theorem C49_naive_transforms {k : Nat} {xn xpsi : Int} (h : GoodParams k xn xpsi)
    {buf : Nat → Array Nat} (hb : ∀ n, (buf n).size = n) {t : Nttables}
    (ht : make_tables buf xn xpsi = .ok t) :
    (∀ f ∈ [fwd_ct_rev2std t (2 ^ k), fwd_gs_rev2std t (2 ^ k)],
      Rev2Std k ((xpsi : Zq) ^ 2) 1 1 (-12288) 12288 (-12288) 12288 f) ∧
    (∀ f ∈ [fwd_ct_std2rev t (2 ^ k), fwd_gs_std2rev t (2 ^ k)],
      Std2Rev k ((xpsi : Zq) ^ 2) 1 1 (-12288) 12288 (-12288) 12288 f) ∧
    (∀ f ∈ [intt_ct_rev2std t (2 ^ k), intt_gs_rev2std t (2 ^ k)],
      Rev2Std k ((xpsi : Zq) ^ 2)⁻¹ 1 1 (-12288) 12288 (-12288) 12288 f) ∧
    (∀ f ∈ [intt_ct_std2rev t (2 ^ k), intt_gs_std2rev t (2 ^ k)],
      Std2Rev k ((xpsi : Zq) ^ 2)⁻¹ 1 1 (-12288) 12288 (-12288) 12288 f) ∧
    Rev2Std k ((xpsi : Zq) ^ 2) xpsi 1 (-12288) 12288 (-12288) 12288 (fwdmul_ct_rev2std t (2 ^ k)) ∧
    Std2Rev k ((xpsi : Zq) ^ 2) xpsi 1 (-12288) 12288 (-12288) 12288 (fwdmul_ct_std2rev t (2 ^ k)) ∧
    Rev2Std k ((xpsi : Zq) ^ 2)⁻¹ 1 (xpsi : Zq)⁻¹ (-12288) 12288 (-12288) 12288 (inttmul_gs_rev2std t (2 ^ k)) ∧
    Std2Rev k ((xpsi : Zq) ^ 2)⁻¹ 1 (xpsi : Zq)⁻¹ (-12288) 12288 (-12288) 12288 (inttmul_gs_std2rev t (2 ^ k)) := by
  obtain ⟨t', e, hok⟩ := tables_ok h hb
  have : t' = t := by rw [ht] at e; injection e with e; exact e.symm
  subst this
  have hk : k ≤ 31 := by
    have := k_le_16 (h.2.1 ▸ h.2.2.1); omega
  have hψ := good_psi h
  obtain ⟨-, -, -, p1, p2, -⟩ := psi_facts hψ
  refine ⟨fun f hf => ?_, fun f hf => ?_, fun f hf => ?_, fun f hf => ?_, ?_, ?_, ?_, ?_⟩
  all_goals try simp only [List.mem_cons, List.not_mem_nil, or_false] at hf
  · rcases hf with rfl | rfl <;> intro a ha hr
    · obtain ⟨a', e, s, r, v⟩ := run_ct_rev2std hk p1 hok.omega_powers (fun l => coeff a (rev k l)) ha
        hr (fun i hi => by rw [rev_rev k i hi])
      exact ⟨a', e, s, r, fun i hi => by rw [plain]; exact v i hi⟩
    · obtain ⟨a', e, s, r, v⟩ := run_gs_rev2std hk p1 hok.omega_powers_rev (fun l => coeff a (rev k l)) ha
        hr (fun i hi => by rw [rev_rev k i hi])
      exact ⟨a', e, s, r, fun i hi => by rw [plain]; exact v i hi⟩
  · rcases hf with rfl | rfl <;> intro a ha hr
    · obtain ⟨a', e, s, r, v⟩ := run_ct_std2rev hk p1 hok.omega_powers_rev (coeff a) ha hr (fun _ _ => rfl)
      exact ⟨a', e, s, r, fun i hi => by rw [plain]; exact v i hi⟩
    · obtain ⟨a', e, s, r, v⟩ := run_gs_std2rev hk p1 hok.omega_powers (coeff a) ha hr (fun _ _ => rfl)
      exact ⟨a', e, s, r, fun i hi => by rw [plain]; exact v i hi⟩
  · rcases hf with rfl | rfl <;> intro a ha hr
    · obtain ⟨a', e, s, r, v⟩ := run_ct_rev2std hk p2 hok.inv_omega_powers (fun l => coeff a (rev k l)) ha
        hr (fun i hi => by rw [rev_rev k i hi])
      exact ⟨a', e, s, r, fun i hi => by rw [plain]; exact v i hi⟩
    · obtain ⟨a', e, s, r, v⟩ := run_gs_rev2std hk p2 hok.inv_omega_powers_rev (fun l => coeff a (rev k l)) ha
        hr (fun i hi => by rw [rev_rev k i hi])
      exact ⟨a', e, s, r, fun i hi => by rw [plain]; exact v i hi⟩
  · rcases hf with rfl | rfl <;> intro a ha hr
    · obtain ⟨a', e, s, r, v⟩ := run_ct_std2rev hk p2 hok.inv_omega_powers_rev (coeff a) ha hr (fun _ _ => rfl)
      exact ⟨a', e, s, r, fun i hi => by rw [plain]; exact v i hi⟩
    · obtain ⟨a', e, s, r, v⟩ := run_gs_std2rev hk p2 hok.inv_omega_powers (coeff a) ha hr (fun _ _ => rfl)
      exact ⟨a', e, s, r, fun i hi => by rw [plain]; exact v i hi⟩
  · intro a ha hr
    obtain ⟨a', e, s, r, v⟩ := run_mulct_rev2std hk p1 hok.mixed_powers (fun l => coeff a (rev k l)) ha
      hr (fun i hi => by rw [rev_rev k i hi])
    exact ⟨a', e, s, r, fun i hi => by rw [pre_only, v i hi, evalPoly_scale]; rfl⟩
  · intro a ha hr
    obtain ⟨a', e, s, r, v⟩ := run_mulct_std2rev hk p1 hok.mixed_powers_rev (coeff a) ha hr (fun _ _ => rfl)
    exact ⟨a', e, s, r, fun i hi => by rw [pre_only, v i hi, evalPoly_scale]; rfl⟩
  · intro a ha hr
    obtain ⟨a', e, s, r, v⟩ := run_gsmul_rev2std hk p2 hok.inv_mixed_powers_rev (fun l => coeff a (rev k l)) ha
      hr (fun i hi => by rw [rev_rev k i hi])
    exact ⟨a', e, s, r, fun i hi => by rw [post_only]; exact v i hi⟩
  · intro a ha hr
    obtain ⟨a', e, s, r, v⟩ := run_gsmul_std2rev hk p2 hok.inv_mixed_powers (coeff a) ha hr (fun _ _ => rfl)
    exact ⟨a', e, s, r, fun i hi => by rw [post_only]; exact v i hi⟩

end

/-! ### The Longa-Naehrig library in C (src/ntt_red<n>.h) -/

section
open NttRed

/-- The twelve transforms of src/ntt_red<n>.h, for the inputs documented in src/ntt_red.h: no
overflow, and the results are `int32_t` values. -/
theorem C49_red_transforms {k : Nat} {xn xpsi : Int} (h : GoodParams k xn xpsi)
    {buf : Nat → Array Nat} (hb : ∀ n, (buf n).size = n) {t : RedTables}
    (ht : make_red_tables buf xn xpsi = .ok t) :
    (∀ f ∈ [fwd_ct_rev2std t (2 ^ k), fwd_gs_rev2std t (2 ^ k)],
      Rev2Std k ((xpsi : Zq) ^ 2) 1 1 (-21499) 21499 (-2147483648) 2147483647 f) ∧
    (∀ f ∈ [fwd_ct_std2rev t (2 ^ k), fwd_gs_std2rev t (2 ^ k)],
      Std2Rev k ((xpsi : Zq) ^ 2) 1 1 (-21499) 21499 (-2147483648) 2147483647 f) ∧
    (∀ f ∈ [intt_ct_rev2std t (2 ^ k), intt_gs_rev2std t (2 ^ k)],
      Rev2Std k ((xpsi : Zq) ^ 2)⁻¹ 1 1 (-21499) 21499 (-2147483648) 2147483647 f) ∧
    (∀ f ∈ [intt_ct_std2rev t (2 ^ k), intt_gs_std2rev t (2 ^ k)],
      Std2Rev k ((xpsi : Zq) ^ 2)⁻¹ 1 1 (-21499) 21499 (-2147483648) 2147483647 f) ∧
    Rev2Std k ((xpsi : Zq) ^ 2) xpsi 1 (-21499) 21499 (-2147483648) 2147483647
      (fwdmul_ct_rev2std t (2 ^ k)) ∧
    Std2Rev k ((xpsi : Zq) ^ 2) xpsi 1 (-21499) 21499 (-2147483648) 2147483647
      (fwdmul_ct_std2rev t (2 ^ k)) ∧
    Rev2Std k ((xpsi : Zq) ^ 2)⁻¹ 1 (xpsi : Zq)⁻¹ (-21499) 21499 (-2147483648) 2147483647
      (inttmul_gs_rev2std t (2 ^ k)) ∧
    Std2Rev k ((xpsi : Zq) ^ 2)⁻¹ 1 (xpsi : Zq)⁻¹ (-21499) 21499 (-2147483648) 2147483647
      (inttmul_gs_std2rev t (2 ^ k)) := by
  have hk := good_le h
  obtain ⟨t', e, hok⟩ := red_tables_ok h hb
  have : t' = t := by rw [ht] at e; injection e with e; exact e.symm
  subst this
  have hψ := good_psi h
  have hψ' : ((xpsi : Zq)⁻¹) ^ 2 ^ k = -1 := by
    rw [inv_pow, hψ, inv_neg, inv_one]
  have h1 := primRoot_of_psi hψ
  have h2 := primRoot_of_psi hψ'
  have m1 := hok.inv_mixed_powers
  have m2 := hok.inv_mixed_powers_rev
  rw [inv_pow] at h2
  rw [← inv_pow] at m1 m2
  have hk' : k ≤ 11 := by omega
  refine ⟨fun f hf => ?_, fun f hf => ?_, fun f hf => ?_, fun f hf => ?_, ?_, ?_, ?_, ?_⟩
  all_goals try simp only [List.mem_cons, List.not_mem_nil, or_false] at hf
  · rcases hf with rfl | rfl <;> intro a ha hr <;> simp only [plain]
    · exact C20_ntt_red_ct_rev2std k _ a ha hr hk' _ h1 hok.omega_powers
    · exact C20_ntt_red_gs_rev2std k _ a ha hr hk _ h1 hok.omega_powers_rev
  · rcases hf with rfl | rfl <;> intro a ha hr <;> simp only [plain]
    · exact C20_ntt_red_ct_std2rev k _ a ha hr hk' _ h1 hok.omega_powers_rev
    · exact C20_ntt_red_gs_std2rev k _ a ha hr hk _ h1 hok.omega_powers
  · rcases hf with rfl | rfl <;> intro a ha hr <;> simp only [plain]
    · exact C20_ntt_red_ct_rev2std k _ a ha hr hk' _ h2 hok.inv_omega_powers
    · exact C20_ntt_red_gs_rev2std k _ a ha hr hk _ h2 hok.inv_omega_powers_rev
  · rcases hf with rfl | rfl <;> intro a ha hr <;> simp only [plain]
    · exact C20_ntt_red_ct_std2rev k _ a ha hr hk' _ h2 hok.inv_omega_powers_rev
    · exact C20_ntt_red_gs_std2rev k _ a ha hr hk _ h2 hok.inv_omega_powers
  · intro a ha hr; simp only [pre_only]
    exact C20_mulntt_red_ct_rev2std k _ a ha hr hk' _ hψ hok.mixed_powers
  · intro a ha hr; simp only [pre_only]
    exact C20_mulntt_red_ct_std2rev k _ a ha hr hk' _ hψ hok.mixed_powers_rev
  · intro a ha hr; simp only [post_only, ← inv_pow]
    exact (inv_pow (xpsi : Zq) 2) ▸ C20_nttmul_red_gs_rev2std k _ a ha hr hk _ hψ' m2
  · intro a ha hr; simp only [post_only, ← inv_pow]
    exact (inv_pow (xpsi : Zq) 2) ▸ C20_nttmul_red_gs_std2rev k _ a ha hr hk _ hψ' m1

end

/-! ### The AVX2 library (src/ntt_red_asm<n>.h) -/

private theorem lift_r2s {k : Nat} {ω pre post : Zq} {f g : Array Int → M (Array Int)}
    (hfg : ∀ a a', a.size = 2 ^ k → InRange (-21499) 21499 a → f a = .ok a' → g a = .ok a')
    (hf : Rev2Std k ω pre post (-21499) 21499 (-2147483648) 2147483647 f) :
    Rev2Std k ω pre post (-21499) 21499 (-2147483648) 2147483647 g := by
  intro a ha hr
  obtain ⟨a', e, r⟩ := hf a ha hr
  exact ⟨a', hfg a a' ha hr e, r⟩

private theorem lift_s2r {k : Nat} {ω pre post : Zq} {f g : Array Int → M (Array Int)}
    (hfg : ∀ a a', a.size = 2 ^ k → InRange (-21499) 21499 a → f a = .ok a' → g a = .ok a')
    (hf : Std2Rev k ω pre post (-21499) 21499 (-2147483648) 2147483647 f) :
    Std2Rev k ω pre post (-21499) 21499 (-2147483648) 2147483647 g := by
  intro a ha hr
  obtain ⟨a', e, r⟩ := hf a ha hr
  exact ⟨a', hfg a a' ha hr e, r⟩

section
open AsmProducts Asm

/-- The twelve transforms of src/ntt_red_asm<n>.h (`n >= 16`), for the inputs documented in
src/ntt_red.h. -/
theorem C49_asm_transforms {k : Nat} (hk4 : 4 ≤ k) {xn xpsi : Int}
    (h : GoodParams k xn xpsi) {buf : Nat → Array Nat} (hb : ∀ n, (buf n).size = n) {t : RedTables}
    (ht : make_red_tables buf xn xpsi = .ok t) :
    (∀ f ∈ [fwd_ct_rev2std t (2 ^ k), fwd_gs_rev2std t (2 ^ k)],
      Rev2Std k ((xpsi : Zq) ^ 2) 1 1 (-21499) 21499 (-2147483648) 2147483647 f) ∧
    (∀ f ∈ [fwd_ct_std2rev t (2 ^ k), fwd_gs_std2rev t (2 ^ k)],
      Std2Rev k ((xpsi : Zq) ^ 2) 1 1 (-21499) 21499 (-2147483648) 2147483647 f) ∧
    (∀ f ∈ [intt_ct_rev2std t (2 ^ k), intt_gs_rev2std t (2 ^ k)],
      Rev2Std k ((xpsi : Zq) ^ 2)⁻¹ 1 1 (-21499) 21499 (-2147483648) 2147483647 f) ∧
    (∀ f ∈ [intt_ct_std2rev t (2 ^ k), intt_gs_std2rev t (2 ^ k)],
      Std2Rev k ((xpsi : Zq) ^ 2)⁻¹ 1 1 (-21499) 21499 (-2147483648) 2147483647 f) ∧
    Rev2Std k ((xpsi : Zq) ^ 2) xpsi 1 (-21499) 21499 (-2147483648) 2147483647
      (fwdmul_ct_rev2std t (2 ^ k)) ∧
    Std2Rev k ((xpsi : Zq) ^ 2) xpsi 1 (-21499) 21499 (-2147483648) 2147483647
      (fwdmul_ct_std2rev t (2 ^ k)) ∧
    Rev2Std k ((xpsi : Zq) ^ 2)⁻¹ 1 (xpsi : Zq)⁻¹ (-21499) 21499 (-2147483648) 2147483647
      (inttmul_gs_rev2std t (2 ^ k)) ∧
    Std2Rev k ((xpsi : Zq) ^ 2)⁻¹ 1 (xpsi : Zq)⁻¹ (-21499) 21499 (-2147483648) 2147483647
      (inttmul_gs_std2rev t (2 ^ k)) := by
  have hk := good_le h
  obtain ⟨c1, c2, c3, c4, c5, c6, c7, c8⟩ := C49_red_transforms h hb ht
  obtain ⟨t', e, hok⟩ := red_tables_ok h hb
  have : t' = t := by rw [ht] at e; injection e with e; exact e.symm
  subst this
  have h31 : k ≤ 31 := by omega
  have i32 : ∀ {a : Array Int}, InRange (-21499) 21499 a → Int32Array a := fun hr i hi => by
    have := hr i hi; omega
  simp only [List.mem_cons, List.not_mem_nil, or_false, forall_eq_or_imp, forall_eq] at c1 c2 c3 c4 ⊢
  have o1 := hok.omega_powers
  have o2 := hok.omega_powers_rev
  have o3 := hok.inv_omega_powers
  have o4 := hok.inv_omega_powers_rev
  refine ⟨⟨lift_r2s (fun a a' ha hr e => ?_) c1.1, lift_r2s (fun a a' ha hr e => ?_) c1.2⟩,
    ⟨lift_s2r (fun a a' ha hr e => ?_) c2.1, lift_s2r (fun a a' ha hr e => ?_) c2.2⟩,
    ⟨lift_r2s (fun a a' ha hr e => ?_) c3.1, lift_r2s (fun a a' ha hr e => ?_) c3.2⟩,
    ⟨lift_s2r (fun a a' ha hr e => ?_) c4.1, lift_s2r (fun a a' ha hr e => ?_) c4.2⟩,
    lift_r2s (fun a a' ha hr e => ?_) c5, lift_s2r (fun a a' ha hr e => ?_) c6,
    lift_r2s (fun a a' ha hr e => ?_) c7, lift_s2r (fun a a' ha hr e => ?_) c8⟩
  · exact tr_eq (c_ct_rev2std h31 o1.1 (unit_std o1) ha (tr_i32 (i32 hr)) e)
      (wp_ct_rev2std_asm hk4 o1.1 (unit_std o1) (Is.self ha) (tr_i32 (i32 hr)))
  · exact tr_eq (c_gs_rev2std h31 o2.1 (unit_rev o2) ha e)
      (wp_gs_rev2std_asm hk4 o2.1 (rev_i16 o2) (unit_rev o2) (Is.self ha))
  · exact tr_eq (c_ct_std2rev h31 o2.1 (unit_rev o2) ha (tr_i32 (i32 hr)) e)
      (wp_ct_std2rev_asm hk4 o2.1 (rev_i16 o2) (unit_rev o2) (Is.self ha) (tr_i32 (i32 hr)))
  · exact tr_eq (c_gs_std2rev h31 o1.1 (unit_std o1) ha e)
      (wp_gs_std2rev_asm hk4 o1.1 (unit_std o1) (Is.self ha))
  · exact tr_eq (c_ct_rev2std h31 o3.1 (unit_std o3) ha (tr_i32 (i32 hr)) e)
      (wp_ct_rev2std_asm hk4 o3.1 (unit_std o3) (Is.self ha) (tr_i32 (i32 hr)))
  · exact tr_eq (c_gs_rev2std h31 o4.1 (unit_rev o4) ha e)
      (wp_gs_rev2std_asm hk4 o4.1 (rev_i16 o4) (unit_rev o4) (Is.self ha))
  · exact tr_eq (c_ct_std2rev h31 o4.1 (unit_rev o4) ha (tr_i32 (i32 hr)) e)
      (wp_ct_std2rev_asm hk4 o4.1 (rev_i16 o4) (unit_rev o4) (Is.self ha) (tr_i32 (i32 hr)))
  · exact tr_eq (c_gs_std2rev h31 o3.1 (unit_std o3) ha e)
      (wp_gs_std2rev_asm hk4 o3.1 (unit_std o3) (Is.self ha))
  · exact tr_eq (c_mulct_rev2std h31 hok.mixed_powers.1 ha e)
      (wp_mulct_rev2std_asm hk4 hok.mixed_powers.1 (Is.self ha))
  · exact tr_eq (c_mulct_std2rev h31 hok.mixed_powers_rev.1 ha e)
      (wp_mulct_std2rev_asm hk4 hok.mixed_powers_rev.1 (rev_i16 hok.mixed_powers_rev) (Is.self ha))
  · exact tr_eq (c_gsmul_rev2std h31 hok.inv_mixed_powers_rev.1 ha e)
      (wp_gsmul_rev2std_asm hk4 hok.inv_mixed_powers_rev.1 (rev_i16 hok.inv_mixed_powers_rev) (Is.self ha))
  · exact tr_eq (c_gsmul_std2rev h31 hok.inv_mixed_powers.1 ha e)
      (wp_gsmul_std2rev_asm hk4 hok.inv_mixed_powers.1 (Is.self ha))

end

/-! ### Round trips in the Longa-Naehrig libraries -/

private theorem ntt_scale {k : Nat} (c : Zq) (A B : Nat → Zq) (h : ∀ i, i < 2 ^ k → A i = c * B i) (ω : Zq) (i : Nat) :
    ntt (2 ^ k) ω A i = c * ntt (2 ^ k) ω B i := by
  unfold ntt evalPoly
  rw [Finset.mul_sum]
  refine Finset.sum_congr rfl fun l hl => ?_
  rw [h l (Finset.mem_range.1 hl)]; ring

section
variable {k : Nat} {ψ pre post : Zq} {fwd inv twice : Array Int → M (Array Int)}
  (hψ : ψ ^ 2 ^ k = -1) (hpp : pre * post = 1)
  (ht : ∀ (a : Array Int) (F : Nat → Zq), a.size = 2 ^ k → InRange (-2147483648) 2147483647 a →
    (∀ i, i < 2 ^ k → coeff a i = F i) →
    ∃ a', twice a = .ok a' ∧ a'.size = 2 ^ k ∧ InRange (-130) 12413 a' ∧
      ∀ i, i < 2 ^ k → coeff a' i = 9 * F i)
include hψ hpp ht

private theorem trip_std
    (hf : Std2Rev k (ψ ^ 2) pre 1 (-21499) 21499 (-2147483648) 2147483647 fwd)
    (hv : Rev2Std k (ψ ^ 2)⁻¹ 1 post (-21499) 21499 (-2147483648) 2147483647 inv)
    (a : Array Int) (ha : a.size = 2 ^ k) (hr : InRange (-21499) 21499 a) :
    ∃ a', (do let a1 ← fwd a; let a2 ← twice a1; inv a2) = .ok a' ∧ a'.size = 2 ^ k ∧
      InRange (-2147483648) 2147483647 a' ∧
      ∀ i, i < 2 ^ k → coeff a' i = 9 * 2 ^ k * coeff a i := by
  obtain ⟨a1, e1, s1, r1, v1⟩ := hf a ha hr
  obtain ⟨a2, e2, s2, r2, v2⟩ := ht a1 _ s1 r1 v1
  obtain ⟨a3, e3, s3, r3, v3⟩ := hv a2 s2 (NttRed.InRange.mono r2 (by decide) (by decide))
  refine ⟨a3, ?_, s3, r3, fun i hi => ?_⟩
  · rw [e1]; show (twice a1 >>= _) = _; rw [e2]; exact e3
  · rw [v3 i hi, post_only,
      ntt_scale 9 _ (ntt (2 ^ k) (ψ ^ 2) (fun l => coeff a l * pre ^ l))
        (fun l hl => by rw [v2 _ (rev_lt k l), pre_only, rev_rev k l hl]),
      ntt_ntt two_ne_zero_Zq (psi_facts hψ).2.2.2.1 (psi_facts hψ).2.2.1 _ hi]
    have : pre ^ i * post ^ i = 1 := by rw [← mul_pow, hpp, one_pow]
    linear_combination 9 * coeff a i * 2 ^ k * this

private theorem trip_rev
    (hf : Rev2Std k (ψ ^ 2) pre 1 (-21499) 21499 (-2147483648) 2147483647 fwd)
    (hv : Std2Rev k (ψ ^ 2)⁻¹ 1 post (-21499) 21499 (-2147483648) 2147483647 inv)
    (a : Array Int) (ha : a.size = 2 ^ k) (hr : InRange (-21499) 21499 a) :
    ∃ a', (do let a1 ← fwd a; let a2 ← twice a1; inv a2) = .ok a' ∧ a'.size = 2 ^ k ∧
      InRange (-2147483648) 2147483647 a' ∧
      ∀ i, i < 2 ^ k → coeff a' i = 9 * 2 ^ k * coeff a i := by
  obtain ⟨a1, e1, s1, r1, v1⟩ := hf a ha hr
  obtain ⟨a2, e2, s2, r2, v2⟩ := ht a1 _ s1 r1 v1
  obtain ⟨a3, e3, s3, r3, v3⟩ := hv a2 s2 (NttRed.InRange.mono r2 (by decide) (by decide))
  refine ⟨a3, ?_, s3, r3, fun i hi => ?_⟩
  · rw [e1]; show (twice a1 >>= _) = _; rw [e2]; exact e3
  · rw [v3 i hi, post_only,
      ntt_scale 9 _ (ntt (2 ^ k) (ψ ^ 2) (fun l => coeff a (rev k l) * pre ^ l))
        (fun l hl => by rw [v2 _ hl, pre_only]),
      ntt_ntt two_ne_zero_Zq (psi_facts hψ).2.2.2.1 (psi_facts hψ).2.2.1 _ (rev_lt k i), rev_rev k i hi]
    have : pre ^ rev k i * post ^ rev k i = 1 := by rw [← mul_pow, hpp, one_pow]
    linear_combination 9 * coeff a i * 2 ^ k * this

end

section
open NttRed

/-- Forward transform, `reduce_array_twice`, inverse transform: every coefficient is multiplied by
`9*n` modulo q, without overflow. -/
theorem C49_red_roundtrip {k : Nat} {xn xpsi : Int} (h : GoodParams k xn xpsi)
    {buf : Nat → Array Nat} (hb : ∀ n, (buf n).size = n) {t : RedTables}
    (ht : make_red_tables buf xn xpsi = .ok t) (a : Array Int) (ha : a.size = 2 ^ k)
    (hr : InRange (-21499) 21499 a) :
    ∀ fi ∈ [(fwd_ct_std2rev t (2 ^ k), intt_ct_rev2std t (2 ^ k)),
            (fwd_ct_std2rev t (2 ^ k), intt_gs_rev2std t (2 ^ k)),
            (fwd_gs_std2rev t (2 ^ k), intt_ct_rev2std t (2 ^ k)),
            (fwd_gs_std2rev t (2 ^ k), intt_gs_rev2std t (2 ^ k)),
            (fwd_ct_rev2std t (2 ^ k), intt_ct_std2rev t (2 ^ k)),
            (fwd_ct_rev2std t (2 ^ k), intt_gs_std2rev t (2 ^ k)),
            (fwd_gs_rev2std t (2 ^ k), intt_ct_std2rev t (2 ^ k)),
            (fwd_gs_rev2std t (2 ^ k), intt_gs_std2rev t (2 ^ k)),
            (fwdmul_ct_std2rev t (2 ^ k), inttmul_gs_rev2std t (2 ^ k)),
            (fwdmul_ct_rev2std t (2 ^ k), inttmul_gs_std2rev t (2 ^ k))],
    ∃ a', (do let a1 ← fi.1 a; let a2 ← reduce_array_twice a1 (2 ^ k); fi.2 a2) = .ok a' ∧
      a'.size = 2 ^ k ∧ InRange (-2147483648) 2147483647 a' ∧
      ∀ i, i < 2 ^ k → coeff a' i = 9 * 2 ^ k * coeff a i := by
  have hk := good_le h
  obtain ⟨c1, c2, c3, c4, c5, c6, c7, c8⟩ := C49_red_transforms h hb ht
  have hψ := good_psi h
  have hn : 2 ^ k < 4294967296 := by have := pow31 (k := k) (by omega); omega
  have tw := fun (a : Array Int) (F : Nat → Zq) ha hr hF => run_twice (a := a) (F := F) hn ha hr hF
  have hinv := (psi_facts hψ).2.1
  simp only [List.mem_cons, List.not_mem_nil, or_false, forall_eq_or_imp, forall_eq] at c1 c2 c3 c4 ⊢
  exact ⟨trip_std hψ (mul_one 1) tw c2.1 c3.1 a ha hr, trip_std hψ (mul_one 1) tw c2.1 c3.2 a ha hr,
    trip_std hψ (mul_one 1) tw c2.2 c3.1 a ha hr, trip_std hψ (mul_one 1) tw c2.2 c3.2 a ha hr,
    trip_rev hψ (mul_one 1) tw c1.1 c4.1 a ha hr, trip_rev hψ (mul_one 1) tw c1.1 c4.2 a ha hr,
    trip_rev hψ (mul_one 1) tw c1.2 c4.1 a ha hr, trip_rev hψ (mul_one 1) tw c1.2 c4.2 a ha hr,
    trip_std hψ hinv tw c6 c7 a ha hr, trip_rev hψ hinv tw c5 c8 a ha hr⟩

end

section
open AsmProducts Asm

/-- The same for the AVX2 functions. -/
theorem C49_asm_roundtrip {k : Nat} (hk4 : 4 ≤ k) {xn xpsi : Int}
    (h : GoodParams k xn xpsi) {buf : Nat → Array Nat} (hb : ∀ n, (buf n).size = n) {t : RedTables}
    (ht : make_red_tables buf xn xpsi = .ok t) (a : Array Int) (ha : a.size = 2 ^ k)
    (hr : InRange (-21499) 21499 a) :
    ∀ fi ∈ [(fwd_ct_std2rev t (2 ^ k), intt_ct_rev2std t (2 ^ k)),
            (fwd_ct_std2rev t (2 ^ k), intt_gs_rev2std t (2 ^ k)),
            (fwd_gs_std2rev t (2 ^ k), intt_ct_rev2std t (2 ^ k)),
            (fwd_gs_std2rev t (2 ^ k), intt_gs_rev2std t (2 ^ k)),
            (fwd_ct_rev2std t (2 ^ k), intt_ct_std2rev t (2 ^ k)),
            (fwd_ct_rev2std t (2 ^ k), intt_gs_std2rev t (2 ^ k)),
            (fwd_gs_rev2std t (2 ^ k), intt_ct_std2rev t (2 ^ k)),
            (fwd_gs_rev2std t (2 ^ k), intt_gs_std2rev t (2 ^ k)),
            (fwdmul_ct_std2rev t (2 ^ k), inttmul_gs_rev2std t (2 ^ k)),
            (fwdmul_ct_rev2std t (2 ^ k), inttmul_gs_std2rev t (2 ^ k))],
    ∃ a', (do let a1 ← fi.1 a; let a2 ← reduce_array_twice_asm a1 (2 ^ k); fi.2 a2) = .ok a' ∧
      a'.size = 2 ^ k ∧ InRange (-2147483648) 2147483647 a' ∧
      ∀ i, i < 2 ^ k → coeff a' i = 9 * 2 ^ k * coeff a i := by
  have hk := good_le h
  obtain ⟨c1, c2, c3, c4, c5, c6, c7, c8⟩ := C49_asm_transforms hk4 h hb ht
  have hψ := good_psi h
  have tw := fun (a : Array Int) (F : Nat → Zq) ha hr hF =>
    AsmProducts.run_twice (a := a) (F := F) hk4 (by omega) ha hr hF
  have hinv := (psi_facts hψ).2.1
  simp only [List.mem_cons, List.not_mem_nil, or_false, forall_eq_or_imp, forall_eq] at c1 c2 c3 c4 ⊢
  exact ⟨trip_std hψ (mul_one 1) tw c2.1 c3.1 a ha hr, trip_std hψ (mul_one 1) tw c2.1 c3.2 a ha hr,
    trip_std hψ (mul_one 1) tw c2.2 c3.1 a ha hr, trip_std hψ (mul_one 1) tw c2.2 c3.2 a ha hr,
    trip_rev hψ (mul_one 1) tw c1.1 c4.1 a ha hr, trip_rev hψ (mul_one 1) tw c1.1 c4.2 a ha hr,
    trip_rev hψ (mul_one 1) tw c1.2 c4.1 a ha hr, trip_rev hψ (mul_one 1) tw c1.2 c4.2 a ha hr,
    trip_std hψ hinv tw c6 c7 a ha hr, trip_rev hψ hinv tw c5 c8 a ha hr⟩

end

/-- The hypotheses are met by the tables for 1024 and psi = 1014, and an array of extreme values. -/
example : ∃ (t : Nttables) (t' : RedTables) (a : Array Int), GoodParams 10 1024 1014 ∧
    make_tables someBuf 1024 1014 = .ok t ∧ make_red_tables someBuf 1024 1014 = .ok t' ∧
    a.size = 2 ^ 10 ∧ InRange (-21499) 21499 a ∧ elt a 7 = -21499 := by
  obtain ⟨t, e, _⟩ := tables_ok good1024 someBuf_size
  obtain ⟨t', e', _⟩ := red_tables_ok good1024 someBuf_size
  refine ⟨t, t', Array.replicate 1024 (-21499), good1024, e, e', by simp, ?_, by simp [elt]⟩
  intro i hi; simp at hi; simp [elt, hi]

end Props
