import Verif.Props.Products
import Verif.Proofs.Naive
import Mathlib.Tactic.IntervalCases

/-
C22, C23: src/naive_ntt.c and the naive products.
-/

namespace Props
open C Spec Naive NTT Tables

section
variable (k : Nat) (p a : Array Int) (hk : k ≤ 31) (ha : a.size = 2 ^ k)
  (hr : InRange (-12288) 12288 a)
include hk ha hr

/-- `ntt_ct_rev2std_naive`: bit-reversed input, output in standard order. -/
theorem C22_ntt_ct_rev2std_naive (ω : Zq) (hω : PrimRoot (2 ^ k) ω)
    (hp : StdTable 1 1 ω 0 12288 k p) :
    ∃ a', ntt_ct_rev2std a (2 ^ k) p 12289 = .ok a' ∧ a'.size = 2 ^ k ∧ InRange (-12288) 12288 a' ∧
      ∀ i, i < 2 ^ k → coeff a' i = ntt (2 ^ k) ω (fun l => coeff a (rev k l)) i := by
  obtain ⟨a', e, s, r, v⟩ := run_ct_rev2std hk (primRoot_half hω) hp (fun l => coeff a (rev k l)) ha hr
    (fun i hi => by rw [rev_rev k i hi])
  exact ⟨a', e, s, r, v⟩

/-- `ntt_ct_std2rev_naive`: input in standard order, output in bit-reverse order. -/
theorem C22_ntt_ct_std2rev_naive (ω : Zq) (hω : PrimRoot (2 ^ k) ω)
    (hp : RevTable 1 1 ω 0 12288 k p) :
    ∃ a', ntt_ct_std2rev a (2 ^ k) p 12289 = .ok a' ∧ a'.size = 2 ^ k ∧ InRange (-12288) 12288 a' ∧
      ∀ i, i < 2 ^ k → coeff a' i = ntt (2 ^ k) ω (coeff a) (rev k i) := by
  obtain ⟨a', e, s, r, v⟩ := run_ct_std2rev hk (primRoot_half hω) hp (coeff a) ha hr
    (fun _ _ => rfl)
  exact ⟨a', e, s, r, v⟩

/-- `ntt_gs_rev2std_naive`: bit-reversed input, output in standard order. -/
theorem C22_ntt_gs_rev2std_naive (ω : Zq) (hω : PrimRoot (2 ^ k) ω)
    (hp : RevTable 1 1 ω 0 12288 k p) :
    ∃ a', ntt_gs_rev2std a (2 ^ k) p 12289 = .ok a' ∧ a'.size = 2 ^ k ∧ InRange (-12288) 12288 a' ∧
      ∀ i, i < 2 ^ k → coeff a' i = ntt (2 ^ k) ω (fun l => coeff a (rev k l)) i := by
  obtain ⟨a', e, s, r, v⟩ := run_gs_rev2std hk (primRoot_half hω) hp (fun l => coeff a (rev k l)) ha hr
    (fun i hi => by rw [rev_rev k i hi])
  exact ⟨a', e, s, r, v⟩

/-- `ntt_gs_std2rev_naive`: input in standard order, output in bit-reverse order. -/
theorem C22_ntt_gs_std2rev_naive (ω : Zq) (hω : PrimRoot (2 ^ k) ω)
    (hp : StdTable 1 1 ω 0 12288 k p) :
    ∃ a', ntt_gs_std2rev a (2 ^ k) p 12289 = .ok a' ∧ a'.size = 2 ^ k ∧ InRange (-12288) 12288 a' ∧
      ∀ i, i < 2 ^ k → coeff a' i = ntt (2 ^ k) ω (coeff a) (rev k i) := by
  obtain ⟨a', e, s, r, v⟩ := run_gs_std2rev hk (primRoot_half hω) hp (coeff a) ha hr
    (fun _ _ => rfl)
  exact ⟨a', e, s, r, v⟩

/-- `mulntt_ct_rev2std_naive`: transform of `a[i]*psi^i`, bit-reversed input, output in standard order. -/
theorem C22_mulntt_ct_rev2std_naive (ψ : Zq) (hψ : ψ ^ 2 ^ k = -1)
    (hp : StdTable 1 ψ (ψ ^ 2) 0 12288 k p) :
    ∃ a', mulntt_ct_rev2std a (2 ^ k) p 12289 = .ok a' ∧ a'.size = 2 ^ k ∧ InRange (-12288) 12288 a' ∧
      ∀ i, i < 2 ^ k → coeff a' i = ntt (2 ^ k) (ψ ^ 2) (fun l => coeff a (rev k l) * ψ ^ l) i := by
  obtain ⟨a', e, s, r, v⟩ := run_mulct_rev2std hk (psi_facts hψ).2.2.2.1 hp (fun l => coeff a (rev k l)) ha hr
    (fun i hi => by rw [rev_rev k i hi])
  exact ⟨a', e, s, r, fun i hi => by rw [v i hi, evalPoly_scale]; rfl⟩

/-- `mulntt_ct_std2rev_naive`: transform of `a[i]*psi^i`, input in standard order, output in bit-reverse order. -/
theorem C22_mulntt_ct_std2rev_naive (ψ : Zq) (hψ : ψ ^ 2 ^ k = -1)
    (hp : RevTable 1 ψ (ψ ^ 2) 0 12288 k p) :
    ∃ a', mulntt_ct_std2rev a (2 ^ k) p 12289 = .ok a' ∧ a'.size = 2 ^ k ∧ InRange (-12288) 12288 a' ∧
      ∀ i, i < 2 ^ k → coeff a' i = ntt (2 ^ k) (ψ ^ 2) (fun l => coeff a l * ψ ^ l) (rev k i) := by
  obtain ⟨a', e, s, r, v⟩ := run_mulct_std2rev hk (psi_facts hψ).2.2.2.1 hp (coeff a) ha hr
    (fun _ _ => rfl)
  exact ⟨a', e, s, r, fun i hi => by rw [v i hi, evalPoly_scale]; rfl⟩

/-- `nttmul_gs_rev2std_naive`: component `i` of the transform is multiplied by `psi^i`, bit-reversed input, output in standard order. -/
theorem C22_nttmul_gs_rev2std_naive (ψ : Zq) (hψ : ψ ^ 2 ^ k = -1)
    (hp : RevTable 1 ψ (ψ ^ 2) 0 12288 k p) :
    ∃ a', nttmul_gs_rev2std a (2 ^ k) p 12289 = .ok a' ∧ a'.size = 2 ^ k ∧ InRange (-12288) 12288 a' ∧
      ∀ i, i < 2 ^ k → coeff a' i = ψ ^ i * ntt (2 ^ k) (ψ ^ 2) (fun l => coeff a (rev k l)) i := by
  obtain ⟨a', e, s, r, v⟩ := run_gsmul_rev2std hk (psi_facts hψ).2.2.2.1 hp (fun l => coeff a (rev k l)) ha hr
    (fun i hi => by rw [rev_rev k i hi])
  exact ⟨a', e, s, r, v⟩

/-- `nttmul_gs_std2rev_naive`: component `i` of the transform is multiplied by `psi^i`, input in standard order, output in bit-reverse order. -/
theorem C22_nttmul_gs_std2rev_naive (ψ : Zq) (hψ : ψ ^ 2 ^ k = -1)
    (hp : StdTable 1 ψ (ψ ^ 2) 0 12288 k p) :
    ∃ a', nttmul_gs_std2rev a (2 ^ k) p 12289 = .ok a' ∧ a'.size = 2 ^ k ∧ InRange (-12288) 12288 a' ∧
      ∀ i, i < 2 ^ k → coeff a' i = ψ ^ (rev k i) * ntt (2 ^ k) (ψ ^ 2) (coeff a) (rev k i) := by
  obtain ⟨a', e, s, r, v⟩ := run_gsmul_std2rev hk (psi_facts hψ).2.2.2.1 hp (coeff a) ha hr
    (fun _ _ => rfl)
  exact ⟨a', e, s, r, v⟩

end

/-- The elementwise naive functions: C's remainder of the product, for `|a[i]| < Q`. -/
theorem C22_mul_array16_naive (n : Nat) (hn : n < 2 ^ 32) (a p : Array Int) (ha : a.size = n)
    (hp : p.size = n) (hra : InRange (-12288) 12288 a) (hrp : Reduced p) :
    ∃ a', Naive.mul_array16 a n p 12289 = .ok a' ∧ a'.size = n ∧
      ∀ i, i < n → elt a' i = (elt a i * elt p i).tmod 12289 :=
  run_mul_array16 hn ha hra (by omega) (fun i hi => hrp i (by omega))

theorem C22_mul_array_naive (n : Nat) (hn : n < 2 ^ 32) (c a b : Array Int) (hc : c.size = n)
    (ha : a.size = n) (hb : b.size = n) (hra : InRange (-12288) 12288 a)
    (hrb : InRange (-12288) 12288 b) :
    ∃ c', Naive.mul_array c n a b 12289 = .ok c' ∧ c'.size = n ∧
      ∀ i, i < n → elt c' i = (elt a i * elt b i).tmod 12289 :=
  run_mul_array hn hc ha hra hb hrb

theorem C22_scalar_mul_array_naive (n : Nat) (hn : n < 2 ^ 32) (a : Array Int) (c : Int)
    (ha : a.size = n) (hra : InRange (-12288) 12288 a) (hc : -12288 ≤ c ∧ c ≤ 12288) :
    ∃ a', Naive.scalar_mul_array a n c 12289 = .ok a' ∧ a'.size = n ∧
      ∀ i, i < n → elt a' i = (elt a i * c).tmod 12289 :=
  run_scalar_mul_array hn ha hra hc

/-- The naive products: for all parameters accepted by `make_tables`, the result is congruent to the
product modulo `X^n+1` and its elements are strictly between `-Q` and `Q`. -/
theorem C23_products {k : Nat} {xn xpsi : Int} (h : GoodParams k xn xpsi)
    {buf : Nat → Array Nat} (hbuf : ∀ n, (buf n).size = n) {t : Nttables}
    (ht : make_tables buf xn xpsi = .ok t) (c a b : Array Int) (hc : c.size = 2 ^ k)
    (ha : a.size = 2 ^ k) (hb : b.size = 2 ^ k) (hra : Reduced a) (hrb : Reduced b) :
    ∀ product ∈ [product1 t (2 ^ k), product2 t (2 ^ k), product3 t (2 ^ k), product4 t (2 ^ k),
      product5 t (2 ^ k)],
    ∃ c' a' b', product c a b = .ok (c', a', b') ∧ c'.size = 2 ^ k ∧ a'.size = 2 ^ k ∧
      b'.size = 2 ^ k ∧ InRange (-12288) 12288 c' ∧
      ∀ i, i < 2 ^ k → coeff c' i = negacyclic (2 ^ k) (coeff a) (coeff b) i := by
  obtain ⟨t', e, hok⟩ := tables_ok h hbuf
  have : t' = t := by rw [ht] at e; injection e with e; exact e.symm
  subst this
  have hk : k ≤ 31 := by
    have := k_le_16 (h.2.1 ▸ h.2.2.1); omega
  have hψ := good_psi h
  have hsa : InRange (-12288) 12288 a := fun i hi => by have := hra i hi; omega
  have hsb : InRange (-12288) 12288 b := fun i hi => by have := hrb i hi; omega
  have key : ∀ m, ProductSpec k a b m → ∃ c' a' b', m = .ok (c', a', b') ∧ c'.size = 2 ^ k ∧
      a'.size = 2 ^ k ∧ b'.size = 2 ^ k ∧ InRange (-12288) 12288 c' ∧
      ∀ i, i < 2 ^ k → coeff c' i = negacyclic (2 ^ k) (coeff a) (coeff b) i := by
    rintro m ⟨⟨c', a', b'⟩, h⟩
    exact ⟨c', a', b', h⟩
  intro product hp
  simp only [List.mem_cons, List.not_mem_nil, or_false] at hp
  rcases hp with rfl | rfl | rfl | rfl | rfl
  · exact key _ (run_product1 hk hψ hok hc ha hb hsa hsb)
  · exact key _ (run_product2 hk hψ hok hc ha hb hsa hsb)
  · exact key _ (run_product3 hk hψ hok hc ha hb hsa hsb)
  · exact key _ (run_product4 hk hψ hok hc ha hb hsa hsb)
  · exact key _ (run_product5 hk hψ hok hc ha hb hsa hsb)

/-- The header's claim that the result is in `[0, Q-1]` is false: for n = 16, on
`1 + 2X + ... + 16X^15` and `1`, each of the five products stores the negative value -12277 in
`c[11]`. -/
theorem C23_documented_range_false :
    (do
      let t ← make_tables someBuf 16 1212
      let a := #[1, 2, 3, 4, 5, 6, 7, 8, 9, 10, 11, 12, 13, 14, 15, 16]
      let b := #[1, 0, 0, 0, 0, 0, 0, 0, 0, 0, 0, 0, 0, 0, 0, 0]
      let c := Array.replicate 16 0
      let r1 ← product1 t 16 c a b
      let r2 ← product2 t 16 c a b
      let r3 ← product3 t 16 c a b
      let r4 ← product4 t 16 c a b
      let r5 ← product5 t 16 c a b
      pure [elt r1.1 11, elt r2.1 11, elt r3.1 11, elt r4.1 11, elt r5.1 11]) =
    .ok [-12277, -12277, -12277, -12277, -12277] := by decide +kernel

/-- The hypotheses hold for the tables of size 512 that `make_tables 512 1003` prints. -/
example : ∃ (ψ : Zq) (t : Tables.Nttables), ψ ^ 2 ^ 9 = -1 ∧ PrimRoot (2 ^ 9) (ψ ^ 2) ∧
    StdTable 1 1 (ψ ^ 2) 0 12288 9 t.omega_powers ∧
    RevTable 1 1 (ψ ^ 2) 0 12288 9 t.omega_powers_rev ∧
    StdTable 1 ψ (ψ ^ 2) 0 12288 9 t.mixed_powers ∧
    RevTable 1 ψ (ψ ^ 2) 0 12288 9 t.mixed_powers_rev := by
  obtain ⟨t, _, h⟩ := tables_ok good512 someBuf_size
  exact ⟨_, t, good_psi good512, primRoot_of_psi (good_psi good512), h.omega_powers,
    h.omega_powers_rev, h.mixed_powers, h.mixed_powers_rev⟩

example : InRange (-12288) 12288 #[-12288, 12288, 5, 0] := by
  intro i hi; simp at hi; interval_cases i <;> decide

/-- Products of src/naive_ntt<n>.c take operands in [-(Q-1), Q-1] and leave them in this range. -/
theorem C23_operands {k : Nat} {xn xpsi : Int} (h : GoodParams k xn xpsi)
    {buf : Nat → Array Nat} (hbuf : ∀ n, (buf n).size = n) {t : Nttables}
    (ht : make_tables buf xn xpsi = .ok t) (c a b : Array Int) (hc : c.size = 2 ^ k)
    (ha : a.size = 2 ^ k) (hb : b.size = 2 ^ k) (hra : InRange (-12288) 12288 a)
    (hrb : InRange (-12288) 12288 b) :
    ∀ product ∈ [Naive.product1 t (2 ^ k), Naive.product2 t (2 ^ k), Naive.product3 t (2 ^ k),
      Naive.product4 t (2 ^ k), Naive.product5 t (2 ^ k)],
    ∃ c' a' b', product c a b = .ok (c', a', b') ∧ c'.size = 2 ^ k ∧ a'.size = 2 ^ k ∧
      b'.size = 2 ^ k ∧ InRange (-12288) 12288 c' ∧ InRange (-12288) 12288 a' ∧ InRange (-12288) 12288 b' ∧
      ∀ i, i < 2 ^ k → coeff c' i = negacyclic (2 ^ k) (coeff a) (coeff b) i := by
  obtain ⟨t', e, hok⟩ := tables_ok h hbuf
  have : t' = t := Except.ok.inj (e.symm.trans ht)
  subst this
  have hk : k ≤ 31 := by
    have := k_le_16 (h.2.1 ▸ h.2.2.1); omega
  have hψ := good_psi h
  have key : ∀ m, Naive.ProductSpec' k a b m → ∃ c' a' b', m = .ok (c', a', b') ∧ c'.size = 2 ^ k ∧ a'.size = 2 ^ k ∧
      b'.size = 2 ^ k ∧ InRange (-12288) 12288 c' ∧ InRange (-12288) 12288 a' ∧ InRange (-12288) 12288 b' ∧
      ∀ i, i < 2 ^ k → coeff c' i = negacyclic (2 ^ k) (coeff a) (coeff b) i := by
    rintro m ⟨⟨c', a', b'⟩, h⟩
    exact ⟨c', a', b', h⟩
  intro product hp
  simp only [List.mem_cons, List.not_mem_nil, or_false] at hp
  rcases hp with rfl | rfl | rfl | rfl | rfl
  · exact key _ (Naive.run_product1' hk hψ hok hc ha hb hra hrb)
  · exact key _ (Naive.run_product2' hk hψ hok hc ha hb hra hrb)
  · exact key _ (Naive.run_product3' hk hψ hok hc ha hb hra hrb)
  · exact key _ (Naive.run_product4' hk hψ hok hc ha hb hra hrb)
  · exact key _ (Naive.run_product5' hk hψ hok hc ha hb hra hrb)

end Props
