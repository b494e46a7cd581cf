import Verif.Proofs.Params

/-
C11: the products of src/ntt<n>.c multiply in Z_q[X]/(X^n+1).
-/

namespace Props
open C Spec Ntt NTT Tables Polynomial

/-- `Spec.negacyclic` is multiplication of polynomials modulo `X^n + 1` (`%ₘ` is Mathlib's
remainder by a monic polynomial). -/
theorem C11_negacyclic_spec (n : Nat) (hn : 0 < n) (A B : Nat → Zq) :
    toPoly n (negacyclic n A B) = (toPoly n A * toPoly n B) %ₘ (X ^ n + 1) :=
  negacyclic_eq_modByMonic hn A B

/-- For all parameters `n = 2^k`, `psi` accepted by `make_tables`, with the tables it prints, each
of the five product functions stores in `c` the product modulo `X^n+1` in canonical form, whatever
`c` held. -/
theorem C11_products {k : Nat} {xn xpsi : Int} (h : GoodParams k xn xpsi)
    {buf : Nat → Array Nat} (hb : ∀ n, (buf n).size = n) {t : Nttables}
    (ht : make_tables buf xn xpsi = .ok t) (c a b : Array Int) (hc : c.size = 2 ^ k)
    (ha : a.size = 2 ^ k) (hb : b.size = 2 ^ k) (hra : Reduced a) (hrb : Reduced b) :
    ∀ product ∈ [product1 t (2 ^ k), product2 t (2 ^ k), product3 t (2 ^ k), product4 t (2 ^ k),
      product5 t (2 ^ k)],
    ∃ c' a' b', product c a b = .ok (c', a', b') ∧ c'.size = 2 ^ k ∧ a'.size = 2 ^ k ∧
      b'.size = 2 ^ k ∧ Reduced c' ∧
      ∀ i, i < 2 ^ k → coeff c' i = negacyclic (2 ^ k) (coeff a) (coeff b) i := by
  obtain ⟨t', e, hok⟩ := tables_ok h ‹_›
  have : t' = t := by rw [ht] at e; injection e with e; exact e.symm
  subst this
  have hk : k ≤ 31 := by
    have := k_le_16 (h.2.1 ▸ h.2.2.1); omega
  have hψ := good_psi h
  intro product hp
  simp only [List.mem_cons, List.not_mem_nil, or_false] at hp
  rcases hp with rfl | rfl | rfl | rfl | rfl
  · exact run_product1 hk hψ hok hc ha hb hra hrb
  · exact run_product2 hk hψ hok hc ha hb hra hrb
  · exact run_product3 hk hψ hok hc ha hb hra hrb
  · exact run_product4 hk hψ hok hc ha hb hra hrb
  · exact run_product5 hk hψ hok hc ha hb hra hrb

/-- The four sizes of the library, with the parameters of src/Makefile:53-63. -/
def libraryParams : List (Nat × Int × Int) :=
  [(4, 16, 1212), (8, 256, 1002), (9, 512, 1003), (10, 1024, 1014)]

theorem libraryParams_good : ∀ z ∈ libraryParams, GoodParams z.1 z.2.1 z.2.2 := by
  intro z hz
  simp only [libraryParams, List.mem_cons, List.not_mem_nil, or_false] at hz
  rcases hz with rfl | rfl | rfl | rfl
  · exact good16
  · exact good256
  · exact good512
  · exact good1024

/-- `ntt16_product1..5`, `ntt256_product1..5`, `ntt512_product1..5`, `ntt1024_product1..5`: the
tables exist and the products are correct. -/
theorem C11_library : ∀ z ∈ libraryParams, ∃ t, make_tables someBuf z.2.1 z.2.2 = .ok t ∧
    ∀ c a b : Array Int, c.size = 2 ^ z.1 → a.size = 2 ^ z.1 → b.size = 2 ^ z.1 →
      Reduced a → Reduced b →
    ∀ product ∈ [product1 t (2 ^ z.1), product2 t (2 ^ z.1), product3 t (2 ^ z.1),
      product4 t (2 ^ z.1), product5 t (2 ^ z.1)],
    ∃ c' a' b', product c a b = .ok (c', a', b') ∧ c'.size = 2 ^ z.1 ∧ Reduced c' ∧
      ∀ i, i < 2 ^ z.1 → coeff c' i = negacyclic (2 ^ z.1) (coeff a) (coeff b) i := by
  intro z hz
  have hg := libraryParams_good z hz
  obtain ⟨t, e, _⟩ := tables_ok hg someBuf_size
  refine ⟨t, e, fun c a b hc ha hb hra hrb product hp => ?_⟩
  obtain ⟨c', a', b', h1, h2, _, _, h3, h4⟩ :=
    C11_products hg someBuf_size e c a b hc ha hb hra hrb product hp
  exact ⟨c', a', b', h1, h2, h3, h4⟩

/-- The model computes: `(1 + 2X + 3X^2 + 12288X^3)(X + 4X^3) mod X^4+1` with `n = 4` and
`psi = 4043`. -/
example : (do
    let t ← make_tables someBuf 4 4043
    let r ← product1 t 4 #[9, 9, 9, 9] #[1, 2, 3, 12288] #[0, 1, 0, 4]
    pure r.1) = .ok #[12282, 12278, 6, 7] := by decide +kernel

/-- Products of src/ntt<n>.c leave their operands reduced. -/
theorem C11_operands {k : Nat} {xn xpsi : Int} (h : GoodParams k xn xpsi)
    {buf : Nat → Array Nat} (hbuf : ∀ n, (buf n).size = n) {t : Nttables}
    (ht : make_tables buf xn xpsi = .ok t) (c a b : Array Int) (hc : c.size = 2 ^ k)
    (ha : a.size = 2 ^ k) (hb : b.size = 2 ^ k) (hra : Reduced a) (hrb : Reduced b) :
    ∀ product ∈ [Ntt.product1 t (2 ^ k), Ntt.product2 t (2 ^ k), Ntt.product3 t (2 ^ k), Ntt.product4 t (2 ^ k),
      Ntt.product5 t (2 ^ k)],
    ∃ c' a' b', product c a b = .ok (c', a', b') ∧ c'.size = 2 ^ k ∧ a'.size = 2 ^ k ∧
      b'.size = 2 ^ k ∧ Reduced c' ∧ Reduced a' ∧ Reduced b' := by
  obtain ⟨t', e, hok⟩ := tables_ok h hbuf
  have : t' = t := Except.ok.inj (e.symm.trans ht)
  subst this
  have hk : k ≤ 31 := by
    have := k_le_16 (h.2.1 ▸ h.2.2.1); omega
  have hψ := good_psi h
  have key : ∀ m, Ntt.ProductSpec' k a b m → ∃ c' a' b', m = .ok (c', a', b') ∧ c'.size = 2 ^ k ∧ a'.size = 2 ^ k ∧
      b'.size = 2 ^ k ∧ Reduced c' ∧ Reduced a' ∧ Reduced b' := by
    rintro m ⟨c', a', b', h1, h2, h3, h4, h5, h6, h7, -⟩
    exact ⟨c', a', b', h1, h2, h3, h4, h5, h6, h7⟩
  intro product hp
  simp only [List.mem_cons, List.not_mem_nil, or_false] at hp
  rcases hp with rfl | rfl | rfl | rfl | rfl
  · exact key _ (Ntt.run_product1' hk hψ hok hc ha hb hra hrb)
  · exact key _ (Ntt.run_product2' hk hψ hok hc ha hb hra hrb)
  · exact key _ (Ntt.run_product3' hk hψ hok hc ha hb hra hrb)
  · exact key _ (Ntt.run_product4' hk hψ hok hc ha hb hra hrb)
  · exact key _ (Ntt.run_product5' hk hψ hok hc ha hb hra hrb)

end Props
