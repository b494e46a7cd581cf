import Verif.Props.Products
import Verif.Proofs.RedProducts

/-
C21: the products of src/ntt_red<n>.c multiply in Z_q[X]/(X^n+1).
-/

namespace Props
open C Spec NttRed NTT Tables

/-- For all parameters `n = 2^k`, `psi` accepted by `make_red_tables`, with the tables it
prints, each of the five product functions (with the initial `shift_array` as for n = 16, 256, 512,
or without it as for n = 1024) stores in `c` the product modulo `X^n+1` in canonical form, whatever
`c` held, without overflow. -/
theorem C21_products {k : Nat} {xn xpsi : Int} (h : GoodParams k xn xpsi)
    {buf : Nat → Array Nat} (hbuf : ∀ n, (buf n).size = n) {t : RedTables}
    (ht : make_red_tables buf xn xpsi = .ok t) (sh : Bool) (c a b : Array Int)
    (hc : c.size = 2 ^ k) (ha : a.size = 2 ^ k) (hb : b.size = 2 ^ k) (hra : Reduced a)
    (hrb : Reduced b) :
    ∀ product ∈ [product1 t (2 ^ k) sh, product2 t (2 ^ k) sh, product3 t (2 ^ k) sh,
      product4 t (2 ^ k) sh, product5 t (2 ^ k) sh],
    ∃ c' a' b', product c a b = .ok (c', a', b') ∧ c'.size = 2 ^ k ∧ a'.size = 2 ^ k ∧
      b'.size = 2 ^ k ∧ Reduced c' ∧
      ∀ i, i < 2 ^ k → coeff c' i = negacyclic (2 ^ k) (coeff a) (coeff b) i := by
  have hk := good_le h
  obtain ⟨t', e, hok⟩ := red_tables_ok h hbuf
  have : t' = t := by rw [ht] at e; injection e with e; exact e.symm
  subst this
  have hψ := good_psi h
  have key : ∀ m, ProductSpec k a b m → ∃ c' a' b', m = .ok (c', a', b') ∧ c'.size = 2 ^ k ∧
      a'.size = 2 ^ k ∧ b'.size = 2 ^ k ∧ Reduced c' ∧
      ∀ i, i < 2 ^ k → coeff c' i = negacyclic (2 ^ k) (coeff a) (coeff b) i := by
    rintro m ⟨⟨c', a', b'⟩, h⟩
    exact ⟨c', a', b', h⟩
  intro product hp
  simp only [List.mem_cons, List.not_mem_nil, or_false] at hp
  rcases hp with rfl | rfl | rfl | rfl | rfl
  · exact key _ (run_product1 hk hψ hok sh hc ha hb hra hrb)
  · exact key _ (run_product2 hk hψ hok sh hc ha hb hra hrb)
  · exact key _ (run_product3 hk hψ hok sh hc ha hb hra hrb)
  · exact key _ (run_product4 hk hψ hok sh hc ha hb hra hrb)
  · exact key _ (run_product5 hk hψ hok sh hc ha hb hra hrb)

/-- The library: the sizes and parameters of the Makefile; the inputs are shifted for the sizes
16, 256 and 512 (src/ntt_red16.c, src/ntt_red256.c, src/ntt_red512.c) and not for 1024
(src/ntt_red1024.c). -/
theorem C21_library : ∀ z ∈ libraryParams, ∃ t, make_red_tables someBuf z.2.1 z.2.2 = .ok t ∧
    ∀ c a b : Array Int, c.size = 2 ^ z.1 → a.size = 2 ^ z.1 → b.size = 2 ^ z.1 →
      Reduced a → Reduced b →
    ∀ product ∈ [product1 t (2 ^ z.1) (z.1 != 10), product2 t (2 ^ z.1) (z.1 != 10),
      product3 t (2 ^ z.1) (z.1 != 10), product4 t (2 ^ z.1) (z.1 != 10),
      product5 t (2 ^ z.1) (z.1 != 10)],
    ∃ c' a' b', product c a b = .ok (c', a', b') ∧ c'.size = 2 ^ z.1 ∧ Reduced c' ∧
      ∀ i, i < 2 ^ z.1 → coeff c' i = negacyclic (2 ^ z.1) (coeff a) (coeff b) i := by
  intro z hz
  have hg := libraryParams_good z hz
  have hk : z.1 ≤ 10 := by
    simp only [libraryParams, List.mem_cons, List.not_mem_nil, or_false] at hz
    rcases hz with rfl | rfl | rfl | rfl <;> decide
  obtain ⟨t, e, _⟩ := red_tables_ok hg someBuf_size
  refine ⟨t, e, fun c a b hc ha hb hra hrb product hp => ?_⟩
  obtain ⟨c', a', b', h1, h2, _, _, h3, h4⟩ :=
    C21_products hg someBuf_size e _ c a b hc ha hb hra hrb product hp
  exact ⟨c', a', b', h1, h2, h3, h4⟩

/-- The hypotheses of `C21_products` hold for the largest size, 2048. -/
example : ∃ t, make_red_tables someBuf 2048 41 = .ok t ∧ ∀ c a b : Array Int, c.size = 2048 → a.size = 2048 → b.size = 2048 →
    Reduced a → Reduced b → ∃ c' a' b', product4 t 2048 false c a b = .ok (c', a', b') ∧ c'.size = 2048 ∧ Reduced c' ∧
      ∀ i, i < 2048 → coeff c' i = negacyclic 2048 (coeff a) (coeff b) i := by
  obtain ⟨t, e, _⟩ := red_tables_ok good2048 someBuf_size
  refine ⟨t, e, fun c a b hc ha hb hra hrb => ?_⟩
  obtain ⟨c', a', b', h1, h2, _, _, h3, h4⟩ :=
    C21_products good2048 someBuf_size e false c a b hc ha hb hra hrb (product4 t (2 ^ 11) false) (by simp)
  exact ⟨c', a', b', h1, h2, h3, h4⟩

/-- The model computes: the same product as in `Verif/Props/Products.lean`. -/
example : (do
    let t ← make_red_tables someBuf 4 4043
    let r ← product1 t 4 true #[9, 9, 9, 9] #[1, 2, 3, 12288] #[0, 1, 0, 4]
    let s ← product5 t 4 false #[9, 9, 9, 9] #[1, 2, 3, 12288] #[0, 1, 0, 4]
    pure (r.1, s.1)) = .ok (#[12282, 12278, 6, 7], #[12282, 12278, 6, 7]) := by decide +kernel

end Props
