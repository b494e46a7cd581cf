import Verif.Props.RedProducts
import Verif.Proofs.AsmProduct1024

/-
C37: the products of src/ntt_red_asm<n>.c multiply in Z_q[X]/(X^n+1).
-/

namespace Props
open C Spec NTT Tables

/-- For all parameters `n = 2^k`, `16 ≤ n ≤ 1024`, `psi` accepted by `make_red_tables`, with the tables
it prints, each of the five product functions (with the initial `shift_array_asm` as for n = 16, 256,
512, or without it as for n = 1024) stores in `c` the product modulo `X^n+1` in canonical form, whatever
`c` held and whatever the upper half `up` of the register of the scalar argument holds, without
accesses outside the arrays. -/
theorem C37_products {k : Nat} (hk4 : 4 ≤ k) {xn xpsi : Int} (h : GoodParams k xn xpsi)
    {buf : Nat → Array Nat} (hbuf : ∀ n, (buf n).size = n) {t : RedTables}
    (ht : make_red_tables buf xn xpsi = .ok t) (sh : Bool) (up : Int) (c a b : Array Int)
    (hc : c.size = 2 ^ k) (ha : a.size = 2 ^ k) (hb : b.size = 2 ^ k) (hra : Reduced a)
    (hrb : Reduced b) :
    ∀ product ∈ [AsmProducts.product1 t (2 ^ k) sh, AsmProducts.product2 t (2 ^ k) sh,
      AsmProducts.product3 t (2 ^ k) sh, AsmProducts.product4 t (2 ^ k) sh,
      AsmProducts.product5 t (2 ^ k) up sh],
    ∃ c' a' b', product c a b = .ok (c', a', b') ∧ c'.size = 2 ^ k ∧ a'.size = 2 ^ k ∧
      b'.size = 2 ^ k ∧ Reduced c' ∧
      ∀ i, i < 2 ^ k → coeff c' i = negacyclic (2 ^ k) (coeff a) (coeff b) i := by
  have hk := good_le h
  obtain ⟨t', e, hok⟩ := red_tables_ok h hbuf
  have : t' = t := by rw [ht] at e; injection e with e; exact e.symm
  subst this
  have hψ := good_psi h
  have key : ∀ m, NttRed.ProductSpec k a b m → ∃ c' a' b', m = .ok (c', a', b') ∧ c'.size = 2 ^ k ∧
      a'.size = 2 ^ k ∧ b'.size = 2 ^ k ∧ Reduced c' ∧
      ∀ i, i < 2 ^ k → coeff c' i = negacyclic (2 ^ k) (coeff a) (coeff b) i := by
    rintro m ⟨⟨c', a', b'⟩, h⟩
    exact ⟨c', a', b', h⟩
  intro product hp
  simp only [List.mem_cons, List.not_mem_nil, or_false] at hp
  rcases hp with rfl | rfl | rfl | rfl | rfl
  · exact key _ (AsmProducts.run_product1 hk4 hk hψ hok sh hc ha hb hra hrb)
  · exact key _ (AsmProducts.run_product2 hk4 hk hψ hok sh hc ha hb hra hrb)
  · exact key _ (AsmProducts.run_product3 hk4 hk hψ hok sh hc ha hb hra hrb)
  · exact key _ (AsmProducts.run_product4 hk4 hk hψ hok sh hc ha hb hra hrb)
  · exact key _ (AsmProducts.run_product5 hk4 hk hψ hok sh up hc ha hb hra hrb)

private theorem product1_1024_aux {buf : Nat → Array Nat} (hbuf : ∀ n, (buf n).size = n) {t : RedTables}
    (ht : make_red_tables buf 1024 1014 = .ok t) {n : Nat} (hn : n = 2 ^ 10) (c a b : Array Int)
    (hc : c.size = n) (ha : a.size = n) (hb : b.size = n) (hra : Reduced a) (hrb : Reduced b) :
    ∃ c' a' b', AsmProducts.product1_1024 t n c a b = .ok (c', a', b') ∧ c'.size = n ∧
      a'.size = n ∧ b'.size = n ∧ Reduced c' ∧
      ∀ i, i < n → coeff c' i = negacyclic n (coeff a) (coeff b) i := by
  obtain ⟨t', e, hok⟩ := red_tables_ok good1024 hbuf
  have : t' = t := Except.ok.inj (e.symm.trans ht)
  subst this
  subst hn
  have e1 : ((1014 : Int) : Zq) = 1014 := by norm_num
  have hψ := good_psi good1024
  rw [e1] at hok hψ
  obtain ⟨⟨c', a', b'⟩, h⟩ := AsmProducts.run_product1_1024 hψ hok hc ha hb hra hrb
  exact ⟨c', a', b', h⟩

/-- `ntt_red1024_product1_asm`, which omits a double reduction, with the tables of the library
(n = 1024, psi = 1014). -/
theorem C37_product1_1024 {buf : Nat → Array Nat} (hbuf : ∀ n, (buf n).size = n) {t : RedTables}
    (ht : make_red_tables buf 1024 1014 = .ok t) (c a b : Array Int)
    (hc : c.size = 1024) (ha : a.size = 1024) (hb : b.size = 1024) (hra : Reduced a)
    (hrb : Reduced b) :
    ∃ c' a' b', AsmProducts.product1_1024 t 1024 c a b = .ok (c', a', b') ∧ c'.size = 1024 ∧
      a'.size = 1024 ∧ b'.size = 1024 ∧ Reduced c' ∧
      ∀ i, i < 1024 → coeff c' i = negacyclic 1024 (coeff a) (coeff b) i :=
  product1_1024_aux hbuf ht (by norm_num) c a b hc ha hb hra hrb

/-- The products of size `2^k` of the library, src/ntt_red_asm<n>.c. -/
def asmProducts (t : RedTables) (up : Int) (k : Nat) :
    List (Array Int → Array Int → Array Int → M (Array Int × Array Int × Array Int)) :=
  [if k = 10 then AsmProducts.product1_1024 t (2 ^ k) else AsmProducts.product1 t (2 ^ k) true,
    AsmProducts.product2 t (2 ^ k) (k != 10), AsmProducts.product3 t (2 ^ k) (k != 10),
    AsmProducts.product4 t (2 ^ k) (k != 10), AsmProducts.product5 t (2 ^ k) up (k != 10)]

/-- The library: the sizes and parameters of the Makefile. -/
theorem C37_library : ∀ z ∈ libraryParams, ∃ t, make_red_tables someBuf z.2.1 z.2.2 = .ok t ∧
    ∀ (up : Int) (c a b : Array Int), c.size = 2 ^ z.1 → a.size = 2 ^ z.1 → b.size = 2 ^ z.1 →
      Reduced a → Reduced b →
    ∀ product ∈ asmProducts t up z.1,
    ∃ c' a' b', product c a b = .ok (c', a', b') ∧ c'.size = 2 ^ z.1 ∧ Reduced c' ∧
      ∀ i, i < 2 ^ z.1 → coeff c' i = negacyclic (2 ^ z.1) (coeff a) (coeff b) i := by
  intro z hz
  have hg := libraryParams_good z hz
  have hk : 4 ≤ z.1 ∧ z.1 ≤ 10 ∧ (z.1 = 10 → z.2 = (1024, 1014)) := by
    simp only [libraryParams, List.mem_cons, List.not_mem_nil, or_false] at hz
    rcases hz with rfl | rfl | rfl | rfl <;> decide
  obtain ⟨t, e, _⟩ := red_tables_ok hg someBuf_size
  refine ⟨t, e, fun up c a b hc ha hb hra hrb product hp => ?_⟩
  have key := C37_products hk.1 hg someBuf_size e
  simp only [asmProducts, List.mem_cons, List.not_mem_nil, or_false] at hp
  have fin : ∀ sh, product ∈ [AsmProducts.product1 t (2 ^ z.1) sh, AsmProducts.product2 t (2 ^ z.1) sh,
      AsmProducts.product3 t (2 ^ z.1) sh, AsmProducts.product4 t (2 ^ z.1) sh,
      AsmProducts.product5 t (2 ^ z.1) up sh] →
      ∃ c' a' b', product c a b = .ok (c', a', b') ∧ c'.size = 2 ^ z.1 ∧ Reduced c' ∧
      ∀ i, i < 2 ^ z.1 → coeff c' i = negacyclic (2 ^ z.1) (coeff a) (coeff b) i := fun sh hm => by
    obtain ⟨c', a', b', h1, h2, _, _, h3, h4⟩ := key sh up c a b hc ha hb hra hrb product hm
    exact ⟨c', a', b', h1, h2, h3, h4⟩
  rcases hp with rfl | rfl | rfl | rfl | rfl
  · by_cases h10 : z.1 = 10
    · obtain ⟨k, xn, xpsi⟩ := z
      dsimp only at *
      subst h10
      obtain ⟨rfl, rfl⟩ := Prod.mk.inj (hk.2.2 rfl)
      obtain ⟨c', a', b', h1, h2, _, _, h3, h4⟩ :=
        product1_1024_aux someBuf_size e rfl c a b hc ha hb hra hrb
      rw [if_pos rfl]
      exact ⟨c', a', b', h1, h2, h3, h4⟩
    · exact fin true (by simp [h10])
  all_goals exact fin (z.1 != 10) (by simp)

/-- The assembly products and the C products give the same result. -/
theorem C37_agree {k : Nat} (hk4 : 4 ≤ k) {xn xpsi : Int} (h : GoodParams k xn xpsi)
    {buf : Nat → Array Nat} (hbuf : ∀ n, (buf n).size = n) {t : RedTables}
    (ht : make_red_tables buf xn xpsi = .ok t) (sh : Bool) (up : Int) (c d a b : Array Int)
    (hc : c.size = 2 ^ k) (hd : d.size = 2 ^ k) (ha : a.size = 2 ^ k) (hb : b.size = 2 ^ k)
    (hra : Reduced a) (hrb : Reduced b) :
    ∀ f ∈ [(AsmProducts.product1 t (2 ^ k) sh, NttRed.product1 t (2 ^ k) sh),
      (AsmProducts.product2 t (2 ^ k) sh, NttRed.product2 t (2 ^ k) sh),
      (AsmProducts.product3 t (2 ^ k) sh, NttRed.product3 t (2 ^ k) sh),
      (AsmProducts.product4 t (2 ^ k) sh, NttRed.product4 t (2 ^ k) sh),
      (AsmProducts.product5 t (2 ^ k) up sh, NttRed.product5 t (2 ^ k) sh)],
    ∃ r s, f.1 c a b = .ok r ∧ f.2 d a b = .ok s ∧ r.1 = s.1 := by
  have hk := good_le h
  intro f hf
  simp only [List.mem_cons, List.not_mem_nil, or_false] at hf
  obtain ⟨c', a', b', h1, h2, _, _, h3, h4⟩ :=
    C37_products hk4 h hbuf ht sh up c a b hc ha hb hra hrb f.1
      (by rcases hf with rfl | rfl | rfl | rfl | rfl <;> simp)
  obtain ⟨c2, a2, b2, g1, g2, _, _, g3, g4⟩ :=
    C21_products h hbuf ht sh d a b hd ha hb hra hrb f.2
      (by rcases hf with rfl | rfl | rfl | rfl | rfl <;> simp)
  refine ⟨_, _, h1, g1, ?_⟩
  exact reduced_ext (h2.trans g2.symm) h3 g3 (fun i hi => by
    have hi' : i < 2 ^ k := h2 ▸ hi
    rw [h4 i hi', g4 i hi'])

/-- The model computes: with the tables for n = 16, psi = 1212, `(1 + 12288 X^15) * (2 X + 3 X^15)`. -/
example : (do
    let t ← make_red_tables someBuf 16 1212
    let a := #[1, 0, 0, 0, 0, 0, 0, 0, 0, 0, 0, 0, 0, 0, 0, 12288]
    let b := #[0, 2, 0, 0, 0, 0, 0, 0, 0, 0, 0, 0, 0, 0, 0, 3]
    let c := Array.replicate 16 99
    let r ← AsmProducts.product1 t 16 true c a b
    let s ← AsmProducts.product5 t 16 7 true c a b
    let u ← AsmProducts.product1_1024 t 16 c a b
    pure (r.1, s.1, u.1)) =
    .ok (#[2, 2, 0, 0, 0, 0, 0, 0, 0, 0, 0, 0, 0, 0, 3, 3], #[2, 2, 0, 0, 0, 0, 0, 0, 0, 0, 0, 0, 0, 0, 3, 3],
      #[2, 2, 0, 0, 0, 0, 0, 0, 0, 0, 0, 0, 0, 0, 3, 3]) := by decide +kernel

end Props
