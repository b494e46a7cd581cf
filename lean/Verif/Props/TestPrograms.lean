import Verif.Proofs.TestDetect
import Verif.Props.Wrappers
import Verif.Props.Bitrev
import Verif.Props.Products
import Verif.Props.Naive
import Verif.Props.RedProducts
import Verif.Props.AsmProducts

/-
C55: the tests of the sixteen programs src/test_ntt<n>.c, src/test_naive_ntt<n>.c,
src/test_ntt_red<n>.c, src/test_ntt_red_asm<n>.c succeed whatever `random()` returns.
C56: the tests detect every error on monomials.
-/

namespace Props
open C Spec NTT Tables TestProg

private theorem shuffle_ok : ∀ z ∈ libraryParams, ∀ a : Array Int, a.size = 2 ^ z.1 →
    Ntt.shuffle_with_table a (shuffleTable (2 ^ z.1)).1 (shuffleTable (2 ^ z.1)).2 =
      Ntt.bitrev_shuffle a (2 ^ z.1) := by
  intro z hz a ha
  simp only [libraryParams, List.mem_cons, List.not_mem_nil, or_false] at hz
  rcases hz with rfl | rfl | rfl | rfl
  · exact (C03_checked_in a).1 ha
  · exact (C03_checked_in a).2.2.1 ha
  · exact (C03_checked_in a).2.2.2.1 ha
  · exact (C03_checked_in a).2.2.2.2 ha

private theorem lib_k : ∀ z ∈ libraryParams, 4 ≤ z.1 ∧ z.1 ≤ 10 ∧ (z.1 = 10 → z = (10, 1024, 1014)) ∧
    ((2 ^ z.1 : Nat) != 1024) = (z.1 != 10) ∧ (2 ^ z.1 = 1024 ↔ z.1 = 10) := by
  intro z hz
  simp only [libraryParams, List.mem_cons, List.not_mem_nil, or_false] at hz
  rcases hz with rfl | rfl | rfl | rfl <;> decide

private theorem nat_elem {x : Nat} {y : Zq} (h : (x : Zq) = y ∧ x < 12289) :
    (0 ≤ (x : Int) ∧ (x : Int) ≤ 12288) ∧ (((x : Int)) : Zq) = y :=
  ⟨⟨by omega, by omega⟩, by rw [← h.1]; simp⟩

/-- The libraries are correct. -/
theorem exact_lib {z : Nat × Int × Int} (hz : z ∈ libraryParams) {buf : Nat → Array Nat}
    (hb : ∀ n, (buf n).size = n) {t : Nttables} (ht : make_tables buf z.2.1 z.2.2 = .ok t) :
    LibOK z.1 (z.2.2 : Zq) (exactTest (2 ^ z.1) t) := by
  have hg := libraryParams_good z hz
  obtain ⟨t', e, hok⟩ := tables_ok hg hb
  have : t' = t := Except.ok.inj (e.symm.trans ht)
  subst this
  have hk := lib_k z hz
  obtain ⟨h1, h2, h3, h4, -⟩ := C49_ntt_transforms hg hb ht
  exact {
    k_le := by omega
    psi := good_psi hg
    n := rfl
    shuffle := shuffle_ok z hz
    omega := nat_elem hok.omega
    inv_omega := nat_elem hok.inv_omega
    inv_n := nat_elem hok.inv_n
    rev2std := h1
    std2rev := h2
    inv_rev2std := h3
    inv_std2rev := h4
    products := fun f hf c a b hc ha hb' hra hrb => by
      obtain ⟨c', a', b', e1, e2, -, -, e3, e4⟩ := C11_products hg hb ht c a b hc ha hb' hra hrb f hf
      exact ⟨c', a', b', e1, e2, e3, e4⟩ }

theorem naive_lib {z : Nat × Int × Int} (hz : z ∈ libraryParams) {buf : Nat → Array Nat}
    (hb : ∀ n, (buf n).size = n) {t : Nttables} (ht : make_tables buf z.2.1 z.2.2 = .ok t) :
    LibOK z.1 (z.2.2 : Zq) (naiveTest (2 ^ z.1) t) := by
  have hg := libraryParams_good z hz
  obtain ⟨t', e, hok⟩ := tables_ok hg hb
  have : t' = t := Except.ok.inj (e.symm.trans ht)
  subst this
  have hk := lib_k z hz
  obtain ⟨h1, h2, h3, h4, -⟩ := C49_naive_transforms hg hb ht
  exact {
    k_le := by omega
    psi := good_psi hg
    n := rfl
    shuffle := shuffle_ok z hz
    omega := nat_elem hok.omega
    inv_omega := nat_elem hok.inv_omega
    inv_n := nat_elem hok.inv_n
    rev2std := h1
    std2rev := h2
    inv_rev2std := h3
    inv_std2rev := h4
    products := fun f hf c a b hc ha hb' hra hrb => by
      obtain ⟨c', a', b', e1, e2, -, -, e3, e4⟩ := C23_products hg hb ht c a b hc ha hb' hra hrb f hf
      exact ⟨c', a', b', e1, e2, e3, e4⟩ }

theorem red_lib {z : Nat × Int × Int} (hz : z ∈ libraryParams) {buf : Nat → Array Nat}
    (hb : ∀ n, (buf n).size = n) {t : RedTables} (ht : make_red_tables buf z.2.1 z.2.2 = .ok t) :
    LibOK z.1 (z.2.2 : Zq) (redTest (2 ^ z.1) t) := by
  have hg := libraryParams_good z hz
  obtain ⟨t', e, hok⟩ := red_tables_ok hg hb
  have : t' = t := Except.ok.inj (e.symm.trans ht)
  subst this
  have hk := lib_k z hz
  obtain ⟨h1, h2, h3, h4, -⟩ := C49_red_transforms hg hb ht
  exact {
    k_le := by omega
    psi := good_psi hg
    n := rfl
    shuffle := shuffle_ok z hz
    omega := nat_elem hok.omega
    inv_omega := nat_elem hok.inv_omega
    inv_n := nat_elem hok.inv_n
    rev2std := h1
    std2rev := h2
    inv_rev2std := h3
    inv_std2rev := h4
    products := fun f hf c a b hc ha hb' hra hrb => by
      obtain ⟨c', a', b', e1, e2, -, -, e3, e4⟩ :=
        C21_products hg hb ht _ c a b hc ha hb' hra hrb f hf
      exact ⟨c', a', b', e1, e2, e3, e4⟩ }

theorem asm_lib {z : Nat × Int × Int} (hz : z ∈ libraryParams) {buf : Nat → Array Nat}
    (hb : ∀ n, (buf n).size = n) {t : RedTables} (ht : make_red_tables buf z.2.1 z.2.2 = .ok t)
    (up : Int) : LibOK z.1 (z.2.2 : Zq) (asmTest (2 ^ z.1) up t) := by
  have hg := libraryParams_good z hz
  obtain ⟨t', e, hok⟩ := red_tables_ok hg hb
  have : t' = t := Except.ok.inj (e.symm.trans ht)
  subst this
  have hk := lib_k z hz
  obtain ⟨h1, h2, h3, h4, -⟩ := C49_asm_transforms hk.1 hg hb ht
  exact {
    k_le := by omega
    psi := good_psi hg
    n := rfl
    shuffle := shuffle_ok z hz
    omega := nat_elem hok.omega
    inv_omega := nat_elem hok.inv_omega
    inv_n := nat_elem hok.inv_n
    rev2std := h1
    std2rev := h2
    inv_rev2std := h3
    inv_std2rev := h4
    products := fun f hf c a b hc ha hb' hra hrb => by
      have gen : f ∈ [AsmProducts.product1 t' (2 ^ z.1) (2 ^ z.1 != 1024),
          AsmProducts.product2 t' (2 ^ z.1) (2 ^ z.1 != 1024),
          AsmProducts.product3 t' (2 ^ z.1) (2 ^ z.1 != 1024),
          AsmProducts.product4 t' (2 ^ z.1) (2 ^ z.1 != 1024),
          AsmProducts.product5 t' (2 ^ z.1) up (2 ^ z.1 != 1024)] →
          ∃ c' a' b', f c a b = .ok (c', a', b') ∧ c'.size = 2 ^ z.1 ∧ InRange 0 12288 c' ∧
            ∀ i, i < 2 ^ z.1 → coeff c' i = negacyclic (2 ^ z.1) (coeff a) (coeff b) i := fun hm => by
        obtain ⟨c', a', b', e1, e2, -, -, e3, e4⟩ :=
          C37_products hk.1 hg hb ht _ up c a b hc ha hb' hra hrb f hm
        exact ⟨c', a', b', e1, e2, e3, e4⟩
      simp only [asmTest, asmLib, List.mem_cons, List.not_mem_nil, or_false] at hf
      rcases hf with hf | hf | hf | hf | hf
      · by_cases h10 : z.1 = 10
        · have hz' := hk.2.2.1 h10
          subst hz'
          rw [if_pos (show 2 ^ 10 = 1024 by norm_num)] at hf
          subst hf
          obtain ⟨c', a', b', e1, e2, -, -, e3, e4⟩ :=
            C37_product1_1024 hb ht c a b hc ha hb' hra hrb
          exact ⟨c', a', b', e1, e2, e3, e4⟩
        · rw [if_neg (fun hh => h10 (hk.2.2.2.2.1 hh))] at hf
          exact gen (by simp [hf])
      · exact gen (by simp [hf])
      · exact gen (by simp [hf])
      · exact gen (by simp [hf])
      · exact gen (by simp [hf]) }

/-! ### C55: the tests succeed -/

/-- src/test_ntt16.c, src/test_ntt256.c, src/test_ntt512.c, src/test_ntt1024.c: for all values that
`random()` returns and all initial contents of local arrays, the tests of `main` return without a
report of failure, overflow, failed assertion or access out of bounds. -/
theorem C55_test_ntt : ∀ z ∈ libraryParams, ∀ buf : Nat → Array Nat, (∀ n, (buf n).size = n) →
    ∃ t, make_tables buf z.2.1 z.2.2 = .ok t ∧
      ∀ w, WorldOK (2 ^ z.1) w → ∃ c, tests (exactTest (2 ^ z.1) t) w 0 = .ok c := by
  intro z hz buf hb
  obtain ⟨t, ht, -⟩ := tables_ok (libraryParams_good z hz) hb
  exact ⟨t, ht, fun w hw => run_tests (exact_lib hz hb ht) hw 0⟩

/-- src/test_naive_ntt16.c, ..., src/test_naive_ntt1024.c. -/
theorem C55_test_naive_ntt : ∀ z ∈ libraryParams, ∀ buf : Nat → Array Nat, (∀ n, (buf n).size = n) →
    ∃ t, make_tables buf z.2.1 z.2.2 = .ok t ∧
      ∀ w, WorldOK (2 ^ z.1) w → ∃ c, tests (naiveTest (2 ^ z.1) t) w 0 = .ok c := by
  intro z hz buf hb
  obtain ⟨t, ht, -⟩ := tables_ok (libraryParams_good z hz) hb
  exact ⟨t, ht, fun w hw => run_tests (naive_lib hz hb ht) hw 0⟩

/-- src/test_ntt_red16.c, ..., src/test_ntt_red1024.c. -/
theorem C55_test_ntt_red : ∀ z ∈ libraryParams, ∀ buf : Nat → Array Nat, (∀ n, (buf n).size = n) →
    ∃ t, make_red_tables buf z.2.1 z.2.2 = .ok t ∧
      ∀ w, WorldOK (2 ^ z.1) w → ∃ c, tests (redTest (2 ^ z.1) t) w 0 = .ok c := by
  intro z hz buf hb
  obtain ⟨t, ht, -⟩ := red_tables_ok (libraryParams_good z hz) hb
  exact ⟨t, ht, fun w hw => run_tests (red_lib hz hb ht) hw 0⟩

/-- src/test_ntt_red_asm16.c, ..., src/test_ntt_red_asm1024.c. -/
theorem C55_test_ntt_red_asm : ∀ z ∈ libraryParams, ∀ buf : Nat → Array Nat,
    (∀ n, (buf n).size = n) → ∃ t, make_red_tables buf z.2.1 z.2.2 = .ok t ∧
      ∀ up w, WorldOK (2 ^ z.1) w → ∃ c, tests (asmTest (2 ^ z.1) up t) w 0 = .ok c := by
  intro z hz buf hb
  obtain ⟨t, ht, -⟩ := red_tables_ok (libraryParams_good z hz) hb
  exact ⟨t, ht, fun up w hw => run_tests (asm_lib hz hb ht up) hw 0⟩

/-- A world. -/
def someWorld (n : Nat) : World where
  random i := (i * 1103515245 + 12345) % 2147483648
  cycles i := i * i % 18446744073709551616
  junk i := Array.replicate n (i : Int)

example : WorldOK 1024 (someWorld 1024) :=
  ⟨fun i => by simp only [someWorld]; omega, fun i => by simp only [someWorld]; omega,
    fun i => by simp [someWorld]⟩

/-! ### C56: what the tests establish -/

section
variable {n : Nat} (hn : n < 2 ^ 31) (a : Array Int) (ha : a.size = n)
include hn ha

/-- `check_ntt_simple(a, n, j, omega)` is true exactly if `a` holds the transform of `X^j` with root
omega, in canonical form. -/
theorem C56_check_ntt_simple (j : Nat) (hj : j < n) (om : Int) (hom : 0 ≤ om ∧ om < 12289) :
    ∃ r, check_ntt_simple a n j om = .ok r ∧
      (r = true ↔ Reduced a ∧ ∀ i, i < n → coeff a i = ntt n (om : Zq) (mono j) i) :=
  run_check_ntt_simple (by omega) hj ha ⟨hom.1, by omega⟩

/-- `check_ntt_ntt_simple(a, n, j)` is true exactly if `a` is `n` at position `-j mod n` and 0
elsewhere. -/
theorem C56_check_ntt_ntt_simple (j : Nat) (hj : j < n)
    (hr : InRange (-2147483648) 2147483647 a) :
    ∃ r, check_ntt_ntt_simple a n j = .ok r ∧
      (r = true ↔ ∀ i, i < n → elt a i = if (i + j) % n = 0 then (n : Int) else 0) := by
  obtain ⟨r, e, h⟩ := run_check_ntt_ntt_simple hn hj ha (fun i hi => hr i (by omega))
  refine ⟨r, e, h.trans (forall_congr' fun i => ?_)⟩
  refine forall_congr' fun hi => ?_
  have : i = opp n j ↔ (i + j) % n = 0 := by
    unfold opp
    by_cases h0 : j = 0
    · subst h0; rw [if_pos rfl, Nat.add_zero, Nat.mod_eq_of_lt hi]
    · rw [if_neg h0]
      constructor
      · rintro rfl; rw [Nat.sub_add_cancel (by omega), Nat.mod_self]
      · intro h
        obtain ⟨q, hq⟩ := Nat.dvd_of_mod_eq_zero h
        have : q = 1 := by
          rcases q with _ | _ | q
          · omega
          · rfl
          · exfalso
            have : n * (q + 1 + 1) ≥ n * 2 := Nat.mul_le_mul_left _ (by omega)
            omega
        subst this; omega
  simp only [this]

/-- `equal_simple_poly(c, n, i+j)` is true exactly if `c` holds the product `X^i X^j` modulo `X^n+1` in
canonical form. -/
theorem C56_equal_simple_poly (i j : Nat) (hi : i < n) (hj : j < n) :
    ∃ r, equal_simple_poly a n (i + j) = .ok r ∧
      (r = true ↔ Reduced a ∧ ∀ l, l < n → coeff a l = negacyclic n (mono i) (mono j) l) := by
  have := run_equal_simple_poly hn hi hj ha
  rwa [show u32 (i + j) = i + j by unfold u32; omega] at this

/-- `equal_arrays` decides equality. -/
theorem C56_equal_arrays (b : Array Int) (hb : b.size = n) :
    ∃ r, equal_arrays a b n = .ok r ∧ (r = true ↔ a = b) :=
  run_equal_arrays (by omega) ha hb

end

section
variable {k : Nat} (hk : k ≤ 30) (L : Lib) (w : World) (hw : WorldOK (2 ^ k) w) (hn : L.n = 2 ^ k)
  (hsh : ∀ a : Array Int, a.size = 2 ^ k →
    Ntt.shuffle_with_table a L.bitrev L.npairs = Ntt.bitrev_shuffle a (2 ^ k))
include hk hw hn

include hsh in
/-- A function from standard to bit-reverse order that passes `test_simple_polys` gives the right
coefficients on every monomial. -/
theorem C56_transform_std2rev (f : Array Int → M (Array Int))
    (hf : ∀ a a', a.size = 2 ^ k → f a = .ok a' → a'.size = 2 ^ k) (om : Int)
    (hom : 0 ≤ om ∧ om < 12289) (c c' : Nat) (h : test_simple_polys L w f om true c = .ok c') :
    ∀ j, j < 2 ^ k → ∃ x y, IsMono (2 ^ k) j x ∧ f x = .ok y ∧
      ∀ i, i < 2 ^ k → coeff y i = ntt (2 ^ k) (om : Zq) (mono j) (rev k i) := by
  intro j hj
  obtain ⟨x, y, h1, h2, h3⟩ := polys_detect hk hw hn hsh hf ⟨hom.1, by omega⟩ h hj
  refine ⟨x, y, h1, h2, fun i hi => ?_⟩
  have := h3 (rev k i) (rev_lt k i)
  rw [if_pos rfl, rev_rev k i hi] at this
  exact this

include hsh in
/-- A function from bit-reverse to standard order that passes `test_simple_polys`. -/
theorem C56_transform_rev2std (f : Array Int → M (Array Int))
    (hf : ∀ a a', a.size = 2 ^ k → f a = .ok a' → a'.size = 2 ^ k) (om : Int)
    (hom : 0 ≤ om ∧ om < 12289) (c c' : Nat) (h : test_simple_polys L w f om false c = .ok c') :
    ∀ j, j < 2 ^ k → ∃ x y, IsMono (2 ^ k) (rev k j) x ∧ f x = .ok y ∧
      ∀ i, i < 2 ^ k → coeff y i = ntt (2 ^ k) (om : Zq) (mono j) i := by
  intro j hj
  exact polys_detect hk hw hn hsh hf ⟨hom.1, by omega⟩ h hj

/-- A product function that passes `test_simple_products` is right on all pairs of monomials. -/
theorem C56_product (f : Array Int → Array Int → Array Int → M (Array Int × Array Int × Array Int))
    (hf : ∀ c a b c' a' b', c.size = 2 ^ k → a.size = 2 ^ k → b.size = 2 ^ k →
      f c a b = .ok (c', a', b') → c'.size = 2 ^ k) (c c' : Nat)
    (h : test_simple_products L w f c = .ok c') :
    ∀ i j, i < 2 ^ k → j < 2 ^ k → ∃ d x y d' x' y', d.size = 2 ^ k ∧ IsMono (2 ^ k) i x ∧
      IsMono (2 ^ k) j y ∧ f d x y = .ok (d', x', y') ∧
      ∀ l, l < 2 ^ k → coeff d' l = negacyclic (2 ^ k) (mono i) (mono j) l :=
  fun _ _ hi hj => products_detect hk hw hn hf h hi hj

include hsh in
/-- A linear function from standard to bit-reverse order that passes `test_simple_polys` is the
transform on every input. -/
theorem C56_linear_transform (f : Array Int → M (Array Int)) (X : Nat → Nat → Zq)
    (hf : ∀ a, a.size = 2 ^ k → Reduced a → ∃ a', f a = .ok a' ∧ a'.size = 2 ^ k ∧
      ∀ i, i < 2 ^ k → coeff a' i = ∑ l ∈ Finset.range (2 ^ k), X i l * coeff a l)
    (hs : ∀ a a', a.size = 2 ^ k → f a = .ok a' → a'.size = 2 ^ k) (om : Int)
    (hom : 0 ≤ om ∧ om < 12289) (c c' : Nat) (h : test_simple_polys L w f om true c = .ok c') :
    ∀ a, a.size = 2 ^ k → Reduced a → ∃ a', f a = .ok a' ∧
      ∀ i, i < 2 ^ k → coeff a' i = ntt (2 ^ k) (om : Zq) (coeff a) (rev k i) := by
  intro a ha hr
  obtain ⟨a', e, s, v⟩ := hf a ha hr
  refine ⟨a', e, fun i hi => ?_⟩
  rw [v i hi]
  unfold ntt evalPoly
  refine Finset.sum_congr rfl fun j hj => ?_
  have hj := Finset.mem_range.1 hj
  obtain ⟨x, y, hx, ey, hy⟩ := C56_transform_std2rev hk L w hw hn hsh f hs om hom c c' h j hj
  obtain ⟨y', e2, -, v2⟩ := hf x hx.1 hx.reduced
  rw [ey] at e2
  cases e2
  have e3 := v2 i hi
  rw [sum_mono (coeff x) (X i) hj hx.coeff, hy i hi, ntt_mono _ _ hj] at e3
  rw [← e3, mul_comm, ← pow_mul, ← pow_mul, Nat.mul_comm]

/-- A bilinear function that passes `test_simple_products` is the product on all inputs. -/
theorem C56_bilinear_product
    (f : Array Int → Array Int → Array Int → M (Array Int × Array Int × Array Int))
    (X : Nat → Nat → Nat → Zq)
    (hf : ∀ c a b, c.size = 2 ^ k → a.size = 2 ^ k → b.size = 2 ^ k → Reduced a → Reduced b →
      ∃ c' a' b', f c a b = .ok (c', a', b') ∧ ∀ l, l < 2 ^ k → coeff c' l =
        ∑ i ∈ Finset.range (2 ^ k), (∑ j ∈ Finset.range (2 ^ k), X l i j * coeff b j) * coeff a i)
    (hs : ∀ c a b c' a' b', c.size = 2 ^ k → a.size = 2 ^ k → b.size = 2 ^ k →
      f c a b = .ok (c', a', b') → c'.size = 2 ^ k) (c c' : Nat)
    (h : test_simple_products L w f c = .ok c') :
    ∀ c a b, c.size = 2 ^ k → a.size = 2 ^ k → b.size = 2 ^ k → Reduced a → Reduced b →
      ∃ c' a' b', f c a b = .ok (c', a', b') ∧ ∀ l, l < 2 ^ k →
        coeff c' l = negacyclic (2 ^ k) (coeff a) (coeff b) l := by
  intro d a b hd ha hb hra hrb
  obtain ⟨d', a', b', e, v⟩ := hf d a b hd ha hb hra hrb
  refine ⟨d', a', b', e, fun l hl => ?_⟩
  rw [v l hl]
  unfold negacyclic
  refine Finset.sum_congr rfl fun i hi => ?_
  have hi := Finset.mem_range.1 hi
  rw [Finset.sum_mul]
  refine Finset.sum_congr rfl fun j hj => ?_
  have hj := Finset.mem_range.1 hj
  obtain ⟨g, x, y, g', x', y', hg, hx, hy, eg, vg⟩ := C56_product hk L w hw hn f hs c c' h i j hi hj
  obtain ⟨g2, x2, y2, e2, v2⟩ := hf g x y hg hx.1 hy.1 hx.reduced hy.reduced
  rw [eg] at e2
  cases e2
  have e3 := v2 l hl
  rw [sum_mono (coeff x) (fun i => ∑ j ∈ Finset.range (2 ^ k), X l i j * coeff y j) hi hx.coeff,
    sum_mono (coeff y) (X l i) hj hy.coeff, vg l hl, negacyclic_mono hi hj] at e3
  rw [← e3]
  split_ifs <;> ring

end

/-- The tests reject a wrong transform: for n = 16, `ntt_ct_std2rev` with a wrong entry in its table
of roots fails on `X`. -/
example : (do
    let t ← make_tables someBuf 16 1212
    let p := t.omega_powers_rev.setIfInBounds 9 1
    test_simple_polys (exactTest 16 t) (someWorld 16) (fun a => Ntt.ntt_ct_std2rev a 16 p) t.omega true 0) =
    .error .abort := by decide +kernel

/-- The hypotheses of C56 hold: transforms and products of size 16 and 4 pass. -/
example : (do
    let t ← make_tables someBuf 16 1212
    let x ← test_simple_polys (exactTest 16 t) (someWorld 16) (Ntt.fwd_ct_std2rev t 16) t.omega true 0
    test_simple_polys (exactTest 16 t) (someWorld 16) (Ntt.intt_gs_rev2std t 16) t.inv_omega false x) =
    .ok 2 := by decide +kernel

example : (do
    let t ← make_tables someBuf 4 4043
    test_simple_products (exactTest 4 t) (someWorld 4) (Ntt.product1 t 4) 0) = .ok 48 := by
  decide +kernel

end Props
