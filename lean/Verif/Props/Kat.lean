import Verif.Proofs.Kat
import Verif.Props.AsmProducts

/-
C58: the known answers of src/data_poly1024.c are right, the programs src/kat_mul1024.c, src/kat_mul1024_red.c and
src/kat_mul1024_red_asm.c report success, and a function passes only if it is right on the 100 pairs.
-/

namespace Props
open C Spec NTT Tables Kat

/-- `build_kat` fills the global arrays with 100 triples of reduced polynomials `a[r]`, `b[r]`, `c[r]` such that
`c[r] = a[r] * b[r]` modulo `X^1024 + 1`. -/
theorem C58_known_answers : ∃ g, build_kat zeros = .ok g ∧
    (g.a.size = 100 ∧ g.b.size = 100 ∧ g.c.size = 100) ∧ KnownAnswers g := by
  obtain ⟨g, e, h⟩ := build_ok
  exact ⟨g, e, ⟨h.a.1, h.b.1, h.c.1⟩, h.known⟩

private theorem multiplies {n : Nat} (hn : n = 1024) {f : Product}
    (h : ∀ c a b : Array Int, c.size = n → a.size = n → b.size = n → Reduced a → Reduced b →
      ∃ c' a' b', f c a b = .ok (c', a', b') ∧ c'.size = n ∧ a'.size = n ∧ b'.size = n ∧ Reduced c' ∧
        ∀ i, i < n → coeff c' i = negacyclic n (coeff a) (coeff b) i) : Multiplies f := by
  subst hn
  exact h

/-- src/kat_mul1024.c reports success, whatever uninitialised memory contains. -/
theorem C58_kat_mul1024 (buf : Nat → Array Nat) (hb : ∀ n, (buf n).size = n) :
    ∃ t, make_tables buf 1024 1014 = .ok t ∧ ∀ junk : Nat → Array Int, (∀ i, (junk i).size = 1024) →
      Kat.main junk [Ntt.product1 t 1024, Ntt.product2 t 1024, Ntt.product3 t 1024, Ntt.product4 t 1024,
        Ntt.product5 t 1024] = .ok () := by
  obtain ⟨t, ht, -⟩ := tables_ok good1024 hb
  refine ⟨t, ht, fun junk hj => ?_⟩
  have e : (1024 : Nat) = 2 ^ 10 := by norm_num
  refine run_main hj fun f hf => multiplies e.symm fun c a b hc ha hb' hra hrb => ?_
  rw [e] at hf
  exact C11_products good1024 hb ht c a b hc ha hb' hra hrb f hf

/-- src/kat_mul1024_red.c reports success, whatever uninitialised memory contains. -/
theorem C58_kat_mul1024_red (buf : Nat → Array Nat) (hb : ∀ n, (buf n).size = n) :
    ∃ t, make_red_tables buf 1024 1014 = .ok t ∧ ∀ junk : Nat → Array Int, (∀ i, (junk i).size = 1024) →
      Kat.main junk [NttRed.product1 t 1024 false, NttRed.product2 t 1024 false, NttRed.product3 t 1024 false,
        NttRed.product4 t 1024 false, NttRed.product5 t 1024 false] = .ok () := by
  obtain ⟨t, ht, -⟩ := red_tables_ok good1024 hb
  refine ⟨t, ht, fun junk hj => ?_⟩
  have e : (1024 : Nat) = 2 ^ 10 := by norm_num
  refine run_main hj fun f hf => multiplies e.symm fun c a b hc ha hb' hra hrb => ?_
  rw [e] at hf
  exact C21_products good1024 hb ht false c a b hc ha hb' hra hrb f hf

/-- src/kat_mul1024_red_asm.c reports success, whatever uninitialised memory and the upper half of the register of the
scalar argument contain. -/
theorem C58_kat_mul1024_red_asm (buf : Nat → Array Nat) (hb : ∀ n, (buf n).size = n) :
    ∃ t, make_red_tables buf 1024 1014 = .ok t ∧ ∀ (up : Int) (junk : Nat → Array Int), (∀ i, (junk i).size = 1024) →
      Kat.main junk [AsmProducts.product1_1024 t 1024, AsmProducts.product2 t 1024 false,
        AsmProducts.product3 t 1024 false, AsmProducts.product4 t 1024 false, AsmProducts.product5 t 1024 up false] =
        .ok () := by
  obtain ⟨t, ht, -⟩ := red_tables_ok good1024 hb
  refine ⟨t, ht, fun up junk hj => ?_⟩
  have e : (1024 : Nat) = 2 ^ 10 := by norm_num
  refine run_main hj fun f hf => ?_
  rw [List.mem_cons] at hf
  rcases hf with rfl | hf
  · exact fun c a b hc ha hb' hra hrb => C37_product1_1024 hb ht c a b hc ha hb' hra hrb
  · refine multiplies e.symm fun c a b hc ha hb' hra hrb => ?_
    rw [e] at hf
    exact C37_products (by omega) good1024 hb ht false up c a b hc ha hb' hra hrb f
      (List.mem_cons_of_mem _ hf)

/-- A run of such a program with any functions that reports success shows that each function is right on the 100 pairs. -/
theorem C58_success_means (fs : List Product) (hf : ∀ f ∈ fs, KeepsSizes f) (junk : Nat → Array Int)
    (hj : ∀ i, (junk i).size = 1024) (h : Kat.main junk fs = .ok ()) :
    ∃ g, build_kat zeros = .ok g ∧ ∀ f ∈ fs, RightOnKat g f := by
  obtain ⟨g, e, hg⟩ := build_ok
  unfold Kat.main at h
  rw [e, TestProg.ok_bind] at h
  exact ⟨g, e, tests_meaning hg hj 0 hf h⟩

/-- The hypotheses of `C58_success_means` hold for the exact products. -/
example : ∃ (fs : List Product) (junk : Nat → Array Int), fs.length = 5 ∧ (∀ i, (junk i).size = 1024) ∧
    Kat.main junk fs = .ok () := by
  obtain ⟨t, -, h⟩ := C58_kat_mul1024 someBuf someBuf_size
  exact ⟨_, fun _ => Array.replicate 1024 7, rfl, fun _ => by simp, h _ fun _ => by simp⟩

/-- A function that returns the zero polynomial does not pass. -/
theorem C58_zero_fails (junk : Nat → Array Int) (hj : ∀ i, (junk i).size = 1024) :
    Kat.main junk [fun _ a b => .ok (Array.replicate 1024 0, a, b)] ≠ .ok () := by
  intro h
  obtain ⟨g, e, hg⟩ := C58_success_means _ (by
    intro f hf
    rw [List.mem_singleton] at hf
    subst hf
    intro d x y d' x' y' _ hx hy h
    cases h
    exact ⟨by simp, hx, hy⟩) junk hj h
  obtain ⟨g', e', f1, f2, f3⟩ := run_build_kat
  have : g = g' := Except.ok.inj (e.symm.trans e')
  subst this
  obtain ⟨d, x, y, d', x', y', -, hx, hy, h1, -, h2⟩ := hg _ (List.mem_singleton.2 rfl) 0 (by omega)
  cases h1
  obtain ⟨g', e', hok⟩ := build_ok
  have : g = g' := Except.ok.inj (e.symm.trans e')
  subst this
  have h3 := h2 0 (by omega)
  rw [negacyclic_congr' (fun j hj => hx.coeff hj) (fun j hj => hy.coeff hj), ← (hok.known 0 (by omega)).2 0 (by omega),
    f3.rows (by omega) (by omega)] at h3
  have h4 : dig 16 (Data.c.getD 0 0) 0 = 10749 := by decide +kernel
  rw [h4] at h3
  have h5 : coeff (Array.replicate 1024 (0 : Int)) 0 = 0 := by simp [coeff, elt]
  rw [h5] at h3
  exact absurd h3 (by decide)

end Props
