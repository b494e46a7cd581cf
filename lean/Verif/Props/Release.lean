import Verif.Proofs.Release
import Verif.Props.RedProducts
import Verif.Props.Safety
import Verif.Props.TestNttRed
import Verif.Props.Tight

/-
C73: the library as it is built by src/Makefile, with -DNDEBUG, so that the assertions are not compiled (Model/Release.lean).

The functions behave as with assertions, except that the computation goes on where an assertion would have failed; so what is
proved about their results holds of the library as built.  For arbitrary contents the only thing that can go wrong is a signed
overflow.  Where `mul_red` would have failed its assertion it can return a number that is not congruent to `3xy`: then a
transform returns a wrong result without any error.
-/

namespace Props
open C Spec NTT Tables

/-- What the function without assertions does, compared with the one with assertions: the same, except possibly when an
assertion fails. -/
def SameUnlessAssert {α : Type} (debug release : M α) : Prop := debug = .error .assertFail ∨ debug = release

/-- The execution returns an array of size `n` or overflows. -/
def OnlyOverflow (n : Nat) (m : M (Array Int)) : Prop := (∃ a, m = .ok a ∧ a.size = n) ∨ m = .error .overflow

/-- The same for the products, which return the final contents of three arrays. -/
def OnlyOverflow3 (n : Nat) (m : M (Array Int × Array Int × Array Int)) : Prop :=
  (∃ c a b, m = .ok (c, a, b) ∧ c.size = n ∧ a.size = n ∧ b.size = n) ∨ m = .error .overflow

private theorem only {n : Nat} {m : M (Array Int)} (h : Wp Arith m (Sized n)) (hn : Release.NoAssert m) : OnlyOverflow n m := by
  rcases onlyArith_of_wp h with h | h | h
  · exact Or.inl h
  · exact Or.inr h
  · exact absurd h hn

private theorem only3 {n : Nat} {m : M (Array Int × Array Int × Array Int)}
    (h : Wp Arith m (fun r => r.1.size = n ∧ r.2.1.size = n ∧ r.2.2.size = n)) (hn : Release.NoAssert m) : OnlyOverflow3 n m := by
  rcases onlyArith3_of_wp h with h | h | h
  · exact Or.inl h
  · exact Or.inr h
  · exact absurd h hn

/-! ### Same behaviour -/

/-- The transforms with and without assertions. -/
def transformPairs : List ((Array Int → Nat → Array Int → M (Array Int)) × (Array Int → Nat → Array Int → M (Array Int))) :=
  [(NttRed.ntt_red_ct_rev2std, Release.ntt_red_ct_rev2std),
    (NttRed.ntt_red_ct_std2rev, Release.ntt_red_ct_std2rev),
    (NttRed.ntt_red_gs_rev2std, Release.ntt_red_gs_rev2std),
    (NttRed.ntt_red_gs_std2rev, Release.ntt_red_gs_std2rev),
    (NttRed.mulntt_red_ct_rev2std, Release.mulntt_red_ct_rev2std),
    (NttRed.mulntt_red_ct_std2rev, Release.mulntt_red_ct_std2rev),
    (NttRed.nttmul_red_gs_rev2std, Release.nttmul_red_gs_rev2std),
    (NttRed.nttmul_red_gs_std2rev, Release.nttmul_red_gs_std2rev)]

/-- The eight transforms, for all arguments. -/
theorem C73_transforms_same : ∀ f ∈ transformPairs, ∀ a n p, SameUnlessAssert (f.1 a n p) (f.2 a n p) := by
  intro f hf a n p
  simp only [transformPairs, List.mem_cons, List.not_mem_nil, or_false] at hf
  rcases hf with rfl | rfl | rfl | rfl | rfl | rfl | rfl | rfl
  · exact Release.same_ntt_red_ct_rev2std a n p
  · exact Release.same_ntt_red_ct_std2rev a n p
  · exact Release.same_ntt_red_gs_rev2std a n p
  · exact Release.same_ntt_red_gs_std2rev a n p
  · exact Release.same_mulntt_red_ct_rev2std a n p
  · exact Release.same_mulntt_red_ct_std2rev a n p
  · exact Release.same_nttmul_red_gs_rev2std a n p
  · exact Release.same_nttmul_red_gs_std2rev a n p

/-- The array functions, for all arguments.  The assertions of `normalize` and `normalize_inv3` never fail. -/
theorem C73_arrays_same (a b c : Array Int) (n : Nat) (x : Int) :
    SameUnlessAssert (NttRed.mul_reduce_array16 a n b) (Release.mul_reduce_array16 a n b) ∧
    SameUnlessAssert (NttRed.mul_reduce_array c n a b) (Release.mul_reduce_array c n a b) ∧
    SameUnlessAssert (NttRed.scalar_mul_reduce_array a n x) (Release.scalar_mul_reduce_array a n x) ∧
    Release.normalize a n = NttRed.normalize a n ∧ Release.normalize_inv3 a n = NttRed.normalize_inv3 a n :=
  ⟨Release.same_mul_reduce_array16 _ _ _, Release.same_mul_reduce_array _ _ _ _, Release.same_scalar_mul_reduce_array _ _ _,
    Release.normalize_eq _ _, Release.normalize_inv3_eq _ _⟩

/-- The products with and without assertions. -/
def productPairs : List ((RedTables → Nat → Bool → Array Int → Array Int → Array Int → M (Array Int × Array Int × Array Int)) ×
    (RedTables → Nat → Bool → Array Int → Array Int → Array Int → M (Array Int × Array Int × Array Int))) :=
  [(NttRed.product1, Release.product1),
    (NttRed.product2, Release.product2),
    (NttRed.product3, Release.product3),
    (NttRed.product4, Release.product4),
    (NttRed.product5, Release.product5)]

/-- The five products, for all arguments. -/
theorem C73_products_same : ∀ f ∈ productPairs, ∀ t n sh c a b, SameUnlessAssert (f.1 t n sh c a b) (f.2 t n sh c a b) := by
  intro f hf t n sh c a b
  simp only [productPairs, List.mem_cons, List.not_mem_nil, or_false] at hf
  rcases hf with rfl | rfl | rfl | rfl | rfl
  · exact Release.same_product1 t n sh c a b
  · exact Release.same_product2 t n sh c a b
  · exact Release.same_product3 t n sh c a b
  · exact Release.same_product4 t n sh c a b
  · exact Release.same_product5 t n sh c a b

/-! ### Correctness of the library as built -/

/-- The products of reduced polynomials (C21). -/
theorem C73_products {k : Nat} {xn xpsi : Int} (h : GoodParams k xn xpsi)
    {buf : Nat → Array Nat} (hbuf : ∀ n, (buf n).size = n) {t : RedTables}
    (ht : make_red_tables buf xn xpsi = .ok t) (sh : Bool) (c a b : Array Int)
    (hc : c.size = 2 ^ k) (ha : a.size = 2 ^ k) (hb : b.size = 2 ^ k) (hra : Reduced a) (hrb : Reduced b) :
    ∀ product ∈ [Release.product1 t (2 ^ k) sh, Release.product2 t (2 ^ k) sh, Release.product3 t (2 ^ k) sh,
      Release.product4 t (2 ^ k) sh, Release.product5 t (2 ^ k) sh],
    ∃ c' a' b', product c a b = .ok (c', a', b') ∧ c'.size = 2 ^ k ∧ a'.size = 2 ^ k ∧
      b'.size = 2 ^ k ∧ Reduced c' ∧
      ∀ i, i < 2 ^ k → coeff c' i = negacyclic (2 ^ k) (coeff a) (coeff b) i := by
  have hk := good_le h
  have key : ∀ f g : Array Int → Array Int → Array Int → M (Array Int × Array Int × Array Int),
      SameUnlessAssert (f c a b) (g c a b) → (∃ c' a' b', f c a b = .ok (c', a', b') ∧ c'.size = 2 ^ k ∧
      a'.size = 2 ^ k ∧ b'.size = 2 ^ k ∧ Reduced c' ∧ ∀ i, i < 2 ^ k → coeff c' i = negacyclic (2 ^ k) (coeff a) (coeff b) i) →
      ∃ c' a' b', g c a b = .ok (c', a', b') ∧ c'.size = 2 ^ k ∧ a'.size = 2 ^ k ∧ b'.size = 2 ^ k ∧ Reduced c' ∧
      ∀ i, i < 2 ^ k → coeff c' i = negacyclic (2 ^ k) (coeff a) (coeff b) i := by
    rintro f g hs ⟨c', a', b', e, r⟩
    rcases hs with hs | hs
    · rw [e] at hs; cases hs
    · exact ⟨c', a', b', hs ▸ e, r⟩
  have hd := C21_products h hbuf ht sh c a b hc ha hb hra hrb
  intro f hf
  simp only [List.mem_cons, List.not_mem_nil, or_false] at hf
  rcases hf with rfl | rfl | rfl | rfl | rfl
  · exact key _ _ (Release.same_product1 t (2 ^ k) sh c a b) (hd _ (by simp))
  · exact key _ _ (Release.same_product2 t (2 ^ k) sh c a b) (hd _ (by simp))
  · exact key _ _ (Release.same_product3 t (2 ^ k) sh c a b) (hd _ (by simp))
  · exact key _ _ (Release.same_product4 t (2 ^ k) sh c a b) (hd _ (by simp))
  · exact key _ _ (Release.same_product5 t (2 ^ k) sh c a b) (hd _ (by simp))

/-- Every statement of the form of C72 (a transform computes `value`, without overflow, for all input in [-B, B]) that holds
with assertions holds without. -/
theorem C73_computes : ∀ f ∈ transformPairs, ∀ (k : Nat) (p : Array Int) (B lim : Int) (value : (Nat → Zq) → Nat → Zq),
    Computes f.1 k p B lim value → Computes f.2 k p B lim value := by
  intro f hf k p B lim value h a ha hr
  obtain ⟨a', e, r⟩ := h a ha hr
  rcases C73_transforms_same f hf a (2 ^ k) p with hs | hs
  · rw [e] at hs; cases hs
  · exact ⟨a', hs ▸ e, r⟩

/-- The eight transforms of the library as built, with its tables, are correct for elements up to `2^31/n - 1` in absolute
value (see C72_range for the tables of the inverses). -/
theorem C73_range : ∀ z ∈ libraryParams, ∀ (buf : Nat → Array Nat), (∀ n, (buf n).size = n) → ∀ t : RedTables,
    make_red_tables buf z.2.1 z.2.2 = .ok t → ∀ ψ : Zq, ψ = (z.2.2 : Zq) →
    Computes Release.ntt_red_ct_rev2std z.1 t.omega_powers (2 ^ (31 - z.1) - 1) (2 ^ 31 - 1)
      (fun A i => ntt (2 ^ z.1) (ψ ^ 2) (fun j => A (rev z.1 j)) i) ∧
    Computes Release.ntt_red_ct_std2rev z.1 t.omega_powers_rev (2 ^ (31 - z.1) - 1) (2 ^ 31 - 1)
      (fun A i => ntt (2 ^ z.1) (ψ ^ 2) A (rev z.1 i)) ∧
    Computes Release.ntt_red_gs_rev2std z.1 t.omega_powers_rev (2 ^ (31 - z.1) - 1) (2 ^ 31 - 1)
      (fun A i => ntt (2 ^ z.1) (ψ ^ 2) (fun j => A (rev z.1 j)) i) ∧
    Computes Release.ntt_red_gs_std2rev z.1 t.omega_powers (2 ^ (31 - z.1) - 1) (2 ^ 31 - 1)
      (fun A i => ntt (2 ^ z.1) (ψ ^ 2) A (rev z.1 i)) ∧
    Computes Release.mulntt_red_ct_rev2std z.1 t.mixed_powers (2 ^ (31 - z.1) - 1) (2 ^ 31 - 1)
      (fun A i => evalPoly (2 ^ z.1) (fun j => A (rev z.1 j)) (ψ * (ψ ^ 2) ^ i)) ∧
    Computes Release.mulntt_red_ct_std2rev z.1 t.mixed_powers_rev (2 ^ (31 - z.1) - 1) (2 ^ 31 - 1)
      (fun A i => evalPoly (2 ^ z.1) A (ψ * (ψ ^ 2) ^ rev z.1 i)) ∧
    Computes Release.nttmul_red_gs_rev2std z.1 t.inv_mixed_powers_rev (2 ^ (31 - z.1) - 1) (2 ^ 31 - 1)
      (fun A i => ψ⁻¹ ^ i * ntt (2 ^ z.1) (ψ⁻¹ ^ 2) (fun j => A (rev z.1 j)) i) ∧
    Computes Release.nttmul_red_gs_std2rev z.1 t.inv_mixed_powers (2 ^ (31 - z.1) - 1) (2 ^ 31 - 1)
      (fun A i => ψ⁻¹ ^ rev z.1 i * ntt (2 ^ z.1) (ψ⁻¹ ^ 2) A (rev z.1 i)) := by
  rintro z hz buf hb t ht ψ rfl
  obtain ⟨h1, h2⟩ := C72_range z hz buf hb t ht
  have key := C73_computes
  simp only [transformPairs, List.forall_mem_cons] at key
  obtain ⟨k1, k2, k3, k4, k5, k6, k7, k8, -⟩ := key
  exact ⟨k1 _ _ _ _ _ h1.ct_rev2std, k2 _ _ _ _ _ h1.ct_std2rev, k3 _ _ _ _ _ h1.gs_rev2std, k4 _ _ _ _ _ h1.gs_std2rev,
    k5 _ _ _ _ _ h1.mul_ct_rev2std, k6 _ _ _ _ _ h1.mul_ct_std2rev, k7 _ _ _ _ _ h2.mul_gs_rev2std,
    k8 _ _ _ _ _ h2.mul_gs_std2rev⟩

/-! ### Arbitrary contents -/

/-- The eight transforms, for arbitrary contents of the arrays and tables. -/
theorem C73_transforms_memory (k : Nat) (hk : k ≤ 31) (a p : Array Int) (ha : a.size = 2 ^ k) (hp : p.size = 2 ^ k) :
    ∀ f ∈ [Release.ntt_red_ct_rev2std, Release.ntt_red_ct_std2rev, Release.ntt_red_gs_rev2std, Release.ntt_red_gs_std2rev,
      Release.mulntt_red_ct_rev2std, Release.mulntt_red_ct_std2rev, Release.nttmul_red_gs_rev2std, Release.nttmul_red_gs_std2rev], OnlyOverflow (2 ^ k) (f a (2 ^ k) p) := by
  intro f hf
  simp only [List.mem_cons, List.not_mem_nil, or_false] at hf
  rcases hf with rfl | rfl | rfl | rfl | rfl | rfl | rfl | rfl
  · exact only (safe_ctRev2std hk hp.ge NttRed.safe_bf0 Release.safe_ctBf ha) (Release.no_ntt_red_ct_rev2std _ _ _)
  · exact only (safe_ctStd2rev hk hp.ge NttRed.safe_bf0 Release.safe_ctBf ha) (Release.no_ntt_red_ct_std2rev _ _ _)
  · exact only (safe_gsRev2std hk hp.ge NttRed.safe_bf0 Release.safe_gsBf ha) (Release.no_ntt_red_gs_rev2std _ _ _)
  · exact only (safe_gsStd2rev hk hp.ge NttRed.safe_bf0 Release.safe_gsBf ha) (Release.no_ntt_red_gs_std2rev _ _ _)
  · exact only (safe_mulCtRev2std hk hp.ge Release.safe_ctBf ha) (Release.no_mulntt_red_ct_rev2std _ _ _)
  · exact only (safe_mulCtStd2rev hk hp.ge Release.safe_ctBf ha) (Release.no_mulntt_red_ct_std2rev _ _ _)
  · exact only (safe_gsMulRev2std hk hp.ge Release.safe_gsBf ha) (Release.no_nttmul_red_gs_rev2std _ _ _)
  · exact only (safe_gsMulStd2rev hk hp.ge Release.safe_gsBf ha) (Release.no_nttmul_red_gs_std2rev _ _ _)

/-- The five products, for arbitrary contents of the arrays and tables. -/
theorem C73_products_memory (k : Nat) (hk : k ≤ 31) (c a b : Array Int) (hc : c.size = 2 ^ k) (ha : a.size = 2 ^ k)
    (hb : b.size = 2 ^ k) (t : RedTables) (ht : RedTablesSized (2 ^ k) t) (sh : Bool) :
    ∀ f ∈ [Release.product1 t (2 ^ k) sh, Release.product2 t (2 ^ k) sh, Release.product3 t (2 ^ k) sh,
      Release.product4 t (2 ^ k) sh, Release.product5 t (2 ^ k) sh], OnlyOverflow3 (2 ^ k) (f c a b) := by
  intro f hf
  simp only [List.mem_cons, List.not_mem_nil, or_false] at hf
  have hn : 2 ^ k < 4294967296 := by
    have := Nat.pow_le_pow_right (n := 2) (by omega) hk; omega
  rcases hf with rfl | rfl | rfl | rfl | rfl
  · refine only3 ?_ (Release.no_product1 _ _ _ _ _ _)
    unfold Release.product1
    simp only [wp_bind, wp_pure]
    refine (NttRed.safe_shiftInput hn ha).mono fun _ h1 => ?_
    refine (Release.safe_mul_reduce_array16 hn h1 ht.psi_powers.ge).mono fun _ h2 => ?_
    refine (safe_ctStd2rev hk ht.omega_powers_rev.ge NttRed.safe_bf0 Release.safe_ctBf h2).mono fun _ h3 => ?_
    refine (NttRed.safe_reduce_array hn h3).mono fun _ h4 => ?_
    refine (NttRed.safe_shiftInput hn hb).mono fun _ h5 => ?_
    refine (Release.safe_mul_reduce_array16 hn h5 ht.psi_powers.ge).mono fun _ h6 => ?_
    refine (safe_ctStd2rev hk ht.omega_powers_rev.ge NttRed.safe_bf0 Release.safe_ctBf h6).mono fun _ h7 => ?_
    refine (NttRed.safe_reduce_array hn h7).mono fun _ h8 => ?_
    refine (Release.safe_mul_reduce_array hn hc (Eq.ge h4) (Eq.ge h8)).mono fun _ h9 => ?_
    refine (NttRed.safe_reduce_array_twice hn h9).mono fun _ h10 => ?_
    refine (safe_ctRev2std hk ht.inv_omega_powers.ge NttRed.safe_bf0 Release.safe_ctBf h10).mono fun _ h11 => ?_
    refine (Release.safe_mul_reduce_array16 hn h11 ht.scaled_inv_psi_powers.ge).mono fun _ h12 => ?_
    refine (NttRed.safe_reduce_array_twice hn h12).mono fun _ h13 => ?_
    refine (NttRed.safe_correct hn h13).mono fun _ h14 => ?_
    exact ⟨h14, h4, h8⟩
  · refine only3 ?_ (Release.no_product2 _ _ _ _ _ _)
    unfold Release.product2
    simp only [wp_bind, wp_pure]
    refine (NttRed.safe_shiftInput hn ha).mono fun _ h1 => ?_
    refine (Release.safe_mul_reduce_array16 hn h1 ht.psi_powers.ge).mono fun _ h2 => ?_
    refine (safe_gsStd2rev hk ht.omega_powers.ge NttRed.safe_bf0 Release.safe_gsBf h2).mono fun _ h3 => ?_
    refine (NttRed.safe_reduce_array hn h3).mono fun _ h4 => ?_
    refine (NttRed.safe_shiftInput hn hb).mono fun _ h5 => ?_
    refine (Release.safe_mul_reduce_array16 hn h5 ht.psi_powers.ge).mono fun _ h6 => ?_
    refine (safe_gsStd2rev hk ht.omega_powers.ge NttRed.safe_bf0 Release.safe_gsBf h6).mono fun _ h7 => ?_
    refine (NttRed.safe_reduce_array hn h7).mono fun _ h8 => ?_
    refine (Release.safe_mul_reduce_array hn hc (Eq.ge h4) (Eq.ge h8)).mono fun _ h9 => ?_
    refine (NttRed.safe_reduce_array_twice hn h9).mono fun _ h10 => ?_
    refine (safe_ctRev2std hk ht.inv_omega_powers.ge NttRed.safe_bf0 Release.safe_ctBf h10).mono fun _ h11 => ?_
    refine (Release.safe_mul_reduce_array16 hn h11 ht.scaled_inv_psi_powers.ge).mono fun _ h12 => ?_
    refine (NttRed.safe_reduce_array_twice hn h12).mono fun _ h13 => ?_
    refine (NttRed.safe_correct hn h13).mono fun _ h14 => ?_
    exact ⟨h14, h4, h8⟩
  · refine only3 ?_ (Release.no_product3 _ _ _ _ _ _)
    unfold Release.product3
    simp only [wp_bind, wp_pure]
    refine (NttRed.safe_shiftInput hn ha).mono fun _ h1 => ?_
    refine (Release.safe_mul_reduce_array16 hn h1 ht.psi_powers.ge).mono fun _ h2 => ?_
    refine (safe_ctStd2rev hk ht.omega_powers_rev.ge NttRed.safe_bf0 Release.safe_ctBf h2).mono fun _ h3 => ?_
    refine (NttRed.safe_reduce_array hn h3).mono fun _ h4 => ?_
    refine (NttRed.safe_shiftInput hn hb).mono fun _ h5 => ?_
    refine (Release.safe_mul_reduce_array16 hn h5 ht.psi_powers.ge).mono fun _ h6 => ?_
    refine (safe_ctStd2rev hk ht.omega_powers_rev.ge NttRed.safe_bf0 Release.safe_ctBf h6).mono fun _ h7 => ?_
    refine (NttRed.safe_reduce_array hn h7).mono fun _ h8 => ?_
    refine (Release.safe_mul_reduce_array hn hc (Eq.ge h4) (Eq.ge h8)).mono fun _ h9 => ?_
    refine (NttRed.safe_reduce_array_twice hn h9).mono fun _ h10 => ?_
    refine (safe_gsRev2std hk ht.inv_omega_powers_rev.ge NttRed.safe_bf0 Release.safe_gsBf h10).mono fun _ h11 => ?_
    refine (Release.safe_mul_reduce_array16 hn h11 ht.scaled_inv_psi_powers.ge).mono fun _ h12 => ?_
    refine (NttRed.safe_reduce_array_twice hn h12).mono fun _ h13 => ?_
    refine (NttRed.safe_correct hn h13).mono fun _ h14 => ?_
    exact ⟨h14, h4, h8⟩
  · refine only3 ?_ (Release.no_product4 _ _ _ _ _ _)
    unfold Release.product4
    simp only [wp_bind, wp_pure]
    refine (NttRed.safe_shiftInput hn ha).mono fun _ h1 => ?_
    refine (Release.safe_mul_reduce_array16 hn h1 ht.psi_powers.ge).mono fun _ h2 => ?_
    refine (safe_gsStd2rev hk ht.omega_powers.ge NttRed.safe_bf0 Release.safe_gsBf h2).mono fun _ h3 => ?_
    refine (NttRed.safe_reduce_array hn h3).mono fun _ h4 => ?_
    refine (NttRed.safe_shiftInput hn hb).mono fun _ h5 => ?_
    refine (Release.safe_mul_reduce_array16 hn h5 ht.psi_powers.ge).mono fun _ h6 => ?_
    refine (safe_gsStd2rev hk ht.omega_powers.ge NttRed.safe_bf0 Release.safe_gsBf h6).mono fun _ h7 => ?_
    refine (NttRed.safe_reduce_array hn h7).mono fun _ h8 => ?_
    refine (Release.safe_mul_reduce_array hn hc (Eq.ge h4) (Eq.ge h8)).mono fun _ h9 => ?_
    refine (NttRed.safe_reduce_array_twice hn h9).mono fun _ h10 => ?_
    refine (safe_gsRev2std hk ht.inv_omega_powers_rev.ge NttRed.safe_bf0 Release.safe_gsBf h10).mono fun _ h11 => ?_
    refine (Release.safe_mul_reduce_array16 hn h11 ht.scaled_inv_psi_powers.ge).mono fun _ h12 => ?_
    refine (NttRed.safe_reduce_array_twice hn h12).mono fun _ h13 => ?_
    refine (NttRed.safe_correct hn h13).mono fun _ h14 => ?_
    exact ⟨h14, h4, h8⟩
  · refine only3 ?_ (Release.no_product5 _ _ _ _ _ _)
    unfold Release.product5
    simp only [wp_bind, wp_pure]
    refine (NttRed.safe_shiftInput hn ha).mono fun _ h1 => ?_
    refine (safe_mulCtStd2rev hk ht.mixed_powers_rev.ge Release.safe_ctBf h1).mono fun _ h2 => ?_
    refine (NttRed.safe_reduce_array hn h2).mono fun _ h3 => ?_
    refine (NttRed.safe_shiftInput hn hb).mono fun _ h4 => ?_
    refine (safe_mulCtStd2rev hk ht.mixed_powers_rev.ge Release.safe_ctBf h4).mono fun _ h5 => ?_
    refine (NttRed.safe_reduce_array hn h5).mono fun _ h6 => ?_
    refine (Release.safe_mul_reduce_array hn hc (Eq.ge h3) (Eq.ge h6)).mono fun _ h7 => ?_
    refine (NttRed.safe_reduce_array_twice hn h7).mono fun _ h8 => ?_
    refine (safe_gsMulRev2std hk ht.inv_mixed_powers_rev.ge Release.safe_gsBf h8).mono fun _ h9 => ?_
    refine (Release.safe_scalar_mul_reduce_array hn h9).mono fun _ h10 => ?_
    refine (NttRed.safe_reduce_array_twice hn h10).mono fun _ h11 => ?_
    refine (NttRed.safe_correct hn h11).mono fun _ h12 => ?_
    exact ⟨h12, h3, h6⟩

/-! ### Where the computation must overflow -/

/-- On an array of `n = 2^k` elements equal to `X`, with `nX ≥ 2^31`, six of the transforms overflow, for every table. -/
theorem C73_maximal {k : Nat} (hk : k ≤ 31) {X : Int} (h1 : 2 ^ 31 ≤ 2 ^ k * X) (h2 : X ≤ 2 ^ 31 - 1) {p : Array Int}
    (hp : 2 ^ k ≤ p.size) :
    ∀ f ∈ [Release.ntt_red_ct_rev2std, Release.ntt_red_ct_std2rev, Release.ntt_red_gs_rev2std, Release.ntt_red_gs_std2rev,
      Release.nttmul_red_gs_rev2std, Release.nttmul_red_gs_std2rev],
      f (Array.replicate (2 ^ k) X) (2 ^ k) p = .error .overflow := by
  have hI : I32 X := by
    have h0 : 0 < X := by
      have : (0 : Int) < 2 ^ k * X := by omega
      exact (pos_iff_pos_of_mul_pos this).1 (by positivity)
    unfold I32
    omega
  have h1' : 2147483648 ≤ 2 ^ k * X := by omega
  have key : ∀ m : M (Array Int), Release.NoAssert m → (∃ e, m = .error e ∧ (e = .overflow ∨ e = .assertFail)) →
      m = .error .overflow := by
    rintro m hn ⟨e, rfl, rfl | rfl⟩
    · rfl
    · exact absurd rfl hn
  intro f hf
  simp only [List.mem_cons, List.not_mem_nil, or_false] at hf
  rcases hf with rfl | rfl | rfl | rfl | rfl | rfl
  · exact key _ (Release.no_ntt_red_ct_rev2std _ _ _) (TightMax.ct_rev2std Release.mulOk hk hp hI h1')
  · exact key _ (Release.no_ntt_red_ct_std2rev _ _ _) (TightMax.ct_std2rev Release.mulOk hk hp hI h1')
  · exact key _ (Release.no_ntt_red_gs_rev2std _ _ _) (TightMax.gs_rev2std Release.mulOk hk hp hI h1')
  · exact key _ (Release.no_ntt_red_gs_std2rev _ _ _) (TightMax.gs_std2rev Release.mulOk hk hp hI h1')
  · exact key _ (Release.no_nttmul_red_gs_rev2std _ _ _) (TightMax.gsmul_rev2std Release.mulOk hk hp hI h1')
  · exact key _ (Release.no_nttmul_red_gs_std2rev _ _ _) (TightMax.gsmul_std2rev Release.mulOk hk hp hI h1')

/-- The transform applied again and again to its own results (C63): unless `a[0]` and the sum of the elements are both zero, one
of the first 65 calls overflows. -/
theorem C73_chain_stops {k : Nat} (hk0 : 0 < k) (hk : k ≤ 31) {a p : Array Int} (hp : 2 ^ k ≤ p.size) (ha : a.size = 2 ^ k)
    (hi : Int32Array a) (h0 : ¬ (elt a 0 = 0 ∧ ∑ i ∈ Finset.range (2 ^ k), elt a i = 0)) :
    Chain (fun a => Release.ntt_red_ct_rev2std a (2 ^ k) p) 65 a = .error .overflow := by
  have no : ∀ m b, Release.NoAssert (Chain (fun a => Release.ntt_red_ct_rev2std a (2 ^ k) p) m b) := by
    intro m
    induction m with
    | zero => exact fun b => Release.no_pure
    | succ m ih => exact fun b => (Release.no_ntt_red_ct_rev2std _ _ _).bind fun c => ih c
  obtain ⟨e, h, s⟩ := NttRed.iter_stops_gen Release.mulOk hk0 hk hp ha (fun i h => hi i (by omega)) (by
    by_contra hc
    push Not at hc
    exact h0 hc)
  have h' : Chain (fun a => Release.ntt_red_ct_rev2std a (2 ^ k) p) 65 a = .error e := by rw [chain_eq]; exact h
  rcases s with rfl | rfl
  · exact h'
  · exact absurd h' (no _ _)

/-! ### The multiplication -/

/-- The exact result: the quotient by 4096 is converted to 32 bits. -/
theorem C73_mul_red (x y : Int) (hx : -2 ^ 31 ≤ x ∧ x < 2 ^ 31) (hy : -2 ^ 31 ≤ y ∧ y < 2 ^ 31) :
    Release.mul_red x y =
      if 3 * (x * y % 4096) - Int.bmod (x * y / 4096) (2 ^ 32) < 2 ^ 31 then
        .ok (3 * (x * y % 4096) - Int.bmod (x * y / 4096) (2 ^ 32)) else .error .overflow := by
  rw [Release.mul_red_exact (by unfold I32; omega) (by unfold I32; omega)]
  have hb : toI32 (x * y / 4096) = Int.bmod (x * y / 4096) (2 ^ 32) := by
    unfold toI32
    rw [Int.bmod_def]
    norm_num
    split <;> omega
  have h1 : Int.bmod (x * y / 4096) (2 ^ 32) < 2 ^ 31 := by
    have := Int.bmod_lt (x := x * y / 4096) (m := 2 ^ 32) (by norm_num)
    norm_num at this ⊢
    omega
  rw [hb]
  generalize Int.bmod (x * y / 4096) (2 ^ 32) = v at *
  unfold i32
  by_cases h : 3 * (x * y % 4096) - v < 2 ^ 31
  · rw [if_pos h, if_pos (by unfold I32; omega)]
  · rw [if_neg h, if_neg (by unfold I32; omega)]

/-- When the assertion would not have failed, the result is `3xy` modulo 12289. -/
theorem C73_mul_red_correct (x y r : Int) (h1 : -8796042698752 ≤ x * y) (h2 : x * y ≤ 8796093026303)
    (h : Release.mul_red x y = .ok r) : (r : Zq) = 3 * x * y := by
  have h3 : x * y ≤ 8796093022207 := by
    by_contra h3
    rcases Release.same_mul_red x y with h4 | h4
    · rw [NttRed.mul_red_overflow (by omega) h2] at h4; cases h4
    · rw [NttRed.mul_red_overflow (by omega) h2, h] at h4; cases h4
  rcases Release.same_mul_red x y with h4 | h4
  · rw [NttRed.mul_red_eq h1 h3] at h4; cases h4
  · rw [NttRed.mul_red_eq h1 h3, h] at h4
    injection h4 with h4
    rw [← h4, red_zq]
    push_cast; ring

/-- It need not be outside of that range: here the result is 0. -/
theorem C73_mul_red_wrong : Release.mul_red 4194304 4194304 = .ok 0 ∧ ((0 : Int) : Zq) ≠ 3 * (4194304 : Int) * (4194304 : Int) := by
  constructor <;> decide +kernel

/-- With the tables of the library for n = 16: one large coefficient, at index 13. -/
def bigInput : Array Int := #[0, 0, 0, 0, 0, 0, 0, 0, 0, 0, 0, 0, 0, 1690640056, 0, 0]

/-- The transform of `bigInput` fails an assertion; without assertions it returns, and the result is wrong: the value at index 4
should be that of the polynomial at `ω^2`. -/
theorem C73_silent : ∃ t a', make_red_tables someBuf 16 1212 = .ok t ∧
    NttRed.ntt_red_ct_std2rev bigInput 16 t.omega_powers_rev = .error .assertFail ∧
    Release.ntt_red_ct_std2rev bigInput 16 t.omega_powers_rev = .ok a' ∧
    coeff a' 4 ≠ ntt 16 (1212 ^ 2) (coeff bigInput) (rev 4 4) := by
  have h : (match make_red_tables someBuf 16 1212 with
      | .ok t => decide (NttRed.ntt_red_ct_std2rev bigInput 16 t.omega_powers_rev = .error .assertFail) &&
          decide (Release.ntt_red_ct_std2rev bigInput 16 t.omega_powers_rev = .ok #[1690640056, -1690640056, -203481274, 203481274,
            -2047923339, 2047923339, 982775268, -982775268, 94998872, -94998872, 68461567, -68461567, -21600691, 21600691,
            -215466662, 215466662])
      | .error _ => false) = true := by decide +kernel
  cases e : make_red_tables someBuf 16 1212 with
  | error _ => rw [e] at h; cases h
  | ok t =>
    rw [e] at h
    simp only [Bool.and_eq_true, decide_eq_true_eq] at h
    exact ⟨t, _, rfl, h.1, h.2, by decide +kernel⟩

/-! ### `bitrev_shuffle` -/

/-- For powers of two, nothing changes. -/
theorem C73_bitrev {α : Type} {k : Nat} (hk : k ≤ 31) (a : Array α) :
    Release.bitrev_shuffle a (2 ^ k) = Ntt.bitrev_shuffle a (2 ^ k) := Release.bitrev_pow hk a

/-- For every `n > 0`, whether it is a power of two or not: the array is permuted, or the function does not terminate; there is
no access out of bounds. -/
theorem C73_bitrev_any {α : Type} {n : Nat} (h0 : 0 < n) (hn : n < 2 ^ 32) (a : Array α) (ha : n ≤ a.size) :
    (∃ a', Release.bitrev_shuffle a n = .ok a' ∧ a'.Perm a) ∨ Release.bitrev_shuffle a n = .error .nonterm := by
  have h := Release.bitrev_any h0 (by omega) ha
  cases e : Release.bitrev_shuffle a n with
  | ok a' => rw [e, wp_ok] at h; exact Or.inl ⟨a', rfl, h⟩
  | error x => rw [e] at h; have : x = .nonterm := (wp_error (E := fun e => e = .nonterm)).1 h; exact Or.inr (by rw [this])

/-- For `n = 0` it does not terminate. -/
theorem C73_bitrev_zero {α : Type} (a : Array α) : Release.bitrev_shuffle a 0 = .error .nonterm := Release.bitrev_zero a

-- Both happen for sizes that are not powers of two.
example : Release.bitrev_shuffle #[10, 11, 12] 3 = .error .nonterm := by decide +kernel
example : Release.bitrev_shuffle #[10, 11, 12, 13, 14, 15] 6 = .ok #[10, 13, 12, 11, 14, 15] := by decide +kernel

/-! The hypotheses are met. -/

example : ∃ t, make_red_tables someBuf 16 1212 = .ok t ∧ RedTablesSized (2 ^ 4) t := by
  have h : (match make_red_tables someBuf 16 1212 with
      | .ok t => decide (t.psi_powers.size = 16 ∧ t.scaled_inv_psi_powers.size = 16 ∧ t.omega_powers.size = 16 ∧
          t.omega_powers_rev.size = 16 ∧ t.inv_omega_powers.size = 16 ∧ t.inv_omega_powers_rev.size = 16 ∧
          t.mixed_powers_rev.size = 16 ∧ t.inv_mixed_powers_rev.size = 16)
      | .error _ => false) = true := by decide +kernel
  cases e : make_red_tables someBuf 16 1212 with
  | error _ => rw [e] at h; cases h
  | ok t =>
    rw [e] at h
    obtain ⟨h1, h2, h3, h4, h5, h6, h7, h8⟩ := of_decide_eq_true h
    exact ⟨t, rfl, h1, h2, h3, h4, h5, h6, h7, h8⟩

example : Release.ntt_red_ct_rev2std #[2147483647, 2147483647] 2 #[0, 0] = .error .overflow ∧
    Release.ntt_red_ct_rev2std #[-99999, 77777] 2 #[-5, 31] = .ok #[-22222, -177776] := by
  constructor <;> decide +kernel

end Props
