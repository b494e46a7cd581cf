import Verif.Proofs.TestTrips
import Verif.Props.TestPrograms

/-
C56, continued: what the round trips and a complete run of the tests establish.
-/

namespace Props
open C Spec NTT Tables TestProg

section
variable {k : Nat} (hk : k ≤ 30) (L : Lib) (w : World) (hw : WorldOK (2 ^ k) w) (hn : L.n = 2 ^ k)
  (hc : 0 ≤ L.inv_n ∧ L.inv_n < 12289)
include hk hw hn hc

/-- Two functions that pass `test_forward_inverse`: they are inverse to each other, up to the factor `inv_n`, on the
1000 polynomials drawn. -/
theorem C56_round_trips (fwd inv : Array Int → M (Array Int))
    (hf : ∀ a a', a.size = 2 ^ k → fwd a = .ok a' → a'.size = 2 ^ k)
    (hi : ∀ a a', a.size = 2 ^ k → inv a = .ok a' → a'.size = 2 ^ k ∧ (L.variant = .exact → Reduced a'))
    (c c' : Nat) (h : test_forward_inverse L w fwd inv c = .ok c') : RoundTrips k w fwd inv L.inv_n :=
  trips_detect hk hw hn hf (fun a a' h1 h2 => (hi a a' h1 h2).1) (fun hv a a' h1 h2 => (hi a a' h1 h2).2 hv) hc h

/-- A library, right or wrong, whose test program reports no failure: all eight transforms are right on all monomials,
all five products on all pairs of monomials, and the six pairs of transforms are inverse to each other on the random
polynomials. -/
theorem C56_program (hsh : ∀ a : Array Int, a.size = 2 ^ k →
      Ntt.shuffle_with_table a L.bitrev L.npairs = Ntt.bitrev_shuffle a (2 ^ k))
    (hom : (0 ≤ L.omega ∧ L.omega < 12289) ∧ 0 ≤ L.inv_omega ∧ L.inv_omega < 12289)
    (hf : ∀ f ∈ [L.ct_rev2std, L.gs_rev2std, L.ct_std2rev, L.gs_std2rev, L.inv_ct_rev2std, L.inv_gs_rev2std,
      L.inv_ct_std2rev, L.inv_gs_std2rev], ∀ a a', a.size = 2 ^ k → f a = .ok a' →
      a'.size = 2 ^ k ∧ (L.variant = .exact → Reduced a'))
    (hp : ∀ f ∈ [L.product1, L.product2, L.product3, L.product4, L.product5], ∀ c a b c' a' b',
      c.size = 2 ^ k → a.size = 2 ^ k → b.size = 2 ^ k → f c a b = .ok (c', a', b') → c'.size = 2 ^ k)
    (c c' : Nat) (h : tests L w c = .ok c') :
    (∀ f ∈ [L.ct_rev2std, L.gs_rev2std], TransformOnMonomials k L.omega false f) ∧
    (∀ f ∈ [L.ct_std2rev, L.gs_std2rev], TransformOnMonomials k L.omega true f) ∧
    (∀ f ∈ [L.inv_ct_rev2std, L.inv_gs_rev2std], TransformOnMonomials k L.inv_omega false f) ∧
    (∀ f ∈ [L.inv_ct_std2rev, L.inv_gs_std2rev], TransformOnMonomials k L.inv_omega true f) ∧
    (∀ p ∈ [(L.ct_std2rev, L.inv_ct_rev2std), (L.ct_std2rev, L.inv_gs_rev2std), (L.gs_std2rev, L.inv_gs_rev2std)],
      RoundTrips k w p.1 p.2 L.inv_n ∧ RoundTrips k w p.2 p.1 L.inv_n) ∧
    (∀ f ∈ [L.product1, L.product2, L.product3, L.product4, L.product5], ProductOnMonomials k f) := by
  unfold tests at h
  obtain ⟨c1, h1, h⟩ := bind_ok h
  obtain ⟨c2, h2, h⟩ := bind_ok h
  obtain ⟨c3, h3, h⟩ := bind_ok h
  obtain ⟨c4, h4, h⟩ := bind_ok h
  obtain ⟨c5, h5, h⟩ := bind_ok h
  obtain ⟨c6, h6, h⟩ := bind_ok h
  obtain ⟨c7, h7, h⟩ := bind_ok h
  obtain ⟨c8, h8, h⟩ := bind_ok h
  obtain ⟨c9, h9, h⟩ := bind_ok h
  obtain ⟨c10, h10, h⟩ := bind_ok h
  obtain ⟨c11, h11, h⟩ := bind_ok h
  obtain ⟨c12, h12, h⟩ := bind_ok h
  obtain ⟨c13, h13, h⟩ := bind_ok h
  obtain ⟨c14, h14, h⟩ := bind_ok h
  obtain ⟨c15, h15, h⟩ := bind_ok h
  obtain ⟨c16, h16, h⟩ := bind_ok h
  obtain ⟨c17, h17, h⟩ := bind_ok h
  obtain ⟨c18, h18, h⟩ := bind_ok h
  have tr : ∀ {f om b c c'}, f ∈ [L.ct_rev2std, L.gs_rev2std, L.ct_std2rev, L.gs_std2rev, L.inv_ct_rev2std,
      L.inv_gs_rev2std, L.inv_ct_std2rev, L.inv_gs_std2rev] → (0 ≤ om ∧ om < 12289) →
      test_simple_polys L w f om b c = .ok c' → TransformOnMonomials k om b f := by
    intro f om b c c' hm ho h j hj
    exact polys_detect hk hw hn hsh (fun a a' u v => (hf f hm a a' u v).1) ⟨ho.1, by omega⟩ h hj
  have rt : ∀ {f g c c'}, f ∈ [L.ct_rev2std, L.gs_rev2std, L.ct_std2rev, L.gs_std2rev, L.inv_ct_rev2std,
      L.inv_gs_rev2std, L.inv_ct_std2rev, L.inv_gs_std2rev] →
      g ∈ [L.ct_rev2std, L.gs_rev2std, L.ct_std2rev, L.gs_std2rev, L.inv_ct_rev2std,
      L.inv_gs_rev2std, L.inv_ct_std2rev, L.inv_gs_std2rev] →
      test_forward_inverse L w f g c = .ok c' → RoundTrips k w f g L.inv_n := by
    intro f g c c' hm hm' h
    exact C56_round_trips hk L w hw hn hc f g (fun a a' u v => (hf f hm a a' u v).1) (hf g hm') c c' h
  have pr : ∀ {f c c'}, f ∈ [L.product1, L.product2, L.product3, L.product4, L.product5] →
      test_simple_products L w f c = .ok c' → ProductOnMonomials k f := by
    intro f c c' hm h i j hi hj
    exact products_detect hk hw hn (hp f hm) h hi hj
  refine ⟨?_, ?_, ?_, ?_, ?_, ?_⟩
  · intro f hm
    simp only [List.mem_cons, List.not_mem_nil, or_false] at hm
    rcases hm with rfl | rfl
    · exact tr (by simp) hom.1 h1
    · exact tr (by simp) hom.1 h2
  · intro f hm
    simp only [List.mem_cons, List.not_mem_nil, or_false] at hm
    rcases hm with rfl | rfl
    · exact tr (by simp) hom.1 h3
    · exact tr (by simp) hom.1 h4
  · intro f hm
    simp only [List.mem_cons, List.not_mem_nil, or_false] at hm
    rcases hm with rfl | rfl
    · exact tr (by simp) hom.2 h5
    · exact tr (by simp) hom.2 h6
  · intro f hm
    simp only [List.mem_cons, List.not_mem_nil, or_false] at hm
    rcases hm with rfl | rfl
    · exact tr (by simp) hom.2 h7
    · exact tr (by simp) hom.2 h8
  · intro p hm
    simp only [List.mem_cons, List.not_mem_nil, or_false] at hm
    rcases hm with rfl | rfl | rfl
    · exact ⟨rt (by simp) (by simp) h9, rt (by simp) (by simp) h10⟩
    · exact ⟨rt (by simp) (by simp) h11, rt (by simp) (by simp) h12⟩
    · exact ⟨rt (by simp) (by simp) h13, rt (by simp) (by simp) h14⟩
  · intro f hm
    simp only [List.mem_cons, List.not_mem_nil, or_false] at hm
    rcases hm with rfl | rfl | rfl | rfl | rfl
    · exact pr (by simp) h15
    · exact pr (by simp) h16
    · exact pr (by simp) h17
    · exact pr (by simp) h18
    · exact pr (by simp) h

end

-- The hypotheses hold for the library of size 16: its tests succeed (C55), its constants are in range, its tables
-- permute as `bitrev_shuffle`.
example : ∃ t, make_tables someBuf 16 1212 = .ok t ∧ WorldOK (2 ^ 4) (someWorld 16) ∧
    (∃ c, tests (exactTest (2 ^ 4) t) (someWorld 16) 0 = .ok c) ∧
    (0 ≤ (exactTest (2 ^ 4) t).inv_n ∧ (exactTest (2 ^ 4) t).inv_n < 12289) ∧
    ∀ a : Array Int, a.size = 2 ^ 4 → Ntt.shuffle_with_table a (exactTest (2 ^ 4) t).bitrev (exactTest (2 ^ 4) t).npairs =
      Ntt.bitrev_shuffle a (2 ^ 4) := by
  have hz : (4, 16, 1212) ∈ libraryParams := by simp [libraryParams]
  obtain ⟨t, ht, -⟩ := tables_ok (libraryParams_good _ hz) someBuf_size
  have hL := exact_lib hz someBuf_size ht
  have hw : WorldOK (2 ^ 4) (someWorld 16) :=
    ⟨fun i => by simp only [someWorld]; omega, fun i => by simp only [someWorld]; omega, fun i => by simp [someWorld]⟩
  have := hL.inv_n.1
  exact ⟨t, ht, hw, run_tests hL hw 0, ⟨this.1, by have := this.2; simp only at this ⊢; omega⟩, hL.shuffle⟩

end Props
