import Verif.Props.Naive
import Verif.Props.RedProducts

/-
C24: all the multiplication routines agree.
-/

namespace Props
open C Spec NTT Tables

/-- The ten products of the `ntt` and `ntt_red` families.  `sh` says whether the inputs of the
`ntt_red` products are shifted first. -/
def exactProducts (t : Nttables) (r : RedTables) (n : Nat) (sh : Bool) :
    List (Array Int → Array Int → Array Int → M (Array Int × Array Int × Array Int)) :=
  [Ntt.product1 t n, Ntt.product2 t n, Ntt.product3 t n, Ntt.product4 t n, Ntt.product5 t n,
   NttRed.product1 r n sh, NttRed.product2 r n sh, NttRed.product3 r n sh, NttRed.product4 r n sh,
   NttRed.product5 r n sh]

/-- The five naive products. -/
def naiveProducts (t : Nttables) (n : Nat) :
    List (Array Int → Array Int → Array Int → M (Array Int × Array Int × Array Int)) :=
  [Naive.product1 t n, Naive.product2 t n, Naive.product3 t n, Naive.product4 t n,
   Naive.product5 t n]

/-- Whatever the variants and whatever their output arrays held: any two of the ten exact products
store the same array, and a naive product stores an array whose canonical residues are that
array. -/
theorem C24_agree {k : Nat} {xn xpsi : Int} (h : GoodParams k xn xpsi)
    {buf : Nat → Array Nat} (hbuf : ∀ n, (buf n).size = n) {t : Nttables} {r : RedTables}
    (ht : make_tables buf xn xpsi = .ok t) (hr : make_red_tables buf xn xpsi = .ok r) (sh : Bool)
    (a b c1 c2 c3 : Array Int) (ha : a.size = 2 ^ k) (hb : b.size = 2 ^ k) (hc1 : c1.size = 2 ^ k)
    (hc2 : c2.size = 2 ^ k) (hc3 : c3.size = 2 ^ k) (hra : Reduced a) (hrb : Reduced b) :
    ∀ f ∈ exactProducts t r (2 ^ k) sh, ∀ g ∈ exactProducts t r (2 ^ k) sh,
    ∀ v ∈ naiveProducts t (2 ^ k),
    ∃ x y z, f c1 a b = .ok x ∧ g c2 a b = .ok y ∧ v c3 a b = .ok z ∧
      x.1 = y.1 ∧ x.1.size = 2 ^ k ∧ z.1.size = 2 ^ k ∧
      ∀ i, i < 2 ^ k → elt x.1 i = elt z.1 i % 12289 := by
  have hk := good_le h
  have exact1 : ∀ f ∈ exactProducts t r (2 ^ k) sh, ∀ c : Array Int, c.size = 2 ^ k →
      ∃ x, f c a b = .ok x ∧ x.1.size = 2 ^ k ∧ Reduced x.1 ∧
        ∀ i, i < 2 ^ k → coeff x.1 i = negacyclic (2 ^ k) (coeff a) (coeff b) i := by
    intro f hf c hc
    have hf' : f ∈ [Ntt.product1 t (2 ^ k), Ntt.product2 t (2 ^ k), Ntt.product3 t (2 ^ k),
        Ntt.product4 t (2 ^ k), Ntt.product5 t (2 ^ k)] ∨
        f ∈ [NttRed.product1 r (2 ^ k) sh, NttRed.product2 r (2 ^ k) sh,
          NttRed.product3 r (2 ^ k) sh, NttRed.product4 r (2 ^ k) sh,
          NttRed.product5 r (2 ^ k) sh] := by
      rw [← List.mem_append]; exact hf
    rcases hf' with hf' | hf'
    · obtain ⟨c', a', b', e, s, _, _, r, v⟩ := C11_products h hbuf ht c a b hc ha hb hra hrb f hf'
      exact ⟨_, e, s, r, v⟩
    · obtain ⟨c', a', b', e, s, _, _, r, v⟩ :=
        C21_products h hbuf hr sh c a b hc ha hb hra hrb f hf'
      exact ⟨_, e, s, r, v⟩
  intro f hf g hg v hv
  obtain ⟨x, ex, sx, rx, vx⟩ := exact1 f hf c1 hc1
  obtain ⟨y, ey, sy, ry, vy⟩ := exact1 g hg c2 hc2
  obtain ⟨z, a', b', ez, sz, _, _, rz, vz⟩ := C23_products h hbuf ht c3 a b hc3 ha hb hra hrb v hv
  refine ⟨x, y, _, ex, ey, ez, ?_, sx, sz, fun i hi => ?_⟩
  · exact reduced_ext (by omega) rx ry fun i hi => by
      rw [vx i (by omega), vy i (by omega)]
  · refine elt_eq_emod (rx i (by omega)) ?_
    show coeff x.1 i = coeff z i
    rw [vx i hi, vz i hi]

/-- The hypotheses hold for the four sizes of the library. -/
example : ∀ z ∈ libraryParams, z.1 ≤ 10 ∧ GoodParams z.1 z.2.1 z.2.2 ∧
    (∃ t, make_tables someBuf z.2.1 z.2.2 = .ok t) ∧
    ∃ r, make_red_tables someBuf z.2.1 z.2.2 = .ok r := by
  intro z hz
  have hg := libraryParams_good z hz
  refine ⟨?_, hg, ?_, ?_⟩
  · simp only [libraryParams, List.mem_cons, List.not_mem_nil, or_false] at hz
    rcases hz with rfl | rfl | rfl | rfl <;> decide
  · obtain ⟨t, e, _⟩ := tables_ok hg someBuf_size; exact ⟨t, e⟩
  · obtain ⟨t, e, _⟩ := red_tables_ok hg someBuf_size; exact ⟨t, e⟩

end Props
