import Verif.Model.Naive
import Verif.Proofs.NttRed
import Verif.Proofs.Products

/-
Proofs about src/naive_ntt.c and the naive products.
-/

namespace Naive
open C NTT Spec Tables
open NttRed (run_map mul_bound IB val total_of_wp pw_range)

/-- Elements strictly between `-Q` and `Q`. -/
abbrev Small (a : Array Int) : Prop := InRange (-12288) 12288 a

theorem zq_tmod (x : Int) : ((x.tmod 12289 : Int) : Zq) = (x : Zq) := by
  have h := Int.tmod_add_mul_tdiv x 12289
  have h2 : (x : Zq) = ((x.tmod 12289 + 12289 * x.tdiv 12289 : Int) : Zq) := by rw [h]
  rw [h2]; push_cast
  rw [show (12289 : Zq) = 0 by decide]; ring

theorem tmod_small (x : Int) : -12288 ≤ x.tmod 12289 ∧ x.tmod 12289 ≤ 12288 := by
  have h2 : x.tmod 12289 < 12289 := Int.tmod_lt_of_pos _ (by norm_num)
  have h3 : -12289 < x.tmod 12289 := Int.lt_tmod_of_pos _ (by norm_num)
  omega

theorem crem_q (x : Int) : crem x 12289 = .ok (x.tmod 12289) := rfl

theorem run_mul_array16 {n : Nat} (hn : n < 4294967296) {a p : Array Int} (ha : a.size = n)
    (hra : Small a) (hp : n ≤ p.size) (hrp : ∀ i, i < n → 0 ≤ elt p i ∧ elt p i ≤ 12288) :
    ∃ a', mul_array16 a n p 12289 = .ok a' ∧ a'.size = n ∧
      ∀ i, i < n → elt a' i = (elt a i * elt p i).tmod 12289 := by
  refine run_map hn ha fun i b hi hs hx => ?_
  simp only [wp_bind]
  have h1 := hrp i hi
  have hm := mul_bound (x := elt a i) (y := elt p i) (B := 12288) (W := 12288) (hra i (by omega))
    ⟨by omega, h1.2⟩
  exact wp_rd_some hx (wp_rd_some (some_elt (by omega)) (wp_i32 ⟨by omega, by omega⟩
    (NttRed.wp_of_eq (crem_q _) (wp_wr (by omega) rfl))))

theorem run_mul_array {n : Nat} (hn : n < 4294967296) {c a b : Array Int} (hc : c.size = n)
    (ha : a.size = n) (hra : Small a) (hb : b.size = n) (hrb : Small b) :
    ∃ c', mul_array c n a b 12289 = .ok c' ∧ c'.size = n ∧
      ∀ i, i < n → elt c' i = (elt a i * elt b i).tmod 12289 := by
  refine run_map hn hc fun i c1 hi hs hx => ?_
  simp only [wp_bind]
  have hm := mul_bound (x := elt a i) (y := elt b i) (B := 12288) (W := 12288) (hra i (by omega))
    (hrb i (by omega))
  exact wp_rd_some (some_elt (by omega)) (wp_rd_some (some_elt (by omega))
    (wp_i32 ⟨by omega, by omega⟩ (NttRed.wp_of_eq (crem_q _) (wp_wr (by omega) rfl))))

theorem run_scalar_mul_array {n : Nat} (hn : n < 4294967296) {a : Array Int} {c : Int}
    (ha : a.size = n) (hra : Small a) (hc : -12288 ≤ c ∧ c ≤ 12288) :
    ∃ a', scalar_mul_array a n c 12289 = .ok a' ∧ a'.size = n ∧
      ∀ i, i < n → elt a' i = (elt a i * c).tmod 12289 := by
  refine run_map hn ha fun i b hi hs hx => ?_
  simp only [wp_bind]
  have hm := mul_bound (x := elt a i) (y := c) (B := 12288) (W := 12288) (hra i (by omega)) hc
  exact wp_rd_some hx (wp_i32 ⟨by omega, by omega⟩
    (NttRed.wp_of_eq (crem_q _) (wp_wr (by omega) rfl)))

abbrev BS : Nat → Int → Prop := IB (-12288) 12288

theorem bf0_ct {E : Err → Prop} {n s k : Nat} (hsk : s ≠ k) :
    CtBf (R := Zq) E val (bf0 12289 s k) n s k BS BS 1 := by
  intro a x y ha hx hy hbx hby
  unfold bf0
  simp only [wp_bind]
  refine wp_rd_some hy (wp_rd_some hx (wp_i32 ⟨by omega, by omega⟩ (NttRed.wp_of_eq (crem_q _)
    (wp_wr (getElem?_lt hy) (wp_rd_some (Ntt.get_set_ne hsk hx) (wp_i32 ⟨by omega, by omega⟩
    (NttRed.wp_of_eq (crem_q _) (wp_wr (by simpa using getElem?_lt hx)
    ⟨_, _, rfl, ⟨tmod_small _, ?_⟩, tmod_small _, ?_⟩))))))))
  · simp only [val]; rw [zq_tmod]; push_cast; ring
  · simp only [val]; rw [zq_tmod]; push_cast; ring

theorem bf0_gs {E : Err → Prop} {n s k : Nat} (hsk : s ≠ k) :
    GsBf (R := Zq) E val (bf0 12289 s k) n s k BS BS 1 := by
  intro a x y ha hx hy hbx hby
  refine (bf0_ct hsk a x y ha hx hy hbx hby).mono ?_
  rintro a' ⟨u, v, e, hu, hv⟩
  refine ⟨u, v, e, ⟨hu.1, ?_⟩, hv.1, ?_⟩
  · rw [hu.2]; ring
  · rw [hv.2]; ring

theorem ctBf_ct {E : Err → Prop} {n s k : Nat} (hsk : s ≠ k) {w : Int} (hw : 0 ≤ w ∧ w ≤ 12288)
    {ζ : Zq} (hζ : 1 * (w : Zq) = ζ) :
    CtBf (R := Zq) E val (ctBf 12289 w s k) n s k BS BS ζ := by
  intro a x y ha hx hy hbx hby
  unfold ctBf
  simp only [wp_bind]
  have hm := mul_bound (x := y) (y := w) (B := 12288) (W := 12288) hby ⟨by omega, hw.2⟩
  have e : ((y * w : Int) : Zq) = ζ * (y : Zq) := by rw [← hζ]; push_cast; ring
  refine wp_rd_some hy (wp_i32 ⟨by omega, by omega⟩ (wp_rd_some hx (wp_i32 ⟨by omega, by omega⟩
    (NttRed.wp_of_eq (crem_q _)
    (wp_wr (getElem?_lt hy) (wp_rd_some (Ntt.get_set_ne hsk hx) (wp_i32 ⟨by omega, by omega⟩
    (NttRed.wp_of_eq (crem_q _) (wp_wr (by simpa using getElem?_lt hx)
    ⟨_, _, rfl, ⟨tmod_small _, ?_⟩, tmod_small _, ?_⟩)))))))))
  · simp only [val]; rw [zq_tmod, Int.cast_add, e]
  · simp only [val]; rw [zq_tmod, Int.cast_sub, e]

theorem gsBf_gs {E : Err → Prop} {n s k : Nat} (hsk : s ≠ k) {w : Int} (hw : 0 ≤ w ∧ w ≤ 12288)
    {ζ : Zq} (hζ : 1 * (w : Zq) = ζ) :
    GsBf (R := Zq) E val (gsBf 12289 w s k) n s k BS BS ζ := by
  intro a x y ha hx hy hbx hby
  unfold gsBf
  simp only [wp_bind]
  have hm := mul_bound (x := x - y) (y := w) (B := 24576) (W := 12288) ⟨by omega, by omega⟩
    ⟨by omega, hw.2⟩
  have e : (((x - y) * w : Int) : Zq) = ζ * ((x : Zq) - (y : Zq)) := by
    rw [← hζ]; push_cast; ring
  refine wp_rd_some hy (wp_rd_some hx (wp_i32 ⟨by omega, by omega⟩ (wp_i32 ⟨by omega, by omega⟩
    (NttRed.wp_of_eq (crem_q _)
    (wp_wr (getElem?_lt hy) (wp_rd_some (Ntt.get_set_ne hsk hx) (wp_i32 ⟨by omega, by omega⟩
    (NttRed.wp_of_eq (crem_q _) (wp_wr (by simpa using getElem?_lt hx)
    ⟨_, _, rfl, ⟨tmod_small _, ?_⟩, tmod_small _, ?_⟩)))))))))
  · simp only [val]; rw [zq_tmod]; push_cast; ring
  · simp only [val]; rw [zq_tmod, e]

section
variable {k : Nat} {c ω : Zq} {p a : Array Int}
open Ntt (ne_add_pow)

theorem run_ct_rev2std (hk : k ≤ 31) (hω : 0 < k → ω ^ 2 ^ (k - 1) = -1)
    (hp : StdTable 1 1 ω 0 12288 k p) (A : Nat → Zq) (ha : a.size = 2 ^ k) (hr : Small a)
    (hA : ∀ i, i < 2 ^ k → coeff a i = A (rev k i)) :
    ∃ a', ntt_ct_rev2std a (2 ^ k) p 12289 = .ok a' ∧ a'.size = 2 ^ k ∧ Small a' ∧
      ∀ i, i < 2 ^ k → coeff a' i = ntt (2 ^ k) ω A i := by
  refine total_of_wp (sem_ctRev2std (B := fun _ => BS) hk hp.1 hω ?_ ?_ (pw_range ha hr hA))
  · intro m b hm _; exact bf0_ct (ne_add_pow _ _)
  · intro m b j w hm _ _ hj hw
    have := hp.entry (by omega) hj hw
    exact ctBf_ct (ne_add_pow _ _) this.1 this.2

theorem run_mulct_rev2std (hk : k ≤ 31) (hω : 0 < k → ω ^ 2 ^ (k - 1) = -1)
    (hp : StdTable 1 c ω 0 12288 k p) (A : Nat → Zq) (ha : a.size = 2 ^ k) (hr : Small a)
    (hA : ∀ i, i < 2 ^ k → coeff a i = A (rev k i)) :
    ∃ a', mulntt_ct_rev2std a (2 ^ k) p 12289 = .ok a' ∧ a'.size = 2 ^ k ∧ Small a' ∧
      ∀ i, i < 2 ^ k → coeff a' i = evalPoly (2 ^ k) A (c * ω ^ i) := by
  refine total_of_wp (sem_mulCtRev2std (B := fun _ => BS) hk hp.1 hω ?_ (pw_range ha hr hA))
  intro m b j w hm _ hj hw
  have := hp.entry (by omega) hj hw
  exact ctBf_ct (ne_add_pow _ _) this.1 this.2

theorem run_ct_std2rev (hk : k ≤ 31) (hω : 0 < k → ω ^ 2 ^ (k - 1) = -1)
    (hp : RevTable 1 1 ω 0 12288 k p) (A : Nat → Zq) (ha : a.size = 2 ^ k) (hr : Small a)
    (hA : ∀ i, i < 2 ^ k → coeff a i = A i) :
    ∃ a', ntt_ct_std2rev a (2 ^ k) p 12289 = .ok a' ∧ a'.size = 2 ^ k ∧ Small a' ∧
      ∀ i, i < 2 ^ k → coeff a' i = ntt (2 ^ k) ω A (rev k i) := by
  refine total_of_wp (sem_ctStd2rev (B := fun _ => BS) hk hp.1 hω ?_ ?_ (pw_range ha hr hA))
  · intro m b hm _; exact bf0_ct (ne_add_pow _ _)
  · intro m j r w hm _ hj _ hw
    have := hp.entry (by omega) hj hw
    exact ctBf_ct (ne_add_pow _ _) this.1 this.2

theorem run_mulct_std2rev (hk : k ≤ 31) (hω : 0 < k → ω ^ 2 ^ (k - 1) = -1)
    (hp : RevTable 1 c ω 0 12288 k p) (A : Nat → Zq) (ha : a.size = 2 ^ k) (hr : Small a)
    (hA : ∀ i, i < 2 ^ k → coeff a i = A i) :
    ∃ a', mulntt_ct_std2rev a (2 ^ k) p 12289 = .ok a' ∧ a'.size = 2 ^ k ∧ Small a' ∧
      ∀ i, i < 2 ^ k → coeff a' i = evalPoly (2 ^ k) A (c * ω ^ rev k i) := by
  refine total_of_wp (sem_mulCtStd2rev (B := fun _ => BS) hk hp.1 hω ?_ (pw_range ha hr hA))
  intro m j r w hm hj _ hw
  have := hp.entry (by omega) hj hw
  exact ctBf_ct (ne_add_pow _ _) this.1 this.2

theorem run_gs_rev2std (hk : k ≤ 31) (hω : 0 < k → ω ^ 2 ^ (k - 1) = -1)
    (hp : RevTable 1 1 ω 0 12288 k p) (A : Nat → Zq) (ha : a.size = 2 ^ k) (hr : Small a)
    (hA : ∀ i, i < 2 ^ k → coeff a i = A (rev k i)) :
    ∃ a', ntt_gs_rev2std a (2 ^ k) p 12289 = .ok a' ∧ a'.size = 2 ^ k ∧ Small a' ∧
      ∀ i, i < 2 ^ k → coeff a' i = ntt (2 ^ k) ω A i := by
  refine total_of_wp (sem_gsRev2std (B := fun _ => BS) hk hp.1 hω ?_ ?_ (pw_range ha hr hA))
  · intro m b hm _; exact bf0_gs (ne_add_pow _ _)
  · intro m j r w hm _ hj _ hw
    have := hp.entry (by omega) hj hw
    exact gsBf_gs (ne_add_pow _ _) this.1 this.2

theorem run_gsmul_rev2std (hk : k ≤ 31) (hω : 0 < k → ω ^ 2 ^ (k - 1) = -1)
    (hp : RevTable 1 c ω 0 12288 k p) (A : Nat → Zq) (ha : a.size = 2 ^ k) (hr : Small a)
    (hA : ∀ i, i < 2 ^ k → coeff a i = A (rev k i)) :
    ∃ a', nttmul_gs_rev2std a (2 ^ k) p 12289 = .ok a' ∧ a'.size = 2 ^ k ∧ Small a' ∧
      ∀ i, i < 2 ^ k → coeff a' i = c ^ i * ntt (2 ^ k) ω A i := by
  refine total_of_wp (sem_gsMulRev2std (B := fun _ => BS) hk hp.1 hω ?_ (pw_range ha hr hA))
  intro m j r w hm hj _ hw
  have := hp.entry (by omega) hj hw
  exact gsBf_gs (ne_add_pow _ _) this.1 this.2

theorem run_gs_std2rev (hk : k ≤ 31) (hω : 0 < k → ω ^ 2 ^ (k - 1) = -1)
    (hp : StdTable 1 1 ω 0 12288 k p) (A : Nat → Zq) (ha : a.size = 2 ^ k) (hr : Small a)
    (hA : ∀ i, i < 2 ^ k → coeff a i = A i) :
    ∃ a', ntt_gs_std2rev a (2 ^ k) p 12289 = .ok a' ∧ a'.size = 2 ^ k ∧ Small a' ∧
      ∀ i, i < 2 ^ k → coeff a' i = ntt (2 ^ k) ω A (rev k i) := by
  refine total_of_wp (sem_gsStd2rev (B := fun _ => BS) hk hp.1 hω ?_ ?_ (pw_range ha hr hA))
  · intro m b hm _; exact bf0_gs (ne_add_pow _ _)
  · intro m b j w hm _ _ hj hw
    have := hp.entry (by omega) hj hw
    exact gsBf_gs (ne_add_pow _ _) this.1 this.2

theorem run_gsmul_std2rev (hk : k ≤ 31) (hω : 0 < k → ω ^ 2 ^ (k - 1) = -1)
    (hp : StdTable 1 c ω 0 12288 k p) (A : Nat → Zq) (ha : a.size = 2 ^ k) (hr : Small a)
    (hA : ∀ i, i < 2 ^ k → coeff a i = A i) :
    ∃ a', nttmul_gs_std2rev a (2 ^ k) p 12289 = .ok a' ∧ a'.size = 2 ^ k ∧ Small a' ∧
      ∀ i, i < 2 ^ k → coeff a' i = c ^ rev k i * ntt (2 ^ k) ω A (rev k i) := by
  refine total_of_wp (sem_gsMulStd2rev (B := fun _ => BS) hk hp.1 hω ?_ (pw_range ha hr hA))
  intro m b j w hm _ hj hw
  have := hp.entry (by omega) hj hw
  exact gsBf_gs (ne_add_pow _ _) this.1 this.2

end

theorem coeff_mul {a' : Array Int} {i : Nat} {x y : Int} (h : elt a' i = (x * y).tmod 12289) :
    coeff a' i = (x : Zq) * (y : Zq) := by
  unfold coeff; rw [h, zq_tmod]; push_cast; rfl

theorem small_of_tmod {n : Nat} {a' : Array Int} {F : Nat → Int} (hs : a'.size = n)
    (h : ∀ i, i < n → elt a' i = (F i).tmod 12289) : Small a' := fun i hi => by
  rw [h i (by omega)]; exact tmod_small _

/-- What a naive product must do. -/
abbrev ProductSpec (k : Nat) (a b : Array Int) (m : M (Array Int × Array Int × Array Int)) : Prop :=
  ∃ r, m = .ok r ∧ r.1.size = 2 ^ k ∧ r.2.1.size = 2 ^ k ∧ r.2.2.size = 2 ^ k ∧
    Small r.1 ∧ ∀ i, i < 2 ^ k → coeff r.1 i = negacyclic (2 ^ k) (coeff a) (coeff b) i

/-- The same, and the operands are left in the same range. -/
abbrev ProductSpec' (k : Nat) (a b : Array Int) (m : M (Array Int × Array Int × Array Int)) : Prop :=
  ∃ r, m = .ok r ∧ r.1.size = 2 ^ k ∧ r.2.1.size = 2 ^ k ∧ r.2.2.size = 2 ^ k ∧
    Small r.1 ∧ Small r.2.1 ∧ Small r.2.2 ∧
    ∀ i, i < 2 ^ k → coeff r.1 i = negacyclic (2 ^ k) (coeff a) (coeff b) i

theorem ProductSpec'.weak {k : Nat} {a b : Array Int} {m : M (Array Int × Array Int × Array Int)}
    (h : ProductSpec' k a b m) : ProductSpec k a b m := by
  obtain ⟨r, h1, h2, h3, h4, h5, -, -, h6⟩ := h
  exact ⟨r, h1, h2, h3, h4, h5, h6⟩

abbrev Gives (m : M (Array Int)) (n : Nat) (F : Nat → Zq) : Prop :=
  ∃ a', m = .ok a' ∧ a'.size = n ∧ Small a' ∧ ∀ i, i < n → coeff a' i = F i

/-- Products 1 to 4. -/
theorem product_scheme {k : Nat} (hk : k ≤ 31) {ψ : Zq} (hψ : ψ ^ 2 ^ k = -1)
    {fwd inv : Array Int → M (Array Int)} {pp ps : Array Int}
    (hpp : PowTable 1 1 ψ 0 12288 (2 ^ k) pp)
    (hps : PowTable 1 (2 ^ k : Zq)⁻¹ ψ⁻¹ 0 12288 (2 ^ k) ps)
    (hf : ∀ a A, a.size = 2 ^ k → Small a → (∀ i, i < 2 ^ k → coeff a i = A i) →
      Gives (fwd a) (2 ^ k) (fun i => ntt (2 ^ k) (ψ ^ 2) A (rev k i)))
    (hv : ∀ a A, a.size = 2 ^ k → Small a → (∀ i, i < 2 ^ k → coeff a i = A (rev k i)) →
      Gives (inv a) (2 ^ k) (ntt (2 ^ k) (ψ ^ 2)⁻¹ A))
    {c a b : Array Int} (hc : c.size = 2 ^ k) (ha : a.size = 2 ^ k) (hb : b.size = 2 ^ k)
    (hra : Small a) (hrb : Small b) :
    ProductSpec' k a b (do
      let a ← mul_array16 a (2 ^ k) pp 12289
      let a ← fwd a
      let b ← mul_array16 b (2 ^ k) pp 12289
      let b ← fwd b
      let c ← mul_array c (2 ^ k) a b 12289
      let c ← inv c
      let c ← mul_array16 c (2 ^ k) ps 12289
      pure (c, a, b)) := by
  have hn : 2 ^ k < 4294967296 := by have := pow31 hk; omega
  refine wp_total.1 ?_
  simp only [wp_bind, wp_pure]
  refine (wp_total.2 (run_mul_array16 hn ha hra hpp.1 (fun i hi => (hpp.2 i hi).1))).mono ?_
  rintro a1 ⟨sa1, va1⟩
  refine (wp_total.2 (hf a1 (fun i => coeff a i * ψ ^ i) sa1 (small_of_tmod sa1 va1)
    (fun i hi => by
      have := (hpp.2 i hi).2; rw [one_mul, one_mul] at this
      rw [coeff_mul (va1 i hi), ← this]; rfl))).mono ?_
  rintro a2 ⟨sa2, ra2, va2⟩
  refine (wp_total.2 (run_mul_array16 hn hb hrb hpp.1 (fun i hi => (hpp.2 i hi).1))).mono ?_
  rintro b1 ⟨sb1, vb1⟩
  refine (wp_total.2 (hf b1 (fun i => coeff b i * ψ ^ i) sb1 (small_of_tmod sb1 vb1)
    (fun i hi => by
      have := (hpp.2 i hi).2; rw [one_mul, one_mul] at this
      rw [coeff_mul (vb1 i hi), ← this]; rfl))).mono ?_
  rintro b2 ⟨sb2, rb2, vb2⟩
  refine (wp_total.2 (run_mul_array hn hc sa2 ra2 sb2 rb2)).mono ?_
  rintro c1 ⟨sc1, vc1⟩
  refine (wp_total.2 (hv c1
    (ntt (2 ^ k) (ψ ^ 2) (fun l => negacyclic (2 ^ k) (coeff a) (coeff b) l * ψ ^ l)) sc1
    (small_of_tmod sc1 vc1)
    (fun i hi => by
      rw [coeff_mul (vc1 i hi)]
      show coeff a2 i * coeff b2 i = _
      rw [va2 i hi, vb2 i hi, ← conv_point hψ]
      unfold ntt
      rw [evalPoly_scale, evalPoly_scale]))).mono ?_
  rintro c2 ⟨sc2, rc2, vc2⟩
  refine (wp_total.2 (run_mul_array16 hn sc2 rc2 hps.1 (fun i hi => (hps.2 i hi).1))).mono ?_
  rintro c3 ⟨sc3, vc3⟩
  refine ⟨sc3, sa2, sb2, small_of_tmod sc3 vc3, ra2, rb2, fun i hi => ?_⟩
  rw [coeff_mul (vc3 i hi)]
  show coeff c2 i * coeff ps i = _
  have := (hps.2 i hi).2
  rw [one_mul] at this
  rw [vc2 i hi, this]
  exact unscale hψ _ hi

section
variable {k : Nat} (hk : k ≤ 31) {ψ : Zq} (hψ : ψ ^ 2 ^ k = -1) {t : Nttables}
  (ht : TablesOK k ψ t)
include hk hψ ht

theorem gives_fwd_ct (a : Array Int) (A : Nat → Zq) (ha : a.size = 2 ^ k) (hr : Small a)
    (hA : ∀ i, i < 2 ^ k → coeff a i = A i) :
    Gives (fwd_ct_std2rev t (2 ^ k) a) (2 ^ k) (fun i => ntt (2 ^ k) (ψ ^ 2) A (rev k i)) :=
  run_ct_std2rev hk (psi_facts hψ).2.2.2.1 ht.omega_powers_rev A ha hr hA

theorem gives_fwd_gs (a : Array Int) (A : Nat → Zq) (ha : a.size = 2 ^ k) (hr : Small a)
    (hA : ∀ i, i < 2 ^ k → coeff a i = A i) :
    Gives (fwd_gs_std2rev t (2 ^ k) a) (2 ^ k) (fun i => ntt (2 ^ k) (ψ ^ 2) A (rev k i)) :=
  run_gs_std2rev hk (psi_facts hψ).2.2.2.1 ht.omega_powers A ha hr hA

theorem gives_inv_ct (a : Array Int) (A : Nat → Zq) (ha : a.size = 2 ^ k) (hr : Small a)
    (hA : ∀ i, i < 2 ^ k → coeff a i = A (rev k i)) :
    Gives (intt_ct_rev2std t (2 ^ k) a) (2 ^ k) (ntt (2 ^ k) (ψ ^ 2)⁻¹ A) :=
  run_ct_rev2std hk (psi_facts hψ).2.2.2.2.1 ht.inv_omega_powers A ha hr hA

theorem gives_inv_gs (a : Array Int) (A : Nat → Zq) (ha : a.size = 2 ^ k) (hr : Small a)
    (hA : ∀ i, i < 2 ^ k → coeff a i = A (rev k i)) :
    Gives (intt_gs_rev2std t (2 ^ k) a) (2 ^ k) (ntt (2 ^ k) (ψ ^ 2)⁻¹ A) :=
  run_gs_rev2std hk (psi_facts hψ).2.2.2.2.1 ht.inv_omega_powers_rev A ha hr hA

variable {c a b : Array Int} (hc : c.size = 2 ^ k) (ha : a.size = 2 ^ k) (hb : b.size = 2 ^ k)
  (hra : Small a) (hrb : Small b)
include hc ha hb hra hrb

theorem run_product1' : ProductSpec' k a b (product1 t (2 ^ k) c a b) :=
  product_scheme hk hψ ht.psi_powers ht.scaled_inv_psi_powers (gives_fwd_ct hk hψ ht)
    (gives_inv_ct hk hψ ht) hc ha hb hra hrb

theorem run_product2' : ProductSpec' k a b (product2 t (2 ^ k) c a b) :=
  product_scheme hk hψ ht.psi_powers ht.scaled_inv_psi_powers (gives_fwd_gs hk hψ ht)
    (gives_inv_ct hk hψ ht) hc ha hb hra hrb

theorem run_product3' : ProductSpec' k a b (product3 t (2 ^ k) c a b) :=
  product_scheme hk hψ ht.psi_powers ht.scaled_inv_psi_powers (gives_fwd_ct hk hψ ht)
    (gives_inv_gs hk hψ ht) hc ha hb hra hrb

theorem run_product4' : ProductSpec' k a b (product4 t (2 ^ k) c a b) :=
  product_scheme hk hψ ht.psi_powers ht.scaled_inv_psi_powers (gives_fwd_gs hk hψ ht)
    (gives_inv_gs hk hψ ht) hc ha hb hra hrb

theorem run_product5' : ProductSpec' k a b (product5 t (2 ^ k) c a b) := by
  have hn : 2 ^ k < 4294967296 := by have := pow31 hk; omega
  have hp := psi_facts hψ
  refine wp_total.1 ?_
  unfold product5 fwdmul_ct_std2rev inttmul_gs_rev2std
  simp only [wp_bind, wp_pure]
  refine (wp_total.2 (run_mulct_std2rev hk hp.2.2.2.1 ht.mixed_powers_rev (coeff a) ha hra
    (fun _ _ => rfl))).mono ?_
  rintro a1 ⟨sa1, ra1, va1⟩
  refine (wp_total.2 (run_mulct_std2rev hk hp.2.2.2.1 ht.mixed_powers_rev (coeff b) hb hrb
    (fun _ _ => rfl))).mono ?_
  rintro b1 ⟨sb1, rb1, vb1⟩
  refine (wp_total.2 (run_mul_array hn hc sa1 ra1 sb1 rb1)).mono ?_
  rintro c1 ⟨sc1, vc1⟩
  refine (wp_total.2 (run_gsmul_rev2std hk hp.2.2.2.2.1 ht.inv_mixed_powers_rev
    (ntt (2 ^ k) (ψ ^ 2) (fun l => negacyclic (2 ^ k) (coeff a) (coeff b) l * ψ ^ l)) sc1
    (small_of_tmod sc1 vc1)
    (fun i hi => by
      rw [coeff_mul (vc1 i hi)]
      show coeff a1 i * coeff b1 i = _
      rw [va1 i hi, vb1 i hi, ← conv_point hψ]))).mono ?_
  rintro c2 ⟨sc2, rc2, vc2⟩
  refine (wp_total.2 (run_scalar_mul_array hn sc2 rc2 (c := (t.inv_n : Int))
    ⟨by omega, by have := ht.inv_n.2; omega⟩)).mono ?_
  rintro c3 ⟨sc3, vc3⟩
  refine ⟨sc3, sa1, sb1, small_of_tmod sc3 vc3, ra1, rb1, fun i hi => ?_⟩
  rw [coeff_mul (vc3 i hi)]
  rw [show ((t.inv_n : Int) : Zq) = (2 ^ k : Zq)⁻¹ by rw [← ht.inv_n.1]; simp]
  show coeff c2 i * _ = _
  rw [vc2 i hi]
  conv_rhs => rw [← unscale hψ (negacyclic (2 ^ k) (coeff a) (coeff b)) hi]
  ring

theorem run_product1 : ProductSpec k a b (product1 t (2 ^ k) c a b) :=
  ProductSpec'.weak (run_product1' hk hψ ht hc ha hb hra hrb)

theorem run_product2 : ProductSpec k a b (product2 t (2 ^ k) c a b) :=
  ProductSpec'.weak (run_product2' hk hψ ht hc ha hb hra hrb)

theorem run_product3 : ProductSpec k a b (product3 t (2 ^ k) c a b) :=
  ProductSpec'.weak (run_product3' hk hψ ht hc ha hb hra hrb)

theorem run_product4 : ProductSpec k a b (product4 t (2 ^ k) c a b) :=
  ProductSpec'.weak (run_product4' hk hψ ht hc ha hb hra hrb)

theorem run_product5 : ProductSpec k a b (product5 t (2 ^ k) c a b) :=
  ProductSpec'.weak (run_product5' hk hψ ht hc ha hb hra hrb)

end
end Naive
