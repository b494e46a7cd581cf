import Verif.Proofs.RedProducts
import Verif.Proofs.Params

/-
C20: the transforms of src/ntt_red.c, for inputs in the documented range `[-21499, 21499]`.

The statements say that no 32-bit overflow (and no assertion failure) happens, that all results are
`int32_t` values, and that they are congruent to the transform.  The documentation gives no limit on
the size; the proof covers `n ≤ 2048` for the Cooley-Tukey functions (all sizes for which `psi`
exists) and `n ≤ 1024` for the Gentleman-Sande functions (all sizes used in the library).
-/

namespace Props
open C Spec NttRed NTT

theorem ctStep_doc : ∀ m, m < 11 → CtStep (ctSeq 21499 m) (ctSeq 21499 (m + 1)) := by decide
theorem ctEnd_doc : ∀ k, k < 12 → ctSeq 21499 k ≤ 2147483647 := by decide
theorem gsStep_doc : ∀ m, m < 10 → GsStep (gsSeq (-21499) 21499 m).1 (gsSeq (-21499) 21499 m).2
    (gsSeq (-21499) 21499 (m + 1)).1 (gsSeq (-21499) 21499 (m + 1)).2 := by decide
theorem gsEnd_doc : ∀ k, k < 11 → -2147483648 ≤ (gsSeq (-21499) 21499 k).1 ∧
    (gsSeq (-21499) 21499 k).2 ≤ 2147483647 := by decide

section
variable (k : Nat) (p a : Array Int) (ha : a.size = 2 ^ k) (hr : InRange (-21499) 21499 a)
include ha hr

/-- `ntt_red_ct_rev2std`: bit-reversed input, output in standard order. -/
theorem C20_ntt_red_ct_rev2std (hk : k ≤ 11) (ω : Zq) (hω : PrimRoot (2 ^ k) ω)
    (hp : StdTable 3 1 ω (-6144) 6144 k p) :
    ∃ a', ntt_red_ct_rev2std a (2 ^ k) p = .ok a' ∧ a'.size = 2 ^ k ∧
      InRange (-2147483648) 2147483647 a' ∧
      ∀ i, i < 2 ^ k → coeff a' i = ntt (2 ^ k) ω (fun l => coeff a (rev k l)) i := by
  obtain ⟨a', e, s, r, v⟩ := run_ct_rev2std (β := ctSeq 21499) (by omega) (primRoot_half hω) hp
    (fun m hm => ctStep_doc m (by omega)) (fun l => coeff a (rev k l)) ha hr (fun i hi => by rw [rev_rev k i hi])
  have := ctEnd_doc k (by omega)
  exact ⟨a', e, s, InRange.mono r (by omega) (by omega), v⟩

/-- `ntt_red_ct_std2rev`: input in standard order, output in bit-reverse order. -/
theorem C20_ntt_red_ct_std2rev (hk : k ≤ 11) (ω : Zq) (hω : PrimRoot (2 ^ k) ω)
    (hp : RevTable 3 1 ω (-6144) 6144 k p) :
    ∃ a', ntt_red_ct_std2rev a (2 ^ k) p = .ok a' ∧ a'.size = 2 ^ k ∧
      InRange (-2147483648) 2147483647 a' ∧
      ∀ i, i < 2 ^ k → coeff a' i = ntt (2 ^ k) ω (coeff a) (rev k i) := by
  obtain ⟨a', e, s, r, v⟩ := run_ct_std2rev (β := ctSeq 21499) (by omega) (primRoot_half hω) hp
    (fun m hm => ctStep_doc m (by omega)) (coeff a) ha hr (fun _ _ => rfl)
  have := ctEnd_doc k (by omega)
  exact ⟨a', e, s, InRange.mono r (by omega) (by omega), v⟩

/-- `ntt_red_gs_rev2std`: bit-reversed input, output in standard order. -/
theorem C20_ntt_red_gs_rev2std (hk : k ≤ 11) (ω : Zq) (hω : PrimRoot (2 ^ k) ω)
    (hp : RevTable 3 1 ω (-6144) 6144 k p) :
    ∃ a', ntt_red_gs_rev2std a (2 ^ k) p = .ok a' ∧ a'.size = 2 ^ k ∧
      InRange (-2147483648) 2147483647 a' ∧
      ∀ i, i < 2 ^ k → coeff a' i = ntt (2 ^ k) ω (fun l => coeff a (rev k l)) i := by
  rcases Nat.lt_or_ge k 11 with h | h
  · obtain ⟨a', e, s, r, v⟩ := run_gs_rev2std (l := fun m => (gsSeq (-21499) 21499 m).1)
      (u := fun m => (gsSeq (-21499) 21499 m).2) (by omega) (primRoot_half hω) hp
      (fun m hm => gsStep_doc m (by omega)) (fun l => coeff a (rev k l)) ha hr (fun i hi => by rw [rev_rev k i hi])
    have := gsEnd_doc k (by omega)
    exact ⟨a', e, s, InRange.mono r (by omega) (by omega), v⟩
  · obtain rfl : k = 11 := by omega
    obtain ⟨a', e, s, r, v⟩ := lv_gs_rev2std (b := lvSeq lvPlain 21499) (by decide) (primRoot_half hω) hp
      lvP_doc (fun l => coeff a (rev 11 l)) ha hr (fun i hi => by rw [rev_rev 11 i hi])
    have := lv_end
    exact ⟨a', e, s, InRange.mono r (by omega) (by omega), v⟩

/-- `ntt_red_gs_std2rev`: input in standard order, output in bit-reverse order. -/
theorem C20_ntt_red_gs_std2rev (hk : k ≤ 11) (ω : Zq) (hω : PrimRoot (2 ^ k) ω)
    (hp : StdTable 3 1 ω (-6144) 6144 k p) :
    ∃ a', ntt_red_gs_std2rev a (2 ^ k) p = .ok a' ∧ a'.size = 2 ^ k ∧
      InRange (-2147483648) 2147483647 a' ∧
      ∀ i, i < 2 ^ k → coeff a' i = ntt (2 ^ k) ω (coeff a) (rev k i) := by
  rcases Nat.lt_or_ge k 11 with h | h
  · obtain ⟨a', e, s, r, v⟩ := run_gs_std2rev (l := fun m => (gsSeq (-21499) 21499 m).1)
      (u := fun m => (gsSeq (-21499) 21499 m).2) (by omega) (primRoot_half hω) hp
      (fun m hm => gsStep_doc m (by omega)) (coeff a) ha hr (fun _ _ => rfl)
    have := gsEnd_doc k (by omega)
    exact ⟨a', e, s, InRange.mono r (by omega) (by omega), v⟩
  · obtain rfl : k = 11 := by omega
    obtain ⟨a', e, s, r, v⟩ := lv_gs_std2rev (b := lvSeq lvPlain 21499) (by decide) (primRoot_half hω) hp
      lvP_doc (coeff a) ha hr (fun _ _ => rfl)
    have := lv_end
    exact ⟨a', e, s, InRange.mono r (by omega) (by omega), v⟩

/-- `mulntt_red_ct_rev2std`: transform of `a[i]*psi^i`, bit-reversed input, output in standard order. -/
theorem C20_mulntt_red_ct_rev2std (hk : k ≤ 11) (ψ : Zq) (hψ : ψ ^ 2 ^ k = -1)
    (hp : StdTable 3 ψ (ψ ^ 2) (-6144) 6144 k p) :
    ∃ a', mulntt_red_ct_rev2std a (2 ^ k) p = .ok a' ∧ a'.size = 2 ^ k ∧
      InRange (-2147483648) 2147483647 a' ∧
      ∀ i, i < 2 ^ k → coeff a' i = ntt (2 ^ k) (ψ ^ 2) (fun l => coeff a (rev k l) * ψ ^ l) i := by
  obtain ⟨a', e, s, r, v⟩ := run_mulct_rev2std (β := ctSeq 21499) (by omega) (psi_facts hψ).2.2.2.1 hp
    (fun m hm => ctStep_doc m (by omega)) (fun l => coeff a (rev k l)) ha hr (fun i hi => by rw [rev_rev k i hi])
  have := ctEnd_doc k (by omega)
  exact ⟨a', e, s, InRange.mono r (by omega) (by omega), fun i hi => by rw [v i hi, evalPoly_scale]; rfl⟩

/-- `mulntt_red_ct_std2rev`: transform of `a[i]*psi^i`, input in standard order, output in bit-reverse order. -/
theorem C20_mulntt_red_ct_std2rev (hk : k ≤ 11) (ψ : Zq) (hψ : ψ ^ 2 ^ k = -1)
    (hp : RevTable 3 ψ (ψ ^ 2) (-6144) 6144 k p) :
    ∃ a', mulntt_red_ct_std2rev a (2 ^ k) p = .ok a' ∧ a'.size = 2 ^ k ∧
      InRange (-2147483648) 2147483647 a' ∧
      ∀ i, i < 2 ^ k → coeff a' i = ntt (2 ^ k) (ψ ^ 2) (fun l => coeff a l * ψ ^ l) (rev k i) := by
  obtain ⟨a', e, s, r, v⟩ := run_mulct_std2rev (β := ctSeq 21499) (by omega) (psi_facts hψ).2.2.2.1 hp
    (fun m hm => ctStep_doc m (by omega)) (coeff a) ha hr (fun _ _ => rfl)
  have := ctEnd_doc k (by omega)
  exact ⟨a', e, s, InRange.mono r (by omega) (by omega), fun i hi => by rw [v i hi, evalPoly_scale]; rfl⟩

/-- `nttmul_red_gs_rev2std`: component `i` of the transform is multiplied by `psi^i`, bit-reversed input, output in standard order. -/
theorem C20_nttmul_red_gs_rev2std (hk : k ≤ 11) (ψ : Zq) (hψ : ψ ^ 2 ^ k = -1)
    (hp : RevTable 3 ψ (ψ ^ 2) (-6144) 6144 k p) :
    ∃ a', nttmul_red_gs_rev2std a (2 ^ k) p = .ok a' ∧ a'.size = 2 ^ k ∧
      InRange (-2147483648) 2147483647 a' ∧
      ∀ i, i < 2 ^ k → coeff a' i = ψ ^ i * ntt (2 ^ k) (ψ ^ 2) (fun l => coeff a (rev k l)) i := by
  rcases Nat.lt_or_ge k 11 with h | h
  · obtain ⟨a', e, s, r, v⟩ := run_gsmul_rev2std (l := fun m => (gsSeq (-21499) 21499 m).1)
      (u := fun m => (gsSeq (-21499) 21499 m).2) (by omega) (psi_facts hψ).2.2.2.1 hp
      (fun m hm => gsStep_doc m (by omega)) (fun l => coeff a (rev k l)) ha hr (fun i hi => by rw [rev_rev k i hi])
    have := gsEnd_doc k (by omega)
    exact ⟨a', e, s, InRange.mono r (by omega) (by omega), v⟩
  · obtain rfl : k = 11 := by omega
    obtain ⟨a', e, s, r, v⟩ := lv_gsmul_rev2std (b := lvSeq lvMixed 21499) (by decide) (psi_facts hψ).2.2.2.1 hψ hp
      lvM_doc (fun l => coeff a (rev 11 l)) ha hr (fun i hi => by rw [rev_rev 11 i hi])
    have := lv_end
    exact ⟨a', e, s, InRange.mono r (by omega) (by omega), v⟩

/-- `nttmul_red_gs_std2rev`: component `i` of the transform is multiplied by `psi^i`, input in standard order, output in bit-reverse order. -/
theorem C20_nttmul_red_gs_std2rev (hk : k ≤ 11) (ψ : Zq) (hψ : ψ ^ 2 ^ k = -1)
    (hp : StdTable 3 ψ (ψ ^ 2) (-6144) 6144 k p) :
    ∃ a', nttmul_red_gs_std2rev a (2 ^ k) p = .ok a' ∧ a'.size = 2 ^ k ∧
      InRange (-2147483648) 2147483647 a' ∧
      ∀ i, i < 2 ^ k → coeff a' i = ψ ^ (rev k i) * ntt (2 ^ k) (ψ ^ 2) (coeff a) (rev k i) := by
  rcases Nat.lt_or_ge k 11 with h | h
  · obtain ⟨a', e, s, r, v⟩ := run_gsmul_std2rev (l := fun m => (gsSeq (-21499) 21499 m).1)
      (u := fun m => (gsSeq (-21499) 21499 m).2) (by omega) (psi_facts hψ).2.2.2.1 hp
      (fun m hm => gsStep_doc m (by omega)) (coeff a) ha hr (fun _ _ => rfl)
    have := gsEnd_doc k (by omega)
    exact ⟨a', e, s, InRange.mono r (by omega) (by omega), v⟩
  · obtain rfl : k = 11 := by omega
    obtain ⟨a', e, s, r, v⟩ := lv_gsmul_std2rev (b := lvSeq lvMixed 21499) (by decide) (psi_facts hψ).2.2.2.1 hψ hp
      lvM_doc (coeff a) ha hr (fun _ _ => rfl)
    have := lv_end
    exact ⟨a', e, s, InRange.mono r (by omega) (by omega), v⟩

end

/-- The hypotheses hold for the tables of size 1024 that `make_red_tables 1024 1014` prints. -/
example : ∃ (ψ : Zq) (t : Tables.RedTables), ψ ^ 2 ^ 10 = -1 ∧ PrimRoot (2 ^ 10) (ψ ^ 2) ∧
    StdTable 3 1 (ψ ^ 2) (-6144) 6144 10 t.omega_powers ∧
    RevTable 3 1 (ψ ^ 2) (-6144) 6144 10 t.omega_powers_rev ∧
    StdTable 3 ψ (ψ ^ 2) (-6144) 6144 10 t.mixed_powers ∧
    RevTable 3 ψ (ψ ^ 2) (-6144) 6144 10 t.mixed_powers_rev := by
  obtain ⟨t, _, h⟩ := red_tables_ok good1024 someBuf_size
  exact ⟨_, t, good_psi good1024, primRoot_of_psi (good_psi good1024), h.omega_powers,
    h.omega_powers_rev, h.mixed_powers, h.mixed_powers_rev⟩

/-- They hold for the tables of size 2048 that `make_red_tables 2048 41` prints. -/
example : ∃ (ψ : Zq) (t : Tables.RedTables), ψ ^ 2 ^ 11 = -1 ∧ PrimRoot (2 ^ 11) (ψ ^ 2) ∧
    StdTable 3 1 (ψ ^ 2) (-6144) 6144 11 t.omega_powers ∧
    RevTable 3 1 (ψ ^ 2) (-6144) 6144 11 t.omega_powers_rev ∧
    StdTable 3 ψ (ψ ^ 2) (-6144) 6144 11 t.mixed_powers ∧
    RevTable 3 ψ (ψ ^ 2) (-6144) 6144 11 t.mixed_powers_rev := by
  obtain ⟨t, _, h⟩ := red_tables_ok good2048 someBuf_size
  exact ⟨_, t, good_psi good2048, primRoot_of_psi (good_psi good2048), h.omega_powers,
    h.omega_powers_rev, h.mixed_powers, h.mixed_powers_rev⟩

example : ∃ a : Array Int, a.size = 2 ^ 10 ∧ InRange (-21499) 21499 a ∧ coeff a 3 ≠ 0 := by
  refine ⟨Array.replicate 1024 (-21499), by simp, ?_, ?_⟩
  · intro i hi; simp at hi; simp [elt, hi]
  · decide +kernel

end Props
