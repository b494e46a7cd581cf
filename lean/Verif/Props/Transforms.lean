import Verif.Proofs.Params

/-
C04-C09: the number theoretic transforms of src/ntt.c.

All theorems are for every size `2^k` (`k ≤ 31`), every primitive root and every canonical input.
A table hypothesis is the documented contents of the argument `p`; the tables printed by
`make_tables` satisfy it (see the examples at the end and `Props.C25`).
-/

namespace Props
open C Spec Ntt NTT

section
variable (k : Nat) (hk : k ≤ 31) (ω : Zq) (hω : PrimRoot (2 ^ k) ω) (p a : Array Int)
  (ha : a.size = 2 ^ k) (hr : Reduced a)
include hk hω ha hr

/-- `ntt_ct_rev2std`: bit-reversed input `a`, output `NTT` in standard order. -/
theorem C04_ntt_ct_rev2std (hp : StdTable 1 1 ω 0 12288 k p) :
    ∃ a', ntt_ct_rev2std a (2 ^ k) p = .ok a' ∧ a'.size = 2 ^ k ∧ Reduced a' ∧
      ∀ i, i < 2 ^ k → coeff a' i = ntt (2 ^ k) ω (fun l => coeff a (rev k l)) i :=
  run_ct_rev2std hk (primRoot_half hω) hp _ ha hr (fun i hi => by rw [rev_rev k i hi])

/-- `ntt_ct_std2rev`: input in standard order, output in bit-reverse order. -/
theorem C05_ntt_ct_std2rev (hp : RevTable 1 1 ω 0 12288 k p) :
    ∃ a', ntt_ct_std2rev a (2 ^ k) p = .ok a' ∧ a'.size = 2 ^ k ∧ Reduced a' ∧
      ∀ i, i < 2 ^ k → coeff a' i = ntt (2 ^ k) ω (coeff a) (rev k i) :=
  run_ct_std2rev hk (primRoot_half hω) hp _ ha hr (fun _ _ => rfl)

/-- `ntt_gs_rev2std`: bit-reversed input, output in standard order. -/
theorem C06_ntt_gs_rev2std (hp : RevTable 1 1 ω 0 12288 k p) :
    ∃ a', ntt_gs_rev2std a (2 ^ k) p = .ok a' ∧ a'.size = 2 ^ k ∧ Reduced a' ∧
      ∀ i, i < 2 ^ k → coeff a' i = ntt (2 ^ k) ω (fun l => coeff a (rev k l)) i :=
  run_gs_rev2std hk (primRoot_half hω) hp _ ha hr (fun i hi => by rw [rev_rev k i hi])

/-- `ntt_gs_std2rev`: input in standard order, output in bit-reverse order. -/
theorem C07_ntt_gs_std2rev (hp : StdTable 1 1 ω 0 12288 k p) :
    ∃ a', ntt_gs_std2rev a (2 ^ k) p = .ok a' ∧ a'.size = 2 ^ k ∧ Reduced a' ∧
      ∀ i, i < 2 ^ k → coeff a' i = ntt (2 ^ k) ω (coeff a) (rev k i) :=
  run_gs_std2rev hk (primRoot_half hω) hp _ ha hr (fun _ _ => rfl)

end

section
variable (k : Nat) (hk : k ≤ 31) (ψ : Zq) (hψ : ψ ^ 2 ^ k = -1) (p a : Array Int)
  (ha : a.size = 2 ^ k) (hr : Reduced a)
include hk hψ ha hr

/-- `ntt_ct_rev2std_v1` (the table is `p[i] = psi^i`). -/
theorem C04_ntt_ct_rev2std_v1 (hp : PowTable 1 1 ψ 0 12288 (2 ^ k) p) :
    ∃ a', ntt_ct_rev2std_v1 a (2 ^ k) p = .ok a' ∧ a'.size = 2 ^ k ∧ Reduced a' ∧
      ∀ i, i < 2 ^ k → coeff a' i = ntt (2 ^ k) (ψ ^ 2) (fun l => coeff a (rev k l)) i :=
  run_ct_rev2std_v1 hk (psi_facts hψ).2.2.2.1 hp _ ha hr (fun i hi => by rw [rev_rev k i hi])

/-- `mulntt_ct_rev2std` is the transform of the array `a[i]*psi^i`. -/
theorem C08_mulntt_ct_rev2std (hp : StdTable 1 ψ (ψ ^ 2) 0 12288 k p) :
    ∃ a', mulntt_ct_rev2std a (2 ^ k) p = .ok a' ∧ a'.size = 2 ^ k ∧ Reduced a' ∧
      ∀ i, i < 2 ^ k →
        coeff a' i = ntt (2 ^ k) (ψ ^ 2) (fun l => coeff a (rev k l) * ψ ^ l) i := by
  obtain ⟨a', e, s, r, v⟩ := run_mulct_rev2std hk (psi_facts hψ).2.2.2.1 hp
    (fun l => coeff a (rev k l)) ha hr (fun i hi => by rw [rev_rev k i hi])
  exact ⟨a', e, s, r, fun i hi => by rw [v i hi, evalPoly_scale]; rfl⟩

/-- `mulntt_ct_std2rev` is the transform of the array `a[i]*psi^i`, in bit-reverse order. -/
theorem C08_mulntt_ct_std2rev (hp : RevTable 1 ψ (ψ ^ 2) 0 12288 k p) :
    ∃ a', mulntt_ct_std2rev a (2 ^ k) p = .ok a' ∧ a'.size = 2 ^ k ∧ Reduced a' ∧
      ∀ i, i < 2 ^ k →
        coeff a' i = ntt (2 ^ k) (ψ ^ 2) (fun l => coeff a l * ψ ^ l) (rev k i) := by
  obtain ⟨a', e, s, r, v⟩ := run_mulct_std2rev hk (psi_facts hψ).2.2.2.1 hp (coeff a) ha hr
    (fun _ _ => rfl)
  exact ⟨a', e, s, r, fun i hi => by rw [v i hi, evalPoly_scale]; rfl⟩

/-- `nttmul_gs_rev2std` multiplies component `i` of the transform by `psi^i`. -/
theorem C09_nttmul_gs_rev2std (hp : RevTable 1 ψ (ψ ^ 2) 0 12288 k p) :
    ∃ a', nttmul_gs_rev2std a (2 ^ k) p = .ok a' ∧ a'.size = 2 ^ k ∧ Reduced a' ∧
      ∀ i, i < 2 ^ k →
        coeff a' i = ψ ^ i * ntt (2 ^ k) (ψ ^ 2) (fun l => coeff a (rev k l)) i :=
  run_gsmul_rev2std hk (psi_facts hψ).2.2.2.1 hp _ ha hr (fun i hi => by rw [rev_rev k i hi])

/-- `nttmul_gs_std2rev`, in bit-reverse order. -/
theorem C09_nttmul_gs_std2rev (hp : StdTable 1 ψ (ψ ^ 2) 0 12288 k p) :
    ∃ a', nttmul_gs_std2rev a (2 ^ k) p = .ok a' ∧ a'.size = 2 ^ k ∧ Reduced a' ∧
      ∀ i, i < 2 ^ k →
        coeff a' i = ψ ^ rev k i * ntt (2 ^ k) (ψ ^ 2) (coeff a) (rev k i) :=
  run_gsmul_std2rev hk (psi_facts hψ).2.2.2.1 hp _ ha hr (fun _ _ => rfl)

end

/-- The hypotheses hold for the tables of size 1024 that `make_tables 1024 1014` prints. -/
example : ∃ (ψ : Zq) (t : Tables.Nttables), ψ ^ 2 ^ 10 = -1 ∧ PrimRoot (2 ^ 10) (ψ ^ 2) ∧
    StdTable 1 1 (ψ ^ 2) 0 12288 10 t.omega_powers ∧
    RevTable 1 1 (ψ ^ 2) 0 12288 10 t.omega_powers_rev ∧
    PowTable 1 1 ψ 0 12288 (2 ^ 10) t.psi_powers ∧
    StdTable 1 ψ (ψ ^ 2) 0 12288 10 t.mixed_powers ∧
    RevTable 1 ψ (ψ ^ 2) 0 12288 10 t.mixed_powers_rev := by
  obtain ⟨t, _, h⟩ := tables_ok good1024 someBuf_size
  exact ⟨_, t, good_psi good1024, primRoot_of_psi (good_psi good1024), h.omega_powers,
    h.omega_powers_rev, h.psi_powers, h.mixed_powers, h.mixed_powers_rev⟩

example : ∃ a : Array Int, a.size = 2 ^ 10 ∧ Reduced a ∧ coeff a 3 ≠ 0 := by
  refine ⟨Array.replicate 1024 12288, by simp, ?_, ?_⟩
  · intro i hi; simp at hi; simp [elt, hi]
  · decide +kernel

end Props
