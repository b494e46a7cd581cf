import Verif.Proofs.AnyTable

/-
C46: the transforms of src/ntt_red.c do not fail, whatever the table.

This is what the analyses of verifier/vstte20-benchmarks establish for n = 1024, inputs in [0, Q-1]
and either the generated tables or (harness_ntt_red1024c.c and harness_ntt_red1024d.c) arbitrary
tables with entries in [-6144, 6143].
-/

namespace Props
open C NTT Spec AnyTable NttRed

/-- A table of at least `n` elements in [-6144, 6144]. -/
def AnyTable16 (n : Nat) (p : Array Int) : Prop :=
  n ≤ p.size ∧ ∀ (i : Nat) (w : Int), p[i]? = some w → |w| ≤ 6144

/-- `f` returns for all arrays of `n = 2^k` elements in [-21499, 21499] and all tables of `n` elements
in [-6144, 6144]: no overflow, no access outside the arrays, no failed assertion.  The results are
bounded by `B`. -/
def NeverFails (f : Array Int → Nat → Array Int → M (Array Int)) (k : Nat) (B : Int) : Prop :=
  ∀ a p : Array Int, a.size = 2 ^ k → InRange (-21499) 21499 a → AnyTable16 (2 ^ k) p →
    ∃ a', f a (2 ^ k) p = .ok a' ∧ a'.size = 2 ^ k ∧ InRange (-B) B a'

variable {k : Nat}

theorem ntt_red_ct_rev2std_any (hk : k ≤ 12) : NeverFails ntt_red_ct_rev2std k (ctB k) := by
  intro a p ha hr hp
  exact finish (wp_ctRev2std (P := fun m _ x => |x| ≤ ctB m) (by omega) hp.1
    (fun m b hm _ => bf0_ct (by omega) (by have := Nat.two_pow_pos m; omega))
    (fun m b j w hm _ _ _ hw => ct_ok (by omega) (hp.2 _ _ hw) (by have := Nat.two_pow_pos m; omega))
    (pw_init ha hr))

theorem mulntt_red_ct_rev2std_any (hk : k ≤ 12) : NeverFails mulntt_red_ct_rev2std k (ctB k) := by
  intro a p ha hr hp
  exact finish (wp_mulCtRev2std (P := fun m _ x => |x| ≤ ctB m) (by omega) hp.1
    (fun m b j w hm _ _ hw => ct_ok (by omega) (hp.2 _ _ hw) (by have := Nat.two_pow_pos m; omega))
    (pw_init ha hr))

theorem ntt_red_ct_std2rev_any (hk : k ≤ 12) : NeverFails ntt_red_ct_std2rev k (ctB k) := by
  intro a p ha hr hp
  exact finish (wp_ctStd2rev (P := fun m _ x => |x| ≤ ctB m) (by omega) hp.1
    (fun m r hm _ => bf0_ct (by omega) (by have := Nat.two_pow_pos (k - 1 - m); omega))
    (fun m j r w hm _ _ _ hw => ct_ok (by omega) (hp.2 _ _ hw)
      (by have := Nat.two_pow_pos (k - 1 - m); omega))
    (pw_init ha hr))

theorem mulntt_red_ct_std2rev_any (hk : k ≤ 12) : NeverFails mulntt_red_ct_std2rev k (ctB k) := by
  intro a p ha hr hp
  exact finish (wp_mulCtStd2rev (P := fun m _ x => |x| ≤ ctB m) (by omega) hp.1
    (fun m j r w hm _ _ hw => ct_ok (by omega) (hp.2 _ _ hw)
      (by have := Nat.two_pow_pos (k - 1 - m); omega))
    (pw_init ha hr))

theorem ntt_red_gs_rev2std_any (hk : k ≤ 10) : NeverFails ntt_red_gs_rev2std k (gsB k) := by
  intro a p ha hr hp
  exact finish (wp_gsRev2std (P := fun m _ x => |x| ≤ gsB m) (by omega) hp.1
    (fun m r hm _ => bf0_gs (by omega) (by have := Nat.two_pow_pos m; omega))
    (fun m j r w hm _ _ _ hw => gs_ok (by omega) (hp.2 _ _ hw) (by have := Nat.two_pow_pos m; omega))
    (pw_init ha hr))

theorem nttmul_red_gs_rev2std_any (hk : k ≤ 10) : NeverFails nttmul_red_gs_rev2std k (gsB k) := by
  intro a p ha hr hp
  exact finish (wp_gsMulRev2std (P := fun m _ x => |x| ≤ gsB m) (by omega) hp.1
    (fun m j r w hm _ _ hw => gs_ok (by omega) (hp.2 _ _ hw) (by have := Nat.two_pow_pos m; omega))
    (pw_init ha hr))

theorem ntt_red_gs_std2rev_any (hk : k ≤ 10) : NeverFails ntt_red_gs_std2rev k (gsB k) := by
  intro a p ha hr hp
  exact finish (wp_gsStd2rev (P := fun m _ x => |x| ≤ gsB m) (by omega) hp.1
    (fun m b hm _ => bf0_gs (by omega) (by have := Nat.two_pow_pos (k - 1 - m); omega))
    (fun m b j w hm _ _ _ hw => gs_ok (by omega) (hp.2 _ _ hw)
      (by have := Nat.two_pow_pos (k - 1 - m); omega))
    (pw_init ha hr))

theorem nttmul_red_gs_std2rev_any (hk : k ≤ 10) : NeverFails nttmul_red_gs_std2rev k (gsB k) := by
  intro a p ha hr hp
  exact finish (wp_gsMulStd2rev (P := fun m _ x => |x| ≤ gsB m) (by omega) hp.1
    (fun m b j w hm _ _ hw => gs_ok (by omega) (hp.2 _ _ hw)
      (by have := Nat.two_pow_pos (k - 1 - m); omega))
    (pw_init ha hr))

theorem NeverFails.mono {f : Array Int → Nat → Array Int → M (Array Int)} {B B' : Int}
    (h : NeverFails f k B) (hB : B ≤ B') : NeverFails f k B' := by
  intro a p ha hr hp
  obtain ⟨a', e, s, r⟩ := h a p ha hr hp
  exact ⟨a', e, s, fun i hi => by have := r i hi; omega⟩

/-- The Cooley-Tukey transforms never fail for sizes up to `2^12`. -/
theorem C46_ct (hk : k ≤ 12) :
    ∀ f ∈ [ntt_red_ct_rev2std, mulntt_red_ct_rev2std, ntt_red_ct_std2rev, mulntt_red_ct_std2rev],
      NeverFails f k 2147483647 := by
  intro f hf
  simp only [List.mem_cons, List.not_mem_nil, or_false] at hf
  have h := ctB_end k (by omega)
  rcases hf with rfl | rfl | rfl | rfl
  · exact (ntt_red_ct_rev2std_any hk).mono h
  · exact (mulntt_red_ct_rev2std_any hk).mono h
  · exact (ntt_red_ct_std2rev_any hk).mono h
  · exact (mulntt_red_ct_std2rev_any hk).mono h

/-- The Gentleman-Sande transforms never fail for sizes up to `2^10`. -/
theorem C46_gs (hk : k ≤ 10) :
    ∀ f ∈ [ntt_red_gs_rev2std, nttmul_red_gs_rev2std, ntt_red_gs_std2rev, nttmul_red_gs_std2rev],
      NeverFails f k 2147483647 := by
  intro f hf
  simp only [List.mem_cons, List.not_mem_nil, or_false] at hf
  have h := gsB_end k (by omega)
  rcases hf with rfl | rfl | rfl | rfl
  · exact (ntt_red_gs_rev2std_any hk).mono h
  · exact (nttmul_red_gs_rev2std_any hk).mono h
  · exact (ntt_red_gs_std2rev_any hk).mono h
  · exact (nttmul_red_gs_std2rev_any hk).mono h

/-- The size of the verified harnesses, with bounds on the results. -/
theorem C46_1024 :
    (∀ f ∈ [ntt_red_ct_rev2std, mulntt_red_ct_rev2std, ntt_red_ct_std2rev, mulntt_red_ct_std2rev],
      NeverFails f 10 283144017) ∧
    (∀ f ∈ [ntt_red_gs_rev2std, nttmul_red_gs_rev2std, ntt_red_gs_std2rev, nttmul_red_gs_std2rev],
      NeverFails f 10 1632255839) := by
  constructor
  · intro f hf
    simp only [List.mem_cons, List.not_mem_nil, or_false] at hf
    have h : ctB 10 ≤ 283144017 := by decide
    rcases hf with rfl | rfl | rfl | rfl
    · exact (ntt_red_ct_rev2std_any (by omega)).mono h
    · exact (mulntt_red_ct_rev2std_any (by omega)).mono h
    · exact (ntt_red_ct_std2rev_any (by omega)).mono h
    · exact (mulntt_red_ct_std2rev_any (by omega)).mono h
  · intro f hf
    simp only [List.mem_cons, List.not_mem_nil, or_false] at hf
    have h : gsB 10 ≤ 1632255839 := by decide
    rcases hf with rfl | rfl | rfl | rfl
    · exact (ntt_red_gs_rev2std_any (by omega)).mono h
    · exact (nttmul_red_gs_rev2std_any (by omega)).mono h
    · exact (ntt_red_gs_std2rev_any (by omega)).mono h
    · exact (nttmul_red_gs_std2rev_any (by omega)).mono h

/-- A table and an input that meet the hypotheses. -/
example : AnyTable16 (2 ^ 2) #[6144, -6144, 17, 0] ∧ InRange (-21499) 21499 #[21499, -21499, 5, 0] := by
  constructor
  · exact ⟨by decide, fun i w h => by
      rcases i with _ | _ | _ | _ | i <;> simp at h <;> subst h <;> decide⟩
  · intro i hi
    have hi : i < 4 := hi
    rcases i with _ | _ | _ | _ | i <;> first | decide | omega

end Props
