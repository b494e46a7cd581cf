import Verif.Proofs.MemSafe
import Verif.Props.Products

/-
C12: memory safety and termination for arbitrary contents of the arrays and tables.

`OnlyArith n m`: the execution `m` either returns an array of size `n`, or stops because of a signed
overflow or of a failed assertion.  In particular there is no access out of the bounds of an array,
no division by zero, no call of `abort` and no loop without end.  The elements of the arrays and
tables are unconstrained (not even 32-bit).  What happens after a signed overflow (which is undefined
in C) is covered by C39: the sequence of accesses is the same for all contents.
-/

namespace Props
open C NTT Tables

/-- The execution returns an array of size `n`, or overflows, or fails an assertion. -/
def OnlyArith (n : Nat) (m : M (Array Int)) : Prop :=
  (∃ a, m = .ok a ∧ a.size = n) ∨ m = .error .overflow ∨ m = .error .assertFail

/-- The same for the products, which return the final contents of three arrays. -/
def OnlyArith3 (n : Nat) (m : M (Array Int × Array Int × Array Int)) : Prop :=
  (∃ c a b, m = .ok (c, a, b) ∧ c.size = n ∧ a.size = n ∧ b.size = n) ∨
  m = .error .overflow ∨ m = .error .assertFail

theorem onlyArith_of_wp {n : Nat} {m : M (Array Int)} (h : Wp Arith m (Sized n)) :
    OnlyArith n m := by
  unfold Wp at h
  cases m with
  | ok a => exact Or.inl ⟨a, rfl, h⟩
  | error e => rcases h with rfl | rfl <;> simp [OnlyArith]

theorem onlyArith3_of_wp {n : Nat} {m : M (Array Int × Array Int × Array Int)}
    (h : Wp Arith m (fun r => r.1.size = n ∧ r.2.1.size = n ∧ r.2.2.size = n)) :
    OnlyArith3 n m := by
  unfold Wp at h
  cases m with
  | ok r => exact Or.inl ⟨r.1, r.2.1, r.2.2, rfl, h⟩
  | error e => rcases h with rfl | rfl <;> simp [OnlyArith3]

section
variable (k : Nat) (hk : k ≤ 31) (a p : Array Int) (ha : a.size = 2 ^ k) (hp : p.size = 2 ^ k)
include hk ha hp

/-- The nine NTT functions of ntt.c. -/
theorem C12_ntt :
    ∀ f ∈ [Ntt.ntt_ct_rev2std,
      Ntt.mulntt_ct_rev2std,
      Ntt.ntt_ct_std2rev,
      Ntt.mulntt_ct_std2rev,
      Ntt.ntt_gs_rev2std,
      Ntt.nttmul_gs_rev2std,
      Ntt.ntt_gs_std2rev,
      Ntt.nttmul_gs_std2rev,
      Ntt.ntt_ct_rev2std_v1],
    OnlyArith (2 ^ k) (f a (2 ^ k) p) := by
  intro f hf
  simp only [List.mem_cons, List.not_mem_nil, or_false] at hf
  rcases hf with rfl | rfl | rfl | rfl | rfl | rfl | rfl | rfl | rfl
  · exact onlyArith_of_wp (safe_ctRev2std hk hp.ge Ntt.safe_bf0 Ntt.safe_ctBf ha)
  · exact onlyArith_of_wp (safe_mulCtRev2std hk hp.ge Ntt.safe_ctBf ha)
  · exact onlyArith_of_wp (safe_ctStd2rev hk hp.ge Ntt.safe_bf0 Ntt.safe_ctBf ha)
  · exact onlyArith_of_wp (safe_mulCtStd2rev hk hp.ge Ntt.safe_ctBf ha)
  · exact onlyArith_of_wp (safe_gsRev2std hk hp.ge Ntt.safe_bf0 Ntt.safe_gsBf ha)
  · exact onlyArith_of_wp (safe_gsMulRev2std hk hp.ge Ntt.safe_gsBf ha)
  · exact onlyArith_of_wp (safe_gsStd2rev hk hp.ge Ntt.safe_bf0 Ntt.safe_gsBf ha)
  · exact onlyArith_of_wp (safe_gsMulStd2rev hk hp.ge Ntt.safe_gsBf ha)
  · exact onlyArith_of_wp (safe_ctRev2stdV1 hk hp.ge Ntt.safe_bf0 Ntt.safe_ctBf ha)

/-- The eight NTT functions of ntt_red.c. -/
theorem C12_ntt_red :
    ∀ f ∈ [NttRed.ntt_red_ct_rev2std,
      NttRed.mulntt_red_ct_rev2std,
      NttRed.ntt_red_ct_std2rev,
      NttRed.mulntt_red_ct_std2rev,
      NttRed.ntt_red_gs_rev2std,
      NttRed.nttmul_red_gs_rev2std,
      NttRed.ntt_red_gs_std2rev,
      NttRed.nttmul_red_gs_std2rev],
    OnlyArith (2 ^ k) (f a (2 ^ k) p) := by
  intro f hf
  simp only [List.mem_cons, List.not_mem_nil, or_false] at hf
  rcases hf with rfl | rfl | rfl | rfl | rfl | rfl | rfl | rfl
  · exact onlyArith_of_wp (safe_ctRev2std hk hp.ge NttRed.safe_bf0 NttRed.safe_ctBf ha)
  · exact onlyArith_of_wp (safe_mulCtRev2std hk hp.ge NttRed.safe_ctBf ha)
  · exact onlyArith_of_wp (safe_ctStd2rev hk hp.ge NttRed.safe_bf0 NttRed.safe_ctBf ha)
  · exact onlyArith_of_wp (safe_mulCtStd2rev hk hp.ge NttRed.safe_ctBf ha)
  · exact onlyArith_of_wp (safe_gsRev2std hk hp.ge NttRed.safe_bf0 NttRed.safe_gsBf ha)
  · exact onlyArith_of_wp (safe_gsMulRev2std hk hp.ge NttRed.safe_gsBf ha)
  · exact onlyArith_of_wp (safe_gsStd2rev hk hp.ge NttRed.safe_bf0 NttRed.safe_gsBf ha)
  · exact onlyArith_of_wp (safe_gsMulStd2rev hk hp.ge NttRed.safe_gsBf ha)

/-- The eight NTT functions of naive_ntt.c, for any modulus other than 0. -/
theorem C12_naive (q : Int) (hq : q ≠ 0) :
    ∀ f ∈ [Naive.ntt_ct_rev2std,
      Naive.mulntt_ct_rev2std,
      Naive.ntt_ct_std2rev,
      Naive.mulntt_ct_std2rev,
      Naive.ntt_gs_rev2std,
      Naive.nttmul_gs_rev2std,
      Naive.ntt_gs_std2rev,
      Naive.nttmul_gs_std2rev],
    OnlyArith (2 ^ k) (f a (2 ^ k) p q) := by
  intro f hf
  simp only [List.mem_cons, List.not_mem_nil, or_false] at hf
  rcases hf with rfl | rfl | rfl | rfl | rfl | rfl | rfl | rfl
  · exact onlyArith_of_wp (safe_ctRev2std hk hp.ge (Naive.safe_bf0 hq) (Naive.safe_ctBf hq) ha)
  · exact onlyArith_of_wp (safe_mulCtRev2std hk hp.ge (Naive.safe_ctBf hq) ha)
  · exact onlyArith_of_wp (safe_ctStd2rev hk hp.ge (Naive.safe_bf0 hq) (Naive.safe_ctBf hq) ha)
  · exact onlyArith_of_wp (safe_mulCtStd2rev hk hp.ge (Naive.safe_ctBf hq) ha)
  · exact onlyArith_of_wp (safe_gsRev2std hk hp.ge (Naive.safe_bf0 hq) (Naive.safe_gsBf hq) ha)
  · exact onlyArith_of_wp (safe_gsMulRev2std hk hp.ge (Naive.safe_gsBf hq) ha)
  · exact onlyArith_of_wp (safe_gsStd2rev hk hp.ge (Naive.safe_bf0 hq) (Naive.safe_gsBf hq) ha)
  · exact onlyArith_of_wp (safe_gsMulStd2rev hk hp.ge (Naive.safe_gsBf hq) ha)

end

/-- The elementwise functions, for any number of elements. -/
theorem C12_elementwise (n : Nat) (hn : n < 2 ^ 32) (c a b : Array Int) (x q : Int) (hq : q ≠ 0)
    (hc : c.size = n) (ha : a.size = n) (hb : b.size = n) :
    ∀ m ∈ [Ntt.mul_array16 a n b, Ntt.mul_array c n a b, Ntt.scalar_mul_array a n x,
      NttRed.mul_reduce_array16 a n b, NttRed.mul_reduce_array c n a b,
      NttRed.scalar_mul_reduce_array a n x, NttRed.reduce_array a n, NttRed.reduce_array_twice a n,
      NttRed.correct a n, NttRed.shift_array a n, NttRed.normalize a n, NttRed.normalize_inv3 a n,
      Naive.mul_array16 a n b q, Naive.mul_array c n a b q, Naive.scalar_mul_array a n x q],
    OnlyArith n m := by
  intro m hm
  simp only [List.mem_cons, List.not_mem_nil, or_false] at hm
  have h32 : n < 4294967296 := by omega
  rcases hm with rfl | rfl | rfl | rfl | rfl | rfl | rfl | rfl | rfl | rfl | rfl | rfl | rfl | rfl | rfl
  · exact onlyArith_of_wp (Ntt.safe_mul_array16 h32 ha hb.ge)
  · exact onlyArith_of_wp (Ntt.safe_mul_array h32 hc ha.ge hb.ge)
  · exact onlyArith_of_wp (Ntt.safe_scalar_mul_array h32 ha)
  · exact onlyArith_of_wp (NttRed.safe_mul_reduce_array16 h32 ha hb.ge)
  · exact onlyArith_of_wp (NttRed.safe_mul_reduce_array h32 hc ha.ge hb.ge)
  · exact onlyArith_of_wp (NttRed.safe_scalar_mul_reduce_array h32 ha)
  · exact onlyArith_of_wp (NttRed.safe_reduce_array h32 ha)
  · exact onlyArith_of_wp (NttRed.safe_reduce_array_twice h32 ha)
  · exact onlyArith_of_wp (NttRed.safe_correct h32 ha)
  · exact onlyArith_of_wp (NttRed.safe_shift_array h32 ha)
  · exact onlyArith_of_wp (NttRed.safe_normalize h32 ha)
  · exact onlyArith_of_wp (NttRed.safe_normalize_inv3 h32 ha)
  · exact onlyArith_of_wp (Naive.safe_mul_array16 hq h32 ha hb.ge)
  · exact onlyArith_of_wp (Naive.safe_mul_array hq h32 hc ha.ge hb.ge)
  · exact onlyArith_of_wp (Naive.safe_scalar_mul_array hq h32 ha)

/-- All the arrays of the tables have `n` elements (their contents are arbitrary). -/
structure TablesSized (n : Nat) (t : Nttables) : Prop where
  psi_powers : t.psi_powers.size = n
  scaled_inv_psi_powers : t.scaled_inv_psi_powers.size = n
  omega_powers : t.omega_powers.size = n
  omega_powers_rev : t.omega_powers_rev.size = n
  inv_omega_powers : t.inv_omega_powers.size = n
  inv_omega_powers_rev : t.inv_omega_powers_rev.size = n
  mixed_powers_rev : t.mixed_powers_rev.size = n
  inv_mixed_powers_rev : t.inv_mixed_powers_rev.size = n

/-- All the arrays of the tables have `n` elements (their contents are arbitrary). -/
structure RedTablesSized (n : Nat) (t : RedTables) : Prop where
  psi_powers : t.psi_powers.size = n
  scaled_inv_psi_powers : t.scaled_inv_psi_powers.size = n
  omega_powers : t.omega_powers.size = n
  omega_powers_rev : t.omega_powers_rev.size = n
  inv_omega_powers : t.inv_omega_powers.size = n
  inv_omega_powers_rev : t.inv_omega_powers_rev.size = n
  mixed_powers_rev : t.mixed_powers_rev.size = n
  inv_mixed_powers_rev : t.inv_mixed_powers_rev.size = n

section
variable (k : Nat) (hk : k ≤ 31) (c a b : Array Int) (hc : c.size = 2 ^ k) (ha : a.size = 2 ^ k)
  (hb : b.size = 2 ^ k)
include hk hc ha hb

/-- The five products of the `ntt` family. -/
theorem C12_ntt_products (t : Nttables) (ht : TablesSized (2 ^ k) t) :
    ∀ f ∈ [Ntt.product1 t (2 ^ k), Ntt.product2 t (2 ^ k), Ntt.product3 t (2 ^ k), Ntt.product4 t (2 ^ k), Ntt.product5 t (2 ^ k)],
    OnlyArith3 (2 ^ k) (f c a b) := by
  intro f hf
  simp only [List.mem_cons, List.not_mem_nil, or_false] at hf
  have hn : 2 ^ k < 4294967296 := by
    have := Nat.pow_le_pow_right (n := 2) (by omega) hk; omega
  rcases hf with rfl | rfl | rfl | rfl | rfl
  · refine onlyArith3_of_wp ?_
    unfold Ntt.product1
    simp only [wp_bind, wp_pure]
    refine (Ntt.safe_mul_array16 hn ha ht.psi_powers.ge).mono fun _ h1 => ?_
    refine (safe_ctStd2rev hk ht.omega_powers_rev.ge Ntt.safe_bf0 Ntt.safe_ctBf h1).mono fun _ h2 => ?_
    refine (Ntt.safe_mul_array16 hn hb ht.psi_powers.ge).mono fun _ h3 => ?_
    refine (safe_ctStd2rev hk ht.omega_powers_rev.ge Ntt.safe_bf0 Ntt.safe_ctBf h3).mono fun _ h4 => ?_
    refine (Ntt.safe_mul_array hn hc (Eq.ge h2) (Eq.ge h4)).mono fun _ h5 => ?_
    refine (safe_ctRev2std hk ht.inv_omega_powers.ge Ntt.safe_bf0 Ntt.safe_ctBf h5).mono fun _ h6 => ?_
    refine (Ntt.safe_mul_array16 hn h6 ht.scaled_inv_psi_powers.ge).mono fun _ h7 => ?_
    exact ⟨h7, h2, h4⟩
  · refine onlyArith3_of_wp ?_
    unfold Ntt.product2
    simp only [wp_bind, wp_pure]
    refine (Ntt.safe_mul_array16 hn ha ht.psi_powers.ge).mono fun _ h1 => ?_
    refine (safe_gsStd2rev hk ht.omega_powers.ge Ntt.safe_bf0 Ntt.safe_gsBf h1).mono fun _ h2 => ?_
    refine (Ntt.safe_mul_array16 hn hb ht.psi_powers.ge).mono fun _ h3 => ?_
    refine (safe_gsStd2rev hk ht.omega_powers.ge Ntt.safe_bf0 Ntt.safe_gsBf h3).mono fun _ h4 => ?_
    refine (Ntt.safe_mul_array hn hc (Eq.ge h2) (Eq.ge h4)).mono fun _ h5 => ?_
    refine (safe_ctRev2std hk ht.inv_omega_powers.ge Ntt.safe_bf0 Ntt.safe_ctBf h5).mono fun _ h6 => ?_
    refine (Ntt.safe_mul_array16 hn h6 ht.scaled_inv_psi_powers.ge).mono fun _ h7 => ?_
    exact ⟨h7, h2, h4⟩
  · refine onlyArith3_of_wp ?_
    unfold Ntt.product3
    simp only [wp_bind, wp_pure]
    refine (Ntt.safe_mul_array16 hn ha ht.psi_powers.ge).mono fun _ h1 => ?_
    refine (safe_ctStd2rev hk ht.omega_powers_rev.ge Ntt.safe_bf0 Ntt.safe_ctBf h1).mono fun _ h2 => ?_
    refine (Ntt.safe_mul_array16 hn hb ht.psi_powers.ge).mono fun _ h3 => ?_
    refine (safe_ctStd2rev hk ht.omega_powers_rev.ge Ntt.safe_bf0 Ntt.safe_ctBf h3).mono fun _ h4 => ?_
    refine (Ntt.safe_mul_array hn hc (Eq.ge h2) (Eq.ge h4)).mono fun _ h5 => ?_
    refine (safe_gsRev2std hk ht.inv_omega_powers_rev.ge Ntt.safe_bf0 Ntt.safe_gsBf h5).mono fun _ h6 => ?_
    refine (Ntt.safe_mul_array16 hn h6 ht.scaled_inv_psi_powers.ge).mono fun _ h7 => ?_
    exact ⟨h7, h2, h4⟩
  · refine onlyArith3_of_wp ?_
    unfold Ntt.product4
    simp only [wp_bind, wp_pure]
    refine (Ntt.safe_mul_array16 hn ha ht.psi_powers.ge).mono fun _ h1 => ?_
    refine (safe_gsStd2rev hk ht.omega_powers.ge Ntt.safe_bf0 Ntt.safe_gsBf h1).mono fun _ h2 => ?_
    refine (Ntt.safe_mul_array16 hn hb ht.psi_powers.ge).mono fun _ h3 => ?_
    refine (safe_gsStd2rev hk ht.omega_powers.ge Ntt.safe_bf0 Ntt.safe_gsBf h3).mono fun _ h4 => ?_
    refine (Ntt.safe_mul_array hn hc (Eq.ge h2) (Eq.ge h4)).mono fun _ h5 => ?_
    refine (safe_gsRev2std hk ht.inv_omega_powers_rev.ge Ntt.safe_bf0 Ntt.safe_gsBf h5).mono fun _ h6 => ?_
    refine (Ntt.safe_mul_array16 hn h6 ht.scaled_inv_psi_powers.ge).mono fun _ h7 => ?_
    exact ⟨h7, h2, h4⟩
  · refine onlyArith3_of_wp ?_
    unfold Ntt.product5
    simp only [wp_bind, wp_pure]
    refine (safe_mulCtStd2rev hk ht.mixed_powers_rev.ge Ntt.safe_ctBf ha).mono fun _ h1 => ?_
    refine (safe_mulCtStd2rev hk ht.mixed_powers_rev.ge Ntt.safe_ctBf hb).mono fun _ h2 => ?_
    refine (Ntt.safe_mul_array hn hc (Eq.ge h1) (Eq.ge h2)).mono fun _ h3 => ?_
    refine (safe_gsMulRev2std hk ht.inv_mixed_powers_rev.ge Ntt.safe_gsBf h3).mono fun _ h4 => ?_
    refine (Ntt.safe_scalar_mul_array hn h4).mono fun _ h5 => ?_
    exact ⟨h5, h1, h2⟩

/-- The five products of the `ntt_red` family. -/
theorem C12_ntt_red_products (t : RedTables) (ht : RedTablesSized (2 ^ k) t) (sh : Bool) :
    ∀ f ∈ [NttRed.product1 t (2 ^ k) sh, NttRed.product2 t (2 ^ k) sh, NttRed.product3 t (2 ^ k) sh, NttRed.product4 t (2 ^ k) sh, NttRed.product5 t (2 ^ k) sh],
    OnlyArith3 (2 ^ k) (f c a b) := by
  intro f hf
  simp only [List.mem_cons, List.not_mem_nil, or_false] at hf
  have hn : 2 ^ k < 4294967296 := by
    have := Nat.pow_le_pow_right (n := 2) (by omega) hk; omega
  rcases hf with rfl | rfl | rfl | rfl | rfl
  · refine onlyArith3_of_wp ?_
    unfold NttRed.product1
    simp only [wp_bind, wp_pure]
    refine (NttRed.safe_shiftInput hn ha).mono fun _ h1 => ?_
    refine (NttRed.safe_mul_reduce_array16 hn h1 ht.psi_powers.ge).mono fun _ h2 => ?_
    refine (safe_ctStd2rev hk ht.omega_powers_rev.ge NttRed.safe_bf0 NttRed.safe_ctBf h2).mono fun _ h3 => ?_
    refine (NttRed.safe_reduce_array hn h3).mono fun _ h4 => ?_
    refine (NttRed.safe_shiftInput hn hb).mono fun _ h5 => ?_
    refine (NttRed.safe_mul_reduce_array16 hn h5 ht.psi_powers.ge).mono fun _ h6 => ?_
    refine (safe_ctStd2rev hk ht.omega_powers_rev.ge NttRed.safe_bf0 NttRed.safe_ctBf h6).mono fun _ h7 => ?_
    refine (NttRed.safe_reduce_array hn h7).mono fun _ h8 => ?_
    refine (NttRed.safe_mul_reduce_array hn hc (Eq.ge h4) (Eq.ge h8)).mono fun _ h9 => ?_
    refine (NttRed.safe_reduce_array_twice hn h9).mono fun _ h10 => ?_
    refine (safe_ctRev2std hk ht.inv_omega_powers.ge NttRed.safe_bf0 NttRed.safe_ctBf h10).mono fun _ h11 => ?_
    refine (NttRed.safe_mul_reduce_array16 hn h11 ht.scaled_inv_psi_powers.ge).mono fun _ h12 => ?_
    refine (NttRed.safe_reduce_array_twice hn h12).mono fun _ h13 => ?_
    refine (NttRed.safe_correct hn h13).mono fun _ h14 => ?_
    exact ⟨h14, h4, h8⟩
  · refine onlyArith3_of_wp ?_
    unfold NttRed.product2
    simp only [wp_bind, wp_pure]
    refine (NttRed.safe_shiftInput hn ha).mono fun _ h1 => ?_
    refine (NttRed.safe_mul_reduce_array16 hn h1 ht.psi_powers.ge).mono fun _ h2 => ?_
    refine (safe_gsStd2rev hk ht.omega_powers.ge NttRed.safe_bf0 NttRed.safe_gsBf h2).mono fun _ h3 => ?_
    refine (NttRed.safe_reduce_array hn h3).mono fun _ h4 => ?_
    refine (NttRed.safe_shiftInput hn hb).mono fun _ h5 => ?_
    refine (NttRed.safe_mul_reduce_array16 hn h5 ht.psi_powers.ge).mono fun _ h6 => ?_
    refine (safe_gsStd2rev hk ht.omega_powers.ge NttRed.safe_bf0 NttRed.safe_gsBf h6).mono fun _ h7 => ?_
    refine (NttRed.safe_reduce_array hn h7).mono fun _ h8 => ?_
    refine (NttRed.safe_mul_reduce_array hn hc (Eq.ge h4) (Eq.ge h8)).mono fun _ h9 => ?_
    refine (NttRed.safe_reduce_array_twice hn h9).mono fun _ h10 => ?_
    refine (safe_ctRev2std hk ht.inv_omega_powers.ge NttRed.safe_bf0 NttRed.safe_ctBf h10).mono fun _ h11 => ?_
    refine (NttRed.safe_mul_reduce_array16 hn h11 ht.scaled_inv_psi_powers.ge).mono fun _ h12 => ?_
    refine (NttRed.safe_reduce_array_twice hn h12).mono fun _ h13 => ?_
    refine (NttRed.safe_correct hn h13).mono fun _ h14 => ?_
    exact ⟨h14, h4, h8⟩
  · refine onlyArith3_of_wp ?_
    unfold NttRed.product3
    simp only [wp_bind, wp_pure]
    refine (NttRed.safe_shiftInput hn ha).mono fun _ h1 => ?_
    refine (NttRed.safe_mul_reduce_array16 hn h1 ht.psi_powers.ge).mono fun _ h2 => ?_
    refine (safe_ctStd2rev hk ht.omega_powers_rev.ge NttRed.safe_bf0 NttRed.safe_ctBf h2).mono fun _ h3 => ?_
    refine (NttRed.safe_reduce_array hn h3).mono fun _ h4 => ?_
    refine (NttRed.safe_shiftInput hn hb).mono fun _ h5 => ?_
    refine (NttRed.safe_mul_reduce_array16 hn h5 ht.psi_powers.ge).mono fun _ h6 => ?_
    refine (safe_ctStd2rev hk ht.omega_powers_rev.ge NttRed.safe_bf0 NttRed.safe_ctBf h6).mono fun _ h7 => ?_
    refine (NttRed.safe_reduce_array hn h7).mono fun _ h8 => ?_
    refine (NttRed.safe_mul_reduce_array hn hc (Eq.ge h4) (Eq.ge h8)).mono fun _ h9 => ?_
    refine (NttRed.safe_reduce_array_twice hn h9).mono fun _ h10 => ?_
    refine (safe_gsRev2std hk ht.inv_omega_powers_rev.ge NttRed.safe_bf0 NttRed.safe_gsBf h10).mono fun _ h11 => ?_
    refine (NttRed.safe_mul_reduce_array16 hn h11 ht.scaled_inv_psi_powers.ge).mono fun _ h12 => ?_
    refine (NttRed.safe_reduce_array_twice hn h12).mono fun _ h13 => ?_
    refine (NttRed.safe_correct hn h13).mono fun _ h14 => ?_
    exact ⟨h14, h4, h8⟩
  · refine onlyArith3_of_wp ?_
    unfold NttRed.product4
    simp only [wp_bind, wp_pure]
    refine (NttRed.safe_shiftInput hn ha).mono fun _ h1 => ?_
    refine (NttRed.safe_mul_reduce_array16 hn h1 ht.psi_powers.ge).mono fun _ h2 => ?_
    refine (safe_gsStd2rev hk ht.omega_powers.ge NttRed.safe_bf0 NttRed.safe_gsBf h2).mono fun _ h3 => ?_
    refine (NttRed.safe_reduce_array hn h3).mono fun _ h4 => ?_
    refine (NttRed.safe_shiftInput hn hb).mono fun _ h5 => ?_
    refine (NttRed.safe_mul_reduce_array16 hn h5 ht.psi_powers.ge).mono fun _ h6 => ?_
    refine (safe_gsStd2rev hk ht.omega_powers.ge NttRed.safe_bf0 NttRed.safe_gsBf h6).mono fun _ h7 => ?_
    refine (NttRed.safe_reduce_array hn h7).mono fun _ h8 => ?_
    refine (NttRed.safe_mul_reduce_array hn hc (Eq.ge h4) (Eq.ge h8)).mono fun _ h9 => ?_
    refine (NttRed.safe_reduce_array_twice hn h9).mono fun _ h10 => ?_
    refine (safe_gsRev2std hk ht.inv_omega_powers_rev.ge NttRed.safe_bf0 NttRed.safe_gsBf h10).mono fun _ h11 => ?_
    refine (NttRed.safe_mul_reduce_array16 hn h11 ht.scaled_inv_psi_powers.ge).mono fun _ h12 => ?_
    refine (NttRed.safe_reduce_array_twice hn h12).mono fun _ h13 => ?_
    refine (NttRed.safe_correct hn h13).mono fun _ h14 => ?_
    exact ⟨h14, h4, h8⟩
  · refine onlyArith3_of_wp ?_
    unfold NttRed.product5
    simp only [wp_bind, wp_pure]
    refine (NttRed.safe_shiftInput hn ha).mono fun _ h1 => ?_
    refine (safe_mulCtStd2rev hk ht.mixed_powers_rev.ge NttRed.safe_ctBf h1).mono fun _ h2 => ?_
    refine (NttRed.safe_reduce_array hn h2).mono fun _ h3 => ?_
    refine (NttRed.safe_shiftInput hn hb).mono fun _ h4 => ?_
    refine (safe_mulCtStd2rev hk ht.mixed_powers_rev.ge NttRed.safe_ctBf h4).mono fun _ h5 => ?_
    refine (NttRed.safe_reduce_array hn h5).mono fun _ h6 => ?_
    refine (NttRed.safe_mul_reduce_array hn hc (Eq.ge h3) (Eq.ge h6)).mono fun _ h7 => ?_
    refine (NttRed.safe_reduce_array_twice hn h7).mono fun _ h8 => ?_
    refine (safe_gsMulRev2std hk ht.inv_mixed_powers_rev.ge NttRed.safe_gsBf h8).mono fun _ h9 => ?_
    refine (NttRed.safe_scalar_mul_reduce_array hn h9).mono fun _ h10 => ?_
    refine (NttRed.safe_reduce_array_twice hn h10).mono fun _ h11 => ?_
    refine (NttRed.safe_correct hn h11).mono fun _ h12 => ?_
    exact ⟨h12, h3, h6⟩

/-- The five products of the `naive_ntt` family. -/
theorem C12_naive_products (t : Nttables) (ht : TablesSized (2 ^ k) t) :
    ∀ f ∈ [Naive.product1 t (2 ^ k), Naive.product2 t (2 ^ k), Naive.product3 t (2 ^ k), Naive.product4 t (2 ^ k), Naive.product5 t (2 ^ k)],
    OnlyArith3 (2 ^ k) (f c a b) := by
  intro f hf
  simp only [List.mem_cons, List.not_mem_nil, or_false] at hf
  have hn : 2 ^ k < 4294967296 := by
    have := Nat.pow_le_pow_right (n := 2) (by omega) hk; omega
  have hq : (12289 : Int) ≠ 0 := by decide
  rcases hf with rfl | rfl | rfl | rfl | rfl
  · refine onlyArith3_of_wp ?_
    unfold Naive.product1
    simp only [wp_bind, wp_pure]
    refine (Naive.safe_mul_array16 hq hn ha ht.psi_powers.ge).mono fun _ h1 => ?_
    refine (safe_ctStd2rev hk ht.omega_powers_rev.ge (Naive.safe_bf0 hq) (Naive.safe_ctBf hq) h1).mono fun _ h2 => ?_
    refine (Naive.safe_mul_array16 hq hn hb ht.psi_powers.ge).mono fun _ h3 => ?_
    refine (safe_ctStd2rev hk ht.omega_powers_rev.ge (Naive.safe_bf0 hq) (Naive.safe_ctBf hq) h3).mono fun _ h4 => ?_
    refine (Naive.safe_mul_array hq hn hc (Eq.ge h2) (Eq.ge h4)).mono fun _ h5 => ?_
    refine (safe_ctRev2std hk ht.inv_omega_powers.ge (Naive.safe_bf0 hq) (Naive.safe_ctBf hq) h5).mono fun _ h6 => ?_
    refine (Naive.safe_mul_array16 hq hn h6 ht.scaled_inv_psi_powers.ge).mono fun _ h7 => ?_
    exact ⟨h7, h2, h4⟩
  · refine onlyArith3_of_wp ?_
    unfold Naive.product2
    simp only [wp_bind, wp_pure]
    refine (Naive.safe_mul_array16 hq hn ha ht.psi_powers.ge).mono fun _ h1 => ?_
    refine (safe_gsStd2rev hk ht.omega_powers.ge (Naive.safe_bf0 hq) (Naive.safe_gsBf hq) h1).mono fun _ h2 => ?_
    refine (Naive.safe_mul_array16 hq hn hb ht.psi_powers.ge).mono fun _ h3 => ?_
    refine (safe_gsStd2rev hk ht.omega_powers.ge (Naive.safe_bf0 hq) (Naive.safe_gsBf hq) h3).mono fun _ h4 => ?_
    refine (Naive.safe_mul_array hq hn hc (Eq.ge h2) (Eq.ge h4)).mono fun _ h5 => ?_
    refine (safe_ctRev2std hk ht.inv_omega_powers.ge (Naive.safe_bf0 hq) (Naive.safe_ctBf hq) h5).mono fun _ h6 => ?_
    refine (Naive.safe_mul_array16 hq hn h6 ht.scaled_inv_psi_powers.ge).mono fun _ h7 => ?_
    exact ⟨h7, h2, h4⟩
  · refine onlyArith3_of_wp ?_
    unfold Naive.product3
    simp only [wp_bind, wp_pure]
    refine (Naive.safe_mul_array16 hq hn ha ht.psi_powers.ge).mono fun _ h1 => ?_
    refine (safe_ctStd2rev hk ht.omega_powers_rev.ge (Naive.safe_bf0 hq) (Naive.safe_ctBf hq) h1).mono fun _ h2 => ?_
    refine (Naive.safe_mul_array16 hq hn hb ht.psi_powers.ge).mono fun _ h3 => ?_
    refine (safe_ctStd2rev hk ht.omega_powers_rev.ge (Naive.safe_bf0 hq) (Naive.safe_ctBf hq) h3).mono fun _ h4 => ?_
    refine (Naive.safe_mul_array hq hn hc (Eq.ge h2) (Eq.ge h4)).mono fun _ h5 => ?_
    refine (safe_gsRev2std hk ht.inv_omega_powers_rev.ge (Naive.safe_bf0 hq) (Naive.safe_gsBf hq) h5).mono fun _ h6 => ?_
    refine (Naive.safe_mul_array16 hq hn h6 ht.scaled_inv_psi_powers.ge).mono fun _ h7 => ?_
    exact ⟨h7, h2, h4⟩
  · refine onlyArith3_of_wp ?_
    unfold Naive.product4
    simp only [wp_bind, wp_pure]
    refine (Naive.safe_mul_array16 hq hn ha ht.psi_powers.ge).mono fun _ h1 => ?_
    refine (safe_gsStd2rev hk ht.omega_powers.ge (Naive.safe_bf0 hq) (Naive.safe_gsBf hq) h1).mono fun _ h2 => ?_
    refine (Naive.safe_mul_array16 hq hn hb ht.psi_powers.ge).mono fun _ h3 => ?_
    refine (safe_gsStd2rev hk ht.omega_powers.ge (Naive.safe_bf0 hq) (Naive.safe_gsBf hq) h3).mono fun _ h4 => ?_
    refine (Naive.safe_mul_array hq hn hc (Eq.ge h2) (Eq.ge h4)).mono fun _ h5 => ?_
    refine (safe_gsRev2std hk ht.inv_omega_powers_rev.ge (Naive.safe_bf0 hq) (Naive.safe_gsBf hq) h5).mono fun _ h6 => ?_
    refine (Naive.safe_mul_array16 hq hn h6 ht.scaled_inv_psi_powers.ge).mono fun _ h7 => ?_
    exact ⟨h7, h2, h4⟩
  · refine onlyArith3_of_wp ?_
    unfold Naive.product5
    simp only [wp_bind, wp_pure]
    refine (safe_mulCtStd2rev hk ht.mixed_powers_rev.ge (Naive.safe_ctBf hq) ha).mono fun _ h1 => ?_
    refine (safe_mulCtStd2rev hk ht.mixed_powers_rev.ge (Naive.safe_ctBf hq) hb).mono fun _ h2 => ?_
    refine (Naive.safe_mul_array hq hn hc (Eq.ge h1) (Eq.ge h2)).mono fun _ h3 => ?_
    refine (safe_gsMulRev2std hk ht.inv_mixed_powers_rev.ge (Naive.safe_gsBf hq) h3).mono fun _ h4 => ?_
    refine (Naive.safe_scalar_mul_array hq hn h4).mono fun _ h5 => ?_
    exact ⟨h5, h1, h2⟩

end

/-- Arbitrary contents: with elements near 2^31 the Longa-Naehrig transform does overflow, and the
theorem says nothing worse happens; with small garbage it returns. -/
example : NttRed.ntt_red_ct_rev2std #[2147483647, 2147483647] 2 #[0, 0] = .error .overflow ∧
    (∃ a, NttRed.ntt_red_ct_rev2std #[-99999, 77777] 2 #[-5, 31] = .ok a) := by
  refine ⟨by decide +kernel, ⟨_, (by decide +kernel :
    NttRed.ntt_red_ct_rev2std #[-99999, 77777] 2 #[-5, 31] = .ok #[-22222, -177776])⟩⟩

/-- A table that is too short is detected: the size hypothesis is needed. -/
example : Ntt.ntt_ct_rev2std #[1, 2, 3, 4] 4 #[1, 1, 1] = .error .oob := by decide +kernel

example : TablesSized (2 ^ 2) ⟨4, 1, 1, 1, 1, 1, #[1, 2, 3, 4], #[], #[], #[1, 2, 3, 4],
    #[1, 2, 3, 4], #[7, 7, 7, 7], #[1, 2, 3, 4], #[1, 2, 3, 4], #[], #[0, 0, 0, 0], #[],
    #[9, 9, 9, 9]⟩ := ⟨rfl, rfl, rfl, rfl, rfl, rfl, rfl, rfl⟩

end Props
