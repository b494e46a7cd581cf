import Verif.Proofs.Buffer
import Verif.Proofs.TestTableChecks
import Verif.SpecTestTables

/-
C60: the tables checked in for the test programs are right (SpecTestTables.lean, Spec.lean).
-/

namespace Props
open C Spec Tables TestTables

private theorem entries {lo hi : Int} {k x : Nat} {p : Array Int} (h : Packed lo hi (2 ^ k) x p) :
    p.size = 2 ^ k ∧ InRange lo hi p := ⟨h.size, fun i hi => h.range i (h.size ▸ hi)⟩

private theorem all4 {P : Array Int → Prop} {a b c d : Array Int} (ha : P a) (hb : P b) (hc : P c) (hd : P d) :
    ∀ p ∈ [a, b, c, d], P p := by
  intro p hp
  simp only [List.mem_cons, List.not_mem_nil, or_false] at hp
  rcases hp with rfl | rfl | rfl | rfl <;> assumption

private theorem primRoot_of_neg_one {k : Nat} {x : Zq} (h : x ^ 2 ^ k = -1) : PrimRoot (2 * 2 ^ k) x := by
  unfold PrimRoot
  rw [← pow_succ']
  refine orderOf_eq_prime_pow (by rw [h]; decide +kernel) ?_
  rw [pow_succ, pow_mul, h]; decide +kernel

/-- The parameters: `ψ` is a primitive `2n`-th root of unity. -/
theorem C60_parameters : ∀ z ∈ testParams, PrimRoot (2 * 2 ^ z.1) (z.2 : Zq) := by
  intro z hz
  simp only [testParams, List.mem_cons, List.not_mem_nil, or_false] at hz
  rcases hz with rfl | rfl | rfl | rfl | rfl | rfl <;> exact primRoot_of_neg_one (by decide +kernel)

example : testParams.length = 6 := rfl

private theorem sq16 : ((6553 : Zq)) = 1212 ^ 2 := by decide +kernel
private theorem sq128 : ((12208 : Zq)) = 1022 ^ 2 := by decide +kernel
private theorem sq256 : ((8595 : Zq)) = 1002 ^ 2 := by decide +kernel
private theorem sq512 : ((10600 : Zq)) = 1003 ^ 2 := by decide +kernel
private theorem sq1024 : ((8209 : Zq)) = 1014 ^ 2 := by decide +kernel
private theorem sq2048 : ((12269 : Zq)) = 1016 ^ 2 := by decide +kernel

/-- src/test_ntt_tables.c: for each of its four sizes the powers of `ψ` and the twiddle factors, with entries in `[0, Q-1]`. -/
theorem C60_test_ntt_tables :
    PowTable 1 1 1212 0 12288 16 psi_powers_ntt16_12289 ∧
    TwiddlesOK 1 1212 0 12288 4 shoup_ntt16_12289
      rev_shoup_ntt16_12289
      shoup_scaled_ntt16_12289
      rev_shoup_scaled_ntt16_12289 ∧
    PowTable 1 1 1002 0 12288 256 psi_powers_ntt256_12289 ∧
    TwiddlesOK 1 1002 0 12288 8 shoup_ntt256_12289
      rev_shoup_ntt256_12289
      shoup_scaled_ntt256_12289
      rev_shoup_scaled_ntt256_12289 ∧
    PowTable 1 1 1003 0 12288 512 psi_powers_ntt512_12289 ∧
    TwiddlesOK 1 1003 0 12288 9 shoup_ntt512_12289
      rev_shoup_ntt512_12289
      shoup_scaled_ntt512_12289
      rev_shoup_scaled_ntt512_12289 ∧
    PowTable 1 1 1014 0 12288 1024 psi_powers_ntt1024_12289 ∧
    TwiddlesOK 1 1014 0 12288 10 shoup_ntt1024_12289
      rev_shoup_ntt1024_12289
      shoup_scaled_ntt1024_12289
      rev_shoup_scaled_ntt1024_12289 :=
  ⟨psi_powers_ntt16_12289_ok,
  ⟨sq16 ▸ shoup_ntt16_12289_ok, sq16 ▸ rev_shoup_ntt16_12289_ok, sq16 ▸ shoup_scaled_ntt16_12289_ok, sq16 ▸ rev_shoup_scaled_ntt16_12289_ok,
    all4 (entries shoup_ntt16_12289_packed) (entries rev_shoup_ntt16_12289_packed) (entries shoup_scaled_ntt16_12289_packed)
      (entries rev_shoup_scaled_ntt16_12289_packed)⟩,
  psi_powers_ntt256_12289_ok,
  ⟨sq256 ▸ shoup_ntt256_12289_ok, sq256 ▸ rev_shoup_ntt256_12289_ok, sq256 ▸ shoup_scaled_ntt256_12289_ok, sq256 ▸ rev_shoup_scaled_ntt256_12289_ok,
    all4 (entries shoup_ntt256_12289_packed) (entries rev_shoup_ntt256_12289_packed) (entries shoup_scaled_ntt256_12289_packed)
      (entries rev_shoup_scaled_ntt256_12289_packed)⟩,
  psi_powers_ntt512_12289_ok,
  ⟨sq512 ▸ shoup_ntt512_12289_ok, sq512 ▸ rev_shoup_ntt512_12289_ok, sq512 ▸ shoup_scaled_ntt512_12289_ok, sq512 ▸ rev_shoup_scaled_ntt512_12289_ok,
    all4 (entries shoup_ntt512_12289_packed) (entries rev_shoup_ntt512_12289_packed) (entries shoup_scaled_ntt512_12289_packed)
      (entries rev_shoup_scaled_ntt512_12289_packed)⟩,
  psi_powers_ntt1024_12289_ok,
  ⟨sq1024 ▸ shoup_ntt1024_12289_ok, sq1024 ▸ rev_shoup_ntt1024_12289_ok, sq1024 ▸ shoup_scaled_ntt1024_12289_ok, sq1024 ▸ rev_shoup_scaled_ntt1024_12289_ok,
    all4 (entries shoup_ntt1024_12289_packed) (entries rev_shoup_ntt1024_12289_packed) (entries shoup_scaled_ntt1024_12289_packed)
      (entries rev_shoup_scaled_ntt1024_12289_packed)⟩⟩

/-- src/test_ntt_red_tables.c, the tables `red`: for each of the six sizes the twiddle factors divided by 3, between 0 and Q-1. -/
theorem C60_test_ntt_red_tables :
    TwiddlesOK 3 1212 0 12288 4 shoup_red_ntt16_12289
      rev_shoup_red_ntt16_12289
      shoup_red_scaled_ntt16_12289
      rev_shoup_red_scaled_ntt16_12289 ∧
    TwiddlesOK 3 1022 0 12288 7 shoup_red_ntt128_12289
      rev_shoup_red_ntt128_12289
      shoup_red_scaled_ntt128_12289
      rev_shoup_red_scaled_ntt128_12289 ∧
    TwiddlesOK 3 1002 0 12288 8 shoup_red_ntt256_12289
      rev_shoup_red_ntt256_12289
      shoup_red_scaled_ntt256_12289
      rev_shoup_red_scaled_ntt256_12289 ∧
    TwiddlesOK 3 1003 0 12288 9 shoup_red_ntt512_12289
      rev_shoup_red_ntt512_12289
      shoup_red_scaled_ntt512_12289
      rev_shoup_red_scaled_ntt512_12289 ∧
    TwiddlesOK 3 1014 0 12288 10 shoup_red_ntt1024_12289
      rev_shoup_red_ntt1024_12289
      shoup_red_scaled_ntt1024_12289
      rev_shoup_red_scaled_ntt1024_12289 ∧
    TwiddlesOK 3 1016 0 12288 11 shoup_red_ntt2048_12289
      rev_shoup_red_ntt2048_12289
      shoup_red_scaled_ntt2048_12289
      rev_shoup_red_scaled_ntt2048_12289 :=
  ⟨⟨sq16 ▸ shoup_red_ntt16_12289_ok, sq16 ▸ rev_shoup_red_ntt16_12289_ok, sq16 ▸ shoup_red_scaled_ntt16_12289_ok, sq16 ▸ rev_shoup_red_scaled_ntt16_12289_ok,
    all4 (entries shoup_red_ntt16_12289_packed) (entries rev_shoup_red_ntt16_12289_packed) (entries shoup_red_scaled_ntt16_12289_packed)
      (entries rev_shoup_red_scaled_ntt16_12289_packed)⟩,
  ⟨sq128 ▸ shoup_red_ntt128_12289_ok, sq128 ▸ rev_shoup_red_ntt128_12289_ok, sq128 ▸ shoup_red_scaled_ntt128_12289_ok, sq128 ▸ rev_shoup_red_scaled_ntt128_12289_ok,
    all4 (entries shoup_red_ntt128_12289_packed) (entries rev_shoup_red_ntt128_12289_packed) (entries shoup_red_scaled_ntt128_12289_packed)
      (entries rev_shoup_red_scaled_ntt128_12289_packed)⟩,
  ⟨sq256 ▸ shoup_red_ntt256_12289_ok, sq256 ▸ rev_shoup_red_ntt256_12289_ok, sq256 ▸ shoup_red_scaled_ntt256_12289_ok, sq256 ▸ rev_shoup_red_scaled_ntt256_12289_ok,
    all4 (entries shoup_red_ntt256_12289_packed) (entries rev_shoup_red_ntt256_12289_packed) (entries shoup_red_scaled_ntt256_12289_packed)
      (entries rev_shoup_red_scaled_ntt256_12289_packed)⟩,
  ⟨sq512 ▸ shoup_red_ntt512_12289_ok, sq512 ▸ rev_shoup_red_ntt512_12289_ok, sq512 ▸ shoup_red_scaled_ntt512_12289_ok, sq512 ▸ rev_shoup_red_scaled_ntt512_12289_ok,
    all4 (entries shoup_red_ntt512_12289_packed) (entries rev_shoup_red_ntt512_12289_packed) (entries shoup_red_scaled_ntt512_12289_packed)
      (entries rev_shoup_red_scaled_ntt512_12289_packed)⟩,
  ⟨sq1024 ▸ shoup_red_ntt1024_12289_ok, sq1024 ▸ rev_shoup_red_ntt1024_12289_ok, sq1024 ▸ shoup_red_scaled_ntt1024_12289_ok, sq1024 ▸ rev_shoup_red_scaled_ntt1024_12289_ok,
    all4 (entries shoup_red_ntt1024_12289_packed) (entries rev_shoup_red_ntt1024_12289_packed) (entries shoup_red_scaled_ntt1024_12289_packed)
      (entries rev_shoup_red_scaled_ntt1024_12289_packed)⟩,
  ⟨sq2048 ▸ shoup_red_ntt2048_12289_ok, sq2048 ▸ rev_shoup_red_ntt2048_12289_ok, sq2048 ▸ shoup_red_scaled_ntt2048_12289_ok, sq2048 ▸ rev_shoup_red_scaled_ntt2048_12289_ok,
    all4 (entries shoup_red_ntt2048_12289_packed) (entries rev_shoup_red_ntt2048_12289_packed) (entries shoup_red_scaled_ntt2048_12289_packed)
      (entries rev_shoup_red_scaled_ntt2048_12289_packed)⟩⟩

/-- src/test_ntt_red_tables.c, the tables `sred`: for each of the six sizes the twiddle factors divided by 3, between -(Q-1)/2 and (Q-1)/2. -/
theorem C60_test_ntt_sred_tables :
    TwiddlesOK 3 1212 (-6144) 6144 4 shoup_sred_ntt16_12289
      rev_shoup_sred_ntt16_12289
      shoup_sred_scaled_ntt16_12289
      rev_shoup_sred_scaled_ntt16_12289 ∧
    TwiddlesOK 3 1022 (-6144) 6144 7 shoup_sred_ntt128_12289
      rev_shoup_sred_ntt128_12289
      shoup_sred_scaled_ntt128_12289
      rev_shoup_sred_scaled_ntt128_12289 ∧
    TwiddlesOK 3 1002 (-6144) 6144 8 shoup_sred_ntt256_12289
      rev_shoup_sred_ntt256_12289
      shoup_sred_scaled_ntt256_12289
      rev_shoup_sred_scaled_ntt256_12289 ∧
    TwiddlesOK 3 1003 (-6144) 6144 9 shoup_sred_ntt512_12289
      rev_shoup_sred_ntt512_12289
      shoup_sred_scaled_ntt512_12289
      rev_shoup_sred_scaled_ntt512_12289 ∧
    TwiddlesOK 3 1014 (-6144) 6144 10 shoup_sred_ntt1024_12289
      rev_shoup_sred_ntt1024_12289
      shoup_sred_scaled_ntt1024_12289
      rev_shoup_sred_scaled_ntt1024_12289 ∧
    TwiddlesOK 3 1016 (-6144) 6144 11 shoup_sred_ntt2048_12289
      rev_shoup_sred_ntt2048_12289
      shoup_sred_scaled_ntt2048_12289
      rev_shoup_sred_scaled_ntt2048_12289 :=
  ⟨⟨sq16 ▸ shoup_sred_ntt16_12289_ok, sq16 ▸ rev_shoup_sred_ntt16_12289_ok, sq16 ▸ shoup_sred_scaled_ntt16_12289_ok, sq16 ▸ rev_shoup_sred_scaled_ntt16_12289_ok,
    all4 (entries shoup_sred_ntt16_12289_packed) (entries rev_shoup_sred_ntt16_12289_packed) (entries shoup_sred_scaled_ntt16_12289_packed)
      (entries rev_shoup_sred_scaled_ntt16_12289_packed)⟩,
  ⟨sq128 ▸ shoup_sred_ntt128_12289_ok, sq128 ▸ rev_shoup_sred_ntt128_12289_ok, sq128 ▸ shoup_sred_scaled_ntt128_12289_ok, sq128 ▸ rev_shoup_sred_scaled_ntt128_12289_ok,
    all4 (entries shoup_sred_ntt128_12289_packed) (entries rev_shoup_sred_ntt128_12289_packed) (entries shoup_sred_scaled_ntt128_12289_packed)
      (entries rev_shoup_sred_scaled_ntt128_12289_packed)⟩,
  ⟨sq256 ▸ shoup_sred_ntt256_12289_ok, sq256 ▸ rev_shoup_sred_ntt256_12289_ok, sq256 ▸ shoup_sred_scaled_ntt256_12289_ok, sq256 ▸ rev_shoup_sred_scaled_ntt256_12289_ok,
    all4 (entries shoup_sred_ntt256_12289_packed) (entries rev_shoup_sred_ntt256_12289_packed) (entries shoup_sred_scaled_ntt256_12289_packed)
      (entries rev_shoup_sred_scaled_ntt256_12289_packed)⟩,
  ⟨sq512 ▸ shoup_sred_ntt512_12289_ok, sq512 ▸ rev_shoup_sred_ntt512_12289_ok, sq512 ▸ shoup_sred_scaled_ntt512_12289_ok, sq512 ▸ rev_shoup_sred_scaled_ntt512_12289_ok,
    all4 (entries shoup_sred_ntt512_12289_packed) (entries rev_shoup_sred_ntt512_12289_packed) (entries shoup_sred_scaled_ntt512_12289_packed)
      (entries rev_shoup_sred_scaled_ntt512_12289_packed)⟩,
  ⟨sq1024 ▸ shoup_sred_ntt1024_12289_ok, sq1024 ▸ rev_shoup_sred_ntt1024_12289_ok, sq1024 ▸ shoup_sred_scaled_ntt1024_12289_ok, sq1024 ▸ rev_shoup_sred_scaled_ntt1024_12289_ok,
    all4 (entries shoup_sred_ntt1024_12289_packed) (entries rev_shoup_sred_ntt1024_12289_packed) (entries shoup_sred_scaled_ntt1024_12289_packed)
      (entries rev_shoup_sred_scaled_ntt1024_12289_packed)⟩,
  ⟨sq2048 ▸ shoup_sred_ntt2048_12289_ok, sq2048 ▸ rev_shoup_sred_ntt2048_12289_ok, sq2048 ▸ shoup_sred_scaled_ntt2048_12289_ok, sq2048 ▸ rev_shoup_sred_scaled_ntt2048_12289_ok,
    all4 (entries shoup_sred_ntt2048_12289_packed) (entries rev_shoup_sred_ntt2048_12289_packed) (entries shoup_sred_scaled_ntt2048_12289_packed)
      (entries rev_shoup_sred_scaled_ntt2048_12289_packed)⟩⟩

/-- src/test_bitrev_tables.c. -/
theorem C60_test_bitrev_tables :
    PairTable 7 TestTables.BITREV128_NPAIRS bitrev128_pair ∧
    PairTable 8 TestTables.BITREV256_NPAIRS bitrev256_pair ∧
    PairTable 9 TestTables.BITREV512_NPAIRS bitrev512_pair ∧
    PairTable 10 TestTables.BITREV1024_NPAIRS bitrev1024_pair ∧
    PairTable 11 TestTables.BITREV2048_NPAIRS bitrev2048_pair :=
  ⟨bitrev128_pair_ok, bitrev256_pair_ok, bitrev512_pair_ok, bitrev1024_pair_ok, bitrev2048_pair_ok⟩

private def agrees32 (t : Nttables) : Bool :=
  t.psi_powers.toList == ntt32_psi_powers.toList &&
  t.inv_psi_powers.toList == ntt32_inv_psi_powers.toList &&
  t.scaled_inv_psi_powers.toList == ntt32_scaled_inv_psi_powers.toList &&
  t.omega_powers.toList == ntt32_omega_powers.toList &&
  t.omega_powers_rev.toList == ntt32_omega_powers_rev.toList &&
  t.inv_omega_powers.toList == ntt32_inv_omega_powers.toList &&
  t.inv_omega_powers_rev.toList == ntt32_inv_omega_powers_rev.toList &&
  t.mixed_powers.toList == ntt32_mixed_powers.toList &&
  t.mixed_powers_rev.toList == ntt32_mixed_powers_rev.toList &&
  t.inv_mixed_powers.toList == ntt32_inv_mixed_powers.toList &&
  t.inv_mixed_powers_rev.toList == ntt32_inv_mixed_powers_rev.toList

private theorem make32 : (match make_tables (fun n => Array.replicate n 0) 32 563 with
    | .ok t => agrees32 t
    | _ => false) = true := by decide +kernel

/-- src/ntt32_tables.c is what the generator writes for `n = 32` and `psi = 563`, whatever the memory it gets from
`malloc`, without `inv_psi_powers_rev`, which this version of the file does not have; so it is right (`TablesOK`). -/
theorem C60_ntt32_tables (buf : Nat → Array Nat) (hb : ∀ n, (buf n).size = n) :
    ∃ t, make_tables buf 32 563 = .ok t ∧ TablesOK 5 563 t ∧
      t.psi_powers = ntt32_psi_powers ∧
      t.inv_psi_powers = ntt32_inv_psi_powers ∧
      t.scaled_inv_psi_powers = ntt32_scaled_inv_psi_powers ∧
      t.omega_powers = ntt32_omega_powers ∧
      t.omega_powers_rev = ntt32_omega_powers_rev ∧
      t.inv_omega_powers = ntt32_inv_omega_powers ∧
      t.inv_omega_powers_rev = ntt32_inv_omega_powers_rev ∧
      t.mixed_powers = ntt32_mixed_powers ∧
      t.mixed_powers_rev = ntt32_mixed_powers_rev ∧
      t.inv_mixed_powers = ntt32_inv_mixed_powers ∧
      t.inv_mixed_powers_rev = ntt32_inv_mixed_powers_rev := by
  have hg : GoodParams 5 32 563 := ⟨by norm_num, by norm_num, by norm_num, by norm_num, by norm_num, by decide +kernel⟩
  obtain ⟨t, e, ok⟩ := wp_total.1 (wp_make_tables (E := NoErr) hg hb)
  have h0 : ∀ n, (Array.replicate n (0 : Nat)).size = n := fun n => Array.size_replicate ..
  have h := make32
  rw [← make_tables_buf hb h0, e] at h
  have h' : agrees32 t = true := h
  simp only [agrees32, Bool.and_eq_true, beq_iff_eq] at h'
  obtain ⟨⟨⟨⟨⟨⟨⟨⟨⟨⟨h1, h2⟩, h3⟩, h4⟩, h5⟩, h6⟩, h7⟩, h8⟩, h9⟩, h10⟩, h11⟩ := h'
  exact ⟨t, e, by exact_mod_cast ok, Array.toList_inj.1 h1, Array.toList_inj.1 h2, Array.toList_inj.1 h3, Array.toList_inj.1 h4,
    Array.toList_inj.1 h5, Array.toList_inj.1 h6, Array.toList_inj.1 h7, Array.toList_inj.1 h8, Array.toList_inj.1 h9,
    Array.toList_inj.1 h10, Array.toList_inj.1 h11⟩

example : ∃ buf : Nat → Array Nat, ∀ n, (buf n).size = n := ⟨fun n => Array.replicate n 7, fun n => Array.size_replicate ..⟩

end Props
