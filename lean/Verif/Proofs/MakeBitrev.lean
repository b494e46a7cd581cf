import Verif.Proofs.TablesArith
import Verif.Proofs.Shuffle
import Verif.Model.BitrevTables

/-
Proofs about src/make_bitrev_table.c and the checked-in bit-reversal tables.
-/

namespace Tables
open C Spec NTT

/-- Number of `i' < i` with `i' < rev i'`. -/
def cnt (k : Nat) : Nat → Nat
  | 0 => 0
  | i + 1 => cnt k i + if i < rev k i then 1 else 0

theorem cnt_le (k i : Nat) : cnt k i ≤ i := by
  induction i with
  | zero => simp [cnt]
  | succ i ih => unfold cnt; split <;> omega

theorem wp_npairs {E : Err → Prop} {k : Nat} (hk : k ≤ 31) :
    Wp E (rev_table_npairs (2 ^ k) k) (fun c => c = cnt k (2 ^ k)) := by
  have h31 := pow31 hk
  unfold rev_table_npairs
  refine wp_forUp1 (fun i c => c = cnt k i) (by omega) (Nat.zero_le _) rfl ?_ (fun _ h => h)
  rintro i c _ hi rfl
  rw [wp_bind, reverse_eq (show k ≤ 32 by omega), wp_ok, wp_pure]
  have := cnt_le k i
  show u32 _ = cnt k i + _
  unfold u32
  split <;> omega

theorem wp_print_bitrev {E : Err → Prop} {k : Nat} (hk : k ≤ 31) :
    Wp E (print_bitrev_table (2 ^ k) k)
      (fun t => t.size = cnt k (2 ^ k) ∧ PairTable k (cnt k (2 ^ k)) t) := by
  have h31 := pow31 hk
  unfold print_bitrev_table
  refine wp_forUp1 (fun i (t : Array (Nat × Nat)) => t.size = cnt k i ∧
    (∀ z, z < t.size → ∃ i', i' < i ∧ i' < rev k i' ∧ t[z]? = some (i', rev k i')) ∧
    (∀ z z', z < t.size → z' < t.size → t[z]? = t[z']? → z = z') ∧
    (∀ i', i' < i → i' < rev k i' → ∃ z, z < t.size ∧ t[z]? = some (i', rev k i')))
    (by omega) (Nat.zero_le _) ?_ ?_ ?_
  · refine ⟨rfl, fun z h => absurd h (by simp), fun z z' h => absurd h (by simp), fun i' h => by omega⟩
  · rintro i t _ hi ⟨h1, h2, h3, h4⟩
    rw [wp_bind, reverse_eq (show k ≤ 32 by omega), wp_ok]
    split
    · next hlt =>
      rw [wp_pure]
      refine ⟨?_, ?_, ?_, ?_⟩
      · rw [Array.size_push, h1]; show _ = cnt k i + _; rw [if_pos hlt]
      · intro z hz
        rw [Array.size_push] at hz
        rw [Array.getElem?_push]
        split
        · next h => exact ⟨i, by omega, hlt, rfl⟩
        · next h =>
          obtain ⟨i', g1, g2, g3⟩ := h2 z (by omega)
          exact ⟨i', by omega, g2, g3⟩
      · intro z z' hz hz' he
        rw [Array.size_push] at hz hz'
        rw [Array.getElem?_push, Array.getElem?_push] at he
        split at he
        · next h =>
          split at he
          · next h' => omega
          · next h' =>
            obtain ⟨i', g1, g2, g3⟩ := h2 z' (by omega)
            rw [g3] at he
            injection he with he; injection he with he _
            omega
        · next h =>
          split at he
          · next h' =>
            obtain ⟨i', g1, g2, g3⟩ := h2 z (by omega)
            rw [g3] at he
            injection he with he; injection he with he _
            omega
          · next h' => exact h3 z z' (by omega) (by omega) he
      · intro i' hi' hr
        rw [Array.size_push]
        rcases Nat.lt_or_ge i' i with h | h
        · obtain ⟨z, g1, g2⟩ := h4 i' h hr
          exact ⟨z, by omega, by rw [Array.getElem?_push, if_neg (by omega), g2]⟩
        · have : i' = i := by omega
          subst this
          exact ⟨t.size, by omega, by rw [Array.getElem?_push, if_pos rfl]⟩
    · next hge =>
      rw [wp_pure]
      refine ⟨?_, ?_, h3, ?_⟩
      · rw [h1]; show _ = cnt k i + _; rw [if_neg hge]; rfl
      · intro z hz
        obtain ⟨i', g1, g2⟩ := h2 z hz
        exact ⟨i', by omega, g2⟩
      · intro i' hi' hr
        rcases Nat.lt_or_ge i' i with h | h
        · exact h4 i' h hr
        · have : i' = i := by omega
          subst this; omega
  · rintro t ⟨h1, h2, h3, h4⟩
    refine ⟨h1, by omega, ?_, ?_, ?_⟩
    · intro z hz
      obtain ⟨i, g1, g2, g3⟩ := h2 z (by omega)
      exact ⟨i, g2, g1, g3⟩
    · intro z z' hz hz'
      exact h3 z z' (by omega) (by omega)
    · intro i hi hr
      obtain ⟨z, g1, g2⟩ := h4 i hi hr
      exact ⟨z, by omega, g2⟩

theorem run_make_bitrev {k : Nat} (hk1 : 1 ≤ k) (hk : k ≤ 15) :
    ∃ m t, make_bitrev_table (2 ^ k) = .ok (m, t) ∧ t.size = m ∧ PairTable k m t := by
  have hlo : 2 ^ 1 ≤ 2 ^ k := Nat.pow_le_pow_right (by omega) hk1
  have hhi : 2 ^ k ≤ 2 ^ 15 := Nat.pow_le_pow_right (by omega) hk
  norm_num at hlo hhi
  have e : ((2 : Int) ^ k) = ((2 ^ k : Nat) : Int) := by push_cast; rfl
  unfold make_bitrev_table
  rw [e, if_neg (by omega), if_neg (by omega)]
  simp only [Int.toNat_natCast, logtwo_pow (show k ≤ 31 by omega)]
  obtain ⟨m, h1, h2⟩ := wp_total.1 (wp_npairs (E := NoErr) (show k ≤ 31 by omega))
  obtain ⟨t, h3, h4, h5⟩ := wp_total.1 (wp_print_bitrev (E := NoErr) (show k ≤ 31 by omega))
  refine ⟨m, t, ?_, by omega, by rw [h2]; exact h5⟩
  show (rev_table_npairs (2 ^ k) k >>= fun m => print_bitrev_table (2 ^ k) k >>= fun t => pure (m, t)) = _
  rw [h1, h3]; rfl

theorem make_bitrev_abort {xn : Int} (h : ∀ k : Nat, xn = 2 ^ k → k = 0 ∨ 15 < k) :
    make_bitrev_table xn = .error .abort := by
  unfold make_bitrev_table
  split
  · rfl
  · split
    · rfl
    · next h1 h2 =>
      obtain ⟨n, rfl⟩ := Int.eq_ofNat_of_zero_le (show 0 ≤ xn by omega)
      simp only [Int.toNat_natCast]
      rw [logtwo_none (by omega) (by omega)]
      · rfl
      · rintro k rfl
        rcases h k (by push_cast; rfl) with h3 | h3
        · subst h3; simp at h1
        · have : 2 ^ 16 ≤ 2 ^ k := Nat.pow_le_pow_right (by omega) h3
          norm_num at this
          omega

/-- The checked-in tables are exactly the output of the generator. -/
theorem gen16 : make_bitrev_table 16 = .ok (BITREV16_NPAIRS, bitrev16) := by decide +kernel
theorem gen32 : make_bitrev_table 32 = .ok (BITREV32_NPAIRS, ntt32_bitrev) := by decide +kernel
theorem gen256 : make_bitrev_table 256 = .ok (BITREV256_NPAIRS, bitrev256) := by decide +kernel
theorem gen512 : make_bitrev_table 512 = .ok (BITREV512_NPAIRS, bitrev512) := by decide +kernel
theorem gen1024 : make_bitrev_table 1024 = .ok (BITREV1024_NPAIRS, bitrev1024) := by decide +kernel

theorem pairTable_of_gen {k m : Nat} {t : Array (Nat × Nat)} (hk1 : 1 ≤ k) (hk : k ≤ 15)
    (h : make_bitrev_table (2 ^ k) = .ok (m, t)) : PairTable k m t := by
  obtain ⟨m', t', h1, _, h2⟩ := run_make_bitrev hk1 hk
  rw [h] at h1
  injection h1 with h1
  injection h1 with h1 h3
  rw [h1, h3]; exact h2

end Tables
