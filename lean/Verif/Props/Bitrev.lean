import Verif.Proofs.Shuffle
import Verif.Proofs.MakeBitrev
import Verif.Math.Rev

/-
C02, C03: bit-reversal shuffles.

`Spec.rev k i` reverses the `k` low-order bits of `i`: `Spec.testBit_rev` states it bit by bit.
-/

namespace Props
open C Spec Ntt Tables

/-- The specification of bit reversal, bit by bit. -/
theorem C02_rev_spec (k i b : Nat) (hb : b < k) :
    rev k i < 2 ^ k ∧ (rev k i).testBit b = i.testBit (k - 1 - b) :=
  ⟨rev_lt k i, testBit_rev k i b hb⟩

/-- `bitrev_shuffle(a, 2^k)` moves to position `i` the element at the bit-reversed index. -/
theorem C02_bitrev_shuffle {α : Type} (k : Nat) (hk : k ≤ 31) (a : Array α)
    (ha : a.size = 2 ^ k) :
    ∃ a', bitrev_shuffle a (2 ^ k) = .ok a' ∧ a'.size = 2 ^ k ∧
      ∀ i, i < 2 ^ k → a'[i]? = a[rev k i]? :=
  wp_total.1 (wp_bitrev_shuffle hk a ha)

/-- Applying it twice restores the array. -/
theorem C02_involution {α : Type} (k : Nat) (hk : k ≤ 31) (a : Array α) (ha : a.size = 2 ^ k) :
    (do let b ← bitrev_shuffle a (2 ^ k); bitrev_shuffle b (2 ^ k)) = .ok a := by
  obtain ⟨b, eb, sb, vb⟩ := C02_bitrev_shuffle k hk a ha
  obtain ⟨c, ec, sc, vc⟩ := C02_bitrev_shuffle k hk b sb
  rw [eb]
  show bitrev_shuffle b (2 ^ k) = _
  rw [ec]
  congr 1
  apply Array.ext_getElem?
  intro i
  by_cases hi : i < 2 ^ k
  · rw [vc i hi, vb _ (rev_lt k i), rev_rev k i hi]
  · rw [Array.getElem?_eq_none (by omega), Array.getElem?_eq_none (by omega)]

example : bitrev_shuffle #[0, 1, 2, 3, 4, 5, 6, 7] 8 = .ok #[0, 4, 2, 6, 1, 5, 3, 7] := by decide

/-- For every accepted size, `make_bitrev_table` prints a table whose entries fit `uint16_t`, and
`shuffle_with_table` with it does the same as `bitrev_shuffle`. -/
theorem C03_table_shuffle {α : Type} (k : Nat) (h1 : 1 ≤ k) (h2 : k ≤ 15) (a : Array α)
    (ha : a.size = 2 ^ k) :
    ∃ m t, make_bitrev_table (2 ^ k) = .ok (m, t) ∧ t.size = m ∧
      (∀ z : Nat × Nat, z ∈ t → z.1 < 2 ^ k ∧ z.2 < 2 ^ k ∧ z.1 < 65536 ∧ z.2 < 65536) ∧
      shuffle_with_table a t m = bitrev_shuffle a (2 ^ k) := by
  obtain ⟨m, t, e, s, hp⟩ := run_make_bitrev h1 h2
  have hk16 : 2 ^ k ≤ 2 ^ 15 := Nat.pow_le_pow_right (by omega) h2
  refine ⟨m, t, e, s, ?_, ?_⟩
  · intro z hz
    obtain ⟨i, hi, rfl⟩ := Array.mem_iff_getElem.1 hz
    obtain ⟨j, hj1, hj2, hj3⟩ := hp.2.1 i (by omega)
    rw [Array.getElem?_eq_getElem hi] at hj3
    have : t[i] = (j, rev k j) := by simpa using hj3
    rw [this]
    have := rev_lt k j
    refine ⟨hj2, this, ?_, ?_⟩ <;> simp only <;> omega
  · have hm : m < 4294967296 := by
      -- distinct entries below 2^k: at most 2^k pairs
      by_contra hc
      have hinj : Function.Injective (fun z : Fin m =>
          (⟨(t[z.1]'(by omega)).1, by
            obtain ⟨j, _, hj2, hj3⟩ := hp.2.1 z.1 z.2
            rw [Array.getElem?_eq_getElem (by omega)] at hj3
            have : t[z.1] = (j, rev k j) := by simpa using hj3
            rw [this]; exact hj2⟩ : Fin (2 ^ k))) := by
        intro z z' hzz
        have hzz : (t[z.1]'(by omega)).1 = (t[z'.1]'(by omega)).1 := by simpa using hzz
        obtain ⟨j, _, _, hj⟩ := hp.2.1 z.1 z.2
        obtain ⟨j', _, _, hj'⟩ := hp.2.1 z'.1 z'.2
        have e1 := hj; have e2 := hj'
        rw [Array.getElem?_eq_getElem (by omega)] at e1 e2
        have e1 : t[z.1] = (j, rev k j) := by simpa using e1
        have e2 : t[z'.1] = (j', rev k j') := by simpa using e2
        rw [e1, e2] at hzz
        simp only at hzz
        subst hzz
        exact Fin.ext (hp.2.2.1 z.1 z'.1 z.2 z'.2 (by rw [hj, hj']))
      have := Fintype.card_le_of_injective _ hinj
      simp at this
      omega
    obtain ⟨b, eb, sb, vb⟩ := wp_total.1 (wp_shuffle_with_table (E := NoErr) hm a t ha hp)
    obtain ⟨c, ec, sc, vc⟩ := C02_bitrev_shuffle k (by omega) a ha
    rw [eb, ec]
    congr 1
    apply Array.ext_getElem?
    intro i
    by_cases hi : i < 2 ^ k
    · rw [vb i hi, vc i hi]
    · rw [Array.getElem?_eq_none (by omega), Array.getElem?_eq_none (by omega)]

/-- Other sizes are rejected. -/
theorem C03_rejects (x : Int) (h : ∀ k, 1 ≤ k → k ≤ 15 → x ≠ 2 ^ k) :
    make_bitrev_table x = .error .abort :=
  make_bitrev_abort fun k hk => by
    by_contra hc
    exact h k (by omega) (by omega) hk

/-- The tables checked in the repository (src/bitrev*_table.c, src/ntt32_tables.c) are the ones
the generator prints, so the shuffles with them are bit reversals. -/
theorem C03_checked_in {α : Type} (a : Array α) :
    (a.size = 16 → shuffle_with_table a bitrev16 BITREV16_NPAIRS = bitrev_shuffle a 16) ∧
    (a.size = 32 → shuffle_with_table a ntt32_bitrev BITREV32_NPAIRS = bitrev_shuffle a 32) ∧
    (a.size = 256 → shuffle_with_table a bitrev256 BITREV256_NPAIRS = bitrev_shuffle a 256) ∧
    (a.size = 512 → shuffle_with_table a bitrev512 BITREV512_NPAIRS = bitrev_shuffle a 512) ∧
    (a.size = 1024 → shuffle_with_table a bitrev1024 BITREV1024_NPAIRS = bitrev_shuffle a 1024) := by
  refine ⟨?_, ?_, ?_, ?_, ?_⟩
  · intro ha
    obtain ⟨m, t, e, _, _, h⟩ := C03_table_shuffle 4 (by decide) (by decide) a ha
    have := gen16.symm.trans e
    simp only [Except.ok.injEq, Prod.mk.injEq] at this
    rw [this.1, this.2]; exact h
  · intro ha
    obtain ⟨m, t, e, _, _, h⟩ := C03_table_shuffle 5 (by decide) (by decide) a ha
    have := gen32.symm.trans e
    simp only [Except.ok.injEq, Prod.mk.injEq] at this
    rw [this.1, this.2]; exact h
  · intro ha
    obtain ⟨m, t, e, _, _, h⟩ := C03_table_shuffle 8 (by decide) (by decide) a ha
    have := gen256.symm.trans e
    simp only [Except.ok.injEq, Prod.mk.injEq] at this
    rw [this.1, this.2]; exact h
  · intro ha
    obtain ⟨m, t, e, _, _, h⟩ := C03_table_shuffle 9 (by decide) (by decide) a ha
    have := gen512.symm.trans e
    simp only [Except.ok.injEq, Prod.mk.injEq] at this
    rw [this.1, this.2]; exact h
  · intro ha
    obtain ⟨m, t, e, _, _, h⟩ := C03_table_shuffle 10 (by decide) (by decide) a ha
    have := gen1024.symm.trans e
    simp only [Except.ok.injEq, Prod.mk.injEq] at this
    rw [this.1, this.2]; exact h

end Props
