import Verif.Proofs.Roots
import Verif.Props.Tables

/-
C71: the files of /repo/data list exactly the primitive roots of unity they announce, and these are exactly the parameters
psi that the table generators accept for n = 512, 1024 and 2048.
-/

namespace Props
open C Spec Tables Roots

/-- Each file is in increasing order, without repetitions, and lists all primitive `n`-th roots of unity in `Z_q` and
nothing else. -/
theorem C71_files : ∀ z ∈ [(1024, roots1024), (2048, roots2048), (4096, roots4096)],
    z.2.Pairwise (· < ·) ∧ ∀ x : Nat, x ∈ z.2 ↔ x < 12289 ∧ PrimRoot z.1 (x : Zq) := by
  have key : ∀ (k : Nat) (L : List Nat), chk k 12289 0 L = true →
      L.Pairwise (· < ·) ∧ ∀ x : Nat, x ∈ L ↔ x < 12289 ∧ PrimRoot (2 ^ (k + 1)) (x : Zq) := by
    intro k L h
    refine ⟨(chk_mem h).1, fun x => ?_⟩
    rw [(chk_mem h).2, primRoot_iff, sq_iff]
    constructor
    · exact fun h => ⟨by omega, h.2.2⟩
    · exact fun h => ⟨by omega, by omega, h.2⟩
  intro z hz
  simp only [List.mem_cons, List.not_mem_nil, or_false] at hz
  rcases hz with rfl | rfl | rfl
  · exact key 9 _ chk1024
  · exact key 10 _ chk2048
  · exact key 11 _ chk4096

private theorem good_iff (k : Nat) (L : List Nat) (hk : 1 ≤ k) (hk' : k ≤ 11) (h : chk k 12289 0 L = true) (xpsi : Int) :
    GoodParams k (2 ^ k) xpsi ↔ ∃ x ∈ L, xpsi = (x : Int) := by
  constructor
  · rintro ⟨-, -, -, h1, h2, h3⟩
    refine ⟨xpsi.toNat, ((chk_mem h).2 _).2 ⟨by omega, by omega, sq_iff.2 ?_⟩, by omega⟩
    rw [← h3]
    congr 1
    rw [← Int.cast_natCast, Int.toNat_of_nonneg (by omega)]
  · rintro ⟨x, hx, rfl⟩
    obtain ⟨-, h2, h3⟩ := ((chk_mem h).2 _).1 hx
    have h4 := sq_iff.1 h3
    have hx1 : 1 < x := by
      rcases Nat.lt_or_ge 1 x with h5 | h5
      · exact h5
      · exfalso
        have : x = 0 ∨ x = 1 := by omega
        rcases this with rfl | rfl
        · rw [Nat.cast_zero, zero_pow (Nat.two_pow_pos k).ne'] at h4
          exact absurd h4 (by decide)
        · rw [Nat.cast_one, one_pow] at h4
          exact absurd h4 (by decide)
    refine ⟨hk, rfl, ?_, by omega, by omega, by rw [Int.cast_natCast]; exact h4⟩
    calc (2 : Int) ^ k ≤ 2 ^ 11 := pow_le_pow_right₀ (by norm_num) hk'
      _ < 100000 := by norm_num

/-- For n = 2^9, 2^10 and 2^11 the numbers in the file for 2n are exactly the parameters with which the two generators
write tables, and the tables are right; for all other parameters they stop with an error message. -/
theorem C71_parameters (buf : Nat → Array Nat) (hb : ∀ n, (buf n).size = n) :
    ∀ z ∈ [(9, roots1024), (10, roots2048), (11, roots4096)], ∀ xpsi : Int,
      ((∃ x ∈ z.2, xpsi = (x : Int)) →
        (∃ t, make_tables buf (2 ^ z.1) xpsi = .ok t ∧ TablesOK z.1 (xpsi : Zq) t) ∧
        ∃ t, make_red_tables buf (2 ^ z.1) xpsi = .ok t ∧ RedTablesOK z.1 (xpsi : Zq) t) ∧
      ((¬ ∃ x ∈ z.2, xpsi = (x : Int)) →
        make_tables buf (2 ^ z.1) xpsi = .error .abort ∧ make_red_tables buf (2 ^ z.1) xpsi = .error .abort) := by
  have key : ∀ (k : Nat) (L : List Nat), 1 ≤ k → k ≤ 11 → chk k 12289 0 L = true → ∀ xpsi : Int,
      ((∃ x ∈ L, xpsi = (x : Int)) →
        (∃ t, make_tables buf (2 ^ k) xpsi = .ok t ∧ TablesOK k (xpsi : Zq) t) ∧
        ∃ t, make_red_tables buf (2 ^ k) xpsi = .ok t ∧ RedTablesOK k (xpsi : Zq) t) ∧
      ((¬ ∃ x ∈ L, xpsi = (x : Int)) →
        make_tables buf (2 ^ k) xpsi = .error .abort ∧ make_red_tables buf (2 ^ k) xpsi = .error .abort) := by
    intro k L hk hk' h xpsi
    rw [← good_iff k L hk hk' h xpsi]
    refine ⟨fun hg => ⟨C25_make_tables k _ xpsi hg buf hb, C26_make_red_tables k _ xpsi hg buf hb⟩, fun hn => ?_⟩
    have hn' : ∀ j, ¬ GoodParams j (2 ^ k) xpsi := by
      intro j hj
      have e : (2 : Int) ^ k = 2 ^ j := hj.2.1
      have : k = j := Int.pow_right_injective (by decide) e
      subst this
      exact hn hj
    exact ⟨C25_rejects _ xpsi hn' buf, C26_rejects _ xpsi hn' buf⟩
  intro z hz
  simp only [List.mem_cons, List.not_mem_nil, or_false] at hz
  rcases hz with rfl | rfl | rfl
  · exact key 9 _ (by omega) (by omega) chk1024
  · exact key 10 _ (by omega) (by omega) chk2048
  · exact key 11 _ (by omega) (by omega) chk4096

/-- The parameters of src/Makefile for n = 512 and 1024 are in the files; 1212, the parameter for n = 16, is in none. -/
example : 1003 ∈ roots1024 ∧ 1014 ∈ roots2048 ∧ 1212 ∉ roots1024 ∧ 1212 ∉ roots2048 ∧ 1212 ∉ roots4096 := by
  decide +kernel

end Props
