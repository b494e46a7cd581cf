import Verif.Proofs.MakeTables
import Verif.Proofs.Products
import Verif.Math.Poly
import Mathlib.Algebra.GroupWithZero.Units.Fintype
import Mathlib.GroupTheory.OrderOfElement

/-
Lemmas shared by the property files: canonical arrays are determined by their coefficients, and
the parameters of the Makefile are accepted by the generators.
-/

namespace Spec
open C Tables

theorem zq_eq_iff {x y : Int} : (x : Zq) = (y : Zq) ↔ x % 12289 = y % 12289 := by
  rw [ZMod.intCast_eq_intCast_iff]; rfl

theorem elt_eq_emod {x y : Int} (hx : 0 ≤ x ∧ x ≤ 12288) (h : (x : Zq) = (y : Zq)) :
    x = y % 12289 := by
  rw [zq_eq_iff] at h; omega

theorem reduced_ext {a b : Array Int} (hs : a.size = b.size) (ha : Reduced a) (hb : Reduced b)
    (h : ∀ i, i < a.size → coeff a i = coeff b i) : a = b := by
  apply Array.ext_getElem?
  intro i
  by_cases hi : i < a.size
  · rw [NTT.some_elt hi, NTT.some_elt (by omega)]
    have h1 := ha i hi
    have h2 := hb i (by omega)
    have h3 := zq_eq_iff.1 (h i hi)
    congr 1; omega
  · rw [Array.getElem?_eq_none (by omega), Array.getElem?_eq_none (by omega)]

theorem pow_neg_one_of_nat {x n : Nat} (h : x ^ n % 12289 = 12288) : (x : Zq) ^ n = -1 := by
  have : ((x ^ n : Nat) : Zq) = ((12288 : Nat) : Zq) := by
    rw [ZMod.natCast_eq_natCast_iff]; exact h
  rw [Nat.cast_pow] at this
  rw [this]; decide

/-- The parameters of src/Makefile:53-75. -/
theorem good16 : GoodParams 4 16 1212 :=
  ⟨by decide, by decide, by decide, by decide, by decide,
    pow_neg_one_of_nat (x := 1212) (n := 2 ^ 4) (by decide +kernel)⟩
theorem good256 : GoodParams 8 256 1002 :=
  ⟨by decide, by decide, by decide, by decide, by decide,
    pow_neg_one_of_nat (x := 1002) (n := 2 ^ 8) (by decide +kernel)⟩
theorem good512 : GoodParams 9 512 1003 :=
  ⟨by decide, by decide, by decide, by decide, by decide,
    pow_neg_one_of_nat (x := 1003) (n := 2 ^ 9) (by decide +kernel)⟩
theorem good1024 : GoodParams 10 1024 1014 :=
  ⟨by decide, by decide, by decide, by decide, by decide,
    pow_neg_one_of_nat (x := 1014) (n := 2 ^ 10) (by decide +kernel)⟩

/-- The largest size. -/
theorem good2048 : GoodParams 11 2048 41 :=
  ⟨by decide, by decide, by decide, by decide, by decide,
    pow_neg_one_of_nat (x := 41) (n := 2 ^ 11) (by decide +kernel)⟩

/-- A buffer of the requested size. -/
def someBuf (n : Nat) : Array Nat := Array.replicate n 77

theorem someBuf_size (n : Nat) : (someBuf n).size = n := by simp [someBuf]

theorem tables_ok {k : Nat} {xn xpsi : Int} (h : GoodParams k xn xpsi) {buf : Nat → Array Nat}
    (hb : ∀ n, (buf n).size = n) :
    ∃ t, make_tables buf xn xpsi = .ok t ∧ TablesOK k (xpsi : Zq) t :=
  wp_total.1 (wp_make_tables h hb)

theorem red_tables_ok {k : Nat} {xn xpsi : Int} (h : GoodParams k xn xpsi)
    {buf : Nat → Array Nat} (hb : ∀ n, (buf n).size = n) :
    ∃ t, make_red_tables buf xn xpsi = .ok t ∧ RedTablesOK k (xpsi : Zq) t :=
  wp_total.1 (wp_make_red_tables h hb)

theorem good_psi {k : Nat} {xn xpsi : Int} (h : GoodParams k xn xpsi) :
    (xpsi : Zq) ^ 2 ^ k = -1 := h.2.2.2.2.2

private theorem fermat {p : Nat} [Fact p.Prime] {x : ZMod p} (h0 : x ≠ 0) : x ^ (p - 1) = 1 := by
  have h2 := pow_card_eq_one (x := Units.mk0 x h0)
  rw [Fintype.card_units, ZMod.card] at h2
  have h3 := congrArg Units.val h2
  rwa [Units.val_pow_eq_pow_val] at h3

/-- `psi` has order `2n` and `2n` divides `q - 1 = 3 * 2^12`. -/
theorem good_le {k : Nat} {xn xpsi : Int} (h : GoodParams k xn xpsi) : k ≤ 11 := by
  by_contra hk
  have h1 := good_psi h
  have h0 : (xpsi : Zq) ≠ 0 := by
    intro h0
    rw [h0, zero_pow (by have := Nat.two_pow_pos k; omega)] at h1
    exact absurd h1 (by decide)
  obtain ⟨N, hN, h2⟩ : ∃ N, N = 12288 ∧ (xpsi : Zq) ^ N = 1 := ⟨_, rfl, fermat h0⟩
  have e : 2 ^ k * 3 = N * 2 ^ (k - 12) := by
    have : 2 ^ k = 2 ^ 12 * 2 ^ (k - 12) := by rw [← pow_add]; congr 1; omega
    rw [hN]
    omega
  have h3 : ((xpsi : Zq) ^ 2 ^ k) ^ 3 = 1 := by rw [← pow_mul, e, pow_mul, h2, one_pow]
  rw [h1] at h3
  exact absurd h3 (by decide)

end Spec
