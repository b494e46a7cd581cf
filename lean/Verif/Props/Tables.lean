import Verif.Proofs.Params

/-
C25, C26, C27: the table generators.
-/

namespace Props
open C Spec Tables

/-- For every accepted pair `(n, psi)`, `make_tables` runs without overflow or assertion failure
and prints the documented tables (`Spec.TablesOK`), whatever the uninitialised buffer holds. -/
theorem C25_make_tables (k : Nat) (xn xpsi : Int) (h : GoodParams k xn xpsi)
    (buf : Nat → Array Nat) (hb : ∀ n, (buf n).size = n) :
    ∃ t, make_tables buf xn xpsi = .ok t ∧ TablesOK k (xpsi : Zq) t :=
  tables_ok h hb

/-- All other arguments are rejected with an error message. -/
theorem C25_rejects (xn xpsi : Int) (h : ∀ k, ¬ GoodParams k xn xpsi) (buf : Nat → Array Nat) :
    make_tables buf xn xpsi = .error .abort :=
  make_tables_abort h buf

/-- The same for `make_red_tables` (`Spec.RedTablesOK`). -/
theorem C26_make_red_tables (k : Nat) (xn xpsi : Int) (h : GoodParams k xn xpsi)
    (buf : Nat → Array Nat) (hb : ∀ n, (buf n).size = n) :
    ∃ t, make_red_tables buf xn xpsi = .ok t ∧ RedTablesOK k (xpsi : Zq) t :=
  red_tables_ok h hb

theorem C26_rejects (xn xpsi : Int) (h : ∀ k, ¬ GoodParams k xn xpsi) (buf : Nat → Array Nat) :
    make_red_tables buf xn xpsi = .error .abort :=
  make_red_tables_abort h buf

/-- `power(x, k, q)` is `x^k mod q`, for every exponent. -/
theorem C27_power (x k q : Nat) (hq : 2 ≤ q) (hq' : q ≤ 65536) (hx : x < 65536)
    (hk : k < 2 ^ 32) : power x k q = .ok (x ^ k % q) :=
  power_eq hq hq' hx hk

/-- `inverse` terminates without overflow; it finds the inverse exactly when there is one. -/
theorem C27_inverse (x q : Nat) (hx : 1 ≤ x) (hq : 2 ≤ q) (hxq : x * q < 2 ^ 31) :
    (Nat.gcd x q = 1 → ∃ y, inverse x q = .ok (some y) ∧ y < q ∧ x * y % q = 1) ∧
    (Nat.gcd x q ≠ 1 → inverse x q = .ok none) := by
  obtain ⟨r, e, h⟩ := wp_total.1 (wp_inverse (E := NoErr) hx hq hxq)
  rcases h with ⟨hg, y, hy, rfl, hxy⟩ | ⟨hg, rfl⟩
  · exact ⟨fun _ => ⟨y, e, hy, hxy⟩, fun h => absurd hg h⟩
  · exact ⟨fun h => absurd h hg, fun _ => e⟩

-- The parameters of the Makefile are accepted; 1024 with psi = 2 is not.
example : GoodParams 4 16 1212 ∧ GoodParams 8 256 1002 ∧ GoodParams 9 512 1003 ∧
    GoodParams 10 1024 1014 := ⟨good16, good256, good512, good1024⟩
example : ∀ k, ¬ GoodParams k 1000 1014 := by
  intro k h
  have h16 := k_le_16 (h.2.1 ▸ h.2.2.1)
  have := h.2.1
  interval_cases k <;> norm_num at this
example : ∀ n, (someBuf n).size = n := someBuf_size
example : power 3 10 12289 = .ok 9893 := by decide +kernel
example : inverse 3 12289 = .ok (some 8193) ∧ inverse 12 4096 = .ok none := by decide +kernel

end Props
