import Verif.Math.Conv
import Verif.Proofs.Sem

/-
Connection between the pointwise predicates used in the loop proofs and the vocabulary of
`Verif/Spec.lean`; elementwise loops; twiddle tables.
-/

namespace NTT
open C Spec

theorem elt_of_some {a : Array Int} {i : Nat} {x : Int} (h : a[i]? = some x) : elt a i = x := by
  simp [elt, Array.getD_eq_getD_getElem?, h]

theorem some_elt {a : Array Int} {i : Nat} (h : i < a.size) : a[i]? = some (elt a i) := by
  have : a[i]? = some a[i] := Array.getElem?_eq_getElem h
  rw [elt_of_some this, this]

theorem pw_elts {n : Nat} {P : Nat → Int → Prop} {a : Array Int} :
    PW n P a ↔ a.size = n ∧ ∀ i, i < n → P i (elt a i) := by
  constructor
  · rintro ⟨h1, h2⟩
    exact ⟨h1, fun i hi => h2 i _ (some_elt (by omega))⟩
  · rintro ⟨h1, h2⟩
    refine ⟨h1, fun i x hx => ?_⟩
    have hi := getElem?_lt hx
    have := h2 i (by omega)
    rwa [elt_of_some hx] at this

/-! ### Elementwise loops -/

/-- The loop body at index `i` changes element `i` only, from `Pre` to `Post`. -/
def MapSpec {α : Type} (E : Err → Prop) (body : Nat → Array α → M (Array α)) (n : Nat)
    (Pre Post : Nat → α → Prop) : Prop :=
  ∀ i a x, i < n → a.size = n → a[i]? = some x → Pre i x →
    Wp E (body i a) (fun a' => ∃ v, a' = a.setIfInBounds i v ∧ Post i v)

theorem wp_map {α : Type} {E : Err → Prop} {body : Nat → Array α → M (Array α)} {n : Nat}
    {Pre Post : Nat → α → Prop} {a : Array α} (hn : n < 4294967296)
    (hb : MapSpec E body n Pre Post) (ha : PW n Pre a) :
    Wp E (forUp 0 n 1 body a) (PW n Post) := by
  refine wp_forUp1 (fun j a => Mid n Pre Post (fun i => i < j) a) hn (by omega)
    (ha.mid (fun i _ => by omega)) ?_ ?_
  · intro j a _ hj hmid
    obtain ⟨hsz, hP⟩ := hmid
    have hx : a[j]? = some a[j] := Array.getElem?_eq_getElem (by omega)
    refine (hb j a _ hj hsz hx ((hP j _ hx).2 (by omega))).mono ?_
    rintro a' ⟨v, rfl, hv⟩
    refine ⟨by simp [hsz], fun i x hxi => ?_⟩
    simp only [Array.getElem?_setIfInBounds] at hxi
    by_cases h1 : j = i
    · subst h1
      rw [if_pos rfl, if_pos (by omega)] at hxi
      injection hxi with hxi; subst hxi
      exact ⟨fun _ => hv, fun h => absurd (by omega) h⟩
    · rw [if_neg h1] at hxi
      refine ⟨fun h => (hP i x hxi).1 (by omega), fun h => (hP i x hxi).2 (by omega)⟩
  · intro a hmid
    exact hmid.pw (fun i hi => hi)

/-! ### Twiddle tables -/

theorem pow_div {k m : Nat} (hm : m < k) : 2 ^ k / (2 * 2 ^ m) = 2 ^ (k - 1 - m) := by
  rw [pow_split hm, Nat.mul_div_cancel_left _ (by have := Nat.two_pow_pos m; omega)]

theorem _root_.Spec.StdTable.entry {κ c ω : Zq} {lo hi : Int} {k : Nat} {p : Array Int}
    (h : StdTable κ c ω lo hi k p) {m j : Nat} (hm : m < k) (hj : j < 2 ^ m) {w : Int}
    (hw : p[2 ^ m + j]? = some w) : (lo ≤ w ∧ w ≤ hi) ∧ κ * (w : Zq) = tw k c ω m j := by
  have := h.2 m j hm hj
  unfold coeff at this
  rw [elt_of_some hw, pow_div hm] at this
  refine ⟨this.1, ?_⟩
  rw [this.2]
  unfold tw
  rw [mul_pow, ← pow_mul, ← pow_mul, Nat.mul_comm j]

theorem _root_.Spec.RevTable.entry {κ c ω : Zq} {lo hi : Int} {k : Nat} {p : Array Int}
    (h : RevTable κ c ω lo hi k p) {m j : Nat} (hm : m < k) (hj : j < 2 ^ m) {w : Int}
    (hw : p[2 ^ m + j]? = some w) : (lo ≤ w ∧ w ≤ hi) ∧ κ * (w : Zq) = tw k c ω m (rev m j) := by
  have := h.2 m j hm hj
  unfold coeff at this
  rw [elt_of_some hw, pow_div hm] at this
  refine ⟨this.1, ?_⟩
  rw [this.2]
  unfold tw
  rw [mul_pow, ← pow_mul, ← pow_mul, Nat.mul_comm (rev m j)]

/-- Only the second half of `orderOf ω = 2^k` is used by the transforms. -/
theorem primRoot_half {k : Nat} {ω : Zq} (h : PrimRoot (2 ^ k) ω) (hk : 0 < k) :
    ω ^ 2 ^ (k - 1) = -1 := by
  unfold PrimRoot at h
  have h1 : ω ^ 2 ^ k = 1 := by rw [← h]; exact pow_orderOf_eq_one ω
  have h2 : (ω ^ 2 ^ (k - 1)) * (ω ^ 2 ^ (k - 1)) = 1 := by
    rw [← pow_add, ← two_mul, ← Nat.pow_succ', show (k - 1).succ = k by omega, h1]
  rcases mul_self_eq_one_iff.1 h2 with h3 | h3
  · exfalso
    have := orderOf_dvd_of_pow_eq_one h3
    rw [h] at this
    have := Nat.le_of_dvd (Nat.two_pow_pos _) this
    have h4 : 2 ^ (k - 1) < 2 ^ k := Nat.pow_lt_pow_right (by omega) (by omega)
    omega
  · exact h3

/-- A square root of a primitive root satisfies `ψ^n = -1`. -/
theorem psi_pow {k : Nat} {ψ : Zq} (h : PrimRoot (2 ^ k) (ψ ^ 2)) (hk : 0 < k) :
    ψ ^ 2 ^ k = -1 := by
  have := primRoot_half h hk
  rw [← pow_mul, ← Nat.pow_succ', show (k - 1).succ = k by omega] at this
  exact this

/-- Conversely, `ψ^n = -1` makes `ψ^2` a primitive `n`-th root of unity. -/
theorem primRoot_of_psi {k : Nat} {ψ : Zq} (h : ψ ^ 2 ^ k = -1) : PrimRoot (2 ^ k) (ψ ^ 2) := by
  have : Fact (Nat.Prime 2) := ⟨Nat.prime_two⟩
  have h1 : orderOf ψ = 2 ^ (k + 1) := by
    refine orderOf_eq_prime_pow ?_ ?_
    · rw [h]; decide
    · rw [pow_succ, pow_mul, h]; ring
  unfold PrimRoot
  rw [orderOf_pow' ψ (by omega), h1, Nat.pow_succ, Nat.gcd_eq_right (Nat.dvd_mul_left 2 _)]
  omega

end NTT
