import Verif.Model.TestMod
import Verif.Proofs.NttRed
import Mathlib.Tactic.Linarith

/-
Proofs about src/test_mod.c.
-/

namespace TestMod
open C
open NttRed (ok_bind i32_ok i64_ok toI32_of)

/-! ### The loops -/

theorem approx_loop_some {n x0 z : Nat} (h : ∀ x < x0, approx_modq x n = .ok (x % 12289)) (h0 : approx_modq x0 n = .ok z)
    (hz : z ≠ x0 % 12289) (hx : x0 ≤ 150994944) : ∀ fuel x, x ≤ x0 → x0 - x < fuel → approx_loop n fuel x = .ok (some x0) := by
  intro fuel
  induction fuel with
  | zero => intro x _ h; omega
  | succ f ih =>
    intro x h1 h2
    unfold approx_loop
    rcases Nat.lt_or_eq_of_le h1 with hlt | rfl
    · rw [h x hlt, ok_bind, show urem x 12289 = .ok (x % 12289) from rfl, ok_bind, if_neg (by simp)]
      have : u32 (x + 1) = x + 1 := by unfold u32; omega
      dsimp only
      rw [this, if_pos (by omega)]
      exact ih (x + 1) hlt (by omega)
    · rw [h0, ok_bind, show urem x 12289 = .ok (x % 12289) from rfl, ok_bind, if_pos hz]
      rfl

theorem approx_loop_none {n : Nat} (h : ∀ x ≤ 150994944, approx_modq x n = .ok (x % 12289)) : ∀ fuel x, x ≤ 150994944 →
    150994944 - x < fuel → approx_loop n fuel x = .ok none := by
  intro fuel
  induction fuel with
  | zero => intro x _ h; omega
  | succ f ih =>
    intro x h1 h2
    unfold approx_loop
    rw [h x h1, ok_bind, show urem x 12289 = .ok (x % 12289) from rfl, ok_bind, if_neg (by simp)]
    have : u32 (x + 1) = x + 1 := by unfold u32; omega
    dsimp only
    rw [this]
    by_cases hx : x + 1 ≤ 150994944
    · rw [if_pos hx]
      exact ih (x + 1) hx (by omega)
    · rw [if_neg hx]; rfl

theorem test_approx_some {n x0 z : Nat} (h : ∀ x < x0, approx_modq x n = .ok (x % 12289)) (h0 : approx_modq x0 n = .ok z)
    (hz : z ≠ x0 % 12289) (hx : x0 ≤ 150994944) : test_approx n = .ok (some x0) := by
  unfold test_approx
  exact approx_loop_some h h0 hz hx _ _ (by omega) (by omega)

theorem test_approx_none {n : Nat} (h : ∀ x ≤ 150994944, approx_modq x n = .ok (x % 12289)) : test_approx n = .ok none := by
  unfold test_approx
  exact approx_loop_none h _ _ (by omega) (by omega)

theorem approx_modq_total (x n : Nat) : ∃ z, approx_modq x n = .ok z := ⟨_, rfl⟩

section
variable {bad : Int → M Bool}

theorem search_up_some {x0 : Int} (hx : x0 ≤ 2147483647) (h0 : bad x0 = .ok true) : ∀ (fuel : Nat) (a : Int), 0 ≤ a → a ≤ x0 →
    x0 - a < fuel → (∀ x, a ≤ x → x < x0 → bad x = .ok false) → search_up bad fuel a = .ok (some x0) := by
  intro fuel
  induction fuel with
  | zero => intro a _ h1 h2; simp at h2; omega
  | succ f ih =>
    intro a h0' h1 h2 h
    unfold search_up
    by_cases ha : a < x0
    · rw [h a (le_refl _) ha, ok_bind, if_neg (by decide), if_pos (by omega), i32_ok ⟨by omega, by omega⟩, ok_bind]
      exact ih (a + 1) (by omega) (by omega) (by push_cast at h2; omega) fun x h1 h2 => h x (by omega) h2
    · obtain rfl : a = x0 := by omega
      rw [h0, ok_bind, if_pos rfl]; rfl

theorem search_up_err {x0 : Int} {e : Err} (hx : x0 ≤ 2147483647) (h0 : bad x0 = .error e) : ∀ (fuel : Nat) (a : Int), 0 ≤ a →
    a ≤ x0 → x0 - a < fuel → (∀ x, a ≤ x → x < x0 → bad x = .ok false) → search_up bad fuel a = .error e := by
  intro fuel
  induction fuel with
  | zero => intro a _ h1 h2; simp at h2; omega
  | succ f ih =>
    intro a h0' h1 h2 h
    unfold search_up
    by_cases ha : a < x0
    · rw [h a (le_refl _) ha, ok_bind, if_neg (by decide), if_pos (by omega), i32_ok ⟨by omega, by omega⟩, ok_bind]
      exact ih (a + 1) (by omega) (by omega) (by push_cast at h2; omega) fun x h1 h2 => h x (by omega) h2
    · obtain rfl : a = x0 := by omega
      rw [h0]; rfl

theorem search_up_none : ∀ (fuel : Nat) (a : Int), 0 ≤ a → a ≤ 2147483647 → 2147483647 - a < fuel →
    (∀ x, a ≤ x → x ≤ 2147483647 → bad x = .ok false) → search_up bad fuel a = .ok none := by
  intro fuel
  induction fuel with
  | zero => intro a _ h1 h2; simp at h2; omega
  | succ f ih =>
    intro a h0' h1 h2 h
    unfold search_up
    rw [h a (le_refl _) h1, ok_bind, if_neg (by decide)]
    by_cases ha : a < 2147483647
    · rw [if_pos (by omega), i32_ok ⟨by omega, by omega⟩, ok_bind]
      exact ih (a + 1) (by omega) (by omega) (by push_cast at h2; omega) fun x h1 h2 => h x (by omega) h2
    · rw [if_neg ha]; rfl

theorem search_down_err {x0 : Int} {e : Err} (hx : -2147483648 ≤ x0) (h0 : bad x0 = .error e) : ∀ (fuel : Nat) (a : Int), a ≤ -1 →
    x0 ≤ a → a - x0 < fuel → (∀ x, x ≤ a → x0 < x → bad x = .ok false) → search_down bad fuel a = .error e := by
  intro fuel
  induction fuel with
  | zero => intro a _ h1 h2; simp at h2; omega
  | succ f ih =>
    intro a h0' h1 h2 h
    unfold search_down
    by_cases ha : x0 < a
    · rw [h a (le_refl _) ha, ok_bind, if_neg (by decide), if_pos (by omega), i32_ok ⟨by omega, by omega⟩, ok_bind]
      exact ih (a - 1) (by omega) (by omega) (by push_cast at h2; omega) fun x h1 h2 => h x (by omega) h2
    · obtain rfl : a = x0 := by omega
      rw [h0]; rfl

theorem search_down_none : ∀ (fuel : Nat) (a : Int), a ≤ -1 → -2147483648 ≤ a → a + 2147483648 < fuel →
    (∀ x, x ≤ a → -2147483648 ≤ x → bad x = .ok false) → search_down bad fuel a = .ok none := by
  intro fuel
  induction fuel with
  | zero => intro a _ h1 h2; simp at h2; omega
  | succ f ih =>
    intro a h0' h1 h2 h
    unfold search_down
    rw [h a (le_refl _) h1, ok_bind, if_neg (by decide)]
    by_cases ha : a > -2147483648
    · rw [if_pos (by omega), i32_ok ⟨by omega, by omega⟩, ok_bind]
      exact ih (a - 1) (by omega) (by omega) (by push_cast at h2; omega) fun x h1 h2 => h x (by omega) h2
    · rw [if_neg ha]; rfl

/-- Without a hit, each value has been tested. -/
theorem search_up_none_inv : ∀ (fuel : Nat) (a : Int), 0 ≤ a → search_up bad fuel a = .ok none →
    ∀ x, a ≤ x → x ≤ 2147483647 → bad x = .ok false := by
  intro fuel
  induction fuel with
  | zero => intro a _ h; cases h
  | succ f ih =>
    intro a h0 h x h1 h2
    unfold search_up at h
    cases hb : bad a with
    | error e => rw [hb] at h; cases h
    | ok b =>
      rw [hb, ok_bind] at h
      cases b with
      | true => cases h
      | false =>
        rw [if_neg (by decide)] at h
        rcases eq_or_lt_of_le h1 with rfl | hlt
        · exact hb
        · rw [if_pos (by omega), i32_ok ⟨by omega, by omega⟩, ok_bind] at h
          exact ih (a + 1) (by omega) h x (by omega) h2

theorem search_down_none_inv : ∀ (fuel : Nat) (a : Int), a ≤ -1 → search_down bad fuel a = .ok none →
    ∀ x, x ≤ a → -2147483648 ≤ x → bad x = .ok false := by
  intro fuel
  induction fuel with
  | zero => intro a _ h; cases h
  | succ f ih =>
    intro a h0 h x h1 h2
    unfold search_down at h
    cases hb : bad a with
    | error e => rw [hb] at h; cases h
    | ok b =>
      rw [hb, ok_bind] at h
      cases b with
      | true => cases h
      | false =>
        rw [if_neg (by decide)] at h
        rcases eq_or_lt_of_le h1 with rfl | hlt
        · exact hb
        · rw [if_pos (by omega), i32_ok ⟨by omega, by omega⟩, ok_bind] at h
          exact ih (a - 1) (by omega) h x (by omega) h2

theorem search_none_iff : search bad = .ok none ↔ ∀ x, -2147483648 ≤ x → x ≤ 2147483647 → bad x = .ok false := by
  have hz : ∀ N : Nat, N = 2147483648 → ((do
      match ← search_up bad N 0 with
      | some x => pure (some x)
      | none => search_down bad N (-1) : M (Option Int)) = .ok none ↔
      ∀ x, -2147483648 ≤ x → x ≤ 2147483647 → bad x = .ok false) := by
    intro N hN
    constructor
    · intro h
      cases hu : search_up bad N 0 with
      | error e => rw [hu] at h; cases h
      | ok o =>
        rw [hu, ok_bind] at h
        cases o with
        | some x => cases h
        | none =>
          intro x h1 h2
          rcases le_or_gt 0 x with h0 | h0
          · exact search_up_none_inv N 0 (le_refl _) hu x h0 h2
          · exact search_down_none_inv N (-1) (le_refl _) h x (by omega) h1
    · intro h
      rw [search_up_none N 0 (le_refl _) (by omega) (by omega) fun x h1 h2 => h x (by omega) h2, ok_bind]
      exact search_down_none N (-1) (le_refl _) (by omega) (by omega) fun x h1 h2 => h x h2 (by omega)
  exact hz _ rfl

end

/-! ### The quotient -/

/-- `x = q k + r`, `q m = P + e`: `q` times what is left of `x m` after `P k`. -/
theorem left_over {q m P e x : Int} (hm : q * m = P + e) : q * (x * m - P * (x / q)) = (x % q) * P + x * e := by
  have h := Int.mul_ediv_add_emod x q
  have h1 : q * (x * m) = x * (P + e) := by rw [← hm]; ring
  have h2 : x * P = (q * (x / q) + x % q) * P := by rw [h]
  linear_combination h1 + h2

theorem quot_up {q m P e x : Int} (hq : 0 < q) (hP : 0 < P) (he : 0 ≤ e) (hm : q * m = P + e) (hx : 0 ≤ x)
    (h : x * e + (x % q) * P < q * P) : x * m / P = x / q := by
  have hl := left_over (x := x) hm
  have h1 : 0 ≤ (x % q) * P := mul_nonneg (Int.emod_nonneg _ hq.ne') hP.le
  have h2 : 0 ≤ x * e := mul_nonneg hx he
  have t0 : 0 ≤ x * m - P * (x / q) := by
    by_contra hc
    have := mul_neg_of_pos_of_neg hq (not_le.1 hc)
    omega
  have t1 : x * m - P * (x / q) < P := by
    by_contra hc
    have := mul_le_mul_of_nonneg_left (not_lt.1 hc) hq.le
    omega
  rw [show x * m = (x * m - P * (x / q)) + P * (x / q) by ring, Int.add_mul_ediv_left _ _ hP.ne', Int.ediv_eq_zero_of_lt t0 t1]
  ring

/-- Negative arguments: the quotient is rounded down even if the division is exact. -/
theorem quot_down {q m P e y : Int} (hq : 0 < q) (hP : 0 < P) (he : 0 < e) (hm : q * m = P + e) (hy : 0 < y)
    (h : y * e + (y % q) * P ≤ q * P) : -y * m / P = -(y / q) - 1 := by
  have hl := left_over (x := y) hm
  have h1 : 0 ≤ (y % q) * P := mul_nonneg (Int.emod_nonneg _ hq.ne') hP.le
  have h2 : 0 < y * e := mul_pos hy he
  have t0 : 0 < y * m - P * (y / q) := by
    by_contra hc
    have := mul_nonpos_of_nonneg_of_nonpos hq.le (not_lt.1 hc)
    omega
  have t1 : y * m - P * (y / q) ≤ P := by
    by_contra hc
    have := mul_lt_mul_of_pos_left (not_le.1 hc) hq
    omega
  rw [show -y * m = (P - (y * m - P * (y / q))) + P * (-(y / q) - 1) by ring, Int.add_mul_ediv_left _ _ hP.ne',
    Int.ediv_eq_zero_of_lt (by omega) (by omega)]
  ring

/-- The condition of `quot_up` holds below `q k + r`. -/
theorem below {q P e k r : Int} (hq : 0 < q) (hP : 0 < P) (he : 0 ≤ e) (hk : (q * k - 1) * e < P)
    (hr : (q * k + r - 1) * e + (r - 1) * P < q * P) {x : Int} (h1 : x < q * k + r) (hr0 : r ≤ q) :
    x * e + (x % q) * P < q * P := by
  have hm := Int.emod_lt_of_pos x hq
  have h0 := Int.emod_nonneg x hq.ne'
  by_cases hx : x < q * k
  · have a1 : x * e ≤ (q * k - 1) * e := mul_le_mul_of_nonneg_right (by omega) he
    have a2 : (x % q) * P ≤ (q - 1) * P := mul_le_mul_of_nonneg_right (by omega) hP.le
    linarith
  · have hd : x % q = x - q * k := by
      rw [show x = (x - q * k) + q * k by ring, Int.add_mul_emod_self_left, Int.emod_eq_of_lt (by omega) (by omega)]
      ring
    have a1 : x * e ≤ (q * k + r - 1) * e := mul_le_mul_of_nonneg_right (by omega) he
    have a2 : (x % q) * P ≤ (r - 1) * P := mul_le_mul_of_nonneg_right (by omega) hP.le
    linarith

/-- What has to be checked for `n`: the multiplier, its error, and that the quotient is right below `q k + r`. -/
structure Range (n : Nat) (m e k r : Int) : Prop where
  hm : 12289 * m = 2 ^ n + e
  he : 0 < e
  he' : e ≤ 12289
  hk : (12289 * k - 1) * e < 2 ^ n
  hr : (12289 * k + r - 1) * e + (r - 1) * 2 ^ n < 12289 * 2 ^ n
  hr0 : r ≤ 12289

instance (n : Nat) (m e k r : Int) : Decidable (Range n m e k r) :=
  decidable_of_iff (12289 * m = 2 ^ n + e ∧ 0 < e ∧ e ≤ 12289 ∧ (12289 * k - 1) * e < 2 ^ n ∧
    (12289 * k + r - 1) * e + (r - 1) * 2 ^ n < 12289 * 2 ^ n ∧ r ≤ 12289)
    ⟨fun ⟨a, b, c, d, f, g⟩ => ⟨a, b, c, d, f, g⟩, fun ⟨a, b, c, d, f, g⟩ => ⟨a, b, c, d, f, g⟩⟩

section
variable {n : Nat} {m e k r : Int}

theorem Range.up (h : Range n m e k r) {x : Int} (h0 : 0 ≤ x) (h1 : x < 12289 * k + r) : x * m / 2 ^ n = x / 12289 :=
  quot_up (by norm_num) (by positivity) h.he.le h.hm h0 (below (by norm_num) (by positivity) h.he.le h.hk h.hr h1 h.hr0)

theorem Range.down (h : Range n m e k r) {y : Int} (h0 : 0 < y) (h1 : y < 12289 * k + r) : -y * m / 2 ^ n = -(y / 12289) - 1 :=
  quot_down (by norm_num) (by positivity) h.he h.hm h0 (below (by norm_num) (by positivity) h.he.le h.hk h.hr h1 h.hr0).le

theorem Range.m_eq (h : Range n m e k r) : m = 2 ^ n / 12289 + 1 := by
  have h1 := h.hm
  have h2 := h.he
  have h3 := h.he'
  generalize (2 : Int) ^ n = P at *
  omega

/-! ### Unsigned -/

theorem approx_qinv_eq (h : Range n m e k r) (hn : n < 64) (hm : m < 4294967296) : approx_qinv n = .ok m.toNat := by
  unfold approx_qinv
  have hP : (2 : Nat) ^ n < 2 ^ 64 := Nat.pow_lt_pow_right (by norm_num) hn
  have h1 : u64 (2 ^ n) = 2 ^ n := by unfold u64; exact Nat.mod_eq_of_lt hP
  rw [h1, show udiv (2 ^ n) 12289 = .ok (2 ^ n / 12289) from rfl, ok_bind]
  have h2 : ((2 ^ n / 12289 + 1 : Nat) : Int) = m := by rw [h.m_eq]; push_cast; rfl
  show Except.ok _ = _
  congr 1
  unfold u32 u64
  omega

theorem approx_modq_eq (h : Range n m e k r) (hn : n < 64) (hm : m < 4294967296) {x : Nat} (h1 : (x : Int) < 12289 * k + r)
    (h2 : x < 4294967296) : approx_modq x n = .ok (x % 12289) := by
  have hm0 : 0 ≤ m := by rw [h.m_eq]; positivity
  obtain ⟨M, rfl⟩ := Int.eq_ofNat_of_zero_le hm0
  unfold approx_modq approx_divq
  rw [approx_qinv_eq h hn hm, ok_bind]
  have hu := h.up (by omega) h1
  have hu' : x * M / 2 ^ n = x / 12289 := by exact_mod_cast hu
  have hlt : x * M < 18446744073709551616 := by
    have : x * M ≤ 4294967295 * 4294967295 := Nat.mul_le_mul (by omega) (by omega)
    omega
  have e1 : u64 (x * (M : Int).toNat) = x * M := by
    unfold u64; rw [Int.toNat_natCast, Nat.mod_eq_of_lt hlt]
  show Except.ok _ = _
  congr 1
  rw [e1, hu']
  unfold u32
  omega

/-! ### Signed -/

theorem approx_pinv_eq (h : Range n m e k r) (hn : n < 63) : approx_pinv n = .ok m := by
  unfold approx_pinv
  have hP : (2 : Int) ^ n ≤ 2 ^ 62 := pow_le_pow_right₀ (by norm_num) (by omega)
  have hP0 : (0 : Int) ≤ 2 ^ n := by positivity
  rw [i64_ok ⟨by omega, by omega⟩, ok_bind]
  unfold cdiv
  rw [if_neg (by norm_num), ok_bind, Int.tdiv_eq_ediv_of_nonneg hP0, ← h.m_eq]
  have := h.m_eq
  exact i64_ok ⟨by omega, by omega⟩

theorem pmodq_up {x : Int} (h0 : 0 ≤ x) : pmodq x = .ok (x % 12289) := by
  unfold pmodq smodq crem
  rw [if_neg (by norm_num), ok_bind, Int.tmod_eq_emod_of_nonneg h0, if_neg (by omega)]
  rfl

theorem pmodq_down {y : Int} (h0 : 0 < y) : pmodq (-y) = .ok (-y % 12289) := by
  unfold pmodq smodq crem
  rw [if_neg (by norm_num), ok_bind, Int.neg_tmod, Int.tmod_eq_emod_of_nonneg h0.le]
  split
  · rw [i32_ok ⟨by omega, by omega⟩]; congr 1; omega
  · show Except.ok _ = _
    congr 1; omega

theorem approx_pmodq_up (h : Range n m e k r) (hn : n < 63) {x : Int} (h0 : 0 ≤ x) (h1 : x < 12289 * k + r)
    (h2 : x ≤ 2147483647) (h3 : x * m ≤ 9223372036854775807) : approx_pmodq x n = .ok (x % 12289) := by
  have hm0 : 0 ≤ m := by rw [h.m_eq]; positivity
  unfold approx_pmodq approx_pdivq
  rw [approx_pinv_eq h hn, ok_bind, i64_ok ⟨by have := mul_nonneg h0 hm0; omega, by omega⟩, ok_bind]
  show (i32 (toI32 (sar (x * m) n) * 12289) >>= _) = _
  unfold sar
  push_cast
  rw [h.up h0 h1, toI32_of ⟨by omega, by omega⟩, i32_ok ⟨by omega, by omega⟩, ok_bind, i32_ok ⟨by omega, by omega⟩, ok_bind]
  show Except.ok _ = _
  congr 1
  split <;> omega

theorem approx_pmodq_down (h : Range n m e k r) (hn : n < 63) {y : Int} (h0 : 0 < y) (h1 : y < 12289 * k + r)
    (h2 : y < 2147478172) (h3 : y * m ≤ 9223372036854775807) : approx_pmodq (-y) n = .ok (-y % 12289) := by
  have hm0 : 0 ≤ m := by rw [h.m_eq]; positivity
  unfold approx_pmodq approx_pdivq
  rw [approx_pinv_eq h hn, ok_bind, i64_ok ⟨by rw [neg_mul]; omega, by have := mul_nonneg h0.le hm0; rw [neg_mul]; omega⟩, ok_bind]
  show (i32 (toI32 (sar (-y * m) n) * 12289) >>= _) = _
  unfold sar
  push_cast
  rw [h.down h0 h1, toI32_of ⟨by omega, by omega⟩, i32_ok ⟨by omega, by omega⟩, ok_bind, i32_ok ⟨by omega, by omega⟩, ok_bind]
  show Except.ok _ = _
  congr 1
  split <;> omega

end

end TestMod
