import Verif.Proofs.NttRed

/-
The Gentleman-Sande transforms of src/ntt_red.c for n = 2048.

With table entries in `[-6144, 6144]` only, the bound on the elements grows too fast for 11 rounds.  The entries `p[t], ..., p[2t-1]`
are roots of unity of order `2t` (or `4t`) divided by 3, and for small `t` no such entry is as large as 6144, whatever `psi` is.
-/

namespace NttRed
open C NTT Spec

/-! ### The entries of the low levels -/

/-- `x^(2^m) mod q`. -/
def sqs : Nat → Nat → Nat
  | 0, x => x
  | m + 1, x => sqs m (x * x % 12289)

theorem sqs_zq (m x : Nat) : ((sqs m x : Nat) : Zq) = (x : Zq) ^ 2 ^ m := by
  induction m generalizing x with
  | zero => simp [sqs]
  | succ m ih =>
    rw [sqs, ih, pow_succ, mul_comm (2 ^ m) 2, pow_mul]
    congr 1
    rw [ZMod.natCast_mod]
    push_cast
    ring

def allBelow (f : Nat → Bool) : Nat → Bool
  | 0 => true
  | n + 1 => f n && allBelow f n

theorem allBelow_get {f : Nat → Bool} {n : Nat} (h : allBelow f n = true) {i : Nat} (hi : i < n) : f i = true := by
  induction n with
  | zero => omega
  | succ n ih =>
    rw [allBelow, Bool.and_eq_true] at h
    rcases Nat.lt_or_ge i n with h1 | h1
    · exact ih h.2 h1
    · rw [show i = n by omega]; exact h.1

/-- Bounds on the entries of level `m` of the tables without and with powers of `psi`. -/
def lvPlain : Nat → Nat
  | 0 => 4096 | 1 => 4096 | 2 => 5444 | 3 => 5444 | 4 => 5444 | _ => 6144
def lvMixed : Nat → Nat
  | 0 => 493 | 1 => 5444 | 2 => 4337 | 3 => 5277 | 4 => 6039 | 5 => 5698 | 6 => 5559 | 7 => 5911 | _ => 6144

/-- The bound on an entry `w` with `|w| = a` and `(3w)^(2^(m+1)) = y`. -/
def lvChk (a m y : Nat) : Bool :=
  (!(Nat.beq y 12288) || Nat.ble a (lvMixed m)) && (!(Nat.beq y 1) || Nat.ble a (lvPlain m))

/-- The same for `f` levels from `m`. -/
def lvWalk (a : Nat) : Nat → Nat → Nat → Bool
  | 0, _, _ => true
  | _ + 1, _, 0 => true
  | f + 1, m, y + 1 => lvChk a m (y + 1) && lvWalk a f (m + 1) ((y + 1) * (y + 1) % 12289)

theorem lvWalk_get {a f m y i : Nat} (h : lvWalk a f m y = true) (hi : i < f) : lvChk a (m + i) (sqs i y) = true := by
  have z : ∀ i, sqs i 0 = 0 := by
    intro i
    induction i with
    | zero => rfl
    | succ i ih => rw [sqs]; exact ih
  induction f generalizing m y i with
  | zero => omega
  | succ f ih =>
    rcases y with _ | y
    · rw [z]; rfl
    · rw [lvWalk, Bool.and_eq_true] at h
      rcases i with _ | i
      · exact h.1
      · have := ih h.2 (i := i) (by omega)
        rwa [show m + 1 + i = m + (i + 1) by omega] at this

theorem lvAll : allBelow (fun a => lvWalk a 8 0 (3 * a * (3 * a) % 12289)) 6145 = true := by decide +kernel

theorem lv_le {m t : Nat} (hm : m < 8) (ht : t < 12289) {w : Int} (hw : -6144 ≤ w ∧ w ≤ 6144)
    (he : (3 * (w : Zq)) ^ 2 ^ (m + 1) = (t : Zq)) : lvChk w.natAbs m t = true := by
  have h1 := lvWalk_get (allBelow_get lvAll (i := w.natAbs) (by omega)) hm
  rw [Nat.zero_add] at h1
  have h2 : (((3 * w.natAbs * (3 * w.natAbs) % 12289 : Nat)) : Zq) = (3 * (w : Zq)) ^ 2 := by
    have e : ((w.natAbs * w.natAbs : Nat) : Zq) = (w : Zq) * w := by
      have : ((w.natAbs * w.natAbs : Nat) : Int) = w * w := Int.natAbs_mul_self
      rw [← Int.cast_natCast, this]
      push_cast
      rfl
    rw [ZMod.natCast_mod]
    push_cast at e ⊢
    linear_combination 9 * e
  have h3 : sqs m (3 * w.natAbs * (3 * w.natAbs) % 12289) = t := by
    have e : ((sqs m (3 * w.natAbs * (3 * w.natAbs) % 12289) : Nat) : Zq) = (t : Zq) := by
      rw [sqs_zq, h2, ← pow_mul, mul_comm 2, ← pow_succ, he]
    rw [ZMod.natCast_eq_natCast_iff] at e
    have lt : ∀ m x, x < 12289 → sqs m x < 12289 := by
      intro m
      induction m with
      | zero => intro x hx; exact hx
      | succ m ih => intro x _; exact ih _ (Nat.mod_lt _ (by decide))
    have := lt m _ (Nat.mod_lt (3 * w.natAbs * (3 * w.natAbs)) (by decide))
    unfold Nat.ModEq at e
    omega
  rwa [h3] at h1

theorem plain_le {m : Nat} {w : Int} (hw : -6144 ≤ w ∧ w ≤ 6144) (he : (3 * (w : Zq)) ^ 2 ^ (m + 1) = 1) :
    -(lvPlain m : Int) ≤ w ∧ w ≤ lvPlain m := by
  by_cases hm : m < 8
  · have h := lv_le (t := 1) hm (by decide) hw (by rw [he]; rfl)
    rw [lvChk, Bool.and_eq_true] at h
    have := Nat.le_of_ble_eq_true h.2
    omega
  · obtain ⟨m, rfl⟩ : ∃ m', m = m' + 8 := ⟨m - 8, by omega⟩
    exact hw

theorem mixed_le {m : Nat} {w : Int} (hw : -6144 ≤ w ∧ w ≤ 6144) (he : (3 * (w : Zq)) ^ 2 ^ (m + 1) = -1) :
    -(lvMixed m : Int) ≤ w ∧ w ≤ lvMixed m := by
  by_cases hm : m < 8
  · have h := lv_le (t := 12288) hm (by decide) hw (by rw [he]; decide)
    rw [lvChk, Bool.and_eq_true] at h
    have := Nat.le_of_ble_eq_true h.1
    omega
  · obtain ⟨m, rfl⟩ : ∃ m', m = m' + 8 := ⟨m - 8, by omega⟩
    exact hw

/-- `(c^(n/2t) * (ω^(n/2t))^j)^(2t) = c^n`. -/
theorem entry_pow {k m : Nat} (hm : m < k) {c ω : Zq} (hω : ω ^ 2 ^ k = 1) (j : Nat) : tw k c ω m j ^ 2 ^ (m + 1) = c ^ 2 ^ k := by
  have e : 2 ^ (k - 1 - m) * 2 ^ (m + 1) = 2 ^ k := by rw [← pow_add]; congr 1; omega
  unfold tw
  rw [← pow_mul, e, mul_pow, ← pow_mul, mul_comm j, pow_mul, hω, one_pow, mul_one]

/-! ### The transforms -/

/-- One round of Gentleman-Sande butterflies with factors in `[-W, W]` maps `[-b, b]` to `[-b', b']` without overflow. -/
def LvStep (W : Nat) (b b' : Int) : Prop :=
  0 ≤ b ∧ 2 * b ≤ b' ∧ 2 * b * W + 50323455 ≤ 4096 * b' + 4095 ∧ 2 * b * W ≤ 8796042698752 ∧ b' ≤ 2147483647

instance (W : Nat) (b b' : Int) : Decidable (LvStep W b b') := inferInstanceAs (Decidable (_ ∧ _ ∧ _ ∧ _ ∧ _))

theorem lv0_step {E : Err → Prop} {n s k W : Nat} {b b' : Int} (hsk : s ≠ k) (h : LvStep W b b') :
    GsBf (R := Zq) E val (bf0 s k) n s k (IB (-b) b) (IB (-b') b') 1 := by
  obtain ⟨h0, h1, h2, h3, h4⟩ := h
  exact bf0_gs hsk fun x y hx hy => ⟨⟨by omega, by omega⟩, ⟨by omega, by omega⟩,
    ⟨by omega, by omega⟩, ⟨by omega, by omega⟩⟩

theorem lv_step {E : Err → Prop} {n s k W : Nat} {b b' w : Int} {ζ : Zq} (hsk : s ≠ k) (h : LvStep W b b')
    (hw : -(W : Int) ≤ w ∧ w ≤ W) (hζ : 3 * (w : Zq) = ζ) :
    GsBf (R := Zq) E val (gsBf w s k) n s k (IB (-b) b) (IB (-b') b') ζ := by
  obtain ⟨h0, h1, h2, h3, h4⟩ := h
  refine gsBf_gs hsk hζ fun x y hx hy => ?_
  have hm := mul_bound (x := x - y) (B := 2 * b) ⟨by omega, by omega⟩ hw
  have hd := red_def ((x - y) * w)
  generalize 2 * b * (W : Int) = P at *
  generalize (x - y) * w = z at *
  generalize Spec.red z = r at *
  exact ⟨⟨by omega, by omega⟩, ⟨by omega, by omega⟩, ⟨by omega, by omega⟩,
    ⟨by omega, by omega⟩, ⟨by omega, by omega⟩⟩

section
variable {k : Nat} {c ω : Zq} {p a : Array Int} {b : Nat → Int}
open Ntt (ne_add_pow)

private theorem half {k : Nat} {ω : Zq} (hω : 0 < k → ω ^ 2 ^ (k - 1) = -1) (hk : 0 < k) : ω ^ 2 ^ k = 1 := by
  obtain ⟨k, rfl⟩ : ∃ k', k = k' + 1 := ⟨k - 1, by omega⟩
  rw [pow_succ, pow_mul, show k = k + 1 - 1 by omega, hω (by omega)]
  ring

theorem lv_gs_rev2std (hk : k ≤ 31) (hω : 0 < k → ω ^ 2 ^ (k - 1) = -1) (hp : RevTable 3 1 ω (-6144) 6144 k p)
    (hb : ∀ m, m < k → LvStep (lvPlain (k - 1 - m)) (b m) (b (m + 1))) (A : Nat → Zq) (ha : a.size = 2 ^ k)
    (hr : InRange (-b 0) (b 0) a) (hA : ∀ i, i < 2 ^ k → coeff a i = A (rev k i)) :
    ∃ a', ntt_red_gs_rev2std a (2 ^ k) p = .ok a' ∧ a'.size = 2 ^ k ∧ InRange (-b k) (b k) a' ∧
      ∀ i, i < 2 ^ k → coeff a' i = ntt (2 ^ k) ω A i := by
  refine total_of_wp (sem_gsRev2std (B := fun m => IB (-b m) (b m)) hk hp.1 hω ?_ ?_ (pw_range ha hr hA))
  · intro m i hm _; exact lv0_step (ne_add_pow _ _) (hb m hm)
  · intro m j r w hm _ hj _ hw
    have hm' : k - 1 - m < k := by omega
    have := hp.entry hm' hj hw
    exact lv_step (ne_add_pow _ _) (hb m hm)
      (plain_le this.1 (by rw [this.2, entry_pow hm' (half hω (by omega)), one_pow])) this.2

theorem lv_gs_std2rev (hk : k ≤ 31) (hω : 0 < k → ω ^ 2 ^ (k - 1) = -1) (hp : StdTable 3 1 ω (-6144) 6144 k p)
    (hb : ∀ m, m < k → LvStep (lvPlain (k - 1 - m)) (b m) (b (m + 1))) (A : Nat → Zq) (ha : a.size = 2 ^ k)
    (hr : InRange (-b 0) (b 0) a) (hA : ∀ i, i < 2 ^ k → coeff a i = A i) :
    ∃ a', ntt_red_gs_std2rev a (2 ^ k) p = .ok a' ∧ a'.size = 2 ^ k ∧ InRange (-b k) (b k) a' ∧
      ∀ i, i < 2 ^ k → coeff a' i = ntt (2 ^ k) ω A (rev k i) := by
  refine total_of_wp (sem_gsStd2rev (B := fun m => IB (-b m) (b m)) hk hp.1 hω ?_ ?_ (pw_range ha hr hA))
  · intro m i hm _; exact lv0_step (ne_add_pow _ _) (hb m hm)
  · intro m i j w hm _ _ hj hw
    have hm' : k - 1 - m < k := by omega
    have := hp.entry hm' hj hw
    exact lv_step (ne_add_pow _ _) (hb m hm)
      (plain_le this.1 (by rw [this.2, entry_pow hm' (half hω (by omega)), one_pow])) this.2

theorem lv_gsmul_rev2std (hk : k ≤ 31) (hω : 0 < k → ω ^ 2 ^ (k - 1) = -1) (hc : c ^ 2 ^ k = -1)
    (hp : RevTable 3 c ω (-6144) 6144 k p)
    (hb : ∀ m, m < k → LvStep (lvMixed (k - 1 - m)) (b m) (b (m + 1))) (A : Nat → Zq) (ha : a.size = 2 ^ k)
    (hr : InRange (-b 0) (b 0) a) (hA : ∀ i, i < 2 ^ k → coeff a i = A (rev k i)) :
    ∃ a', nttmul_red_gs_rev2std a (2 ^ k) p = .ok a' ∧ a'.size = 2 ^ k ∧ InRange (-b k) (b k) a' ∧
      ∀ i, i < 2 ^ k → coeff a' i = c ^ i * ntt (2 ^ k) ω A i := by
  refine total_of_wp (sem_gsMulRev2std (B := fun m => IB (-b m) (b m)) hk hp.1 hω ?_ (pw_range ha hr hA))
  intro m j r w hm hj _ hw
  have hm' : k - 1 - m < k := by omega
  have := hp.entry hm' hj hw
  exact lv_step (ne_add_pow _ _) (hb m hm)
    (mixed_le this.1 (by rw [this.2, entry_pow hm' (half hω (by omega)), hc])) this.2

theorem lv_gsmul_std2rev (hk : k ≤ 31) (hω : 0 < k → ω ^ 2 ^ (k - 1) = -1) (hc : c ^ 2 ^ k = -1)
    (hp : StdTable 3 c ω (-6144) 6144 k p)
    (hb : ∀ m, m < k → LvStep (lvMixed (k - 1 - m)) (b m) (b (m + 1))) (A : Nat → Zq) (ha : a.size = 2 ^ k)
    (hr : InRange (-b 0) (b 0) a) (hA : ∀ i, i < 2 ^ k → coeff a i = A i) :
    ∃ a', nttmul_red_gs_std2rev a (2 ^ k) p = .ok a' ∧ a'.size = 2 ^ k ∧ InRange (-b k) (b k) a' ∧
      ∀ i, i < 2 ^ k → coeff a' i = c ^ rev k i * ntt (2 ^ k) ω A (rev k i) := by
  refine total_of_wp (sem_gsMulStd2rev (B := fun m => IB (-b m) (b m)) hk hp.1 hω ?_ (pw_range ha hr hA))
  intro m i j w hm _ hj hw
  have hm' : k - 1 - m < k := by omega
  have := hp.entry hm' hj hw
  exact lv_step (ne_add_pow _ _) (hb m hm)
    (mixed_le this.1 (by rw [this.2, entry_pow hm' (half hω (by omega)), hc])) this.2

end

/-! ### Bounds for n = 2048 -/

/-- Bounds for 11 rounds starting from `[-b, b]`. -/
def lvSeq (W : Nat → Nat) (b : Int) : Nat → Int
  | 0 => b
  | m + 1 => max (2 * lvSeq W b m) ((2 * lvSeq W b m * W (10 - m) + 50323455) / 4096)

theorem lvP_doc : ∀ m, m < 11 → LvStep (lvPlain (11 - 1 - m)) (lvSeq lvPlain 21499 m) (lvSeq lvPlain 21499 (m + 1)) := by
  decide +kernel
theorem lvM_doc : ∀ m, m < 11 → LvStep (lvMixed (11 - 1 - m)) (lvSeq lvMixed 21499 m) (lvSeq lvMixed 21499 (m + 1)) := by
  decide +kernel
theorem lvP_mid : ∀ m, m < 11 → LvStep (lvPlain (11 - 1 - m)) (lvSeq lvPlain 30717 m) (lvSeq lvPlain 30717 (m + 1)) := by
  decide +kernel
theorem lvP_low : ∀ m, m < 11 → LvStep (lvPlain (11 - 1 - m)) (lvSeq lvPlain 12413 m) (lvSeq lvPlain 12413 (m + 1)) := by
  decide +kernel
theorem lvM_low : ∀ m, m < 11 → LvStep (lvMixed (11 - 1 - m)) (lvSeq lvMixed 12413 m) (lvSeq lvMixed 12413 (m + 1)) := by
  decide +kernel
theorem lv_end : lvSeq lvPlain 21499 11 ≤ 2147483647 ∧ lvSeq lvMixed 21499 11 ≤ 2147483647 ∧ lvSeq lvPlain 30717 11 ≤ 2147483647 ∧
    lvSeq lvPlain 12413 11 ≤ 1100000000 ∧ lvSeq lvMixed 12413 11 ≤ 1100000000 := by decide +kernel

end NttRed
