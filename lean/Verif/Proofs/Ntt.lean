import Verif.Proofs.Arrays
import Verif.Model.Ntt

/-
Proofs about src/ntt.c: scalar operations and butterflies.
-/

namespace Ntt
open C NTT Spec

/-- Elements of `[0, Q-1]`. -/
def Rq (x : Int) : Prop := 0 ≤ x ∧ x ≤ 12288

theorem land32_neg1 : land32 (-1) Q = 12289 := by decide
theorem land32_zero : land32 0 Q = 0 := by decide

theorem zq_Q : ((12289 : Int) : Zq) = 0 := by decide

theorem sar14 {x : Int} (h1 : -16384 ≤ x) (h2 : x < 16384) :
    sar x 14 = if x < 0 then -1 else 0 := by
  unfold sar
  split <;> (norm_num; omega)

theorem wp_sub_mod {E : Err → Prop} {x y : Int} (hx : Rq x) (hy : Rq y) :
    Wp E (sub_mod x y) (fun z => Rq z ∧ (z : Zq) = x - y) := by
  obtain ⟨hx0, hx1⟩ := hx
  obtain ⟨hy0, hy1⟩ := hy
  unfold sub_mod
  rw [wp_bind]
  refine wp_i32 ⟨by omega, by omega⟩ ?_
  rw [sar14 (by omega) (by omega)]
  split
  · rw [land32_neg1]
    refine wp_i32 ⟨by omega, by omega⟩ ⟨⟨by omega, by omega⟩, ?_⟩
    push_cast
    rw [show (12289 : Zq) = 0 by decide]; ring
  · rw [land32_zero]
    refine wp_i32 ⟨by omega, by omega⟩ ⟨⟨by omega, by omega⟩, ?_⟩
    push_cast; ring

theorem wp_add_mod {E : Err → Prop} {x y : Int} (hx : Rq x) (hy : Rq y) :
    Wp E (add_mod x y) (fun z => Rq z ∧ (z : Zq) = x + y) := by
  obtain ⟨hx0, hx1⟩ := hx
  obtain ⟨hy0, hy1⟩ := hy
  unfold add_mod Q
  rw [wp_bind]
  refine wp_i32 ⟨by omega, by omega⟩ ?_
  rw [wp_bind]
  refine wp_i32 ⟨by omega, by omega⟩ ?_
  rw [sar14 (by omega) (by omega)]
  split
  · rw [show land32 (-1) 12289 = 12289 by decide]
    refine wp_i32 ⟨by omega, by omega⟩ ⟨⟨by omega, by omega⟩, ?_⟩
    push_cast; ring
  · rw [show land32 0 12289 = 0 by decide]
    refine wp_i32 ⟨by omega, by omega⟩ ⟨⟨by omega, by omega⟩, ?_⟩
    push_cast
    rw [show (12289 : Zq) = 0 by decide]; ring

theorem divq_eq {x : Int} (h0 : 0 ≤ x) (h1 : x ≤ 150994944) : (divq x : Int) = x / 12289 := by
  obtain ⟨y, rfl⟩ := Int.eq_ofNat_of_zero_le h0
  have hy : y ≤ 150994944 := by omega
  unfold divq toU64 u64 u32
  have e1 : ((y : Int) % 18446744073709551616).toNat = y := by omega
  rw [e1]
  have e2 : y * 178942409 % 18446744073709551616 = y * 178942409 := by omega
  rw [e2, show (2 : Nat) ^ 41 = 2199023255552 by norm_num]
  clear e1 e2 h0 h1
  have e3 : y * 178942409 / 2199023255552 = y / 12289 := by omega
  rw [e3]
  omega

/-- `modq` is reduction modulo 12289 on `[0, (Q-1)^2]`. -/
theorem modq_eq {x : Int} (h0 : 0 ≤ x) (h1 : x ≤ 150994944) : modq x = x % 12289 := by
  have hd := divq_eq h0 h1
  unfold modq toU32 toI32 u32
  generalize divq x = d at hd
  have hd' : d * 12289 % 4294967296 = d * 12289 := by omega
  rw [hd']
  have e1 : ((x % 4294967296).toNat : Int) = x := by omega
  rw [e1]
  push_cast
  omega

theorem rq_mul {x y : Int} (hx : Rq x) (hy : Rq y) : 0 ≤ x * y ∧ x * y ≤ 150994944 := by
  refine ⟨mul_nonneg hx.1 hy.1, ?_⟩
  calc x * y ≤ 12288 * 12288 := mul_le_mul hx.2 hy.2 hy.1 (by norm_num)
    _ = _ := by norm_num

theorem zq_mod (x : Int) : ((x % 12289 : Int) : Zq) = x := by
  have h := Int.emod_add_mul_ediv x 12289
  have : (x : Zq) = ((x % 12289 + 12289 * (x / 12289) : Int) : Zq) := by rw [h]
  rw [this]
  push_cast
  rw [show (12289 : Zq) = 0 by decide]; ring

theorem modq_mul {x y : Int} (hx : Rq x) (hy : Rq y) :
    Rq (modq (x * y)) ∧ ((modq (x * y) : Int) : Zq) = x * y := by
  have h := rq_mul hx hy
  rw [modq_eq h.1 h.2]
  refine ⟨⟨by omega, by omega⟩, ?_⟩
  rw [zq_mod]; push_cast; rfl

theorem i32_mul {x y : Int} (hx : Rq x) (hy : Rq y) : I32 (x * y) := by
  have := rq_mul hx hy
  exact ⟨by omega, by omega⟩

/-! ### Butterflies -/

theorem get_set_ne {α : Type} {a : Array α} {s k : Nat} {v x : α} (hsk : s ≠ k)
    (hx : a[s]? = some x) : (a.setIfInBounds k v)[s]? = some x := by
  rw [Array.getElem?_setIfInBounds, if_neg (fun e => hsk e.symm), hx]

abbrev Bq : Nat → Int → Prop := fun _ x => Rq x

theorem bf0_ct {E : Err → Prop} {n s k : Nat} (hsk : s ≠ k) :
    CtBf (R := Zq) E (fun x : Int => (x : Zq)) (bf0 s k) n s k Bq Bq 1 := by
  intro a x y ha hx hy hbx hby
  unfold bf0
  simp only [wp_bind]
  refine wp_rd_some hy (wp_rd_some hx ?_)
  refine (wp_sub_mod hbx hby).mono ?_
  rintro v ⟨hv, hv'⟩
  refine wp_wr (getElem?_lt hy) (wp_rd_some (get_set_ne hsk hx) ?_)
  refine (wp_add_mod hbx hby).mono ?_
  rintro u ⟨hu, hu'⟩
  refine wp_wr (by simpa using getElem?_lt hx) ⟨u, v, rfl, ⟨hu, ?_⟩, hv, ?_⟩
  · rw [hu']; ring
  · rw [hv']; ring

theorem bf0_gs {E : Err → Prop} {n s k : Nat} (hsk : s ≠ k) :
    GsBf (R := Zq) E (fun x : Int => (x : Zq)) (bf0 s k) n s k Bq Bq 1 := by
  intro a x y ha hx hy hbx hby
  refine (bf0_ct hsk a x y ha hx hy hbx hby).mono ?_
  rintro a' ⟨u, v, e, hu, hv⟩
  refine ⟨u, v, e, ⟨hu.1, ?_⟩, hv.1, ?_⟩
  · rw [hu.2]; ring
  · rw [hv.2]; ring

theorem ctBf_ct {E : Err → Prop} {n s k : Nat} (hsk : s ≠ k) {w : Int} (hw : Rq w) :
    CtBf (R := Zq) E (fun x : Int => (x : Zq)) (ctBf w s k) n s k Bq Bq (w : Zq) := by
  intro a x y ha hx hy hbx hby
  unfold ctBf
  simp only [wp_bind]
  refine wp_rd_some hy (wp_i32 (i32_mul hby hw) (wp_rd_some hx ?_))
  have hm := modq_mul hby hw
  refine (wp_sub_mod hbx hm.1).mono ?_
  rintro v ⟨hv, hv'⟩
  refine wp_wr (getElem?_lt hy) (wp_rd_some (get_set_ne hsk hx) ?_)
  refine (wp_add_mod hbx hm.1).mono ?_
  rintro u ⟨hu, hu'⟩
  refine wp_wr (by simpa using getElem?_lt hx) ⟨u, v, rfl, ⟨hu, ?_⟩, hv, ?_⟩
  · rw [hu', hm.2]; ring
  · rw [hv', hm.2]; ring

theorem gsBf_gs {E : Err → Prop} {n s k : Nat} (hsk : s ≠ k) {w : Int} (hw : Rq w) :
    GsBf (R := Zq) E (fun x : Int => (x : Zq)) (gsBf w s k) n s k Bq Bq (w : Zq) := by
  intro a x y ha hx hy hbx hby
  unfold gsBf
  simp only [wp_bind]
  refine wp_rd_some hy (wp_rd_some hx ?_)
  refine (wp_sub_mod hbx hby).mono ?_
  rintro v ⟨hv, hv'⟩
  refine wp_i32 (i32_mul hv hw) ?_
  have hm := modq_mul hv hw
  refine wp_wr (getElem?_lt hy) (wp_rd_some (get_set_ne hsk hx) ?_)
  refine (wp_add_mod hbx hby).mono ?_
  rintro u ⟨hu, hu'⟩
  refine wp_wr (by simpa using getElem?_lt hx) ⟨u, _, rfl, ⟨hu, ?_⟩, hm.1, ?_⟩
  · rw [hu']
  · rw [hm.2, hv']; ring

/-! ### Transforms -/

/-- Result of a transform: `n` elements of `[0,Q-1]`, element `i` is `F i` modulo `Q`. -/
theorem total_of_wp {m : M (Array Int)} {n : Nat} {F : Nat → Zq}
    (h : Wp NoErr m (PW n (fun i (x : Int) => Bq i x ∧ (x : Zq) = F i))) :
    ∃ a', m = .ok a' ∧ a'.size = n ∧ Reduced a' ∧ ∀ i, i < n → coeff a' i = F i := by
  obtain ⟨a', h1, h2⟩ := wp_total.1 h
  rw [pw_elts] at h2
  exact ⟨a', h1, h2.1, fun i hi => (h2.2 i (by omega)).1, fun i hi => (h2.2 i hi).2⟩

theorem pw_reduced {n : Nat} {a : Array Int} {F : Nat → Zq} (ha : a.size = n) (hr : Reduced a)
    (hF : ∀ i, i < n → coeff a i = F i) :
    PW n (fun i (x : Int) => Bq i x ∧ (x : Zq) = F i) a := by
  rw [pw_elts]
  exact ⟨ha, fun i hi => ⟨hr i (by omega), hF i hi⟩⟩

section
variable {k : Nat} {c ω : Zq} {p a : Array Int}

theorem ne_add_pow (s m : Nat) : s ≠ s + 2 ^ m := by
  have := Nat.two_pow_pos m; omega

theorem run_ct_rev2std (hk : k ≤ 31) (hω : 0 < k → ω ^ 2 ^ (k - 1) = -1)
    (hp : StdTable 1 1 ω 0 12288 k p) (A : Nat → Zq) (ha : a.size = 2 ^ k) (hr : Reduced a)
    (hA : ∀ i, i < 2 ^ k → coeff a i = A (rev k i)) :
    ∃ a', ntt_ct_rev2std a (2 ^ k) p = .ok a' ∧ a'.size = 2 ^ k ∧ Reduced a' ∧
      ∀ i, i < 2 ^ k → coeff a' i = ntt (2 ^ k) ω A i := by
  refine total_of_wp (sem_ctRev2std (B := fun _ => Bq) hk hp.1 hω ?_ ?_ (pw_reduced ha hr hA))
  · intro m b _ _; exact bf0_ct (ne_add_pow _ _)
  · intro m b j w hm _ _ hj hw
    have := hp.entry hm hj hw
    rw [one_mul] at this
    rw [← this.2]
    exact ctBf_ct (ne_add_pow _ _) this.1

theorem run_mulct_rev2std (hk : k ≤ 31) (hω : 0 < k → ω ^ 2 ^ (k - 1) = -1)
    (hp : StdTable 1 c ω 0 12288 k p) (A : Nat → Zq) (ha : a.size = 2 ^ k) (hr : Reduced a)
    (hA : ∀ i, i < 2 ^ k → coeff a i = A (rev k i)) :
    ∃ a', mulntt_ct_rev2std a (2 ^ k) p = .ok a' ∧ a'.size = 2 ^ k ∧ Reduced a' ∧
      ∀ i, i < 2 ^ k → coeff a' i = evalPoly (2 ^ k) A (c * ω ^ i) := by
  refine total_of_wp (sem_mulCtRev2std (B := fun _ => Bq) hk hp.1 hω ?_ (pw_reduced ha hr hA))
  intro m b j w hm _ hj hw
  have := hp.entry hm hj hw
  rw [one_mul] at this
  rw [← this.2]
  exact ctBf_ct (ne_add_pow _ _) this.1

theorem run_ct_std2rev (hk : k ≤ 31) (hω : 0 < k → ω ^ 2 ^ (k - 1) = -1)
    (hp : RevTable 1 1 ω 0 12288 k p) (A : Nat → Zq) (ha : a.size = 2 ^ k) (hr : Reduced a)
    (hA : ∀ i, i < 2 ^ k → coeff a i = A i) :
    ∃ a', ntt_ct_std2rev a (2 ^ k) p = .ok a' ∧ a'.size = 2 ^ k ∧ Reduced a' ∧
      ∀ i, i < 2 ^ k → coeff a' i = ntt (2 ^ k) ω A (rev k i) := by
  refine total_of_wp (sem_ctStd2rev (B := fun _ => Bq) hk hp.1 hω ?_ ?_ (pw_reduced ha hr hA))
  · intro m b _ _; exact bf0_ct (ne_add_pow _ _)
  · intro m j r w hm _ hj _ hw
    have := hp.entry hm hj hw
    rw [one_mul] at this
    rw [← this.2]
    exact ctBf_ct (ne_add_pow _ _) this.1

theorem run_mulct_std2rev (hk : k ≤ 31) (hω : 0 < k → ω ^ 2 ^ (k - 1) = -1)
    (hp : RevTable 1 c ω 0 12288 k p) (A : Nat → Zq) (ha : a.size = 2 ^ k) (hr : Reduced a)
    (hA : ∀ i, i < 2 ^ k → coeff a i = A i) :
    ∃ a', mulntt_ct_std2rev a (2 ^ k) p = .ok a' ∧ a'.size = 2 ^ k ∧ Reduced a' ∧
      ∀ i, i < 2 ^ k → coeff a' i = evalPoly (2 ^ k) A (c * ω ^ rev k i) := by
  refine total_of_wp (sem_mulCtStd2rev (B := fun _ => Bq) hk hp.1 hω ?_ (pw_reduced ha hr hA))
  intro m j r w hm hj _ hw
  have := hp.entry hm hj hw
  rw [one_mul] at this
  rw [← this.2]
  exact ctBf_ct (ne_add_pow _ _) this.1

theorem run_gs_rev2std (hk : k ≤ 31) (hω : 0 < k → ω ^ 2 ^ (k - 1) = -1)
    (hp : RevTable 1 1 ω 0 12288 k p) (A : Nat → Zq) (ha : a.size = 2 ^ k) (hr : Reduced a)
    (hA : ∀ i, i < 2 ^ k → coeff a i = A (rev k i)) :
    ∃ a', ntt_gs_rev2std a (2 ^ k) p = .ok a' ∧ a'.size = 2 ^ k ∧ Reduced a' ∧
      ∀ i, i < 2 ^ k → coeff a' i = ntt (2 ^ k) ω A i := by
  refine total_of_wp (sem_gsRev2std (B := fun _ => Bq) hk hp.1 hω ?_ ?_ (pw_reduced ha hr hA))
  · intro m b _ _; exact bf0_gs (ne_add_pow _ _)
  · intro m j r w hm _ hj _ hw
    have := hp.entry (by omega) hj hw
    rw [one_mul] at this
    rw [← this.2]
    exact gsBf_gs (ne_add_pow _ _) this.1

theorem run_gsmul_rev2std (hk : k ≤ 31) (hω : 0 < k → ω ^ 2 ^ (k - 1) = -1)
    (hp : RevTable 1 c ω 0 12288 k p) (A : Nat → Zq) (ha : a.size = 2 ^ k) (hr : Reduced a)
    (hA : ∀ i, i < 2 ^ k → coeff a i = A (rev k i)) :
    ∃ a', nttmul_gs_rev2std a (2 ^ k) p = .ok a' ∧ a'.size = 2 ^ k ∧ Reduced a' ∧
      ∀ i, i < 2 ^ k → coeff a' i = c ^ i * ntt (2 ^ k) ω A i := by
  refine total_of_wp (sem_gsMulRev2std (B := fun _ => Bq) hk hp.1 hω ?_ (pw_reduced ha hr hA))
  intro m j r w hm hj _ hw
  have := hp.entry (by omega) hj hw
  rw [one_mul] at this
  rw [← this.2]
  exact gsBf_gs (ne_add_pow _ _) this.1

theorem run_gs_std2rev (hk : k ≤ 31) (hω : 0 < k → ω ^ 2 ^ (k - 1) = -1)
    (hp : StdTable 1 1 ω 0 12288 k p) (A : Nat → Zq) (ha : a.size = 2 ^ k) (hr : Reduced a)
    (hA : ∀ i, i < 2 ^ k → coeff a i = A i) :
    ∃ a', ntt_gs_std2rev a (2 ^ k) p = .ok a' ∧ a'.size = 2 ^ k ∧ Reduced a' ∧
      ∀ i, i < 2 ^ k → coeff a' i = ntt (2 ^ k) ω A (rev k i) := by
  refine total_of_wp (sem_gsStd2rev (B := fun _ => Bq) hk hp.1 hω ?_ ?_ (pw_reduced ha hr hA))
  · intro m b _ _; exact bf0_gs (ne_add_pow _ _)
  · intro m b j w hm _ _ hj hw
    have := hp.entry (by omega) hj hw
    rw [one_mul] at this
    rw [← this.2]
    exact gsBf_gs (ne_add_pow _ _) this.1

theorem run_gsmul_std2rev (hk : k ≤ 31) (hω : 0 < k → ω ^ 2 ^ (k - 1) = -1)
    (hp : StdTable 1 c ω 0 12288 k p) (A : Nat → Zq) (ha : a.size = 2 ^ k) (hr : Reduced a)
    (hA : ∀ i, i < 2 ^ k → coeff a i = A i) :
    ∃ a', nttmul_gs_std2rev a (2 ^ k) p = .ok a' ∧ a'.size = 2 ^ k ∧ Reduced a' ∧
      ∀ i, i < 2 ^ k → coeff a' i = c ^ rev k i * ntt (2 ^ k) ω A (rev k i) := by
  refine total_of_wp (sem_gsMulStd2rev (B := fun _ => Bq) hk hp.1 hω ?_ (pw_reduced ha hr hA))
  intro m b j w hm _ hj hw
  have := hp.entry (by omega) hj hw
  rw [one_mul] at this
  rw [← this.2]
  exact gsBf_gs (ne_add_pow _ _) this.1

/-- Version 1: the table holds the powers of `psi`, `ω = psi^2`. -/
theorem run_ct_rev2std_v1 {ψ : Zq} (hk : k ≤ 31) (hω : 0 < k → (ψ ^ 2) ^ 2 ^ (k - 1) = -1)
    (hp : PowTable 1 1 ψ 0 12288 (2 ^ k) p) (A : Nat → Zq) (ha : a.size = 2 ^ k) (hr : Reduced a)
    (hA : ∀ i, i < 2 ^ k → coeff a i = A (rev k i)) :
    ∃ a', ntt_ct_rev2std_v1 a (2 ^ k) p = .ok a' ∧ a'.size = 2 ^ k ∧ Reduced a' ∧
      ∀ i, i < 2 ^ k → coeff a' i = ntt (2 ^ k) (ψ ^ 2) A i := by
  refine total_of_wp (sem_ctRev2stdV1 (B := fun _ => Bq) hk hp.1 hω ?_ ?_ (pw_reduced ha hr hA))
  · intro m b _ _; exact bf0_ct (ne_add_pow _ _)
  · intro m b j w hm _ _ hj hw
    have hlt : j * 2 ^ (k - m) < 2 ^ k := by
      have h1 : (j + 1) * 2 ^ (k - m) ≤ 2 ^ m * 2 ^ (k - m) := Nat.mul_le_mul_right _ hj
      rw [← Nat.pow_add, show m + (k - m) = k by omega, Nat.add_mul] at h1
      have := Nat.two_pow_pos (k - m)
      omega
    have := hp.2 _ hlt
    unfold coeff at this
    rw [elt_of_some hw, one_mul, one_mul] at this
    have e : tw k 1 (ψ ^ 2) m j = (w : Zq) := by
      rw [this.2]; unfold tw
      rw [one_mul, ← pow_mul, ← pow_mul, show k - m = (k - 1 - m) + 1 by omega, Nat.pow_succ]
      congr 1; ring
    rw [e]
    exact ctBf_ct (ne_add_pow _ _) this.1

end

/-! ### Elementwise products -/

theorem run_mul_array16 {n : Nat} (hn : n < 4294967296) {a p : Array Int} (ha : a.size = n)
    (hr : Reduced a) (hp : n ≤ p.size) (hpr : ∀ i, i < n → 0 ≤ elt p i ∧ elt p i ≤ 12288) :
    ∃ a', mul_array16 a n p = .ok a' ∧ a'.size = n ∧ Reduced a' ∧
      ∀ i, i < n → coeff a' i = coeff a i * coeff p i := by
  refine total_of_wp (wp_map hn (Pre := fun i (x : Int) => Bq i x ∧ (x : Zq) = coeff a i) ?_
    (pw_reduced ha hr (fun _ _ => rfl)))
  intro i a1 x hi hs hx hP
  simp only [wp_bind]
  have hy := some_elt (a := p) (i := i) (by omega)
  refine wp_rd_some hx (wp_rd_some hy (wp_i32 (i32_mul hP.1 (hpr i hi)) ?_))
  have hm := modq_mul hP.1 (hpr i hi)
  refine wp_wr (by omega) ⟨_, rfl, hm.1, ?_⟩
  rw [hm.2, hP.2]; rfl

theorem run_mul_array {n : Nat} (hn : n < 4294967296) {a b c : Array Int} (hc : c.size = n)
    (ha : a.size = n) (hra : Reduced a) (hb : b.size = n) (hrb : Reduced b) :
    ∃ c', mul_array c n a b = .ok c' ∧ c'.size = n ∧ Reduced c' ∧
      ∀ i, i < n → coeff c' i = coeff a i * coeff b i := by
  refine total_of_wp (wp_map hn (Pre := fun _ _ => True) ?_ (pw_elts.2 ⟨hc, fun _ _ => trivial⟩))
  intro i a1 x hi hs hx hP
  simp only [wp_bind]
  have hax := some_elt (a := a) (i := i) (by omega)
  have hbx := some_elt (a := b) (i := i) (by omega)
  refine wp_rd_some hax (wp_rd_some hbx (wp_i32 (i32_mul (hra i (by omega)) (hrb i (by omega))) ?_))
  have hm := modq_mul (hra i (by omega)) (hrb i (by omega))
  refine wp_wr (by omega) ⟨_, rfl, hm.1, ?_⟩
  rw [hm.2]; rfl

theorem run_scalar_mul_array {n : Nat} (hn : n < 4294967296) {a : Array Int} {c : Int}
    (ha : a.size = n) (hr : Reduced a) (hc : Rq c) :
    ∃ a', scalar_mul_array a n c = .ok a' ∧ a'.size = n ∧ Reduced a' ∧
      ∀ i, i < n → coeff a' i = coeff a i * (c : Zq) := by
  refine total_of_wp (wp_map hn (Pre := fun i (x : Int) => Bq i x ∧ (x : Zq) = coeff a i) ?_
    (pw_reduced ha hr (fun _ _ => rfl)))
  intro i a1 x hi hs hx hP
  simp only [wp_bind]
  refine wp_rd_some hx (wp_i32 (i32_mul hP.1 hc) ?_)
  have hm := modq_mul hP.1 hc
  refine wp_wr (by omega) ⟨_, rfl, hm.1, ?_⟩
  rw [hm.2, hP.2]

end Ntt
