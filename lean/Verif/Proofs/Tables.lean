import Verif.Proofs.TablesArith
import Verif.Proofs.Arrays

/-
Proofs about the table builders and the main programs of the table generators.
-/

namespace Tables
open C Spec NTT

theorem mm (a b q : Nat) : (a % q * b) % q = a * b % q := by
  rw [Nat.mul_mod, Nat.mod_mod, ← Nat.mul_mod]

/-! ### build_power_table -/

theorem wp_build_power_table {E : Err → Prop} {a : Array Nat} {n q x y : Nat} (hn : n < 4294967296)
    (ha : a.size = n) (hq : 2 ≤ q) (hq' : q ≤ 65536) (hx : x < q) (hy : y < 65536) :
    Wp E (build_power_table a n q x y)
      (fun r => r.size = n ∧ ∀ i, i < n → r[i]? = some (x * y ^ i % q)) := by
  unfold build_power_table
  rw [wp_bind]
  refine wp_forUp1 (fun i (st : Nat × Array Nat) => st.1 = x * y ^ i % q ∧ st.2.size = n ∧
    ∀ j, j < i → st.2[j]? = some (x * y ^ j % q)) hn (by omega) ?_ ?_ ?_
  · refine ⟨?_, ha, fun j hj => by omega⟩
    simp only [pow_zero, mul_one]
    exact (Nat.mod_eq_of_lt hx).symm
  · rintro i ⟨v, b⟩ _ hi ⟨h1, h2, h3⟩
    simp only at h1 h2 h3
    subst h1
    have hlt : x * y ^ i % q < q := Nat.mod_lt _ (by omega)
    simp only [wp_bind]
    refine wp_wr (by omega) (wp_urem (by omega) (wp_pure.2 ⟨?_, by simpa using h2, ?_⟩))
    · simp only
      rw [u32_mul (by omega) hy, mm, pow_succ, mul_assoc]
    · intro j hj
      simp only [Array.getElem?_setIfInBounds]
      by_cases h : i = j
      · subst h; rw [if_pos rfl, if_pos (by omega)]
      · rw [if_neg h]; exact h3 j (by omega)
  · rintro ⟨v, b⟩ ⟨_, h2, h3⟩
    exact wp_pure.2 ⟨h2, h3⟩

/-! ### build_table and build_rev_table -/

/-- Exponent used in round `m` for size `2^k`. -/
abbrev ex (k m : Nat) : Nat := 2 ^ k / (2 * 2 ^ m)

/-- Entry `j` of round `m`. -/
abbrev T (k q x y s m j : Nat) : Nat := s * x ^ ex k m * (y ^ ex k m) ^ j % q

theorem u32_two_pow {k m : Nat} (hk : k ≤ 31) (hm : m < k) : u32 (2 * 2 ^ m) = 2 * 2 ^ m := by
  have : 2 ^ (m + 1) ≤ 2 ^ 31 := Nat.pow_le_pow_right (by omega) (by omega)
  unfold u32
  rw [pow_succ] at this
  norm_num at this
  omega

theorem ex_lt {k m : Nat} (hk : k ≤ 31) : ex k m < 4294967296 := by
  have : 2 ^ k ≤ 2 ^ 31 := Nat.pow_le_pow_right (by omega) hk
  refine Nat.lt_of_le_of_lt (Nat.div_le_self _ _) ?_
  norm_num at this ⊢
  omega

theorem wp_buildInner {E : Err → Prop} {k m q x y s c : Nat} {a : Array Nat} (hk : k ≤ 31)
    (hm : m < k) (ha : a.size = 2 ^ k) (hq : 2 ≤ q) (hq' : q ≤ 65536) (hy : y < 65536)
    (hc : c = y ^ ex k m % q) :
    Wp E (buildInner (2 ^ k) q (2 ^ m) c (2 ^ m, s * x ^ ex k m % q, a))
      (fun r => r.1 = 2 ^ (m + 1) ∧ r.2.2.size = 2 ^ k ∧
        (∀ i, i < 2 ^ m → r.2.2[i]? = a[i]?) ∧
        (∀ j, j < 2 ^ m → r.2.2[2 ^ m + j]? = some (T k q x y s m j))) := by
  have hpk : 2 ^ (m + 1) ≤ 2 ^ k := Nat.pow_le_pow_right (by omega) (by omega)
  have hpk' : 2 ^ k ≤ 2 ^ 31 := Nat.pow_le_pow_right (by omega) hk
  norm_num at hpk'
  rw [pow_succ] at hpk
  unfold buildInner
  refine wp_forUp1 (fun j (st : Nat × Nat × Array Nat) => st.1 = 2 ^ m + j ∧
    st.2.1 = T k q x y s m j ∧ st.2.2.size = 2 ^ k ∧ (∀ i, i < 2 ^ m → st.2.2[i]? = a[i]?) ∧
    (∀ j', j' < j → st.2.2[2 ^ m + j']? = some (T k q x y s m j'))) (by omega) (by omega) ?_ ?_ ?_
  · refine ⟨rfl, ?_, ha, fun _ _ => rfl, fun j hj => by omega⟩
    simp [T]
  · rintro j ⟨i, b, a1⟩ _ hj ⟨h1, h2, h3, h4, h5⟩
    simp only at h1 h2 h3 h4 h5
    subst h1 h2
    have hu : u32 (2 ^ m + j) = 2 ^ m + j := by unfold u32; omega
    have hu1 : u32 (2 ^ m + j + 1) = 2 ^ m + j + 1 := by unfold u32; omega
    have hcl : c < 65536 := by
      rw [hc]; exact Nat.lt_of_lt_of_le (Nat.mod_lt _ (by omega)) hq'
    have hTl : T k q x y s m j < 65536 :=
      Nat.lt_of_lt_of_le (Nat.mod_lt _ (by omega)) hq'
    simp only [wp_bind]
    refine wp_cassert (by simp only [hu]; simp; omega) ?_
    refine wp_wr (by omega) (wp_urem (by omega) (wp_pure.2 ⟨hu1, ?_, by simpa using h3, ?_, ?_⟩))
    · simp only
      rw [u32_mul hTl hcl, mm, hc, Nat.mul_mod, Nat.mod_mod, ← Nat.mul_mod]
      show _ = s * x ^ ex k m * (y ^ ex k m) ^ (j + 1) % q
      rw [pow_succ, mul_assoc (s * x ^ ex k m)]
    · intro i hi
      simp only [Array.getElem?_setIfInBounds]
      rw [if_neg (by omega)]; exact h4 i hi
    · intro j' hj'
      simp only [Array.getElem?_setIfInBounds]
      by_cases h : j = j'
      · subst h; rw [if_pos rfl, if_pos (by omega)]
      · rw [if_neg (by omega)]; exact h5 j' (by omega)
  · rintro ⟨i, b, a1⟩ ⟨h1, h2, h3, h4, h5⟩
    simp only at h1 h2 h3 h4 h5
    exact ⟨by simp only; rw [h1, pow_succ]; omega, h3, h4, h5⟩

/-- The scaling factor used by a builder. -/
def scale (ik : Option Nat) : Nat := ik.getD 1

theorem wp_scale {E : Err → Prop} {ik : Option Nat} {q b : Nat} (hq : 2 ≤ q) (hq' : q ≤ 65536)
    (hik : ∀ s, ik = some s → s < 65536) (hb : b < q) {P : Nat → Prop}
    (h : P (scale ik * b % q)) :
    Wp E (match ik with
      | none => (.ok b : M Nat)
      | some s => urem (u32 (b * s)) q) P := by
  cases ik with
  | none =>
    simp only [wp_ok]
    simpa [scale, Nat.mod_eq_of_lt hb] using h
  | some s =>
    simp only
    refine wp_urem (by omega) ?_
    rw [u32_mul (by omega) (hik s rfl), mul_comm]
    exact h

theorem wp_build_table {E : Err → Prop} {k q x y : Nat} {ik : Option Nat} {a : Array Nat}
    (hk : k ≤ 31) (ha : a.size = 2 ^ k) (hq : 2 ≤ q) (hq' : q ≤ 65536)
    (hx : x < 65536) (hy : y < 65536) (hik : ∀ s, ik = some s → s < 65536) :
    Wp E (build_table a (2 ^ k) q x y ik)
      (fun r => r.size = 2 ^ k ∧ r[0]? = some 0 ∧
        ∀ m j, m < k → j < 2 ^ m → r[2 ^ m + j]? = some (T k q x y (scale ik) m j)) := by
  have hpos := Nat.two_pow_pos k
  unfold build_table
  simp only [wp_bind]
  refine wp_wr (by omega) ?_
  refine wp_forShl (fun m (st : Nat × Array Nat) => st.1 = 2 ^ m ∧ st.2.size = 2 ^ k ∧
    st.2[0]? = some 0 ∧
    ∀ m' j, m' < m → j < 2 ^ m' → st.2[2 ^ m' + j]? = some (T k q x y (scale ik) m' j)) hk ?_ ?_ ?_
  · refine ⟨rfl, by simpa using ha, ?_, fun m' j h => by omega⟩
    simp [ha]
  · rintro m ⟨i, a1⟩ hm ⟨h1, h2, h3, h4⟩
    simp only at h1 h2 h3 h4
    subst h1
    rw [u32_two_pow hk hm]
    simp only [wp_bind]
    have hud : udiv (2 ^ k) (2 * 2 ^ m) = .ok (ex k m) := by
      unfold udiv
      rw [if_neg (by have := Nat.two_pow_pos m; omega)]
    rw [hud, wp_ok]
    refine (wp_power hq hq' hx (ex_lt hk)).mono ?_
    rintro b rfl
    refine (wp_power hq hq' hy (ex_lt hk)).mono ?_
    intro c hc
    refine wp_scale hq hq' hik (Nat.mod_lt _ (by omega)) ?_
    have e : scale ik * (x ^ ex k m % q) % q = scale ik * x ^ ex k m % q := by
      rw [mul_comm, mm, mul_comm]
    rw [e]
    refine (wp_buildInner hk hm h2 hq hq' hy hc).mono ?_
    rintro ⟨i', b', a2⟩ ⟨g1, g2, g3, g4⟩
    simp only at g1 g2 g3 g4
    refine wp_pure.2 ⟨g1, g2, ?_, ?_⟩
    · simp only
      rw [g3 0 (Nat.two_pow_pos m), h3]
    · intro m' j hm' hj
      simp only
      rcases Nat.lt_or_ge m' m with h | h
      · have : 2 ^ (m' + 1) ≤ 2 ^ m := Nat.pow_le_pow_right (by omega) h
        rw [pow_succ] at this
        rw [g3 _ (by omega)]
        exact h4 m' j h hj
      · have : m' = m := by omega
        subst this
        exact g4 j hj
  · rintro ⟨i, a1⟩ ⟨_, h2, h3, h4⟩
    exact wp_pure.2 ⟨h2, h3, h4⟩

theorem wp_buildRevInner {E : Err → Prop} {k m q x y s c : Nat} {a : Array Nat} (hk : k ≤ 31)
    (hm : m < k) (ha : a.size = 2 ^ k) (hq : 2 ≤ q) (hq' : q ≤ 65536) (hy : y < 65536)
    (hc : c = y ^ ex k m % q) :
    Wp E (buildRevInner q (2 ^ m) m c (s * x ^ ex k m % q, a))
      (fun r => r.2.size = 2 ^ k ∧
        (∀ i, i < 2 ^ m → r.2[i]? = a[i]?) ∧
        (∀ j, j < 2 ^ m → r.2[2 ^ m + j]? = some (T k q x y s m (rev m j)))) := by
  have hpk : 2 ^ (m + 1) ≤ 2 ^ k := Nat.pow_le_pow_right (by omega) (by omega)
  have hpk' : 2 ^ k ≤ 2 ^ 31 := Nat.pow_le_pow_right (by omega) hk
  norm_num at hpk'
  rw [pow_succ] at hpk
  unfold buildRevInner
  refine wp_forUp1 (fun j (st : Nat × Array Nat) =>
    st.1 = T k q x y s m j ∧ st.2.size = 2 ^ k ∧ (∀ i, i < 2 ^ m → st.2[i]? = a[i]?) ∧
    (∀ j', j' < j → st.2[2 ^ m + rev m j']? = some (T k q x y s m j'))) (by omega) (by omega) ?_ ?_ ?_
  · refine ⟨?_, ha, fun _ _ => rfl, fun j hj => by omega⟩
    simp [T]
  · rintro j ⟨b, a1⟩ _ hj ⟨h2, h3, h4, h5⟩
    simp only at h2 h3 h4 h5
    subst h2
    have hr := rev_lt m j
    have hu : u32 (2 ^ m + rev m j) = 2 ^ m + rev m j := by unfold u32; omega
    have hcl : c < 65536 := by
      rw [hc]; exact Nat.lt_of_lt_of_le (Nat.mod_lt _ (by omega)) hq'
    have hTl : T k q x y s m j < 65536 :=
      Nat.lt_of_lt_of_le (Nat.mod_lt _ (by omega)) hq'
    simp only [wp_bind, reverse_eq (show m ≤ 32 by omega), wp_ok, hu, u32_two_pow hk hm]
    refine wp_cassert (by simp; omega) ?_
    refine wp_wr (by omega) (wp_urem (by omega) (wp_pure.2 ⟨?_, by simpa using h3, ?_, ?_⟩))
    · simp only
      rw [u32_mul hTl hcl, mm, hc, Nat.mul_mod, Nat.mod_mod, ← Nat.mul_mod]
      show _ = s * x ^ ex k m * (y ^ ex k m) ^ (j + 1) % q
      rw [pow_succ, mul_assoc (s * x ^ ex k m)]
    · intro i hi
      simp only [Array.getElem?_setIfInBounds]
      rw [if_neg (by omega)]; exact h4 i hi
    · intro j' hj'
      simp only [Array.getElem?_setIfInBounds]
      by_cases h : j = j'
      · subst h; rw [if_pos rfl, if_pos (by omega)]
      · rw [if_neg ?_]
        · exact h5 j' (by omega)
        · intro he
          apply h
          rw [← rev_rev m j hj, ← rev_rev m j' (by omega), show rev m j = rev m j' by omega]
  · rintro ⟨b, a1⟩ ⟨h2, h3, h4, h5⟩
    simp only at h2 h3 h4 h5
    refine ⟨h3, h4, fun j hj => ?_⟩
    have := h5 (rev m j) (rev_lt m j)
    rwa [rev_rev m j hj] at this

theorem wp_build_rev_table {E : Err → Prop} {k q x y : Nat} {ik : Option Nat} {a : Array Nat}
    (hk : k ≤ 31) (ha : a.size = 2 ^ k) (hq : 2 ≤ q) (hq' : q ≤ 65536)
    (hx : x < 65536) (hy : y < 65536) (hik : ∀ s, ik = some s → s < 65536) :
    Wp E (build_rev_table a (2 ^ k) q x y ik)
      (fun r => r.size = 2 ^ k ∧ r[0]? = some 0 ∧
        ∀ m j, m < k → j < 2 ^ m → r[2 ^ m + j]? = some (T k q x y (scale ik) m (rev m j))) := by
  have hpos := Nat.two_pow_pos k
  unfold build_rev_table
  simp only [wp_bind]
  refine wp_wr (by omega) ?_
  refine wp_forShl (fun m (st : Nat × Array Nat) => st.1 = m ∧ st.2.size = 2 ^ k ∧
    st.2[0]? = some 0 ∧
    ∀ m' j, m' < m → j < 2 ^ m' → st.2[2 ^ m' + j]? = some (T k q x y (scale ik) m' (rev m' j)))
    hk ?_ ?_ ?_
  · refine ⟨rfl, by simpa using ha, ?_, fun m' j h => by omega⟩
    simp [ha]
  · rintro m ⟨i, a1⟩ hm ⟨h1, h2, h3, h4⟩
    simp only at h1 h2 h3 h4
    subst h1
    rw [u32_two_pow hk hm]
    simp only [wp_bind]
    have hud : udiv (2 ^ k) (2 * 2 ^ i) = .ok (ex k i) := by
      unfold udiv
      rw [if_neg (by have := Nat.two_pow_pos i; omega)]
    rw [hud, wp_ok]
    refine (wp_power hq hq' hx (ex_lt hk)).mono ?_
    rintro b rfl
    refine (wp_power hq hq' hy (ex_lt hk)).mono ?_
    intro c hc
    refine wp_scale hq hq' hik (Nat.mod_lt _ (by omega)) ?_
    have e : scale ik * (x ^ ex k i % q) % q = scale ik * x ^ ex k i % q := by
      rw [mul_comm, mm, mul_comm]
    rw [e]
    refine (wp_buildRevInner hk hm h2 hq hq' hy hc).mono ?_
    rintro ⟨b', a2⟩ ⟨g2, g3, g4⟩
    simp only at g2 g3 g4
    refine wp_pure.2 ⟨by simp only [u32]; omega, g2, ?_, ?_⟩
    · simp only
      rw [g3 0 (Nat.two_pow_pos i), h3]
    · intro m' j hm' hj
      simp only
      rcases Nat.lt_or_ge m' i with h | h
      · have : 2 ^ (m' + 1) ≤ 2 ^ i := Nat.pow_le_pow_right (by omega) h
        rw [pow_succ] at this
        rw [g3 _ (by omega)]
        exact h4 m' j h hj
      · have : m' = i := by omega
        subst this
        exact g4 j hj
  · rintro ⟨i, a1⟩ ⟨_, h2, h3, h4⟩
    exact wp_pure.2 ⟨h2, h3, h4⟩

/-! ### Printed tables -/

/-- How an entry is printed: the printed integer is in `[lo, hi]` and congruent to the entry. -/
def Printed (lo hi : Int) (r : Array Nat) (p : Array Int) : Prop :=
  p.size = r.size ∧ ∀ (i v : Nat), r[i]? = some v → v < 12289 →
    (lo ≤ elt p i ∧ elt p i ≤ hi) ∧ coeff p i = (v : Zq)

theorem printU16_spec (r : Array Nat) : Printed 0 12288 r (printU16 r) := by
  refine ⟨by simp [printU16], ?_⟩
  intro i v hv hlt
  have : (printU16 r)[i]? = some (((v % 65536 : Nat) : Int)) := by
    simp [printU16, hv]
  rw [Nat.mod_eq_of_lt (by omega)] at this
  unfold coeff
  rw [elt_of_some this]
  exact ⟨⟨by omega, by omega⟩, by simp⟩

theorem shift_eq {E : Err → Prop} {v : Nat} (hv : v < 12289) {P : Int → Prop}
    (h : P (if v ≤ 6144 then (v : Int) else (v : Int) - 12289)) : Wp E (shift v 12289) P := by
  unfold shift
  rw [wp_bind]
  refine wp_cassert (by simpa using hv) (wp_pure.2 ?_)
  have : (if v ≤ 12289 / 2 then (v : Int) else toI32 ((v : Int) - (12289 : Nat)))
      = (if v ≤ 6144 then (v : Int) else (v : Int) - 12289) := by
    norm_num
    split
    · rfl
    · unfold toI32; omega
  rw [this]; exact h

theorem printI16_spec {E : Err → Prop} {r : Array Nat} (hsz : r.size < 4294967296)
    (hlt : ∀ (i v : Nat), r[i]? = some v → v < 12289) :
    Wp E (printI16 r r.size 12289) (fun p => Printed (-6144) 6144 r p) := by
  unfold printI16
  refine wp_forUp1 (fun i (p : Array Int) => p.size = i ∧ ∀ j v, j < i → r[j]? = some v →
    p[j]? = some (if v ≤ 6144 then (v : Int) else (v : Int) - 12289)) hsz (by omega) ?_ ?_ ?_
  · exact ⟨rfl, fun j v h => by omega⟩
  · rintro i p _ hi ⟨h1, h2⟩
    simp only [wp_bind]
    refine wp_rd hi fun x hx => ?_
    have hxl := hlt i x hx
    refine shift_eq hxl (wp_pure.2 ⟨by simp [h1], ?_⟩)
    intro j v hj hv
    rw [Array.getElem?_push]
    split
    · next h =>
      have : j = i := by omega
      subst this
      rw [hx] at hv
      injection hv with hv
      subst hv
      congr 1
      unfold toI16
      split <;> omega
    · next h => exact h2 j v (by omega) hv
  · rintro p ⟨h1, h2⟩
    refine ⟨h1, fun i v hv hl => ?_⟩
    have := h2 i v (getElem?_lt hv) hv
    unfold coeff
    rw [elt_of_some this]
    refine ⟨by split <;> omega, ?_⟩
    split
    · simp
    · push_cast
      rw [show (12289 : Zq) = 0 by decide]; ring

theorem cast_mod (v : Nat) : ((v % 12289 : Nat) : Zq) = v := ZMod.natCast_mod v 12289

theorem powTable_of {n x y s : Nat} {r : Array Nat} {p : Array Int} {lo hi : Int} {κ : Zq}
    (hs : r.size = n) (h : ∀ i, i < n → r[i]? = some (x * y ^ i % 12289))
    (hp : Printed lo hi r p) (hκ : κ * x = s) : PowTable κ s y lo hi n p := by
  refine ⟨by rw [hp.1, hs], fun i hi => ?_⟩
  obtain ⟨h1, h2⟩ := hp.2 i _ (h i hi) (Nat.mod_lt _ (by norm_num))
  refine ⟨h1, ?_⟩
  rw [h2, cast_mod, ← hκ]
  push_cast; ring

theorem stdTable_of {k x y s : Nat} {r : Array Nat} {p : Array Int} {lo hi : Int} {κ : Zq}
    (hs : r.size = 2 ^ k)
    (h : ∀ m j, m < k → j < 2 ^ m → r[2 ^ m + j]? = some (T k 12289 x y s m j))
    (hp : Printed lo hi r p) (hκ : κ * s = 1) : StdTable κ x y lo hi k p := by
  refine ⟨by rw [hp.1, hs], fun m j hm hj => ?_⟩
  obtain ⟨h1, h2⟩ := hp.2 _ _ (h m j hm hj) (Nat.mod_lt _ (by norm_num))
  refine ⟨h1, ?_⟩
  rw [h2, cast_mod]
  push_cast
  linear_combination (x : Zq) ^ (2 ^ k / (2 * 2 ^ m)) * ((y : Zq) ^ (2 ^ k / (2 * 2 ^ m))) ^ j * hκ

theorem revTable_of {k x y s : Nat} {r : Array Nat} {p : Array Int} {lo hi : Int} {κ : Zq}
    (hs : r.size = 2 ^ k)
    (h : ∀ m j, m < k → j < 2 ^ m → r[2 ^ m + j]? = some (T k 12289 x y s m (rev m j)))
    (hp : Printed lo hi r p) (hκ : κ * s = 1) : RevTable κ x y lo hi k p := by
  refine ⟨by rw [hp.1, hs], fun m j hm hj => ?_⟩
  obtain ⟨h1, h2⟩ := hp.2 _ _ (h m j hm hj) (Nat.mod_lt _ (by norm_num))
  refine ⟨h1, ?_⟩
  rw [h2, cast_mod]
  push_cast
  linear_combination (x : Zq) ^ (2 ^ k / (2 * 2 ^ m)) *
    ((y : Zq) ^ (2 ^ k / (2 * 2 ^ m))) ^ (rev m j) * hκ

/-- All entries of a built table are reduced. -/
theorem entries_lt {k : Nat} {r : Array Nat} {F : Nat → Nat → Nat} (hs : r.size = 2 ^ k)
    (h0 : r[0]? = some 0)
    (h : ∀ m j, m < k → j < 2 ^ m → r[2 ^ m + j]? = some (F m j % 12289)) :
    ∀ (i v : Nat), r[i]? = some v → v < 12289 := by
  intro i v hv
  rcases Nat.eq_zero_or_pos i with hi | hi
  · subst hi
    rw [h0] at hv
    injection hv with hv
    omega
  · have hik : i < 2 ^ k := by have := getElem?_lt hv; omega
    have h1 : 2 ^ Nat.log2 i ≤ i := Nat.log2_self_le (by omega)
    have h2 : i < 2 ^ (Nat.log2 i + 1) := Nat.lt_log2_self
    have h3 : Nat.log2 i < k := (Nat.log2_lt (by omega)).2 hik
    rw [pow_succ] at h2
    have := h (Nat.log2 i) (i - 2 ^ Nat.log2 i) h3 (by omega)
    rw [show 2 ^ Nat.log2 i + (i - 2 ^ Nat.log2 i) = i by omega, hv] at this
    injection this with this
    rw [this]
    exact Nat.mod_lt _ (by norm_num)

end Tables
