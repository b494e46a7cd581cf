import Verif.Proofs.Wp
import Verif.Model.Skeleton
import Mathlib.Tactic.Ring
import Mathlib.Tactic.Linarith

/-
Hoare rules for the loop nests of `Verif/Model/Skeleton.lean`.

`PW n P a`: the array `a` has `n` elements and element `i` satisfies `P i`.
`BfSpec E bf n s k Pre Post`: the butterfly `bf` on the pair of indices `(s,k)` changes only these
two elements and takes them from `Pre` to `Post`.

The main rules say: if the butterflies of round `m` take each pair from `P m` to `P (m+1)`,
then the whole transform takes the array from `P 0` to `P k` (`n = 2^k`).
-/

namespace NTT
open C

variable {α τ : Type}

/-- Pointwise property of an array of size `n`. -/
def PW (n : Nat) (P : Nat → α → Prop) (a : Array α) : Prop :=
  a.size = n ∧ ∀ i x, a[i]? = some x → P i x

/-- Specification of one butterfly on the pair `(s,k)`. -/
def BfSpec (E : Err → Prop) (bf : Array α → M (Array α)) (n s k : Nat)
    (Pre Post : Nat → α → Prop) : Prop :=
  ∀ a x y, a.size = n → a[s]? = some x → a[k]? = some y → Pre s x → Pre k y →
    Wp E (bf a) (fun a' => ∃ u v, a' = (a.setIfInBounds k v).setIfInBounds s u ∧
      Post s u ∧ Post k v)

/-- Some pairs (those with `done`) have been processed. -/
def Mid (n : Nat) (Pre Post : Nat → α → Prop) (done : Nat → Prop) (a : Array α) : Prop :=
  a.size = n ∧ ∀ i x, a[i]? = some x → (done i → Post i x) ∧ (¬ done i → Pre i x)

theorem Mid.congr {n : Nat} {Pre Post : Nat → α → Prop} {d d' : Nat → Prop} {a : Array α}
    (h : Mid n Pre Post d a) (hd : ∀ i, i < n → (d i ↔ d' i)) : Mid n Pre Post d' a := by
  refine ⟨h.1, fun i x hx => ?_⟩
  have hi : i < n := by
    have := (Array.getElem?_eq_some_iff.1 hx).1
    rw [← h.1]; exact this
  rw [← hd i hi]
  exact h.2 i x hx

theorem PW.mid {n : Nat} {Pre Post : Nat → α → Prop} {d : Nat → Prop} {a : Array α}
    (h : PW n Pre a) (hd : ∀ i, i < n → ¬ d i) : Mid n Pre Post d a := by
  refine ⟨h.1, fun i x hx => ⟨fun hdi => ?_, fun _ => h.2 i x hx⟩⟩
  have hi : i < n := by
    have := (Array.getElem?_eq_some_iff.1 hx).1
    rw [← h.1]; exact this
  exact absurd hdi (hd i hi)

theorem Mid.pw {n : Nat} {Pre Post : Nat → α → Prop} {d : Nat → Prop} {a : Array α}
    (h : Mid n Pre Post d a) (hd : ∀ i, i < n → d i) : PW n Post a := by
  refine ⟨h.1, fun i x hx => (h.2 i x hx).1 (hd i ?_)⟩
  have := (Array.getElem?_eq_some_iff.1 hx).1
  rw [← h.1]; exact this

theorem PW.mono {n : Nat} {P Q : Nat → α → Prop} {a : Array α} (h : PW n P a)
    (hpq : ∀ i x, i < n → P i x → Q i x) : PW n Q a := by
  refine ⟨h.1, fun i x hx => hpq i x ?_ (h.2 i x hx)⟩
  have := (Array.getElem?_eq_some_iff.1 hx).1
  rw [← h.1]; exact this

theorem getElem?_lt {a : Array α} {i : Nat} {x : α} (h : a[i]? = some x) : i < a.size :=
  (Array.getElem?_eq_some_iff.1 h).1

theorem mid_step {E : Err → Prop} {n s k : Nat} {Pre Post : Nat → α → Prop}
    {bf : Array α → M (Array α)} {d d' : Nat → Prop} {a : Array α}
    (hbf : BfSpec E bf n s k Pre Post) (hs : s < n) (hk : k < n) (hsk : s ≠ k)
    (hds : ¬ d s) (hdk : ¬ d k) (ha : Mid n Pre Post d a)
    (hd' : ∀ i, i < n → (d' i ↔ d i ∨ i = s ∨ i = k)) :
    Wp E (bf a) (Mid n Pre Post d') := by
  obtain ⟨hsz, hP⟩ := ha
  have hxs : a[s]? = some a[s] := Array.getElem?_eq_getElem (by omega)
  have hxk : a[k]? = some a[k] := Array.getElem?_eq_getElem (by omega)
  refine (hbf a _ _ hsz hxs hxk ((hP s _ hxs).2 hds) ((hP k _ hxk).2 hdk)).mono ?_
  rintro a' ⟨u, v, rfl, hu, hv⟩
  refine ⟨by simp [hsz], ?_⟩
  intro i x hx
  have hi : i < n := by have := getElem?_lt hx; simpa [hsz] using this
  rw [hd' i hi]
  simp only [Array.getElem?_setIfInBounds, Array.size_setIfInBounds] at hx
  by_cases h1 : s = i
  · subst h1
    rw [if_pos rfl, if_pos (by omega)] at hx
    injection hx with hx; subst hx
    exact ⟨fun _ => hu, fun h => absurd (Or.inr (Or.inl rfl)) h⟩
  · rw [if_neg h1] at hx
    by_cases h2 : k = i
    · subst h2
      rw [if_pos rfl, if_pos (by omega)] at hx
      injection hx with hx; subst hx
      exact ⟨fun _ => hv, fun h => absurd (Or.inr (Or.inr rfl)) h⟩
    · rw [if_neg h2] at hx
      refine ⟨fun h => ?_, fun h => ?_⟩
      · rcases h with h | h | h
        · exact (hP i x hx).1 h
        · exact absurd h.symm h1
        · exact absurd h.symm h2
      · exact (hP i x hx).2 (fun hd => h (Or.inl hd))

/-! ### Index decomposition: `i` is in block `i/(2t)`, offset `i%t` of the lower or upper half -/

theorem lo_div {t b j : Nat} (hj : j < t) : (2 * t * b + j) / (2 * t) = b := by
  rw [Nat.mul_add_div (by omega), Nat.div_eq_of_lt (by omega)]; omega

theorem hi_div {t b j : Nat} (hj : j < t) : (2 * t * b + j + t) / (2 * t) = b := by
  rw [Nat.add_assoc, Nat.mul_add_div (by omega), Nat.div_eq_of_lt (by omega)]; omega

theorem lo_mod {t b j : Nat} (hj : j < t) : (2 * t * b + j) % t = j := by
  rw [show 2 * t * b + j = j + t * (2 * b) by ring, Nat.add_mul_mod_self_left,
    Nat.mod_eq_of_lt hj]

theorem hi_mod {t b j : Nat} (hj : j < t) : (2 * t * b + j + t) % t = j := by
  rw [Nat.add_mod_right, lo_mod hj]

theorem pair_cases {t : Nat} (ht : 0 < t) (i : Nat) :
    i = 2 * t * (i / (2 * t)) + i % t ∨ i = 2 * t * (i / (2 * t)) + i % t + t := by
  have h1 := Nat.div_add_mod i (2 * t)
  have h2 : i % (t * 2) = i % t + t * (i / t % 2) := Nat.mod_mul
  rw [Nat.mul_comm t 2] at h2
  have h3 : i / t % 2 < 2 := Nat.mod_lt _ (by omega)
  have h4 : i / t % 2 = 0 ∨ i / t % 2 = 1 := by omega
  rcases h4 with h | h
  · left; rw [h] at h2; omega
  · right; rw [h] at h2; omega

theorem key_iff {t b j i : Nat} (hj : j < t) :
    (i / (2 * t) = b ∧ i % t = j) ↔ (i = 2 * t * b + j ∨ i = 2 * t * b + j + t) := by
  constructor
  · rintro ⟨rfl, rfl⟩
    exact pair_cases (by omega) i
  · rintro (rfl | rfl)
    · exact ⟨lo_div hj, lo_mod hj⟩
    · exact ⟨hi_div hj, hi_mod hj⟩

theorem pair_lt {t b j m : Nat} (hj : j < t) (hb : b < m) :
    2 * t * b + j + t < 2 * t * m := by
  have : 2 * t * (b + 1) ≤ 2 * t * m := Nat.mul_le_mul_left _ hb
  have e : 2 * t * (b + 1) = 2 * t * b + 2 * t := by ring
  omega

/-! ### Shape A: inner loop `for (s=j; s<n; s += t+t)` -/

/-- Pairs with offset `< j` are done. -/
def doneA (t j : Nat) (i : Nat) : Prop := i % t < j

theorem wp_innerA {E : Err → Prop} {n t m j : Nat} {Pre Post : Nat → α → Prop}
    {bf : Nat → Nat → Array α → M (Array α)} {a : Array α}
    (hn : n = 2 * t * m) (hn31 : n ≤ 2147483648) (hj : j < t)
    (hbf : ∀ b, b < m → BfSpec E (bf (2 * t * b + j) (2 * t * b + j + t)) n
      (2 * t * b + j) (2 * t * b + j + t) Pre Post)
    (ha : Mid n Pre Post (doneA t j) a) :
    Wp E (forUp j n (u32 (t + t)) (fun s a => bf s (u32 (s + t)) a) a)
      (Mid n Pre Post (doneA t (j + 1))) := by
  rcases Nat.eq_zero_or_pos m with hm0 | hm0
  · -- empty array
    subst hm0
    have hn0 : n = 0 := by simpa using hn
    subst hn0
    unfold forUp cfor
    simp only [Nat.not_lt_zero, decide_false, Bool.false_eq_true, if_false, wp_ok]
    exact ha.congr (fun i hi => absurd hi (by omega))
  have ht2 : 2 * t ≤ n := by
    have : 2 * t * 1 ≤ 2 * t * m := Nat.mul_le_mul_left _ hm0
    omega
  have hu : u32 (t + t) = 2 * t := by unfold u32; omega
  rw [hu]
  refine wp_forUp (fun s a => ∃ b, b ≤ m ∧ s = 2 * t * b + j ∧
      Mid n Pre Post (fun i => i % t < j ∨ (i % t = j ∧ i / (2 * t) < b)) a)
    (by omega) (by omega) ⟨0, by omega, by simp, ?_⟩ ?_ ?_
  · exact ha.congr (fun i _ => by unfold doneA; simp)
  · rintro s a hl hs ⟨b, hb, rfl, hmid⟩
    have hbm : b < m := by
      rcases Nat.lt_or_ge b m with h | h
      · exact h
      · have : 2 * t * m ≤ 2 * t * b := Nat.mul_le_mul_left _ h
        omega
    have hlt := pair_lt hj hbm
    have huk : u32 (2 * t * b + j + t) = 2 * t * b + j + t := by unfold u32; omega
    rw [huk]
    have hk1 := (key_iff (b := b) (i := 2 * t * b + j) hj).2 (Or.inl rfl)
    have hk2 := (key_iff (b := b) (i := 2 * t * b + j + t) hj).2 (Or.inr rfl)
    refine (mid_step (d' := fun i => i % t < j ∨ (i % t = j ∧ i / (2 * t) < b + 1))
      (hbf b hbm) (by omega) (by omega) (by omega) ?_ ?_ hmid ?_).mono ?_
    · rw [hk1.1, hk1.2]; omega
    · rw [hk2.1, hk2.2]; omega
    · intro i _
      have := key_iff (b := b) (i := i) hj
      constructor
      · rintro (h | ⟨h1, h2⟩)
        · exact Or.inl (Or.inl h)
        · rcases Nat.lt_or_ge (i / (2 * t)) b with h3 | h3
          · exact Or.inl (Or.inr ⟨h1, h3⟩)
          · exact Or.inr (this.1 ⟨by omega, h1⟩)
      · rintro ((h | ⟨h1, h2⟩) | h)
        · exact Or.inl h
        · exact Or.inr ⟨h1, by omega⟩
        · have := this.2 h
          exact Or.inr ⟨this.2, by omega⟩
    · intro a' ha'
      exact ⟨b + 1, by omega, by ring, ha'⟩
  · rintro s a _ hs ⟨b, hb, rfl, hmid⟩
    have hbm : b = m := by
      rcases Nat.lt_or_ge b m with h | h
      · have := pair_lt hj h; omega
      · omega
    subst hbm
    refine hmid.congr (fun i hi => ?_)
    unfold doneA
    have : i / (2 * t) < b := Nat.div_lt_of_lt_mul (by omega)
    omega

theorem wp_roundA {E : Err → Prop} {n t m : Nat} {Pre Post : Nat → α → Prop}
    {bf0 : Nat → Nat → Array α → M (Array α)} {bf : τ → Nat → Nat → Array α → M (Array α)}
    {p : Array τ} {a : Array α}
    (hn : n = 2 * t * m) (hn31 : n ≤ 2147483648) (ht : 0 < t) (htn : t < n) (hp : n ≤ p.size)
    (h0 : ∀ b, b < m → BfSpec E (bf0 (2 * t * b) (2 * t * b + t)) n (2 * t * b) (2 * t * b + t)
      Pre Post)
    (hbf : ∀ b j w, b < m → 0 < j → j < t → p[t + j]? = some w →
      BfSpec E (bf w (2 * t * b + j) (2 * t * b + j + t)) n
        (2 * t * b + j) (2 * t * b + j + t) Pre Post)
    (ha : PW n Pre a) : Wp E (roundA bf0 bf n p t a) (PW n Post) := by
  unfold roundA
  rw [wp_bind]
  have hm0 : 0 < m := by
    rcases Nat.eq_zero_or_pos m with h | h
    · subst h; simp at hn; omega
    · exact h
  have ht2 : 2 * t ≤ n := by
    have : 2 * t * 1 ≤ 2 * t * m := Nat.mul_le_mul_left _ hm0
    omega
  refine (wp_innerA (j := 0) (t := t) (m := m) (Post := Post) hn hn31 ht (fun b hb => by simpa using h0 b hb)
    (ha.mid (fun i _ => by unfold doneA; exact Nat.not_lt_zero _))).mono ?_
  intro a1 ha1
  refine wp_forUp1 (fun j a => Mid n Pre Post (doneA t j) a) (by omega) (by omega) ha1 ?_ ?_
  · intro j a hj1 hjt hmid
    have hu : u32 (t + j) = t + j := by unfold u32; omega
    rw [wp_bind, hu]
    refine wp_rd (by omega) (fun w hw => ?_)
    exact wp_innerA (bf := bf w) hn hn31 hjt (fun b hb => hbf b j w hb (by omega) hjt hw) hmid
  · intro a hmid
    exact hmid.pw (fun i _ => Nat.mod_lt _ ht)

theorem wp_roundAMul {E : Err → Prop} {n t m : Nat} {Pre Post : Nat → α → Prop}
    {bf : τ → Nat → Nat → Array α → M (Array α)}
    {p : Array τ} {a : Array α}
    (hn : n = 2 * t * m) (hn31 : n ≤ 2147483648) (ht : 0 < t) (htn : t < n) (hp : n ≤ p.size)
    (hbf : ∀ b j w, b < m → j < t → p[t + j]? = some w →
      BfSpec E (bf w (2 * t * b + j) (2 * t * b + j + t)) n
        (2 * t * b + j) (2 * t * b + j + t) Pre Post)
    (ha : PW n Pre a) : Wp E (roundAMul bf n p t a) (PW n Post) := by
  unfold roundAMul
  have hm0 : 0 < m := by
    rcases Nat.eq_zero_or_pos m with h | h
    · subst h; simp at hn; omega
    · exact h
  have ht2 : 2 * t ≤ n := by
    have : 2 * t * 1 ≤ 2 * t * m := Nat.mul_le_mul_left _ hm0
    omega
  refine wp_forUp1 (fun j a => Mid n Pre Post (doneA t j) a) (by omega) (by omega)
    (ha.mid (fun i _ => by unfold doneA; exact Nat.not_lt_zero _)) ?_ ?_
  · intro j a hj1 hjt hmid
    have hu : u32 (t + j) = t + j := by unfold u32; omega
    rw [wp_bind, hu]
    refine wp_rd (by omega) (fun w hw => ?_)
    exact wp_innerA (bf := bf w) hn hn31 hjt (fun b hb => hbf b j w hb hjt hw) hmid
  · intro a hmid
    exact hmid.pw (fun i _ => Nat.mod_lt _ ht)

/-! ### Shape B: inner loop `for (s=u; s<u+d; s++)` with `u = 2*d*j` -/

/-- Blocks `< j` are done. -/
def doneB (d j : Nat) (i : Nat) : Prop := i / (2 * d) < j

theorem wp_innerB {E : Err → Prop} {n t d j : Nat} {Pre Post : Nat → α → Prop}
    {bf : Nat → Nat → Array α → M (Array α)} {a : Array α}
    (hn : n = 2 * d * t) (hn31 : n ≤ 2147483648) (hj : j < t) (hd : 0 < d)
    (hbf : ∀ r, r < d → BfSpec E (bf (2 * d * j + r) (2 * d * j + r + d)) n
      (2 * d * j + r) (2 * d * j + r + d) Pre Post)
    (ha : Mid n Pre Post (doneB d j) a) :
    Wp E (forUp (2 * d * j) (u32 (2 * d * j + d)) 1 (fun s a => bf s (u32 (s + d)) a) a)
      (Mid n Pre Post (doneB d (j + 1))) := by
  have hlt0 := pair_lt (t := d) (j := 0) hd hj
  have hu : u32 (2 * d * j + d) = 2 * d * j + d := by unfold u32; omega
  rw [hu]
  refine wp_forUp1 (fun s a => ∃ r, r ≤ d ∧ s = 2 * d * j + r ∧
      Mid n Pre Post (fun i => i / (2 * d) < j ∨ (i / (2 * d) = j ∧ i % d < r)) a)
    (by omega) (by omega) ⟨0, by omega, by simp, ?_⟩ ?_ ?_
  · exact ha.congr (fun i _ => by unfold doneB; omega)
  · rintro s a hl hs ⟨r, hr, rfl, hmid⟩
    have hrd : r < d := by omega
    have hlt := pair_lt (t := d) (j := r) hrd hj
    have huk : u32 (2 * d * j + r + d) = 2 * d * j + r + d := by unfold u32; omega
    rw [huk]
    have hk1 := (key_iff (b := j) (i := 2 * d * j + r) hrd).2 (Or.inl rfl)
    have hk2 := (key_iff (b := j) (i := 2 * d * j + r + d) hrd).2 (Or.inr rfl)
    refine (mid_step (d' := fun i => i / (2 * d) < j ∨ (i / (2 * d) = j ∧ i % d < r + 1))
      (hbf r hrd) (by omega) (by omega) (by omega) ?_ ?_ hmid ?_).mono ?_
    · rw [hk1.1, hk1.2]; omega
    · rw [hk2.1, hk2.2]; omega
    · intro i _
      have := key_iff (b := j) (i := i) hrd
      constructor
      · rintro (h | ⟨h1, h2⟩)
        · exact Or.inl (Or.inl h)
        · rcases Nat.lt_or_ge (i % d) r with h3 | h3
          · exact Or.inl (Or.inr ⟨h1, h3⟩)
          · exact Or.inr (this.1 ⟨h1, by omega⟩)
      · rintro ((h | ⟨h1, h2⟩) | h)
        · exact Or.inl h
        · exact Or.inr ⟨h1, by omega⟩
        · have := this.2 h
          exact Or.inr ⟨this.1, by omega⟩
    · intro a' ha'
      exact ⟨r + 1, by omega, by ring, ha'⟩
  · rintro a ⟨r, hr, hs, hmid⟩
    have : r = d := by omega
    subst this
    refine hmid.congr (fun i hi => ?_)
    unfold doneB
    have : i % r < r := Nat.mod_lt _ hd
    omega

theorem blocks_lt {n t d j : Nat} (hn : n = 2 * d * t) (hj : j ≤ t) : 2 * d * j ≤ n := by
  rw [hn]; exact Nat.mul_le_mul_left _ hj

theorem wp_roundBMul {E : Err → Prop} {n t d : Nat} {Pre Post : Nat → α → Prop}
    {bf : τ → Nat → Nat → Array α → M (Array α)} {p : Array τ} {a : Array α}
    (hn : n = 2 * d * t) (hn31 : n ≤ 2147483648) (ht : 0 < t) (hd : 0 < d) (hp : n ≤ p.size)
    (hbf : ∀ j r w, j < t → r < d → p[t + j]? = some w →
      BfSpec E (bf w (2 * d * j + r) (2 * d * j + r + d)) n
        (2 * d * j + r) (2 * d * j + r + d) Pre Post)
    (ha : PW n Pre a) : Wp E (roundBMul bf p t d a) (PW n Post) := by
  have ht2 : 2 * t ≤ n := by
    have : 2 * t * 1 ≤ 2 * t * d := Nat.mul_le_mul_left _ hd
    have e : 2 * t * d = 2 * d * t := by ring
    omega
  have hd2 : 2 * d ≤ n := by
    have := blocks_lt hn (j := 1) ht; omega
  unfold roundBMul
  rw [wp_bind]
  refine wp_forUp1 (fun j st => st.1 = 2 * d * j ∧ Mid n Pre Post (doneB d j) st.2)
    (by omega) (by omega) ⟨by simp, ha.mid (fun i _ => by unfold doneB; exact Nat.not_lt_zero _)⟩ ?_ ?_
  · rintro j ⟨u, a⟩ _ hjt ⟨hu, hmid⟩
    simp only at hu; subst hu
    have hu1 : u32 (t + j) = t + j := by unfold u32; omega
    simp only [wp_bind, hu1]
    refine wp_rd (by omega) (fun w hw => ?_)
    refine (wp_innerB (bf := bf w) hn hn31 hjt hd (fun r hr => hbf j r w hjt hr hw) hmid).mono ?_
    intro a' ha'
    simp only [wp_pure]
    have := blocks_lt hn (j := j + 1) hjt
    have e : 2 * d * (j + 1) = 2 * d * j + 2 * d := by ring
    refine ⟨?_, ha'⟩
    unfold u32; omega
  · rintro ⟨u, a⟩ ⟨_, hmid⟩
    simp only [wp_pure]
    exact hmid.pw (fun i hi => Nat.div_lt_of_lt_mul (by omega))

theorem wp_roundBCt {E : Err → Prop} {n t d : Nat} {Pre Post : Nat → α → Prop}
    {bf0 : Nat → Nat → Array α → M (Array α)}
    {bf : τ → Nat → Nat → Array α → M (Array α)} {p : Array τ} {a : Array α}
    (hn : n = 2 * d * t) (hn31 : n ≤ 2147483648) (ht : 0 < t) (hd : 0 < d) (hp : n ≤ p.size)
    (h0 : ∀ r, r < d → BfSpec E (bf0 r (r + d)) n r (r + d) Pre Post)
    (hbf : ∀ j r w, 0 < j → j < t → r < d → p[t + j]? = some w →
      BfSpec E (bf w (2 * d * j + r) (2 * d * j + r + d)) n
        (2 * d * j + r) (2 * d * j + r + d) Pre Post)
    (ha : PW n Pre a) : Wp E (roundBCt bf0 bf p t d a) (PW n Post) := by
  have ht2 : 2 * t ≤ n := by
    have : 2 * t * 1 ≤ 2 * t * d := Nat.mul_le_mul_left _ hd
    have e : 2 * t * d = 2 * d * t := by ring
    omega
  have hd2 : 2 * d ≤ n := by
    have := blocks_lt hn (j := 1) ht; omega
  unfold roundBCt
  simp only [wp_bind]
  have hu0 : u32 (0 + d) = d := by unfold u32; omega
  have key := wp_innerB (j := 0) (bf := bf0) (Post := Post) hn hn31 ht hd
    (fun r hr => by simpa using h0 r hr) (ha.mid (fun i _ => by unfold doneB; exact Nat.not_lt_zero _))
  simp only [Nat.mul_zero, Nat.zero_add] at key
  rw [show u32 d = d by unfold u32; omega] at key
  refine key.mono ?_
  intro a1 ha1
  refine wp_forUp1 (fun j st => st.1 + 2 * d = 2 * d * j ∧ Mid n Pre Post (doneB d j) st.2)
    (by omega) (by omega) ⟨by simp, ha1⟩ ?_ ?_
  · rintro j ⟨u, a⟩ hj1 hjt ⟨hu, hmid⟩
    simp only at hu
    have hu1 : u32 (t + j) = t + j := by unfold u32; omega
    simp only [wp_bind, hu1]
    refine wp_rd (by omega) (fun w hw => ?_)
    have := blocks_lt hn (j := j) (by omega)
    have hu2 : u32 (u + u32 (2 * d)) = 2 * d * j := by unfold u32; omega
    rw [hu2]
    refine (wp_innerB (bf := bf w) hn hn31 hjt hd (fun r hr => hbf j r w hj1 hjt hr hw) hmid).mono ?_
    intro a' ha'
    simp only [wp_pure]
    exact ⟨by ring, ha'⟩
  · rintro ⟨u, a⟩ ⟨_, hmid⟩
    simp only [wp_pure]
    exact hmid.pw (fun i hi => Nat.div_lt_of_lt_mul (by omega))

theorem wp_roundBGs {E : Err → Prop} {n t d : Nat} {Pre Post : Nat → α → Prop}
    {bf0 : Nat → Nat → Array α → M (Array α)}
    {bf : τ → Nat → Nat → Array α → M (Array α)} {p : Array τ} {a : Array α}
    (hn : n = 2 * d * t) (hn31 : n ≤ 2147483648) (ht : 0 < t) (hd : 0 < d) (hp : n ≤ p.size)
    (h0 : ∀ r, r < d → BfSpec E (bf0 r (r + d)) n r (r + d) Pre Post)
    (hbf : ∀ j r w, 0 < j → j < t → r < d → p[t + j]? = some w →
      BfSpec E (bf w (2 * d * j + r) (2 * d * j + r + d)) n
        (2 * d * j + r) (2 * d * j + r + d) Pre Post)
    (ha : PW n Pre a) : Wp E (roundBGs bf0 bf p t d a) (PW n Post) := by
  have ht2 : 2 * t ≤ n := by
    have : 2 * t * 1 ≤ 2 * t * d := Nat.mul_le_mul_left _ hd
    have e : 2 * t * d = 2 * d * t := by ring
    omega
  have hd2 : 2 * d ≤ n := by
    have := blocks_lt hn (j := 1) ht; omega
  unfold roundBGs
  simp only [wp_bind]
  have hu0 : u32 (0 + d) = d := by unfold u32; omega
  have key := wp_innerB (j := 0) (bf := bf0) (Post := Post) hn hn31 ht hd
    (fun r hr => by simpa using h0 r hr) (ha.mid (fun i _ => by unfold doneB; exact Nat.not_lt_zero _))
  simp only [Nat.mul_zero, Nat.zero_add] at key
  rw [show u32 d = d by unfold u32; omega] at key
  refine key.mono ?_
  intro a1 ha1
  refine wp_forUp1 (fun j st => st.1 = 2 * d * j ∧ Mid n Pre Post (doneB d j) st.2)
    (by omega) (by omega) ⟨by simp only [Nat.mul_one]; unfold u32; omega, ha1⟩ ?_ ?_
  · rintro j ⟨u, a⟩ hj1 hjt ⟨hu, hmid⟩
    simp only at hu; subst hu
    have hu1 : u32 (t + j) = t + j := by unfold u32; omega
    simp only [wp_bind, hu1]
    refine wp_rd (by omega) (fun w hw => ?_)
    refine (wp_innerB (bf := bf w) hn hn31 hjt hd (fun r hr => hbf j r w hj1 hjt hr hw) hmid).mono ?_
    intro a' ha'
    simp only [wp_pure]
    have := blocks_lt hn (j := j + 1) hjt
    have e : 2 * d * (j + 1) = 2 * d * j + 2 * d := by ring
    refine ⟨?_, ha'⟩
    unfold u32; omega
  · rintro ⟨u, a⟩ ⟨_, hmid⟩
    simp only [wp_pure]
    exact hmid.pw (fun i hi => Nat.div_lt_of_lt_mul (by omega))

/-! ### Whole transforms: `P m` holds of the array at the start of round `m` -/

theorem pow_split {k m : Nat} (hm : m < k) : 2 ^ k = 2 * 2 ^ m * 2 ^ (k - 1 - m) := by
  rw [← Nat.pow_succ', ← Nat.pow_add]; congr 1; omega

theorem pow_split' {k m : Nat} (hm : m < k) : 2 ^ k = 2 * 2 ^ (k - 1 - m) * 2 ^ m := by
  rw [pow_split hm]; ring

theorem pow31 {k : Nat} (hk : k ≤ 31) : 2 ^ k ≤ 2147483648 :=
  Nat.pow_le_pow_right (n := 2) (by omega) hk

theorem wp_ctRev2std {E : Err → Prop} {k : Nat} {P : Nat → Nat → α → Prop}
    {bf0 : Nat → Nat → Array α → M (Array α)} {bf : τ → Nat → Nat → Array α → M (Array α)}
    {p : Array τ} {a : Array α} (hk : k ≤ 31) (hp : 2 ^ k ≤ p.size)
    (h0 : ∀ m b, m < k → b < 2 ^ (k - 1 - m) →
      BfSpec E (bf0 (2 * 2 ^ m * b) (2 * 2 ^ m * b + 2 ^ m)) (2 ^ k)
        (2 * 2 ^ m * b) (2 * 2 ^ m * b + 2 ^ m) (P m) (P (m + 1)))
    (hbf : ∀ m b j w, m < k → b < 2 ^ (k - 1 - m) → 0 < j → j < 2 ^ m →
      p[2 ^ m + j]? = some w →
      BfSpec E (bf w (2 * 2 ^ m * b + j) (2 * 2 ^ m * b + j + 2 ^ m)) (2 ^ k)
        (2 * 2 ^ m * b + j) (2 * 2 ^ m * b + j + 2 ^ m) (P m) (P (m + 1)))
    (ha : PW (2 ^ k) (P 0) a) :
    Wp E (ctRev2std bf0 bf a (2 ^ k) p) (PW (2 ^ k) (P k)) := by
  unfold ctRev2std
  refine wp_forShl (fun m a => PW (2 ^ k) (P m) a) hk ha ?_ (fun s h => h)
  intro m s hm hs
  exact wp_roundA (pow_split hm) (pow31 hk) (Nat.two_pow_pos m)
    (Nat.pow_lt_pow_right (by omega) hm) hp (fun b hb => h0 m b hm hb)
    (fun b j w hb hj0 hj hw => hbf m b j w hm hb hj0 hj hw) hs

theorem wp_mulCtRev2std {E : Err → Prop} {k : Nat} {P : Nat → Nat → α → Prop}
    {bf : τ → Nat → Nat → Array α → M (Array α)}
    {p : Array τ} {a : Array α} (hk : k ≤ 31) (hp : 2 ^ k ≤ p.size)
    (hbf : ∀ m b j w, m < k → b < 2 ^ (k - 1 - m) → j < 2 ^ m →
      p[2 ^ m + j]? = some w →
      BfSpec E (bf w (2 * 2 ^ m * b + j) (2 * 2 ^ m * b + j + 2 ^ m)) (2 ^ k)
        (2 * 2 ^ m * b + j) (2 * 2 ^ m * b + j + 2 ^ m) (P m) (P (m + 1)))
    (ha : PW (2 ^ k) (P 0) a) :
    Wp E (mulCtRev2std bf a (2 ^ k) p) (PW (2 ^ k) (P k)) := by
  unfold mulCtRev2std
  refine wp_forShl (fun m a => PW (2 ^ k) (P m) a) hk ha ?_ (fun s h => h)
  intro m s hm hs
  exact wp_roundAMul (pow_split hm) (pow31 hk) (Nat.two_pow_pos m)
    (Nat.pow_lt_pow_right (by omega) hm) hp
    (fun b j w hb hj hw => hbf m b j w hm hb hj hw) hs

/-- In the Gentleman-Sande transforms in standard-to-reverse order, round `m` has
`t = 2^(k-1-m)` and `2^m` blocks. -/
theorem wp_gsStd2rev {E : Err → Prop} {k : Nat} {P : Nat → Nat → α → Prop}
    {bf0 : Nat → Nat → Array α → M (Array α)} {bf : τ → Nat → Nat → Array α → M (Array α)}
    {p : Array τ} {a : Array α} (hk : k ≤ 31) (hp : 2 ^ k ≤ p.size)
    (h0 : ∀ m b, m < k → b < 2 ^ m →
      BfSpec E (bf0 (2 * 2 ^ (k - 1 - m) * b) (2 * 2 ^ (k - 1 - m) * b + 2 ^ (k - 1 - m))) (2 ^ k)
        (2 * 2 ^ (k - 1 - m) * b) (2 * 2 ^ (k - 1 - m) * b + 2 ^ (k - 1 - m)) (P m) (P (m + 1)))
    (hbf : ∀ m b j w, m < k → b < 2 ^ m → 0 < j → j < 2 ^ (k - 1 - m) →
      p[2 ^ (k - 1 - m) + j]? = some w →
      BfSpec E (bf w (2 * 2 ^ (k - 1 - m) * b + j) (2 * 2 ^ (k - 1 - m) * b + j + 2 ^ (k - 1 - m)))
        (2 ^ k) (2 * 2 ^ (k - 1 - m) * b + j) (2 * 2 ^ (k - 1 - m) * b + j + 2 ^ (k - 1 - m))
        (P m) (P (m + 1)))
    (ha : PW (2 ^ k) (P 0) a) :
    Wp E (gsStd2rev bf0 bf a (2 ^ k) p) (PW (2 ^ k) (P k)) := by
  unfold gsStd2rev
  refine wp_forShr (fun m a => PW (2 ^ k) (P m) a) hk ha ?_ (fun s h => h)
  intro m s hm hs
  exact wp_roundA (pow_split' hm) (pow31 hk) (Nat.two_pow_pos _)
    (Nat.pow_lt_pow_right (by omega) (by omega)) hp (fun b hb => h0 m b hm hb)
    (fun b j w hb hj0 hj hw => hbf m b j w hm hb hj0 hj hw) hs

theorem wp_gsMulStd2rev {E : Err → Prop} {k : Nat} {P : Nat → Nat → α → Prop}
    {bf : τ → Nat → Nat → Array α → M (Array α)}
    {p : Array τ} {a : Array α} (hk : k ≤ 31) (hp : 2 ^ k ≤ p.size)
    (hbf : ∀ m b j w, m < k → b < 2 ^ m → j < 2 ^ (k - 1 - m) →
      p[2 ^ (k - 1 - m) + j]? = some w →
      BfSpec E (bf w (2 * 2 ^ (k - 1 - m) * b + j) (2 * 2 ^ (k - 1 - m) * b + j + 2 ^ (k - 1 - m)))
        (2 ^ k) (2 * 2 ^ (k - 1 - m) * b + j) (2 * 2 ^ (k - 1 - m) * b + j + 2 ^ (k - 1 - m))
        (P m) (P (m + 1)))
    (ha : PW (2 ^ k) (P 0) a) :
    Wp E (gsMulStd2rev bf a (2 ^ k) p) (PW (2 ^ k) (P k)) := by
  unfold gsMulStd2rev
  refine wp_forShr (fun m a => PW (2 ^ k) (P m) a) hk ha ?_ (fun s h => h)
  intro m s hm hs
  exact wp_roundAMul (pow_split' hm) (pow31 hk) (Nat.two_pow_pos _)
    (Nat.pow_lt_pow_right (by omega) (by omega)) hp
    (fun b j w hb hj hw => hbf m b j w hm hb hj hw) hs

theorem half_pow {k m : Nat} (hm : m < k) : 2 ^ (k - m) / 2 = 2 ^ (k - 1 - m) := by
  have : k - m = (k - 1 - m) + 1 := by omega
  rw [this, Nat.pow_succ]; omega

theorem half_pow' {k m : Nat} (hm : m < k) : 2 ^ (k - m) / 2 = 2 ^ (k - (m + 1)) := by
  rw [half_pow hm]; congr 1; omega

/-- Standard-to-reverse Cooley-Tukey: round `m` has `t = 2^m`, `d = 2^(k-1-m)`. -/
theorem wp_ctStd2rev {E : Err → Prop} {k : Nat} {P : Nat → Nat → α → Prop}
    {bf0 : Nat → Nat → Array α → M (Array α)} {bf : τ → Nat → Nat → Array α → M (Array α)}
    {p : Array τ} {a : Array α} (hk : k ≤ 31) (hp : 2 ^ k ≤ p.size)
    (h0 : ∀ m r, m < k → r < 2 ^ (k - 1 - m) →
      BfSpec E (bf0 r (r + 2 ^ (k - 1 - m))) (2 ^ k) r (r + 2 ^ (k - 1 - m)) (P m) (P (m + 1)))
    (hbf : ∀ m j r w, m < k → 0 < j → j < 2 ^ m → r < 2 ^ (k - 1 - m) →
      p[2 ^ m + j]? = some w →
      BfSpec E (bf w (2 * 2 ^ (k - 1 - m) * j + r) (2 * 2 ^ (k - 1 - m) * j + r + 2 ^ (k - 1 - m)))
        (2 ^ k) (2 * 2 ^ (k - 1 - m) * j + r) (2 * 2 ^ (k - 1 - m) * j + r + 2 ^ (k - 1 - m))
        (P m) (P (m + 1)))
    (ha : PW (2 ^ k) (P 0) a) :
    Wp E (ctStd2rev bf0 bf a (2 ^ k) p) (PW (2 ^ k) (P k)) := by
  unfold ctStd2rev
  rw [wp_bind]
  refine wp_forShl (fun m st => st.1 = 2 ^ (k - m) ∧ PW (2 ^ k) (P m) st.2) hk ⟨rfl, ha⟩ ?_
    (fun s h => wp_pure.2 h.2)
  rintro m ⟨d, s⟩ hm ⟨hd, hs⟩
  simp only at hd; subst hd
  simp only [wp_bind, half_pow hm]
  refine (wp_roundBCt (pow_split' hm) (pow31 hk) (Nat.two_pow_pos _) (Nat.two_pow_pos _) hp
    (fun r hr => h0 m r hm hr) (fun j r w hj0 hj hr hw => hbf m j r w hm hj0 hj hr hw) hs).mono ?_
  intro a' ha'
  exact wp_pure.2 ⟨by rw [← half_pow hm, half_pow' hm], ha'⟩

theorem wp_mulCtStd2rev {E : Err → Prop} {k : Nat} {P : Nat → Nat → α → Prop}
    {bf : τ → Nat → Nat → Array α → M (Array α)}
    {p : Array τ} {a : Array α} (hk : k ≤ 31) (hp : 2 ^ k ≤ p.size)
    (hbf : ∀ m j r w, m < k → j < 2 ^ m → r < 2 ^ (k - 1 - m) →
      p[2 ^ m + j]? = some w →
      BfSpec E (bf w (2 * 2 ^ (k - 1 - m) * j + r) (2 * 2 ^ (k - 1 - m) * j + r + 2 ^ (k - 1 - m)))
        (2 ^ k) (2 * 2 ^ (k - 1 - m) * j + r) (2 * 2 ^ (k - 1 - m) * j + r + 2 ^ (k - 1 - m))
        (P m) (P (m + 1)))
    (ha : PW (2 ^ k) (P 0) a) :
    Wp E (mulCtStd2rev bf a (2 ^ k) p) (PW (2 ^ k) (P k)) := by
  unfold mulCtStd2rev
  rw [wp_bind]
  refine wp_forShl (fun m st => st.1 = 2 ^ (k - m) ∧ PW (2 ^ k) (P m) st.2) hk ⟨rfl, ha⟩ ?_
    (fun s h => wp_pure.2 h.2)
  rintro m ⟨d, s⟩ hm ⟨hd, hs⟩
  simp only at hd; subst hd
  simp only [wp_bind, half_pow hm]
  refine (wp_roundBMul (pow_split' hm) (pow31 hk) (Nat.two_pow_pos _) (Nat.two_pow_pos _) hp
    (fun j r w hj hr hw => hbf m j r w hm hj hr hw) hs).mono ?_
  intro a' ha'
  exact wp_pure.2 ⟨by rw [← half_pow hm, half_pow' hm], ha'⟩

/-- Reverse-to-standard Gentleman-Sande: round `m` has `d = 2^m`, `t = 2^(k-1-m)`. -/
theorem wp_gsRev2std {E : Err → Prop} {k : Nat} {P : Nat → Nat → α → Prop}
    {bf0 : Nat → Nat → Array α → M (Array α)} {bf : τ → Nat → Nat → Array α → M (Array α)}
    {p : Array τ} {a : Array α} (hk : k ≤ 31) (hp : 2 ^ k ≤ p.size)
    (h0 : ∀ m r, m < k → r < 2 ^ m →
      BfSpec E (bf0 r (r + 2 ^ m)) (2 ^ k) r (r + 2 ^ m) (P m) (P (m + 1)))
    (hbf : ∀ m j r w, m < k → 0 < j → j < 2 ^ (k - 1 - m) → r < 2 ^ m →
      p[2 ^ (k - 1 - m) + j]? = some w →
      BfSpec E (bf w (2 * 2 ^ m * j + r) (2 * 2 ^ m * j + r + 2 ^ m))
        (2 ^ k) (2 * 2 ^ m * j + r) (2 * 2 ^ m * j + r + 2 ^ m) (P m) (P (m + 1)))
    (ha : PW (2 ^ k) (P 0) a) :
    Wp E (gsRev2std bf0 bf a (2 ^ k) p) (PW (2 ^ k) (P k)) := by
  unfold gsRev2std
  rw [wp_bind]
  refine wp_forShl (fun m st => st.1 = 2 ^ (k - m) ∧ PW (2 ^ k) (P m) st.2) hk ⟨rfl, ha⟩ ?_
    (fun s h => wp_pure.2 h.2)
  rintro m ⟨d, s⟩ hm ⟨hd, hs⟩
  simp only at hd; subst hd
  simp only [wp_bind, half_pow hm]
  refine (wp_roundBGs (pow_split hm) (pow31 hk) (Nat.two_pow_pos _) (Nat.two_pow_pos _) hp
    (fun r hr => h0 m r hm hr) (fun j r w hj0 hj hr hw => hbf m j r w hm hj0 hj hr hw) hs).mono ?_
  intro a' ha'
  exact wp_pure.2 ⟨by rw [← half_pow hm, half_pow' hm], ha'⟩

theorem wp_gsMulRev2std {E : Err → Prop} {k : Nat} {P : Nat → Nat → α → Prop}
    {bf : τ → Nat → Nat → Array α → M (Array α)}
    {p : Array τ} {a : Array α} (hk : k ≤ 31) (hp : 2 ^ k ≤ p.size)
    (hbf : ∀ m j r w, m < k → j < 2 ^ (k - 1 - m) → r < 2 ^ m →
      p[2 ^ (k - 1 - m) + j]? = some w →
      BfSpec E (bf w (2 * 2 ^ m * j + r) (2 * 2 ^ m * j + r + 2 ^ m))
        (2 ^ k) (2 * 2 ^ m * j + r) (2 * 2 ^ m * j + r + 2 ^ m) (P m) (P (m + 1)))
    (ha : PW (2 ^ k) (P 0) a) :
    Wp E (gsMulRev2std bf a (2 ^ k) p) (PW (2 ^ k) (P k)) := by
  unfold gsMulRev2std
  rw [wp_bind]
  refine wp_forShl (fun m st => st.1 = 2 ^ (k - m) ∧ PW (2 ^ k) (P m) st.2) hk ⟨rfl, ha⟩ ?_
    (fun s h => wp_pure.2 h.2)
  rintro m ⟨d, s⟩ hm ⟨hd, hs⟩
  simp only at hd; subst hd
  simp only [wp_bind, half_pow hm]
  refine (wp_roundBMul (pow_split hm) (pow31 hk) (Nat.two_pow_pos _) (Nat.two_pow_pos _) hp
    (fun j r w hj hr hw => hbf m j r w hm hj hr hw) hs).mono ?_
  intro a' ha'
  exact wp_pure.2 ⟨by rw [← half_pow hm, half_pow' hm], ha'⟩

/-- Version 1: round `m` has `t = 2^m`, `l = 2^(k-m)`. -/
theorem wp_ctRev2stdV1 {E : Err → Prop} {k : Nat} {P : Nat → Nat → α → Prop}
    {bf0 : Nat → Nat → Array α → M (Array α)} {bf : τ → Nat → Nat → Array α → M (Array α)}
    {p : Array τ} {a : Array α} (hk : k ≤ 31) (hp : 2 ^ k ≤ p.size)
    (h0 : ∀ m b, m < k → b < 2 ^ (k - 1 - m) →
      BfSpec E (bf0 (2 * 2 ^ m * b) (2 * 2 ^ m * b + 2 ^ m)) (2 ^ k)
        (2 * 2 ^ m * b) (2 * 2 ^ m * b + 2 ^ m) (P m) (P (m + 1)))
    (hbf : ∀ m b j w, m < k → b < 2 ^ (k - 1 - m) → 0 < j → j < 2 ^ m →
      p[j * 2 ^ (k - m)]? = some w →
      BfSpec E (bf w (2 * 2 ^ m * b + j) (2 * 2 ^ m * b + j + 2 ^ m)) (2 ^ k)
        (2 * 2 ^ m * b + j) (2 * 2 ^ m * b + j + 2 ^ m) (P m) (P (m + 1)))
    (ha : PW (2 ^ k) (P 0) a) :
    Wp E (ctRev2stdV1 bf0 bf a (2 ^ k) p) (PW (2 ^ k) (P k)) := by
  unfold ctRev2stdV1
  rw [wp_bind]
  refine wp_forShl (fun m st => st.1 = 2 ^ (k - m) ∧ PW (2 ^ k) (P m) st.2) hk ⟨rfl, ha⟩ ?_
    (fun s h => wp_pure.2 h.2)
  rintro m ⟨l, a⟩ hm ⟨hl, ha⟩
  simp only at hl; subst hl
  have hn := pow_split hm
  have hn31 := pow31 hk
  have ht := Nat.two_pow_pos m
  have htn : 2 ^ m < 2 ^ k := Nat.pow_lt_pow_right (by omega) hm
  simp only [wp_bind]
  refine (wp_innerA (j := 0) (Post := P (m + 1)) hn hn31 ht
    (fun b hb => by simpa using h0 m b hm hb)
    (ha.mid (fun i _ => by unfold doneA; exact Nat.not_lt_zero _))).mono ?_
  intro a1 ha1
  refine wp_forUp1 (fun j a => Mid (2 ^ k) (P m) (P (m + 1)) (doneA (2 ^ m) j) a)
    (by omega) (by omega) ha1 ?_ ?_
  · intro j a hj1 hjt hmid
    have hlt : j * 2 ^ (k - m) < 2 ^ k := by
      have h1 : (j + 1) * 2 ^ (k - m) ≤ 2 ^ m * 2 ^ (k - m) := Nat.mul_le_mul_right _ hjt
      rw [← Nat.pow_add, show m + (k - m) = k by omega, Nat.add_mul] at h1
      have := Nat.two_pow_pos (k - m)
      omega
    have hu : u32 (j * 2 ^ (k - m)) = j * 2 ^ (k - m) := by unfold u32; omega
    rw [wp_bind, hu]
    refine wp_rd (by omega) (fun w hw => ?_)
    exact wp_innerA (bf := bf w) hn hn31 hjt (fun b hb => hbf m b j w hm hb (by omega) hjt hw) hmid
  · intro a hmid
    simp only [wp_pure]
    exact ⟨half_pow' hm, hmid.pw (fun i _ => Nat.mod_lt _ ht)⟩

end NTT
