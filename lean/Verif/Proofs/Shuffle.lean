import Verif.Proofs.Ntt

/-
Proofs about `bitrev_shuffle` and `shuffle_with_table`.
-/

namespace Ntt
open C NTT Spec

theorem xor_top0 {K r : Nat} (hr : r < 2 ^ K) : r ^^^ 2 ^ K = 2 ^ K + r := by
  apply Nat.eq_of_testBit_eq
  intro i
  have e : 2 ^ K + r = 2 ^ K * 1 + r := by ring
  rw [Nat.testBit_xor, Nat.testBit_two_pow, e, Nat.testBit_two_pow_mul_add _ hr]
  by_cases h : i < K
  · rw [if_pos h]; simp [show ¬ K = i by omega]
  · rw [if_neg h]
    have : r.testBit i = false := Nat.testBit_lt_two_pow
      (Nat.lt_of_lt_of_le hr (Nat.pow_le_pow_right (by omega) (by omega)))
    rw [this]
    by_cases h2 : K = i
    · simp [h2]
    · obtain ⟨d, hd⟩ : ∃ d, i - K = d + 1 := ⟨i - K - 1, by omega⟩
      rw [hd, Nat.testBit_succ]
      simp [h2]

theorem xor_top1 {K r : Nat} (hr : r < 2 ^ K) : (2 ^ K + r) ^^^ 2 ^ K = r := by
  rw [← xor_top0 hr, Nat.xor_assoc, Nat.xor_self, Nat.xor_zero]

theorem and_top0 {K r : Nat} (hr : r < 2 ^ K) : r &&& 2 ^ K = 0 := by
  apply Nat.eq_of_testBit_eq
  intro i
  rw [Nat.testBit_and, Nat.testBit_two_pow, Nat.zero_testBit]
  by_cases h : K = i
  · subst h; rw [Nat.testBit_lt_two_pow hr]; rfl
  · simp [h]

theorem and_top1 {K r : Nat} (hr : r < 2 ^ K) : (2 ^ K + r) &&& 2 ^ K = 2 ^ K := by
  have e : 2 ^ K + r = 2 ^ K * 1 + r := by ring
  apply Nat.eq_of_testBit_eq
  intro i
  rw [Nat.testBit_and, Nat.testBit_two_pow]
  by_cases h : K = i
  · subst h; rw [e, Nat.testBit_two_pow_mul_add _ hr, if_neg (by omega)]; simp
  · simp [h]

/-- The inner loop computes the reversed increment. -/
theorem bitrevNext_rev : ∀ (K fuel i : Nat), K < fuel → i + 1 < 2 ^ K →
    bitrevNext fuel (rev K i) (2 ^ K) = .ok (rev K (i + 1)) := by
  intro K
  induction K with
  | zero => intro fuel i _ h; simp at h
  | succ K ih =>
    intro fuel i hf hi
    obtain ⟨f, rfl⟩ : ∃ f, fuel = f + 1 := ⟨fuel - 1, by omega⟩
    unfold bitrevNext
    have e : 2 ^ (K + 1) / 2 = 2 ^ K := by rw [Nat.pow_succ]; omega
    simp only [e]
    have hlt := rev_lt K (i / 2)
    have h2 : i % 2 = 0 ∨ i % 2 = 1 := by omega
    rcases h2 with h | h
    · have h1 : rev (K + 1) i = rev K (i / 2) := by rw [rev_succ, h]; ring
      have h3 : rev (K + 1) (i + 1) = 2 ^ K + rev K (i / 2) := by
        rw [rev_succ, show (i + 1) % 2 = 1 by omega, show (i + 1) / 2 = i / 2 by omega]; ring
      rw [h1, xor_top0 hlt, and_top1 hlt, if_neg (by have := Nat.two_pow_pos K; omega), h3]
    · have h1 : rev (K + 1) i = 2 ^ K + rev K (i / 2) := by rw [rev_succ, h]; ring
      have h3 : rev (K + 1) (i + 1) = rev K (i / 2 + 1) := by
        rw [rev_succ, show (i + 1) % 2 = 0 by omega, show (i + 1) / 2 = i / 2 + 1 by omega]; ring
      rw [h1, xor_top1 hlt, and_top0 hlt, if_pos rfl, h3]
      exact ih f (i / 2) (by omega) (by rw [Nat.pow_succ] at hi; omega)

theorem wp_swap {α : Type} {E : Err → Prop} {a : Array α} {i j : Nat} {P : Array α → Prop}
    (hi : i < a.size) (hj : j < a.size)
    (h : ∀ a', a'.size = a.size →
      (∀ x, a'[x]? = if x = j then a[i]? else if x = i then a[j]? else a[x]?) → P a') :
    Wp E (swap a i j) P := by
  unfold swap
  simp only [wp_bind]
  refine wp_rd hi fun x hx => wp_rd hj fun y hy => ?_
  refine wp_wr hi (wp_wr (by simpa using hj) (h _ (by simp) ?_))
  intro z
  simp only [Array.getElem?_setIfInBounds, Array.size_setIfInBounds]
  by_cases h1 : j = z
  · subst h1; simp only [if_true, hj, hx]
  · have h1' : ¬ z = j := fun e => h1 e.symm
    simp only [h1, h1', if_false]
    by_cases h2 : i = z
    · subst h2; simp only [if_true, hi, hy]
    · have h2' : ¬ z = i := fun e => h2 e.symm
      simp only [h2, h2', if_false]

/-- Contents after all the pairs with smaller index `< i` have been swapped. -/
def shufIdx (k i x : Nat) : Nat := if min x (rev k x) < i then rev k x else x

theorem and_pred_pow (k : Nat) : 2 ^ k &&& (2 ^ k - 1) = 0 := by
  rw [Nat.and_two_pow_sub_one_eq_mod, Nat.mod_self]

theorem rev_pred (k : Nat) : rev k (2 ^ k - 1) = 2 ^ k - 1 := by
  induction k with
  | zero => rfl
  | succ k ih =>
    have h := Nat.two_pow_pos k
    rw [rev_succ, Nat.pow_succ, show (2 ^ k * 2 - 1) % 2 = 1 by omega,
      show (2 ^ k * 2 - 1) / 2 = 2 ^ k - 1 by omega, ih]
    omega

theorem half_eq_rev_one (k : Nat) (hk : 0 < k) : 2 ^ k / 2 = rev k 1 := by
  obtain ⟨m, rfl⟩ : ∃ m, k = m + 1 := ⟨k - 1, by omega⟩
  rw [rev_succ, Nat.pow_succ]
  simp [rev_zero]

theorem wp_bitrev_shuffle {α : Type} {E : Err → Prop} {k : Nat} (hk : k ≤ 31) (a : Array α)
    (ha : a.size = 2 ^ k) :
    Wp E (bitrev_shuffle a (2 ^ k))
      (fun a' => a'.size = 2 ^ k ∧ ∀ i, i < 2 ^ k → a'[i]? = a[rev k i]?) := by
  have hpos := Nat.two_pow_pos k
  have h31 := pow31 hk
  unfold bitrev_shuffle
  simp only [wp_bind]
  refine wp_cassert (by simp) ?_
  rcases Nat.lt_or_ge 1 (2 ^ k) with h1 | h1
  · have hk0 : 0 < k := by
      rcases Nat.eq_zero_or_pos k with h | h
      · subst h; simp at h1
      · exact h
    refine wp_forUp1 (fun i (st : Nat × Array α) => st.1 = rev k i ∧ st.2.size = 2 ^ k ∧
        ∀ x, x < 2 ^ k → st.2[x]? = a[shufIdx k i x]?) (by omega) (by omega) ?_ ?_ ?_
    · refine ⟨half_eq_rev_one k hk0, ha, ?_⟩
      intro x hx
      simp only [shufIdx]
      split
      · next h =>
        have hz : x = 0 := by
          rcases Nat.eq_zero_or_pos x with h' | h'
          · exact h'
          · have : rev k x = 0 := by omega
            have h3 := rev_rev k x hx
            rw [this, rev_zero] at h3
            omega
        subst hz; rw [rev_zero]
      · rfl
    · rintro i ⟨j, b⟩ hi1 hi ⟨hj, hb, hinv⟩
      simp only at hj hb hinv
      subst hj
      simp only [wp_bind]
      have hjlt := rev_lt k i
      have hnext : ∀ c : Array α, c.size = 2 ^ k → (∀ x, x < 2 ^ k → c[x]? = a[shufIdx k (i + 1) x]?) →
          Wp E (bitrevNext 33 (rev k i) (2 ^ k)) (fun j => Wp E (pure (j, c))
            (fun st : Nat × Array α => st.1 = rev k (i + 1) ∧ st.2.size = 2 ^ k ∧
              ∀ x, x < 2 ^ k → st.2[x]? = a[shufIdx k (i + 1) x]?)) := by
        intro c hc hcinv
        rw [bitrevNext_rev k 33 i (by omega) (by omega)]
        exact wp_ok.2 (wp_pure.2 ⟨rfl, hc, hcinv⟩)
      split
      · next hlt =>
        refine wp_swap (by omega) (by omega) ?_
        intro c hc hcx
        refine hnext c (by omega) ?_
        intro x hx
        rw [hcx x]
        have hrr := rev_rev k i (by omega)
        have hrx := rev_rev k x hx
        by_cases e1 : x = rev k i
        · rw [if_pos e1, hinv i (by omega)]
          unfold shufIdx
          rw [if_neg (by omega), e1, hrr, if_pos (by omega)]
        · rw [if_neg e1]
          by_cases e2 : x = i
          · rw [if_pos e2, hinv _ hjlt]
            unfold shufIdx
            rw [hrr, e2, if_neg (by omega), if_pos (by omega)]
          · rw [if_neg e2, hinv x hx]
            have : rev k x ≠ i := by
              intro e; apply e1; rw [← hrx, e]
            unfold shufIdx
            congr 1
            have : (min x (rev k x) < i) ↔ (min x (rev k x) < i + 1) := by omega
            simp only [this]
      · next hge =>
        simp only [wp_ok]
        refine hnext b hb ?_
        intro x hx
        rw [hinv x hx]
        have hrr := rev_rev k i (by omega)
        have hrx := rev_rev k x hx
        unfold shufIdx
        by_cases e : min x (rev k x) = i
        · -- only possible when x = rev x = i
          rw [if_neg (by omega), if_pos (by omega)]
          rcases Nat.lt_or_ge x (rev k x) with h | h
          · have : x = i := by omega
            subst this; omega
          · have h5 : rev k x = i := by omega
            have : rev k i = x := by rw [← h5]; exact hrx
            have : rev k x = x := by omega
            rw [this]
        · have : (min x (rev k x) < i) ↔ (min x (rev k x) < i + 1) := by omega
          simp only [this]
    · rintro ⟨j, b⟩ ⟨_, hb, hinv⟩
      simp only at hb hinv
      refine wp_pure.2 ⟨hb, fun i hi => ?_⟩
      rw [hinv i hi]
      unfold shufIdx
      split
      · rfl
      · next h =>
        have : i = 2 ^ k - 1 := by omega
        rw [this, rev_pred]
  · have hn1 : 2 ^ k = 1 := by omega
    have hk0 : k = 0 := by
      rcases Nat.eq_zero_or_pos k with h | h
      · exact h
      · have := Nat.pow_le_pow_right (n := 2) (by omega) h
        omega
    subst hk0
    simp only [pow_zero, Nat.sub_self]
    unfold forUp cfor
    simp only [Nat.not_lt_zero, decide_false, Bool.false_eq_true, if_false, wp_ok]
    refine wp_pure.2 ⟨ha, fun i hi => ?_⟩
    have : i = 0 := by omega
    subst this; rfl

/-! ### Shuffle with a table -/

theorem wp_shuffle_with_table {α : Type} {E : Err → Prop} {k n : Nat} (hn : n < 4294967296)
    (a : Array α) (p : Array (Nat × Nat)) (ha : a.size = 2 ^ k) (hp : PairTable k n p) :
    Wp E (shuffle_with_table a p n)
      (fun a' => a'.size = 2 ^ k ∧ ∀ i, i < 2 ^ k → a'[i]? = a[rev k i]?) := by
  obtain ⟨hsz, hval, hinj, hsurj⟩ := hp
  unfold shuffle_with_table
  refine wp_forUp1 (fun z (b : Array α) => b.size = 2 ^ k ∧ ∀ x, x < 2 ^ k →
      ((∃ z', z' < z ∧ (p[z']? = some (x, rev k x) ∨ p[z']? = some (rev k x, x))) →
        b[x]? = a[rev k x]?) ∧
      ((¬ ∃ z', z' < z ∧ (p[z']? = some (x, rev k x) ∨ p[z']? = some (rev k x, x))) →
        b[x]? = a[x]?)) hn (by omega) ?_ ?_ ?_
  · refine ⟨ha, fun x _ => ⟨?_, fun _ => rfl⟩⟩
    rintro ⟨z', h, _⟩; omega
  · rintro z b _ hz ⟨hb, hinv⟩
    obtain ⟨i, hir, hik, hpi⟩ := hval z hz
    have hrl := rev_lt k i
    have hrr := rev_rev k i hik
    rw [wp_bind]
    refine wp_rd_some hpi ?_
    refine wp_swap (by omega) (by omega) ?_
    intro c hc hcx
    refine ⟨by omega, fun x hx => ?_⟩
    rw [hcx x]
    have nodone : ∀ y, (y = i ∨ y = rev k i) →
        ¬ ∃ z', z' < z ∧ (p[z']? = some (y, rev k y) ∨ p[z']? = some (rev k y, y)) := by
      rintro y hy ⟨z', hz', h⟩
      have : p[z']? = p[z]? := by
        obtain ⟨i', hir', hik', hpi'⟩ := hval z' (by omega)
        rw [hpi', hpi]
        rcases hy with hy | hy
        · subst hy
          rcases h with h | h
          · rw [hpi'] at h; exact h
          · rw [hpi'] at h
            injection h with h; injection h with h1 h2
            subst h1; omega
        · subst hy
          rw [hrr] at h
          rcases h with h | h
          · rw [hpi'] at h
            injection h with h; injection h with h1 h2
            subst h1; omega
          · rw [hpi'] at h; exact h
      have := hinj z' z (by omega) hz this
      omega
    by_cases e1 : x = rev k i
    · subst e1
      rw [if_pos rfl, hrr]
      refine ⟨fun _ => ?_, fun h => ?_⟩
      · exact (hinv i hik).2 (nodone i (Or.inl rfl))
      · exact absurd ⟨z, by omega, Or.inr hpi⟩ h
    · rw [if_neg e1]
      by_cases e2 : x = i
      · subst e2
        rw [if_pos rfl]
        refine ⟨fun _ => ?_, fun h => ?_⟩
        · exact (hinv _ hrl).2 (nodone _ (Or.inr rfl))
        · exact absurd ⟨z, by omega, Or.inl hpi⟩ h
      · rw [if_neg e2]
        have key : (∃ z', z' < z + 1 ∧ (p[z']? = some (x, rev k x) ∨ p[z']? = some (rev k x, x))) ↔
            (∃ z', z' < z ∧ (p[z']? = some (x, rev k x) ∨ p[z']? = some (rev k x, x))) := by
          constructor
          · rintro ⟨z', hz', h⟩
            rcases Nat.lt_or_ge z' z with h' | h'
            · exact ⟨z', h', h⟩
            · have : z' = z := by omega
              subst this
              rw [hpi] at h
              rcases h with h | h
              · injection h with h; injection h with h1 h2
                exact absurd h1.symm e2
              · injection h with h; injection h with h1 h2
                exact absurd h2.symm e1
          · rintro ⟨z', hz', h⟩
            exact ⟨z', by omega, h⟩
        rw [key]
        exact hinv x hx
  · rintro b ⟨hb, hinv⟩
    refine ⟨hb, fun x hx => ?_⟩
    have hrx := rev_rev k x hx
    have hrl := rev_lt k x
    rcases Nat.lt_trichotomy x (rev k x) with h | h | h
    · obtain ⟨z, hz, hpz⟩ := hsurj x hx h
      exact (hinv x hx).1 ⟨z, hz, Or.inl hpz⟩
    · by_cases hd : ∃ z', z' < n ∧ (p[z']? = some (x, rev k x) ∨ p[z']? = some (rev k x, x))
      · exact (hinv x hx).1 hd
      · rw [(hinv x hx).2 hd, ← h]
    · obtain ⟨z, hz, hpz⟩ := hsurj (rev k x) hrl (by rw [hrx]; exact h)
      rw [hrx] at hpz
      exact (hinv x hx).1 ⟨z, hz, Or.inr hpz⟩

end Ntt
