import Verif.Proofs.AsmGsR2s

/-
`ntt_red_gs_std2rev_asm` and `nttmul_red_gs_std2rev_asm` of src/ntt_asm.S: every loop computes rounds
of the Gentleman-Sande transform.
-/

namespace Asm
open C Spec NTT Avx

section
variable {E : Err → Prop} {n N k : Nat} {f : Nat → Int} {a p : Array Int}

/-- The processed elements: the columns before `8 c`, and the first `b` blocks of the columns
`8 c, ..., 8 c + 7`. -/
def colDone (t c b i : Nat) : Prop := i % t < 8 * c ∨ (i % t < 8 * c + 8 ∧ i / (2 * t) < b)

theorem gs_col_blk {x y w : Nat → Int} :
    gs_s2r_inner_loop_blk_1 (V8.ofFn x) (V8.ofFn y) mask (V8.ofFn w) (gs_s2r_loop_blk_1 (V8.ofFn w)) =
      (V8.ofFn fun j => gsV (x j) (y j) (w j), V8.ofFn fun j => gsU (x j) (y j) (w j)) := by
  lanes [gs_s2r_inner_loop_blk_1, gs_s2r_loop_blk_1, gsU, gsV]

/-- The columns `8 c, ..., 8 c + 7` of a round with stride `t`. -/
theorem wp_gs_s2r_inner {t q T c fuel : Nat} (hq : t = 8 * q) (hc : c < q) (hT : 0 < T)
    (hn : n = 2 * t * T) (hfu : T ≤ fuel)
    (h : Md n f (rnd gsU gsV t (wA (elt p) t) f) (colDone t c 0) a) :
    Wp E (jloop (gs_s2r_inner_loop (2 * t) (4 * n) mask (V8.ofFn fun j => elt p (t + 8 * c + j))
        (gs_s2r_loop_blk_1 (V8.ofFn fun j => elt p (t + 8 * c + j)))) fuel (a, 32 * c, 32 * c + 2 * (2 * t)))
      (fun s => Md n f (rnd gsU gsV t (wA (elt p) t) f) (colDone t c T) s.1) := by
  refine wp_jloop (fun b s => s.2 = (4 * (2 * t * b + 8 * c), 4 * (2 * t * b + 8 * c + t)) ∧
    Md n f (rnd gsU gsV t (wA (elt p) t) f) (colDone t c b) s.1)
    hT hfu ?_ ?_ ?_
  · refine ⟨?_, h⟩
    dsimp only
    simp only [Prod.mk.injEq]; omega
  · rintro b ⟨a, rax, rcx⟩ hb ⟨hr, h⟩
    dsimp only at hr h
    obtain ⟨rfl, rfl⟩ := Prod.mk.inj hr
    have hle : 2 * t * (b + 1) ≤ n := by rw [hn]; exact Nat.mul_le_mul_left _ (by omega)
    have e1 : 2 * t * (b + 1) = 2 * t * b + 2 * t := by ring
    have lm : ∀ j, j < 8 → (2 * t * b + 8 * c + j) % t = 8 * c + j := fun j hj => by
      rw [Nat.add_assoc]; exact lo_mod (by omega)
    have ld : ∀ j, j < 8 → (2 * t * b + 8 * c + j) / (2 * t) = b := fun j hj => by
      rw [Nat.add_assoc]; exact lo_div (by omega)
    have hm : ∀ j, j < 8 → (2 * t * b + 8 * c + t + j) % t = 8 * c + j := fun j hj => by
      rw [show 2 * t * b + 8 * c + t + j = 2 * t * b + (8 * c + j) + t by omega]; exact hi_mod (by omega)
    have hd : ∀ j, j < 8 → (2 * t * b + 8 * c + t + j) / (2 * t) = b := fun j hj => by
      rw [show 2 * t * b + 8 * c + t + j = 2 * t * b + (8 * c + j) + t by omega]; exact hi_div (by omega)
    have hlo : ∀ j, j < t → rnd gsU gsV t (wA (elt p) t) f (2 * t * b + j) =
        gsU (f (2 * t * b + j)) (f (2 * t * b + j + t)) (elt p (t + j)) :=
      fun j hj => by rw [rnd_lo hj, wA_lo hj]
    have hhi : ∀ j, j < t → rnd gsU gsV t (wA (elt p) t) f (2 * t * b + j + t) =
        gsV (f (2 * t * b + j)) (f (2 * t * b + j + t)) (elt p (t + j)) :=
      fun j hj => by rw [rnd_hi hj, wA_lo hj]
    simp only [gs_s2r_inner_loop, wp_bind]
    refine wp_load (2 * t * b + 8 * c) h rfl (by omega)
      (fun j hj => by unfold colDone; rw [lm j hj, ld j hj]; omega) ?_
    refine wp_load (2 * t * b + 8 * c + t) h rfl (by omega)
      (fun j hj => by unfold colDone; rw [hm j hj, hd j hj]; omega) ?_
    rw [gs_col_blk]
    refine wp_store (2 * t * b + 8 * c) h rfl (by omega) ?_ fun a' h' => ?_
    · dsimp only
      refine ofFn_congr fun j hj => ?_
      rw [show 2 * t * b + 8 * c + t + j = 2 * t * b + (8 * c + j) + t by omega,
        Nat.add_assoc (2 * t * b), hlo _ (by omega), Nat.add_assoc t]
    refine wp_store (2 * t * b + 8 * c + t) h' rfl (by omega) ?_ fun a'' h'' => ?_
    · dsimp only
      refine ofFn_congr fun j hj => ?_
      rw [show 2 * t * b + 8 * c + t + j = 2 * t * b + (8 * c + j) + t by omega,
        Nat.add_assoc (2 * t * b), hhi _ (by omega), Nat.add_assoc t]
    refine wp_pure.2 ⟨?_, ?_, h''.congr fun i _ => ?_⟩
    · dsimp only
      congr 1; apply propext
      rw [← mul_test (x := 2 * t) (b := b) (N := T) (by omega), ← hn]
      constructor
      · intro; omega
      · intro hh
        have h2 : 2 * t * (b + 2) ≤ n := by
          rw [hn] at hh ⊢
          exact Nat.mul_le_mul_left _ ((mul_test (by omega)).1 hh)
        have : 2 * t * (b + 2) = 2 * t * b + 2 * (2 * t) := by ring
        omega
    · dsimp only
      rw [e1]
      simp only [Prod.mk.injEq]; omega
    · unfold colDone
      constructor
      · rintro ((hh | hh) | hh) 
        · rcases hh with hh | hh
          · exact Or.inl hh
          · exact Or.inr (by omega)
        · obtain ⟨j, hj⟩ : ∃ j, i = 2 * t * b + 8 * c + j := ⟨i - (2 * t * b + 8 * c), by omega⟩
          rw [hj, lm j (by omega), ld j (by omega)]
          omega
        · obtain ⟨j, hj⟩ : ∃ j, i = 2 * t * b + 8 * c + t + j := ⟨i - (2 * t * b + 8 * c + t), by omega⟩
          rw [hj, hm j (by omega), hd j (by omega)]
          omega
      · intro hh
        by_cases h1 : i % t < 8 * c
        · exact Or.inl (Or.inl (Or.inl h1))
        by_cases h2 : i / (2 * t) < b
        · exact Or.inl (Or.inl (Or.inr (by omega)))
        have h3 : i / (2 * t) = b := by omega
        have h4 : i % t < 8 * c + 8 := by omega
        have h5 : i = 2 * t * b + i % t ∨ i = 2 * t * b + i % t + t := by
          rw [← h3]; exact pair_cases (t := t) (by omega) i
        omega
  · rintro ⟨a, s⟩ ⟨_, h⟩
    exact h

/-- One round. -/
theorem wp_gs_s2r_round {t q T fuel : Nat} (hq : t = 8 * q) (hq0 : 0 < q) (hT : 0 < T)
    (hn : n = 2 * t * T) (hfu : n ≤ fuel) (hp : n ≤ p.size) (ha : Is n f a) :
    Wp E (jloop (gs_s2r_loop p fuel (2 * t) (4 * t) (4 * n) mask) fuel (a, 0, 2 * t))
      (fun s => Is n (rnd gsU gsV t (wA (elt p) t) f) s.1) := by
  have hN' : T ≤ n := by rw [hn]; exact Nat.le_mul_of_pos_left _ (by omega)
  have ht : 2 * t ≤ n := by rw [hn]; exact Nat.le_mul_of_pos_right _ hT
  refine wp_jloop (N := q) (fun c s => s.2 = (32 * c, 2 * (t + 8 * c)) ∧
    Md n f (rnd gsU gsV t (wA (elt p) t) f) (colDone t c 0) s.1) hq0 (by omega)
    ⟨rfl, ha.md (by rintro i _ (h | ⟨_, h⟩); exacts [Nat.not_lt_zero _ h, Nat.not_lt_zero _ h])⟩ ?_ ?_
  · rintro c ⟨a, r8, r9⟩ hc ⟨hr, h⟩
    dsimp only at hr h
    obtain ⟨rfl, rfl⟩ := Prod.mk.inj hr
    simp only [gs_s2r_loop, wp_bind]
    rw [load_sxwd_ok (s := t + 8 * c) rfl (by omega), wp_ok]
    refine (wp_gs_s2r_inner hq hc hT hn (by omega) h).mono ?_
    rintro ⟨a', s'⟩ h'
    refine wp_pure.2 ⟨?_, ?_, h'.congr fun i hi => ?_⟩
    · dsimp only; congr 1; apply propext; omega
    · dsimp only; simp only [Prod.mk.injEq]; omega
    · have : i / (2 * t) < T := by rw [Nat.div_lt_iff_lt_mul (by omega), Nat.mul_comm, ← hn]; exact hi
      unfold colDone
      generalize i / (2 * t) = x at *
      generalize i % t = y at *
      omega
  · rintro ⟨a, s⟩ ⟨_, h⟩
    refine h.is fun i _ => Or.inl ?_
    rw [← hq]
    exact Nat.mod_lt _ (by omega)

theorem wp_gs_s2r_main (hk : 4 ≤ k) (hp : 2 ^ k ≤ p.size) (ha : Is (2 ^ k) f a) :
    Wp E (jloop (gs_s2r_main p (2 ^ k) 0 0 (4 * 2 ^ k) mask) (2 ^ k) (a, 2 ^ k))
      (fun s => Is (2 ^ k) (FgsA k (elt p) f (k - 3)) s.1) := by
  have hkn := @Nat.lt_two_pow_self k
  refine wp_jloop (N := k - 3) (fun m s => s.2 = 2 ^ (k - m) ∧ Is (2 ^ k) (FgsA k (elt p) f m) s.1)
    (by omega) (by omega) ?_ ?_ ?_
  · exact ⟨rfl, ha⟩
  · rintro m ⟨a, rsi⟩ hm ⟨hr, h⟩
    dsimp only at hr h
    subst hr
    simp only [gs_s2r_main, wp_bind, Nat.zero_add]
    have e1 : 2 ^ (k - m) = 2 * 2 ^ (k - 1 - m) := by
      rw [show k - m = k - 1 - m + 1 by omega, pow_succ]; ring
    have e8 := pow8 (k := k - 1 - m) (by omega)
    rw [e1, show 2 * (2 * 2 ^ (k - 1 - m)) = 4 * 2 ^ (k - 1 - m) by omega]
    refine (wp_gs_s2r_round e8 (Nat.two_pow_pos _) (Nat.two_pow_pos m) ?_ (le_refl _) hp h).mono ?_
    · have := pow_split (k := k) (m := k - 1 - m) (by omega)
      rw [show k - 1 - (k - 1 - m) = m by omega] at this
      exact this
    rintro ⟨a', s'⟩ h'
    rw [show 2 * 2 ^ (k - 1 - m) / 2 = 2 ^ (k - 1 - m) by omega]
    refine wp_pure.2 ⟨?_, ?_, h'⟩
    · dsimp only
      congr 1; apply propext
      change 2 ^ 4 ≤ 2 ^ (k - 1 - m) ↔ _
      rw [Nat.pow_le_pow_iff_right (by omega)]
      omega
    · dsimp only
      rw [show k - (m + 1) = k - 1 - m by omega]
  · rintro ⟨a, s⟩ ⟨_, h⟩
    exact h

/-! ### the last three rounds -/

theorem FgsA3 (hk : 4 ≤ k) (q : Nat → Int) (c : Nat) : (fun j => FgsA k q f k (16 * c + j)) =
    rnd gsU gsV 1 (wA q 1) (rnd gsU gsV 2 (wA q 2)
      (rnd gsU gsV 4 (wA q 4) fun j => FgsA k q f (k - 3) (16 * c + j))) := by
  have e : FgsA k q f k = rnd gsU gsV 1 (wA q 1) (rnd gsU gsV 2 (wA q 2)
      (rnd gsU gsV 4 (wA q 4) (FgsA k q f (k - 3)))) := by
    obtain ⟨d, rfl⟩ : ∃ d, k = d + 3 := ⟨k - 3, by omega⟩
    have a1 : d + 3 - 1 - (d + 2) = 0 := by omega
    have a2 : d + 3 - 1 - (d + 1) = 1 := by omega
    have a3 : d + 3 - 1 - d = 2 := by omega
    rw [show d + 3 - 3 = d by omega, FgsA, FgsA, FgsA, a1, a2, a3]
    rfl
  rw [e, rnd_shift (e := 8) rfl (by omega), rnd_shift (e := 4) rfl (by omega),
    rnd_shift (e := 2) rfl (by omega), wA_shift (e := 16) rfl, wA_shift (e := 8) rfl, wA_shift (e := 4) rfl]

theorem gs_finish_blk {g q : Nat → Int} (h1 : q 1 = -4096) (h2 : q 2 = -4096) :
    Blk16 (fun u v => gs_s2r_finish_loop_blk_1 u v mask (ntt_red_gs_std2rev_asm_2_blk_1 (V8.ofFn q)).1
      (ntt_red_gs_std2rev_asm_2_blk_1 (V8.ofFn q)).2.1 (ntt_red_gs_std2rev_asm_2_blk_1 (V8.ofFn q)).2.2
      perm04152637) g
      (rnd gsU gsV 1 (wA q 1) (rnd gsU gsV 2 (wA q 2) (rnd gsU gsV 4 (wA q 4) g))) := by
  unfold Blk16
  lanes [gs_s2r_finish_loop_blk_1, ntt_red_gs_std2rev_asm_2_blk_1, rnd, wA, gsU, gsV, h1, h2, mr_sub_one]

theorem mgs_finish_blk {g q : Nat → Int} :
    Blk16 (fun u v => mgs_s2r_finish_loop_blk_1 u v mask
      (nttmul_red_gs_std2rev_asm_2_blk_5 (V8.ofFn q) perm4060)
      (nttmul_red_gs_std2rev_asm_2_blk_4 (V8.ofFn q) perm5070)
      (nttmul_red_gs_std2rev_asm_2_blk_3 (V8.ofFn q) perm_bdcst2)
      (nttmul_red_gs_std2rev_asm_2_blk_2 (V8.ofFn q) perm_bdcst3)
      (nttmul_red_gs_std2rev_asm_2_blk_1 (V8.ofFn q) perm_bdcst1)
      perm04152637) g
      (rnd gsU gsV 1 (wA q 1) (rnd gsU gsV 2 (wA q 2) (rnd gsU gsV 4 (wA q 4) g))) := by
  unfold Blk16
  lanes [mgs_s2r_finish_loop_blk_1, nttmul_red_gs_std2rev_asm_2_blk_1, nttmul_red_gs_std2rev_asm_2_blk_2,
    nttmul_red_gs_std2rev_asm_2_blk_3, nttmul_red_gs_std2rev_asm_2_blk_4,
    nttmul_red_gs_std2rev_asm_2_blk_5, rnd, wA, gsU, gsV]

/-! ### the functions -/

theorem wp_gs_std2rev_asm (hk : 4 ≤ k) (hp : 2 ^ k ≤ p.size) (hu : UnitHeads k p) (ha : Is (2 ^ k) f a) :
    Wp E (ntt_red_gs_std2rev_asm a (2 ^ k) p) (Is (2 ^ k) (FgsA k (elt p) f k)) := by
  have hn := pow16 hk
  have hd := Nat.two_pow_pos (k - 4)
  unfold ntt_red_gs_std2rev_asm
  simp only [wp_bind, Nat.zero_add]
  refine (wp_gs_s2r_main hk hp ha).mono ?_
  rintro ⟨a, s⟩ ha
  rw [load_sxwd_ok (s := 0) rfl (by omega), wp_ok]
  simp only [Nat.zero_add]
  have e : ∀ y5 y6 y7, gs_s2r_finish_loop (4 * 2 ^ k) mask y5 y6 y7 perm04152637 =
    bodyP (fun u v => gs_s2r_finish_loop_blk_1 u v mask y5 y6 y7 perm04152637) (4 * 2 ^ k) :=
    fun _ _ _ => rfl
  rw [e]
  refine (wp_blk16 (G := FgsA k (elt p) f k) hn hd ha fun c => ?_).mono fun s h => wp_pure.2 h
  rw [FgsA3 hk]
  exact gs_finish_blk (hu 0 (by omega)) (hu 1 (by omega))

theorem wp_gsmul_std2rev_asm (hk : 4 ≤ k) (hp : 2 ^ k ≤ p.size) (ha : Is (2 ^ k) f a) :
    Wp E (nttmul_red_gs_std2rev_asm a (2 ^ k) p) (Is (2 ^ k) (FgsA k (elt p) f k)) := by
  have hn := pow16 hk
  have hd := Nat.two_pow_pos (k - 4)
  have e0 : mgs_s2r_main = gs_s2r_main := rfl
  unfold nttmul_red_gs_std2rev_asm
  simp only [wp_bind, Nat.zero_add]
  rw [e0]
  refine (wp_gs_s2r_main hk hp ha).mono ?_
  rintro ⟨a, s⟩ ha
  rw [load_sxwd_ok (s := 0) rfl (by omega), wp_ok]
  simp only [Nat.zero_add]
  have e : ∀ y5 y6 y7 y8 y9, mgs_s2r_finish_loop (4 * 2 ^ k) mask y5 y6 y7 y8 y9 perm04152637 =
    bodyP (fun u v => mgs_s2r_finish_loop_blk_1 u v mask y5 y6 y7 y8 y9 perm04152637) (4 * 2 ^ k) :=
    fun _ _ _ _ _ => rfl
  rw [e]
  refine (wp_blk16 (G := FgsA k (elt p) f k) hn hd ha fun c => ?_).mono fun s h => wp_pure.2 h
  rw [FgsA3 hk]
  exact mgs_finish_blk

end

end Asm
