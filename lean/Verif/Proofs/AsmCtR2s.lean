import Verif.Proofs.AsmLoops

/-
`ntt_red_ct_rev2std_asm` and `mulntt_red_ct_rev2std_asm` of src/ntt_asm.S: every loop computes rounds
of the Cooley-Tukey transform.
-/

namespace Asm
open C Spec NTT Avx

section
variable {E : Err → Prop} {n N k : Nat} {f : Nat → Int} {a p : Array Int}

theorem FctA3 (q : Nat → Int) (c : Nat) : (fun j => FctA q f 3 (8 * c + j)) =
    rnd ctU ctV 4 (wA q 4) (rnd ctU ctV 2 (wA q 2) (rnd ctU ctV 1 (wA q 1) fun j => f (8 * c + j))) := by
  have e : FctA q f 3 = rnd ctU ctV 4 (wA q 4) (rnd ctU ctV 2 (wA q 2) (rnd ctU ctV 1 (wA q 1) f)) := rfl
  rw [e, rnd_shift (e := 1) rfl (by omega), rnd_shift (e := 2) rfl (by omega),
    rnd_shift (e := 4) rfl (by omega), wA_shift (e := 2) rfl, wA_shift (e := 4) rfl, wA_shift (e := 8) rfl]

theorem wp_ct_r2s_size8 (hn : n = 8 * N) (hN : 0 < N) (ha : Is n f a) (hf : ∀ i, I32 (f i))
    {q : Nat → Int} (hq : q 1 = -4096) :
    Wp E (jloop (ct_r2s_size8_loop (4 * n) mask
      (ntt_red_ct_rev2std_asm_blk_1 (V8.ofFn q) perm5)
      (ntt_red_ct_rev2std_asm_blk_2 (V8.ofFn q) perm4)) n (a, 0)) (fun s => Is n (FctA q f 3) s.1) := by
  have e : ∀ y5 y6, ct_r2s_size8_loop (4 * n) mask y5 y6 =
    body8 (fun v => ct_r2s_size8_loop_blk_1 v mask y5 y6) (4 * n) := fun _ _ => rfl
  rw [e]
  refine wp_blk8 hn hN ha fun c => ?_
  rw [FctA3]
  have h : ∀ j, mr (f (8 * c + j)) (-4096) = f (8 * c + j) := fun j => mr_one (hf _)
  lanes [ct_r2s_size8_loop_blk_1, ntt_red_ct_rev2std_asm_blk_1, ntt_red_ct_rev2std_asm_blk_2, rnd, wA,
    ctU, ctV, hq, h]

theorem wp_mct_r2s_size8 (hn : n = 8 * N) (hN : 0 < N) (ha : Is n f a) {q : Nat → Int} :
    Wp E (jloop (mct_r2s_size8_loop2 (4 * n) mask
      (mulntt_red_ct_rev2std_asm_blk_1 (V8.ofFn q) perm5)
      (mulntt_red_ct_rev2std_asm_blk_2 (V8.ofFn q) perm4)
      (mulntt_red_ct_rev2std_asm_blk_3 (V8.ofFn q) perm3)) n (a, 0)) (fun s => Is n (FctA q f 3) s.1) := by
  have e : ∀ y5 y6 y7, mct_r2s_size8_loop2 (4 * n) mask y5 y6 y7 =
    body8 (fun v => mct_r2s_size8_loop2_blk_1 v mask y5 y6 y7) (4 * n) := fun _ _ _ => rfl
  rw [e]
  refine wp_blk8 hn hN ha fun c => ?_
  rw [FctA3]
  lanes [mct_r2s_size8_loop2_blk_1, mulntt_red_ct_rev2std_asm_blk_1, mulntt_red_ct_rev2std_asm_blk_2,
    mulntt_red_ct_rev2std_asm_blk_3, rnd, wA, ctU, ctV]

theorem wp_ct_r2s_size16 (hn : n = 16 * N) (hN : 0 < N) (ha : Is n f a) {q : Nat → Int} :
    Wp E (jloop (ct_r2s_size16_loop (4 * n) mask
      (ntt_red_ct_rev2std_asm_2_blk_1 (V8.ofFn fun j => q (8 + j)))
      (V8.ofFn fun j => q (8 + j))) n (a, 0)) (fun s => Is n (rnd ctU ctV 8 (wA q 8) f) s.1) := by
  have e : ∀ y5 y6, ct_r2s_size16_loop (4 * n) mask y5 y6 =
    bodyP (fun u v => ct_r2s_size16_loop_blk_1 u v mask y5 y6) (4 * n) := fun _ _ => rfl
  rw [e]
  refine wp_blk16 hn hN ha fun c => ?_
  rw [rnd_shift (e := 1) rfl (by omega), wA_shift (e := 2) rfl]
  unfold Blk16
  lanes [ct_r2s_size16_loop_blk_1, ntt_red_ct_rev2std_asm_2_blk_1, rnd, wA, ctU, ctV]

/-- One block of a round with stride `t`. -/
theorem wp_ct_r2s_inner {t q b fuel : Nat} (hq : t = 8 * q) (hq0 : 0 < q)
    (hb : 2 * t * (b + 1) ≤ n) (hf : q ≤ fuel) (hp : 2 * t ≤ p.size)
    (h : Md n f (rnd ctU ctV t (wA (elt p) t) f) (fun i => i < 2 * t * b) a) :
    Wp E (jloop (ct_r2s_inner_loop p (4 * (2 * t * (b + 1))) mask) fuel
      (a, 4 * (2 * t * b), 4 * (2 * t * b + t), 2 * t))
      (fun s => Md n f (rnd ctU ctV t (wA (elt p) t) f) (fun i => i < 2 * t * (b + 1)) s.1) := by
  have e1 : 2 * t * (b + 1) = 2 * t * b + 2 * t := by ring
  rw [e1] at hb ⊢
  have hlo : ∀ j, j < t → rnd ctU ctV t (wA (elt p) t) f (2 * t * b + j) =
      ctU (f (2 * t * b + j)) (f (2 * t * b + j + t)) (elt p (t + j)) :=
    fun j hj => by rw [rnd_lo hj, wA_lo hj]
  have hhi : ∀ j, j < t → rnd ctU ctV t (wA (elt p) t) f (2 * t * b + j + t) =
      ctV (f (2 * t * b + j)) (f (2 * t * b + j + t)) (elt p (t + j)) :=
    fun j hj => by rw [rnd_hi hj, wA_lo hj]
  generalize 2 * t * b = B0 at *
  generalize rnd ctU ctV t (wA (elt p) t) f = G at *
  refine wp_jloop (fun c s => s.2 = (4 * (B0 + 8 * c), 4 * (B0 + t + 8 * c), 2 * (t + 8 * c)) ∧
    Md n f G (fun i => i < B0 + 8 * c ∨ (B0 + t ≤ i ∧ i < B0 + t + 8 * c)) s.1)
    hq0 hf ⟨rfl, h.congr (by intros; omega)⟩ ?_ ?_
  · rintro c ⟨a, rax, rcx, rdx⟩ hc ⟨hr, h⟩
    dsimp only at hr h
    obtain ⟨rfl, hr2⟩ := Prod.mk.inj hr
    obtain ⟨rfl, rfl⟩ := Prod.mk.inj hr2
    simp only [ct_r2s_inner_loop, wp_bind]
    refine wp_load (B0 + 8 * c) h (by omega) (by omega) (by intros; omega) ?_
    refine wp_load (B0 + t + 8 * c) h (by omega) (by omega) (by intros; omega) ?_
    rw [load_sxwd_ok (s := t + 8 * c) (by omega) (by omega), wp_ok]
    have hB : ∀ x y w : Nat → Int, ct_r2s_inner_loop_blk_1 (V8.ofFn x) (V8.ofFn y) mask (V8.ofFn w) =
        (V8.ofFn fun j => ctU (x j) (y j) (w j), V8.ofFn fun j => ctV (x j) (y j) (w j)) := by
      intro x y w
      lanes [ct_r2s_inner_loop_blk_1, ctU, ctV]
    rw [hB]
    refine wp_store (B0 + 8 * c) h (by omega) (by omega) ?_ fun a' h' => ?_
    · dsimp only
      refine ofFn_congr fun j hj => ?_
      rw [show B0 + t + 8 * c + j = B0 + (8 * c + j) + t by omega, Nat.add_assoc B0, hlo _ (by omega),
        Nat.add_assoc t]
    refine wp_store (B0 + t + 8 * c) h' (by omega) (by omega) ?_ fun a'' h'' => ?_
    · dsimp only
      refine ofFn_congr fun j hj => ?_
      rw [show B0 + t + 8 * c + j = B0 + (8 * c + j) + t by omega, Nat.add_assoc B0, hhi _ (by omega),
        Nat.add_assoc t]
    refine wp_pure.2 ⟨?_, ?_, h''.congr ?_⟩
    · dsimp only; congr 1; apply propext; omega
    · dsimp only; simp only [Prod.mk.injEq]; omega
    · intros; omega
  · rintro ⟨a, rax, rcx⟩ ⟨_, h⟩
    dsimp only at h ⊢
    exact h.congr (by intros; omega)

/-- One round with stride `t`. -/
theorem wp_ct_r2s_round {t q N fuel : Nat} (hq : t = 8 * q) (hq0 : 0 < q) (hN : 0 < N)
    (hn : n = 2 * t * N) (hf : n ≤ fuel) (hp : n ≤ p.size) (ha : Is n f a) :
    Wp E (jloop (ct_r2s_loop_aux1 p fuel (4 * n) (2 * t) (2 * t) mask) fuel (a, 0))
      (fun s => Is n (rnd ctU ctV t (wA (elt p) t) f) s.1) := by
  have hN' : N ≤ n := by rw [hn]; exact Nat.le_mul_of_pos_left _ (by omega)
  have ht : 2 * t ≤ n := by rw [hn]; exact Nat.le_mul_of_pos_right _ hN
  refine wp_jloop (fun b s => s.2 = 4 * (2 * t * b) ∧
    Md n f (rnd ctU ctV t (wA (elt p) t) f) (fun i => i < 2 * t * b) s.1) hN (by omega)
    ⟨by simp, ha.md (by intros; omega)⟩ ?_ ?_
  · rintro b ⟨a, rax⟩ hb ⟨hr, h⟩
    dsimp only at hr h
    subst hr
    have hle : 2 * t * (b + 1) ≤ n := by rw [hn]; exact Nat.mul_le_mul_left _ (by omega)
    simp only [ct_r2s_loop_aux1, wp_bind]
    have e1 : 4 * (2 * t * b) + 2 * (2 * t) = 4 * (2 * t * b + t) := by omega
    have e2 : 4 * (2 * t * b) + 4 * (2 * t) = 4 * (2 * t * (b + 1)) := by
      have : 2 * t * (b + 1) = 2 * t * b + 2 * t := by ring
      omega
    rw [e1, e2]
    refine (wp_ct_r2s_inner hq hq0 hle (by omega) (by omega) h).mono ?_
    rintro ⟨a', x⟩ h'
    refine wp_pure.2 ⟨?_, rfl, h'⟩
    dsimp only
    congr 1; apply propext
    rw [hn]
    constructor
    · intro hh
      have : 2 * t * (b + 1) < 2 * t * N := by omega
      exact Nat.lt_of_mul_lt_mul_left this
    · intro hh
      have : 2 * t * (b + 1) < 2 * t * N := Nat.mul_lt_mul_of_pos_left hh (by omega)
      omega
  · rintro ⟨a, rax⟩ ⟨_, h⟩
    exact h.is (by rw [hn]; intros; assumption)

theorem wp_ct_r2s_tail (hk : 4 ≤ k) (hp : 2 ^ k ≤ p.size) (ha : Is (2 ^ k) (FctA (elt p) f 3) a) :
    Wp E (ct_r2s_tail p (2 ^ k) 0 (4 * 2 ^ k) 0 (2 ^ k) mask
      (ntt_red_ct_rev2std_asm_2_blk_1 (V8.ofFn fun j => elt p (8 + j)))
      (V8.ofFn fun j => elt p (8 + j)) a 0) (Is (2 ^ k) (FctA (elt p) f k)) := by
  obtain ⟨d, rfl⟩ : ∃ d, k = d + 4 := ⟨k - 4, by omega⟩
  have hn : 2 ^ (d + 4) = 16 * 2 ^ d := by rw [pow_add]; ring
  have hd := Nat.two_pow_pos d
  unfold ct_r2s_tail
  simp only [wp_bind]
  refine (wp_ct_r2s_size16 hn hd ha).mono ?_
  rintro ⟨a, x⟩ ha
  dsimp only at ha ⊢
  change Is _ (FctA (elt p) f 4) a at ha
  split
  · rename_i h16
    have : d = 0 := by
      by_contra h
      have : 2 ^ 1 ≤ 2 ^ d := Nat.pow_le_pow_right (by omega) (by omega)
      omega
    subst this
    exact wp_pure.2 ha
  · rename_i h16
    have hd1 : 0 < d := by
      by_contra h
      have : d = 0 := by omega
      subst this
      omega
    simp only [wp_bind]
    refine wp_jloop (fun c s => s.2 = (2 * 2 ^ (c + 4), 2 * 2 ^ (c + 4)) ∧
      Is (2 ^ (d + 4)) (FctA (elt p) f (c + 4)) s.1) hd1
      (by have := @Nat.lt_two_pow_self d; omega) ⟨rfl, ha⟩ ?_ ?_
    · rintro c ⟨a, r10, r11⟩ hc ⟨hr, h⟩
      dsimp only at hr h
      obtain ⟨rfl, rfl⟩ := Prod.mk.inj hr
      simp only [ct_r2s_size32_loop, wp_bind]
      have e8 : 2 ^ (c + 4) = 8 * (2 * 2 ^ c) := by rw [pow_add]; ring
      refine (wp_ct_r2s_round (t := 2 ^ (c + 4)) (q := 2 * 2 ^ c) (N := 2 ^ (d - 1 - c)) e8
        (by have := Nat.two_pow_pos c; omega) (Nat.two_pow_pos _) ?_ (le_refl _) hp h).mono ?_
      · rw [pow_split (k := d + 4) (m := c + 4) (by omega),
          show d + 4 - 1 - (c + 4) = d - 1 - c by omega]
      rintro ⟨a', x⟩ h'
      refine wp_pure.2 ⟨?_, ?_, h'⟩
      · dsimp only
        congr 1; apply propext
        rw [show 2 * (2 * 2 ^ (c + 4)) = 2 ^ (c + 6) by ring]
        rw [Nat.pow_le_pow_iff_right (by omega)]
        omega
      · dsimp only
        rw [show c + 1 + 4 = c + 4 + 1 by omega, pow_succ 2 (c + 4)]
        simp only [Prod.mk.injEq]; omega
    · rintro ⟨a, x⟩ ⟨_, h⟩
      exact wp_pure.2 h

theorem wp_ct_rev2std_asm (hk : 4 ≤ k) (hp : 2 ^ k ≤ p.size) (hu : UnitHeads k p) (ha : Is (2 ^ k) f a)
    (hf : ∀ i, I32 (f i)) :
    Wp E (ntt_red_ct_rev2std_asm a (2 ^ k) p) (Is (2 ^ k) (FctA (elt p) f k)) := by
  have h16 : 2 ^ 4 ≤ 2 ^ k := Nat.pow_le_pow_right (by omega) hk
  have hn : 2 ^ k = 8 * 2 ^ (k - 3) := pow8 (by omega)
  unfold ntt_red_ct_rev2std_asm
  simp only [wp_bind, Nat.zero_add]
  rw [load_sxwd_ok (s := 0) rfl (by omega), wp_ok, load_sxwd_ok (s := 8) (r := 16) rfl (by omega)]
  simp only [Nat.zero_add]
  refine (wp_ct_r2s_size8 hn (Nat.two_pow_pos _) ha hf (hu 0 (by omega))).mono ?_
  rintro ⟨a, x⟩ ha
  exact wp_ok.2 (wp_ct_r2s_tail hk hp ha)

theorem wp_mulct_rev2std_asm (hk : 4 ≤ k) (hp : 2 ^ k ≤ p.size) (ha : Is (2 ^ k) f a) :
    Wp E (mulntt_red_ct_rev2std_asm a (2 ^ k) p) (Is (2 ^ k) (FctA (elt p) f k)) := by
  have h16 : 2 ^ 4 ≤ 2 ^ k := Nat.pow_le_pow_right (by omega) hk
  have hn : 2 ^ k = 8 * 2 ^ (k - 3) := pow8 (by omega)
  unfold mulntt_red_ct_rev2std_asm
  simp only [wp_bind, Nat.zero_add]
  rw [load_sxwd_ok (s := 0) rfl (by omega), wp_ok, load_sxwd_ok (s := 8) (r := 16) rfl (by omega)]
  simp only [Nat.zero_add]
  refine (wp_mct_r2s_size8 hn (Nat.two_pow_pos _) ha).mono ?_
  rintro ⟨a, x⟩ ha
  exact wp_ok.2 (wp_ct_r2s_tail hk hp ha)

end

end Asm
