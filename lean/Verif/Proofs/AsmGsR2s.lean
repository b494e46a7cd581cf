import Verif.Proofs.AsmLoops

/-
`ntt_red_gs_rev2std_asm` and `nttmul_red_gs_rev2std_asm` of src/ntt_asm.S: every loop computes rounds
of the Gentleman-Sande transform.
-/

namespace Asm
open C Spec NTT Avx

section
variable {E : Err → Prop} {n N k : Nat} {f : Nat → Int} {a p : Array Int}

theorem mr_sub_one (x y : Int) : mr (sub32 x y) (-4096) = sub32 x y := mr_one (I32_sub32 _ _)

theorem gs_unit_blk {x y : Nat → Int} :
    gs_r2s_size32_first_blocks_blk_1 (V8.ofFn x) (V8.ofFn y) =
      (V8.ofFn fun j => gsU (x j) (y j) (-4096), V8.ofFn fun j => gsV (x j) (y j) (-4096)) := by
  lanes [gs_r2s_size32_first_blocks_blk_1, gsU, gsV, mr_sub_one]

theorem gs_bd_blk {x y : Nat → Int} {w : Int} :
    gs_r2s_size32_inner_loop_blk_1 (V8.ofFn x) (V8.ofFn y) mask (wide fun _ => w) =
      (V8.ofFn fun j => gsU (x j) (y j) w, V8.ofFn fun j => gsV (x j) (y j) w) := by
  lanes [gs_r2s_size32_inner_loop_blk_1, gsU, gsV]

/-! ### the first three rounds -/

theorem FgsB3 (hk : 3 ≤ k) (q : Nat → Int) (c : Nat) : (fun j => FgsB k q f 3 (8 * c + j)) =
    rnd gsU gsV 4 (wB q (2 ^ (k - 3) + c) 4) (rnd gsU gsV 2 (wB q (2 ^ (k - 2) + 2 * c) 2)
      (rnd gsU gsV 1 (wB q (2 ^ (k - 1) + 4 * c) 1) fun j => f (8 * c + j))) := by
  have e : FgsB k q f 3 = rnd gsU gsV 4 (wB q (2 ^ (k - 3)) 4) (rnd gsU gsV 2 (wB q (2 ^ (k - 2)) 2)
      (rnd gsU gsV 1 (wB q (2 ^ (k - 1)) 1) f)) := by
    rw [FgsB, FgsB, FgsB, FgsB, show k - 1 - 2 = k - 3 by omega, show k - 1 - 1 = k - 2 by omega]
    rfl
  rw [e, rnd_shift (e := 1) rfl (by omega), rnd_shift (e := 2) rfl (by omega),
    rnd_shift (e := 4) rfl (by omega), wB_shift (e := 1) rfl (by omega), wB_shift (e := 2) rfl (by omega),
    wB_shift (e := 4) rfl (by omega), Nat.one_mul]

theorem wp_gs_r2s_loop0 (hk : 4 ≤ k) (hp : 2 ^ k ≤ p.size) (hi : ∀ i, 0 < i → i < 2 ^ k → I16 (elt p i))
    (ha : Is (2 ^ k) f a) :
    Wp E (jloop (gs_r2s_loop0 p (4 * 2 ^ k) mask perm2020) (2 ^ k)
        (a, 0, 2 * 2 ^ (k - 1), 2 * 2 ^ (k - 2), 2 * 2 ^ (k - 3)))
      (fun s => Is (2 ^ k) (FgsB k (elt p) f 3) s.1) := by
  have hn := pow8 (k := k) (by omega)
  have p1 : 2 ^ (k - 1) = 4 * 2 ^ (k - 3) := by
    rw [show k - 1 = k - 3 + 2 by omega, pow_add]; ring
  have p2 : 2 ^ (k - 2) = 2 * 2 ^ (k - 3) := by
    rw [show k - 2 = k - 3 + 1 by omega, pow_add]; ring
  have hd := Nat.two_pow_pos (k - 3)
  refine wp_jloop (N := 2 ^ (k - 3)) (fun c s => s.2 = (32 * c, 2 * (2 ^ (k - 1) + 4 * c),
      2 * (2 ^ (k - 2) + 2 * c), 2 * (2 ^ (k - 3) + c)) ∧
    Md (2 ^ k) f (FgsB k (elt p) f 3) (fun i => i < 8 * c) s.1)
    hd (by omega) ⟨rfl, ha.md (by intros; omega)⟩ ?_ ?_
  · rintro c ⟨a, rax, r8, r9, r10⟩ hc ⟨hr, h⟩
    dsimp only at hr h
    obtain ⟨rfl, hr2⟩ := Prod.mk.inj hr
    obtain ⟨rfl, hr3⟩ := Prod.mk.inj hr2
    obtain ⟨rfl, rfl⟩ := Prod.mk.inj hr3
    simp only [gs_r2s_loop0, wp_bind]
    rw [load_sxwq_ok (s := 2 ^ (k - 1) + 4 * c) rfl (by omega), wp_ok]
    refine wp_load (8 * c) h (by omega) (by omega) (by intros; omega) ?_
    rw [load_sxwq128_ok (s := 2 ^ (k - 2) + 2 * c) rfl (by omega), wp_ok]
    refine wp_bdcstw (s := 2 ^ (k - 3) + c) rfl (by omega) (hi _ (by omega) (by omega)) fun v hv => ?_
    refine wp_store (8 * c) h (by omega) (by omega) ?_ fun a' h' => wp_pure.2 ⟨?_, ?_, h'.congr ?_⟩
    · rw [FgsB3 (by omega)]
      lanes [gs_r2s_loop0_blk_1, gs_r2s_loop0_blk_2, gs_r2s_loop0_blk_3, hv, rnd, wB, gsU, gsV]
    · dsimp only; congr 1; apply propext; omega
    · dsimp only; simp only [Prod.mk.injEq]; omega
    · intros; omega
  · rintro ⟨a, s⟩ ⟨_, h⟩
    exact h.is (by intros; omega)

/-! ### the fourth round -/

theorem wp_gs_r2s_size16 {T c0 : Nat} (hT : 0 < T) (hn : n = 16 * N) (hN : c0 < N) (hp : T + N ≤ p.size)
    (hi : ∀ i, 0 < i → i < T + N → I16 (elt p i))
    (ha : Md n f (rnd gsU gsV 8 (wB (elt p) T 8) f) (fun i => i < 16 * c0) a) :
    Wp E (jloop (gs_r2s_size16_loop p (4 * n) mask) n (a, 64 * c0, 2 * (T + c0)))
      (fun s => Is n (rnd gsU gsV 8 (wB (elt p) T 8) f) s.1) := by
  refine wp_jloop (N := N - c0) (fun c s => s.2 = (64 * (c0 + c), 2 * (T + (c0 + c))) ∧
    Md n f (rnd gsU gsV 8 (wB (elt p) T 8) f) (fun i => i < 16 * (c0 + c)) s.1)
    (by omega) (by omega) ⟨rfl, ha⟩ ?_ ?_
  · rintro c ⟨a, rax, r9⟩ hc ⟨hr, h⟩
    dsimp only at hr h
    obtain ⟨rfl, rfl⟩ := Prod.mk.inj hr
    simp only [gs_r2s_size16_loop, wp_bind]
    refine wp_bdcstw (s := T + (c0 + c)) rfl (by omega) (hi _ (by omega) (by omega)) fun v hv => ?_
    refine wp_step16 (B := fun x y => gs_r2s_size16_loop_blk_2 x y mask (gs_r2s_size16_loop_blk_1 v))
      rfl (by omega) h ?_ fun a' h' => wp_pure.2 ⟨?_, ?_, h'⟩
    · generalize c0 + c = b at *
      rw [rnd_shift (e := 1) rfl (by omega), wB_shift (e := 1) rfl (by omega)]
      unfold Blk16
      lanes [gs_r2s_size16_loop_blk_2, gs_r2s_size16_loop_blk_1, hv, rnd, wB, gsU, gsV, Nat.one_mul]
    · dsimp only
      congr 1; apply propext; omega
    · dsimp only
      simp only [Prod.mk.injEq]; omega
  · rintro ⟨a, s⟩ ⟨hr, h⟩
    exact h.is (by intros; omega)

/-! ### the other rounds -/

theorem wp_gs_bd_block {t q b T fuel : Nat} (hq : t = 8 * q) (hq0 : 0 < q)
    (hb : 2 * t * (b + 1) ≤ n) (hfu : q ≤ fuel)
    (h : Md n f (rnd gsU gsV t (wB (elt p) T t) f) (fun i => i < 2 * t * b) a) :
    Wp E (jloop (gs_r2s_size32_inner_loop (4 * (2 * t * b + t)) mask (wide fun _ => elt p (T + b))) fuel
        (a, 4 * (2 * t * b), 4 * (2 * t * b + t)))
      (fun s => s.2.2 = 4 * (2 * t * (b + 1)) ∧
        Md n f (rnd gsU gsV t (wB (elt p) T t) f) (fun i => i < 2 * t * (b + 1)) s.1) := by
  have e : ∀ r y, gs_r2s_size32_inner_loop r mask y =
    pbody (fun u v => gs_r2s_size32_inner_loop_blk_1 u v mask y) (fun rax _ => decide (rax < r)) :=
    fun _ _ => rfl
  rw [e]
  refine wp_pblock hq hq0 hb hfu h (fun j hj => wB_lo hj) (fun x y _ => gs_bd_blk) fun c hc => ?_
  congr 1; apply propext; omega

/-- One round of `nttmul_red_gs_rev2std_asm`. -/
theorem wp_mgs_r2s_round {t q T fuel : Nat} (hq : t = 8 * q) (hq0 : 0 < q) (hT : 0 < T)
    (hn : n = 2 * t * T) (hfu : n ≤ fuel) (hp : n ≤ p.size) (hi : ∀ i, 0 < i → i < n → I16 (elt p i))
    (ha : Is n f a) :
    Wp E (jloop (mgs_r2s_size32_blocks p fuel (4 * n) (4 * t) mask) fuel
        (a, 0, 4 * t, 4 * t, 2 * T))
      (fun s => Is n (rnd gsU gsV t (wB (elt p) T t) f) s.1) := by
  have hN' : 2 * T ≤ n := by rw [hn]; exact Nat.mul_le_mul_right _ (by omega)
  have ht : 2 * t ≤ n := by rw [hn]; exact Nat.le_mul_of_pos_right _ hT
  refine wp_jloop (fun b s => s.2 = (4 * (2 * t * b), 4 * (2 * t * b + t), 4 * (2 * t * b + t), 2 * (T + b)) ∧
    Md n f (rnd gsU gsV t (wB (elt p) T t) f) (fun i => i < 2 * t * b) s.1) hT (by omega)
    ⟨by simp, ha.md (by intros; omega)⟩ ?_ ?_
  · rintro b ⟨a, rax, rcx, r8, r9⟩ hb ⟨hr, h⟩
    dsimp only at hr h
    obtain ⟨rfl, hr2⟩ := Prod.mk.inj hr
    obtain ⟨rfl, hr3⟩ := Prod.mk.inj hr2
    obtain ⟨rfl, rfl⟩ := Prod.mk.inj hr3
    have hle : 2 * t * (b + 1) ≤ n := by rw [hn]; exact Nat.mul_le_mul_left _ (by omega)
    simp only [mgs_r2s_size32_blocks, wp_bind]
    refine wp_bdcstw (s := T + b) rfl (by omega) (hi _ (by omega) (by omega)) fun v hv => ?_
    have e1 : mgs_r2s_size32_blocks_blk_1 v = wide fun _ => elt p (T + b) := hv
    have e2 : ∀ r y, mgs_r2s_size32_inner_loop r mask y = gs_r2s_size32_inner_loop r mask y :=
      fun _ _ => rfl
    rw [e1, e2]
    refine (wp_gs_bd_block hq hq0 hle (by omega) h).mono ?_
    rintro ⟨a', rax', rcx'⟩ ⟨h1, h'⟩
    dsimp only at h1 h'
    subst h1
    refine wp_pure.2 ⟨?_, ?_, h'⟩
    · dsimp only
      congr 1; apply propext
      rw [hn]
      exact mul_test (by omega)
    · dsimp only
      have e4 : 4 * (2 * t * (b + 1)) + 4 * t = 4 * (2 * t * (b + 1) + t) := by omega
      have e5 : 2 * (T + b) + 2 = 2 * (T + (b + 1)) := by omega
      rw [e4, e5]
  · rintro ⟨a, s⟩ ⟨hr, h⟩
    exact h.is (by rw [hn]; intros; assumption)

/-- The blocks of a round of `ntt_red_gs_rev2std_asm` after the first. -/
theorem wp_gs_r2s_other {t q T fuel : Nat} (hq : t = 8 * q) (hq0 : 0 < q) (hT : 1 < T)
    (hn : n = 2 * t * T) (hfu : n ≤ fuel) (hp : n ≤ p.size) (hi : ∀ i, 0 < i → i < n → I16 (elt p i))
    (ha : Md n f (rnd gsU gsV t (wB (elt p) T t) f) (fun i => i < 2 * t * 1) a) :
    Wp E (jloop (gs_r2s_size32_other_blocks p fuel (4 * n) (4 * t) mask) fuel (a, 4 * (2 * t * 1), 2 * T))
      (fun s => Is n (rnd gsU gsV t (wB (elt p) T t) f) s.1) := by
  have hN' : 2 * T ≤ n := by rw [hn]; exact Nat.mul_le_mul_right _ (by omega)
  have ht : 2 * t ≤ n := by rw [hn]; exact Nat.le_mul_of_pos_right _ (by omega)
  refine wp_jloop (N := T - 1) (fun c s => s.2 = (4 * (2 * t * (c + 1)), 2 * (T + c)) ∧
    Md n f (rnd gsU gsV t (wB (elt p) T t) f) (fun i => i < 2 * t * (c + 1)) s.1) (by omega) (by omega)
    ⟨rfl, ha⟩ ?_ ?_
  · rintro b ⟨a, rcx, r9⟩ hb ⟨hr, h⟩
    dsimp only at hr h
    obtain ⟨rfl, rfl⟩ := Prod.mk.inj hr
    have hle : 2 * t * (b + 1 + 1) ≤ n := by rw [hn]; exact Nat.mul_le_mul_left _ (by omega)
    simp only [gs_r2s_size32_other_blocks, wp_bind]
    rw [show 2 * (T + b) + 2 = 2 * (T + (b + 1)) by omega,
      show 4 * (2 * t * (b + 1)) + 4 * t = 4 * (2 * t * (b + 1) + t) by omega]
    refine wp_bdcstw (s := T + (b + 1)) rfl (by omega) (hi _ (by omega) (by omega)) fun v hv => ?_
    have e1 : gs_r2s_size32_other_blocks_blk_1 v = wide fun _ => elt p (T + (b + 1)) := hv
    rw [e1]
    refine (wp_gs_bd_block hq hq0 hle (by omega) h).mono ?_
    rintro ⟨a', rax', rcx'⟩ ⟨h1, h'⟩
    dsimp only at h1 h'
    subst h1
    refine wp_pure.2 ⟨?_, rfl, h'⟩
    dsimp only
    congr 1; apply propext
    rw [hn, mul_test (by omega)]
    omega
  · rintro ⟨a, rcx, r9⟩ ⟨hr, h⟩
    dsimp only at hr h
    rw [show T - 1 + 1 = T by omega] at h
    exact h.is (by rw [hn]; intros; assumption)

/-! ### the functions -/

theorem wp_gsmul_rev2std_asm (hk : 4 ≤ k) (hp : 2 ^ k ≤ p.size) (hi : ∀ i, 0 < i → i < 2 ^ k → I16 (elt p i))
    (ha : Is (2 ^ k) f a) :
    Wp E (nttmul_red_gs_rev2std_asm a (2 ^ k) p) (Is (2 ^ k) (FgsB k (elt p) f k)) := by
  have hn := pow16 hk
  have hd := Nat.two_pow_pos (k - 4)
  have p1 : 2 ^ (k - 1) = 8 * 2 ^ (k - 4) := by
    rw [show k - 1 = k - 4 + 3 by omega, pow_add]; ring
  have p2 : 2 ^ (k - 2) = 4 * 2 ^ (k - 4) := by
    rw [show k - 2 = k - 4 + 2 by omega, pow_add]; ring
  have p3 : 2 ^ (k - 3) = 2 * 2 ^ (k - 4) := by
    rw [show k - 3 = k - 4 + 1 by omega, pow_add]; ring
  have hkn := @Nat.lt_two_pow_self k
  unfold nttmul_red_gs_rev2std_asm
  simp only [wp_bind, Nat.zero_add]
  have e0 : mgs_r2s_loop0 = gs_r2s_loop0 := rfl
  have e1 : mgs_r2s_size16_loop = gs_r2s_size16_loop := rfl
  have key := wp_gs_r2s_loop0 (E := E) hk hp hi ha
  rw [show 2 * 2 ^ (k - 1) = 2 ^ k by omega, show 2 * 2 ^ (k - 2) = 2 ^ k / 2 by omega,
    show 2 * 2 ^ (k - 3) = 2 ^ k / 2 / 2 by omega] at key
  rw [e0, e1]
  refine key.mono ?_
  rintro ⟨a, s⟩ ha
  dsimp only at ha ⊢
  have h0 : Md (2 ^ k) (FgsB k (elt p) f 3) (rnd gsU gsV 8 (wB (elt p) (2 ^ (k - 4)) 8)
    (FgsB k (elt p) f 3)) (fun i => i < 16 * 0) a := ha.md (by intros; omega)
  have key2 := wp_gs_r2s_size16 (E := E) (c0 := 0) (Nat.two_pow_pos _) hn hd (by omega) (fun i h h' => hi i h (by omega)) h0
  rw [show 2 * (2 ^ (k - 4) + 0) = 2 ^ k / 2 / 2 / 2 by omega] at key2
  refine key2.mono ?_
  rintro ⟨a, s⟩ ha
  have h4 : Is (2 ^ k) (FgsB k (elt p) f 4) a := by
    rw [FgsB, show k - 1 - 3 = k - 4 by omega]; exact ha
  dsimp only
  split
  · rename_i h2
    obtain rfl : k = 4 := by
      by_contra h
      have : 2 ^ 1 ≤ 2 ^ (k - 4) := Nat.pow_le_pow_right (by omega) (by omega)
      omega
    exact wp_pure.2 h4
  · rename_i h2
    have hk4 : k ≠ 4 := by
      rintro rfl
      exact h2 rfl
    rw [wp_bind]
    refine wp_jloop (N := k - 4) (fun c s => s.2 = (2 * 2 ^ (k - 4 - c), 4 * 2 ^ (c + 4)) ∧
      Is (2 ^ k) (FgsB k (elt p) f (c + 4)) s.1) (by omega) (by omega) ?_ ?_ ?_
    · refine ⟨?_, h4⟩
      dsimp only
      rw [show 2 ^ k / 2 / 2 / 2 = 2 * 2 ^ (k - 4 - 0) by simp; omega]
      rfl
    · rintro c ⟨a, rsi, r11⟩ hc ⟨hr, h⟩
      dsimp only at hr h
      obtain ⟨rfl, rfl⟩ := Prod.mk.inj hr
      have e2 : 2 ^ (k - 4 - c) = 2 * 2 ^ (k - 1 - (c + 4)) := by
        rw [show k - 4 - c = k - 1 - (c + 4) + 1 by omega, pow_succ]; ring
      have e8 := pow8 (k := c + 4) (by omega)
      simp only [mgs_r2s_size32_loop, wp_bind, Nat.zero_add]
      rw [show 2 * 2 ^ (k - 4 - c) / 2 = 2 * 2 ^ (k - 1 - (c + 4)) by omega]
      refine (wp_mgs_r2s_round e8 (Nat.two_pow_pos _) (Nat.two_pow_pos _) (pow_split (by omega))
        (le_refl _) hp hi h).mono ?_
      rintro ⟨a', s'⟩ h'
      refine wp_pure.2 ⟨?_, ?_, ?_⟩
      · dsimp only
        congr 1; apply propext
        constructor
        · intro hh
          by_contra hc'
          apply hh
          rw [show k - 1 - (c + 4) = 0 by omega]
          rfl
        · intro hh
          have : 2 ^ 1 ≤ 2 ^ (k - 1 - (c + 4)) := Nat.pow_le_pow_right (by omega) (by omega)
          omega
      · dsimp only
        rw [show k - 4 - (c + 1) = k - 1 - (c + 4) by omega, show c + 1 + 4 = c + 4 + 1 by omega,
          pow_succ 2 (c + 4), show 2 * (4 * 2 ^ (c + 4)) = 4 * (2 ^ (c + 4) * 2) by ring]
      · dsimp only
        rw [show c + 1 + 4 = c + 4 + 1 by omega, FgsB]
        exact h'
    · rintro ⟨a, s⟩ ⟨hr, h⟩
      rw [show k - 4 + 4 = k by omega] at h
      exact wp_pure.2 h

theorem wp_gs_rev2std_asm (hk : 4 ≤ k) (hp : 2 ^ k ≤ p.size) (hi : ∀ i, 0 < i → i < 2 ^ k → I16 (elt p i))
    (hu : UnitHeads k p) (ha : Is (2 ^ k) f a) :
    Wp E (ntt_red_gs_rev2std_asm a (2 ^ k) p) (Is (2 ^ k) (FgsB k (elt p) f k)) := by
  have hn := pow16 hk
  have hd := Nat.two_pow_pos (k - 4)
  have p1 : 2 ^ (k - 1) = 8 * 2 ^ (k - 4) := by
    rw [show k - 1 = k - 4 + 3 by omega, pow_add]; ring
  have p2 : 2 ^ (k - 2) = 4 * 2 ^ (k - 4) := by
    rw [show k - 2 = k - 4 + 2 by omega, pow_add]; ring
  have p3 : 2 ^ (k - 3) = 2 * 2 ^ (k - 4) := by
    rw [show k - 3 = k - 4 + 1 by omega, pow_add]; ring
  have hkn := @Nat.lt_two_pow_self k
  unfold ntt_red_gs_rev2std_asm
  simp only [wp_bind, Nat.zero_add]
  have key := wp_gs_r2s_loop0 (E := E) hk hp hi ha
  rw [show 2 * 2 ^ (k - 1) = 2 ^ k by omega, show 2 * 2 ^ (k - 2) = 2 ^ k / 2 by omega,
    show 2 * 2 ^ (k - 3) = 2 ^ k / 2 / 2 by omega] at key
  refine key.mono ?_
  rintro ⟨a, s⟩ ha
  dsimp only at ha ⊢
  have h0 : Md (2 ^ k) (FgsB k (elt p) f 3) (rnd gsU gsV 8 (wB (elt p) (2 ^ (k - 4)) 8)
    (FgsB k (elt p) f 3)) (fun i => i < 16 * 0) a := ha.md (by intros; omega)
  refine wp_step16 (B := ntt_red_gs_rev2std_asm_2_blk_1) (r := 0) (c := 0) rfl (by omega) h0 ?_ ?_
  · rw [rnd_shift (e := 1) rfl (by omega), wB_shift (e := 1) rfl (by omega)]
    have h8 : elt p (2 ^ (k - 4)) = -4096 := hu (k - 4) (by omega)
    unfold Blk16
    lanes [ntt_red_gs_rev2std_asm_2_blk_1, rnd, wB, gsU, gsV, Nat.mul_zero, h8, mr_sub_one]
  intro a h1
  split
  · rename_i h2
    obtain rfl : k = 4 := by
      by_contra h
      have : 2 ^ 1 ≤ 2 ^ (k - 4) := Nat.pow_le_pow_right (by omega) (by omega)
      omega
    exact wp_pure.2 (h1.is (by intros; omega))
  · rename_i h2
    have hk4 : k ≠ 4 := by
      rintro rfl
      exact h2 (by decide)
    have h16 : 2 ^ 1 ≤ 2 ^ (k - 4) := Nat.pow_le_pow_right (by omega) (by omega)
    simp only [wp_bind]
    have key2 := wp_gs_r2s_size16 (E := E) (c0 := 1) (Nat.two_pow_pos _) hn (by omega) (by omega)
      (fun i h h' => hi i h (by omega)) h1
    rw [show 2 * (2 ^ (k - 4) + 1) = 2 ^ k / 2 / 2 / 2 + 2 by omega] at key2
    refine key2.mono ?_
    rintro ⟨a, s⟩ ha
    have h4 : Is (2 ^ k) (FgsB k (elt p) f 4) a := by
      rw [FgsB, show k - 1 - 3 = k - 4 by omega]; exact ha
    refine wp_jloop (N := k - 4) (fun c s => (c < k - 4 → s.2 = (2 * 2 ^ (k - 4 - c), 4 * 2 ^ (c + 4))) ∧
      Is (2 ^ k) (FgsB k (elt p) f (c + 4)) s.1) (by omega) (by omega) ?_ ?_ ?_
    · refine ⟨fun _ => ?_, h4⟩
      dsimp only
      rw [show 2 ^ k / 2 / 2 / 2 = 2 * 2 ^ (k - 4 - 0) by simp; omega]
      rfl
    · rintro c ⟨a, rsi, r11⟩ hc ⟨hr, h⟩
      dsimp only at hr h
      obtain ⟨rfl, rfl⟩ := Prod.mk.inj (hr hc)
      have e2 : 2 ^ (k - 4 - c) = 2 * 2 ^ (k - 1 - (c + 4)) := by
        rw [show k - 4 - c = k - 1 - (c + 4) + 1 by omega, pow_succ]; ring
      have e8 := pow8 (k := c + 4) (by omega)
      have hs : 2 ^ k = 2 * 2 ^ (c + 4) * 2 ^ (k - 1 - (c + 4)) := pow_split (by omega)
      have hT := Nat.two_pow_pos (k - 1 - (c + 4))
      have hle : 2 * 2 ^ (c + 4) * (0 + 1) ≤ 2 ^ k := by
        rw [hs]; exact Nat.mul_le_mul_left _ (by omega)
      simp only [gs_r2s_size32_loop, wp_bind, Nat.zero_add]
      rw [show 2 * 2 ^ (k - 4 - c) / 2 = 2 * 2 ^ (k - 1 - (c + 4)) by omega]
      have e : ∀ r, gs_r2s_size32_first_blocks r =
          pbody gs_r2s_size32_first_blocks_blk_1 (fun rax _ => decide (rax < r)) := fun _ => rfl
      have h0 : Md (2 ^ k) (FgsB k (elt p) f (c + 4)) (rnd gsU gsV (2 ^ (c + 4))
        (wB (elt p) (2 ^ (k - 1 - (c + 4))) (2 ^ (c + 4))) (FgsB k (elt p) f (c + 4)))
        (fun i => i < 2 * 2 ^ (c + 4) * 0) a := h.md (by intros; omega)
      have key := wp_pblock (E := E) (B := gs_r2s_size32_first_blocks_blk_1)
        (test := fun rax _ => decide (rax < 4 * 2 ^ (c + 4))) (fuel := 2 ^ k) (W := -4096) e8
        (Nat.two_pow_pos _) hle (by omega) h0
        (fun j hj => by rw [wB_lo hj]; exact hu _ (by omega)) (fun x y _ => gs_unit_blk)
        (by intro c' hc'; congr 1; apply propext; omega)
      rw [Nat.mul_zero, Nat.zero_add, Nat.zero_add] at key
      rw [e]
      refine key.mono ?_
      rintro ⟨a, rax, rcx⟩ ⟨hr1, h1⟩
      dsimp only at hr1 h1 ⊢
      subst hr1
      split
      · rename_i hge
        have hT1 : 2 ^ (k - 1 - (c + 4)) = 1 := by
          by_contra hne
          have : 2 * 2 ^ (c + 4) * 1 < 2 * 2 ^ (c + 4) * 2 ^ (k - 1 - (c + 4)) :=
            Nat.mul_lt_mul_of_pos_left (by omega) (by omega)
          omega
        have hck : ¬ c + 1 < k - 4 := by
          intro hh
          have : 2 ^ 1 ≤ 2 ^ (k - 1 - (c + 4)) := Nat.pow_le_pow_right (by omega) (by omega)
          omega
        refine wp_pure.2 ⟨?_, fun hh => absurd hh hck, ?_⟩
        · exact (decide_eq_false hck).symm
        · dsimp only
          rw [show c + 1 + 4 = c + 4 + 1 by omega, FgsB]
          exact h1.is (by rw [hs, hT1]; intros; assumption)
      · rename_i hlt
        have hT1 : 1 < 2 ^ (k - 1 - (c + 4)) := by
          by_contra hne
          have : 2 ^ (k - 1 - (c + 4)) = 1 := by omega
          rw [hs, this] at hlt
          omega
        have hck : c + 1 < k - 4 := by
          by_contra hh
          rw [show k - 1 - (c + 4) = 0 by omega] at hT1
          simp at hT1
        simp only [wp_bind]
        refine (wp_gs_r2s_other e8 (Nat.two_pow_pos _) hT1 hs (le_refl _) hp hi h1).mono ?_
        rintro ⟨a', s'⟩ h'
        refine wp_pure.2 ⟨?_, fun _ => ?_, ?_⟩
        · exact (decide_eq_true hck).symm
        · dsimp only
          rw [show k - 4 - (c + 1) = k - 1 - (c + 4) by omega, show c + 1 + 4 = c + 4 + 1 by omega,
            pow_succ 2 (c + 4), show 2 * (4 * 2 ^ (c + 4)) = 4 * (2 ^ (c + 4) * 2) by ring]
        · dsimp only
          rw [show c + 1 + 4 = c + 4 + 1 by omega, FgsB]
          exact h'
    · rintro ⟨a, s⟩ ⟨hr, h⟩
      rw [show k - 4 + 4 = k by omega] at h
      exact wp_pure.2 h

end

end Asm
