import Verif.Proofs.AsmLoops

/-
`ntt_red_ct_std2rev_asm` and `mulntt_red_ct_std2rev_asm` of src/ntt_asm.S: every loop computes rounds
of the Cooley-Tukey transform.
-/

namespace Asm
open C Spec NTT Avx

section
variable {E : Err → Prop} {n N k : Nat} {f : Nat → Int} {a p : Array Int}

theorem ct_unit_blk {x y : Nat → Int} (h : ∀ j, j < 8 → I32 (y j)) :
    ct_s2r_loop1_blk_1 (V8.ofFn x) (V8.ofFn y) =
      (V8.ofFn fun j => ctU (x j) (y j) (-4096), V8.ofFn fun j => ctV (x j) (y j) (-4096)) := by
  have h' : ∀ j, j < 8 → mr (y j) (-4096) = y j := fun j hj => mr_one (h j hj)
  lanes [ct_s2r_loop1_blk_1, ctU, ctV, h' 0 (by omega), h' 1 (by omega), h' 2 (by omega),
    h' 3 (by omega), h' 4 (by omega), h' 5 (by omega), h' 6 (by omega), h' 7 (by omega)]

theorem ct_bd_blk {x y : Nat → Int} {w : Int} :
    ct_s2r_loop2_inner2_blk_1 (V8.ofFn x) (V8.ofFn y) mask (wide fun _ => w) =
      (V8.ofFn fun j => ctU (x j) (y j) w, V8.ofFn fun j => ctV (x j) (y j) w) := by
  lanes [ct_s2r_loop2_inner2_blk_1, ctU, ctV]

/-- One block of a round, without multiplication. -/
theorem wp_ct_unit_block {test : Nat → Nat → Bool} {t q b T fuel : Nat} (hq : t = 8 * q) (hq0 : 0 < q)
    (hb : 2 * t * (b + 1) ≤ n) (hfu : q ≤ fuel) (hf : ∀ i, I32 (f i))
    (h : Md n f (rnd ctU ctV t (wB (elt p) T t) f) (fun i => i < 2 * t * b) a)
    (hw : elt p (T + b) = -4096)
    (htest : ∀ c, c < q → test (4 * (2 * t * b + 8 * c) + 32) (4 * (2 * t * b + t + 8 * c) + 32) =
      decide (c + 1 < q)) :
    Wp E (jloop (pbody ct_s2r_loop1_blk_1 test) fuel (a, 4 * (2 * t * b), 4 * (2 * t * b + t)))
      (fun s => s.2.2 = 4 * (2 * t * (b + 1)) ∧
        Md n f (rnd ctU ctV t (wB (elt p) T t) f) (fun i => i < 2 * t * (b + 1)) s.1) := by
  refine wp_pblock hq hq0 hb hfu h (fun j hj => by rw [wB_lo hj, hw]) ?_ htest
  intro x y hy
  exact ct_unit_blk fun j hj => by obtain ⟨i, hi⟩ := hy j hj; rw [hi]; exact hf i

/-- One block of a round, with multiplication. -/
theorem wp_ct_bd_block {t q b T fuel : Nat} (hq : t = 8 * q) (hq0 : 0 < q)
    (hb : 2 * t * (b + 1) ≤ n) (hfu : q ≤ fuel)
    (h : Md n f (rnd ctU ctV t (wB (elt p) T t) f) (fun i => i < 2 * t * b) a) :
    Wp E (jloop (ct_s2r_loop2_inner2 (4 * (2 * t * b + t)) mask (wide fun _ => elt p (T + b))) fuel
        (a, 4 * (2 * t * b), 4 * (2 * t * b + t)))
      (fun s => s.2.2 = 4 * (2 * t * (b + 1)) ∧
        Md n f (rnd ctU ctV t (wB (elt p) T t) f) (fun i => i < 2 * t * (b + 1)) s.1) := by
  have e : ∀ r y, ct_s2r_loop2_inner2 r mask y =
    pbody (fun u v => ct_s2r_loop2_inner2_blk_1 u v mask y) (fun rax _ => decide (rax < r)) :=
    fun _ _ => rfl
  rw [e]
  refine wp_pblock hq hq0 hb hfu h (fun j hj => wB_lo hj) (fun x y _ => ct_bd_blk) fun c hc => ?_
  congr 1; apply propext; omega

/-- One round of `mulntt_red_ct_std2rev_asm`. -/
theorem wp_mct_s2r_round {t q T fuel : Nat} (hq : t = 8 * q) (hq0 : 0 < q) (hT : 0 < T)
    (hn : n = 2 * t * T) (hfu : n ≤ fuel) (hp : n ≤ p.size) (hi : ∀ i, 0 < i → i < n → I16 (elt p i))
    (ha : Is n f a) :
    Wp E (jloop (mct_s2r_loop_aux p fuel (2 * t) (4 * n) mask) fuel
        (a, 0, 4 * t, 4 * t, 2 * T - 2))
      (fun s => s.2.2.2.2 = 2 * (2 * T) - 2 ∧ Is n (rnd ctU ctV t (wB (elt p) T t) f) s.1) := by
  have hN' : 2 * T ≤ n := by rw [hn]; exact Nat.mul_le_mul_right _ (by omega)
  have ht : 2 * t ≤ n := by rw [hn]; exact Nat.le_mul_of_pos_right _ hT
  refine wp_jloop (fun b s => s.2 = (4 * (2 * t * b), 4 * (2 * t * b + t), 4 * (2 * t * b + t), 2 * (T + b) - 2) ∧
    Md n f (rnd ctU ctV t (wB (elt p) T t) f) (fun i => i < 2 * t * b) s.1) hT (by omega)
    ⟨by simp, ha.md (by intros; omega)⟩ ?_ ?_
  · rintro b ⟨a, rax, rcx, r9, rdx⟩ hb ⟨hr, h⟩
    dsimp only at hr h
    obtain ⟨rfl, hr2⟩ := Prod.mk.inj hr
    obtain ⟨rfl, hr3⟩ := Prod.mk.inj hr2
    obtain ⟨rfl, rfl⟩ := Prod.mk.inj hr3
    have hle : 2 * t * (b + 1) ≤ n := by rw [hn]; exact Nat.mul_le_mul_left _ (by omega)
    simp only [mct_s2r_loop_aux, wp_bind]
    rw [show 2 * (T + b) - 2 + 2 = 2 * (T + b) by omega]
    refine wp_bdcstw (s := T + b) rfl (by omega) (hi _ (by omega) (by omega)) fun v hv => ?_
    have e1 : mct_s2r_loop_aux_blk_1 v = wide fun _ => elt p (T + b) := hv
    have e2 : ∀ r y, mct_s2r_loop_inner r mask y = ct_s2r_loop2_inner2 r mask y := fun _ _ => rfl
    rw [e1, e2]
    refine (wp_ct_bd_block hq hq0 hle (by omega) h).mono ?_
    rintro ⟨a', rax', rcx'⟩ ⟨h1, h'⟩
    dsimp only at h1 h'
    subst h1
    refine wp_pure.2 ⟨?_, ?_, h'⟩
    · dsimp only
      congr 1; apply propext
      rw [hn]
      exact mul_test (by omega)
    · dsimp only
      have e4 : 4 * (2 * t * (b + 1)) + 2 * (2 * t) = 4 * (2 * t * (b + 1) + t) := by omega
      have e5 : 2 * (T + b) = 2 * (T + (b + 1)) - 2 := by omega
      rw [e4, e5]
  · rintro ⟨a, rax, rcx, r9, rdx⟩ ⟨hr, h⟩
    dsimp only at hr h
    obtain ⟨rfl, hr2⟩ := Prod.mk.inj hr
    obtain ⟨rfl, hr3⟩ := Prod.mk.inj hr2
    obtain ⟨rfl, rfl⟩ := Prod.mk.inj hr3
    exact ⟨by dsimp only; omega, h.is (by rw [hn]; intros; assumption)⟩

/-- The blocks of a round of `ntt_red_ct_std2rev_asm` after the first. -/
theorem wp_ct_s2r_aux {t q T fuel : Nat} (hq : t = 8 * q) (hq0 : 0 < q) (hT : 1 < T)
    (hn : n = 2 * t * T) (hfu : n ≤ fuel) (hp : n ≤ p.size) (hi : ∀ i, 0 < i → i < n → I16 (elt p i))
    (ha : Md n f (rnd ctU ctV t (wB (elt p) T t) f) (fun i => i < 2 * t * 1) a) :
    Wp E (jloop (ct_s2r_loop2_aux p fuel (2 * t) (4 * n) mask) fuel (a, 4 * (2 * t * 1), 2 * T))
      (fun s => s.2.2 + 2 = 2 * (2 * T) ∧ Is n (rnd ctU ctV t (wB (elt p) T t) f) s.1) := by
  have hN' : 2 * T ≤ n := by rw [hn]; exact Nat.mul_le_mul_right _ (by omega)
  have ht : 2 * t ≤ n := by rw [hn]; exact Nat.le_mul_of_pos_right _ (by omega)
  refine wp_jloop (N := T - 1) (fun c s => s.2 = (4 * (2 * t * (c + 1)), 2 * (T + c)) ∧
    Md n f (rnd ctU ctV t (wB (elt p) T t) f) (fun i => i < 2 * t * (c + 1)) s.1) (by omega) (by omega)
    ⟨rfl, ha⟩ ?_ ?_
  · rintro b ⟨a, rcx, rdx⟩ hb ⟨hr, h⟩
    dsimp only at hr h
    obtain ⟨rfl, rfl⟩ := Prod.mk.inj hr
    have hle : 2 * t * (b + 1 + 1) ≤ n := by rw [hn]; exact Nat.mul_le_mul_left _ (by omega)
    simp only [ct_s2r_loop2_aux, wp_bind]
    rw [show 2 * (T + b) + 2 = 2 * (T + (b + 1)) by omega,
      show 4 * (2 * t * (b + 1)) + 2 * (2 * t) = 4 * (2 * t * (b + 1) + t) by omega]
    refine wp_bdcstw (s := T + (b + 1)) rfl (by omega) (hi _ (by omega) (by omega)) fun v hv => ?_
    have e1 : ct_s2r_loop2_aux_blk_1 v = wide fun _ => elt p (T + (b + 1)) := hv
    rw [e1]
    refine (wp_ct_bd_block hq hq0 hle (by omega) h).mono ?_
    rintro ⟨a', rax', rcx'⟩ ⟨h1, h'⟩
    dsimp only at h1 h'
    subst h1
    refine wp_pure.2 ⟨?_, rfl, h'⟩
    dsimp only
    congr 1; apply propext
    rw [hn, mul_test (by omega)]
    omega
  · rintro ⟨a, rcx, rdx⟩ ⟨hr, h⟩
    dsimp only at hr h
    obtain ⟨rfl, rfl⟩ := Prod.mk.inj hr
    rw [show T - 1 + 1 = T by omega] at h
    exact ⟨by dsimp only; omega, h.is (by rw [hn]; intros; assumption)⟩

/-! ### the last three rounds -/

theorem wp_finish4 {T : Nat} (hn : n = 16 * N) (hN : 0 < N) (hp : T + 2 * N ≤ p.size) (ha : Is n f a) :
    Wp E (jloop (ct_s2r_finish_size4 p (4 * n) mask perm2020) n (a, 0, 2 * T))
      (fun s => s.2.2 = 2 * (T + 2 * N) ∧ Is n (rnd ctU ctV 4 (wB (elt p) T 4) f) s.1) := by
  refine wp_jloop (fun c s => s.2 = (64 * c, 2 * (T + 2 * c)) ∧
    Md n f (rnd ctU ctV 4 (wB (elt p) T 4) f) (fun i => i < 16 * c) s.1)
    hN (by omega) ⟨rfl, ha.md (by intros; omega)⟩ ?_ ?_
  · rintro c ⟨a, rax, rdx⟩ hc ⟨hr, h⟩
    dsimp only at hr h
    obtain ⟨rfl, rfl⟩ := Prod.mk.inj hr
    simp only [ct_s2r_finish_size4, wp_bind]
    rw [load_sxwq128_ok rfl (by omega), wp_ok]
    refine wp_step16 (B := fun u v => ct_s2r_finish_size4_blk_2 u v mask (ct_s2r_finish_size4_blk_1
      ⟨elt p (T + 2 * c), sxHi (elt p (T + 2 * c)), elt p (T + 2 * c + 1), sxHi (elt p (T + 2 * c + 1)),
        0, 0, 0, 0⟩ perm2020)) rfl (by omega) h ?_ fun a' h' => wp_pure.2 ⟨?_, ?_, h'⟩
    · rw [rnd_shift (e := 2) rfl (by omega), wB_shift (e := 2) rfl (by omega)]
      unfold Blk16
      lanes [ct_s2r_finish_size4_blk_2, ct_s2r_finish_size4_blk_1, rnd, wB, ctU, ctV]
    · dsimp only
      congr 1; apply propext; omega
    · dsimp only
      simp only [Prod.mk.injEq]; omega
  · rintro ⟨a, rax, rdx⟩ ⟨hr, h⟩
    dsimp only at hr h
    obtain ⟨rfl, rfl⟩ := Prod.mk.inj hr
    exact ⟨rfl, h.is (by intros; omega)⟩

theorem wp_finish2 {T : Nat} (hn : n = 16 * N) (hN : 0 < N) (hp : T + 4 * N ≤ p.size) (ha : Is n f a) :
    Wp E (jloop (ct_s2r_finish_size2 p (4 * n) mask perm0426) n (a, 0, 2 * T))
      (fun s => s.2.2 = 2 * (T + 4 * N) ∧ Is n (rnd ctU ctV 2 (wB (elt p) T 2) f) s.1) := by
  refine wp_jloop (fun c s => s.2 = (64 * c, 2 * (T + 4 * c)) ∧
    Md n f (rnd ctU ctV 2 (wB (elt p) T 2) f) (fun i => i < 16 * c) s.1)
    hN (by omega) ⟨rfl, ha.md (by intros; omega)⟩ ?_ ?_
  · rintro c ⟨a, rax, rdx⟩ hc ⟨hr, h⟩
    dsimp only at hr h
    obtain ⟨rfl, rfl⟩ := Prod.mk.inj hr
    simp only [ct_s2r_finish_size2, wp_bind]
    rw [load_sxwq_ok rfl (by omega), wp_ok]
    refine wp_step16 (B := fun u v => ct_s2r_finish_size2_blk_2 u v mask (ct_s2r_finish_size2_blk_1
      (wide fun j => elt p (T + 4 * c + j)) perm0426)) rfl (by omega) h ?_
      fun a' h' => wp_pure.2 ⟨?_, ?_, h'⟩
    · rw [rnd_shift (e := 4) rfl (by omega), wB_shift (e := 4) rfl (by omega)]
      unfold Blk16
      lanes [ct_s2r_finish_size2_blk_2, ct_s2r_finish_size2_blk_1, rnd, wB, ctU, ctV]
    · dsimp only
      congr 1; apply propext; omega
    · dsimp only
      simp only [Prod.mk.injEq]; omega
  · rintro ⟨a, rax, rdx⟩ ⟨hr, h⟩
    dsimp only at hr h
    obtain ⟨rfl, rfl⟩ := Prod.mk.inj hr
    exact ⟨rfl, h.is (by intros; omega)⟩

theorem wp_finish1 {T : Nat} (hn : n = 16 * N) (hN : 0 < N) (hp : T + 8 * N ≤ p.size) (ha : Is n f a) :
    Wp E (jloop (ct_s2r_finish_size1 p (4 * n) mask) n (a, 0, 2 * T))
      (fun s => Is n (rnd ctU ctV 1 (wB (elt p) T 1) f) s.1) := by
  refine wp_jloop (fun c s => s.2 = (64 * c, 2 * (T + 8 * c)) ∧
    Md n f (rnd ctU ctV 1 (wB (elt p) T 1) f) (fun i => i < 16 * c) s.1)
    hN (by omega) ⟨rfl, ha.md (by intros; omega)⟩ ?_ ?_
  · rintro c ⟨a, rax, rdx⟩ hc ⟨hr, h⟩
    dsimp only at hr h
    obtain ⟨rfl, rfl⟩ := Prod.mk.inj hr
    simp only [ct_s2r_finish_size1, wp_bind]
    rw [load_sxwq_ok (s := T + 8 * c) rfl (by omega), wp_ok,
      load_sxwq_ok (s := T + 8 * c + 4) (by omega) (by omega), wp_ok]
    refine wp_step16 (B := fun u v => ct_s2r_finish_size1_blk_1 u v mask
      (wide fun j => elt p (T + 8 * c + j)) (wide fun j => elt p (T + 8 * c + 4 + j))) rfl (by omega) h ?_
      fun a' h' => wp_pure.2 ⟨?_, ?_, h'⟩
    · rw [rnd_shift (e := 8) rfl (by omega), wB_shift (e := 8) rfl (by omega)]
      unfold Blk16
      generalize T + 8 * c = s
      generalize (fun j => f (16 * c + j)) = g
      lanes [ct_s2r_finish_size1_blk_1, rnd, wB, ctU, ctV, Nat.add_assoc]
    · dsimp only
      congr 1; apply propext; omega
    · dsimp only
      simp only [Prod.mk.injEq]; omega
  · rintro ⟨a, rax, rdx⟩ ⟨hr, h⟩
    exact h.is (by intros; omega)

theorem wp_ct_s2r_finish (hk : 4 ≤ k) (hp : 2 ^ k ≤ p.size)
    (ha : Is (2 ^ k) (FctB k (elt p) f (k - 3)) a) :
    Wp E (ct_s2r_finish p (2 ^ k) 0 (4 * 2 ^ k) mask a (2 * 2 ^ (k - 3)))
      (Is (2 ^ k) (FctB k (elt p) f k)) := by
  obtain ⟨d, rfl⟩ : ∃ d, k = d + 4 := ⟨k - 4, by omega⟩
  have hn : 2 ^ (d + 4) = 16 * 2 ^ d := by rw [pow_add]; ring
  have hd := Nat.two_pow_pos d
  rw [show d + 4 - 3 = d + 1 by omega] at *
  have e3 : FctB (d + 4) (elt p) f (d + 4) = rnd ctU ctV 1 (wB (elt p) (2 ^ (d + 3)) 1)
      (rnd ctU ctV 2 (wB (elt p) (2 ^ (d + 2)) 2)
        (rnd ctU ctV 4 (wB (elt p) (2 ^ (d + 1)) 4) (FctB (d + 4) (elt p) f (d + 1)))) := by
    have a1 : d + 4 - 1 - (d + 3) = 0 := by omega
    have a2 : d + 4 - 1 - (d + 2) = 1 := by omega
    have a3 : d + 4 - 1 - (d + 1) = 2 := by omega
    rw [FctB, FctB, FctB, a1, a2, a3]
    rfl
  have p1 : 2 ^ (d + 1) = 2 * 2 ^ d := by rw [pow_add]; ring
  have p2 : 2 ^ (d + 2) = 4 * 2 ^ d := by rw [pow_add]; ring
  have p3 : 2 ^ (d + 3) = 8 * 2 ^ d := by rw [pow_add]; ring
  rw [e3]
  unfold ct_s2r_finish
  simp only [wp_bind]
  refine (wp_finish4 hn hd (by omega) ha).mono ?_
  rintro ⟨a, x, rdx⟩ ⟨hr, ha⟩
  dsimp only at hr ha
  rw [show rdx = 2 * 2 ^ (d + 2) by omega]
  refine (wp_finish2 hn hd (by omega) ha).mono ?_
  rintro ⟨a, x, rdx⟩ ⟨hr, ha⟩
  dsimp only at hr ha
  rw [show rdx = 2 * 2 ^ (d + 3) by omega]
  refine (wp_finish1 hn hd (by omega) ha).mono ?_
  rintro ⟨a, x, rdx⟩ ha
  exact wp_pure.2 ha

/-! ### the functions -/

theorem wp_mulct_std2rev_asm (hk : 4 ≤ k) (hp : 2 ^ k ≤ p.size) (hi : ∀ i, 0 < i → i < 2 ^ k → I16 (elt p i))
    (ha : Is (2 ^ k) f a) :
    Wp E (mulntt_red_ct_std2rev_asm a (2 ^ k) p) (Is (2 ^ k) (FctB k (elt p) f k)) := by
  have h16 : 2 ^ 4 ≤ 2 ^ k := Nat.pow_le_pow_right (by omega) hk
  unfold mulntt_red_ct_std2rev_asm
  simp only [wp_bind, Nat.zero_add]
  refine wp_jloop (N := k - 3) (fun m s => s.2 = (2 ^ (k - m), 2 * 2 ^ m - 2) ∧
    Is (2 ^ k) (FctB k (elt p) f m) s.1) (by omega)
    (by have := @Nat.lt_two_pow_self k; omega) ?_ ?_ ?_
  · exact ⟨rfl, ha⟩
  · rintro m ⟨a, rsi, rdx⟩ hm ⟨hr, h⟩
    dsimp only at hr h
    obtain ⟨rfl, rfl⟩ := Prod.mk.inj hr
    simp only [mct_s2r_loop, wp_bind, Nat.zero_add]
    have e1 : 2 ^ (k - m) = 2 * 2 ^ (k - 1 - m) := by
      rw [show k - m = k - 1 - m + 1 by omega, pow_succ]; ring
    have e8 := pow8 (k := k - 1 - m) (by omega)
    rw [e1, show 2 * (2 * 2 ^ (k - 1 - m)) = 4 * 2 ^ (k - 1 - m) by omega]
    refine (wp_mct_s2r_round e8 (Nat.two_pow_pos _) (Nat.two_pow_pos m) ?_ (le_refl _) hp hi h).mono ?_
    · have := pow_split (k := k) (m := k - 1 - m) (by omega)
      rw [show k - 1 - (k - 1 - m) = m by omega] at this
      exact this
    rintro ⟨a', x, y, z, rdx⟩ ⟨h1, h'⟩
    dsimp only at h1 h'
    subst h1
    rw [show 2 * 2 ^ (k - 1 - m) / 2 = 2 ^ (k - 1 - m) by omega]
    refine wp_pure.2 ⟨?_, ?_, h'⟩
    · dsimp only
      congr 1; apply propext
      change 2 ^ 3 < 2 ^ (k - 1 - m) ↔ _
      rw [Nat.pow_lt_pow_iff_right (by omega)]
      omega
    · dsimp only
      rw [show k - (m + 1) = k - 1 - m by omega, pow_succ, Nat.mul_comm (2 ^ m) 2]
  · rintro ⟨a, rsi, rdx⟩ ⟨hr, h⟩
    dsimp only at hr h
    obtain ⟨rfl, rfl⟩ := Prod.mk.inj hr
    have := Nat.two_pow_pos (k - 3)
    dsimp only
    rw [show 2 * 2 ^ (k - 3) - 2 + 2 = 2 * 2 ^ (k - 3) by omega]
    exact wp_ct_s2r_finish hk hp h

theorem wp_ct_std2rev_asm (hk : 4 ≤ k) (hp : 2 ^ k ≤ p.size) (hi : ∀ i, 0 < i → i < 2 ^ k → I16 (elt p i))
    (hu : UnitHeads k p) (ha : Is (2 ^ k) f a) (hf : ∀ i, I32 (f i)) :
    Wp E (ntt_red_ct_std2rev_asm a (2 ^ k) p) (Is (2 ^ k) (FctB k (elt p) f k)) := by
  have h16 : 2 ^ 4 ≤ 2 ^ k := Nat.pow_le_pow_right (by omega) hk
  have hkn := @Nat.lt_two_pow_self k
  have hn : 2 ^ k = 2 * 2 ^ (k - 1) := by
    rw [show k = k - 1 + 1 by omega, pow_succ]; simp; ring
  unfold ntt_red_ct_std2rev_asm
  simp only [wp_bind, Nat.zero_add]
  have e : ∀ r, ct_s2r_loop1 r = pbody ct_s2r_loop1_blk_1 (fun _ rcx => decide (rcx < r)) := fun _ => rfl
  have e8 := pow8 (k := k - 1) (by omega)
  have h0 : Md (2 ^ k) f (rnd ctU ctV (2 ^ (k - 1)) (wB (elt p) 1 (2 ^ (k - 1))) f)
    (fun i => i < 2 * 2 ^ (k - 1) * 0) a := ha.md (by intros; omega)
  have key := wp_ct_unit_block (E := E) (test := fun _ rcx => decide (rcx < 4 * 2 ^ k)) (fuel := 2 ^ k) e8
    (Nat.two_pow_pos _) (by omega) (by omega) hf h0
    (hu 0 (by omega)) (by intro c hc; congr 1; apply propext; omega)
  rw [Nat.mul_zero, Nat.zero_add, show 4 * 2 ^ (k - 1) = 2 * 2 ^ k by omega] at key
  rw [e]
  refine key.mono ?_
  rintro ⟨a, rax, rcx⟩ ⟨_, h1⟩
  have h2 : Is (2 ^ k) (FctB k (elt p) f 1) a := h1.is (by intros; omega)
  rw [show 2 ^ k / 2 = 2 ^ (k - 1) by omega]
  dsimp only
  split
  · rename_i h8
    change 2 ^ (k - 1) ≤ 2 ^ 3 at h8
    rw [Nat.pow_le_pow_iff_right (by omega)] at h8
    obtain rfl : k = 4 := by omega
    exact wp_ct_s2r_finish hk hp h2
  · rename_i h8
    change ¬ 2 ^ (k - 1) ≤ 2 ^ 3 at h8
    rw [Nat.pow_le_pow_iff_right (by omega)] at h8
    rw [wp_bind]
    refine wp_jloop (N := k - 4) (fun m s => s.2 = (2 ^ (k - 1 - m), 2 * 2 ^ (m + 1)) ∧
      Is (2 ^ k) (FctB k (elt p) f (m + 1)) s.1) (by omega) (by omega) ⟨rfl, h2⟩ ?_ ?_
    · rintro m ⟨a, rsi, rdx⟩ hm ⟨hr, h⟩
      dsimp only at hr h
      obtain ⟨rfl, rfl⟩ := Prod.mk.inj hr
      simp only [ct_s2r_loop2, wp_bind, Nat.zero_add]
      have e1 : 2 ^ (k - 1 - m) = 2 * 2 ^ (k - 1 - (m + 1)) := by
        rw [show k - 1 - m = k - 1 - (m + 1) + 1 by omega, pow_succ]; ring
      have e8 := pow8 (k := k - 1 - (m + 1)) (by omega)
      have hs : 2 ^ k = 2 * 2 ^ (k - 1 - (m + 1)) * 2 ^ (m + 1) := by
        have := pow_split (k := k) (m := k - 1 - (m + 1)) (by omega)
        rw [show k - 1 - (k - 1 - (m + 1)) = m + 1 by omega] at this
        exact this
      have hT : 1 < 2 ^ (m + 1) := Nat.one_lt_two_pow (by omega)
      have hle : 2 * 2 ^ (k - 1 - (m + 1)) * (0 + 1) ≤ 2 ^ k := by
        rw [hs]; exact Nat.mul_le_mul_left _ (by omega)
      rw [e1, show 2 * (2 * 2 ^ (k - 1 - (m + 1))) = 4 * 2 ^ (k - 1 - (m + 1)) by omega]
      have e : ∀ r, ct_s2r_loop2_inner1 r = pbody ct_s2r_loop1_blk_1 (fun rax _ => decide (rax < r)) :=
        fun _ => rfl
      have h0 : Md (2 ^ k) (FctB k (elt p) f (m + 1)) (rnd ctU ctV (2 ^ (k - 1 - (m + 1)))
        (wB (elt p) (2 ^ (m + 1)) (2 ^ (k - 1 - (m + 1)))) (FctB k (elt p) f (m + 1)))
        (fun i => i < 2 * 2 ^ (k - 1 - (m + 1)) * 0) a := h.md (by intros; omega)
      have key := wp_ct_unit_block (E := E) (test := fun rax _ => decide (rax < 4 * 2 ^ (k - 1 - (m + 1))))
        (fuel := 2 ^ k) e8
        (Nat.two_pow_pos _) hle (by omega) (I32_FctB hf (m + 1)) h0
        (hu (m + 1) (by omega)) (by intro c hc; congr 1; apply propext; omega)
      rw [Nat.mul_zero, Nat.zero_add, Nat.zero_add] at key
      rw [e]
      refine key.mono ?_
      rintro ⟨a, rax, rcx⟩ ⟨hr1, h1⟩
      dsimp only at hr1 h1
      subst hr1
      refine (wp_ct_s2r_aux e8 (Nat.two_pow_pos _) hT hs (le_refl _) hp hi h1).mono ?_
      rintro ⟨a', x, rdx⟩ ⟨hr2, h'⟩
      dsimp only at hr2 h'
      rw [show 2 * 2 ^ (k - 1 - (m + 1)) / 2 = 2 ^ (k - 1 - (m + 1)) by omega]
      refine wp_pure.2 ⟨?_, ?_, h'⟩
      · dsimp only
        congr 1; apply propext
        change 2 ^ 3 < 2 ^ (k - 1 - (m + 1)) ↔ _
        rw [Nat.pow_lt_pow_iff_right (by omega)]
        omega
      · dsimp only
        rw [hr2, pow_succ 2 (m + 1), Nat.mul_comm (2 ^ (m + 1)) 2]
    · rintro ⟨a, rsi, rdx⟩ ⟨hr, h⟩
      dsimp only at hr h
      obtain ⟨rfl, rfl⟩ := Prod.mk.inj hr
      rw [show k - 4 + 1 = k - 3 by omega] at *
      exact wp_ct_s2r_finish hk hp h

end

end Asm
