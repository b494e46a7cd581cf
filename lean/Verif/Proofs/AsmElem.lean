import Verif.Proofs.AsmLanes

/-
The elementwise functions of src/ntt_asm.S.
-/

namespace Asm
open C Spec NTT Avx

/-! ### lanes -/

/-- One reduction, as done by `vpsrad; vpand; vpslld; vpaddd; vpsubd`. -/
def rdRaw (x : Int) : Int :=
  sub32 (add32 (land32 x 4095) (sll32 (land32 x 4095) 1)) (sar x 12)

theorem rdRaw_eq {x : Int} (h : I32 x) : rdRaw x = Spec.red x := by
  unfold rdRaw
  rw [NttRed.land32_4095, three_lane (by omega) (by omega), NttRed.sar12]
  unfold sub32 Spec.red
  refine NttRed.toI32_of ?_
  unfold I32 at *; omega

/-- One lane of `correct_asm`. -/
def corRaw (x : Int) : Int :=
  sub32 (add32 x (land32 (sar x 31) 12289)) (land32 (if x > 12288 then -1 else 0) 12289)

/-- One lane of `shift_array_asm`. -/
def shRaw (x : Int) : Int := sub32 x (land32 (if x > 6144 then -1 else 0) 12289)

theorem land_m1 : land32 (-1) 12289 = 12289 := by decide +kernel
theorem land_z : land32 0 12289 = 0 := by decide +kernel

theorem shRaw_eq {x : Int} (h : I32 x) : shRaw x = if x > 6144 then x - 12289 else x := by
  unfold shRaw I32 at *
  split
  · rw [land_m1]; unfold sub32 toI32; omega
  · rw [land_z]; unfold sub32 toI32; omega

theorem corRaw_eq {x : Int} (h : I32 x) :
    corRaw x = if x < 0 then x + 12289 else if x > 12288 then x - 12289 else x := by
  unfold corRaw I32 at *
  have hs : sar x 31 = if x < 0 then -1 else 0 := by
    unfold sar; norm_num; split <;> omega
  rw [hs]
  split
  · rw [land_m1, if_neg (by omega), land_z]; unfold sub32 add32 toI32; omega
  · rw [land_z]
    split
    · rw [land_m1]; unfold sub32 add32 toI32; omega
    · rw [land_z]; unfold sub32 add32 toI32; omega

/-- One lane of `mul_reduce_array16_asm2`: operands in another order. -/
def mrRaw4 (x w : Int) : Int :=
  add32 (sub32 (land32 4095 (mulLo w x)) (srlLo (mulLo w x) (mulHi w x) 12))
    (sll32 (land32 4095 (mulLo w x)) 1)

theorem land32_comm (x y : Int) : land32 x y = land32 y x := by
  unfold land32; rw [Nat.and_comm]

theorem mrRaw4_eq (x w : Int) : mrRaw4 x w = mr x w := by
  rw [← mrRaw_eq]
  unfold mrRaw4 mrRaw mulLo mulHi
  rw [mul_comm w x, land32_comm 4095]
  unfold add32 sub32
  generalize land32 _ _ = u
  generalize srlLo _ _ _ = v
  generalize sll32 _ _ = w
  unfold toI32; omega

/-! ### loops -/

/-- A loop body that treats 16 elements. -/
def body16 (B1 B2 : V8 → V8) (rsi : Nat) (s : Array Int × Nat) : M ((Array Int × Nat) × Bool) := do
  let (a, rax) := s
  let ymm0 ← load a rax
  let ymm1 ← load a (rax + 32)
  let a ← store a rax (B1 ymm0)
  let a ← store a (rax + 32) (B2 ymm1)
  let rax := rax + 64
  pure ((a, rax), decide (rax < rsi))

/-- A loop body that treats 8 elements. -/
def body8 (B : V8 → V8) (rsi : Nat) (s : Array Int × Nat) : M ((Array Int × Nat) × Bool) := do
  let (a, rax) := s
  let ymm0 ← load a rax
  let a ← store a rax (B ymm0)
  let rax := rax + 32
  pure ((a, rax), decide (rax < rsi))

theorem wp_body16 {E : Err → Prop} {B1 B2 : V8 → V8} {F : Int → Int}
    (h1 : ∀ f, B1 (V8.ofFn f) = V8.ofFn fun j => F (f j))
    (h2 : ∀ f, B2 (V8.ofFn f) = V8.ofFn fun j => F (f j))
    {n m : Nat} (hn : n = 16 * m) (hm : 0 < m) {f : Nat → Int} {a : Array Int} (ha : Is n f a) :
    Wp E (jloop (body16 B1 B2 (4 * n)) n (a, 0)) (fun s => Is n (fun i => F (f i)) s.1) := by
  refine wp_jloop (fun c s => s.2 = 64 * c ∧ Md n f (fun i => F (f i)) (fun i => i < 16 * c) s.1)
    hm (by omega) ⟨rfl, ha.md (by intros; omega)⟩ ?_ ?_
  · rintro c ⟨a, rax⟩ hc ⟨hr, h⟩
    dsimp only at hr h
    subst hr
    simp only [body16, wp_bind, wp_pure]
    refine wp_load (16 * c) h (by omega) (by omega) (by intros; omega) ?_
    refine wp_load (16 * c + 8) h (by omega) (by omega) (by intros; omega) ?_
    refine wp_store (16 * c) h (by omega) (by omega) (h1 _) fun a' h' => ?_
    refine wp_store (16 * c + 8) h' (by omega) (by omega) (h2 _) fun a'' h'' => ?_
    refine ⟨?_, by omega, h''.congr ?_⟩
    · congr 1; apply propext; omega
    · intros; omega
  · rintro ⟨a, rax⟩ ⟨_, h⟩
    exact h.is (by intros; omega)

theorem wp_body8 {E : Err → Prop} {B : V8 → V8} {F : Int → Int}
    (h1 : ∀ f, B (V8.ofFn f) = V8.ofFn fun j => F (f j))
    {n m : Nat} (hn : n = 8 * m) (hm : 0 < m) {f : Nat → Int} {a : Array Int} (ha : Is n f a) :
    Wp E (jloop (body8 B (4 * n)) n (a, 0)) (fun s => Is n (fun i => F (f i)) s.1) := by
  refine wp_jloop (fun c s => s.2 = 32 * c ∧ Md n f (fun i => F (f i)) (fun i => i < 8 * c) s.1)
    hm (by omega) ⟨rfl, ha.md (by intros; omega)⟩ ?_ ?_
  · rintro c ⟨a, rax⟩ hc ⟨hr, h⟩
    dsimp only at hr h
    subst hr
    simp only [body8, wp_bind, wp_pure]
    refine wp_load (8 * c) h (by omega) (by omega) (by intros; omega) ?_
    refine wp_store (8 * c) h (by omega) (by omega) (h1 _) fun a' h' => ?_
    refine ⟨?_, by omega, h'.congr ?_⟩
    · congr 1; apply propext; omega
    · intros; omega
  · rintro ⟨a, rax⟩ ⟨_, h⟩
    exact h.is (by intros; omega)

section

/-! ### the functions -/

variable {E : Err → Prop} {n m : Nat} {f g : Nat → Int} {a p b c : Array Int}

theorem wp_reduce_array_asm (hn : n = 16 * m) (hm : 0 < m) (ha : Is n f a) :
    Wp E (reduce_array_asm a n) (Is n fun i => rdRaw (f i)) := by
  have e : loop0 (4 * n) mask = body16 (fun v => loop0_blk_1 v mask) (fun v => loop0_blk_2 v mask) (4 * n) := rfl
  unfold reduce_array_asm
  simp only [wp_bind, wp_pure, Nat.zero_add]
  rw [e]
  exact wp_body16 (F := fun x => rdRaw x) (fun _ => by lanes [loop0_blk_1, rdRaw]) (fun _ => by lanes [loop0_blk_2, rdRaw]) hn hm ha

theorem wp_reduce_array_asm2 (hn : n = 8 * m) (hm : 0 < m) (ha : Is n f a) :
    Wp E (reduce_array_asm2 a n) (Is n fun i => rdRaw (f i)) := by
  have e : loop0b (4 * n) mask = body8 (fun v => loop0b_blk_1 v mask) (4 * n) := rfl
  unfold reduce_array_asm2
  simp only [wp_bind, wp_pure, Nat.zero_add]
  rw [e]
  exact wp_body8 (F := fun x => rdRaw x) (fun _ => by lanes [loop0b_blk_1, rdRaw]) hn hm ha

theorem wp_reduce_array_twice_asm (hn : n = 16 * m) (hm : 0 < m) (ha : Is n f a) :
    Wp E (reduce_array_twice_asm a n) (Is n fun i => rdRaw (rdRaw (f i))) := by
  have e : loop1 (4 * n) mask = body16 (fun v => loop1_blk_1 v mask) (fun v => loop1_blk_2 v mask) (4 * n) := rfl
  unfold reduce_array_twice_asm
  simp only [wp_bind, wp_pure, Nat.zero_add]
  rw [e]
  exact wp_body16 (F := fun x => rdRaw (rdRaw x)) (fun _ => by lanes [loop1_blk_1, rdRaw]) (fun _ => by lanes [loop1_blk_2, rdRaw]) hn hm ha

theorem wp_reduce_array_twice_asm2 (hn : n = 8 * m) (hm : 0 < m) (ha : Is n f a) :
    Wp E (reduce_array_twice_asm2 a n) (Is n fun i => rdRaw (rdRaw (f i))) := by
  have e : loop1b (4 * n) mask = body8 (fun v => loop1b_blk_1 v mask) (4 * n) := rfl
  unfold reduce_array_twice_asm2
  simp only [wp_bind, wp_pure, Nat.zero_add]
  rw [e]
  exact wp_body8 (F := fun x => rdRaw (rdRaw x)) (fun _ => by lanes [loop1b_blk_1, rdRaw]) hn hm ha

theorem wp_correct_asm (hn : n = 16 * m) (hm : 0 < m) (ha : Is n f a) :
    Wp E (correct_asm a n) (Is n fun i => corRaw (f i)) := by
  have e : loop2 (4 * n) q_x8 q_minus1_x8 = body16 (fun v => loop2_blk_1 v q_x8 q_minus1_x8) (fun v => loop2_blk_2 v q_x8 q_minus1_x8) (4 * n) := rfl
  unfold correct_asm
  simp only [wp_bind, wp_pure, Nat.zero_add]
  rw [e]
  exact wp_body16 (F := fun x => corRaw x) (fun _ => by lanes [loop2_blk_1, corRaw, q_x8, q_minus1_x8]) (fun _ => by lanes [loop2_blk_2, corRaw, q_x8, q_minus1_x8]) hn hm ha

theorem wp_shift_array_asm (hn : n = 16 * m) (hm : 0 < m) (ha : Is n f a) :
    Wp E (shift_array_asm a n) (Is n fun i => shRaw (f i)) := by
  have e : loop_shift (4 * n) q_x8 half_q_x8 = body16 (fun v => loop_shift_blk_1 v q_x8 half_q_x8) (fun v => loop_shift_blk_2 v q_x8 half_q_x8) (4 * n) := rfl
  unfold shift_array_asm
  simp only [wp_bind, wp_pure, Nat.zero_add]
  rw [e]
  exact wp_body16 (F := fun x => shRaw x) (fun _ => by lanes [loop_shift_blk_1, shRaw, q_x8, half_q_x8]) (fun _ => by lanes [loop_shift_blk_2, shRaw, q_x8, half_q_x8]) hn hm ha

theorem wp_scalar_mul_asm {w rdx : Int} (hw : toI32 rdx = w) (hn : n = 8 * m) (hm : 0 < m)
    (ha : Is n f a) :
    Wp E (scalar_mul_reduce_array_asm a n rdx) (Is n fun i => mr (f i) w) := by
  have hs : scalar_mul_reduce_array_asm_blk_1 (vmovd rdx) = V8.splat w := by rw [← hw]; rfl
  have e : loop6 (4 * n) (V8.splat w) mask = body8 (fun v => loop6_blk_1 v (V8.splat w) mask) (4 * n) :=
    rfl
  unfold scalar_mul_reduce_array_asm
  simp only [wp_bind, wp_pure, Nat.zero_add]
  rw [hs, e]
  exact wp_body8 (F := fun x => mr x w) (fun _ => by lanes [loop6_blk_1]) hn hm ha

theorem wp_mul16_asm (hn : n = 8 * m) (hm : 0 < m) (ha : Is n f a) (hp : n ≤ p.size) :
    Wp E (mul_reduce_array16_asm a n p) (Is n fun i => mr (f i) (elt p i)) := by
  unfold mul_reduce_array16_asm
  simp only [wp_bind, Nat.zero_add]
  refine wp_jloop (fun c s => s.2 = (32 * c, 16 * c) ∧
    Md n f (fun i => mr (f i) (elt p i)) (fun i => i < 8 * c) s.1)
    hm (by omega) ⟨rfl, ha.md (by intros; omega)⟩ ?_ ?_
  · rintro c ⟨a, rax, rdx⟩ hc ⟨hr, h⟩
    dsimp only at hr h
    obtain ⟨rfl, rfl⟩ := Prod.mk.inj hr
    simp only [loop3, wp_bind, wp_pure]
    refine wp_load (8 * c) h (by omega) (by omega) (by intros; omega) ?_
    rw [load_sxwd_ok (s := 8 * c) (by omega) (by omega), wp_ok]
    refine wp_store (8 * c) h (by omega) (by omega) ?_ fun a' h' => ?_
    · lanes [loop3_blk_1]
    refine ⟨?_, ?_, h'.congr ?_⟩
    · congr 1; apply propext; omega
    · congr 1
    · intros; omega
  · rintro ⟨a, rax, rdx⟩ ⟨_, h⟩
    exact wp_pure.2 (h.is (by intros; omega))

theorem wp_mul16_asm2 (hn : n = 4 * m) (hm : 0 < m) (ha : Is n f a) (hp : n ≤ p.size) :
    Wp E (mul_reduce_array16_asm2 a n p) (Is n fun i => mr (f i) (elt p i)) := by
  unfold mul_reduce_array16_asm2
  simp only [wp_bind, Nat.zero_add]
  refine wp_jloop (fun c s => s.2 = (16 * c, 8 * c) ∧
    Md n f (fun i => mr (f i) (elt p i)) (fun i => i < 4 * c) s.1)
    hm (by omega) ⟨rfl, ha.md (by intros; omega)⟩ ?_ ?_
  · rintro c ⟨a, rax, rdx⟩ hc ⟨hr, h⟩
    dsimp only at hr h
    obtain ⟨rfl, rfl⟩ := Prod.mk.inj hr
    simp only [loop4, wp_bind, wp_pure]
    refine wp_load_sxdq (4 * c) h (by omega) (by omega) (by intros; omega) ?_
    rw [load_sxwq_ok (s := 4 * c) (by omega) (by omega), wp_ok]
    refine wp_store128 (4 * c) h (by omega) (by omega) ?_ fun a' h' => ?_
    · have e : loop4_blk_1 (wide fun j => f (4 * c + j)) (wide fun j => elt p (4 * c + j)) perm0246
          mask = ⟨mr (f (4 * c)) (elt p (4 * c)), mr (f (4 * c + 1)) (elt p (4 * c + 1)),
            mr (f (4 * c + 2)) (elt p (4 * c + 2)), mr (f (4 * c + 3)) (elt p (4 * c + 3)),
            mr (f (4 * c)) (elt p (4 * c)), mr (f (4 * c)) (elt p (4 * c)),
            mr (f (4 * c)) (elt p (4 * c)), mr (f (4 * c)) (elt p (4 * c))⟩ := by
        simp only [← mrRaw4_eq]
        lanes [loop4_blk_1, mrRaw4]
      rw [e]
      intro j hj
      match j, hj with
      | 0, _ => rfl
      | 1, _ => rfl
      | 2, _ => rfl
      | 3, _ => rfl
    refine ⟨?_, ?_, h'.congr ?_⟩
    · congr 1; apply propext; omega
    · congr 1
    · intros; omega
  · rintro ⟨a, rax, rdx⟩ ⟨_, h⟩
    exact wp_pure.2 (h.is (by intros; omega))

theorem wp_mul_asm (hn : n = 8 * m) (hm : 0 < m) (ha : a.size = n) (hb : n ≤ b.size)
    (hc : n ≤ c.size) :
    Wp E (mul_reduce_array_asm a n b c) (Is n fun i => mr (elt b i) (elt c i)) := by
  unfold mul_reduce_array_asm
  simp only [wp_bind, Nat.zero_add]
  refine wp_jloop (fun t s => s.2 = (32 * t, 32 * t, 32 * t) ∧
    Md n (elt a) (fun i => mr (elt b i) (elt c i)) (fun i => i < 8 * t) s.1)
    hm (by omega) ⟨rfl, (Is.self ha).md (by intros; omega)⟩ ?_ ?_
  · rintro t ⟨a, rax, rdx, rcx⟩ ht ⟨hr, h⟩
    dsimp only at hr h
    obtain ⟨rfl, hr2⟩ := Prod.mk.inj hr
    obtain ⟨rfl, rfl⟩ := Prod.mk.inj hr2
    simp only [loop5, wp_bind, wp_pure]
    rw [load_ok (s := 8 * t) (by omega) (by omega), wp_ok,
      load_ok (s := 8 * t) (by omega) (by omega), wp_ok]
    refine wp_store (8 * t) h (by omega) (by omega) ?_ fun a' h' => ?_
    · lanes [loop5_blk_1]
    refine ⟨?_, ?_, h'.congr ?_⟩
    · congr 1; apply propext; omega
    · congr 1
    · intros; omega
  · rintro ⟨a, rax, rdx⟩ ⟨_, h⟩
    exact wp_pure.2 (h.is (by intros; omega))

end

/-! ### the C functions, when they return -/

section
variable {n : Nat} {a a' b p : Array Int} {c : Int}

theorem of_wp {α : Type} {m : M α} {x : α} {P : α → Prop} (h : m = .ok x)
    (hw : Wp (fun _ => True) m P) : P x := by
  rw [h] at hw; exact wp_ok.1 hw

theorem is_of_pw {f : Nat → Int} (h : PW n (fun i x => x = f i) a) : Is n f a :=
  ⟨h.1, fun i hi => h.2 i _ (some_elt (by rw [h.1]; exact hi))⟩

theorem pw_of_is {f : Nat → Int} (h : Is n f a) : PW n (fun i x => x = f i) a := by
  refine ⟨h.1, fun i x hx => ?_⟩
  rw [← elt_of_some hx]
  exact h.2 i (by rw [← h.1]; exact getElem?_lt hx)

theorem wp_mul_red {x w : Int} : Wp (fun _ => True) (NttRed.mul_red x w) (fun z => z = mr x w) := by
  cases h : NttRed.mul_red x w with
  | ok z => rw [wp_ok]; exact mul_red_mr h
  | error e => exact wp_error.2 trivial

theorem c_mul16 (hn : n < 4294967296) (ha : a.size = n) (hp : n ≤ p.size)
    (h : NttRed.mul_reduce_array16 a n p = .ok a') : Is n (fun i => mr (elt a i) (elt p i)) a' := by
  refine is_of_pw (of_wp h (wp_map (Pre := fun i x => x = elt a i) hn ?_ (pw_of_is (Is.self ha))))
  intro i b x hi hb hx hpre
  subst hpre
  simp only [wp_bind]
  refine wp_rd_some hx ?_
  refine wp_rd_some (some_elt (by omega)) ?_
  refine wp_mul_red.mono ?_
  rintro _ rfl
  exact wp_wr (by omega) ⟨_, rfl, rfl⟩

theorem c_mul {d : Array Int} (hn : n < 4294967296) (hd : d.size = n) (ha : n ≤ a.size)
    (hb : n ≤ b.size) (h : NttRed.mul_reduce_array d n a b = .ok a') :
    Is n (fun i => mr (elt a i) (elt b i)) a' := by
  refine is_of_pw (of_wp h (wp_map (Pre := fun i x => x = elt d i) hn ?_ (pw_of_is (Is.self hd))))
  intro i b x hi hb hx hpre
  simp only [wp_bind]
  refine wp_rd_some (some_elt (by omega)) ?_
  refine wp_rd_some (some_elt (by omega)) ?_
  refine wp_mul_red.mono ?_
  rintro _ rfl
  exact wp_wr (by omega) ⟨_, rfl, rfl⟩

theorem c_scalar (hn : n < 4294967296) (ha : a.size = n)
    (h : NttRed.scalar_mul_reduce_array a n c = .ok a') : Is n (fun i => mr (elt a i) c) a' := by
  refine is_of_pw (of_wp h (wp_map (Pre := fun i x => x = elt a i) hn ?_ (pw_of_is (Is.self ha))))
  intro i b x hi hb hx hpre
  subst hpre
  simp only [wp_bind]
  refine wp_rd_some hx ?_
  refine wp_mul_red.mono ?_
  rintro _ rfl
  exact wp_wr (by omega) ⟨_, rfl, rfl⟩

/-- The C function `correct` on one element of `[-65536, 65535]`. -/
theorem c_correct (hn : n < 4294967296) (ha : a.size = n)
    (hr : ∀ i, i < n → -65536 ≤ elt a i ∧ elt a i ≤ 65535) :
    ∃ a', NttRed.correct a n = .ok a' ∧ Is n (fun i => corRaw (elt a i)) a' := by
  refine wp_total.1 ((wp_map (Pre := fun i x => x = elt a i)
    (Post := fun i x => x = corRaw (elt a i)) hn ?_ (pw_of_is (Is.self ha))).mono
      (fun _ h => is_of_pw h))
  intro i b x hi hb hx hpre
  have hx' := hr i hi
  dsimp only
  rw [← hpre] at hx' ⊢
  clear hpre
  rw [corRaw_eq (by unfold I32; omega)]
  simp only [wp_bind]
  refine wp_rd_some hx ?_
  have s16 : ∀ y : Int, -65536 ≤ y → y ≤ 65535 →
      land32 (sar y 16) 12289 = if y < 0 then 12289 else 0 := by
    intro y h1 h2
    have : sar y 16 = if y < 0 then -1 else 0 := by unfold sar; norm_num; split <;> omega
    rw [this]
    split
    · exact land_m1
    · exact land_z
  rw [s16 x hx'.1 hx'.2]
  by_cases h0 : x < 0
  · simp only [h0, if_true]
    refine wp_i32 (by unfold I32; omega) (wp_i32 (by unfold I32; omega) ?_)
    rw [s16 _ (by omega) (by omega)]
    refine wp_i32 (by unfold I32; split <;> omega) (wp_wr (by omega) ⟨_, rfl, ?_⟩)
    rw [if_pos (by omega)]; omega
  · simp only [h0, if_false]
    refine wp_i32 (by unfold I32; omega) (wp_i32 (by unfold I32; omega) ?_)
    rw [s16 _ (by omega) (by omega)]
    refine wp_i32 (by unfold I32; split <;> omega) (wp_wr (by omega) ⟨_, rfl, ?_⟩)
    split <;> split <;> omega

end

end Asm
