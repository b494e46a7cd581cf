import Verif.Proofs.AsmRounds

/-
Loops of src/ntt_asm.S that process whole blocks of eight or sixteen elements, and loops that process
pairs of elements at distance `t`.
-/

namespace Asm
open C Spec NTT Avx

/-- Elements of an array of `int16_t`. -/
def I16 (x : Int) : Prop := -32768 ≤ x ∧ x ≤ 32767

theorem word_lo {u : Nat} {x : Int} (hu : u < 65536) (hx : sx16 u = x) :
    sx16 (toU32 (toI32 ((u : Int) * 65537)) % 65536) = x := by
  have : toU32 (toI32 ((u : Int) * 65537)) = u * 65537 := by unfold toI32 toU32; omega
  rw [this, show u * 65537 % 65536 = u by omega, hx]

theorem word_hi {u : Nat} {x : Int} (hu : u < 65536) (hx : sx16 u = x) :
    sx16 (toU32 (toI32 ((u : Int) * 65537)) / 65536 % 65536) = x := by
  have : toU32 (toI32 ((u : Int) * 65537)) = u * 65537 := by unfold toI32 toU32; omega
  rw [this, show u * 65537 / 65536 = u by omega, Nat.mod_eq_of_lt hu, hx]

theorem word_bd {d b c e f x : Int} (h0 : sx16 (toU32 d % 65536) = x)
    (h1 : sx16 (toU32 d / 65536 % 65536) = x) :
    vpmovsxwq ⟨d, d, d, d, b, c, e, f⟩ = wide fun _ => x := by
  simp only [vpmovsxwq, wide, V8.ofFn, V8.word, V8.get, Nat.reduceMod, Nat.reduceDiv, pow_zero, pow_one,
    Nat.div_one, Nat.zero_mod, Nat.zero_div, h0, h1, if_true]

/-- Broadcast of one 16-bit element, sign-extended to 64 bits. -/
theorem bdcstw_ok {p : Array Int} {r s : Nat} (hr : r = 2 * s) (h : s < p.size) (hx : I16 (elt p s)) :
    ∃ v, load_bdcstw p r = .ok v ∧ vpmovsxwq v = wide fun _ => elt p s := by
  unfold load_bdcstw
  rw [mem16_ok (i := 0) hr (by omega), Nat.add_zero, NttRed.ok_bind]
  obtain ⟨h1, h2⟩ := hx
  generalize elt p s = x at *
  have hu : toU32 x % 65536 < 65536 := by omega
  have e : sx16 (toU32 x % 65536) = x := by unfold sx16 toU32; split <;> omega
  have e0 := word_lo hu e
  have e1 := word_hi hu e
  push_cast at e0 e1
  exact ⟨_, rfl, word_bd e0 e1⟩

theorem wp_bdcstw {E : Err → Prop} {p : Array Int} {r s : Nat} {P : V8 → Prop} (hr : r = 2 * s)
    (h : s < p.size) (hx : I16 (elt p s))
    (hP : ∀ v, vpmovsxwq v = (wide fun _ => elt p s) → P v) : Wp E (load_bdcstw p r) P := by
  obtain ⟨v, h1, h2⟩ := bdcstw_ok hr h hx
  rw [h1, wp_ok]
  exact hP v h2

theorem pow8 {k : Nat} (h : 3 ≤ k) : 2 ^ k = 8 * 2 ^ (k - 3) := by
  have := pow_add 2 3 (k - 3)
  rw [show 3 + (k - 3) = k by omega] at this
  exact this

theorem pow16 {k : Nat} (h : 4 ≤ k) : 2 ^ k = 16 * 2 ^ (k - 4) := by
  have := pow_add 2 4 (k - 4)
  rw [show 4 + (k - 4) = k by omega] at this
  exact this

theorem mul_test {x b N : Nat} (hx : 0 < x) : 4 * (x * (b + 1)) < 4 * (x * N) ↔ b + 1 < N := by
  constructor
  · intro hh
    have : x * (b + 1) < x * N := by omega
    exact Nat.lt_of_mul_lt_mul_left this
  · intro hh
    have : x * (b + 1) < x * N := Nat.mul_lt_mul_of_pos_left hh hx
    omega

theorem wA_shift {p : Nat → Int} {t L e : Nat} (hL : L = t * e) (c : Nat) :
    (fun j => wA p t (L * c + j)) = wA p t := by
  funext j
  unfold wA
  rw [hL, show t * e * c + j = j + t * (e * c) by ring, Nat.add_mul_mod_self_left]

theorem wB_shift {p : Nat → Int} {T d L e : Nat} (hL : L = 2 * d * e) (hd : 0 < d) (c : Nat) :
    (fun j => wB p T d (L * c + j)) = wB p (T + e * c) d := by
  funext j
  unfold wB
  rw [hL, show 2 * d * e * c + j = j + 2 * d * (e * c) by ring,
    Nat.add_mul_div_left _ _ (by omega), show T + (j / (2 * d) + e * c) = T + e * c + j / (2 * d) by omega]

section
variable {E : Err → Prop} {n N : Nat} {f G : Nat → Int} {a : Array Int}

theorem wp_blk8 {B : V8 → V8} (hn : n = 8 * N) (hN : 0 < N) (ha : Is n f a)
    (hB : ∀ c, B (V8.ofFn fun j => f (8 * c + j)) = V8.ofFn fun j => G (8 * c + j)) :
    Wp E (jloop (body8 B (4 * n)) n (a, 0)) (fun s => Is n G s.1) := by
  refine wp_jloop (fun c s => s.2 = 32 * c ∧ Md n f G (fun i => i < 8 * c) s.1)
    hN (by omega) ⟨rfl, ha.md (by intros; omega)⟩ ?_ ?_
  · rintro c ⟨a, rax⟩ hc ⟨hr, h⟩
    dsimp only at hr h
    subst hr
    simp only [body8, wp_bind, wp_pure]
    refine wp_load (8 * c) h (by omega) (by omega) (by intros; omega) ?_
    refine wp_store (8 * c) h (by omega) (by omega) (hB c) fun a' h' => ?_
    refine ⟨?_, by omega, h'.congr ?_⟩
    · congr 1; apply propext; omega
    · intros; omega
  · rintro ⟨a, rax⟩ ⟨_, h⟩
    exact h.is (by intros; omega)

/-- A loop on blocks of sixteen elements. -/
def bodyP (B : V8 → V8 → V8 × V8) (rsi : Nat) (s : Array Int × Nat) : M ((Array Int × Nat) × Bool) := do
  let (a, rax) := s
  let ymm0 ← load a rax
  let ymm1 ← load a (rax + 32)
  let (u, v) := B ymm0 ymm1
  let a ← store a rax u
  let a ← store a (rax + 32) v
  let rax := rax + 64
  pure ((a, rax), decide (rax < rsi))

/-- The effect of a block of instructions on sixteen elements. -/
def Blk16 (B : V8 → V8 → V8 × V8) (g h : Nat → Int) : Prop :=
  B (V8.ofFn g) (V8.ofFn fun j => g (8 + j)) = (V8.ofFn h, V8.ofFn fun j => h (8 + j))

/-- Process one block of sixteen elements. -/
theorem wp_step16 {B : V8 → V8 → V8 × V8} {α : Type} {k : Array Int → M α} {P : α → Prop} {c r : Nat}
    (hr : r = 64 * c) (hc : 16 * c + 16 ≤ n) (h : Md n f G (fun i => i < 16 * c) a)
    (hB : Blk16 B (fun j => f (16 * c + j)) (fun j => G (16 * c + j)))
    (hk : ∀ a', Md n f G (fun i => i < 16 * (c + 1)) a' → Wp E (k a') P) :
    Wp E (load a r) fun y0 => Wp E (load a (r + 32)) fun y1 =>
      Wp E (store a r (B y0 y1).1) fun a' => Wp E (store a' (r + 32) (B y0 y1).2) fun a'' =>
        Wp E (k a'') P := by
  have e : ∀ F : Nat → Int, (V8.ofFn fun j => F (16 * c + (8 + j))) = V8.ofFn fun j => F (16 * c + 8 + j) :=
    fun F => ofFn_congr fun j _ => by rw [Nat.add_assoc]
  unfold Blk16 at hB
  rw [e f, e G] at hB
  refine wp_load (16 * c) h (by omega) (by omega) (by intros; omega) ?_
  refine wp_load (16 * c + 8) h (by omega) (by omega) (by intros; omega) ?_
  rw [hB]
  refine wp_store (16 * c) h (by omega) (by omega) rfl fun a' h' => ?_
  refine wp_store (16 * c + 8) h' (by omega) (by omega) rfl fun a'' h'' => ?_
  refine hk _ (h''.congr fun i _ => ?_)
  omega

theorem wp_blk16 {B : V8 → V8 → V8 × V8} (hn : n = 16 * N) (hN : 0 < N) (ha : Is n f a)
    (hB : ∀ c, Blk16 B (fun j => f (16 * c + j)) (fun j => G (16 * c + j))) :
    Wp E (jloop (bodyP B (4 * n)) n (a, 0)) (fun s => Is n G s.1) := by
  refine wp_jloop (fun c s => s.2 = 64 * c ∧ Md n f G (fun i => i < 16 * c) s.1)
    hN (by omega) ⟨rfl, ha.md (by intros; omega)⟩ ?_ ?_
  · rintro c ⟨a, rax⟩ hc ⟨hr, h⟩
    dsimp only at hr h
    subst hr
    simp only [bodyP, wp_bind]
    refine wp_step16 (B := B) rfl (by omega) h (hB c) fun a' h' => wp_pure.2 ⟨?_, by dsimp only; omega, h'⟩
    dsimp only
    congr 1; apply propext; omega
  · rintro ⟨a, rax⟩ ⟨_, h⟩
    exact h.is (by intros; omega)

/-- A loop on pairs of vectors. -/
def pbody (B : V8 → V8 → V8 × V8) (test : Nat → Nat → Bool) (s : Array Int × Nat × Nat) :
    M ((Array Int × Nat × Nat) × Bool) := do
  let (a, rax, rcx) := s
  let ymm0 ← load a rax
  let ymm1 ← load a rcx
  let (u, v) := B ymm0 ymm1
  let a ← store a rax u
  let a ← store a rcx v
  let rax := rax + 32
  let rcx := rcx + 32
  pure ((a, rax, rcx), test rax rcx)

/-- One block of a round with one multiplier. -/
theorem wp_pblock {B : V8 → V8 → V8 × V8} {test : Nat → Nat → Bool} {U V : Int → Int → Int → Int}
    {t q b fuel : Nat} {w : Nat → Int} {W : Int} (hq : t = 8 * q) (hq0 : 0 < q)
    (hb : 2 * t * (b + 1) ≤ n) (hf : q ≤ fuel)
    (h : Md n f (rnd U V t w f) (fun i => i < 2 * t * b) a)
    (hw : ∀ j, j < t → w (2 * t * b + j) = W)
    (hB : ∀ x y : Nat → Int, (∀ j, j < 8 → ∃ i, y j = f i) → B (V8.ofFn x) (V8.ofFn y) =
      (V8.ofFn fun j => U (x j) (y j) W, V8.ofFn fun j => V (x j) (y j) W))
    (htest : ∀ c, c < q → test (4 * (2 * t * b + 8 * c) + 32) (4 * (2 * t * b + t + 8 * c) + 32) =
      decide (c + 1 < q)) :
    Wp E (jloop (pbody B test) fuel (a, 4 * (2 * t * b), 4 * (2 * t * b + t)))
      (fun s => s.2.2 = 4 * (2 * t * (b + 1)) ∧
        Md n f (rnd U V t w f) (fun i => i < 2 * t * (b + 1)) s.1) := by
  have e1 : 2 * t * (b + 1) = 2 * t * b + 2 * t := by ring
  rw [e1] at hb ⊢
  have hlo : ∀ j, j < t → rnd U V t w f (2 * t * b + j) =
      U (f (2 * t * b + j)) (f (2 * t * b + j + t)) W := fun j hj => by rw [rnd_lo hj, hw j hj]
  have hhi : ∀ j, j < t → rnd U V t w f (2 * t * b + j + t) =
      V (f (2 * t * b + j)) (f (2 * t * b + j + t)) W := fun j hj => by rw [rnd_hi hj, hw j hj]
  generalize 2 * t * b = B0 at *
  generalize rnd U V t w f = G at *
  refine wp_jloop (fun c s => s.2.1 = 4 * (B0 + 8 * c) ∧ s.2.2 = 4 * (B0 + t + 8 * c) ∧
    Md n f G (fun i => i < B0 + 8 * c ∨ (B0 + t ≤ i ∧ i < B0 + t + 8 * c)) s.1)
    hq0 hf ⟨rfl, rfl, h.congr (by intros; omega)⟩ ?_ ?_
  · rintro c ⟨a, rax, rcx⟩ hc ⟨hr, hr', h⟩
    dsimp only at hr hr' h
    subst hr hr'
    simp only [pbody, wp_bind]
    refine wp_load (B0 + 8 * c) h (by omega) (by omega) (by intros; omega) ?_
    refine wp_load (B0 + t + 8 * c) h (by omega) (by omega) (by intros; omega) ?_
    rw [hB _ _ (fun j _ => ⟨_, rfl⟩)]
    refine wp_store (B0 + 8 * c) h (by omega) (by omega) ?_ fun a' h' => ?_
    · dsimp only
      refine ofFn_congr fun j hj => ?_
      rw [show B0 + t + 8 * c + j = B0 + (8 * c + j) + t by omega, Nat.add_assoc, hlo _ (by omega)]
    refine wp_store (B0 + t + 8 * c) h' (by omega) (by omega) ?_ fun a'' h'' => ?_
    · dsimp only
      refine ofFn_congr fun j hj => ?_
      rw [show B0 + t + 8 * c + j = B0 + (8 * c + j) + t by omega, Nat.add_assoc, hhi _ (by omega)]
    refine wp_pure.2 ⟨htest c hc, ?_, ?_, h''.congr ?_⟩
    · dsimp only; omega
    · dsimp only; omega
    · intros; omega
  · rintro ⟨a, rax, rcx⟩ ⟨_, hr, h⟩
    dsimp only at hr h ⊢
    exact ⟨by omega, h.congr (by intros; omega)⟩

end

end Asm
