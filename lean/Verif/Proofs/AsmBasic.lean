import Verif.Model.NttAsm
import Verif.Proofs.Arrays
import Verif.Proofs.NttRed

/-
Rules for the assembly model: loads, stores, loops, and the multiply-and-reduce lane pattern.

`Md n f G d a`: the array `a` of size `n` contains `G i` at the indices with `d i` and `f i` at the
others.
-/

namespace Asm
open C Spec NTT Avx

/-! ### arithmetic of a lane -/

theorem toI32_add_toI32 (x y : Int) : toI32 (toI32 x + y) = toI32 (x + y) := by
  unfold toI32; omega

theorem toI32_sub_toI32 (x y : Int) : toI32 (x - toI32 y) = toI32 (x - y) := by
  unfold toI32; omega

theorem I32_toI32 (x : Int) : I32 (toI32 x) := by unfold toI32 I32; omega

/-- `x*w` reduced, as a 32-bit number. -/
def mr (x w : Int) : Int := toI32 (Spec.red (x * w))

/-- The sequence `vpmuldq; vpand; vpsrlq; vpslld; vpaddd; vpsubd` on one lane. -/
def mrRaw (x w : Int) : Int :=
  sub32 (add32 (land32 (mulLo x w) 4095) (sll32 (land32 (mulLo x w) 4095) 1))
    (srlLo (mulLo x w) (mulHi x w) 12)

theorem three_lane {y : Int} (h0 : 0 ≤ y) (h1 : y < 4096) : add32 y (sll32 y 1) = 3 * y := by
  unfold add32 sll32 toI32; norm_num; omega

theorem srl_eq (z : Int) : srlLo (toI32 z) (toI32 (z / 4294967296)) 12 = toI32 (z / 4096) := by
  unfold srlLo quad toU32 toI32
  have e : (2 : Nat) ^ 12 = 4096 := by norm_num
  rw [e]
  generalize hu : z / 4294967296 = u
  generalize hv : z % 4294967296 = v
  have hz : z = 4294967296 * u + v := by omega
  subst hz
  have h1 : (((4294967296 * u + v + 2147483648) % 4294967296 - 2147483648) % 4294967296).toNat
      = v.toNat := by omega
  rw [h1]
  omega

theorem mrRaw_eq (x w : Int) : mrRaw x w = mr x w := by
  unfold mrRaw mr mulLo mulHi
  have h : land32 (toI32 (x * w)) 4095 = (x * w) % 4096 := by
    rw [NttRed.land32_4095]; unfold toI32; omega
  rw [h, three_lane (by omega) (by omega), srl_eq]
  unfold sub32 Spec.red
  rw [toI32_sub_toI32]

theorem mr_one {x : Int} (h : I32 x) : mr x (-4096) = x := by
  unfold mr Spec.red
  have h1 : x * (-4096) % 4096 = 0 := by omega
  have h2 : x * (-4096) / 4096 = -x := by omega
  rw [h1, h2]
  simpa using NttRed.toI32_of h

theorem I32_mr (x w : Int) : I32 (mr x w) := I32_toI32 _
theorem I32_add32 (x w : Int) : I32 (add32 x w) := I32_toI32 _
theorem I32_sub32 (x w : Int) : I32 (sub32 x w) := I32_toI32 _

/-- The C function agrees when it returns. -/
theorem mul_red_mr {x w z : Int} (h : NttRed.mul_red x w = .ok z) : z = mr x w := by
  unfold NttRed.mul_red at h
  unfold mr
  generalize x * w = p at h ⊢
  unfold i64 at h
  split at h
  · rename_i h64
    simp only [NttRed.ok_bind] at h
    unfold cassert at h
    split at h
    · simp only [NttRed.ok_bind, NttRed.land64_4095, NttRed.sar12] at h
      unfold i32 at h
      split at h
      · simp only [NttRed.ok_bind] at h
        split at h
        · rename_i h3
          injection h with h
          subst h
          rw [← NttRed.toI32_of h3, toI32_sub_toI32]
          have : toI32 (p % 4096) = p % 4096 := by unfold toI32; omega
          rw [this]
          rfl
        · cases h
      · cases h
    · cases h
  · cases h

/-! ### arrays and memory -/

/-- The indices with `d` have been processed. -/
structure Md (n : Nat) (f G : Nat → Int) (d : Nat → Prop) (a : Array Int) : Prop where
  size : a.size = n
  don : ∀ i, i < n → d i → elt a i = G i
  rst : ∀ i, i < n → ¬ d i → elt a i = f i

theorem Md.congr {n : Nat} {f G : Nat → Int} {d d' : Nat → Prop} {a : Array Int}
    (h : Md n f G d a) (hd : ∀ i, i < n → (d i ↔ d' i)) : Md n f G d' a :=
  ⟨h.size, fun i hi hd' => h.don i hi ((hd i hi).2 hd'),
    fun i hi hd' => h.rst i hi (fun hh => hd' ((hd i hi).1 hh))⟩

/-- The array contains `f`. -/
def Is (n : Nat) (f : Nat → Int) (a : Array Int) : Prop := a.size = n ∧ ∀ i, i < n → elt a i = f i

theorem Is.md {n : Nat} {f G : Nat → Int} {d : Nat → Prop} {a : Array Int} (h : Is n f a)
    (hd : ∀ i, i < n → ¬ d i) : Md n f G d a :=
  ⟨h.1, fun i hi hh => absurd hh (hd i hi), fun i hi _ => h.2 i hi⟩

theorem Md.is {n : Nat} {f G : Nat → Int} {d : Nat → Prop} {a : Array Int} (h : Md n f G d a)
    (hd : ∀ i, i < n → d i) : Is n G a :=
  ⟨h.size, fun i hi => h.don i hi (hd i hi)⟩

theorem Is.congr {n : Nat} {f g : Nat → Int} {a : Array Int} (h : Is n f a)
    (hd : ∀ i, i < n → f i = g i) : Is n g a :=
  ⟨h.1, fun i hi => (h.2 i hi).trans (hd i hi)⟩

theorem Is.self {a : Array Int} {n : Nat} (h : a.size = n) : Is n (elt a) a := ⟨h, fun _ _ => rfl⟩

theorem Is.ext {n : Nat} {f : Nat → Int} {a b : Array Int} (ha : Is n f a) (hb : Is n f b) :
    a = b := by
  apply Array.ext
  · rw [ha.1, hb.1]
  · intro i h1 h2
    have hx := ha.2 i (by rw [← ha.1]; exact h1)
    have hy := hb.2 i (by rw [← hb.1]; exact h2)
    rw [elt_of_some (Array.getElem?_eq_getElem h1)] at hx
    rw [elt_of_some (Array.getElem?_eq_getElem h2)] at hy
    rw [hx, hy]

theorem Md.put {n : Nat} {f G : Nat → Int} {d : Nat → Prop} {a : Array Int} {s : Nat} {x : Int}
    (h : Md n f G d a) (hs : s < n) (hx : x = G s) :
    Md n f G (fun i => d i ∨ i = s) (a.setIfInBounds s x) := by
  have e : ∀ i, i < n → elt (a.setIfInBounds s x) i = if s = i then x else elt a i := by
    intro i hi
    simp only [elt, Array.getD_eq_getD_getElem?, Array.getElem?_setIfInBounds]
    have := h.size
    split
    · rw [if_pos (by omega)]; rfl
    · rfl
  refine ⟨by simp [h.size], fun i hi hd => ?_, fun i hi hd => ?_⟩
  · rw [e i hi]
    split
    · rename_i hh; subst hh; exact hx
    · rename_i hh
      rcases hd with hd | hd
      · exact h.don i hi hd
      · exact absurd hd.symm hh
  · rw [e i hi, if_neg (fun hh => hd (Or.inr hh.symm))]
    exact h.rst i hi (fun hh => hd (Or.inl hh))

theorem rd_elt {a : Array Int} {i : Nat} (h : i < a.size) : rd a i = .ok (elt a i) := by
  unfold rd; rw [some_elt h]

theorem mem32_ok {a : Array Int} {r s i : Nat} (hr : r = 4 * s) (h : s + i < a.size) :
    mem32 a r i = .ok (elt a (s + i)) := by
  subst hr
  unfold mem32
  rw [if_pos (by omega), show 4 * s / 4 = s by omega]
  exact rd_elt h

theorem mem16_ok {a : Array Int} {r s i : Nat} (hr : r = 2 * s) (h : s + i < a.size) :
    mem16 a r i = .ok (elt a (s + i)) := by
  subst hr
  unfold mem16
  rw [if_pos (by omega), show 2 * s / 2 = s by omega]
  exact rd_elt h

/-- Load of eight elements. -/
theorem load_ok {a : Array Int} {r s : Nat} (hr : r = 4 * s) (h : s + 8 ≤ a.size) :
    load a r = .ok (V8.ofFn fun j => elt a (s + j)) := by
  unfold load
  rw [mem32_ok hr (by omega), mem32_ok hr (by omega), mem32_ok hr (by omega),
    mem32_ok hr (by omega), mem32_ok hr (by omega), mem32_ok hr (by omega),
    mem32_ok hr (by omega), mem32_ok hr (by omega)]
  rfl

theorem load_sxwd_ok {p : Array Int} {r s : Nat} (hr : r = 2 * s) (h : s + 8 ≤ p.size) :
    load_sxwd p r = .ok (V8.ofFn fun j => elt p (s + j)) := by
  unfold load_sxwd
  rw [mem16_ok hr (by omega), mem16_ok hr (by omega), mem16_ok hr (by omega),
    mem16_ok hr (by omega), mem16_ok hr (by omega), mem16_ok hr (by omega),
    mem16_ok hr (by omega), mem16_ok hr (by omega)]
  rfl

/-- Lanes of a 64-bit sign extension. -/
def wide (f : Nat → Int) : V8 :=
  V8.ofFn fun j => if j % 2 = 0 then f (j / 2) else sxHi (f (j / 2))

theorem load_sxwq_ok {p : Array Int} {r s : Nat} (hr : r = 2 * s) (h : s + 4 ≤ p.size) :
    load_sxwq p r = .ok (wide fun j => elt p (s + j)) := by
  unfold load_sxwq
  rw [mem16_ok hr (by omega), mem16_ok hr (by omega), mem16_ok hr (by omega),
    mem16_ok hr (by omega)]
  rfl

theorem load_sxdq_ok {a : Array Int} {r s : Nat} (hr : r = 4 * s) (h : s + 4 ≤ a.size) :
    load_sxdq a r = .ok (wide fun j => elt a (s + j)) := by
  unfold load_sxdq
  rw [mem32_ok hr (by omega), mem32_ok hr (by omega), mem32_ok hr (by omega),
    mem32_ok hr (by omega)]
  rfl

theorem load_sxwq128_ok {p : Array Int} {r s : Nat} (hr : r = 2 * s) (h : s + 2 ≤ p.size) :
    load_sxwq128 p r = .ok ⟨elt p s, sxHi (elt p s), elt p (s + 1), sxHi (elt p (s + 1)), 0, 0, 0, 0⟩ := by
  unfold load_sxwq128
  rw [mem16_ok hr (by omega), mem16_ok hr (by omega)]
  rfl

theorem ofFn_congr {f g : Nat → Int} (h : ∀ j, j < 8 → f j = g j) : V8.ofFn f = V8.ofFn g := by
  unfold V8.ofFn
  rw [h 0 (by omega), h 1 (by omega), h 2 (by omega), h 3 (by omega), h 4 (by omega),
    h 5 (by omega), h 6 (by omega), h 7 (by omega)]

/-- Load of eight elements that have not been processed. -/
theorem wp_load {E : Err → Prop} {n : Nat} {f G : Nat → Int} {d : Nat → Prop} {a : Array Int}
    {P : V8 → Prop} {r : Nat} (s : Nat) (h : Md n f G d a) (hr : r = 4 * s) (hs : s + 8 ≤ n)
    (hd : ∀ j, j < 8 → ¬ d (s + j)) (hP : P (V8.ofFn fun j => f (s + j))) : Wp E (load a r) P := by
  rw [load_ok hr (by rw [h.size]; exact hs), wp_ok,
    ofFn_congr (fun j hj => h.rst (s + j) (by omega) (hd j hj))]
  exact hP

/-- Sign-extending load of four elements that have not been processed. -/
theorem wp_load_sxdq {E : Err → Prop} {n : Nat} {f G : Nat → Int} {d : Nat → Prop} {a : Array Int}
    {P : V8 → Prop} {r : Nat} (s : Nat) (h : Md n f G d a) (hr : r = 4 * s) (hs : s + 4 ≤ n)
    (hd : ∀ j, j < 4 → ¬ d (s + j)) (hP : P (wide fun j => f (s + j))) :
    Wp E (load_sxdq a r) P := by
  rw [load_sxdq_ok hr (by rw [h.size]; exact hs), wp_ok]
  have : (wide fun j => elt a (s + j)) = wide fun j => f (s + j) := by
    unfold wide
    refine ofFn_congr fun j hj => ?_
    dsimp only
    rw [h.rst (s + j / 2) (by omega) (hd _ (by omega))]
  rw [this]
  exact hP

/-- Store of eight final values. -/
theorem wp_store {E : Err → Prop} {n : Nat} {f G : Nat → Int} {d : Nat → Prop} {a : Array Int}
    {P : Array Int → Prop} {r : Nat} {v : V8} (s : Nat) (h : Md n f G d a) (hr : r = 4 * s)
    (hs : s + 8 ≤ n) (hv : v = V8.ofFn fun j => G (s + j))
    (hP : ∀ a', Md n f G (fun i => d i ∨ (s ≤ i ∧ i < s + 8)) a' → P a') :
    Wp E (store a r v) P := by
  subst hr hv
  unfold store
  rw [if_pos (by omega), show 4 * s / 4 = s by omega]
  have w : ∀ {d : Nat → Prop} {a : Array Int} {t : Nat} {x : Int}, Md n f G d a → t < n →
      wr a t x = .ok (a.setIfInBounds t x) := by
    intro d a t x h ht
    unfold wr; rw [if_pos (by rw [h.size]; exact ht)]
  have h0 := h.put (s := s) (x := G (s + 0)) (by omega) rfl
  have h1 := h0.put (s := s + 1) (x := G (s + 1)) (by omega) rfl
  have h2 := h1.put (s := s + 1 + 1) (x := G (s + 2)) (by omega) rfl
  have h3 := h2.put (s := s + 1 + 1 + 1) (x := G (s + 3)) (by omega) rfl
  have h4 := h3.put (s := s + 1 + 1 + 1 + 1) (x := G (s + 4)) (by omega) rfl
  have h5 := h4.put (s := s + 1 + 1 + 1 + 1 + 1) (x := G (s + 5)) (by omega) rfl
  have h6 := h5.put (s := s + 1 + 1 + 1 + 1 + 1 + 1) (x := G (s + 6)) (by omega) rfl
  have h7 := h6.put (s := s + 1 + 1 + 1 + 1 + 1 + 1 + 1) (x := G (s + 7)) (by omega) rfl
  simp only [V8.ofFn, putList, wp_bind]
  rw [w h (by omega), wp_ok, w h0 (by omega), wp_ok, w h1 (by omega), wp_ok, w h2 (by omega),
    wp_ok, w h3 (by omega), wp_ok, w h4 (by omega), wp_ok, w h5 (by omega), wp_ok,
    w h6 (by omega), wp_ok, wp_ok]
  refine hP _ (h7.congr fun i hi => ?_)
  by_cases hdi : d i
  · simp [hdi]
  · simp only [hdi, false_or]; omega

/-- Store of four final values. -/
theorem wp_store128 {E : Err → Prop} {n : Nat} {f G : Nat → Int} {d : Nat → Prop} {a : Array Int}
    {P : Array Int → Prop} {r : Nat} {v : V8} (s : Nat) (h : Md n f G d a) (hr : r = 4 * s)
    (hs : s + 4 ≤ n) (hv : ∀ j, j < 4 → v.get j = G (s + j))
    (hP : ∀ a', Md n f G (fun i => d i ∨ (s ≤ i ∧ i < s + 4)) a' → P a') :
    Wp E (store128 a r v) P := by
  subst hr
  unfold store128
  rw [if_pos (by omega), show 4 * s / 4 = s by omega]
  have w : ∀ {d : Nat → Prop} {a : Array Int} {t : Nat} {x : Int}, Md n f G d a → t < n →
      wr a t x = .ok (a.setIfInBounds t x) := by
    intro d a t x h ht
    unfold wr; rw [if_pos (by rw [h.size]; exact ht)]
  have h0 := h.put (s := s) (x := v.x0) (by omega) (hv 0 (by omega))
  have h1 := h0.put (s := s + 1) (x := v.x1) (by omega) (hv 1 (by omega))
  have h2 := h1.put (s := s + 1 + 1) (x := v.x2) (by omega) (hv 2 (by omega))
  have h3 := h2.put (s := s + 1 + 1 + 1) (x := v.x3) (by omega) (hv 3 (by omega))
  simp only [putList, wp_bind]
  rw [w h (by omega), wp_ok, w h0 (by omega), wp_ok, w h1 (by omega), wp_ok, w h2 (by omega),
    wp_ok, wp_ok]
  refine hP _ (h3.congr fun i hi => ?_)
  by_cases hdi : d i
  · simp [hdi]
  · simp only [hdi, false_or]; omega

/-! ### loops -/

/-- A loop with `N` iterations. -/
theorem wp_jloop {σ : Type} {E : Err → Prop} {body : σ → M (σ × Bool)} {P : σ → Prop}
    (Inv : Nat → σ → Prop) {N fuel : Nat} {s : σ} (hN : 0 < N) (hf : N ≤ fuel) (h0 : Inv 0 s)
    (hstep : ∀ c s, c < N → Inv c s →
      Wp E (body s) (fun r => r.2 = decide (c + 1 < N) ∧ Inv (c + 1) r.1))
    (hP : ∀ s, Inv N s → P s) : Wp E (jloop body fuel s) P := by
  have key : ∀ m c fuel s, c + m + 1 = N → m + 1 ≤ fuel → Inv c s → Wp E (jloop body fuel s) P := by
    intro m
    induction m with
    | zero =>
      intro c fuel s hc hf hi
      obtain ⟨fuel, rfl⟩ : ∃ k, fuel = k + 1 := ⟨fuel - 1, by omega⟩
      unfold jloop
      rw [wp_bind]
      refine (hstep c s (by omega) hi).mono ?_
      rintro ⟨s', b⟩ ⟨hb, hi'⟩
      simp only at hb hi' ⊢
      rw [decide_eq_false (by omega)] at hb
      subst hb
      exact wp_pure.2 (hP s' (by rw [← hc]; exact hi'))
    | succ m ih =>
      intro c fuel s hc hf hi
      obtain ⟨fuel, rfl⟩ : ∃ k, fuel = k + 1 := ⟨fuel - 1, by omega⟩
      unfold jloop
      rw [wp_bind]
      refine (hstep c s (by omega) hi).mono ?_
      rintro ⟨s', b⟩ ⟨hb, hi'⟩
      simp only at hb hi' ⊢
      rw [decide_eq_true (by omega)] at hb
      subst hb
      exact ih (c + 1) fuel s' (by omega) (by omega) hi'
  exact key (N - 1) 0 fuel s (by omega) (by omega) h0

end Asm
