import Verif.Proofs.AsmElem

/-
The rounds of the transforms of src/ntt_red.c and src/ntt_asm.S as functions on index functions,
in 32-bit arithmetic.

`rnd U V t w f` is one round with stride `t`: an element of the lower half of a block of `2t` elements
becomes `U x y w`, its partner in the upper half `V x y w`.
-/

namespace Asm
open C Spec NTT Avx

/-- One round with stride `t`. -/
def rnd (U V : Int → Int → Int → Int) (t : Nat) (w f : Nat → Int) (i : Nat) : Int :=
  if i / t % 2 = 0 then U (f i) (f (i + t)) (w i) else V (f (i - t)) (f i) (w (i - t))

/-- Cooley-Tukey butterfly, lower output. -/
def ctU (x y w : Int) : Int := add32 x (mr y w)
/-- Cooley-Tukey butterfly, upper output. -/
def ctV (x y w : Int) : Int := sub32 x (mr y w)
/-- Gentleman-Sande butterfly, lower output. -/
def gsU (x y _w : Int) : Int := add32 x y
/-- Gentleman-Sande butterfly, upper output. -/
def gsV (x y w : Int) : Int := mr (sub32 x y) w

/-- Multiplier that depends on the position in the block. -/
def wA (p : Nat → Int) (t i : Nat) : Int := p (t + i % t)
/-- Multiplier that depends on the block. -/
def wB (p : Nat → Int) (T d i : Nat) : Int := p (T + i / (2 * d))

section
variable {U V : Int → Int → Int → Int} {w f g : Nat → Int}

theorem rnd_lo {t b j : Nat} (hj : j < t) :
    rnd U V t w f (2 * t * b + j) = U (f (2 * t * b + j)) (f (2 * t * b + j + t)) (w (2 * t * b + j)) := by
  unfold rnd
  rw [if_pos]
  rw [show 2 * t * b + j = j + t * (2 * b) by ring, Nat.add_mul_div_left _ _ (by omega),
    Nat.div_eq_of_lt hj]
  omega

theorem rnd_hi {t b j : Nat} (hj : j < t) :
    rnd U V t w f (2 * t * b + j + t) =
      V (f (2 * t * b + j)) (f (2 * t * b + j + t)) (w (2 * t * b + j)) := by
  unfold rnd
  rw [if_neg, show 2 * t * b + j + t - t = 2 * t * b + j by omega]
  rw [show 2 * t * b + j + t = j + t * (2 * b + 1) by ring, Nat.add_mul_div_left _ _ (by omega),
    Nat.div_eq_of_lt hj]
  omega

/-- A round inside a block of `L` elements. -/
theorem rnd_shift {t L e : Nat} (hL : L = 2 * t * e) (ht : 0 < t) (c : Nat) :
    (fun j => rnd U V t w f (L * c + j)) =
      rnd U V t (fun j => w (L * c + j)) (fun j => f (L * c + j)) := by
  funext j
  have h : (L * c + j) / t = j / t + 2 * (e * c) := by
    rw [hL, show 2 * t * e * c + j = j + t * (2 * (e * c)) by ring, Nat.add_mul_div_left _ _ ht]
  unfold rnd
  rw [h, Nat.add_mul_mod_self_left]
  split
  · rw [Nat.add_assoc]
  · have hj : t ≤ j := by
      by_contra hh
      rw [Nat.div_eq_of_lt (by omega)] at *
      omega
    rw [show L * c + j - t = L * c + (j - t) by omega]

theorem rnd_congr {t : Nat} {w' : Nat → Int} (hw : ∀ i, w i = w' i) : rnd U V t w f = rnd U V t w' f := by
  rw [show w = w' from funext hw]

end

theorem I32_ctU (x y w : Int) : I32 (ctU x y w) := I32_toI32 _
theorem I32_ctV (x y w : Int) : I32 (ctV x y w) := I32_toI32 _
theorem I32_gsU (x y w : Int) : I32 (gsU x y w) := I32_toI32 _
theorem I32_gsV (x y w : Int) : I32 (gsV x y w) := I32_toI32 _

/-- Rounds of the Cooley-Tukey transform, bit-reverse to standard order. -/
def FctA (p f : Nat → Int) : Nat → Nat → Int
  | 0 => f
  | m + 1 => rnd ctU ctV (2 ^ m) (wA p (2 ^ m)) (FctA p f m)

/-- Rounds of the Cooley-Tukey transform, standard to bit-reverse order. -/
def FctB (k : Nat) (p f : Nat → Int) : Nat → Nat → Int
  | 0 => f
  | m + 1 => rnd ctU ctV (2 ^ (k - 1 - m)) (wB p (2 ^ m) (2 ^ (k - 1 - m))) (FctB k p f m)

/-- Rounds of the Gentleman-Sande transform, bit-reverse to standard order. -/
def FgsB (k : Nat) (p f : Nat → Int) : Nat → Nat → Int
  | 0 => f
  | m + 1 => rnd gsU gsV (2 ^ m) (wB p (2 ^ (k - 1 - m)) (2 ^ m)) (FgsB k p f m)

/-- Rounds of the Gentleman-Sande transform, standard to bit-reverse order. -/
def FgsA (k : Nat) (p f : Nat → Int) : Nat → Nat → Int
  | 0 => f
  | m + 1 => rnd gsU gsV (2 ^ (k - 1 - m)) (wA p (2 ^ (k - 1 - m))) (FgsA k p f m)

section
variable {k : Nat} {p f : Nat → Int}

theorem I32_FctA (hf : ∀ i, I32 (f i)) (m i : Nat) : I32 (FctA p f m i) := by
  cases m with
  | zero => exact hf i
  | succ m => unfold FctA rnd; split <;> exact I32_toI32 _

theorem I32_FctB (hf : ∀ i, I32 (f i)) (m i : Nat) : I32 (FctB k p f m i) := by
  cases m with
  | zero => exact hf i
  | succ m => unfold FctB rnd; split <;> exact I32_toI32 _

end

/-! ### the C transforms, when they return -/

section
variable {n s k : Nat} {Pre Post : Nat → Int → Prop}

/-- Tolerate every error. -/
abbrev AnyErr : Err → Prop := fun _ => True

theorem wp_i32_any {x : Int} {P : Int → Prop} (h : I32 x → P x) : Wp AnyErr (i32 x) P := by
  unfold i32; split
  · rename_i hx; exact wp_ok.2 (h hx)
  · exact wp_error.2 trivial

theorem set_rd {a : Array Int} {v x : Int} (h : a[s]? = some x) (hsk : s ≠ k) :
    (a.setIfInBounds k v)[s]? = some x := by
  rw [Array.getElem?_setIfInBounds_ne (by omega)]; exact h

theorem add32_of {x y : Int} (h : I32 (x + y)) : x + y = add32 x y := (NttRed.toI32_of h).symm
theorem sub32_of {x y : Int} (h : I32 (x - y)) : x - y = sub32 x y := (NttRed.toI32_of h).symm

theorem ctBf_any {w : Int} (hsk : s ≠ k) (hk : k < n) (hs : s < n)
    (hU : ∀ x y, Pre s x → Pre k y → Post s (ctU x y w))
    (hV : ∀ x y, Pre s x → Pre k y → Post k (ctV x y w)) :
    BfSpec AnyErr (NttRed.ctBf w s k) n s k Pre Post := by
  intro a x y ha hx hy hpx hpy
  unfold NttRed.ctBf
  simp only [wp_bind]
  refine wp_rd_some hy (wp_mul_red.mono ?_)
  rintro _ rfl
  refine wp_rd_some hx (wp_i32_any fun h1 => wp_wr (by omega) ?_)
  refine wp_rd_some (set_rd hx hsk) (wp_i32_any fun h2 => wp_wr (by simp; omega) ?_)
  rw [add32_of h2, sub32_of h1]
  exact ⟨_, _, rfl, hU x y hpx hpy, hV x y hpx hpy⟩

theorem bf0_any_ct (hsk : s ≠ k) (hk : k < n) (hs : s < n)
    (hy : ∀ y, Pre k y → I32 y)
    (hU : ∀ x y, Pre s x → Pre k y → Post s (ctU x y (-4096)))
    (hV : ∀ x y, Pre s x → Pre k y → Post k (ctV x y (-4096))) :
    BfSpec AnyErr (NttRed.bf0 s k) n s k Pre Post := by
  intro a x y ha hx hy' hpx hpy
  unfold NttRed.bf0
  simp only [wp_bind]
  refine wp_rd_some hy' (wp_rd_some hx (wp_i32_any fun h1 => wp_wr (by omega) ?_))
  refine wp_rd_some (set_rd hx hsk) (wp_i32_any fun h2 => wp_wr (by simp; omega) ?_)
  have e : mr y (-4096) = y := mr_one (hy y hpy)
  have h3 := hU x y hpx hpy
  have h4 := hV x y hpx hpy
  unfold ctU ctV at *
  rw [e] at h3 h4
  rw [add32_of h2, sub32_of h1]
  exact ⟨_, _, rfl, h3, h4⟩

theorem gsBf_any {w : Int} (hsk : s ≠ k) (hk : k < n) (hs : s < n)
    (hU : ∀ x y, Pre s x → Pre k y → Post s (gsU x y w))
    (hV : ∀ x y, Pre s x → Pre k y → Post k (gsV x y w)) :
    BfSpec AnyErr (NttRed.gsBf w s k) n s k Pre Post := by
  intro a x y ha hx hy hpx hpy
  unfold NttRed.gsBf
  simp only [wp_bind]
  refine wp_rd_some hy (wp_rd_some hx (wp_i32_any fun h1 => wp_mul_red.mono ?_))
  rintro _ rfl
  refine wp_wr (by omega) ?_
  refine wp_rd_some (set_rd hx hsk) (wp_i32_any fun h2 => wp_wr (by simp; omega) ?_)
  rw [add32_of h2, sub32_of h1]
  exact ⟨_, _, rfl, hU x y hpx hpy, hV x y hpx hpy⟩

theorem bf0_any_gs (hsk : s ≠ k) (hk : k < n) (hs : s < n)
    (hU : ∀ x y, Pre s x → Pre k y → Post s (gsU x y (-4096)))
    (hV : ∀ x y, Pre s x → Pre k y → Post k (gsV x y (-4096))) :
    BfSpec AnyErr (NttRed.bf0 s k) n s k Pre Post := by
  intro a x y ha hx hy' hpx hpy
  unfold NttRed.bf0
  simp only [wp_bind]
  refine wp_rd_some hy' (wp_rd_some hx (wp_i32_any fun h1 => wp_wr (by omega) ?_))
  refine wp_rd_some (set_rd hx hsk) (wp_i32_any fun h2 => wp_wr (by simp; omega) ?_)
  have e : mr (sub32 x y) (-4096) = sub32 x y := mr_one (I32_sub32 _ _)
  have h3 := hU x y hpx hpy
  have h4 := hV x y hpx hpy
  unfold gsU gsV at *
  rw [e] at h4
  rw [add32_of h2, sub32_of h1]
  exact ⟨_, _, rfl, h3, h4⟩

end

section
variable {k : Nat} {p a a' : Array Int}

/-- The entries used for the multiplications that the plain versions skip. -/
def UnitHeads (k : Nat) (p : Array Int) : Prop := ∀ m, m < k → elt p (2 ^ m) = -4096

theorem pair_lt2 {m b j : Nat} (hm : m < k) (hb : b < 2 ^ (k - 1 - m)) (hj : j < 2 ^ m) :
    2 * 2 ^ m * b + j + 2 ^ m < 2 ^ k := by
  have h1 : 2 ^ k = 2 * 2 ^ m * 2 ^ (k - 1 - m) := pow_split hm
  have h2 : 2 * 2 ^ m * (b + 1) ≤ 2 * 2 ^ m * 2 ^ (k - 1 - m) := Nat.mul_le_mul_left _ hb
  have h3 : 2 * 2 ^ m * (b + 1) = 2 * 2 ^ m * b + 2 * 2 ^ m := by ring
  omega

theorem pair_lt3 {m b j : Nat} (hm : m < k) (hb : b < 2 ^ m) (hj : j < 2 ^ (k - 1 - m)) :
    2 * 2 ^ (k - 1 - m) * b + j + 2 ^ (k - 1 - m) < 2 ^ k :=
  pair_lt2 (m := k - 1 - m) (by omega) (by rw [show k - 1 - (k - 1 - m) = m by omega]; exact hb) hj

theorem wA_lo {q : Nat → Int} {t b j : Nat} (hj : j < t) : wA q t (2 * t * b + j) = q (t + j) := by
  unfold wA; rw [lo_mod hj]

theorem wB_lo {q : Nat → Int} {T t b j : Nat} (hj : j < t) : wB q T t (2 * t * b + j) = q (T + b) := by
  unfold wB; rw [lo_div hj]

theorem c_mulct_rev2std (hk : k ≤ 31) (hp : 2 ^ k ≤ p.size) (ha : a.size = 2 ^ k)
    (h : NttRed.mulntt_red_ct_rev2std a (2 ^ k) p = .ok a') :
    Is (2 ^ k) (FctA (elt p) (elt a) k) a' := by
  refine is_of_pw (of_wp h (wp_mulCtRev2std (P := fun m i x => x = FctA (elt p) (elt a) m i) hk hp ?_
    (pw_of_is (Is.self ha))))
  intro m b j w hm hb hj hw
  have hlt := pair_lt2 hm hb hj
  have ht := Nat.two_pow_pos m
  refine ctBf_any (by omega) hlt (by omega) ?_ ?_ <;> rintro x y rfl rfl
  · rw [FctA, rnd_lo hj, wA_lo hj, elt_of_some hw]
  · rw [FctA, rnd_hi hj, wA_lo hj, elt_of_some hw]

theorem c_ct_rev2std (hk : k ≤ 31) (hp : 2 ^ k ≤ p.size) (hu : UnitHeads k p) (ha : a.size = 2 ^ k)
    (hr : ∀ i, I32 (elt a i)) (h : NttRed.ntt_red_ct_rev2std a (2 ^ k) p = .ok a') :
    Is (2 ^ k) (FctA (elt p) (elt a) k) a' := by
  refine is_of_pw (of_wp h (wp_ctRev2std (P := fun m i x => x = FctA (elt p) (elt a) m i) hk hp ?_ ?_
    (pw_of_is (Is.self ha))))
  · intro m b hm hb
    have ht := Nat.two_pow_pos m
    have hlt := pair_lt2 (j := 0) hm hb ht
    have e := rnd_lo (U := ctU) (V := ctV) (w := wA (elt p) (2 ^ m)) (f := FctA (elt p) (elt a) m)
      (b := b) ht
    have e' := rnd_hi (U := ctU) (V := ctV) (w := wA (elt p) (2 ^ m)) (f := FctA (elt p) (elt a) m)
      (b := b) ht
    rw [wA_lo ht, Nat.add_zero, Nat.add_zero, hu m hm] at e e'
    refine bf0_any_ct (by omega) (by omega) (by omega) ?_ ?_ ?_
    · rintro y rfl; exact I32_FctA hr m _
    · rintro x y rfl rfl; exact e.symm
    · rintro x y rfl rfl; exact e'.symm
  · intro m b j w hm hb _ hj hw
    have hlt := pair_lt2 hm hb hj
    have ht := Nat.two_pow_pos m
    refine ctBf_any (by omega) hlt (by omega) ?_ ?_ <;> rintro x y rfl rfl
    · rw [FctA, rnd_lo hj, wA_lo hj, elt_of_some hw]
    · rw [FctA, rnd_hi hj, wA_lo hj, elt_of_some hw]

theorem c_mulct_std2rev (hk : k ≤ 31) (hp : 2 ^ k ≤ p.size) (ha : a.size = 2 ^ k)
    (h : NttRed.mulntt_red_ct_std2rev a (2 ^ k) p = .ok a') :
    Is (2 ^ k) (FctB k (elt p) (elt a) k) a' := by
  refine is_of_pw (of_wp h (wp_mulCtStd2rev (P := fun m i x => x = FctB k (elt p) (elt a) m i) hk hp ?_
    (pw_of_is (Is.self ha))))
  intro m j r w hm hj hr hw
  have hlt := pair_lt3 hm hj hr
  have ht := Nat.two_pow_pos (k - 1 - m)
  refine ctBf_any (by omega) hlt (by omega) ?_ ?_ <;> rintro x y rfl rfl
  · rw [FctB, rnd_lo hr, wB_lo hr, elt_of_some hw]
  · rw [FctB, rnd_hi hr, wB_lo hr, elt_of_some hw]

theorem c_ct_std2rev (hk : k ≤ 31) (hp : 2 ^ k ≤ p.size) (hu : UnitHeads k p) (ha : a.size = 2 ^ k)
    (hr : ∀ i, I32 (elt a i)) (h : NttRed.ntt_red_ct_std2rev a (2 ^ k) p = .ok a') :
    Is (2 ^ k) (FctB k (elt p) (elt a) k) a' := by
  refine is_of_pw (of_wp h (wp_ctStd2rev (P := fun m i x => x = FctB k (elt p) (elt a) m i) hk hp ?_ ?_
    (pw_of_is (Is.self ha))))
  · intro m r hm hrr
    have ht := Nat.two_pow_pos (k - 1 - m)
    have hlt := pair_lt3 (b := 0) hm (Nat.two_pow_pos m) hrr
    have e := rnd_lo (U := ctU) (V := ctV) (w := wB (elt p) (2 ^ m) (2 ^ (k - 1 - m)))
      (f := FctB k (elt p) (elt a) m) (b := 0) hrr
    have e' := rnd_hi (U := ctU) (V := ctV) (w := wB (elt p) (2 ^ m) (2 ^ (k - 1 - m)))
      (f := FctB k (elt p) (elt a) m) (b := 0) hrr
    rw [wB_lo hrr] at e e'
    simp only [Nat.mul_zero, Nat.zero_add, Nat.add_zero, hu m hm] at e e' hlt
    refine bf0_any_ct (by omega) (by omega) (by omega) ?_ ?_ ?_
    · rintro y rfl; exact I32_FctB hr m _
    · rintro x y rfl rfl; exact e.symm
    · rintro x y rfl rfl; exact e'.symm
  · intro m j r w hm _ hj hr hw
    have hlt := pair_lt3 hm hj hr
    have ht := Nat.two_pow_pos (k - 1 - m)
    refine ctBf_any (by omega) hlt (by omega) ?_ ?_ <;> rintro x y rfl rfl
    · rw [FctB, rnd_lo hr, wB_lo hr, elt_of_some hw]
    · rw [FctB, rnd_hi hr, wB_lo hr, elt_of_some hw]

theorem c_gsmul_rev2std (hk : k ≤ 31) (hp : 2 ^ k ≤ p.size) (ha : a.size = 2 ^ k)
    (h : NttRed.nttmul_red_gs_rev2std a (2 ^ k) p = .ok a') :
    Is (2 ^ k) (FgsB k (elt p) (elt a) k) a' := by
  refine is_of_pw (of_wp h (wp_gsMulRev2std (P := fun m i x => x = FgsB k (elt p) (elt a) m i) hk hp ?_
    (pw_of_is (Is.self ha))))
  intro m j r w hm hj hr hw
  have hlt := pair_lt2 hm hj hr
  have ht := Nat.two_pow_pos m
  refine gsBf_any (by omega) hlt (by omega) ?_ ?_ <;> rintro x y rfl rfl
  · rw [FgsB, rnd_lo hr, wB_lo hr, elt_of_some hw]
  · rw [FgsB, rnd_hi hr, wB_lo hr, elt_of_some hw]

theorem c_gs_rev2std (hk : k ≤ 31) (hp : 2 ^ k ≤ p.size) (hu : UnitHeads k p) (ha : a.size = 2 ^ k)
    (h : NttRed.ntt_red_gs_rev2std a (2 ^ k) p = .ok a') :
    Is (2 ^ k) (FgsB k (elt p) (elt a) k) a' := by
  refine is_of_pw (of_wp h (wp_gsRev2std (P := fun m i x => x = FgsB k (elt p) (elt a) m i) hk hp ?_ ?_
    (pw_of_is (Is.self ha))))
  · intro m r hm hrr
    have ht := Nat.two_pow_pos m
    have hlt := pair_lt2 (b := 0) hm (Nat.two_pow_pos (k - 1 - m)) hrr
    have e := rnd_lo (U := gsU) (V := gsV) (w := wB (elt p) (2 ^ (k - 1 - m)) (2 ^ m))
      (f := FgsB k (elt p) (elt a) m) (b := 0) hrr
    have e' := rnd_hi (U := gsU) (V := gsV) (w := wB (elt p) (2 ^ (k - 1 - m)) (2 ^ m))
      (f := FgsB k (elt p) (elt a) m) (b := 0) hrr
    rw [wB_lo hrr] at e e'
    simp only [Nat.mul_zero, Nat.zero_add, Nat.add_zero, hu (k - 1 - m) (by omega)] at e e' hlt
    refine bf0_any_gs (by omega) (by omega) (by omega) ?_ ?_
    · rintro x y rfl rfl; exact e.symm
    · rintro x y rfl rfl; exact e'.symm
  · intro m j r w hm _ hj hr hw
    have hlt := pair_lt2 hm hj hr
    have ht := Nat.two_pow_pos m
    refine gsBf_any (by omega) hlt (by omega) ?_ ?_ <;> rintro x y rfl rfl
    · rw [FgsB, rnd_lo hr, wB_lo hr, elt_of_some hw]
    · rw [FgsB, rnd_hi hr, wB_lo hr, elt_of_some hw]

theorem c_gsmul_std2rev (hk : k ≤ 31) (hp : 2 ^ k ≤ p.size) (ha : a.size = 2 ^ k)
    (h : NttRed.nttmul_red_gs_std2rev a (2 ^ k) p = .ok a') :
    Is (2 ^ k) (FgsA k (elt p) (elt a) k) a' := by
  refine is_of_pw (of_wp h (wp_gsMulStd2rev (P := fun m i x => x = FgsA k (elt p) (elt a) m i) hk hp ?_
    (pw_of_is (Is.self ha))))
  intro m b j w hm hb hj hw
  have hlt := pair_lt3 hm hb hj
  have ht := Nat.two_pow_pos (k - 1 - m)
  refine gsBf_any (by omega) hlt (by omega) ?_ ?_ <;> rintro x y rfl rfl
  · rw [FgsA, rnd_lo hj, wA_lo hj, elt_of_some hw]
  · rw [FgsA, rnd_hi hj, wA_lo hj, elt_of_some hw]

theorem c_gs_std2rev (hk : k ≤ 31) (hp : 2 ^ k ≤ p.size) (hu : UnitHeads k p) (ha : a.size = 2 ^ k)
    (h : NttRed.ntt_red_gs_std2rev a (2 ^ k) p = .ok a') :
    Is (2 ^ k) (FgsA k (elt p) (elt a) k) a' := by
  refine is_of_pw (of_wp h (wp_gsStd2rev (P := fun m i x => x = FgsA k (elt p) (elt a) m i) hk hp ?_ ?_
    (pw_of_is (Is.self ha))))
  · intro m b hm hb
    have ht := Nat.two_pow_pos (k - 1 - m)
    have hlt := pair_lt3 (j := 0) hm hb ht
    have e := rnd_lo (U := gsU) (V := gsV) (w := wA (elt p) (2 ^ (k - 1 - m)))
      (f := FgsA k (elt p) (elt a) m) (b := b) ht
    have e' := rnd_hi (U := gsU) (V := gsV) (w := wA (elt p) (2 ^ (k - 1 - m)))
      (f := FgsA k (elt p) (elt a) m) (b := b) ht
    rw [wA_lo ht, Nat.add_zero, Nat.add_zero, hu (k - 1 - m) (by omega)] at e e'
    refine bf0_any_gs (by omega) (by omega) (by omega) ?_ ?_
    · rintro x y rfl rfl; exact e.symm
    · rintro x y rfl rfl; exact e'.symm
  · intro m b j w hm hb _ hj hw
    have hlt := pair_lt3 hm hb hj
    have ht := Nat.two_pow_pos (k - 1 - m)
    refine gsBf_any (by omega) hlt (by omega) ?_ ?_ <;> rintro x y rfl rfl
    · rw [FgsA, rnd_lo hj, wA_lo hj, elt_of_some hw]
    · rw [FgsA, rnd_hi hj, wA_lo hj, elt_of_some hw]

end

end Asm
