import Verif.Proofs.AsmProduct1024
import Verif.Proofs.RedWideData

/-
The products of src/ntt_red<n>.c on operands in `[-25000, 25000]`.  They leave operands in the same interval, so they can be
called again on the arrays left by previous calls.  The bounds on the butterflies follow from the actual tables.
-/

namespace NttRed
open C NTT Spec Tables
open AsmProducts (block_lo block_hi run_ct_std2rev_blocks)

/-! ### Absolute values of the table entries -/

/-- Absolute value of the residue of `ψ^e / 3` in `[-6144, 6144]`. -/
def absTw (ψ e : Nat) : Nat :=
  let w := 8193 * ψ ^ e % 12289
  if w ≤ 6144 then w else 12289 - w

theorem absTw_le (ψ e : Nat) : absTw ψ e ≤ 6144 := by
  unfold absTw
  generalize 8193 * ψ ^ e = N
  dsimp only
  split <;> omega

theorem absTw_ok {ψ e : Nat} {x : Int} (h1 : -6144 ≤ x) (h2 : x ≤ 6144) (h3 : 3 * (x : Zq) = (ψ : Zq) ^ e) :
    -(absTw ψ e : Int) ≤ x ∧ x ≤ absTw ψ e := by
  have h4 : ((x - ((8193 * ψ ^ e : Nat) : Int) : Int) : Zq) = 0 := by
    push_cast
    rw [← h3]
    have : (8193 : Zq) * 3 = 1 := by decide
    linear_combination (-(x : Zq)) * this
  rw [ZMod.intCast_zmod_eq_zero_iff_dvd] at h4
  unfold absTw
  generalize 8193 * ψ ^ e = N at *
  obtain ⟨c, hc⟩ := h4
  push_cast at hc
  dsimp only
  split <;> omega

/-- Absolute value of entry `2^m + j` of a table in standard order; `s = 0` for powers of `ψ²`, `s = 1` for mixed powers. -/
def stdW (k ψ s m j : Nat) : Nat := absTw ψ (2 ^ k / (2 * 2 ^ m) * (s + 2 * j))

/-- The same in bit-reverse order. -/
def revW (k ψ s m j : Nat) : Nat := stdW k ψ s m (rev m j)

theorem tw_exp (ψ : Zq) (s d j : Nat) : (ψ ^ s) ^ d * ((ψ ^ 2) ^ d) ^ j = ψ ^ (d * (s + 2 * j)) := by
  rw [← pow_mul, ← pow_mul, ← pow_mul, ← pow_add]; congr 1; ring

theorem stdW_ok {k ψ s : Nat} {p : Array Int} (hp : StdTable 3 ((ψ : Zq) ^ s) ((ψ : Zq) ^ 2) (-6144) 6144 k p) {m j : Nat}
    (hm : m < k) (hj : j < 2 ^ m) :
    -(stdW k ψ s m j : Int) ≤ elt p (2 ^ m + j) ∧ elt p (2 ^ m + j) ≤ stdW k ψ s m j := by
  obtain ⟨⟨h1, h2⟩, h3⟩ := hp.2 m j hm hj
  rw [tw_exp] at h3
  exact absTw_ok h1 h2 h3

theorem revW_ok {k ψ s : Nat} {p : Array Int} (hp : RevTable 3 ((ψ : Zq) ^ s) ((ψ : Zq) ^ 2) (-6144) 6144 k p) {m j : Nat}
    (hm : m < k) (hj : j < 2 ^ m) :
    -(revW k ψ s m j : Int) ≤ elt p (2 ^ m + j) ∧ elt p (2 ^ m + j) ≤ revW k ψ s m j := by
  obtain ⟨⟨h1, h2⟩, h3⟩ := hp.2 m j hm hj
  rw [tw_exp] at h3
  exact absTw_ok h1 h2 h3

/-! ### Cooley-Tukey with mixed powers, one bound for each block -/

theorem run_mulct_std2rev_blocks {k : Nat} {c ω : Zq} {p a : Array Int} {β W : Nat → Nat → Int}
    (hk : k ≤ 31) (hω : 0 < k → ω ^ 2 ^ (k - 1) = -1) (hp : RevTable 3 c ω (-6144) 6144 k p)
    (hW : ∀ m j, m < k → j < 2 ^ m → -W m j ≤ elt p (2 ^ m + j) ∧ elt p (2 ^ m + j) ≤ W m j)
    (hβ : ∀ m j, m < k → j < 2 ^ m → ∀ s, s < 2 →
      4096 * β m j + β m j * W m j + 50323455 ≤ 4096 * β (m + 1) (2 * j + s))
    (hS : ∀ m j, m < k → j < 2 ^ m → β m j * W m j ≤ 8796042698752)
    (hT : ∀ m j, m ≤ k → j < 2 ^ m → β m j ≤ 2147483647)
    (A : Nat → Zq) (ha : a.size = 2 ^ k) (hr : InRange (-β 0 0) (β 0 0) a)
    (hA : ∀ i, i < 2 ^ k → coeff a i = A i) :
    ∃ a', mulntt_red_ct_std2rev a (2 ^ k) p = .ok a' ∧ a'.size = 2 ^ k ∧
      (∀ i, i < 2 ^ k → -β k i ≤ elt a' i ∧ elt a' i ≤ β k i) ∧
      ∀ i, i < 2 ^ k → coeff a' i = evalPoly (2 ^ k) A (c * ω ^ rev k i) := by
  have key := wp_total.1 (sem_mulCtStd2rev (val := val) (E := NoErr) (bf := NttRed.ctBf) (a := a) (c := c)
    (B := fun m i x => -β m (i / 2 ^ (k - m)) ≤ x ∧ x ≤ β m (i / 2 ^ (k - m)))
    (A := A) hk hp.1 hω ?_ ?_)
  · obtain ⟨a', e, h⟩ := key
    rw [pw_elts] at h
    refine ⟨a', e, h.1, fun i hi => ?_, fun i hi => (h.2 i hi).2⟩
    have := (h.2 i hi).1
    rwa [Nat.sub_self, pow_zero, Nat.div_one] at this
  · intro m j r w hm hj hr hw
    have e1 := block_lo (j := j) hm hr
    have e2 := block_hi (j := j) hm hr
    have hz := hp.entry hm hj hw
    have hw2 := hW m j hm hj
    rw [elt_of_some hw] at hw2
    have b0 : _ ≤ 4096 * β (m + 1) (2 * j) := hβ m j hm hj 0 (by omega)
    have b1 := hβ m j hm hj 1 (by omega)
    have hs := hS m j hm hj
    have hlt : 2 * j + 1 < 2 ^ (m + 1) := by rw [pow_succ]; omega
    have t0 := hT (m + 1) (2 * j) (by omega) (by omega)
    have t1 := hT (m + 1) (2 * j + 1) (by omega) hlt
    have hh := Nat.two_pow_pos (k - 1 - m)
    refine ctBf_ct (by omega) hz.2 ?_
    rw [e1.1, e1.2, e2.1, e2.2]
    intro x y hx hy
    have hm := mul_bound hy hw2
    have hd := red_def (y * w)
    generalize y * w = z at *
    generalize Spec.red z = r at *
    generalize β m j * W m j = P at *
    unfold Safe I32
    refine ⟨⟨by omega, by omega⟩, ⟨by omega, by omega⟩, ⟨by omega, by omega⟩, ⟨by omega, by omega⟩,
      ⟨by omega, by omega⟩⟩
  · rw [pw_elts]
    refine ⟨ha, fun i hi => ⟨?_, hA i hi⟩⟩
    have := hr i (by omega)
    rwa [Nat.sub_zero, Nat.div_eq_of_lt hi]

/-! ### Gentleman-Sande, one bound for each element -/

theorem run_gs_std2rev_elts {k : Nat} {ω : Zq} {p a : Array Int} {β W : Nat → Nat → Nat}
    (hk : k ≤ 31) (hω : 0 < k → ω ^ 2 ^ (k - 1) = -1) (hp : StdTable 3 1 ω (-6144) 6144 k p)
    (hW : ∀ m j, m < k → j < 2 ^ m → -(W m j : Int) ≤ elt p (2 ^ m + j) ∧ elt p (2 ^ m + j) ≤ W m j)
    (hW' : ∀ m j, W m j ≤ 6144)
    (hβ : ∀ m, m < k → ∀ b, b < 2 ^ m → ∀ j, j < 2 ^ (k - 1 - m) →
      β m (2 * 2 ^ (k - 1 - m) * b + j) + β m (2 * 2 ^ (k - 1 - m) * b + j + 2 ^ (k - 1 - m)) ≤ 1431000000 ∧
      β m (2 * 2 ^ (k - 1 - m) * b + j) + β m (2 * 2 ^ (k - 1 - m) * b + j + 2 ^ (k - 1 - m)) ≤
        β (m + 1) (2 * 2 ^ (k - 1 - m) * b + j) ∧
      if j = 0 then
        β m (2 * 2 ^ (k - 1 - m) * b + j) + β m (2 * 2 ^ (k - 1 - m) * b + j + 2 ^ (k - 1 - m)) ≤
        β (m + 1) (2 * 2 ^ (k - 1 - m) * b + j + 2 ^ (k - 1 - m))
      else
        (β m (2 * 2 ^ (k - 1 - m) * b + j) + β m (2 * 2 ^ (k - 1 - m) * b + j + 2 ^ (k - 1 - m))) * W (k - 1 - m) j +
          50323455 ≤ 4096 * β (m + 1) (2 * 2 ^ (k - 1 - m) * b + j + 2 ^ (k - 1 - m)))
    (A : Nat → Zq) (ha : a.size = 2 ^ k) (hr : ∀ i, i < 2 ^ k → -(β 0 i : Int) ≤ elt a i ∧ elt a i ≤ β 0 i)
    (hA : ∀ i, i < 2 ^ k → coeff a i = A i) :
    ∃ a', ntt_red_gs_std2rev a (2 ^ k) p = .ok a' ∧ a'.size = 2 ^ k ∧
      (∀ i, i < 2 ^ k → -(β k i : Int) ≤ elt a' i ∧ elt a' i ≤ β k i) ∧
      ∀ i, i < 2 ^ k → coeff a' i = ntt (2 ^ k) ω A (rev k i) := by
  have key := wp_total.1 (sem_gsStd2rev (val := val) (E := NoErr) (bf0 := NttRed.bf0) (bf := NttRed.gsBf) (a := a)
    (B := fun m i x => -(β m i : Int) ≤ x ∧ x ≤ β m i) (A := A) hk hp.1 hω ?_ ?_ ?_)
  · obtain ⟨a', e, h⟩ := key
    rw [pw_elts] at h
    exact ⟨a', e, h.1, fun i hi => (h.2 i hi).1, fun i hi => (h.2 i hi).2⟩
  · intro m b hm hb
    have hh := Nat.two_pow_pos (k - 1 - m)
    obtain ⟨h1, h2, h3⟩ := hβ m hm b hb 0 hh
    rw [if_pos rfl] at h3
    rw [Nat.add_zero] at h1 h2 h3
    generalize 2 * 2 ^ (k - 1 - m) * b = s at *
    generalize 2 ^ (k - 1 - m) = h at *
    refine bf0_gs (by omega) fun x y hx hy => ?_
    unfold I32
    refine ⟨⟨by omega, by omega⟩, ⟨by omega, by omega⟩, ⟨by omega, by omega⟩, ⟨by omega, by omega⟩⟩
  · intro m b j w hm hb hj0 hj hw
    have hh := Nat.two_pow_pos (k - 1 - m)
    obtain ⟨h1, h2, h3⟩ := hβ m hm b hb j hj
    rw [if_neg (by omega)] at h3
    have hz := hp.entry (by omega) hj hw
    have hw2 := hW (k - 1 - m) j (by omega) hj
    have hw3 := hW' (k - 1 - m) j
    rw [elt_of_some hw] at hw2
    generalize W (k - 1 - m) j = v at *
    generalize 2 * 2 ^ (k - 1 - m) * b + j = s at *
    generalize 2 ^ (k - 1 - m) = h at *
    refine gsBf_gs (by omega) hz.2 fun x y hx hy => ?_
    have hm := mul_bound (x := x - y) (y := w) (B := ((β m s + β m (s + h) : Nat) : Int)) (W := (v : Int))
      ⟨by push_cast; omega, by push_cast; omega⟩ hw2
    have hp1 := Nat.mul_le_mul h1 hw3
    have hd := red_def ((x - y) * w)
    generalize (x - y) * w = z at *
    generalize Spec.red z = r at *
    rw [← Nat.cast_mul] at hm
    generalize (β m s + β m (s + h)) * v = P at *
    unfold Safe I32
    refine ⟨⟨by omega, by omega⟩, ⟨by omega, by omega⟩, ⟨by omega, by omega⟩, ⟨by omega, by omega⟩,
      ⟨by omega, by omega⟩⟩
  · rw [pw_elts]
    exact ⟨ha, fun i hi => ⟨hr i hi, hA i hi⟩⟩

/-! ### Bounds for the tables of the library -/

/-- Bounds for the elements of block `j` before round `m`, from the bounds `W` on the table; with `mixed`, the first block
is multiplied as well. -/
def blockB (W : Nat → Nat → Nat) (mixed : Bool) (start : Nat) : Nat → Nat → Nat
  | 0, _ => start
  | m + 1, j =>
    if j / 2 = 0 && !mixed then 2 * blockB W mixed start m 0 else
      (blockB W mixed start m (j / 2) * (4096 + W m (j / 2)) + 50323455) / 4096 + 1

/-- Packed bounds for element `i` before round `m`. -/
def gsB (k m i : Nat) : Nat := gsRow k m >>> (32 * i) % 4294967296

/-- The sizes and roots of the library. -/
def libRoots : List (Nat × Nat) := [(4, 1212), (8, 1002), (9, 1003), (10, 1014)]

/-- The result of the transforms of operands of the products. -/
def FWD : Nat := 52076545

theorem ctBound : ∀ z ∈ libRoots, ∀ m, m < z.1 + 1 → ∀ j, j < 2 ^ m →
    blockB (revW z.1 z.2 0) false 49786 m j ≤ FWD := by decide +kernel

theorem mulctBound : ∀ z ∈ libRoots, ∀ m, m < z.1 + 1 → ∀ j, j < 2 ^ m →
    blockB (revW z.1 z.2 1) true 25000 m j ≤ FWD := by decide +kernel

theorem gsBound0 : ∀ z ∈ libRoots, ∀ i, i < 2 ^ z.1 → 49786 ≤ gsB z.1 0 i := by decide +kernel

theorem gsBoundEnd : ∀ z ∈ libRoots, ∀ i, i < 2 ^ z.1 → gsB z.1 z.1 i ≤ FWD := by decide +kernel

theorem gsBound : ∀ z ∈ libRoots, ∀ m, m < z.1 → ∀ b, b < 2 ^ m → ∀ j, j < 2 ^ (z.1 - 1 - m) →
      gsB z.1 m (2 * 2 ^ (z.1 - 1 - m) * b + j) + gsB z.1 m (2 * 2 ^ (z.1 - 1 - m) * b + j + 2 ^ (z.1 - 1 - m)) ≤ 1431000000 ∧
      gsB z.1 m (2 * 2 ^ (z.1 - 1 - m) * b + j) + gsB z.1 m (2 * 2 ^ (z.1 - 1 - m) * b + j + 2 ^ (z.1 - 1 - m)) ≤
        gsB z.1 (m + 1) (2 * 2 ^ (z.1 - 1 - m) * b + j) ∧
      if j = 0 then
        gsB z.1 m (2 * 2 ^ (z.1 - 1 - m) * b + j) + gsB z.1 m (2 * 2 ^ (z.1 - 1 - m) * b + j + 2 ^ (z.1 - 1 - m)) ≤
        gsB z.1 (m + 1) (2 * 2 ^ (z.1 - 1 - m) * b + j + 2 ^ (z.1 - 1 - m))
      else
        (gsB z.1 m (2 * 2 ^ (z.1 - 1 - m) * b + j) + gsB z.1 m (2 * 2 ^ (z.1 - 1 - m) * b + j + 2 ^ (z.1 - 1 - m))) *
          stdW z.1 z.2 0 (z.1 - 1 - m) j +
          50323455 ≤ 4096 * gsB z.1 (m + 1) (2 * 2 ^ (z.1 - 1 - m) * b + j + 2 ^ (z.1 - 1 - m)) := by decide +kernel

end NttRed
