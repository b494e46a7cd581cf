import Verif.Math.Transform

/-
The loop nests compute the transforms, for any butterfly with the right meaning.

`val : α → R` gives the meaning of array elements in a commutative ring.  `CtBf` says that a
butterfly on `(s,k)` maps `(x,y)` to `(x + w*y, x - w*y)`, `GsBf` that it maps `(x,y)` to
`(x + y, w*(x - y))`.  `B m i` is an additional property of element `i` at the start of round `m`
(a bound, say).
-/

namespace NTT
open C Spec

variable {α τ R : Type} [CommRing R]

/-- Cooley-Tukey butterfly with twiddle factor `w`. -/
def CtBf (E : Err → Prop) (val : α → R) (bf : Array α → M (Array α)) (n s k : Nat)
    (B B' : Nat → α → Prop) (w : R) : Prop :=
  ∀ a x y, a.size = n → a[s]? = some x → a[k]? = some y → B s x → B k y →
    Wp E (bf a) (fun a' => ∃ u v, a' = (a.setIfInBounds k v).setIfInBounds s u ∧
      (B' s u ∧ val u = val x + w * val y) ∧ (B' k v ∧ val v = val x - w * val y))

/-- Gentleman-Sande butterfly with twiddle factor `w`. -/
def GsBf (E : Err → Prop) (val : α → R) (bf : Array α → M (Array α)) (n s k : Nat)
    (B B' : Nat → α → Prop) (w : R) : Prop :=
  ∀ a x y, a.size = n → a[s]? = some x → a[k]? = some y → B s x → B k y →
    Wp E (bf a) (fun a' => ∃ u v, a' = (a.setIfInBounds k v).setIfInBounds s u ∧
      (B' s u ∧ val u = val x + val y) ∧ (B' k v ∧ val v = w * (val x - val y)))

theorem CtBf.spec {E : Err → Prop} {val : α → R} {bf : Array α → M (Array α)} {n s k : Nat}
    {B B' : Nat → α → Prop} {w : R} (h : CtBf E val bf n s k B B' w) {f g : Nat → R}
    (h1 : g s = f s + w * f k) (h2 : g k = f s - w * f k) :
    BfSpec E bf n s k (fun i x => B i x ∧ val x = f i) (fun i x => B' i x ∧ val x = g i) := by
  intro a x y ha hx hy hbx hby
  refine (h a x y ha hx hy hbx.1 hby.1).mono ?_
  rintro a' ⟨u, v, e, ⟨hu, hu'⟩, hv, hv'⟩
  refine ⟨u, v, e, ⟨hu, ?_⟩, hv, ?_⟩
  · rw [hu', h1, hbx.2, hby.2]
  · rw [hv', h2, hbx.2, hby.2]

theorem GsBf.spec {E : Err → Prop} {val : α → R} {bf : Array α → M (Array α)} {n s k : Nat}
    {B B' : Nat → α → Prop} {w : R} (h : GsBf E val bf n s k B B' w) {f g : Nat → R}
    (h1 : g s = f s + f k) (h2 : g k = w * (f s - f k)) :
    BfSpec E bf n s k (fun i x => B i x ∧ val x = f i) (fun i x => B' i x ∧ val x = g i) := by
  intro a x y ha hx hy hbx hby
  refine (h a x y ha hx hy hbx.1 hby.1).mono ?_
  rintro a' ⟨u, v, e, ⟨hu, hu'⟩, hv, hv'⟩
  refine ⟨u, v, e, ⟨hu, ?_⟩, hv, ?_⟩
  · rw [hu', h1, hbx.2, hby.2]
  · rw [hv', h2, hbx.2, hby.2]

theorem tw_one_zero (k m : Nat) (ω : R) : tw k 1 ω m 0 = 1 := by simp [tw]

section
variable {E : Err → Prop} {val : α → R} {k : Nat} {B : Nat → Nat → α → Prop}
  {bf0 : Nat → Nat → Array α → M (Array α)} {bf : τ → Nat → Nat → Array α → M (Array α)}
  {p : Array τ} {a : Array α} {c ω : R} {A : Nat → R}

/-! ### Cooley-Tukey, reverse to standard order -/

theorem sem_ctRev2std (hk : k ≤ 31) (hp : 2 ^ k ≤ p.size) (hω : 0 < k → ω ^ 2 ^ (k - 1) = -1)
    (h0 : ∀ m b, m < k → b < 2 ^ (k - 1 - m) →
      CtBf E val (bf0 (2 * 2 ^ m * b) (2 * 2 ^ m * b + 2 ^ m)) (2 ^ k)
        (2 * 2 ^ m * b) (2 * 2 ^ m * b + 2 ^ m) (B m) (B (m + 1)) 1)
    (hbf : ∀ m b j w, m < k → b < 2 ^ (k - 1 - m) → 0 < j → j < 2 ^ m →
      p[2 ^ m + j]? = some w →
      CtBf E val (bf w (2 * 2 ^ m * b + j) (2 * 2 ^ m * b + j + 2 ^ m)) (2 ^ k)
        (2 * 2 ^ m * b + j) (2 * 2 ^ m * b + j + 2 ^ m) (B m) (B (m + 1)) (tw k 1 ω m j))
    (ha : PW (2 ^ k) (fun i x => B 0 i x ∧ val x = A (rev k i)) a) :
    Wp E (ctRev2std bf0 bf a (2 ^ k) p)
      (PW (2 ^ k) (fun i x => B k i x ∧ val x = ntt (2 ^ k) ω A i)) := by
  refine (wp_ctRev2std (P := fun m i x => B m i x ∧ val x = ctF k 1 ω A m i) hk hp ?_ ?_ ?_).mono ?_
  · intro m b hm hb
    have hst := ctF_step k 1 ω A m b 0 hm (hω (by omega)) (Nat.two_pow_pos m)
    rw [tw_one_zero] at hst
    exact (h0 m b hm hb).spec hst.1 hst.2
  · intro m b j w hm hb hj0 hj hw
    have hst := ctF_step k 1 ω A m b j hm (hω (by omega)) hj
    exact (hbf m b j w hm hb hj0 hj hw).spec hst.1 hst.2
  · exact ha.mono (fun i x _ h => ⟨h.1, by rw [h.2, ctF_zero]⟩)
  · intro a' ha'
    exact ha'.mono (fun i x hi h => ⟨h.1, by rw [h.2, ctF_last _ _ _ _ _ hi, one_mul]; rfl⟩)

theorem sem_ctRev2stdV1 (hk : k ≤ 31) (hp : 2 ^ k ≤ p.size) (hω : 0 < k → ω ^ 2 ^ (k - 1) = -1)
    (h0 : ∀ m b, m < k → b < 2 ^ (k - 1 - m) →
      CtBf E val (bf0 (2 * 2 ^ m * b) (2 * 2 ^ m * b + 2 ^ m)) (2 ^ k)
        (2 * 2 ^ m * b) (2 * 2 ^ m * b + 2 ^ m) (B m) (B (m + 1)) 1)
    (hbf : ∀ m b j w, m < k → b < 2 ^ (k - 1 - m) → 0 < j → j < 2 ^ m →
      p[j * 2 ^ (k - m)]? = some w →
      CtBf E val (bf w (2 * 2 ^ m * b + j) (2 * 2 ^ m * b + j + 2 ^ m)) (2 ^ k)
        (2 * 2 ^ m * b + j) (2 * 2 ^ m * b + j + 2 ^ m) (B m) (B (m + 1)) (tw k 1 ω m j))
    (ha : PW (2 ^ k) (fun i x => B 0 i x ∧ val x = A (rev k i)) a) :
    Wp E (ctRev2stdV1 bf0 bf a (2 ^ k) p)
      (PW (2 ^ k) (fun i x => B k i x ∧ val x = ntt (2 ^ k) ω A i)) := by
  refine (wp_ctRev2stdV1 (P := fun m i x => B m i x ∧ val x = ctF k 1 ω A m i) hk hp ?_ ?_ ?_).mono ?_
  · intro m b hm hb
    have hst := ctF_step k 1 ω A m b 0 hm (hω (by omega)) (Nat.two_pow_pos m)
    rw [tw_one_zero] at hst
    exact (h0 m b hm hb).spec hst.1 hst.2
  · intro m b j w hm hb hj0 hj hw
    have hst := ctF_step k 1 ω A m b j hm (hω (by omega)) hj
    exact (hbf m b j w hm hb hj0 hj hw).spec hst.1 hst.2
  · exact ha.mono (fun i x _ h => ⟨h.1, by rw [h.2, ctF_zero]⟩)
  · intro a' ha'
    exact ha'.mono (fun i x hi h => ⟨h.1, by rw [h.2, ctF_last _ _ _ _ _ hi, one_mul]; rfl⟩)

theorem sem_mulCtRev2std (hk : k ≤ 31) (hp : 2 ^ k ≤ p.size) (hω : 0 < k → ω ^ 2 ^ (k - 1) = -1)
    (hbf : ∀ m b j w, m < k → b < 2 ^ (k - 1 - m) → j < 2 ^ m →
      p[2 ^ m + j]? = some w →
      CtBf E val (bf w (2 * 2 ^ m * b + j) (2 * 2 ^ m * b + j + 2 ^ m)) (2 ^ k)
        (2 * 2 ^ m * b + j) (2 * 2 ^ m * b + j + 2 ^ m) (B m) (B (m + 1)) (tw k c ω m j))
    (ha : PW (2 ^ k) (fun i x => B 0 i x ∧ val x = A (rev k i)) a) :
    Wp E (mulCtRev2std bf a (2 ^ k) p)
      (PW (2 ^ k) (fun i x => B k i x ∧ val x = evalPoly (2 ^ k) A (c * ω ^ i))) := by
  refine (wp_mulCtRev2std (P := fun m i x => B m i x ∧ val x = ctF k c ω A m i) hk hp ?_ ?_).mono ?_
  · intro m b j w hm hb hj hw
    have hst := ctF_step k c ω A m b j hm (hω (by omega)) hj
    exact (hbf m b j w hm hb hj hw).spec hst.1 hst.2
  · exact ha.mono (fun i x _ h => ⟨h.1, by rw [h.2, ctF_zero]⟩)
  · intro a' ha'
    exact ha'.mono (fun i x hi h => ⟨h.1, by rw [h.2, ctF_last _ _ _ _ _ hi]⟩)

/-! ### Cooley-Tukey, standard to reverse order -/

theorem ctF_stepB {m j r : Nat} (hm : m < k) (hω : ω ^ 2 ^ (k - 1) = -1)
    (hr : r < 2 ^ (k - 1 - m)) :
    ctF k c ω A (m + 1) (rev k (2 * 2 ^ (k - 1 - m) * j + r)) =
      ctF k c ω A m (rev k (2 * 2 ^ (k - 1 - m) * j + r)) +
      tw k c ω m (rev m j) * ctF k c ω A m (rev k (2 * 2 ^ (k - 1 - m) * j + r + 2 ^ (k - 1 - m))) ∧
    ctF k c ω A (m + 1) (rev k (2 * 2 ^ (k - 1 - m) * j + r + 2 ^ (k - 1 - m))) =
      ctF k c ω A m (rev k (2 * 2 ^ (k - 1 - m) * j + r)) -
      tw k c ω m (rev m j) * ctF k c ω A m (rev k (2 * 2 ^ (k - 1 - m) * j + r + 2 ^ (k - 1 - m))) := by
  have hk : k = (k - 1 - m) + 1 + m := by omega
  have e1 := rev_pairB_lo (k - 1 - m) m j r hr
  have e2 := rev_pairB_hi (k - 1 - m) m j r hr
  rw [← hk] at e1 e2
  rw [e1, e2]
  exact ctF_step k c ω A m _ _ hm hω (rev_lt m j)

theorem sem_ctStd2rev (hk : k ≤ 31) (hp : 2 ^ k ≤ p.size) (hω : 0 < k → ω ^ 2 ^ (k - 1) = -1)
    (h0 : ∀ m r, m < k → r < 2 ^ (k - 1 - m) →
      CtBf E val (bf0 r (r + 2 ^ (k - 1 - m))) (2 ^ k) r (r + 2 ^ (k - 1 - m)) (B m) (B (m + 1)) 1)
    (hbf : ∀ m j r w, m < k → 0 < j → j < 2 ^ m → r < 2 ^ (k - 1 - m) →
      p[2 ^ m + j]? = some w →
      CtBf E val
        (bf w (2 * 2 ^ (k - 1 - m) * j + r) (2 * 2 ^ (k - 1 - m) * j + r + 2 ^ (k - 1 - m)))
        (2 ^ k) (2 * 2 ^ (k - 1 - m) * j + r) (2 * 2 ^ (k - 1 - m) * j + r + 2 ^ (k - 1 - m))
        (B m) (B (m + 1)) (tw k 1 ω m (rev m j)))
    (ha : PW (2 ^ k) (fun i x => B 0 i x ∧ val x = A i) a) :
    Wp E (ctStd2rev bf0 bf a (2 ^ k) p)
      (PW (2 ^ k) (fun i x => B k i x ∧ val x = ntt (2 ^ k) ω A (rev k i))) := by
  refine (wp_ctStd2rev (P := fun m i x => B m i x ∧ val x = ctF k 1 ω A m (rev k i)) hk hp ?_ ?_
    ?_).mono ?_
  · intro m r hm hr
    have hst := ctF_stepB (c := 1) (A := A) (j := 0) hm (hω (by omega)) hr
    rw [rev_zero, tw_one_zero, Nat.mul_zero, Nat.zero_add] at hst
    exact (h0 m r hm hr).spec hst.1 hst.2
  · intro m j r w hm hj0 hj hr hw
    have hst := ctF_stepB (c := 1) (A := A) (j := j) hm (hω (by omega)) hr
    exact (hbf m j r w hm hj0 hj hr hw).spec hst.1 hst.2
  · exact ha.mono (fun i x hi h => ⟨h.1, by rw [h.2, ctF_zero, rev_rev k i hi]⟩)
  · intro a' ha'
    exact ha'.mono (fun i x hi h => ⟨h.1, by rw [h.2, ctF_last _ _ _ _ _ (rev_lt k i), one_mul]; rfl⟩)

theorem sem_mulCtStd2rev (hk : k ≤ 31) (hp : 2 ^ k ≤ p.size) (hω : 0 < k → ω ^ 2 ^ (k - 1) = -1)
    (hbf : ∀ m j r w, m < k → j < 2 ^ m → r < 2 ^ (k - 1 - m) →
      p[2 ^ m + j]? = some w →
      CtBf E val
        (bf w (2 * 2 ^ (k - 1 - m) * j + r) (2 * 2 ^ (k - 1 - m) * j + r + 2 ^ (k - 1 - m)))
        (2 ^ k) (2 * 2 ^ (k - 1 - m) * j + r) (2 * 2 ^ (k - 1 - m) * j + r + 2 ^ (k - 1 - m))
        (B m) (B (m + 1)) (tw k c ω m (rev m j)))
    (ha : PW (2 ^ k) (fun i x => B 0 i x ∧ val x = A i) a) :
    Wp E (mulCtStd2rev bf a (2 ^ k) p)
      (PW (2 ^ k) (fun i x => B k i x ∧ val x = evalPoly (2 ^ k) A (c * ω ^ rev k i))) := by
  refine (wp_mulCtStd2rev (P := fun m i x => B m i x ∧ val x = ctF k c ω A m (rev k i)) hk hp ?_
    ?_).mono ?_
  · intro m j r w hm hj hr hw
    have hst := ctF_stepB (c := c) (A := A) (j := j) hm (hω (by omega)) hr
    exact (hbf m j r w hm hj hr hw).spec hst.1 hst.2
  · exact ha.mono (fun i x hi h => ⟨h.1, by rw [h.2, ctF_zero, rev_rev k i hi]⟩)
  · intro a' ha'
    exact ha'.mono (fun i x hi h => ⟨h.1, by rw [h.2, ctF_last _ _ _ _ _ (rev_lt k i)]⟩)

/-! ### Gentleman-Sande, standard to reverse order -/

theorem sem_gsStd2rev (hk : k ≤ 31) (hp : 2 ^ k ≤ p.size) (hω : 0 < k → ω ^ 2 ^ (k - 1) = -1)
    (h0 : ∀ m b, m < k → b < 2 ^ m →
      GsBf E val (bf0 (2 * 2 ^ (k - 1 - m) * b) (2 * 2 ^ (k - 1 - m) * b + 2 ^ (k - 1 - m))) (2 ^ k)
        (2 * 2 ^ (k - 1 - m) * b) (2 * 2 ^ (k - 1 - m) * b + 2 ^ (k - 1 - m)) (B m) (B (m + 1)) 1)
    (hbf : ∀ m b j w, m < k → b < 2 ^ m → 0 < j → j < 2 ^ (k - 1 - m) →
      p[2 ^ (k - 1 - m) + j]? = some w →
      GsBf E val
        (bf w (2 * 2 ^ (k - 1 - m) * b + j) (2 * 2 ^ (k - 1 - m) * b + j + 2 ^ (k - 1 - m)))
        (2 ^ k) (2 * 2 ^ (k - 1 - m) * b + j) (2 * 2 ^ (k - 1 - m) * b + j + 2 ^ (k - 1 - m))
        (B m) (B (m + 1)) (tw k 1 ω (k - 1 - m) j))
    (ha : PW (2 ^ k) (fun i x => B 0 i x ∧ val x = A i) a) :
    Wp E (gsStd2rev bf0 bf a (2 ^ k) p)
      (PW (2 ^ k) (fun i x => B k i x ∧ val x = ntt (2 ^ k) ω A (rev k i))) := by
  refine (wp_gsStd2rev (P := fun m i x => B m i x ∧ val x = gsF k 1 ω A m i) hk hp ?_ ?_ ?_).mono ?_
  · intro m b hm hb
    have hst := gsF_step k 1 ω A m b 0 hm (hω (by omega)) (Nat.two_pow_pos _)
    rw [tw_one_zero] at hst
    exact (h0 m b hm hb).spec hst.1 hst.2
  · intro m b j w hm hb hj0 hj hw
    have hst := gsF_step k 1 ω A m b j hm (hω (by omega)) hj
    exact (hbf m b j w hm hb hj0 hj hw).spec hst.1 hst.2
  · exact ha.mono (fun i x hi h => ⟨h.1, by rw [h.2, gsF_zero _ _ _ _ _ hi]⟩)
  · intro a' ha'
    exact ha'.mono (fun i x hi h => ⟨h.1, by rw [h.2, gsF_last, one_pow, one_mul]; rfl⟩)

theorem sem_gsMulStd2rev (hk : k ≤ 31) (hp : 2 ^ k ≤ p.size) (hω : 0 < k → ω ^ 2 ^ (k - 1) = -1)
    (hbf : ∀ m b j w, m < k → b < 2 ^ m → j < 2 ^ (k - 1 - m) →
      p[2 ^ (k - 1 - m) + j]? = some w →
      GsBf E val
        (bf w (2 * 2 ^ (k - 1 - m) * b + j) (2 * 2 ^ (k - 1 - m) * b + j + 2 ^ (k - 1 - m)))
        (2 ^ k) (2 * 2 ^ (k - 1 - m) * b + j) (2 * 2 ^ (k - 1 - m) * b + j + 2 ^ (k - 1 - m))
        (B m) (B (m + 1)) (tw k c ω (k - 1 - m) j))
    (ha : PW (2 ^ k) (fun i x => B 0 i x ∧ val x = A i) a) :
    Wp E (gsMulStd2rev bf a (2 ^ k) p)
      (PW (2 ^ k) (fun i x => B k i x ∧ val x = c ^ rev k i * ntt (2 ^ k) ω A (rev k i))) := by
  refine (wp_gsMulStd2rev (P := fun m i x => B m i x ∧ val x = gsF k c ω A m i) hk hp ?_ ?_).mono ?_
  · intro m b j w hm hb hj hw
    have hst := gsF_step k c ω A m b j hm (hω (by omega)) hj
    exact (hbf m b j w hm hb hj hw).spec hst.1 hst.2
  · exact ha.mono (fun i x hi h => ⟨h.1, by rw [h.2, gsF_zero _ _ _ _ _ hi]⟩)
  · intro a' ha'
    exact ha'.mono (fun i x hi h => ⟨h.1, by rw [h.2, gsF_last]; rfl⟩)

/-! ### Gentleman-Sande, reverse to standard order -/

theorem gsF_stepB {m j r : Nat} (hm : m < k) (hω : ω ^ 2 ^ (k - 1) = -1)
    (hr : r < 2 ^ m) :
    gsF k c ω A (m + 1) (rev k (2 * 2 ^ m * j + r)) =
      gsF k c ω A m (rev k (2 * 2 ^ m * j + r)) + gsF k c ω A m (rev k (2 * 2 ^ m * j + r + 2 ^ m)) ∧
    gsF k c ω A (m + 1) (rev k (2 * 2 ^ m * j + r + 2 ^ m)) =
      tw k c ω (k - 1 - m) (rev (k - 1 - m) j) *
      (gsF k c ω A m (rev k (2 * 2 ^ m * j + r)) -
        gsF k c ω A m (rev k (2 * 2 ^ m * j + r + 2 ^ m))) := by
  have hk : k = m + 1 + (k - 1 - m) := by omega
  have e1 := rev_pairB_lo m (k - 1 - m) j r hr
  have e2 := rev_pairB_hi m (k - 1 - m) j r hr
  rw [← hk] at e1 e2
  rw [e1, e2]
  exact gsF_step k c ω A m _ _ hm hω (rev_lt _ j)

theorem sem_gsRev2std (hk : k ≤ 31) (hp : 2 ^ k ≤ p.size) (hω : 0 < k → ω ^ 2 ^ (k - 1) = -1)
    (h0 : ∀ m r, m < k → r < 2 ^ m →
      GsBf E val (bf0 r (r + 2 ^ m)) (2 ^ k) r (r + 2 ^ m) (B m) (B (m + 1)) 1)
    (hbf : ∀ m j r w, m < k → 0 < j → j < 2 ^ (k - 1 - m) → r < 2 ^ m →
      p[2 ^ (k - 1 - m) + j]? = some w →
      GsBf E val (bf w (2 * 2 ^ m * j + r) (2 * 2 ^ m * j + r + 2 ^ m))
        (2 ^ k) (2 * 2 ^ m * j + r) (2 * 2 ^ m * j + r + 2 ^ m) (B m) (B (m + 1))
        (tw k 1 ω (k - 1 - m) (rev (k - 1 - m) j)))
    (ha : PW (2 ^ k) (fun i x => B 0 i x ∧ val x = A (rev k i)) a) :
    Wp E (gsRev2std bf0 bf a (2 ^ k) p)
      (PW (2 ^ k) (fun i x => B k i x ∧ val x = ntt (2 ^ k) ω A i)) := by
  refine (wp_gsRev2std (P := fun m i x => B m i x ∧ val x = gsF k 1 ω A m (rev k i)) hk hp ?_ ?_
    ?_).mono ?_
  · intro m r hm hr
    have hst := gsF_stepB (c := 1) (A := A) (j := 0) hm (hω (by omega)) hr
    rw [rev_zero, tw_one_zero, Nat.mul_zero, Nat.zero_add] at hst
    exact (h0 m r hm hr).spec hst.1 hst.2
  · intro m j r w hm hj0 hj hr hw
    have hst := gsF_stepB (c := 1) (A := A) (j := j) hm (hω (by omega)) hr
    exact (hbf m j r w hm hj0 hj hr hw).spec hst.1 hst.2
  · exact ha.mono (fun i x hi h => ⟨h.1, by rw [h.2, gsF_zero _ _ _ _ _ (rev_lt k i)]⟩)
  · intro a' ha'
    exact ha'.mono (fun i x hi h => ⟨h.1, by
      rw [h.2, gsF_last, one_pow, one_mul, rev_rev k i hi]; rfl⟩)

theorem sem_gsMulRev2std (hk : k ≤ 31) (hp : 2 ^ k ≤ p.size) (hω : 0 < k → ω ^ 2 ^ (k - 1) = -1)
    (hbf : ∀ m j r w, m < k → j < 2 ^ (k - 1 - m) → r < 2 ^ m →
      p[2 ^ (k - 1 - m) + j]? = some w →
      GsBf E val (bf w (2 * 2 ^ m * j + r) (2 * 2 ^ m * j + r + 2 ^ m))
        (2 ^ k) (2 * 2 ^ m * j + r) (2 * 2 ^ m * j + r + 2 ^ m) (B m) (B (m + 1))
        (tw k c ω (k - 1 - m) (rev (k - 1 - m) j)))
    (ha : PW (2 ^ k) (fun i x => B 0 i x ∧ val x = A (rev k i)) a) :
    Wp E (gsMulRev2std bf a (2 ^ k) p)
      (PW (2 ^ k) (fun i x => B k i x ∧ val x = c ^ i * ntt (2 ^ k) ω A i)) := by
  refine (wp_gsMulRev2std (P := fun m i x => B m i x ∧ val x = gsF k c ω A m (rev k i)) hk hp ?_
    ?_).mono ?_
  · intro m j r w hm hj hr hw
    have hst := gsF_stepB (c := c) (A := A) (j := j) hm (hω (by omega)) hr
    exact (hbf m j r w hm hj hr hw).spec hst.1 hst.2
  · exact ha.mono (fun i x hi h => ⟨h.1, by rw [h.2, gsF_zero _ _ _ _ _ (rev_lt k i)]⟩)
  · intro a' ha'
    exact ha'.mono (fun i x hi h => ⟨h.1, by rw [h.2, gsF_last, rev_rev k i hi]; rfl⟩)

end

end NTT
