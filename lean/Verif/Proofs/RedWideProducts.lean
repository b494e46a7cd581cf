import Verif.Proofs.RedWide

/-
The products of src/ntt_red<n>.c and src/ntt_red_asm<n>.c on operands in `[-25000, 25000]`: one proof for both, from the
elementwise specifications of the functions they call.
-/

namespace NttRed
open C NTT Spec Tables

/-- What a product does on operands in `[-25000, 25000]`: the result, and what is left in the operands. -/
abbrev WideSpec (k : Nat) (ψ : Zq) (a b : Array Int) (m : M (Array Int × Array Int × Array Int)) : Prop :=
  ∃ r, m = .ok r ∧ r.1.size = 2 ^ k ∧ r.2.1.size = 2 ^ k ∧ r.2.2.size = 2 ^ k ∧
    Reduced r.1 ∧ InRange (-25000) 25000 r.2.1 ∧ InRange (-25000) 25000 r.2.2 ∧
    (∀ i, i < 2 ^ k → coeff r.1 i = negacyclic (2 ^ k) (coeff a) (coeff b) i) ∧
    (∀ i, i < 2 ^ k → coeff r.2.1 i = 3 * evalPoly (2 ^ k) (coeff a) (ψ * (ψ ^ 2) ^ rev k i)) ∧
    ∀ i, i < 2 ^ k → coeff r.2.2 i = 3 * evalPoly (2 ^ k) (coeff b) (ψ * (ψ ^ 2) ^ rev k i)

/-- Specifications of the elementwise functions. -/
structure Elem (k : Nat) (shift reduce twice correct : Array Int → M (Array Int))
    (mul16 : Array Int → Array Int → M (Array Int)) (mul : Array Int → Array Int → Array Int → M (Array Int))
    (smul : Int → Array Int → M (Array Int)) : Prop where
  shift : ∀ a : Array Int, a.size = 2 ^ k → (∀ i, i < 2 ^ k → I32 (elt a i)) → ∃ a', shift a = .ok a' ∧ a'.size = 2 ^ k ∧
    ∀ i, i < 2 ^ k → elt a' i = if elt a i > 6144 then elt a i - 12289 else elt a i
  reduce : ∀ a : Array Int, a.size = 2 ^ k → (∀ i, i < 2 ^ k → I32 (elt a i)) → ∃ a', reduce a = .ok a' ∧ a'.size = 2 ^ k ∧
    ∀ i, i < 2 ^ k → elt a' i = Spec.red (elt a i)
  twice : ∀ a : Array Int, a.size = 2 ^ k → (∀ i, i < 2 ^ k → I32 (elt a i)) → ∃ a', twice a = .ok a' ∧ a'.size = 2 ^ k ∧
    ∀ i, i < 2 ^ k → elt a' i = Spec.red (Spec.red (elt a i))
  correct : ∀ a : Array Int, a.size = 2 ^ k → (∀ i, i < 2 ^ k → -12289 ≤ elt a i ∧ elt a i ≤ 24577) →
    ∃ a', correct a = .ok a' ∧ a'.size = 2 ^ k ∧ ∀ i, i < 2 ^ k → elt a' i = elt a i % 12289
  mul16 : ∀ a p : Array Int, a.size = 2 ^ k → 2 ^ k ≤ p.size → (∀ i, i < 2 ^ k → Safe (elt a i * elt p i)) →
    ∃ a', mul16 a p = .ok a' ∧ a'.size = 2 ^ k ∧ ∀ i, i < 2 ^ k → elt a' i = Spec.red (elt a i * elt p i)
  mul : ∀ c a b : Array Int, c.size = 2 ^ k → a.size = 2 ^ k → b.size = 2 ^ k →
    (∀ i, i < 2 ^ k → Safe (elt a i * elt b i)) →
    ∃ c', mul c a b = .ok c' ∧ c'.size = 2 ^ k ∧ ∀ i, i < 2 ^ k → elt c' i = Spec.red (elt a i * elt b i)
  smul : ∀ (x : Int) (a : Array Int), I32 x → a.size = 2 ^ k → (∀ i, i < 2 ^ k → Safe (elt a i * x)) →
    ∃ a', smul x a = .ok a' ∧ a'.size = 2 ^ k ∧ ∀ i, i < 2 ^ k → elt a' i = Spec.red (elt a i * x)

section
variable {k : Nat} {shift reduce twice correct : Array Int → M (Array Int)}
  {mul16 : Array Int → Array Int → M (Array Int)} {mul : Array Int → Array Int → Array Int → M (Array Int)}
  {smul : Int → Array Int → M (Array Int)} (h : Elem k shift reduce twice correct mul16 mul smul)

/-- The optional shift at the start. -/
def shiftIf (shift : Array Int → M (Array Int)) (sh : Bool) (a : Array Int) : M (Array Int) :=
  if sh then shift a else pure a

include h

theorem wide_shift (sh : Bool) {a : Array Int} (ha : a.size = 2 ^ k) (hr : InRange (-25000) 25000 a) :
    ∃ a', shiftIf shift sh a = .ok a' ∧ a'.size = 2 ^ k ∧ InRange (-25000) 25000 a' ∧
      ∀ i, i < 2 ^ k → coeff a' i = coeff a i := by
  unfold shiftIf
  cases sh with
  | false => exact ⟨a, rfl, ha, hr, fun _ _ => rfl⟩
  | true =>
    obtain ⟨a', e, s, v⟩ := h.shift a ha (fun i hi => by
      have := hr i (by omega); unfold I32; omega)
    refine ⟨a', e, s, fun i hi => ?_, fun i hi => ?_⟩
    · have := hr i (by omega)
      rw [v i (by omega)]; split <;> omega
    · rw [coeff_of_elt (v i hi)]
      split
      · push_cast; rw [show (12289 : Zq) = 0 by decide]; unfold coeff; ring
      · rfl

theorem wide_scale {s c : Zq} {p a : Array Int} (hp : PowTable 3 s c (-6144) 6144 (2 ^ k) p) (ha : a.size = 2 ^ k)
    (hr : InRange (-25000) 25000 a) :
    ∃ a', mul16 a p = .ok a' ∧ a'.size = 2 ^ k ∧ InRange (-49786) 49786 a' ∧
      ∀ i, i < 2 ^ k → coeff a' i = coeff a i * (s * c ^ i) := by
  have hm : ∀ i, i < 2 ^ k → -153600000 ≤ elt a i * elt p i ∧ elt a i * elt p i ≤ 153600000 := by
    intro i hi
    exact mul_bound (B := 25000) (W := 6144) (hr i (by omega)) (hp.2 i hi).1
  obtain ⟨a', e, sz, v⟩ := h.mul16 a p ha hp.1 (fun i hi => by have := hm i hi; exact ⟨by omega, by omega⟩)
  refine ⟨a', e, sz, fun i hi => ?_, fun i hi => ?_⟩
  · have := hm i (by omega)
    rw [v i (by omega)]
    exact red_bound this (by omega)
  · rw [coeff_of_elt (v i hi), red_zq, ← (hp.2 i hi).2]
    push_cast; unfold coeff; ring

theorem wide_reduce {a : Array Int} {F : Nat → Zq} (ha : a.size = 2 ^ k)
    (hr : InRange (-52076545) 52076545 a) (hF : ∀ i, i < 2 ^ k → coeff a i = F i) :
    ∃ a', reduce a = .ok a' ∧ a'.size = 2 ^ k ∧ InRange (-25000) 25000 a' ∧ ∀ i, i < 2 ^ k → coeff a' i = 3 * F i := by
  obtain ⟨a', e, s, v⟩ := h.reduce a ha (fun i hi => by have := hr i (by omega); unfold I32; omega)
  refine ⟨a', e, s, fun i hi => ?_, fun i hi => ?_⟩
  · rw [v i (by omega)]; exact red_bound (hr i (by omega)) (by omega)
  · rw [coeff_of_elt (v i hi), red_zq, ← hF i hi]; rfl

theorem wide_twice {a : Array Int} {F : Nat → Zq} (ha : a.size = 2 ^ k)
    (hr : InRange (-2147483648) 2147483647 a) (hF : ∀ i, i < 2 ^ k → coeff a i = F i) :
    ∃ a', twice a = .ok a' ∧ a'.size = 2 ^ k ∧ InRange (-130) 12413 a' ∧ ∀ i, i < 2 ^ k → coeff a' i = 9 * F i := by
  obtain ⟨a', e, s, v⟩ := h.twice a ha (fun i hi => hr i (by omega))
  refine ⟨a', e, s, fun i hi => ?_, fun i hi => ?_⟩
  · rw [v i (by omega)]; exact red_red_i32 (hr i (by omega))
  · rw [coeff_of_elt (v i hi), red_zq, red_zq, ← hF i hi]; unfold coeff; ring

theorem wide_canon {a : Array Int} {F : Nat → Zq} (ha : a.size = 2 ^ k)
    (hr : InRange (-130) 12413 a) (hF : ∀ i, i < 2 ^ k → coeff a i = F i) :
    ∃ a', correct a = .ok a' ∧ a'.size = 2 ^ k ∧ Reduced a' ∧ ∀ i, i < 2 ^ k → coeff a' i = F i := by
  obtain ⟨a', e, s, v⟩ := h.correct a ha (fun i hi => by
    have := hr i (by omega); exact ⟨by omega, by omega⟩)
  refine ⟨a', e, s, fun i hi => ?_, fun i hi => ?_⟩
  · rw [v i (by omega)]; omega
  · rw [coeff_of_elt (v i hi), Ntt.zq_mod, ← hF i hi]; rfl

theorem wide_pointwise {a b c : Array Int} {F G : Nat → Zq}
    (hc : c.size = 2 ^ k) (ha : a.size = 2 ^ k) (hb : b.size = 2 ^ k) (hra : InRange (-25000) 25000 a)
    (hrb : InRange (-25000) 25000 b) (hF : ∀ i, i < 2 ^ k → coeff a i = F i) (hG : ∀ i, i < 2 ^ k → coeff b i = G i) :
    ∃ c', mul c a b = .ok c' ∧ c'.size = 2 ^ k ∧ InRange (-164874) 164874 c' ∧
      ∀ i, i < 2 ^ k → coeff c' i = 3 * (F i * G i) := by
  have hm : ∀ i, i < 2 ^ k → -625000000 ≤ elt a i * elt b i ∧ elt a i * elt b i ≤ 625000000 := by
    intro i hi
    exact mul_bound (B := 25000) (W := 25000) (hra i (by omega)) (hrb i (by omega))
  obtain ⟨c', e, s, v⟩ := h.mul c a b hc ha hb (fun i hi => by have := hm i hi; exact ⟨by omega, by omega⟩)
  refine ⟨c', e, s, fun i hi => ?_, fun i hi => ?_⟩
  · have := hm i (by omega)
    rw [v i (by omega)]
    exact red_bound this (by omega)
  · rw [coeff_of_elt (v i hi), red_zq, ← hF i hi, ← hG i hi]; push_cast; rfl

/-- The transform of one operand, products 1 to 4. -/
theorem wide_operand {ψ : Zq} {fwd : Array Int → M (Array Int)} {pp : Array Int}
    (hpp : PowTable 3 1 ψ (-6144) 6144 (2 ^ k) pp)
    (hf : ∀ a A, a.size = 2 ^ k → InRange (-49786) 49786 a → (∀ i, i < 2 ^ k → coeff a i = A i) →
      Gives (fwd a) (2 ^ k) 52076545 (fun i => ntt (2 ^ k) (ψ ^ 2) A (rev k i)))
    (sh : Bool) {a : Array Int} (ha : a.size = 2 ^ k) (hra : InRange (-25000) 25000 a) {P : Array Int → Prop}
    (hP : ∀ a' : Array Int, a'.size = 2 ^ k → InRange (-25000) 25000 a' →
      (∀ i, i < 2 ^ k → coeff a' i = 3 * evalPoly (2 ^ k) (coeff a) (ψ * (ψ ^ 2) ^ rev k i)) → P a') :
    Wp NoErr (shiftIf shift sh a) fun a => Wp NoErr (mul16 a pp) fun a => Wp NoErr (fwd a) fun a =>
      Wp NoErr (reduce a) P := by
  refine (wp_total.2 (wide_shift h sh ha hra)).mono ?_
  rintro a1 ⟨sa1, ra1, va1⟩
  refine (wp_total.2 (wide_scale h hpp sa1 ra1)).mono ?_
  rintro a2 ⟨sa2, ra2, va2⟩
  refine (wp_total.2 (hf a2 (fun i => coeff a i * ψ ^ i) sa2 ra2
    (fun i hi => by rw [va2 i hi, va1 i hi, one_mul]))).mono ?_
  rintro a3 ⟨sa3, ra3, va3⟩
  refine (wp_total.2 (wide_reduce h sa3 ra3 va3)).mono ?_
  rintro a4 ⟨sa4, ra4, va4⟩
  refine hP a4 sa4 ra4 fun i hi => ?_
  rw [va4 i hi, evalPoly_scale]; rfl

/-- The transform of one operand, product 5. -/
theorem wide_operand5 {ψ : Zq} {fwd : Array Int → M (Array Int)}
    (hf : ∀ a A, a.size = 2 ^ k → InRange (-25000) 25000 a → (∀ i, i < 2 ^ k → coeff a i = A i) →
      Gives (fwd a) (2 ^ k) 52076545 (fun i => evalPoly (2 ^ k) A (ψ * (ψ ^ 2) ^ rev k i)))
    (sh : Bool) {a : Array Int} (ha : a.size = 2 ^ k) (hra : InRange (-25000) 25000 a) {P : Array Int → Prop}
    (hP : ∀ a' : Array Int, a'.size = 2 ^ k → InRange (-25000) 25000 a' →
      (∀ i, i < 2 ^ k → coeff a' i = 3 * evalPoly (2 ^ k) (coeff a) (ψ * (ψ ^ 2) ^ rev k i)) → P a') :
    Wp NoErr (shiftIf shift sh a) fun a => Wp NoErr (fwd a) fun a => Wp NoErr (reduce a) P := by
  refine (wp_total.2 (wide_shift h sh ha hra)).mono ?_
  rintro a1 ⟨sa1, ra1, va1⟩
  refine (wp_total.2 (hf a1 (coeff a) sa1 ra1 va1)).mono ?_
  rintro a3 ⟨sa3, ra3, va3⟩
  refine (wp_total.2 (wide_reduce h sa3 ra3 va3)).mono ?_
  rintro a4 ⟨sa4, ra4, va4⟩
  exact hP a4 sa4 ra4 fun i hi => va4 i hi

/-- From the transformed operands to the result, products 1 to 4. -/
theorem wide_finish {ψ : Zq} (hψ : ψ ^ 2 ^ k = -1) {inv : Array Int → M (Array Int)} {ps : Array Int}
    (hps : PowTable 1 (3 ^ 8 * 2 ^ k : Zq)⁻¹ ψ⁻¹ (-6144) 6144 (2 ^ k) ps)
    (hv : ∀ a A, a.size = 2 ^ k → InRange (-130) 12413 a →
      (∀ i, i < 2 ^ k → coeff a i = A (rev k i)) →
      Gives (inv a) (2 ^ k) 1100000000 (ntt (2 ^ k) (ψ ^ 2)⁻¹ A))
    {c a b : Array Int} {A B : Nat → Zq} (hc : c.size = 2 ^ k) (ha : a.size = 2 ^ k) (hb : b.size = 2 ^ k)
    (hra : InRange (-25000) 25000 a) (hrb : InRange (-25000) 25000 b)
    (hva : ∀ i, i < 2 ^ k → coeff a i = 3 * evalPoly (2 ^ k) A (ψ * (ψ ^ 2) ^ rev k i))
    (hvb : ∀ i, i < 2 ^ k → coeff b i = 3 * evalPoly (2 ^ k) B (ψ * (ψ ^ 2) ^ rev k i)) :
    Wp NoErr (mul c a b) fun c => Wp NoErr (twice c) fun c => Wp NoErr (inv c) fun c =>
      Wp NoErr (mul16 c ps) fun c => Wp NoErr (twice c) fun c => Wp NoErr (correct c) fun c =>
      c.size = 2 ^ k ∧ Reduced c ∧ ∀ i, i < 2 ^ k → coeff c i = negacyclic (2 ^ k) A B i := by
  refine (wp_total.2 (wide_pointwise h hc ha hb hra hrb hva hvb)).mono ?_
  rintro c1 ⟨sc1, rc1, vc1⟩
  refine (wp_total.2 (wide_twice h sc1 (InRange.mono rc1 (by omega) (by omega)) vc1)).mono ?_
  rintro c2 ⟨sc2, rc2, vc2⟩
  refine (wp_total.2 (hv c2 (fun j => 243 * ntt (2 ^ k) (ψ ^ 2)
      (fun l => negacyclic (2 ^ k) A B l * ψ ^ l) j) sc2 rc2
    (fun i hi => by rw [vc2 i hi, ← conv_point hψ]; ring))).mono ?_
  rintro c3 ⟨sc3, rc3, vc3⟩
  have hm : ∀ i, i < 2 ^ k → -6758400000000 ≤ elt c3 i * elt ps i ∧
      elt c3 i * elt ps i ≤ 6758400000000 := fun i hi => by
    have := mul_bound (rc3 i (by omega)) (hps.2 i hi).1
    constructor <;> linarith
  refine (wp_total.2 (h.mul16 c3 ps sc3 hps.1
    (fun i hi => by have := hm i hi; exact ⟨by omega, by omega⟩))).mono ?_
  rintro c4 ⟨sc4, vc4⟩
  refine (wp_total.2 (wide_twice h sc4 (fun i hi => by
    have := hm i (by omega)
    rw [vc4 i (by omega)]
    have hd := red_def (elt c3 i * elt ps i)
    omega) (F := coeff c4) (fun _ _ => rfl))).mono ?_
  rintro c5 ⟨sc5, rc5, vc5⟩
  refine (wp_total.2 (wide_canon h sc5 rc5 vc5)).mono ?_
  rintro c6 ⟨sc6, rc6, vc6⟩
  refine ⟨sc6, rc6, fun i hi => ?_⟩
  rw [vc6 i hi, coeff_of_elt (vc4 i hi), red_zq]
  rw [← rescale hψ (negacyclic (2 ^ k) A B) hi, ← vc3 i hi, ← (hps.2 i hi).2]
  push_cast; unfold coeff; ring

/-- From the transformed operands to the result, product 5. -/
theorem wide_finish5 (hk : k ≤ 10) {ψ : Zq} (hψ : ψ ^ 2 ^ k = -1) {t : RedTables} (ht : RedTablesOK k ψ t)
    {inv : Array Int → M (Array Int)}
    (hv : ∀ a A, a.size = 2 ^ k → InRange (-130) 12413 a →
      (∀ i, i < 2 ^ k → coeff a i = A (rev k i)) →
      ∃ a', inv a = .ok a' ∧ a'.size = 2 ^ k ∧ InRange (gsSeq (-130) 12413 k).1 (gsSeq (-130) 12413 k).2 a' ∧
        ∀ i, i < 2 ^ k → coeff a' i = ψ⁻¹ ^ i * ntt (2 ^ k) (ψ ^ 2)⁻¹ A i)
    {c a b : Array Int} {A B : Nat → Zq} (hc : c.size = 2 ^ k) (ha : a.size = 2 ^ k) (hb : b.size = 2 ^ k)
    (hra : InRange (-25000) 25000 a) (hrb : InRange (-25000) 25000 b)
    (hva : ∀ i, i < 2 ^ k → coeff a i = 3 * evalPoly (2 ^ k) A (ψ * (ψ ^ 2) ^ rev k i))
    (hvb : ∀ i, i < 2 ^ k → coeff b i = 3 * evalPoly (2 ^ k) B (ψ * (ψ ^ 2) ^ rev k i)) :
    Wp NoErr (mul c a b) fun c => Wp NoErr (twice c) fun c => Wp NoErr (inv c) fun c =>
      Wp NoErr (smul t.rescale8 c) fun c => Wp NoErr (twice c) fun c => Wp NoErr (correct c) fun c =>
      c.size = 2 ^ k ∧ Reduced c ∧ ∀ i, i < 2 ^ k → coeff c i = negacyclic (2 ^ k) A B i := by
  refine (wp_total.2 (wide_pointwise h hc ha hb hra hrb hva hvb)).mono ?_
  rintro c1 ⟨sc1, rc1, vc1⟩
  refine (wp_total.2 (wide_twice h sc1 (InRange.mono rc1 (by omega) (by omega)) vc1)).mono ?_
  rintro c2 ⟨sc2, rc2, vc2⟩
  refine (wp_total.2 (hv c2 (fun j => 243 * ntt (2 ^ k) (ψ ^ 2)
      (fun l => negacyclic (2 ^ k) A B l * ψ ^ l) j) sc2 rc2
    (fun i hi => by rw [vc2 i hi, ← conv_point hψ]; ring))).mono ?_
  rintro c3 ⟨sc3, rc3, vc3⟩
  have hm : ∀ i, i < 2 ^ k → -6179000000000 ≤ elt c3 i * (t.rescale8 : Int) ∧
      elt c3 i * (t.rescale8 : Int) ≤ 6179000000000 := fun i hi => by
    have hr := rc3 i (by omega)
    by_cases h9 : 9 < k
    · have h1 := gsEnd_low k (by omega)
      have h2 := rescale8_small hψ ht (by omega)
      have := mul_bound (x := elt c3 i) (y := (t.rescale8 : Int)) (B := 740000000) (W := 8350)
        ⟨by omega, by omega⟩ ⟨by omega, by omega⟩
      constructor <;> linarith
    · have h1 := gsEnd_low9 k (by omega)
      have h2 := ht.rescale8.2
      have := mul_bound (x := elt c3 i) (y := (t.rescale8 : Int)) (B := 250000000) (W := 12288)
        ⟨by omega, by omega⟩ ⟨by omega, by omega⟩
      constructor <;> linarith
  have hr8 := ht.rescale8.2
  refine (wp_total.2 (h.smul t.rescale8 c3 ⟨by omega, by omega⟩ sc3
    (fun i hi => by have := hm i hi; exact ⟨by omega, by omega⟩))).mono ?_
  rintro c4 ⟨sc4, vc4⟩
  refine (wp_total.2 (wide_twice h sc4 (fun i hi => by
    have := hm i (by omega)
    rw [vc4 i (by omega)]
    have hd := red_def (elt c3 i * (t.rescale8 : Int))
    omega) (F := coeff c4) (fun _ _ => rfl))).mono ?_
  rintro c5 ⟨sc5, rc5, vc5⟩
  refine (wp_total.2 (wide_canon h sc5 rc5 vc5)).mono ?_
  rintro c6 ⟨sc6, rc6, vc6⟩
  refine ⟨sc6, rc6, fun i hi => ?_⟩
  rw [vc6 i hi, coeff_of_elt (vc4 i hi), red_zq]
  rw [← rescale hψ (negacyclic (2 ^ k) A B) hi]
  have e1 : ((t.rescale8 : Int) : Zq) = (3 ^ 8 * 2 ^ k : Zq)⁻¹ := by rw [← ht.rescale8.1]; simp
  have e2 : ((elt c3 i : Int) : Zq) = _ := vc3 i hi
  push_cast at e1 ⊢
  rw [e1, e2]; ring

/-- Products 1 to 4. -/
theorem wide_scheme {ψ : Zq} (hψ : ψ ^ 2 ^ k = -1) {fwd inv : Array Int → M (Array Int)} {pp ps : Array Int}
    (hpp : PowTable 3 1 ψ (-6144) 6144 (2 ^ k) pp)
    (hps : PowTable 1 (3 ^ 8 * 2 ^ k : Zq)⁻¹ ψ⁻¹ (-6144) 6144 (2 ^ k) ps)
    (hf : ∀ a A, a.size = 2 ^ k → InRange (-49786) 49786 a → (∀ i, i < 2 ^ k → coeff a i = A i) →
      Gives (fwd a) (2 ^ k) 52076545 (fun i => ntt (2 ^ k) (ψ ^ 2) A (rev k i)))
    (hv : ∀ a A, a.size = 2 ^ k → InRange (-130) 12413 a →
      (∀ i, i < 2 ^ k → coeff a i = A (rev k i)) →
      Gives (inv a) (2 ^ k) 1100000000 (ntt (2 ^ k) (ψ ^ 2)⁻¹ A))
    (sh : Bool)
    {c a b : Array Int} (hc : c.size = 2 ^ k) (ha : a.size = 2 ^ k) (hb : b.size = 2 ^ k)
    (hra : InRange (-25000) 25000 a) (hrb : InRange (-25000) 25000 b) :
    WideSpec k ψ a b (do
      let a ← shiftIf shift sh a
      let a ← mul16 a pp
      let a ← fwd a
      let a ← reduce a
      let b ← shiftIf shift sh b
      let b ← mul16 b pp
      let b ← fwd b
      let b ← reduce b
      let c ← mul c a b
      let c ← twice c
      let c ← inv c
      let c ← mul16 c ps
      let c ← twice c
      let c ← correct c
      pure (c, a, b)) := by
  refine wp_total.1 ?_
  simp only [wp_bind, wp_pure]
  refine wide_operand h hpp hf sh ha hra fun a' sa ra va => ?_
  refine wide_operand h hpp hf sh hb hrb fun b' sb rb vb => ?_
  refine (wide_finish h hψ hps hv hc sa sb ra rb va vb).mono fun c1 h1 => h1.mono fun c2 h2 => h2.mono fun c3 h3 =>
    h3.mono fun c4 h4 => h4.mono fun c5 h5 => h5.mono ?_
  rintro c6 ⟨sc, rc, vc⟩
  exact ⟨sc, sa, sb, rc, ra, rb, vc, va, vb⟩

/-- Product 5. -/
theorem wide_scheme5 (hk : k ≤ 10) {ψ : Zq} (hψ : ψ ^ 2 ^ k = -1) {t : RedTables} (ht : RedTablesOK k ψ t)
    {fwd inv : Array Int → M (Array Int)}
    (hf : ∀ a A, a.size = 2 ^ k → InRange (-25000) 25000 a → (∀ i, i < 2 ^ k → coeff a i = A i) →
      Gives (fwd a) (2 ^ k) 52076545 (fun i => evalPoly (2 ^ k) A (ψ * (ψ ^ 2) ^ rev k i)))
    (hv : ∀ a A, a.size = 2 ^ k → InRange (-130) 12413 a →
      (∀ i, i < 2 ^ k → coeff a i = A (rev k i)) →
      ∃ a', inv a = .ok a' ∧ a'.size = 2 ^ k ∧ InRange (gsSeq (-130) 12413 k).1 (gsSeq (-130) 12413 k).2 a' ∧
        ∀ i, i < 2 ^ k → coeff a' i = ψ⁻¹ ^ i * ntt (2 ^ k) (ψ ^ 2)⁻¹ A i)
    (sh : Bool)
    {c a b : Array Int} (hc : c.size = 2 ^ k) (ha : a.size = 2 ^ k) (hb : b.size = 2 ^ k)
    (hra : InRange (-25000) 25000 a) (hrb : InRange (-25000) 25000 b) :
    WideSpec k ψ a b (do
      let a ← shiftIf shift sh a
      let a ← fwd a
      let a ← reduce a
      let b ← shiftIf shift sh b
      let b ← fwd b
      let b ← reduce b
      let c ← mul c a b
      let c ← twice c
      let c ← inv c
      let c ← smul t.rescale8 c
      let c ← twice c
      let c ← correct c
      pure (c, a, b)) := by
  refine wp_total.1 ?_
  simp only [wp_bind, wp_pure]
  refine wide_operand5 h hf sh ha hra fun a' sa ra va => ?_
  refine wide_operand5 h hf sh hb hrb fun b' sb rb vb => ?_
  refine (wide_finish5 h hk hψ ht hv hc sa sb ra rb va vb).mono fun c1 h1 => h1.mono fun c2 h2 => h2.mono fun c3 h3 =>
    h3.mono fun c4 h4 => h4.mono fun c5 h5 => h5.mono ?_
  rintro c6 ⟨sc, rc, vc⟩
  exact ⟨sc, sa, sb, rc, ra, rb, vc, va, vb⟩

end

/-! ### The C functions -/

theorem elemC {k : Nat} (hk : k ≤ 31) : Elem k (fun a => shift_array a (2 ^ k)) (fun a => reduce_array a (2 ^ k))
    (fun a => reduce_array_twice a (2 ^ k)) (fun a => NttRed.correct a (2 ^ k)) (fun a p => mul_reduce_array16 a (2 ^ k) p)
    (fun c a b => mul_reduce_array c (2 ^ k) a b) (fun x a => scalar_mul_reduce_array a (2 ^ k) x) := by
  have hn : 2 ^ k < 4294967296 := by have := pow31 hk; omega
  exact {
    shift := fun a ha hr => run_shift_array hn ha hr
    reduce := fun a ha hr => run_reduce_array hn ha hr
    twice := fun a ha hr => run_reduce_array_twice hn ha hr
    correct := fun a ha hr => run_correct hn ha hr
    mul16 := fun a p ha hp hr => run_mul_reduce_array16 hn ha hp hr
    mul := fun c a b hc ha hb hr => run_mul_reduce_array hn hc ha.ge hb.ge hr
    smul := fun x a _ ha hr => run_scalar_mul_reduce_array hn ha hr }

section
variable {k ψ : Nat} (hz : (k, ψ) ∈ libRoots) (hψ : (ψ : Zq) ^ 2 ^ k = -1) {t : RedTables} (ht : RedTablesOK k ψ t)
include hz hψ ht

omit hψ ht in
theorem lib_k : 4 ≤ k ∧ k ≤ 10 := by
  simp only [libRoots, List.mem_cons, List.not_mem_nil, or_false, Prod.mk.injEq] at hz
  omega

omit hz hψ in
theorem table0 : RevTable 3 ((ψ : Zq) ^ 0) ((ψ : Zq) ^ 2) (-6144) 6144 k t.omega_powers_rev := by
  rw [pow_zero]; exact ht.omega_powers_rev

omit hz hψ in
theorem table1 : RevTable 3 ((ψ : Zq) ^ 1) ((ψ : Zq) ^ 2) (-6144) 6144 k t.mixed_powers_rev := by
  rw [pow_one]; exact ht.mixed_powers_rev

omit hz hψ in
theorem table2 : StdTable 3 ((ψ : Zq) ^ 0) ((ψ : Zq) ^ 2) (-6144) 6144 k t.omega_powers := by
  rw [pow_zero]; exact ht.omega_powers

omit hz hψ ht in
theorem small_mul {x w : Nat} (h1 : x ≤ FWD) (h2 : w ≤ 6144) : ((x : Int) * (w : Int)) ≤ 8796042698752 := by
  have := Nat.mul_le_mul h1 h2
  rw [← Nat.cast_mul]
  unfold FWD at this
  omega

theorem wide_fwd_ct (a : Array Int) (A : Nat → Zq) (ha : a.size = 2 ^ k) (hr : InRange (-49786) 49786 a)
    (hA : ∀ i, i < 2 ^ k → coeff a i = A i) :
    Gives (fwd_ct_std2rev t (2 ^ k) a) (2 ^ k) 52076545 (fun i => ntt (2 ^ k) ((ψ : Zq) ^ 2) A (rev k i)) := by
  have hk := lib_k hz
  have hB : ∀ m, m ≤ k → ∀ j, j < 2 ^ m → blockB (revW k ψ 0) false 49786 m j ≤ FWD :=
    fun m hm j hj => ctBound (k, ψ) hz m (by simp only; omega) j hj
  have key := AsmProducts.run_ct_std2rev_blocks (k := k) (a := a)
    (β := fun m j => (blockB (revW k ψ 0) false 49786 m j : Int)) (W := fun m j => (revW k ψ 0 m j : Int)) (by omega)
    (psi_facts hψ).2.2.2.1 ht.omega_powers_rev (fun m j hm hj => revW_ok (table0 ht) hm hj) ?_ ?_ ?_ ?_ A ha hr hA
  · obtain ⟨a', e, s, r, v⟩ := key
    refine ⟨a', e, s, fun i hi => ?_, v⟩
    have h1 := r i (by omega)
    have h2 := hB k (le_refl k) i (by omega)
    unfold FWD at h2
    omega
  · intro m hm
    have e0 : blockB (revW k ψ 0) false 49786 (m + 1) 0 = 2 * blockB (revW k ψ 0) false 49786 m 0 := rfl
    have e1 : blockB (revW k ψ 0) false 49786 (m + 1) 1 = 2 * blockB (revW k ψ 0) false 49786 m 0 := rfl
    simp only [e0, e1]
    omega
  · intro m j hm hj0 hj s hs
    have e0 : blockB (revW k ψ 0) false 49786 (m + 1) (2 * j + s) =
        (blockB (revW k ψ 0) false 49786 m j * (4096 + revW k ψ 0 m j) + 50323455) / 4096 + 1 := by
      rw [blockB, show (2 * j + s) / 2 = j by omega, if_neg (by simp; omega)]
    have e1 : blockB (revW k ψ 0) false 49786 m j * (4096 + revW k ψ 0 m j) =
        4096 * blockB (revW k ψ 0) false 49786 m j + blockB (revW k ψ 0) false 49786 m j * revW k ψ 0 m j := by ring
    simp only [e0, e1]
    push_cast
    generalize (blockB (revW k ψ 0) false 49786 m j : Int) * (revW k ψ 0 m j : Int) = P
    omega
  · intro m j hm hj
    exact small_mul (hB m (by omega) j hj) (absTw_le _ _)
  · intro m j hm hj
    have := hB m hm j hj
    unfold FWD at this
    omega

theorem wide_fwd_mul (a : Array Int) (A : Nat → Zq) (ha : a.size = 2 ^ k) (hr : InRange (-25000) 25000 a)
    (hA : ∀ i, i < 2 ^ k → coeff a i = A i) :
    Gives (fwdmul_ct_std2rev t (2 ^ k) a) (2 ^ k) 52076545
      (fun i => evalPoly (2 ^ k) A ((ψ : Zq) * ((ψ : Zq) ^ 2) ^ rev k i)) := by
  have hk := lib_k hz
  have hB : ∀ m, m ≤ k → ∀ j, j < 2 ^ m → blockB (revW k ψ 1) true 25000 m j ≤ FWD :=
    fun m hm j hj => mulctBound (k, ψ) hz m (by simp only; omega) j hj
  have key := run_mulct_std2rev_blocks (k := k) (a := a)
    (β := fun m j => (blockB (revW k ψ 1) true 25000 m j : Int)) (W := fun m j => (revW k ψ 1 m j : Int)) (by omega)
    (psi_facts hψ).2.2.2.1 ht.mixed_powers_rev (fun m j hm hj => revW_ok (table1 ht) hm hj) ?_ ?_ ?_ A ha hr hA
  · obtain ⟨a', e, s, r, v⟩ := key
    refine ⟨a', e, s, fun i hi => ?_, v⟩
    have h1 := r i (by omega)
    have h2 := hB k (le_refl k) i (by omega)
    unfold FWD at h2
    omega
  · intro m j hm hj s hs
    have e0 : blockB (revW k ψ 1) true 25000 (m + 1) (2 * j + s) =
        (blockB (revW k ψ 1) true 25000 m j * (4096 + revW k ψ 1 m j) + 50323455) / 4096 + 1 := by
      rw [blockB, show (2 * j + s) / 2 = j by omega, if_neg (by simp)]
    have e1 : blockB (revW k ψ 1) true 25000 m j * (4096 + revW k ψ 1 m j) =
        4096 * blockB (revW k ψ 1) true 25000 m j + blockB (revW k ψ 1) true 25000 m j * revW k ψ 1 m j := by ring
    simp only [e0, e1]
    push_cast
    generalize (blockB (revW k ψ 1) true 25000 m j : Int) * (revW k ψ 1 m j : Int) = P
    omega
  · intro m j hm hj
    exact small_mul (hB m (by omega) j hj) (absTw_le _ _)
  · intro m j hm hj
    have := hB m hm j hj
    unfold FWD at this
    omega

theorem wide_fwd_gs (a : Array Int) (A : Nat → Zq) (ha : a.size = 2 ^ k) (hr : InRange (-49786) 49786 a)
    (hA : ∀ i, i < 2 ^ k → coeff a i = A i) :
    Gives (fwd_gs_std2rev t (2 ^ k) a) (2 ^ k) 52076545 (fun i => ntt (2 ^ k) ((ψ : Zq) ^ 2) A (rev k i)) := by
  have hk := lib_k hz
  obtain ⟨a', e, s, r, v⟩ := run_gs_std2rev_elts (k := k) (a := a) (β := gsB k) (W := stdW k ψ 0) (by omega)
    (psi_facts hψ).2.2.2.1 ht.omega_powers (fun m j hm hj => stdW_ok (table2 ht) hm hj) (fun m j => absTw_le _ _)
    (gsBound (k, ψ) hz) A ha (fun i hi => by
      have h1 := gsBound0 (k, ψ) hz i hi
      have h2 := hr i (by omega)
      simp only at h1
      omega) hA
  refine ⟨a', e, s, fun i hi => ?_, v⟩
  have h1 := r i (by omega)
  have h2 := gsBoundEnd (k, ψ) hz i (by simp only; omega)
  simp only [FWD] at h2
  omega

theorem wide_inv_mul (a : Array Int) (A : Nat → Zq) (ha : a.size = 2 ^ k) (hr : InRange (-130) 12413 a)
    (hA : ∀ i, i < 2 ^ k → coeff a i = A (rev k i)) :
    ∃ a', inttmul_gs_rev2std t (2 ^ k) a = .ok a' ∧ a'.size = 2 ^ k ∧
      InRange (gsSeq (-130) 12413 k).1 (gsSeq (-130) 12413 k).2 a' ∧
        ∀ i, i < 2 ^ k → coeff a' i = (ψ : Zq)⁻¹ ^ i * ntt (2 ^ k) ((ψ : Zq) ^ 2)⁻¹ A i := by
  have hk := lib_k hz
  exact run_gsmul_rev2std (l := fun m => (gsSeq (-130) 12413 m).1)
    (u := fun m => (gsSeq (-130) 12413 m).2) (by omega) (psi_facts hψ).2.2.2.2.1 ht.inv_mixed_powers_rev
    (fun m hm => gsStep_low m (by omega)) A ha hr hA

variable (sh : Bool) {c a b : Array Int} (hc : c.size = 2 ^ k) (ha : a.size = 2 ^ k)
  (hb : b.size = 2 ^ k) (hra : InRange (-25000) 25000 a) (hrb : InRange (-25000) 25000 b)
include hc ha hb hra hrb

theorem wide_products : ∀ f ∈ [product1 t (2 ^ k) sh, product2 t (2 ^ k) sh, product3 t (2 ^ k) sh, product4 t (2 ^ k) sh,
    product5 t (2 ^ k) sh], WideSpec k (ψ : Zq) a b (f c a b) := by
  have hk := lib_k hz
  have el := elemC (k := k) (by omega)
  intro f hf
  simp only [List.mem_cons, List.not_mem_nil, or_false] at hf
  rcases hf with rfl | rfl | rfl | rfl | rfl
  · exact wide_scheme el hψ ht.psi_powers ht.scaled_inv_psi_powers (wide_fwd_ct hz hψ ht) (gives_inv_ct (Nat.le_succ_of_le hk.2) hψ ht) sh
      hc ha hb hra hrb
  · exact wide_scheme el hψ ht.psi_powers ht.scaled_inv_psi_powers (wide_fwd_gs hz hψ ht) (gives_inv_ct (Nat.le_succ_of_le hk.2) hψ ht) sh
      hc ha hb hra hrb
  · exact wide_scheme el hψ ht.psi_powers ht.scaled_inv_psi_powers (wide_fwd_ct hz hψ ht) (gives_inv_gs (Nat.le_succ_of_le hk.2) hψ ht) sh
      hc ha hb hra hrb
  · exact wide_scheme el hψ ht.psi_powers ht.scaled_inv_psi_powers (wide_fwd_gs hz hψ ht) (gives_inv_gs (Nat.le_succ_of_le hk.2) hψ ht) sh
      hc ha hb hra hrb
  · exact wide_scheme5 el hk.2 hψ ht (wide_fwd_mul hz hψ ht) (wide_inv_mul hz hψ ht) sh hc ha hb hra hrb

end
/-! ### Cooley-Tukey from bit-reverse to standard order, one bound for each residue of the index -/

theorem run_ct_rev2std_residues {k : Nat} {ω : Zq} {p a : Array Int} {β W : Nat → Nat → Int}
    (hk : k ≤ 31) (hω : 0 < k → ω ^ 2 ^ (k - 1) = -1) (hp : StdTable 3 1 ω (-6144) 6144 k p)
    (hW : ∀ m j, m < k → j < 2 ^ m → -W m j ≤ elt p (2 ^ m + j) ∧ elt p (2 ^ m + j) ≤ W m j)
    (h0 : ∀ m, m < k → 2 * β m 0 ≤ β (m + 1) 0 ∧ 2 * β m 0 ≤ β (m + 1) (2 ^ m))
    (hβ : ∀ m j, m < k → 0 < j → j < 2 ^ m → ∀ s, s < 2 →
      4096 * β m j + β m j * W m j + 50323455 ≤ 4096 * β (m + 1) (j + s * 2 ^ m))
    (hS : ∀ m j, m < k → j < 2 ^ m → β m j * W m j ≤ 8796042698752)
    (hT : ∀ m j, m ≤ k → j < 2 ^ m → β m j ≤ 2147483647)
    (A : Nat → Zq) (ha : a.size = 2 ^ k) (hr : InRange (-β 0 0) (β 0 0) a)
    (hA : ∀ i, i < 2 ^ k → coeff a i = A (rev k i)) :
    ∃ a', ntt_red_ct_rev2std a (2 ^ k) p = .ok a' ∧ a'.size = 2 ^ k ∧
      (∀ i, i < 2 ^ k → -β k i ≤ elt a' i ∧ elt a' i ≤ β k i) ∧
      ∀ i, i < 2 ^ k → coeff a' i = ntt (2 ^ k) ω A i := by
  have eq : ∀ m b j, j < 2 ^ m → (2 * 2 ^ m * b + j) % 2 ^ m = j ∧ (2 * 2 ^ m * b + j + 2 ^ m) % 2 ^ m = j ∧
      (2 * 2 ^ m * b + j) % 2 ^ (m + 1) = j ∧ (2 * 2 ^ m * b + j + 2 ^ m) % 2 ^ (m + 1) = j + 2 ^ m := by
    intro m b j hj
    have e1 : 2 * 2 ^ m * b = 2 ^ m * (2 * b) := by ring
    have e2 : 2 * 2 ^ m * b = 2 ^ (m + 1) * b := by ring
    refine ⟨?_, ?_, ?_, ?_⟩
    · rw [e1, Nat.mul_add_mod, Nat.mod_eq_of_lt hj]
    · rw [Nat.add_mod_right, e1, Nat.mul_add_mod, Nat.mod_eq_of_lt hj]
    · rw [e2, Nat.mul_add_mod, Nat.mod_eq_of_lt (by rw [pow_succ]; omega)]
    · rw [e2, Nat.add_assoc, Nat.mul_add_mod, Nat.mod_eq_of_lt (by rw [pow_succ]; omega)]
  have key := wp_total.1 (sem_ctRev2std (val := val) (E := NoErr) (bf0 := NttRed.bf0) (bf := NttRed.ctBf) (a := a)
    (B := fun m i x => -β m (i % 2 ^ m) ≤ x ∧ x ≤ β m (i % 2 ^ m))
    (A := A) hk hp.1 hω ?_ ?_ ?_)
  · obtain ⟨a', e, h⟩ := key
    rw [pw_elts] at h
    refine ⟨a', e, h.1, fun i hi => ?_, fun i hi => (h.2 i hi).2⟩
    have := (h.2 i hi).1
    rwa [Nat.mod_eq_of_lt hi] at this
  · intro m b hm hb
    obtain ⟨e1, e2, e3, e4⟩ := eq m b 0 (Nat.two_pow_pos m)
    rw [Nat.add_zero] at e1 e2 e3 e4
    rw [Nat.zero_add] at e4
    have hh := h0 m hm
    have t0 := hT (m + 1) 0 (by omega) (Nat.two_pow_pos _)
    have t1 := hT (m + 1) (2 ^ m) (by omega) (by rw [pow_succ]; have := Nat.two_pow_pos m; omega)
    have hp2 := Nat.two_pow_pos m
    refine bf0_ct (by omega) ?_
    rw [e1, e2, e3, e4]
    intro x y hx hy
    unfold I32
    refine ⟨⟨by omega, by omega⟩, ⟨by omega, by omega⟩, ⟨by omega, by omega⟩, ⟨by omega, by omega⟩⟩
  · intro m b j w hm hb hj0 hj hw
    obtain ⟨e1, e2, e3, e4⟩ := eq m b j hj
    have hz := hp.entry hm hj hw
    have hw2 := hW m j hm hj
    rw [elt_of_some hw] at hw2
    have b0 := hβ m j hm hj0 hj 0 (by omega)
    have b1 := hβ m j hm hj0 hj 1 (by omega)
    rw [Nat.zero_mul, Nat.add_zero j] at b0
    rw [Nat.one_mul] at b1
    have hs := hS m j hm hj
    have hlt : j + 2 ^ m < 2 ^ (m + 1) := by rw [pow_succ]; omega
    have t0 := hT (m + 1) j (by omega) (by omega)
    have t1 := hT (m + 1) (j + 2 ^ m) (by omega) hlt
    have hp2 := Nat.two_pow_pos m
    refine ctBf_ct (by omega) hz.2 ?_
    rw [e1, e2, e3, e4]
    intro x y hx hy
    have hm := mul_bound hy hw2
    have hd := red_def (y * w)
    generalize y * w = z at *
    generalize Spec.red z = r at *
    generalize β m j * W m j = P at *
    unfold Safe I32
    refine ⟨⟨by omega, by omega⟩, ⟨by omega, by omega⟩, ⟨by omega, by omega⟩, ⟨by omega, by omega⟩,
      ⟨by omega, by omega⟩⟩
  · rw [pw_elts]
    refine ⟨ha, fun i hi => ⟨?_, hA i hi⟩⟩
    have := hr i (by omega)
    rwa [pow_zero, Nat.mod_one]

/-- Bounds for the elements with index `j` modulo `2^m` before round `m`. -/
def resB (W : Nat → Nat → Nat) (start : Nat) : Nat → Nat → Nat
  | 0, _ => start
  | m + 1, j =>
    if j % 2 ^ m = 0 then 2 * resB W start m 0 else
      (resB W start m (j % 2 ^ m) * (4096 + W m (j % 2 ^ m)) + 50323455) / 4096 + 1

theorem resBound : ∀ m, m < 11 → ∀ j, j < 2 ^ m → resB (stdW 10 5078 0) 164874 m j ≤ 1431000000 := by decide +kernel

theorem wide_inv_1024 {p : Array Int} (hp : StdTable 3 1 ((1014 : Zq) ^ 2)⁻¹ (-6144) 6144 10 p)
    (hω : 0 < 10 → (((1014 : Zq) ^ 2)⁻¹) ^ 2 ^ (10 - 1) = -1) (a : Array Int) (A : Nat → Zq)
    (ha : a.size = 2 ^ 10) (hr : InRange (-164874) 164874 a)
    (hA : ∀ i, i < 2 ^ 10 → coeff a i = A (rev 10 i)) :
    Gives (ntt_red_ct_rev2std a (2 ^ 10) p) (2 ^ 10) 1431000000 (ntt (2 ^ 10) ((1014 : Zq) ^ 2)⁻¹ A) := by
  have hp' : StdTable 3 (((5078 : Nat) : Zq) ^ 0) (((5078 : Nat) : Zq) ^ 2) (-6144) 6144 10 p := by
    rw [pow_zero]
    have e : ((1014 : Zq) ^ 2)⁻¹ = ((5078 : Nat) : Zq) ^ 2 := by
      refine inv_eq_of_mul_eq_one_right ?_
      decide
    rwa [e] at hp
  have key := run_ct_rev2std_residues (k := 10) (a := a) (β := fun m j => (resB (stdW 10 5078 0) 164874 m j : Int))
    (W := fun m j => (stdW 10 5078 0 m j : Int)) (by omega) hω hp (fun m j hm hj => stdW_ok hp' hm hj) ?_ ?_ ?_ ?_
    A ha hr hA
  · obtain ⟨a', e, s, r, v⟩ := key
    refine ⟨a', e, s, fun i hi => ?_, v⟩
    have h1 := r i (by omega)
    have h2 := resBound 10 (by omega) i (by omega)
    omega
  · intro m hm
    have e0 : resB (stdW 10 5078 0) 164874 (m + 1) 0 = 2 * resB (stdW 10 5078 0) 164874 m 0 := by
      rw [resB, if_pos (Nat.zero_mod _)]
    have e1 : resB (stdW 10 5078 0) 164874 (m + 1) (2 ^ m) = 2 * resB (stdW 10 5078 0) 164874 m 0 := by
      rw [resB, if_pos (Nat.mod_self _)]
    simp only [e0, e1]
    omega
  · intro m j hm hj0 hj s hs
    have e0 : resB (stdW 10 5078 0) 164874 (m + 1) (j + s * 2 ^ m) =
        (resB (stdW 10 5078 0) 164874 m j * (4096 + stdW 10 5078 0 m j) + 50323455) / 4096 + 1 := by
      rw [resB, Nat.add_mul_mod_self_right, Nat.mod_eq_of_lt hj, if_neg (by omega)]
    have e1 : resB (stdW 10 5078 0) 164874 m j * (4096 + stdW 10 5078 0 m j) =
        4096 * resB (stdW 10 5078 0) 164874 m j + resB (stdW 10 5078 0) 164874 m j * stdW 10 5078 0 m j := by ring
    simp only [e0, e1]
    push_cast
    generalize (resB (stdW 10 5078 0) 164874 m j : Int) * (stdW 10 5078 0 m j : Int) = P
    omega
  · intro m j hm hj
    have := Nat.mul_le_mul (resBound m (by omega) j hj) (absTw_le 5078 (2 ^ 10 / (2 * 2 ^ m) * (0 + 2 * j)))
    show (resB (stdW 10 5078 0) 164874 m j : Int) * (absTw 5078 (2 ^ 10 / (2 * 2 ^ m) * (0 + 2 * j)) : Int) ≤ _
    rw [← Nat.cast_mul]
    omega
  · intro m j hm hj
    have := resBound m (by omega) j hj
    omega

end NttRed

/-! ### The assembly functions -/

namespace AsmProducts
open C NTT Spec Tables Asm
open NttRed (InRange.mono Elem WideSpec Gives libRoots)

theorem elemAsm {k : Nat} (hk4 : 4 ≤ k) (hk : k ≤ 31) (up : Int) :
    Elem k (fun a => shift_array_asm a (2 ^ k)) (fun a => reduce_array_asm a (2 ^ k))
    (fun a => reduce_array_twice_asm a (2 ^ k)) (fun a => correct_asm a (2 ^ k)) (fun a p => mul_reduce_array16_asm a (2 ^ k) p)
    (fun c a b => mul_reduce_array_asm c (2 ^ k) a b)
    (fun x a => scalar_mul_reduce_array_asm a (2 ^ k) (x + 4294967296 * up)) := by
  have hc := NttRed.elemC hk
  obtain ⟨h1, h2, h3, h4⟩ := size_facts hk4 hk
  exact {
    shift := fun a ha hr => by
      refine lift_eq ?_ (hc.shift a ha hr)
      simp only [h1]
      exact Props.C35_shift_array_asm h2 h3 a (by omega) (fun i hi => hr i (by omega))
    reduce := fun a ha hr => by
      refine lift_eq ?_ (hc.reduce a ha hr)
      simp only [h1]
      exact Props.C35_reduce_array_asm h2 h3 a (by omega) (fun i hi => hr i (by omega))
    twice := fun a ha hr => by
      refine lift_eq ?_ (hc.twice a ha hr)
      simp only [h1]
      exact Props.C35_reduce_array_twice_asm h2 h3 a (by omega) (fun i hi => hr i (by omega))
    correct := fun a ha hr => by
      refine lift_eq ?_ (hc.correct a ha hr)
      simp only [h1]
      exact Props.C35_correct_asm h2 h3 a (by omega) (fun i hi => by have := hr i (by omega); omega)
    mul16 := fun a p ha hp hr => run_mul16 hk4 hk ha hp hr
    mul := fun c a b sc ha hb hr => by
      refine lift (fun a' e => ?_) (hc.mul c a b sc ha hb hr)
      simp only [h1] at e ⊢
      exact Props.C35_mul_reduce_array_asm h2 h3 c a b a' (by omega) (by omega) (by omega) e
    smul := fun x a hx ha hr => run_scalar hk4 hk hx ha hr }

section
variable {k ψ : Nat} (hz : (k, ψ) ∈ libRoots) (hψ : (ψ : Zq) ^ 2 ^ k = -1) {t : RedTables} (ht : RedTablesOK k ψ t)
include hz hψ ht

theorem wide_fwd_ct (a : Array Int) (A : Nat → Zq) (ha : a.size = 2 ^ k) (hr : InRange (-49786) 49786 a)
    (hA : ∀ i, i < 2 ^ k → coeff a i = A i) :
    Gives (fwd_ct_std2rev t (2 ^ k) a) (2 ^ k) 52076545 (fun i => ntt (2 ^ k) ((ψ : Zq) ^ 2) A (rev k i)) := by
  have hk := NttRed.lib_k hz
  refine lift (fun a' e => ?_) (NttRed.wide_fwd_ct hz hψ ht a A ha hr hA)
  have hp := ht.omega_powers_rev
  have hi32 := Props.tr_i32 (InRange.mono hr (by decide) (by decide))
  exact Props.tr_eq (c_ct_std2rev (by omega) hp.1 (Props.unit_rev hp) ha hi32 e)
    (wp_ct_std2rev_asm hk.1 hp.1 (rev_i16 hp) (Props.unit_rev hp) (Is.self ha) hi32)

theorem wide_fwd_gs (a : Array Int) (A : Nat → Zq) (ha : a.size = 2 ^ k) (hr : InRange (-49786) 49786 a)
    (hA : ∀ i, i < 2 ^ k → coeff a i = A i) :
    Gives (fwd_gs_std2rev t (2 ^ k) a) (2 ^ k) 52076545 (fun i => ntt (2 ^ k) ((ψ : Zq) ^ 2) A (rev k i)) := by
  have hk := NttRed.lib_k hz
  refine lift (fun a' e => ?_) (NttRed.wide_fwd_gs hz hψ ht a A ha hr hA)
  have hp := ht.omega_powers
  exact Props.tr_eq (c_gs_std2rev (by omega) hp.1 (Props.unit_std hp) ha e)
    (wp_gs_std2rev_asm hk.1 hp.1 (Props.unit_std hp) (Is.self ha))

theorem wide_fwd_mul (a : Array Int) (A : Nat → Zq) (ha : a.size = 2 ^ k) (hr : InRange (-25000) 25000 a)
    (hA : ∀ i, i < 2 ^ k → coeff a i = A i) :
    Gives (fwdmul_ct_std2rev t (2 ^ k) a) (2 ^ k) 52076545
      (fun i => evalPoly (2 ^ k) A ((ψ : Zq) * ((ψ : Zq) ^ 2) ^ rev k i)) := by
  have hk := NttRed.lib_k hz
  refine lift (fun a' e => ?_) (NttRed.wide_fwd_mul hz hψ ht a A ha hr hA)
  have hp := ht.mixed_powers_rev
  exact Props.tr_eq (c_mulct_std2rev (by omega) hp.1 ha e)
    (wp_mulct_std2rev_asm hk.1 hp.1 (rev_i16 hp) (Is.self ha))

theorem wide_inv_mul (a : Array Int) (A : Nat → Zq) (ha : a.size = 2 ^ k) (hr : InRange (-130) 12413 a)
    (hA : ∀ i, i < 2 ^ k → coeff a i = A (rev k i)) :
    ∃ a', inttmul_gs_rev2std t (2 ^ k) a = .ok a' ∧ a'.size = 2 ^ k ∧
      InRange (NttRed.gsSeq (-130) 12413 k).1 (NttRed.gsSeq (-130) 12413 k).2 a' ∧
        ∀ i, i < 2 ^ k → coeff a' i = (ψ : Zq)⁻¹ ^ i * ntt (2 ^ k) ((ψ : Zq) ^ 2)⁻¹ A i := by
  have hk := NttRed.lib_k hz
  refine lift (fun a' e => ?_) (NttRed.wide_inv_mul hz hψ ht a A ha hr hA)
  have hp := ht.inv_mixed_powers_rev
  exact Props.tr_eq (c_gsmul_rev2std (by omega) hp.1 ha e)
    (wp_gsmul_rev2std_asm hk.1 hp.1 (rev_i16 hp) (Is.self ha))

variable (sh : Bool) (up : Int) {c a b : Array Int} (hc : c.size = 2 ^ k) (ha : a.size = 2 ^ k)
  (hb : b.size = 2 ^ k) (hra : InRange (-25000) 25000 a) (hrb : InRange (-25000) 25000 b)
include hc ha hb hra hrb

theorem wide_products : ∀ f ∈ [product1 t (2 ^ k) sh, product2 t (2 ^ k) sh, product3 t (2 ^ k) sh, product4 t (2 ^ k) sh,
    product5 t (2 ^ k) up sh], WideSpec k (ψ : Zq) a b (f c a b) := by
  have hk := NttRed.lib_k hz
  have el := elemAsm (k := k) (by omega) (by omega) up
  intro f hf
  simp only [List.mem_cons, List.not_mem_nil, or_false] at hf
  rcases hf with rfl | rfl | rfl | rfl | rfl
  · exact NttRed.wide_scheme el hψ ht.psi_powers ht.scaled_inv_psi_powers (wide_fwd_ct hz hψ ht)
      (gives_inv_ct hk.1 (Nat.le_succ_of_le hk.2) hψ ht) sh hc ha hb hra hrb
  · exact NttRed.wide_scheme el hψ ht.psi_powers ht.scaled_inv_psi_powers (wide_fwd_gs hz hψ ht)
      (gives_inv_ct hk.1 (Nat.le_succ_of_le hk.2) hψ ht) sh hc ha hb hra hrb
  · exact NttRed.wide_scheme el hψ ht.psi_powers ht.scaled_inv_psi_powers (wide_fwd_ct hz hψ ht)
      (gives_inv_gs hk.1 (Nat.le_succ_of_le hk.2) hψ ht) sh hc ha hb hra hrb
  · exact NttRed.wide_scheme el hψ ht.psi_powers ht.scaled_inv_psi_powers (wide_fwd_gs hz hψ ht)
      (gives_inv_gs hk.1 (Nat.le_succ_of_le hk.2) hψ ht) sh hc ha hb hra hrb
  · exact NttRed.wide_scheme5 el hk.2 hψ ht (wide_fwd_mul hz hψ ht) (wide_inv_mul hz hψ ht) sh hc ha hb hra hrb

end

/-- `ntt_red1024_product1_asm`. -/
theorem wide_product1_1024 (hψ : (1014 : Zq) ^ 2 ^ 10 = -1) {t : RedTables}
    (ht : RedTablesOK 10 (1014 : Zq) t) {c a b : Array Int} (hc : c.size = 2 ^ 10)
    (ha : a.size = 2 ^ 10) (hb : b.size = 2 ^ 10) (hra : InRange (-25000) 25000 a) (hrb : InRange (-25000) 25000 b) :
    WideSpec 10 (1014 : Zq) a b (product1_1024 t (2 ^ 10) c a b) := by
  have hz : (10, 1014) ∈ libRoots := by decide
  have hk4 : 4 ≤ 10 := by omega
  have hk' : 10 ≤ 31 := by omega
  have el := elemAsm hk4 hk' 0
  have hp := psi_facts hψ
  have op : ∀ {a : Array Int}, a.size = 2 ^ 10 → InRange (-25000) 25000 a → ∀ {P : Array Int → Prop},
      (∀ a' : Array Int, a'.size = 2 ^ 10 → InRange (-25000) 25000 a' →
        (∀ i, i < 2 ^ 10 → coeff a' i = 3 * evalPoly (2 ^ 10) (coeff a) (1014 * (1014 ^ 2) ^ rev 10 i)) → P a') →
      Wp NoErr (mul_reduce_array16_asm a (2 ^ 10) t.psi_powers) fun a => Wp NoErr (fwd_ct_std2rev t (2 ^ 10) a) fun a =>
        Wp NoErr (reduce_array_asm a (2 ^ 10)) P := fun {a} ha hra {P} hP => by
    have := NttRed.wide_operand el ht.psi_powers (wide_fwd_ct (ψ := 1014) hz hψ ht) false ha hra hP
    rwa [show NttRed.shiftIf (fun a => shift_array_asm a (2 ^ 10)) false a = .ok a from rfl, wp_ok] at this
  refine wp_total.1 ?_
  unfold product1_1024
  simp only [wp_bind, wp_pure]
  refine op ha hra fun a4 sa4 ra4 va4 => ?_
  refine op hb hrb fun b4 sb4 rb4 vb4 => ?_
  refine (wp_total.2 (NttRed.wide_pointwise el hc sa4 sb4 ra4 rb4 va4 vb4)).mono ?_
  rintro c1 ⟨sc1, rc1, vc1⟩
  have hinv : Gives (intt_ct_rev2std t (2 ^ 10) c1) (2 ^ 10) 1431000000 (ntt (2 ^ 10) ((1014 : Zq) ^ 2)⁻¹
      (fun j => 27 * ntt (2 ^ 10) ((1014 : Zq) ^ 2)
        (fun l => negacyclic (2 ^ 10) (coeff a) (coeff b) l * 1014 ^ l) j)) := by
    have hq := ht.inv_omega_powers
    have hi32 := Props.tr_i32 (InRange.mono rc1 (by decide) (by decide))
    refine lift (fun a' e => ?_) (NttRed.wide_inv_1024 hq hp.2.2.2.2.1 c1 _ sc1 rc1 (fun i hi => by
      rw [vc1 i hi, ← conv_point hψ]; ring))
    exact Props.tr_eq (c_ct_rev2std (by omega) hq.1 (Props.unit_std hq) sc1 hi32 e)
      (wp_ct_rev2std_asm (by omega) hq.1 (Props.unit_std hq) (Is.self sc1) hi32)
  refine (wp_total.2 hinv).mono ?_
  rintro c3 ⟨sc3, rc3, vc3⟩
  have hps := ht.scaled_inv_psi_powers_var
  have hm : ∀ i, i < 2 ^ 10 → -8792064000000 ≤ elt c3 i * elt t.scaled_inv_psi_powers_var i ∧
      elt c3 i * elt t.scaled_inv_psi_powers_var i ≤ 8792064000000 := fun i hi => by
    have := NttRed.mul_bound (rc3 i (by omega)) (hps.2 i hi).1
    constructor <;> linarith
  refine (wp_total.2 (run_mul16 hk4 hk' sc3 hps.1
    (fun i hi => by have := hm i hi; exact ⟨by omega, by omega⟩))).mono ?_
  rintro c4 ⟨sc4, vc4⟩
  refine (wp_total.2 (run_twice hk4 hk' sc4 (fun i hi => by
    have := hm i (by omega)
    rw [vc4 i (by omega)]
    have hd := red_def (elt c3 i * elt t.scaled_inv_psi_powers_var i)
    omega) (F := coeff c4) (fun _ _ => rfl))).mono ?_
  rintro c5 ⟨sc5, rc5, vc5⟩
  refine (wp_total.2 (run_canon hk4 hk' sc5 rc5 vc5)).mono ?_
  rintro c6 ⟨sc6, rc6, vc6⟩
  refine ⟨sc6, sa4, sb4, rc6, ra4, rb4, fun i hi => ?_, va4, vb4⟩
  rw [vc6 i hi, NttRed.coeff_of_elt (vc4 i hi), red_zq]
  rw [← rescale6 hψ (negacyclic (2 ^ 10) (coeff a) (coeff b)) hi, ← vc3 i hi, ← (hps.2 i hi).2]
  push_cast; unfold coeff; ring

end AsmProducts
