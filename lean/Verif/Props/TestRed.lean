import Verif.Proofs.TestRed
import Verif.Proofs.NttRed

/-
C64: the bounds computed by test_red are right and best possible.
-/

namespace Props
open C Spec TestRed
open NttRed (ok_bind)

theorem main_parts : ∃ o a1 a2 a3 a4, TestRed.main = .ok o ∧ o.lower = -8796042698752 ∧ o.upper = 8796093026303 ∧
    o.overLower = [-8193, -4097, -1] ∧ o.overUpper = [1, 4097, 8193] ∧
    o.hexLower = toU64 (-8796042698752) ∧ o.hexUpper = toU64 8796093026303 ∧
    iter_bound ct_bound0 = .ok (a1, o.ct) ∧ iter_bound gs_bound0 = .ok (a2, o.gs) ∧
    iter_bound ct_bound = .ok (a3, o.ct2) ∧ iter_bound gs_bound = .ok (a4, o.gs2) := by
  unfold TestRed.main
  rw [find_lower_bound_eq, ok_bind, find_upper_bound_eq, ok_bind,
    scan_eq (pts := [-8193, -4097, -1]) (by norm_num) (by norm_num) (by norm_num) (by norm_num) (by decide) (by
      intro x h1 h2
      simp only [List.mem_cons, List.not_mem_nil, or_false]
      unfold Over Spec.red
      omega) (by decide), ok_bind,
    scan_eq (pts := [1, 4097, 8193]) (by norm_num) (by norm_num) (by norm_num) (by norm_num) (by decide) (by
      intro x h1 h2
      simp only [List.mem_cons, List.not_mem_nil, or_false]
      unfold Over Spec.red
      omega) (by decide), ok_bind]
  obtain ⟨a1, e1⟩ : ∃ a, iter_bound ct_bound0 = .ok a := ⟨_, rfl⟩
  obtain ⟨a2, e2⟩ : ∃ a, iter_bound gs_bound0 = .ok a := ⟨_, rfl⟩
  obtain ⟨a3, e3⟩ : ∃ a, iter_bound ct_bound = .ok a := ⟨_, rfl⟩
  obtain ⟨a4, e4⟩ : ∃ a, iter_bound gs_bound = .ok a := ⟨_, rfl⟩
  refine ⟨⟨-8796042698752, 8796093026303, [-8193, -4097, -1], [1, 4097, 8193], toU64 (-8796042698752), toU64 8796093026303,
    a1.2, a2.2, a3.2, a4.2⟩, a1.1, a2.1, a3.1, a4.1, ?_, rfl, rfl, rfl, rfl, rfl, rfl, e1, e2, e3, e4⟩
  rw [e1, ok_bind, e2, ok_bind, e3, ok_bind, e4, ok_bind]
  rfl

/-- C64: the program runs to the end without overflow or assertion failure and prints the bounds
`-8796042698752` and `8796093026303`; from -10000 to 10^9 around the first, and from -10^9 to 10000 around the second, it
finds exactly the three overflows listed. -/
theorem C64_main : ∃ o, TestRed.main = .ok o ∧ o.lower = -8796042698752 ∧ o.upper = 8796093026303 ∧
    o.overLower = [-8193, -4097, -1] ∧ o.overUpper = [1, 4097, 8193] ∧
    o.hexLower = 18446735277666852864 ∧ o.hexUpper = 8796093026303 := by
  obtain ⟨o, -, -, -, -, h, h1, h2, h3, h4, h5, h6, -⟩ := main_parts
  exact ⟨o, h, h1, h2, h3, h4, h5.trans (by decide), h6.trans (by decide)⟩

/-- C64: the interval printed is the largest one around 0 on which the reduction fits in `int32_t`: it does inside, and does
not just outside on either side. -/
theorem C64_largest_interval {o : Output} (h : TestRed.main = .ok o) :
    (∀ x, o.lower ≤ x → x ≤ o.upper → I32 (Spec.red x)) ∧ ¬ I32 (Spec.red (o.lower - 1)) ∧ ¬ I32 (Spec.red (o.upper + 1)) := by
  obtain ⟨o', e, hl, hu, -⟩ := C64_main
  cases Except.ok.inj (e.symm.trans h)
  rw [hl, hu]
  unfold I32 Spec.red
  refine ⟨fun x h1 h2 => ?_, by decide, by decide⟩
  omega

/-- C64: it is the interval which the library asserts: the modular product `mul_red` used by the lazy transforms fails its
assertion exactly on the operands whose product is outside of the interval printed by test_red.  Inside, it returns the reduction
except for the last 4096 products: the quotient by 4096 has been truncated to 32 bits and the subtraction overflows, which test_red
does not see because it computes with 64 bits (see C19). -/
theorem C64_mul_red_assertion {o : Output} (h : TestRed.main = .ok o) {x y : Int} (hx : I32 x) (hy : I32 y) :
    NttRed.mul_red x y = if o.lower ≤ x * y ∧ x * y ≤ o.upper then
      (if x * y ≤ o.upper - 4096 then .ok (Spec.red (x * y)) else .error .overflow) else .error .assertFail := by
  obtain ⟨o', e, hl, hu, -⟩ := C64_main
  cases Except.ok.inj (e.symm.trans h)
  rw [hl, hu]
  have hz : I64 (x * y) := by
    unfold I32 at hx hy
    unfold I64
    have h1 := mul_le_mul (abs_le.2 ⟨by omega, by omega⟩ : |x| ≤ 2147483648) (abs_le.2 ⟨by omega, by omega⟩ : |y| ≤ 2147483648)
      (abs_nonneg _) (by norm_num)
    rw [← abs_mul, abs_le] at h1
    omega
  by_cases hc : -8796042698752 ≤ x * y ∧ x * y ≤ 8796093026303
  · rw [if_pos hc]
    by_cases hd : x * y ≤ 8796093022207
    · rw [if_pos (by omega), NttRed.mul_red_eq hc.1 hd]
    · rw [if_neg (by omega), NttRed.mul_red_overflow (by omega) hc.2]
  · rw [if_neg hc]
    unfold NttRed.mul_red
    rw [i64_ok hz, ok_bind]
    generalize x * y = z at *
    rw [show (decide (-8796042698752 ≤ z) && decide (z ≤ 8796093026303)) = false by
      rw [Bool.eq_false_iff]; intro h; simp at h; omega]
    rfl

example : NttRed.mul_red 4194304 2097152 = .error .overflow ∧ NttRed.mul_red 4194304 2097151 = .ok (-2147482624) ∧
    NttRed.mul_red 4194304 4194304 = .error .assertFail := by decide

/-- C64: the four functions that compute bounds, and the one for reductions, are right for every bound up to 10^18: the
values after a round, or after a reduction, are at most what the function returns. -/
theorem C64_bound_functions {b : Int} (h0 : 0 ≤ b) (h1 : b ≤ 1000000000000000000) :
    (∃ b', ct_bound0 b = .ok b' ∧ CtRound b b') ∧ (∃ b', gs_bound0 b = .ok b' ∧ GsRound b b') ∧
    (∃ b', ct_bound b = .ok b' ∧ CtRound b b') ∧ (∃ b', gs_bound b = .ok b' ∧ GsRound b b') ∧
    (∃ b', reduced_bound b = .ok b' ∧ Reduces b b') :=
  ⟨bound_ct0 b h0 h1, bound_gs0 b h0 h1, bound_ct b h0 h1, bound_gs b h0 h1, bound_reduced b h0 h1⟩

example : CtRound 12288 61435 ∧ ¬ CtRound 12288 61000 := by
  refine ⟨?_, fun h => ?_⟩
  · obtain ⟨b', e, h⟩ := (C64_bound_functions (b := 12288) (by norm_num) (by norm_num)).2.2.1
    cases e
    exact h
  · have := (h 12288 (-12287) 12287 (by norm_num) (by norm_num) (by norm_num)).1
    revert this; decide

theorem sound_iter {R : Int → Int → Prop} {f : Int → M Int} (hf : BoundFor R f) {v : Int × List Line} {a : Int} {l : List Line}
    (e : iter_bound f = .ok (a, l)) (e' : iter_bound f = .ok v)
    (hv : (follows f v.2 && (v.2.head? == some (.bound 0 12288))) = true) : SoundLines R 0 12288 l := by
  cases e.symm.trans e'
  rw [Bool.and_eq_true, beq_iff_eq] at hv
  cases l with
  | nil => simp at hv
  | cons x l =>
    obtain ⟨h1, h2⟩ := hv
    simp only [List.head?_cons, Option.some.injEq] at h2
    subst h2
    exact sound_of_follows hf l _ _ h1

/-- The number of rounds printed. -/
def rounds (l : List Line) : Nat := (l.filter fun x => match x with | .bound _ _ => true | .reduction _ => false).length

/-- C64: so are the four lists of 20 rounds that are printed, starting from `B0 = Q-1`. -/
theorem C64_lines {o : Output} (h : TestRed.main = .ok o) :
    (SoundLines CtRound 0 12288 o.ct ∧ rounds o.ct = 20) ∧ (SoundLines GsRound 0 12288 o.gs ∧ rounds o.gs = 20) ∧
    (SoundLines CtRound 0 12288 o.ct2 ∧ rounds o.ct2 = 20) ∧ (SoundLines GsRound 0 12288 o.gs2 ∧ rounds o.gs2 = 20) := by
  obtain ⟨o', a1, a2, a3, a4, e, -, -, -, -, -, -, h1, h2, h3, h4⟩ := main_parts
  cases Except.ok.inj (e.symm.trans h)
  have r {f : Int → M Int} {a : Int} {l : List Line} (e : iter_bound f = .ok (a, l))
      (hv : (match iter_bound f with | .ok v => decide (rounds v.2 = 20) | .error _ => false) = true) : rounds l = 20 := by
    rw [e] at hv
    exact of_decide_eq_true hv
  exact ⟨⟨sound_iter bound_ct0 h1 rfl (by decide), r h1 (by decide)⟩, ⟨sound_iter bound_gs0 h2 rfl (by decide), r h2 (by decide)⟩,
    ⟨sound_iter bound_ct h3 rfl (by decide), r h3 (by decide)⟩, ⟨sound_iter bound_gs h4 rfl (by decide), r h4 (by decide)⟩⟩

/-- C64: at most 8 rounds of the first kind, 6 of the second, fit between two reductions: the lines of the refined
bounds with their reductions. -/
theorem C64_reductions {o : Output} (h : TestRed.main = .ok o) :
    Line.bound 8 1073266704 ∈ o.ct2 ∧ Line.reduction 274314 ∈ o.ct2 ∧ Line.bound 6 687670140 ∈ o.gs2 ∧
      Line.reduction 180174 ∈ o.gs2 := by
  obtain ⟨o', a1, a2, a3, a4, e, -, -, -, -, -, -, h1, h2, h3, h4⟩ := main_parts
  cases Except.ok.inj (e.symm.trans h)
  have r {f : Int → M Int} {a : Int} {l : List Line} (x : Line) (e : iter_bound f = .ok (a, l))
      (hv : (match iter_bound f with | .ok v => decide (x ∈ v.2) | .error _ => false) = true) : x ∈ l := by
    rw [e] at hv
    exact of_decide_eq_true hv
  exact ⟨r _ h3 (by decide), r _ h3 (by decide), r _ h4 (by decide), r _ h4 (by decide)⟩

end Props
