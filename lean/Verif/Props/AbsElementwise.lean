import Verif.Proofs.AbsElem
import Verif.Props.Intervals
import Verif.Props.RedElementwise

/-
C47: the elementwise functions of src/ntt_red_interval.c over-approximate those of src/ntt_red.c.

`Inside a A`: the array `a` is contained pointwise in the array of intervals `A`.
`IsHull f X Y`: `Y` is the smallest interval that contains `f x` for all `x` in `X`.
`dbg` says whether assertions are compiled in.
-/

namespace Props
open C NTT Spec Intervals NttRedInterval

/-- Each interval of `A'` is the smallest one that contains the results of `f i` on the interval of `A`
at the same index. -/
def Tight (f : Nat → Int → Int) (A A' : Array Ivl) : Prop :=
  A'.size = A.size ∧ ∀ i X Y, A[i]? = some X → A'[i]? = some Y → IsHull (f i) X Y

/-- All intervals of the array are included in `[l, u]`. -/
def IvlsWithin (l u : Int) (A : Array Ivl) : Prop :=
  ∀ (i : Nat) (X : Ivl), A[i]? = some X → l ≤ X.min ∧ X.max ≤ u

section
variable (dbg : Bool) (n : Nat) (hn : n < 2 ^ 32) (A : Array Ivl) (hA : A.size = n)
include hn hA

/-- `abstract_reduce_array` returns the smallest intervals that contain the results of `reduce_array`
on the arrays in `A`. -/
theorem C47_reduce_array (hv : ValidArray A) :
    ∃ A', abstract_reduce_array dbg A n = .ok A' ∧ Tight (fun _ => Spec.red) A A' ∧
      ∀ a, Int32Array a → Inside a A → ∃ a', NttRed.reduce_array a n = .ok a' ∧ Inside a' A' := by
  obtain ⟨A', e, h1, h2⟩ := wp_total.1 (wp_absMap (op := fun _ X => red dbg X)
    (R := fun _ X Y => IsHull Spec.red X Y) hn hA
    (fun i X hi hX => (wp_red (hv i X hX)).mono fun Y h => h.2))
  refine ⟨A', e, ⟨by omega, h2⟩, fun a h32 hin => ?_⟩
  have hs : a.size = n := hin.1.trans hA
  obtain ⟨a', e', h⟩ := NttRed.run_reduce_array hn hs (fun i hi => h32 i (by omega))
  exact ⟨a', e', inside_of hA hin h ⟨h1, fun i X Y hX hY hx => (h2 i X Y hX hY).sound hx⟩⟩

/-- `abstract_reduce_array_twice` contains the results of `reduce_array_twice`; for intervals of
`int32_t` numbers its results are in `[-130, 12413]`. -/
theorem C47_reduce_array_twice (hv : ValidArray A) :
    ∃ A', abstract_reduce_array_twice dbg A n = .ok A' ∧
      (IvlsWithin (-2147483648) 2147483647 A → IvlsWithin (-130) 12413 A') ∧
      ∀ a, Int32Array a → Inside a A →
        ∃ a', NttRed.reduce_array_twice a n = .ok a' ∧ Inside a' A' := by
  obtain ⟨A', e, h1, h2⟩ := wp_total.1 (wp_absMap (op := fun _ X => red_twice dbg X)
    (R := fun _ X Y => (∀ x, x ∈ X → Spec.red (Spec.red x) ∈ Y) ∧
      (I32 X.min → I32 X.max → -130 ≤ Y.min ∧ Y.max ≤ 12413)) hn hA
    (fun i X hi hX => by
      obtain ⟨r, e, h⟩ := C32_red_twice dbg X (hv i X hX)
      exact NttRed.wp_of_eq e h))
  refine ⟨A', e, fun hw i Y hY => ?_, fun a h32 hin => ?_⟩
  · obtain ⟨X, hX⟩ : ∃ X, A[i]? = some X :=
      ⟨_, Array.getElem?_eq_getElem (by have := getElem?_lt hY; omega)⟩
    have h := hw i _ hX
    have hv' := (hv i _ hX).2.2
    exact (h2 i _ Y hX hY).2 ⟨h.1, by omega⟩ ⟨by omega, h.2⟩
  · have hs : a.size = n := hin.1.trans hA
    obtain ⟨a', e', h⟩ := NttRed.run_reduce_array_twice hn hs (fun i hi => h32 i (by omega))
    exact ⟨a', e', inside_of hA hin h ⟨h1, fun i X Y hX hY hx => (h2 i X Y hX hY).1 _ hx⟩⟩

/-- `abstract_normalize`, for intervals whose size fits in 64 bits. -/
theorem C47_normalize (hv : ValidArray A)
    (h64 : ∀ (i : Nat) (X : Ivl), A[i]? = some X → I64 (X.max - X.min)) :
    ∃ A', abstract_normalize dbg A n = .ok A' ∧ Tight (fun _ x => x % 12289) A A' ∧
      ∀ a, Inside a A → ∃ a', NttRed.normalize a n = .ok a' ∧ Inside a' A' := by
  obtain ⟨A', e, h1, h2⟩ := wp_total.1 (wp_absMap (op := fun _ X => normal dbg X)
    (R := fun _ X Y => IsHull (fun x => x % 12289) X Y) hn hA
    (fun i X hi hX => (wp_normal (hv i X hX).2.2 (Or.inr (h64 i X hX))).mono fun Y h => h.2.2))
  refine ⟨A', e, ⟨by omega, h2⟩, fun a hin => ?_⟩
  have hs : a.size = n := hin.1.trans hA
  obtain ⟨a', e', h⟩ := NttRed.run_normalize hn hs
  exact ⟨a', e', inside_of hA hin h ⟨h1, fun i X Y hX hY hx => (h2 i X Y hX hY).sound hx⟩⟩

/-- `abstract_normalize_inv3`, for all intervals. -/
theorem C47_normalize_inv3 :
    ∃ A', abstract_normalize_inv3 dbg A n = .ok A' ∧ IvlsWithin 0 12288 A' ∧
      ∀ a, Int32Array a → Inside a A →
        ∃ a', NttRed.normalize_inv3 a n = .ok a' ∧ Inside a' A' := by
  obtain ⟨A', e, h1, h2⟩ := wp_total.1 (wp_absMap (op := fun _ X => normal_inv3 dbg X)
    (R := fun _ X Y => (0 ≤ Y.min ∧ Y.max ≤ 12288) ∧ ∀ x, x ∈ X → (x * 8193) % 12289 ∈ Y) hn hA
    (fun i X hi hX => wp_normal_inv3.mono fun Y h => h.2))
  refine ⟨A', e, fun i Y hY => ?_, fun a h32 hin => ?_⟩
  · obtain ⟨X, hX⟩ : ∃ X, A[i]? = some X :=
      ⟨_, Array.getElem?_eq_getElem (by have := getElem?_lt hY; omega)⟩
    exact (h2 i _ Y hX hY).1
  · have hs : a.size = n := hin.1.trans hA
    obtain ⟨a', e', h⟩ := NttRed.run_normalize_inv3 hn hs (fun i hi => h32 i (by omega))
    exact ⟨a', e', inside_of hA hin h ⟨h1, fun i X Y hX hY hx => (h2 i X Y hX hY).2 _ hx⟩⟩

/-- `abstract_shift_array`, for intervals included in `[0, Q-1]`. -/
theorem C47_shift_array (hv : ValidArray A) (hw : IvlsWithin 0 12288 A) :
    ∃ A', abstract_shift_array dbg A n = .ok A' ∧ IvlsWithin (-6144) 6144 A' ∧
      Tight (fun _ x => if x > 6144 then x - 12289 else x) A A' ∧
      ∀ a, Inside a A → ∃ a', NttRed.shift_array a n = .ok a' ∧ Inside a' A' := by
  obtain ⟨A', e, h1, h2⟩ := wp_total.1 (wp_absMap (op := fun _ X => shift dbg X)
    (R := fun _ X Y => (-6144 ≤ Y.min ∧ Y.max ≤ 6144) ∧
      IsHull (fun x => if x > 6144 then x - 12289 else x) X Y) hn hA
    (fun i X hi hX => (wp_shift (hv i X hX).2.2 (hw i X hX).1 (hw i X hX).2).mono fun Y h => h.2))
  refine ⟨A', e, fun i Y hY => ?_, ⟨by omega, fun i X Y hX hY => (h2 i X Y hX hY).2⟩, fun a hin => ?_⟩
  · obtain ⟨X, hX⟩ : ∃ X, A[i]? = some X :=
      ⟨_, Array.getElem?_eq_getElem (by have := getElem?_lt hY; omega)⟩
    exact (h2 i _ Y hX hY).1
  · have hs : a.size = n := hin.1.trans hA
    obtain ⟨a', e', h⟩ := NttRed.run_shift_array hn hs (fun i hi => by
      obtain ⟨X, hX⟩ : ∃ X, A[i]? = some X := ⟨_, Array.getElem?_eq_getElem (by omega)⟩
      have h3 := hin.2 i _ _ (some_elt (by omega)) hX
      have h4 := hw i _ hX
      rw [mem_iff] at h3
      omega)
    exact ⟨a', e', inside_of hA hin h ⟨h1, fun i X Y hX hY hx => (h2 i X Y hX hY).2.sound hx⟩⟩

/-- `abstract_correct`, for intervals included in `[-Q, 2Q-1]`. -/
theorem C47_correct (hv : ValidArray A) (hw : IvlsWithin (-12289) 24577 A) :
    ∃ A', abstract_correct dbg A n = .ok A' ∧ IvlsWithin 0 12288 A' ∧
      Tight (fun _ x => x % 12289) A A' ∧
      ∀ a, Inside a A → ∃ a', NttRed.correct a n = .ok a' ∧ Inside a' A' := by
  obtain ⟨A', e, h1, h2⟩ := wp_total.1 (wp_absMap (op := fun _ X =>
      if X.min < -12289 ∨ X.max ≥ 2 * 12289 then .error .abort else correct dbg X)
    (R := fun _ X Y => (0 ≤ Y.min ∧ Y.max ≤ 12288) ∧ IsHull (fun x => x % 12289) X Y) hn hA
    (fun i X hi hX => by
      have h := hw i X hX
      rw [if_neg (by omega)]
      refine (wp_correct (hv i X hX).2.2 h.1 (by omega)).mono fun Y hY => ⟨hY.2.1, ?_⟩
      refine IsHull.congr (fun x hx => ?_) hY.2.2
      rw [mem_iff] at hx
      split
      · omega
      · split <;> omega))
  refine ⟨A', abstract_correct_eq.trans e, fun i Y hY => ?_,
    ⟨by omega, fun i X Y hX hY => (h2 i X Y hX hY).2⟩, fun a hin => ?_⟩
  · obtain ⟨X, hX⟩ : ∃ X, A[i]? = some X :=
      ⟨_, Array.getElem?_eq_getElem (by have := getElem?_lt hY; omega)⟩
    exact (h2 i _ Y hX hY).1
  · have hs : a.size = n := hin.1.trans hA
    obtain ⟨a', e', h⟩ := NttRed.run_correct hn hs (fun i hi => by
      obtain ⟨X, hX⟩ : ∃ X, A[i]? = some X := ⟨_, Array.getElem?_eq_getElem (by omega)⟩
      have h3 := hin.2 i _ _ (some_elt (by omega)) hX
      have h4 := hw i _ hX
      rw [mem_iff] at h3
      omega)
    exact ⟨a', e', inside_of hA hin h ⟨h1, fun i X Y hX hY hx => (h2 i X Y hX hY).2.sound hx⟩⟩

/-- `abstract_correct` aborts when an interval is not included in `[-Q, 2Q-1]`. -/
theorem C47_correct_abort (hv : ValidArray A) (hw : ¬ IvlsWithin (-12289) 24577 A) :
    abstract_correct dbg A n = .error .abort := by
  have key := wp_absMap (E := fun e => e = .abort) (op := fun _ X =>
      if X.min < -12289 ∨ X.max ≥ 2 * 12289 then .error .abort else correct dbg X)
    (R := fun _ X Y => -12289 ≤ X.min ∧ X.max ≤ 24577) hn hA
    (fun i X hi hX => by
      split
      · exact wp_error.2 rfl
      · exact (wp_correct (hv i X hX).2.2 (by omega) (by omega)).mono fun Y hY => by omega)
  rw [← abstract_correct_eq] at key
  generalize abstract_correct dbg A n = r at key
  cases r with
  | error e => rw [wp_error.1 key]
  | ok A' =>
    rw [wp_ok] at key
    exact absurd (fun i X hX => key.2 i X (A'[i]'(by have := getElem?_lt hX; omega)) hX
      (Array.getElem?_eq_getElem _)) hw

/-- `abstract_mul_reduce_array16`, for intervals of `int32_t` numbers and a table without 0 (for 0 see
`C32_red_scale_zero`): smallest intervals; `mul_reduce_array16` does not overflow if the abstract result
is within 2147471362 of 0, and then (and always when it returns) its result is in the abstract result. -/
theorem C47_mul_reduce_array16 (hv : ValidArray A) (hw : IvlsWithin (-2147483648) 2147483647 A)
    (p : Array Int) (hp : n ≤ p.size) (h16 : Table16 p) (h0 : ∀ i, i < n → elt p i ≠ 0) :
    ∃ A', abstract_mul_reduce_array16 dbg A n p = .ok A' ∧
      Tight (fun i x => Spec.red (x * elt p i)) A A' ∧
      ∀ a, Inside a A →
        (IvlsWithin (-2147471362) 2147471362 A' →
          ∃ a', NttRed.mul_reduce_array16 a n p = .ok a' ∧ Inside a' A') ∧
        (∀ a', NttRed.mul_reduce_array16 a n p = .ok a' → Inside a' A') := by
  have hfit : ∀ (i : Nat) (X : Ivl), A[i]? = some X → RedMulFits X.min X.max (elt p i) := fun i X hX => by
    have h1 := hw i X hX
    have h2 := (hv i X hX).2.2
    exact fits_32 (by omega) (by omega) (by omega) (by omega) (by
      rcases Nat.lt_or_ge i p.size with hi | hi
      · have := h16 i _ (some_elt hi); constructor <;> omega
      · have := getElem?_lt hX; omega)
  obtain ⟨A', e, h1, h2⟩ := wp_total.1 (wp_absMap (op := fun i X => do
      let w ← rd p i
      red_scale dbg w X)
    (R := fun i X Y => IsHull (fun x => Spec.red (x * elt p i)) X Y) hn hA
    (fun i X hi hX => by
      have h64 := RedBounds.redMulFits_w (hfit i X hX)
      simp only [wp_bind]
      refine wp_rd_some (some_elt (a := p) (by omega)) ?_
      refine (wp_red_scale (hv i X hX).2.2 (h0 i hi) ⟨by omega, by omega⟩
        (Or.inr (hfit i X hX))).mono fun Y hY => ?_
      exact IsHull.congr (fun x _ => by rw [mul_comm]) hY.2))
  refine ⟨A', abstract_mul16_eq.trans e, ⟨by omega, h2⟩, fun a hin => ?_⟩
  have hs : a.size = n := hin.1.trans hA
  have hA' : A'.size = n ∧ ∀ i X Y, A[i]? = some X → A'[i]? = some Y → elt a i ∈ X →
      Spec.red (elt a i * elt p i) ∈ Y := ⟨h1, fun i X Y hX hY hx => (h2 i X Y hX hY).sound hx⟩
  refine ⟨fun hr => ?_, fun a' ha' => ?_⟩
  · obtain ⟨a', e', h⟩ := NttRed.run_mul_reduce_array16 (p := p) hn hs hp (fun i hi => by
      obtain ⟨X, hX⟩ : ∃ X, A[i]? = some X := ⟨_, Array.getElem?_eq_getElem (by omega)⟩
      obtain ⟨Y, hY⟩ : ∃ Y, A'[i]? = some Y := ⟨_, Array.getElem?_eq_getElem (by omega)⟩
      have h3 := hA'.2 i X Y hX hY (hin.2 i _ _ (some_elt (by omega)) hX)
      have h4 := hr i Y hY
      rw [mem_iff] at h3
      exact red_range (by omega) (by omega))
    exact ⟨a', e', inside_of hA hin h hA'⟩
  · refine inside_of hA hin (conc_map hn hs (fun i b hi hb hx => ?_) ha') hA'
    simp only [wp_bind]
    exact wp_rd_some hx (wp_rd_some (some_elt (by omega)) (wp_mul_red (Or.inl fun _ => trivial)
      (wp_wr (by omega) rfl)))

/-- `abstract_scalar_mul_reduce_array`, likewise, for a scalar other than 0. -/
theorem C47_scalar_mul_reduce_array (hv : ValidArray A) (hw : IvlsWithin (-2147483648) 2147483647 A)
    (c : Int) (hc : I32 c) (h0 : c ≠ 0) :
    ∃ A', abstract_scalar_mul_reduce_array dbg A n c = .ok A' ∧
      Tight (fun _ x => Spec.red (x * c)) A A' ∧
      ∀ a, Inside a A →
        (IvlsWithin (-2147471362) 2147471362 A' →
          ∃ a', NttRed.scalar_mul_reduce_array a n c = .ok a' ∧ Inside a' A') ∧
        (∀ a', NttRed.scalar_mul_reduce_array a n c = .ok a' → Inside a' A') := by
  have hfit : ∀ (i : Nat) (X : Ivl), A[i]? = some X → RedMulFits X.min X.max c := fun i X hX => by
    have h1 := hw i X hX
    have h2 := (hv i X hX).2.2
    exact fits_32 (by omega) (by omega) (by omega) (by omega) hc
  obtain ⟨A', e, h1, h2⟩ := wp_total.1 (wp_absMap (op := fun i X => red_scale dbg c X)
    (R := fun i X Y => IsHull (fun x => Spec.red (x * c)) X Y) hn hA
    (fun i X hi hX => by
      have h64 := RedBounds.redMulFits_w (hfit i X hX)
      refine (wp_red_scale (hv i X hX).2.2 h0 ⟨by omega, by omega⟩
        (Or.inr (hfit i X hX))).mono fun Y hY => ?_
      exact IsHull.congr (fun x _ => by rw [mul_comm]) hY.2))
  refine ⟨A', e, ⟨by omega, h2⟩, fun a hin => ?_⟩
  have hs : a.size = n := hin.1.trans hA
  have hA' : A'.size = n ∧ ∀ i X Y, A[i]? = some X → A'[i]? = some Y → elt a i ∈ X →
      Spec.red (elt a i * c) ∈ Y := ⟨h1, fun i X Y hX hY hx => (h2 i X Y hX hY).sound hx⟩
  refine ⟨fun hr => ?_, fun a' ha' => ?_⟩
  · obtain ⟨a', e', h⟩ := NttRed.run_scalar_mul_reduce_array (c := c) hn hs (fun i hi => by
      obtain ⟨X, hX⟩ : ∃ X, A[i]? = some X := ⟨_, Array.getElem?_eq_getElem (by omega)⟩
      obtain ⟨Y, hY⟩ : ∃ Y, A'[i]? = some Y := ⟨_, Array.getElem?_eq_getElem (by omega)⟩
      have h3 := hA'.2 i X Y hX hY (hin.2 i _ _ (some_elt (by omega)) hX)
      have h4 := hr i Y hY
      rw [mem_iff] at h3
      exact red_range (by omega) (by omega))
    exact ⟨a', e', inside_of hA hin h hA'⟩
  · refine inside_of hA hin (conc_map hn hs (fun i b hi hb hx => ?_) ha') hA'
    simp only [wp_bind]
    exact wp_rd_some hx (wp_mul_red (Or.inl fun _ => trivial) (wp_wr (by omega) rfl))

/-- `abstract_mul_reduce_array`, whenever it returns, for intervals that reach at least as far above 0 as
below (without this condition `red_mul` is unsound, see `C43_red_mul_unsound`). -/
theorem C47_mul_reduce_array_partial (A1 A2 A' : Array Ivl) (h1 : n = A1.size) (h2 : n = A2.size)
    (hv1 : ValidArray A1) (hv2 : ValidArray A2)
    (hu1 : ∀ (i : Nat) (X : Ivl), A1[i]? = some X → LeansUp X)
    (hu2 : ∀ (i : Nat) (X : Ivl), A2[i]? = some X → LeansUp X)
    (h : abstract_mul_reduce_array dbg A n A1 A2 = .ok A') :
    ∀ c a b, c.size = n → Inside a A1 → Inside b A2 →
      (IvlsWithin (-2147471362) 2147471362 A' →
        ∃ c', NttRed.mul_reduce_array c n a b = .ok c' ∧ Inside c' A') ∧
      (∀ c', NttRed.mul_reduce_array c n a b = .ok c' → Inside c' A') := by
  have key : Wp (fun _ => True) (abstract_mul_reduce_array dbg A n A1 A2) (fun A' => A'.size = n ∧
      ∀ (i : Nat) (Z : Ivl), A'[i]? = some Z → ∀ X Y, A1[i]? = some X → A2[i]? = some Y →
        ∀ x y, x ∈ X → y ∈ Y → Spec.red (x * y) ∈ Z) := by
    refine (wp_map (Pre := fun _ _ => True) (Post := fun i (Z : Ivl) => ∀ X Y, A1[i]? = some X →
      A2[i]? = some Y → ∀ x y, x ∈ X → y ∈ Y → Spec.red (x * y) ∈ Z) hn ?_
      ⟨hA, fun _ _ _ => trivial⟩).mono fun A' h => h
    intro i B Z hi hs hZ _
    simp only [wp_bind]
    obtain ⟨X, hX⟩ : ∃ X, A1[i]? = some X := ⟨_, Array.getElem?_eq_getElem (by omega)⟩
    obtain ⟨Y, hY⟩ : ∃ Y, A2[i]? = some Y := ⟨_, Array.getElem?_eq_getElem (by omega)⟩
    refine wp_rd_some hX (wp_rd_some hY ?_)
    refine (wp_red_mul (E := fun _ => True) (hv1 i X hX) (hv2 i Y hY) ?_ (Or.inl trivial)
      (fun _ => Or.inr trivial)).mono fun R hR => wp_wr (by omega) ⟨R, rfl, ?_⟩
    · unfold larger
      split
      · exact hu2 i Y hY
      · exact hu1 i X hX
    · intro X' Y' hX' hY'
      rw [hX] at hX'
      rw [hY] at hY'
      injection hX' with hX'
      injection hY' with hY'
      subst hX' hY'
      exact hR.2.1
  rw [h, wp_ok] at key
  intro c a b hc ha hb
  have hsa : a.size = n := by rw [ha.1, h1]
  have hsb : b.size = n := by rw [hb.1, h2]
  have hm : ∀ i Z, A'[i]? = some Z → Spec.red (elt a i * elt b i) ∈ Z := by
    intro i Z hZ
    have hi : i < n := by rw [← key.1]; exact getElem?_lt hZ
    obtain ⟨X, hX⟩ : ∃ X, A1[i]? = some X := ⟨_, Array.getElem?_eq_getElem (by omega)⟩
    obtain ⟨Y, hY⟩ : ∃ Y, A2[i]? = some Y := ⟨_, Array.getElem?_eq_getElem (by omega)⟩
    exact key.2 i Z hZ X Y hX hY _ _ (ha.2 i _ _ (some_elt (by omega)) hX)
      (hb.2 i _ _ (some_elt (by omega)) hY)
  have fin : ∀ c', (c'.size = n ∧ ∀ i, i < n → elt c' i = Spec.red (elt a i * elt b i)) →
      Inside c' A' := by
    rintro c' ⟨hs, hv⟩
    refine ⟨by rw [hs, key.1], fun i x Z hx hZ => ?_⟩
    have hi : i < n := by rw [← hs]; exact getElem?_lt hx
    have h3 := hv i hi
    rw [elt_of_some hx] at h3
    rw [h3]
    exact hm i Z hZ
  refine ⟨fun hr => ?_, fun c' hc' => fin c' (conc_map hn hc (fun i d hi hd hx => ?_) hc')⟩
  · obtain ⟨c', e', h'⟩ := NttRed.run_mul_reduce_array (a := a) (b := b) hn hc (by omega) (by omega)
      (fun i hi => by
        obtain ⟨Z, hZ⟩ : ∃ Z, A'[i]? = some Z := ⟨_, Array.getElem?_eq_getElem (by omega)⟩
        have h3 := hm i Z hZ
        have h4 := hr i Z hZ
        rw [mem_iff] at h3
        exact red_range (by omega) (by omega))
    exact ⟨c', e', fin c' h'⟩
  · simp only [wp_bind]
    exact wp_rd_some (some_elt (by omega)) (wp_rd_some (some_elt (by omega))
      (wp_mul_red (Or.inl fun _ => trivial) (wp_wr (by omega) rfl)))

end

/-- Without the condition of `C47_mul_reduce_array_partial` the product of two interval arrays misses results
of the concrete product. -/
theorem C47_mul_reduce_array_unsound :
    ∃ (A A1 A2 A' : Array Ivl) (c a b c' : Array Int), ValidArray A1 ∧ ValidArray A2 ∧
      abstract_mul_reduce_array true A 1 A1 A2 = .ok A' ∧ Inside a A1 ∧ Inside b A2 ∧
      NttRed.mul_reduce_array c 1 a b = .ok c' ∧ ¬ Inside c' A' := by
  refine ⟨#[⟨0, 0⟩], #[⟨-8193, 0⟩], #[⟨3, 4⟩], #[⟨0, 12285⟩], #[0], #[-8193], #[3], #[12286],
    ?_, ?_, by decide +kernel, ?_, ?_, by decide +kernel, ?_⟩
  · intro i X h
    have := getElem?_lt h
    obtain rfl : i = 0 := by simpa using this
    simp at h
    subst h
    decide
  · intro i X h
    have := getElem?_lt h
    obtain rfl : i = 0 := by simpa using this
    simp at h
    subst h
    decide
  · refine ⟨rfl, fun i x X hx h => ?_⟩
    have := getElem?_lt h
    obtain rfl : i = 0 := by simpa using this
    simp at h hx
    subst h hx
    decide
  · refine ⟨rfl, fun i x X hx h => ?_⟩
    have := getElem?_lt h
    obtain rfl : i = 0 := by simpa using this
    simp at h hx
    subst h hx
    decide
  · intro h
    exact absurd (h.2 0 12286 ⟨0, 12285⟩ rfl rfl) (by decide)

/-- All hypotheses are met by the intervals [0, Q-1] and the table of powers. -/
example : ValidArray #[⟨0, 12288⟩, ⟨-5, 12288⟩] ∧
    abstract_mul_reduce_array16 true #[⟨0, 12288⟩, ⟨-5, 12288⟩] 2 #[3, -4096] =
      .ok #[⟨-9, 12285⟩, ⟨-5, 12288⟩] := by
  constructor
  · intro i X h
    have := getElem?_lt h
    simp at this
    interval_cases i <;> simp at h <;> subst h <;> decide
  · decide +kernel

example : abstract_correct true #[⟨0, 24578⟩] 1 = .error .abort := by decide +kernel

end Props
