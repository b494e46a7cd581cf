import Verif.Proofs.AbsMul

/-
The elementwise functions of src/ntt_red_interval.c.
-/

namespace Intervals
open C NTT Spec

variable {E : Err → Prop} {n : Nat}

/-- A loop that replaces each interval of an array by the result of `op`. -/
theorem wp_absMap {op : Nat → Ivl → M Ivl} {A : Array Ivl} {R : Nat → Ivl → Ivl → Prop}
    (hn : n < 4294967296) (hA : A.size = n)
    (hop : ∀ i X, i < n → A[i]? = some X → Wp E (op i X) (R i X)) :
    Wp E (forUp 0 n 1 (fun i A => do
      let x ← rd A i
      let y ← op i x
      wr A i y) A) (fun A' => A'.size = n ∧ ∀ i X Y, A[i]? = some X → A'[i]? = some Y → R i X Y) := by
  have key := wp_map (E := E) (n := n) (a := A) (Pre := fun i X => A[i]? = some X)
    (Post := fun i Y => ∃ X, A[i]? = some X ∧ R i X Y)
    (body := fun i A => do
      let x ← rd A i
      let y ← op i x
      wr A i y) hn ?_ ⟨hA, fun i X hX => hX⟩
  · refine key.mono fun A' h => ⟨h.1, fun i X Y hX hY => ?_⟩
    obtain ⟨X', h1, h2⟩ := h.2 i Y hY
    rw [hX] at h1
    injection h1 with h1
    rwa [h1]
  · intro i B X hi hs hX hA'
    simp only [wp_bind]
    refine wp_rd_some hX ((hop i X hi hA').mono fun Y hY => ?_)
    exact wp_wr (by omega) ⟨Y, rfl, X, hA', hY⟩

/-- Pointwise inclusion of the results of two loops. -/
theorem inside_of {a' a : Array Int} {A A' : Array Ivl} {F : Nat → Int} (hA : A.size = n)
    (ha : Inside a A)
    (ha' : a'.size = n ∧ ∀ i, i < n → elt a' i = F i)
    (hA' : A'.size = n ∧ ∀ i X Y, A[i]? = some X → A'[i]? = some Y → elt a i ∈ X → F i ∈ Y) :
    Inside a' A' := by
  refine ⟨by rw [ha'.1, hA'.1], fun i x Y hx hY => ?_⟩
  have hi : i < n := by rw [← ha'.1]; exact getElem?_lt hx
  have h1 := ha'.2 i hi
  rw [elt_of_some hx] at h1
  rw [h1]
  have hX : A[i]? = some A[i] := Array.getElem?_eq_getElem (by omega)
  exact hA'.2 i _ Y hX hY (ha.2 i _ _ (some_elt (by have := ha.1; omega)) hX)

/-- Inversion of a concrete loop. -/
theorem conc_map {body : Nat → Array Int → M (Array Int)} {a a' : Array Int} {F : Nat → Int}
    (hn : n < 4294967296) (ha : a.size = n)
    (hb : ∀ i b, i < n → b.size = n → b[i]? = some (elt a i) →
      Wp (fun _ => True) (body i b) (fun b' => b' = b.setIfInBounds i (F i)))
    (h : forUp 0 n 1 body a = .ok a') : a'.size = n ∧ ∀ i, i < n → elt a' i = F i := by
  have key := wp_map (E := fun _ => True) (body := body) (n := n)
    (Pre := fun i x => x = elt a i) (Post := fun i x => x = F i) hn
    (fun i b x hi hs hx he => (hb i b hi hs (by rw [hx, he])).mono fun b' h => ⟨_, h, rfl⟩)
    (pw_elts.2 ⟨ha, fun i _ => rfl⟩)
  rw [h, wp_ok] at key
  exact ⟨key.1, fun i hi => key.2 i _ (some_elt (by rw [key.1]; exact hi))⟩

theorem IsHull.congr {f g : Int → Int} {X Y : Ivl} (h : ∀ x, x ∈ X → f x = g x) (hY : IsHull f X Y) :
    IsHull g X Y := by
  have e : {v | ∃ x, x ∈ X ∧ v = g x} = {v | ∃ x, x ∈ X ∧ v = f x} := by
    ext v
    constructor
    · rintro ⟨x, hx, rfl⟩; exact ⟨x, hx, (h x hx).symm⟩
    · rintro ⟨x, hx, rfl⟩; exact ⟨x, hx, h x hx⟩
  unfold IsHull
  rw [e]
  exact hY

theorem fits_32 {a b w : Int} (h1 : -2147483648 ≤ a) (h2 : a ≤ 2147483647) (h3 : -2147483648 ≤ b)
    (h4 : b ≤ 2147483647) (hw : I32 w) : RedMulFits a b w := by
  have hw' : |w| ≤ 2147483648 := abs_le.2 ⟨by have := hw.1; omega, by have := hw.2; omega⟩
  have ha : |a| ≤ 2147483648 := abs_le.2 ⟨by omega, by omega⟩
  have hb : |b| ≤ 2147483648 := abs_le.2 ⟨by omega, by omega⟩
  have h0 := abs_nonneg w
  have h5 := abs_nonneg a
  have h6 := abs_nonneg b
  constructor
  · nlinarith
  · nlinarith

open NttRedInterval

theorem abstract_correct_eq {dbg : Bool} {A : Array Ivl} :
    abstract_correct dbg A n = forUp 0 n 1 (fun i A => do
      let x ← rd A i
      let y ← (if x.min < -12289 ∨ x.max ≥ 2 * 12289 then .error .abort else correct dbg x)
      wr A i y) A := by
  unfold abstract_correct
  congr 1
  funext i A
  congr 1
  funext x
  split <;> rfl

theorem abstract_mul16_eq {dbg : Bool} {A : Array Ivl} {p : Array Int} :
    abstract_mul_reduce_array16 dbg A n p = forUp 0 n 1 (fun i A => do
      let x ← rd A i
      let y ← (do
        let w ← rd p i
        red_scale dbg w x)
      wr A i y) A := by
  unfold abstract_mul_reduce_array16
  congr 1
  funext i A
  congr 1
  funext x
  cases rd p i <;> rfl

end Intervals
