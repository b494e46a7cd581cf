import Verif.Proofs.KatData
import Verif.Proofs.TestDetect
import Verif.Proofs.TestTrips

/-
The known-answer tests: the global arrays after `build_kat`, the test of correct functions, and what passing it means.
-/

namespace Kat
open C Spec NTT Tables Finset

theorem row_size (x : Nat) : (row x).size = 1024 := Array.size_ofFn

theorem elt_row (x : Nat) {i : Nat} (hi : i < 1024) : elt (row x) i = (dig 16 x i : Int) := by
  unfold elt row dig
  rw [Array.getD_eq_getD_getElem?, Array.getElem?_ofFn, dif_pos hi]
  rfl

/-! ### build_kat -/

theorem run_copyRow {src : Array Int} (hs : src.size = 1024) {r : Nat} (hr : r < 100) {a : Array (Array Int)}
    (ha : a.size = 100) (hrow : ∀ i, i < 100 → (rowOf a i).size = 1025) :
    ∃ a', copyRow src r a = .ok a' ∧ a'.size = 100 ∧ (∀ i, i < 100 → (rowOf a' i).size = 1025) ∧
      (∀ i, i ≠ r → rowOf a' i = rowOf a i) ∧ ∀ i, i < 1024 → elt (rowOf a' r) i = elt src i := by
  have hx : rd a r = .ok (rowOf a r) := by
    unfold rd rowOf
    rw [Array.getD_eq_getD_getElem?, Array.getElem?_eq_getElem (by omega)]
    rfl
  have hx0 := hrow r hr
  obtain ⟨x, ex, h1, h2⟩ := wp_total.1 (wp_forUp1 (E := NoErr) (lo := 0) (hi := 1024) (s := rowOf a r)
    (body := fun i x => do let v ← rd src i; wr x i v)
    (P := fun x => x.size = 1025 ∧ ∀ i, i < 1024 → elt x i = elt src i)
    (fun i (x : Array Int) => x.size = 1025 ∧ ∀ l, l < i → elt x l = elt src l) (by omega) (by omega)
    ⟨hx0, fun l hl => absurd hl (Nat.not_lt_zero _)⟩ (by
      rintro i x - hi ⟨h1, h2⟩
      rw [wp_bind]
      refine wp_rd_some (some_elt (by omega)) ?_
      rw [TestProg.wr_ok (by omega), wp_ok]
      refine ⟨by simp [h1], fun l hl => ?_⟩
      rw [TestProg.elt_set (by omega)]
      split
      · subst l; rfl
      · exact h2 l (by omega)) (fun s h => h))
  refine ⟨a.setIfInBounds r x, ?_, by simp [ha], ?_, ?_, ?_⟩
  · unfold copyRow
    rw [hx, TestProg.ok_bind, ex, TestProg.ok_bind, TestProg.wr_ok (by omega)]
  · intro i hi
    by_cases h : i = r
    · subst h; unfold rowOf
      rw [Array.getD_eq_getD_getElem?, Array.getElem?_setIfInBounds_self_of_lt (by omega)]; exact h1
    · unfold rowOf
      rw [Array.getD_eq_getD_getElem?, Array.getElem?_setIfInBounds_ne (Ne.symm h), ← Array.getD_eq_getD_getElem?]
      exact hrow i hi
  · intro i h
    unfold rowOf
    rw [Array.getD_eq_getD_getElem?, Array.getElem?_setIfInBounds_ne (Ne.symm h), ← Array.getD_eq_getD_getElem?]
  · intro i hi
    unfold rowOf
    rw [Array.getD_eq_getD_getElem?, Array.getElem?_setIfInBounds_self_of_lt (by omega)]; exact h2 i hi

/-- A table of 100 rows of 1025 elements whose rows below `r` come from the list. -/
def Filled (l : List Nat) (r : Nat) (a : Array (Array Int)) : Prop :=
  a.size = 100 ∧ (∀ i, i < 100 → (rowOf a i).size = 1025) ∧
    ∀ i, i < r → ∀ j, j < 1024 → elt (rowOf a i) j = (dig 16 (l.getD i 0) j : Int)

theorem Filled.step {l : List Nat} {r : Nat} (hr : r < 100) {a : Array (Array Int)} (h : Filled l r a) :
    ∃ a', copyRow (row (l.getD r 0)) r a = .ok a' ∧ Filled l (r + 1) a' := by
  obtain ⟨a', e, h1, h2, h3, h4⟩ := run_copyRow (row_size _) hr h.1 h.2.1
  refine ⟨a', e, h1, h2, fun i hi j hj => ?_⟩
  by_cases hir : i = r
  · subst hir; rw [h4 j hj, elt_row _ hj]
  · rw [h3 i hir]; exact h.2.2 i (by omega) j hj

theorem filled_zero (l : List Nat) : Filled l 0 (Array.replicate REPETITIONS (Array.replicate N (0 : Int))) := by
  refine ⟨by simp [REPETITIONS], fun i hi => ?_, fun i hi => absurd hi (Nat.not_lt_zero _)⟩
  unfold rowOf
  rw [Array.getD_eq_getD_getElem?, Array.getElem?_replicate, if_pos (by unfold REPETITIONS; omega)]
  simp [N]

theorem run_build_kat : ∃ g, build_kat zeros = .ok g ∧ Filled Data.a 100 g.a ∧ Filled Data.b 100 g.b ∧
    Filled Data.c 100 g.c := by
  refine wp_total.1 (wp_forUp1 (fun r (g : Globals) => Filled Data.a r g.a ∧ Filled Data.b r g.b ∧ Filled Data.c r g.c)
    (by omega) (by omega) ⟨filled_zero _, filled_zero _, filled_zero _⟩ ?_ fun s h => h)
  rintro r g - hr ⟨h1, h2, h3⟩
  obtain ⟨a, ea, h1⟩ := h1.step hr
  obtain ⟨b, eb, h2⟩ := h2.step hr
  obtain ⟨c, ec, h3⟩ := h3.step hr
  simp only [ea, eb, ec, TestProg.ok_bind]
  rw [wp_pure]
  exact ⟨h1, h2, h3⟩

theorem Filled.rows {l : List Nat} {a : Array (Array Int)} (h : Filled l 100 a) {r : Nat} (hr : r < 100) {j : Nat}
    (hj : j < 1024) : coeff (rowOf a r) j = (dig 16 (l.getD r 0) j : Zq) := by
  unfold coeff; rw [h.2.2 r hr j hj]; push_cast; rfl

theorem negacyclic_congr' {n : Nat} {A A' B B' : Nat → Zq} (hA : ∀ i, i < n → A i = A' i) (hB : ∀ i, i < n → B i = B' i)
    (k : Nat) : negacyclic n A B k = negacyclic n A' B' k := by
  unfold negacyclic
  refine sum_congr rfl fun i hi => sum_congr rfl fun j hj => ?_
  rw [hA i (mem_range.1 hi), hB j (mem_range.1 hj)]

/-- What `build_kat` leaves in the global arrays. -/
structure GlobalsOK (g : Globals) : Prop where
  a : g.a.size = 100 ∧ ∀ i, i < 100 → (rowOf g.a i).size = 1025
  b : g.b.size = 100 ∧ ∀ i, i < 100 → (rowOf g.b i).size = 1025
  c : g.c.size = 100 ∧ ∀ i, i < 100 → (rowOf g.c i).size = 1025
  known : KnownAnswers g

theorem build_ok : ∃ g, build_kat zeros = .ok g ∧ GlobalsOK g := by
  obtain ⟨g, e, h1, h2, h3⟩ := run_build_kat
  refine ⟨g, e, ⟨h1.1, h1.2.1⟩, ⟨h2.1, h2.2.1⟩, ⟨h3.1, h3.2.1⟩, fun r hr => ?_⟩
  obtain ⟨c1, c2⟩ := check_sound (checkAll_sound data_ok r (by rw [data_length]; exact hr))
  have lift : ∀ {l : List Nat} {a : Array (Array Int)}, Filled l 100 a →
      (∀ i, i < 1024 → dig 16 (l.getD r 0) i < 12289) → ReducedUpTo 1024 (rowOf a r) := by
    intro l a h hl i hi
    have := hl i hi
    rw [h.2.2 r hr i hi]
    omega
  refine ⟨⟨lift h1 fun i hi => (c1 i hi).1, lift h2 fun i hi => (c1 i hi).2.1, lift h3 fun i hi => (c1 i hi).2.2⟩,
    fun i hi => ?_⟩
  rw [h3.rows hr hi, c2 i hi]
  exact negacyclic_congr' (fun j hj => (h1.rows hr hj).symm) (fun j hj => (h2.rows hr hj).symm) i

/-! ### The tests -/

theorem rd_row {a : Array (Array Int)} (ha : a.size = 100) {r : Nat} (hr : r < 100) : rd a r = .ok (rowOf a r) := by
  unfold rd rowOf
  rw [Array.getD_eq_getD_getElem?, Array.getElem?_eq_getElem (by omega)]
  rfl

theorem run_copy_poly {a b : Array Int} (ha : a.size = 1024) (hb : b.size = 1025) :
    ∃ a', copy_poly a b = .ok a' ∧ Copy a' b := by
  obtain ⟨a', e, h1, h2⟩ := TestProg.run_fill (n := 1024) (by omega) ha (fun i => elt b i)
    (body := fun i a => do let x ← rd b i; wr a i x) (fun i a hi hs => by
      have : rd b i = .ok (elt b i) := by unfold rd; rw [some_elt (by omega)]
      rw [this, TestProg.ok_bind, TestProg.wr_ok (by omega)])
  exact ⟨a', e, h1, h2⟩

theorem _root_.Spec.Copy.reduced {x y : Array Int} (h : Copy x y) (hy : ReducedUpTo 1024 y) : Reduced x := fun i hi => by
  have := h.1
  rw [h.2 i (by omega)]
  exact hy i (by omega)

theorem _root_.Spec.Copy.coeff {x y : Array Int} (h : Copy x y) {i : Nat} (hi : i < 1024) : coeff x i = coeff y i := by
  unfold Spec.coeff; rw [h.2 i hi]

/-- The comparison of a result with a known answer. -/
theorem run_compare {u z : Array Int} (hu : u.size = 1024) (hz : z.size = 1025) :
    forUp 0 1024 1 (fun j (_ : Unit) => do
      let u ← rd u j
      let v ← rd z j
      if u ≠ v then .error .abort else pure ()) () = .ok () ↔ ∀ i, i < 1024 → elt u i = elt z i := by
  have step : ∀ j, j < 1024 → (do
      let u ← rd u j
      let v ← rd z j
      if u ≠ v then (.error .abort : M Unit) else pure ()) = if elt u j ≠ elt z j then .error .abort else pure () := by
    intro j hj
    have h1 : rd u j = .ok (elt u j) := by unfold rd; rw [some_elt (by omega)]
    have h2 : rd z j = .ok (elt z j) := by unfold rd; rw [some_elt (by omega)]
    rw [h1, TestProg.ok_bind, h2, TestProg.ok_bind]
  constructor
  · intro h
    obtain ⟨S, -, -, h3⟩ := TestProg.forUp_states (by omega) h
    intro i hi
    have := h3 i hi
    rw [step i hi] at this
    by_contra hne
    rw [if_pos hne] at this
    cases this
  · intro h
    obtain ⟨⟨⟩, e, -⟩ := wp_total.1 (wp_forUp1 (E := NoErr) (lo := 0) (hi := 1024) (s := ()) (body := fun j (_ : Unit) => do
      let u ← rd u j
      let v ← rd z j
      if u ≠ v then .error .abort else pure ()) (P := fun _ => True) (fun _ _ => True) (by omega) (by omega) trivial
      (fun i s _ hi _ => by
        rw [step i hi, if_neg (by rw [h i hi]; exact fun h => h rfl), wp_pure]; trivial) (fun _ _ => trivial))
    exact e

theorem canon_eq {x y : Int} (hx : 0 ≤ x ∧ x ≤ 12288) (hy : 0 ≤ y ∧ y ≤ 12288) (h : (x : Zq) = (y : Zq)) : x = y := by
  rw [zq_eq_iff] at h; omega

/-- A function that multiplies reduced arrays. -/
def Multiplies (f : Product) : Prop :=
  ∀ d x y : Array Int, d.size = 1024 → x.size = 1024 → y.size = 1024 → Reduced x → Reduced y →
    ∃ d' x' y', f d x y = .ok (d', x', y') ∧ d'.size = 1024 ∧ x'.size = 1024 ∧ y'.size = 1024 ∧ Reduced d' ∧
      ∀ i, i < 1024 → coeff d' i = negacyclic 1024 (coeff x) (coeff y) i

/-- Sizes of the local arrays. -/
def Locals (s : Array Int × Array Int × Array Int) : Prop := s.1.size = 1024 ∧ s.2.1.size = 1024 ∧ s.2.2.size = 1024

theorem run_test {g : Globals} (hg : GlobalsOK g) {f : Product} (hf : Multiplies f) {ua ub uc : Array Int}
    (h1 : ua.size = 1024) (h2 : ub.size = 1024) (h3 : uc.size = 1024) :
    test_mul_from_KAT_values g f ua ub uc = .ok () := by
  obtain ⟨s, e, -⟩ := wp_total.1 (wp_forUp1 (E := NoErr) (lo := 0) (hi := REPETITIONS) (body := round g f)
    (s := (ua, ub, uc)) (P := Locals) (fun _ s => Locals s) (by unfold REPETITIONS; omega) (Nat.zero_le _) ⟨h1, h2, h3⟩
    (by
      rintro r s - hr ⟨h1, h2, h3⟩
      have hr : r < 100 := hr
      obtain ⟨⟨ka, kb, kc⟩, kp⟩ := hg.known r hr
      obtain ⟨x, ex, hx⟩ := run_copy_poly h1 (hg.a.2 r hr)
      obtain ⟨y, ey, hy⟩ := run_copy_poly h2 (hg.b.2 r hr)
      obtain ⟨d', x', y', e, s1, s2, s3, hd, hv⟩ := hf s.2.2 x y h3 hx.1 hy.1 (hx.reduced ka) (hy.reduced kb)
      have hc := (run_compare s1 (hg.c.2 r hr)).2 fun i hi => by
        refine canon_eq (hd i (by omega)) (kc i hi) ?_
        show coeff d' i = coeff (rowOf g.c r) i
        rw [hv i hi, kp i hi]
        exact negacyclic_congr' (fun j hj => hx.coeff hj) (fun j hj => hy.coeff hj) i
      unfold round
      simp only [rd_row hg.a.1 hr, rd_row hg.b.1 hr, rd_row hg.c.1 hr, TestProg.ok_bind, ex, ey, e, hc]
      rw [wp_pure]
      exact ⟨s2, s3, s1⟩) (fun s h => h))
  unfold test_mul_from_KAT_values
  rw [e]; rfl

theorem run_tests {g : Globals} (hg : GlobalsOK g) {junk : Nat → Array Int} (hj : ∀ i, (junk i).size = 1024) :
    ∀ {fs : List Product} (k : Nat), (∀ f ∈ fs, Multiplies f) → tests g junk fs k = .ok ()
  | [], _, _ => rfl
  | f :: fs, k, h => by
    unfold tests
    rw [run_test hg (h f (by simp)) (hj _) (hj _) (hj _), TestProg.ok_bind]
    exact run_tests hg hj (k + 3) fun f hf => h f (by simp [hf])

theorem run_main {junk : Nat → Array Int} (hj : ∀ i, (junk i).size = 1024) {fs : List Product}
    (h : ∀ f ∈ fs, Multiplies f) : main junk fs = .ok () := by
  obtain ⟨g, e, hg⟩ := build_ok
  unfold main
  rw [e, TestProg.ok_bind]
  exact run_tests hg hj 0 h

/-! ### What passing means -/

theorem round_meaning {g : Globals} (hg : GlobalsOK g) {f : Product} (hk : KeepsSizes f) {r : Nat} (hr : r < 100)
    {s s' : Array Int × Array Int × Array Int} (hs : Locals s) (h : round g f r s = .ok s') :
    Locals s' ∧ ∃ x y, Copy x (rowOf g.a r) ∧ Copy y (rowOf g.b r) ∧ f s.2.2 x y = .ok (s'.2.2, s'.1, s'.2.1) ∧
      Reduced s'.2.2 ∧ ∀ i, i < 1024 → coeff s'.2.2 i = negacyclic 1024 (coeff x) (coeff y) i := by
  obtain ⟨⟨ka, kb, kc⟩, kp⟩ := hg.known r hr
  obtain ⟨x, ex, hx⟩ := run_copy_poly hs.1 (hg.a.2 r hr)
  obtain ⟨y, ey, hy⟩ := run_copy_poly hs.2.1 (hg.b.2 r hr)
  unfold round at h
  simp only [rd_row hg.a.1 hr, rd_row hg.b.1 hr, rd_row hg.c.1 hr, TestProg.ok_bind, ex, ey] at h
  obtain ⟨⟨d', x', y'⟩, e, h⟩ := TestProg.bind_ok h
  obtain ⟨s1, s2, s3⟩ := hk _ _ _ _ _ _ hs.2.2 hx.1 hy.1 e
  obtain ⟨⟨⟩, e2, h⟩ := TestProg.bind_ok h
  have hc := (run_compare s1 (hg.c.2 r hr)).1 e2
  cases h
  refine ⟨⟨s2, s3, s1⟩, x, y, hx, hy, e, fun i hi => ?_, fun i hi => ?_⟩
  · rw [hc i (by simp only at hi; omega)]; exact kc i (by simp only at hi; omega)
  · rw [Spec.coeff, hc i hi]
    show coeff (rowOf g.c r) i = _
    rw [kp i hi]
    exact negacyclic_congr' (fun j hj => (hx.coeff hj).symm) (fun j hj => (hy.coeff hj).symm) i

theorem test_meaning {g : Globals} (hg : GlobalsOK g) {f : Product} (hk : KeepsSizes f) {ua ub uc : Array Int}
    (h1 : ua.size = 1024) (h2 : ub.size = 1024) (h3 : uc.size = 1024)
    (h : test_mul_from_KAT_values g f ua ub uc = .ok ()) : RightOnKat g f := by
  unfold test_mul_from_KAT_values at h
  obtain ⟨s', e, -⟩ := TestProg.bind_ok h
  obtain ⟨S, e0, -, hS⟩ := TestProg.forUp_states (by unfold REPETITIONS; omega) e
  have hL : ∀ r, r ≤ 100 → Locals (S r) := by
    intro r
    induction r with
    | zero => intro _; rw [e0]; exact ⟨h1, h2, h3⟩
    | succ r ih => intro hr; exact (round_meaning hg hk (by omega) (ih (by omega)) (hS r (show r < 100 by omega))).1
  intro r hr
  have hl := hL r (by omega)
  obtain ⟨hl', x, y, hx, hy, e, hd, hv⟩ := round_meaning hg hk hr hl (hS r hr)
  exact ⟨_, x, y, _, _, _, hl.2.2, hx, hy, e, hd, hv⟩

theorem tests_meaning {g : Globals} (hg : GlobalsOK g) {junk : Nat → Array Int} (hj : ∀ i, (junk i).size = 1024) :
    ∀ {fs : List Product} (k : Nat), (∀ f ∈ fs, KeepsSizes f) → tests g junk fs k = .ok () → ∀ f ∈ fs, RightOnKat g f
  | [], _, _, _ => by simp
  | f :: fs, k, hk, h => by
    unfold tests at h
    obtain ⟨⟨⟩, e, h⟩ := TestProg.bind_ok h
    intro f' hf'
    rcases List.mem_cons.1 hf' with rfl | hf'
    · exact test_meaning hg (hk _ (by simp)) (hj _) (hj _) (hj _) e
    · exact tests_meaning hg hj (k + 3) (fun f hf => hk f (by simp [hf])) h f' hf'

end Kat
