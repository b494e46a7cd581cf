import Verif.Proofs.Harness
import Verif.Proofs.Params
import Verif.Props.AnyTable
import Verif.Props.Agree

/-
C70: the eight verification harnesses of verifier/vstte20-benchmarks.  No assertion can fail and no arithmetic
overflows, whatever values the nondeterministic inputs take (verifier/README.md: no error and no warning in any of
the eight); the harnesses cover all inputs of the transforms in the ranges assumed, and what holds of the transforms
they are linked with holds of the transforms of src/ntt_red.c.

`Build.Good` (Verif/Proofs/Harness.lean) is a build with `-DSAFE` (Makefile) and either the code of `mul_red` or an
intrinsic that computes the reduction `3 * (z mod 2^12) - floor(z / 2^12)`.
-/

namespace Props
open C NTT Spec Tables Harness

/-- `program` passes for all nondeterministic choices: if some value violates an assumption the execution ends there;
otherwise the array is any array with elements in `[0, Q-1]`, and the program returns what `transform` returns on it, with
results bounded by `B`. -/
def Passes (program : (Nat → Int) → M (Option (Array Int))) (transform : Array Int → M (Array Int)) (B : Int) : Prop :=
  (∀ nd : Nat → Int, (∃ i, i < 1024 ∧ ¬ (0 ≤ nd i ∧ nd i < 12289)) → program nd = .ok none) ∧
  (∀ nd : Nat → Int, (∀ i, i < 1024 → 0 ≤ nd i ∧ nd i < 12289) →
    ∃ a', program nd = .ok (some a') ∧ a'.size = 1024 ∧ InRange (-B) B a') ∧
  ∀ (nd : Nat → Int) (a : Array Int), a.size = 1024 → Reduced a → (∀ i, i < 1024 → nd i = elt a i) →
    ∃ a', transform a = .ok a' ∧ program nd = .ok (some a')

/-- The array with given elements. -/
private theorem exists_array (n : Nat) (f : Nat → Int) : ∃ a : Array Int, a.size = n ∧ ∀ i, i < n → elt a i = f i := by
  refine ⟨Array.ofFn (n := n) fun i => f i, Array.size_ofFn, fun i hi => ?_⟩
  simp [elt, hi]

private theorem passes {f g : Array Int → Nat → Array Int → M (Array Int)} {p : Array Int} {B : Int}
    (hle : ∀ a n p, Le (g a n p) (f a n p)) (h : NeverFails g 10 B) (hp : AnyTable16 1024 p) :
    Passes (run f p) (fun a => g a 1024 p) B := by
  have h3 : ∀ (nd : Nat → Int) (a : Array Int), a.size = 1024 → Reduced a → (∀ i, i < 1024 → nd i = elt a i) →
      ∃ a', g a 1024 p = .ok a' ∧ run f p nd = .ok (some a') ∧ a'.size = 1024 ∧ InRange (-B) B a' := by
    intro nd a ha hr hnd
    obtain ⟨a', e, hs, hb⟩ := h a p ha (fun i hi => by have := hr i hi; omega) hp
    refine ⟨a', e, ?_, hs, hb⟩
    exact (run_spec nd).2 a ha (fun i hi => by have := hr i (by omega); rw [hnd i hi]; exact ⟨rfl, by omega, by omega⟩) a'
      (hle a 1024 p a' e)
  refine ⟨fun nd hnd => (run_spec nd).1 hnd, fun nd hnd => ?_, fun nd a ha hr h => ?_⟩
  · obtain ⟨a, ha, hv⟩ := exists_array 1024 nd
    obtain ⟨a', -, e, hs, hb⟩ := h3 nd a ha (fun i hi => by have := hnd i (by omega); rw [hv i (by omega)]; omega)
      fun i hi => (hv i hi).symm
    exact ⟨a', e, hs, hb⟩
  · obtain ⟨a', e, e', -, -⟩ := h3 nd a ha hr h
    exact ⟨a', e, e'⟩

private theorem any_of_range {p : Array Int} (h : p.size = 2 ^ 10 ∧ InRange (-6144) 6144 p) : AnyTable16 1024 p := by
  refine ⟨le_of_eq h.1.symm, fun i w hw => ?_⟩
  have := h.2 i (getElem?_lt hw)
  rw [show elt p i = w by simp [elt, hw]] at this
  exact abs_le.2 this

variable {B : Build} {buf : Nat → Array Nat} {t : RedTables}

/-- The six harnesses with tables of the library. -/
theorem C70_tables (hB : B.Good) (hbuf : ∀ n, (buf n).size = n) (ht : make_red_tables buf 1024 1014 = .ok t) :
    Passes (harness_intt_red1024 B t) (fun a => NttRed.ntt_red_ct_std2rev a 1024 t.inv_omega_powers_rev) 283144017 ∧
    Passes (harness_intt_red1024b B t) (fun a => NttRed.ntt_red_ct_rev2std a 1024 t.inv_omega_powers) 283144017 ∧
    Passes (harness_ntt_red1024 B t) (fun a => NttRed.ntt_red_ct_std2rev a 1024 t.omega_powers_rev) 283144017 ∧
    Passes (harness_ntt_red1024b B t) (fun a => NttRed.ntt_red_ct_rev2std a 1024 t.omega_powers) 283144017 ∧
    Passes (harness_ntt_red1024e B t) (fun a => NttRed.ntt_red_gs_std2rev a 1024 t.omega_powers) 1632255839 ∧
    Passes (harness_ntt_red1024f B t) (fun a => NttRed.ntt_red_gs_rev2std a 1024 t.omega_powers_rev) 1632255839 := by
  have hg : GoodParams 10 1024 1014 := libraryParams_good (10, 1024, 1014) (by simp [libraryParams])
  obtain ⟨t', e, hok⟩ := red_tables_ok hg hbuf
  have : t' = t := Except.ok.inj (e.symm.trans ht)
  subst this
  have h1 := any_of_range (hok.entries t'.omega_powers (by simp))
  have h2 := any_of_range (hok.entries t'.omega_powers_rev (by simp))
  have h3 := any_of_range (hok.entries t'.inv_omega_powers (by simp))
  have h4 := any_of_range (hok.entries t'.inv_omega_powers_rev (by simp))
  exact ⟨passes (le_ntt_red_ct_std2rev hB) (C46_1024.1 _ (by simp)) h4,
    passes (le_ntt_red_ct_rev2std hB) (C46_1024.1 _ (by simp)) h3,
    passes (le_ntt_red_ct_std2rev hB) (C46_1024.1 _ (by simp)) h2,
    passes (le_ntt_red_ct_rev2std hB) (C46_1024.1 _ (by simp)) h1,
    passes (le_ntt_red_gs_std2rev hB) (C46_1024.2 _ (by simp)) h1,
    passes (le_ntt_red_gs_rev2std hB) (C46_1024.2 _ (by simp)) h2⟩

/-- The two harnesses with an arbitrary table: `program` passes for all nondeterministic choices. -/
def PassesTable (program : (Nat → Int) → M (Option (Array Int)))
    (transform : Array Int → Array Int → M (Array Int)) (B : Int) : Prop :=
  (∀ nd : Nat → Int, ((∃ i, i < 1024 ∧ ¬ (0 ≤ nd i ∧ nd i < 12289)) ∨
      (∃ i, 1024 ≤ i ∧ i < 2048 ∧ ¬ (-6144 ≤ nd i ∧ nd i < 6144))) → program nd = .ok none) ∧
  (∀ nd : Nat → Int, (∀ i, i < 1024 → 0 ≤ nd i ∧ nd i < 12289) →
    (∀ i, 1024 ≤ i → i < 2048 → -6144 ≤ nd i ∧ nd i < 6144) →
    ∃ a', program nd = .ok (some a') ∧ a'.size = 1024 ∧ InRange (-B) B a') ∧
  ∀ (nd : Nat → Int) (a p : Array Int), a.size = 1024 → Reduced a → p.size = 1024 → InRange (-6144) 6143 p →
    (∀ i, i < 1024 → nd i = elt a i) → (∀ i, i < 1024 → nd (1024 + i) = elt p i) →
    ∃ a', transform a p = .ok a' ∧ program nd = .ok (some a')

private theorem passes_table {f g : Array Int → Nat → Array Int → M (Array Int)} {B : Int}
    (hle : ∀ a n p, Le (g a n p) (f a n p)) (h : NeverFails g 10 B) :
    PassesTable (run_table f) (fun a p => g a 1024 p) B := by
  have h3 : ∀ (nd : Nat → Int) (a p : Array Int), a.size = 1024 → Reduced a → p.size = 1024 → InRange (-6144) 6143 p →
      (∀ i, i < 1024 → nd i = elt a i) → (∀ i, i < 1024 → nd (1024 + i) = elt p i) →
      ∃ a', g a 1024 p = .ok a' ∧ run_table f nd = .ok (some a') ∧ a'.size = 1024 ∧ InRange (-B) B a' := by
    intro nd a p ha hr hp hrp hnd hndp
    obtain ⟨a', e, hs, hb⟩ := h a p ha (fun i hi => by have := hr i hi; omega)
      (any_of_range ⟨hp, fun i hi => by have := hrp i hi; omega⟩)
    refine ⟨a', e, ?_, hs, hb⟩
    exact (run_table_spec nd).2 a p ha hp
      (fun i hi => by have := hr i (by omega); rw [hnd i hi]; exact ⟨rfl, by omega, by omega⟩)
      (fun i hi => by have := hrp i (by omega); rw [hndp i hi]; exact ⟨rfl, by omega, by omega⟩) a'
      (hle a 1024 p a' e)
  refine ⟨fun nd hnd => (run_table_spec nd).1 (hnd.imp_right fun ⟨i, h1, h2, h3⟩ => ⟨i - 1024, by omega, by
      rw [Nat.add_sub_cancel' h1]; exact h3⟩),
    fun nd hnd hndp => ?_, fun nd a p ha hr hp hrp h h' => ?_⟩
  · obtain ⟨a, ha, hv⟩ := exists_array 1024 nd
    obtain ⟨p, hp, hvp⟩ := exists_array 1024 fun i => nd (1024 + i)
    obtain ⟨a', -, e, hs, hb⟩ := h3 nd a p ha
      (fun i hi => by have := hnd i (by omega); rw [hv i (by omega)]; omega) hp
      (fun i hi => by have := hndp (1024 + i) (by omega) (by omega); rw [hvp i (by omega)]; omega)
      (fun i hi => (hv i hi).symm) fun i hi => (hvp i hi).symm
    exact ⟨a', e, hs, hb⟩
  · obtain ⟨a', e, e', -, -⟩ := h3 nd a p ha hr hp hrp h h'
    exact ⟨a', e, e'⟩

/-- The two harnesses with an arbitrary table. -/
theorem C70_any_table (hB : B.Good) :
    PassesTable (harness_ntt_red1024c B) (fun a p => NttRed.ntt_red_ct_std2rev a 1024 p) 283144017 ∧
    PassesTable (harness_ntt_red1024d B) (fun a p => NttRed.ntt_red_ct_rev2std a 1024 p) 283144017 :=
  ⟨passes_table (le_ntt_red_ct_std2rev hB) (C46_1024.1 _ (by simp)),
    passes_table (le_ntt_red_ct_rev2std hB) (C46_1024.1 _ (by simp))⟩

/-- What the assertions mean: `mul_red` of a good build returns exactly for the products in the documented range - except
that without the intrinsic the products from 2^43 on overflow (C19) -, and it returns the reduction. -/
theorem C70_mul_red (hB : B.Good) (x y : Int) (hx : I32 x) (hy : I32 y) :
    (-8796042698752 ≤ x * y → x * y ≤ 8796093022207 → Harness.mul_red B x y = .ok (Spec.red (x * y))) ∧
    (x * y < -8796042698752 ∨ 8796093026303 < x * y → Harness.mul_red B x y = .error .assertFail) := by
  refine ⟨fun h1 h2 => le_mul_red hB x y _ (NttRed.mul_red_eq h1 h2), fun h => ?_⟩
  have h64 : I64 (x * y) := i64_mul hx hy
  unfold Harness.mul_red
  rw [NttRed.i64_ok h64, NttRed.ok_bind, hB.1]
  rcases h with h | h
  · have : decide (-8796042698752 ≤ x * y) = false := by simp; omega
    simp only [if_true, this]
    rfl
  · have h1 : decide (-8796042698752 ≤ x * y) = true := by simp; omega
    have h2 : decide (x * y ≤ 8796093026303) = false := by simp; omega
    simp only [if_true, h1, h2]
    rfl

/-- The other assertions (without `-DSAFE`) are not expected to hold: the build without them fails for the product of two
values that occur in the second round, 12288 and 6143. -/
theorem C70_other_assertions : Harness.mul_red ⟨false, none⟩ 12288 6143 = .error .assertFail := by decide +kernel

/-- The build of the Makefile with the intrinsic, and the one without, are good. -/
example : (⟨true, none⟩ : Build).Good ∧ (⟨true, some fun z => .ok (Spec.red z)⟩ : Build).Good :=
  ⟨⟨rfl, fun f h => by cases h⟩, ⟨rfl, fun f h z _ _ => by injection h with h; rw [← h]⟩⟩

/-- Tables, and a choice of the inputs that meets the assumptions. -/
example : ∃ t, make_red_tables someBuf 1024 1014 = .ok t ∧
    ∃ a', harness_ntt_red1024f ⟨true, none⟩ t (fun i => (i : Int) * 12) = .ok (some a') ∧
      NttRed.ntt_red_gs_rev2std (Array.ofFn (n := 1024) fun i => (i : Int) * 12) 1024 t.omega_powers_rev = .ok a' := by
  obtain ⟨t, e, -⟩ := red_tables_ok (libraryParams_good (10, 1024, 1014) (by simp [libraryParams])) someBuf_size
  obtain ⟨-, -, -, -, -, h⟩ := C70_tables (B := ⟨true, none⟩) ⟨rfl, fun f h => by cases h⟩ someBuf_size e
  obtain ⟨a', e1, e2⟩ := h.2.2 (fun i => (i : Int) * 12) (Array.ofFn (n := 1024) fun i => (i : Int) * 12)
    Array.size_ofFn (fun i hi => by
      rw [Array.size_ofFn] at hi
      simp only [elt, Array.getD_eq_getD_getElem?, Array.getElem?_ofFn, hi, dif_pos, Option.getD_some]
      omega) (fun i hi => by simp [elt, hi])
  exact ⟨t, e, a', e2, e1⟩

end Props
