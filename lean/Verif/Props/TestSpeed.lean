import Verif.Proofs.TestSpeed
import Verif.Proofs.Buffer
import Verif.Props.TestPrograms

/-
C57: the programs src/test_ntt<n>.c, src/test_naive_ntt<n>.c, src/test_ntt_red<n>.c and
src/test_ntt_red_asm<n>.c run to the end and display, for each of the thirteen functions, the median and the
average of the measured times.

True for the exact, naive and AVX2 programs (`_partial`: not all programs).  False for src/test_ntt_red16.c: it
calls a transform 102400 times in place without reduction, which overflows (`C57_test_ntt_red16_overflow`).
-/

namespace Props
open C Spec NTT Tables TestProg

theorem iota_reduced {n : Nat} (hn : n ≤ 12289) {a : Array Int} (h : IsIota n a) : Reduced a := by
  intro i hi
  have := h.1
  have := h.2 i (by omega)
  omega

private theorem lib_size : ∀ z ∈ libraryParams, 4 ≤ z.1 ∧ z.1 ≤ 10 ∧ 2 ^ z.1 ≤ 1024 := by
  intro z hz
  simp only [libraryParams, List.mem_cons, List.not_mem_nil, or_false] at hz
  rcases hz with rfl | rfl | rfl | rfl <;> decide

/-! ### The exact and naive programs -/

theorem stable_of_transforms {k : Nat} {lo hi : Int} {ω : Zq}
    {f1 f2 f3 f4 f5 f6 f7 f8 : Array Int → M (Array Int)}
    (h1 : ∀ f ∈ [f1, f2], Rev2Std k ω 1 1 lo hi lo hi f)
    (h2 : ∀ f ∈ [f3, f4], Std2Rev k ω 1 1 lo hi lo hi f)
    (h3 : ∀ f ∈ [f5, f6], Rev2Std k ω⁻¹ 1 1 lo hi lo hi f)
    (h4 : ∀ f ∈ [f7, f8], Std2Rev k ω⁻¹ 1 1 lo hi lo hi f) :
    ∀ f ∈ [f1, f2, f3, f4, f5, f6, f7, f8], ∀ a : Array Int, (a.size = 2 ^ k ∧ InRange lo hi a) →
      ∃ a', f a = .ok a' ∧ a'.size = 2 ^ k ∧ InRange lo hi a' := by
  have key1 : ∀ ω f, Rev2Std k ω 1 1 lo hi lo hi f → ∀ a : Array Int, (a.size = 2 ^ k ∧ InRange lo hi a) →
      ∃ a', f a = .ok a' ∧ a'.size = 2 ^ k ∧ InRange lo hi a' := by
    rintro ω f h a ⟨ha, hr⟩
    obtain ⟨a', g1, g2, g3, -⟩ := h a ha hr
    exact ⟨a', g1, g2, g3⟩
  have key2 : ∀ ω f, Std2Rev k ω 1 1 lo hi lo hi f → ∀ a : Array Int, (a.size = 2 ^ k ∧ InRange lo hi a) →
      ∃ a', f a = .ok a' ∧ a'.size = 2 ^ k ∧ InRange lo hi a' := by
    rintro ω f h a ⟨ha, hr⟩
    obtain ⟨a', g1, g2, g3, -⟩ := h a ha hr
    exact ⟨a', g1, g2, g3⟩
  intro f hf
  simp only [List.mem_cons, List.not_mem_nil, or_false] at hf
  rcases hf with rfl | rfl | rfl | rfl | rfl | rfl | rfl | rfl
  · exact key1 _ _ (h1 _ (by simp))
  · exact key1 _ _ (h1 _ (by simp))
  · exact key2 _ _ (h2 _ (by simp))
  · exact key2 _ _ (h2 _ (by simp))
  · exact key1 _ _ (h3 _ (by simp))
  · exact key1 _ _ (h3 _ (by simp))
  · exact key2 _ _ (h4 _ (by simp))
  · exact key2 _ _ (h4 _ (by simp))

/-- src/test_ntt16.c, ..., src/test_ntt1024.c. -/
theorem C57_test_ntt_partial : ∀ z ∈ libraryParams, ∀ buf : Nat → Array Nat, (∀ n, (buf n).size = n) →
    ∃ t, make_tables buf z.2.1 z.2.2 = .ok t ∧ ∀ w, WorldOK (2 ^ z.1) w →
      ∃ shown, TestProg.main (exactTest (2 ^ z.1) t) w = .ok shown ∧ Measured w 13 shown := by
  intro z hz buf hb
  obtain ⟨t, ht, -⟩ := tables_ok (libraryParams_good z hz) hb
  refine ⟨t, ht, fun w hw => ?_⟩
  have hL := exact_lib hz hb ht
  obtain ⟨t1, t2, t3, t4, -⟩ := C49_ntt_transforms (libraryParams_good z hz) hb ht
  have hs := lib_size z hz
  obtain ⟨c, hc⟩ := run_tests hL hw 0
  refine run_main (I := fun a => a.size = 2 ^ z.1 ∧ InRange 0 12288 a) {
    size := hL.n
    lt := by omega
    iota := fun a ha => ⟨ha.1, iota_reduced (by omega) ha⟩
    transforms := stable_of_transforms t1 t2 t3 t4
    products := fun f hf c a b hc ha hb' => ?_ } hw hc
  obtain ⟨c', a', b', h1, h2, h3, h4, h5, h6, h7⟩ :=
    C11_operands (libraryParams_good z hz) hb ht c a b hc ha.1 hb'.1 ha.2 hb'.2 f hf
  exact ⟨c', a', b', h1, h2, ⟨h3, h6⟩, h4, h7⟩

/-- src/test_naive_ntt16.c, ..., src/test_naive_ntt1024.c. -/
theorem C57_test_naive_ntt_partial : ∀ z ∈ libraryParams, ∀ buf : Nat → Array Nat, (∀ n, (buf n).size = n) →
    ∃ t, make_tables buf z.2.1 z.2.2 = .ok t ∧ ∀ w, WorldOK (2 ^ z.1) w →
      ∃ shown, TestProg.main (naiveTest (2 ^ z.1) t) w = .ok shown ∧ Measured w 13 shown := by
  intro z hz buf hb
  obtain ⟨t, ht, -⟩ := tables_ok (libraryParams_good z hz) hb
  refine ⟨t, ht, fun w hw => ?_⟩
  have hL := naive_lib hz hb ht
  obtain ⟨t1, t2, t3, t4, -⟩ := C49_naive_transforms (libraryParams_good z hz) hb ht
  have hs := lib_size z hz
  obtain ⟨c, hc⟩ := run_tests hL hw 0
  refine run_main (I := fun a => a.size = 2 ^ z.1 ∧ InRange (-12288) 12288 a) {
    size := hL.n
    lt := by omega
    iota := fun a ha => ⟨ha.1, fun i hi => by have := iota_reduced (by omega) ha i hi; omega⟩
    transforms := stable_of_transforms t1 t2 t3 t4
    products := fun f hf c a b hc ha hb' => ?_ } hw hc
  obtain ⟨c', a', b', h1, h2, h3, h4, h5, h6, h7, -⟩ :=
    C23_operands (libraryParams_good z hz) hb ht c a b hc ha.1 hb'.1 ha.2 hb'.2 f hf
  exact ⟨c', a', b', h1, h2, ⟨h3, h6⟩, h4, h7⟩

/-! ### The AVX2 programs -/

/-- Any array of `n` elements of type `int32_t`. -/
def AnyArray (n : Nat) (a : Array Int) : Prop := a.size = n ∧ Int32Array a

open Asm

theorem Is.any {n : Nat} {f : Nat → Int} {a : Array Int} (h : Is n f a) (hf : ∀ i, I32 (f i)) : AnyArray n a :=
  ⟨h.1, fun i hi => by
    have := h.1
    rw [h.2 i (by omega)]; exact hf i⟩

theorem I32_FgsA {k : Nat} {p f : Nat → Int} (hf : ∀ i, I32 (f i)) (m i : Nat) : I32 (FgsA k p f m i) := by
  cases m with
  | zero => exact hf i
  | succ m => unfold FgsA rnd; split <;> exact I32_toI32 _

theorem I32_FgsB {k : Nat} {p f : Nat → Int} (hf : ∀ i, I32 (f i)) (m i : Nat) : I32 (FgsB k p f m i) := by
  cases m with
  | zero => exact hf i
  | succ m => unfold FgsB rnd; split <;> exact I32_toI32 _

section
variable {k : Nat} (hk : 4 ≤ k) {a p : Array Int} (ha : AnyArray (2 ^ k) a)
include hk ha

theorem any_ct_rev2std (hp : 2 ^ k ≤ p.size) (hu : UnitEntries k p) :
    Wp NoErr (ntt_red_ct_rev2std_asm a (2 ^ k) p) (AnyArray (2 ^ k)) :=
  (wp_ct_rev2std_asm hk hp hu (Is.self ha.1) (tr_i32 ha.2)).mono fun _ h => Is.any h (I32_FctA (tr_i32 ha.2) k)

theorem any_ct_std2rev (hp : 2 ^ k ≤ p.size) (hi : ∀ i, 0 < i → i < 2 ^ k → I16 (elt p i)) (hu : UnitEntries k p) :
    Wp NoErr (ntt_red_ct_std2rev_asm a (2 ^ k) p) (AnyArray (2 ^ k)) :=
  (wp_ct_std2rev_asm hk hp hi hu (Is.self ha.1) (tr_i32 ha.2)).mono fun _ h => Is.any h (I32_FctB (tr_i32 ha.2) k)

theorem any_gs_rev2std (hp : 2 ^ k ≤ p.size) (hi : ∀ i, 0 < i → i < 2 ^ k → I16 (elt p i)) (hu : UnitEntries k p) :
    Wp NoErr (ntt_red_gs_rev2std_asm a (2 ^ k) p) (AnyArray (2 ^ k)) :=
  (wp_gs_rev2std_asm hk hp hi hu (Is.self ha.1)).mono fun _ h => Is.any h (I32_FgsB (tr_i32 ha.2) k)

theorem any_gs_std2rev (hp : 2 ^ k ≤ p.size) (hu : UnitEntries k p) :
    Wp NoErr (ntt_red_gs_std2rev_asm a (2 ^ k) p) (AnyArray (2 ^ k)) :=
  (wp_gs_std2rev_asm hk hp hu (Is.self ha.1)).mono fun _ h => Is.any h (I32_FgsA (tr_i32 ha.2) k)

theorem any_mulct_std2rev (hp : 2 ^ k ≤ p.size) (hi : ∀ i, 0 < i → i < 2 ^ k → I16 (elt p i)) :
    Wp NoErr (mulntt_red_ct_std2rev_asm a (2 ^ k) p) (AnyArray (2 ^ k)) :=
  (wp_mulct_std2rev_asm hk hp hi (Is.self ha.1)).mono fun _ h => Is.any h (I32_FctB (tr_i32 ha.2) k)

theorem any_gsmul_rev2std (hp : 2 ^ k ≤ p.size) (hi : ∀ i, 0 < i → i < 2 ^ k → I16 (elt p i)) :
    Wp NoErr (nttmul_red_gs_rev2std_asm a (2 ^ k) p) (AnyArray (2 ^ k)) :=
  (wp_gsmul_rev2std_asm hk hp hi (Is.self ha.1)).mono fun _ h => Is.any h (I32_FgsB (tr_i32 ha.2) k)

theorem any_shiftInput (sh : Bool) : Wp NoErr (AsmProducts.shiftInput (2 ^ k) sh a) (AnyArray (2 ^ k)) := by
  unfold AsmProducts.shiftInput
  cases sh with
  | false => rw [if_neg (by decide), wp_pure]; exact ha
  | true =>
    exact (wp_shift_array_asm (pow16 hk) (Nat.two_pow_pos _) (Is.self ha.1)).mono fun _ h =>
      Is.any h fun _ => I32_toI32 _

theorem any_reduce : Wp NoErr (reduce_array_asm a (2 ^ k)) (AnyArray (2 ^ k)) :=
  (wp_reduce_array_asm (pow16 hk) (Nat.two_pow_pos _) (Is.self ha.1)).mono fun _ h => Is.any h fun _ => I32_toI32 _

theorem any_twice : Wp NoErr (reduce_array_twice_asm a (2 ^ k)) (AnyArray (2 ^ k)) :=
  (wp_reduce_array_twice_asm (pow16 hk) (Nat.two_pow_pos _) (Is.self ha.1)).mono fun _ h =>
    Is.any h fun _ => I32_toI32 _

theorem any_correct : Wp NoErr (correct_asm a (2 ^ k)) (AnyArray (2 ^ k)) :=
  (wp_correct_asm (pow16 hk) (Nat.two_pow_pos _) (Is.self ha.1)).mono fun _ h => Is.any h fun _ => I32_toI32 _

theorem any_mul16 (hp : 2 ^ k ≤ p.size) : Wp NoErr (mul_reduce_array16_asm a (2 ^ k) p) (AnyArray (2 ^ k)) :=
  (wp_mul16_asm (pow8 (by omega)) (Nat.two_pow_pos _) (Is.self ha.1) hp).mono fun _ h =>
    Is.any h fun _ => I32_toI32 _

theorem any_scalar (x : Int) : Wp NoErr (scalar_mul_reduce_array_asm a (2 ^ k) x) (AnyArray (2 ^ k)) :=
  (wp_scalar_mul_asm rfl (pow8 (by omega)) (Nat.two_pow_pos _) (Is.self ha.1)).mono fun _ h =>
    Is.any h fun _ => I32_toI32 _

theorem any_mul {b c : Array Int} (hb : AnyArray (2 ^ k) b) (hc : c.size = 2 ^ k) :
    Wp NoErr (mul_reduce_array_asm c (2 ^ k) a b) (AnyArray (2 ^ k)) :=
  (wp_mul_asm (pow8 (by omega)) (Nat.two_pow_pos _) hc ha.1.ge hb.1.ge).mono fun _ h =>
    Is.any h fun _ => I32_toI32 _

end

/-- The tables are as the assembly needs them. -/
structure AsmTables (k : Nat) (t : RedTables) : Prop where
  omega_powers : 2 ^ k ≤ t.omega_powers.size ∧ UnitEntries k t.omega_powers
  omega_powers_rev : 2 ^ k ≤ t.omega_powers_rev.size ∧ UnitEntries k t.omega_powers_rev ∧
    ∀ i, 0 < i → i < 2 ^ k → I16 (elt t.omega_powers_rev i)
  inv_omega_powers : 2 ^ k ≤ t.inv_omega_powers.size ∧ UnitEntries k t.inv_omega_powers
  inv_omega_powers_rev : 2 ^ k ≤ t.inv_omega_powers_rev.size ∧ UnitEntries k t.inv_omega_powers_rev ∧
    ∀ i, 0 < i → i < 2 ^ k → I16 (elt t.inv_omega_powers_rev i)
  mixed_powers_rev : 2 ^ k ≤ t.mixed_powers_rev.size ∧ ∀ i, 0 < i → i < 2 ^ k → I16 (elt t.mixed_powers_rev i)
  inv_mixed_powers_rev : 2 ^ k ≤ t.inv_mixed_powers_rev.size ∧
    ∀ i, 0 < i → i < 2 ^ k → I16 (elt t.inv_mixed_powers_rev i)
  psi_powers : 2 ^ k ≤ t.psi_powers.size
  scaled_inv_psi_powers : 2 ^ k ≤ t.scaled_inv_psi_powers.size
  scaled_inv_psi_powers_var : 2 ^ k ≤ t.scaled_inv_psi_powers_var.size

theorem asm_tables {k : Nat} {ψ : Zq} {t : RedTables} (h : RedTablesOK k ψ t) : AsmTables k t where
  omega_powers := ⟨h.omega_powers.1, unit_std h.omega_powers⟩
  omega_powers_rev := ⟨h.omega_powers_rev.1, unit_rev h.omega_powers_rev, AsmProducts.rev_i16 h.omega_powers_rev⟩
  inv_omega_powers := ⟨h.inv_omega_powers.1, unit_std h.inv_omega_powers⟩
  inv_omega_powers_rev :=
    ⟨h.inv_omega_powers_rev.1, unit_rev h.inv_omega_powers_rev, AsmProducts.rev_i16 h.inv_omega_powers_rev⟩
  mixed_powers_rev := ⟨h.mixed_powers_rev.1, AsmProducts.rev_i16 h.mixed_powers_rev⟩
  inv_mixed_powers_rev := ⟨h.inv_mixed_powers_rev.1, AsmProducts.rev_i16 h.inv_mixed_powers_rev⟩
  psi_powers := h.psi_powers.1
  scaled_inv_psi_powers := h.scaled_inv_psi_powers.1
  scaled_inv_psi_powers_var := h.scaled_inv_psi_powers_var.1

section
variable {k : Nat} (hk : 4 ≤ k) {t : RedTables} (ht : AsmTables k t)
include hk ht

/-- The eight transforms run on every array. -/
theorem any_transform : ∀ f ∈ [AsmProducts.fwd_ct_rev2std t (2 ^ k), AsmProducts.fwd_gs_rev2std t (2 ^ k),
    AsmProducts.fwd_ct_std2rev t (2 ^ k), AsmProducts.fwd_gs_std2rev t (2 ^ k),
    AsmProducts.intt_ct_rev2std t (2 ^ k), AsmProducts.intt_gs_rev2std t (2 ^ k),
    AsmProducts.intt_ct_std2rev t (2 ^ k), AsmProducts.intt_gs_std2rev t (2 ^ k)],
    ∀ a, AnyArray (2 ^ k) a → Wp NoErr (f a) (AnyArray (2 ^ k)) := by
  intro f hf a ha
  simp only [List.mem_cons, List.not_mem_nil, or_false] at hf
  rcases hf with rfl | rfl | rfl | rfl | rfl | rfl | rfl | rfl
  · exact any_ct_rev2std hk ha ht.omega_powers.1 ht.omega_powers.2
  · exact any_gs_rev2std hk ha ht.omega_powers_rev.1 ht.omega_powers_rev.2.2 ht.omega_powers_rev.2.1
  · exact any_ct_std2rev hk ha ht.omega_powers_rev.1 ht.omega_powers_rev.2.2 ht.omega_powers_rev.2.1
  · exact any_gs_std2rev hk ha ht.omega_powers.1 ht.omega_powers.2
  · exact any_ct_rev2std hk ha ht.inv_omega_powers.1 ht.inv_omega_powers.2
  · exact any_gs_rev2std hk ha ht.inv_omega_powers_rev.1 ht.inv_omega_powers_rev.2.2 ht.inv_omega_powers_rev.2.1
  · exact any_ct_std2rev hk ha ht.inv_omega_powers_rev.1 ht.inv_omega_powers_rev.2.2 ht.inv_omega_powers_rev.2.1
  · exact any_gs_std2rev hk ha ht.inv_omega_powers.1 ht.inv_omega_powers.2

variable {a b c : Array Int} (hc : c.size = 2 ^ k) (ha : AnyArray (2 ^ k) a) (hb : AnyArray (2 ^ k) b)
include hc ha hb

/-- Products 1 to 4. -/
theorem any_scheme (sh : Bool) {fwd inv : Array Int → M (Array Int)}
    (hf : ∀ a, AnyArray (2 ^ k) a → Wp NoErr (fwd a) (AnyArray (2 ^ k)))
    (hi : ∀ a, AnyArray (2 ^ k) a → Wp NoErr (inv a) (AnyArray (2 ^ k))) :
    Wp NoErr (do
      let a ← AsmProducts.shiftInput (2 ^ k) sh a
      let a ← mul_reduce_array16_asm a (2 ^ k) t.psi_powers
      let a ← fwd a
      let a ← reduce_array_asm a (2 ^ k)
      let b ← AsmProducts.shiftInput (2 ^ k) sh b
      let b ← mul_reduce_array16_asm b (2 ^ k) t.psi_powers
      let b ← fwd b
      let b ← reduce_array_asm b (2 ^ k)
      let c ← mul_reduce_array_asm c (2 ^ k) a b
      let c ← reduce_array_twice_asm c (2 ^ k)
      let c ← inv c
      let c ← mul_reduce_array16_asm c (2 ^ k) t.scaled_inv_psi_powers
      let c ← reduce_array_twice_asm c (2 ^ k)
      let c ← correct_asm c (2 ^ k)
      pure (c, a, b)) (fun r => AnyArray (2 ^ k) r.1 ∧ AnyArray (2 ^ k) r.2.1 ∧ AnyArray (2 ^ k) r.2.2) := by
  simp only [wp_bind]
  refine (any_shiftInput hk ha sh).mono fun a ha => (any_mul16 hk ha ht.psi_powers).mono fun a ha =>
    (hf a ha).mono fun a ha => (any_reduce hk ha).mono fun a ha =>
    (any_shiftInput hk hb sh).mono fun b hb => (any_mul16 hk hb ht.psi_powers).mono fun b hb =>
    (hf b hb).mono fun b hb => (any_reduce hk hb).mono fun b hb =>
    (any_mul hk ha hb hc).mono fun c hc => (any_twice hk hc).mono fun c hc => (hi c hc).mono fun c hc =>
    (any_mul16 hk hc ht.scaled_inv_psi_powers).mono fun c hc => (any_twice hk hc).mono fun c hc =>
    (any_correct hk hc).mono fun c hc => ?_
  rw [wp_pure]
  exact ⟨hc, ha, hb⟩

theorem any_product5 (sh : Bool) (up : Int) : Wp NoErr (AsmProducts.product5 t (2 ^ k) up sh c a b)
    (fun r => AnyArray (2 ^ k) r.1 ∧ AnyArray (2 ^ k) r.2.1 ∧ AnyArray (2 ^ k) r.2.2) := by
  unfold AsmProducts.product5 AsmProducts.fwdmul_ct_std2rev AsmProducts.inttmul_gs_rev2std
  simp only [wp_bind]
  refine (any_shiftInput hk ha sh).mono fun a ha =>
    (any_mulct_std2rev hk ha ht.mixed_powers_rev.1 ht.mixed_powers_rev.2).mono fun a ha =>
    (any_reduce hk ha).mono fun a ha => (any_shiftInput hk hb sh).mono fun b hb =>
    (any_mulct_std2rev hk hb ht.mixed_powers_rev.1 ht.mixed_powers_rev.2).mono fun b hb =>
    (any_reduce hk hb).mono fun b hb =>
    (any_mul hk ha hb hc).mono fun c hc => (any_twice hk hc).mono fun c hc =>
    (any_gsmul_rev2std hk hc ht.inv_mixed_powers_rev.1 ht.inv_mixed_powers_rev.2).mono fun c hc =>
    (any_scalar hk hc _).mono fun c hc => (any_twice hk hc).mono fun c hc =>
    (any_correct hk hc).mono fun c hc => ?_
  rw [wp_pure]
  exact ⟨hc, ha, hb⟩

theorem any_product1_1024 : Wp NoErr (AsmProducts.product1_1024 t (2 ^ k) c a b)
    (fun r => AnyArray (2 ^ k) r.1 ∧ AnyArray (2 ^ k) r.2.1 ∧ AnyArray (2 ^ k) r.2.2) := by
  have tr := any_transform hk ht
  unfold AsmProducts.product1_1024
  simp only [wp_bind]
  refine (any_mul16 hk ha ht.psi_powers).mono fun a ha =>
    (tr _ (by simp) a ha).mono fun a ha => (any_reduce hk ha).mono fun a ha =>
    (any_mul16 hk hb ht.psi_powers).mono fun b hb =>
    (tr _ (by simp) b hb).mono fun b hb => (any_reduce hk hb).mono fun b hb =>
    (any_mul hk ha hb hc).mono fun c hc => (tr _ (by simp) c hc).mono fun c hc =>
    (any_mul16 hk hc ht.scaled_inv_psi_powers_var).mono fun c hc => (any_twice hk hc).mono fun c hc =>
    (any_correct hk hc).mono fun c hc => ?_
  rw [wp_pure]
  exact ⟨hc, ha, hb⟩

end

/-- The AVX2 functions return on all arrays of the right size, whatever they contain: no access out of bounds, no
failed assertion. -/
theorem C57_asm_any_input {k : Nat} (hk : 4 ≤ k) {xn xpsi : Int} (h : GoodParams k xn xpsi)
    {buf : Nat → Array Nat} (hbuf : ∀ n, (buf n).size = n) {t : RedTables}
    (ht : make_red_tables buf xn xpsi = .ok t) (c a b : Array Int) (hc : c.size = 2 ^ k)
    (ha : a.size = 2 ^ k) (hb : b.size = 2 ^ k) (hra : Int32Array a) (hrb : Int32Array b) (sh : Bool) (up : Int) :
    (∀ f ∈ [AsmProducts.fwd_ct_rev2std t (2 ^ k), AsmProducts.fwd_gs_rev2std t (2 ^ k),
      AsmProducts.fwd_ct_std2rev t (2 ^ k), AsmProducts.fwd_gs_std2rev t (2 ^ k),
      AsmProducts.intt_ct_rev2std t (2 ^ k), AsmProducts.intt_gs_rev2std t (2 ^ k),
      AsmProducts.intt_ct_std2rev t (2 ^ k), AsmProducts.intt_gs_std2rev t (2 ^ k)],
      ∃ a', f a = .ok a' ∧ a'.size = 2 ^ k ∧ Int32Array a') ∧
    (∀ f ∈ [AsmProducts.product1 t (2 ^ k) sh, AsmProducts.product1_1024 t (2 ^ k),
      AsmProducts.product2 t (2 ^ k) sh, AsmProducts.product3 t (2 ^ k) sh, AsmProducts.product4 t (2 ^ k) sh,
      AsmProducts.product5 t (2 ^ k) up sh],
      ∃ c' a' b', f c a b = .ok (c', a', b') ∧ (c'.size = 2 ^ k ∧ Int32Array c') ∧
        (a'.size = 2 ^ k ∧ Int32Array a') ∧ b'.size = 2 ^ k ∧ Int32Array b') := by
  obtain ⟨t', e, hok⟩ := red_tables_ok h hbuf
  have : t' = t := Except.ok.inj (e.symm.trans ht)
  subst this
  have hT := asm_tables hok
  have tr := any_transform hk hT
  refine ⟨fun f hf => wp_total.1 (tr f hf a ⟨ha, hra⟩), fun f hf => ?_⟩
  have key : ∀ m, Wp NoErr m (fun r : Array Int × Array Int × Array Int =>
      AnyArray (2 ^ k) r.1 ∧ AnyArray (2 ^ k) r.2.1 ∧ AnyArray (2 ^ k) r.2.2) →
      ∃ c' a' b', m = .ok (c', a', b') ∧ (c'.size = 2 ^ k ∧ Int32Array c') ∧
        (a'.size = 2 ^ k ∧ Int32Array a') ∧ b'.size = 2 ^ k ∧ Int32Array b' := by
    intro m hm
    obtain ⟨⟨c', a', b'⟩, e, h1, h2, h3⟩ := wp_total.1 hm
    exact ⟨c', a', b', e, h1, h2, h3⟩
  have ha' : AnyArray (2 ^ k) a := ⟨ha, hra⟩
  have hb' : AnyArray (2 ^ k) b := ⟨hb, hrb⟩
  simp only [List.mem_cons, List.not_mem_nil, or_false] at hf
  rcases hf with rfl | rfl | rfl | rfl | rfl | rfl
  · exact key _ (any_scheme hk hT hc ha' hb' sh (tr _ (by simp)) (tr _ (by simp)))
  · exact key _ (any_product1_1024 hk hT hc ha' hb')
  · exact key _ (any_scheme hk hT hc ha' hb' sh (tr _ (by simp)) (tr _ (by simp)))
  · exact key _ (any_scheme hk hT hc ha' hb' sh (tr _ (by simp)) (tr _ (by simp)))
  · exact key _ (any_scheme hk hT hc ha' hb' sh (tr _ (by simp)) (tr _ (by simp)))
  · exact key _ (any_product5 hk hT hc ha' hb' sh up)

/-- src/test_ntt_red_asm16.c, ..., src/test_ntt_red_asm1024.c, when AVX2 is available; otherwise nothing is shown. -/
theorem C57_test_ntt_red_asm_partial : ∀ z ∈ libraryParams, ∀ buf : Nat → Array Nat, (∀ n, (buf n).size = n) →
    ∃ t, make_red_tables buf z.2.1 z.2.2 = .ok t ∧ ∀ up w, WorldOK (2 ^ z.1) w →
      (∃ shown, main_asm (asmTest (2 ^ z.1) up t) w true = .ok shown ∧ Measured w 13 shown) ∧
      main_asm (asmTest (2 ^ z.1) up t) w false = .ok [] := by
  intro z hz buf hb
  obtain ⟨t, ht, -⟩ := red_tables_ok (libraryParams_good z hz) hb
  refine ⟨t, ht, fun up w hw => ⟨?_, rfl⟩⟩
  have hL := asm_lib hz hb ht up
  have hs := lib_size z hz
  obtain ⟨c, hc⟩ := run_tests hL hw 0
  refine run_main (L := asmTest (2 ^ z.1) up t) (I := fun a => a.size = 2 ^ z.1 ∧ Int32Array a) {
    size := hL.n
    lt := by omega
    iota := fun a ha => ⟨ha.1, fun i hi => by have := iota_reduced (by omega) ha i hi; constructor <;> omega⟩
    transforms := fun f hf a ha => (C57_asm_any_input hs.1 (libraryParams_good z hz) hb ht a a a
      ha.1 ha.1 ha.1 ha.2 ha.2 true 0).1 f hf
    products := fun f hf c a b hc ha hb' => ?_ } hw hc
  have gen : f ∈ [AsmProducts.product1 t (2 ^ z.1) (2 ^ z.1 != 1024), AsmProducts.product1_1024 t (2 ^ z.1),
      AsmProducts.product2 t (2 ^ z.1) (2 ^ z.1 != 1024), AsmProducts.product3 t (2 ^ z.1) (2 ^ z.1 != 1024),
      AsmProducts.product4 t (2 ^ z.1) (2 ^ z.1 != 1024), AsmProducts.product5 t (2 ^ z.1) up (2 ^ z.1 != 1024)] →
      ∃ c' a' b', f c a b = .ok (c', a', b') ∧ c'.size = 2 ^ z.1 ∧ (a'.size = 2 ^ z.1 ∧ Int32Array a') ∧
        b'.size = 2 ^ z.1 ∧ Int32Array b' := fun hm => by
    obtain ⟨c', a', b', h1, h2, h3, h4⟩ := (C57_asm_any_input hs.1 (libraryParams_good z hz) hb ht c a b
      hc ha.1 hb'.1 ha.2 hb'.2 _ up).2 f hm
    exact ⟨c', a', b', h1, h2.1, h3, h4⟩
  simp only [asmTest, asmLib, List.mem_cons, List.not_mem_nil, or_false] at hf
  rcases hf with hf | hf | hf | hf | hf
  · split at hf
    · exact gen (by simp [hf])
    · exact gen (by simp [hf])
  · exact gen (by simp [hf])
  · exact gen (by simp [hf])
  · exact gen (by simp [hf])
  · exact gen (by simp [hf])

/-! ### The programs with lazy reduction -/

/-- The array 0, 1, ..., 15. -/
def iota16 : Array Int := #[0, 1, 2, 3, 4, 5, 6, 7, 8, 9, 10, 11, 12, 13, 14, 15]

theorem iota16_eq {a : Array Int} (h : IsIota 16 a) : a = iota16 := by
  refine (show Asm.Is 16 (fun i => (i : Int)) a from h).ext ⟨rfl, fun i hi => ?_⟩
  interval_cases i <;> rfl

/-- The twelfth call of `ntt_red16_ct_rev2std` overflows. -/
theorem red16_iter : (do
    let t ← make_red_tables someBuf 16 1212
    iter (NttRed.fwd_ct_rev2std t 16) 12 iota16) = .error .overflow := by decide +kernel

/-- src/test_ntt_red16.c: whatever `random()`, the clock and the initial contents of memory are, the program passes
its tests (C55) and then its first speed test overflows a signed integer: C57 is false for this program. -/
theorem C57_test_ntt_red16_overflow (buf : Nat → Array Nat) (hb : ∀ n, (buf n).size = n) :
    ∃ t, make_red_tables buf 16 1212 = .ok t ∧ ∀ w, WorldOK 16 w →
      (∃ c, tests (redTest 16 t) w 0 = .ok c) ∧ TestProg.main (redTest 16 t) w = .error .overflow := by
  have hz : (4, 16, 1212) ∈ libraryParams := by simp [libraryParams]
  obtain ⟨t, ht, -⟩ := red_tables_ok (libraryParams_good _ hz) hb
  refine ⟨t, ht, fun w hw => ?_⟩
  obtain ⟨c, hc⟩ := run_tests (red_lib hz hb ht) hw 0
  refine ⟨⟨c, hc⟩, ?_⟩
  have ht' : make_red_tables someBuf 16 1212 = .ok t := by
    rw [make_red_tables_buf someBuf_size hb]; exact ht
  have hi := red16_iter
  rw [ht', ok_bind] at hi
  obtain ⟨a, ea, ha⟩ := run_iota (n := 16) (by omega) (hw.junk c)
  unfold TestProg.main
  have hc' : tests (redTest 16 t) w 0 = .ok c := hc
  rw [hc', ok_bind]
  have e1 : speed_test 16 w (NttRed.fwd_ct_rev2std t 16) ⟨Array.replicate NTESTS 0, c, []⟩ = .error .overflow := by
    unfold speed_test
    rw [ea, ok_bind, iota16_eq ha]
    exact measure_error (by simp) (by rw [NTESTS_eq]; omega) hi
  have e2 : speeds (redTest 16 t) w ⟨Array.replicate NTESTS 0, c, []⟩ = .error .overflow := by
    unfold speeds
    rw [show speed_test (redTest 16 t).n w (redTest 16 t).ct_rev2std ⟨Array.replicate NTESTS 0, c, []⟩ =
      .error .overflow from e1]
    rfl
  rw [e2]
  rfl

-- The worlds of C55 meet the hypotheses.
example : WorldOK 16 (someWorld 16) ∧ (4, 16, 1212) ∈ libraryParams :=
  ⟨⟨fun i => by simp only [someWorld]; omega, fun i => by simp only [someWorld]; omega,
    fun i => by simp [someWorld]⟩, by simp [libraryParams]⟩

-- Durations may wrap around: a reading of 5 after a reading of 2^64 - 1 gives 6.
example : duration ⟨fun _ => 0, fun i => if i = 0 then 2 ^ 64 - 1 else 5, fun _ => #[]⟩ 0 = 6 := by decide

end Props
