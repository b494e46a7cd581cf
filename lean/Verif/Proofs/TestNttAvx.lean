import Verif.SpecTestNttAvx
import Verif.Proofs.TestAvx
import Verif.Proofs.TightData
import Verif.Proofs.TightData1024
import Verif.Proofs.TightData2048
import Verif.Proofs.TestNttRed
import Verif.Proofs.AsmProducts
import Verif.Props.AsmTransforms
import Verif.Props.Safety
import Verif.Props.Layout

/-
Proofs about src/test_ntt_avx.c.
-/

namespace TestNttAvx
open C Spec Asm TestTables NTT
open AsmProducts (rev_i16)
open TestProg (elt_set run_equal_arrays equal_arrays iter)
open NttRed (ok_bind wp_of_eq ctSeq gsSeq CtStep GsStep)
open TestAvx (World WorldOK wp_copy wp_compare random_coeff random_array16)

variable {w : World}

/-! ### Generators -/

theorem coeff200000 (k : Nat) : random_coeff false w 200000 k = .ok (((w.random k % 400000 : Nat) : Int) - 200000, k + 1) := by
  have hc : crem (w.random k : Int) 400000 = .ok ((w.random k % 400000 : Nat) : Int) := by
    unfold crem
    rw [if_neg (by decide), Int.tmod_eq_emod_of_nonneg (by omega)]
    norm_num
  have h := Nat.mod_lt (w.random k) (show 0 < 400000 by norm_num)
  generalize w.random k % 400000 = r at *
  unfold random_coeff
  have e1 : cassert (decide ((200000 : Int) > 0)) = .ok () := rfl
  have e2 : (if false = true then pure (toI32 (2 * 200000)) else i32 (2 * 200000) : M Int) = .ok 400000 := rfl
  rw [e1, ok_bind, e2, ok_bind, hc, ok_bind, NttRed.toI32_of ⟨by omega, by omega⟩, NttRed.i32_ok ⟨by omega, by omega⟩, ok_bind]
  have : cassert (decide (-200000 ≤ (r : Int) - 200000) && decide ((r : Int) - 200000 ≤ 200000 - 1)) = .ok () := by
    unfold cassert
    rw [if_pos]
    simp
    omega
  rw [this]
  rfl

theorem coeff32768 (k : Nat) : ∃ x, random_coeff false w 32768 k = .ok (x, k + 1) := by
  have hc : crem (w.random k : Int) 65536 = .ok ((w.random k % 65536 : Nat) : Int) := by
    unfold crem
    rw [if_neg (by decide), Int.tmod_eq_emod_of_nonneg (by omega)]
    norm_num
  have h := Nat.mod_lt (w.random k) (show 0 < 65536 by norm_num)
  generalize w.random k % 65536 = r at *
  refine ⟨(r : Int) - 32768, ?_⟩
  unfold random_coeff
  have e1 : cassert (decide ((32768 : Int) > 0)) = .ok () := rfl
  have e2 : (if false = true then pure (toI32 (2 * 32768)) else i32 (2 * 32768) : M Int) = .ok 65536 := rfl
  rw [e1, ok_bind, e2, ok_bind, hc, ok_bind, NttRed.toI32_of ⟨by omega, by omega⟩, NttRed.i32_ok ⟨by omega, by omega⟩, ok_bind]
  have : cassert (decide (-32768 ≤ (r : Int) - 32768) && decide ((r : Int) - 32768 ≤ 32768 - 1)) = .ok () := by
    unfold cassert
    rw [if_pos]
    simp
    omega
  rw [this]
  rfl

theorem drawn_size {n k : Nat} : (drawn w n k).size = n := by simp [drawn]

theorem elt_drawn {n k i : Nat} (h : i < n) : elt (drawn w n k) i = ((w.random (k + i) % 400000 : Nat) : Int) - 200000 := by
  unfold drawn elt
  simp [h]

theorem drawn_range {n k : Nat} : InRange (-200000) 199999 (drawn w n k) := by
  intro i hi
  rw [drawn_size] at hi
  rw [elt_drawn hi]
  have := Nat.mod_lt (w.random (k + i)) (show 0 < 400000 by norm_num)
  omega

/-- The first `n` elements of an array are replaced, the others stay. -/
theorem run_random_array {n : Nat} (hn : n < 4294967296) {a : Array Int} (ha : n ≤ a.size) (k : Nat) :
    ∃ b, random_array w a n k = .ok (b, k + n) ∧ b.size = a.size ∧ (∀ i, i < n → elt b i = elt (drawn w n k) i) ∧
      ∀ i, n ≤ i → elt b i = elt a i := by
  have : Wp NoErr (random_array w a n k) (fun r => r.2 = k + n ∧ r.1.size = a.size ∧ (∀ i, i < n → elt r.1 i = elt (drawn w n k) i) ∧
      ∀ i, n ≤ i → elt r.1 i = elt a i) := by
    unfold random_array
    refine wp_forUp1 (fun j s => s.2 = k + j ∧ s.1.size = a.size ∧ (∀ i, i < j → elt s.1 i = elt (drawn w n k) i) ∧
      ∀ i, j ≤ i → elt s.1 i = elt a i) hn (Nat.zero_le _) ⟨rfl, rfl, fun l hl => absurd hl (Nat.not_lt_zero _), fun _ _ => rfl⟩ ?_
      (fun _ h => h)
    rintro i ⟨b, k'⟩ - hi ⟨hk, hs, hv, hu⟩
    dsimp only at hk hs hv hu ⊢
    subst hk
    rw [coeff200000, ok_bind, wp_bind]
    refine wp_wr (show i < b.size by omega) ?_
    rw [wp_pure]
    refine ⟨rfl, by simp [hs], fun l hl => ?_, fun l hl => ?_⟩
    · dsimp only
      rw [elt_set (by omega)]
      by_cases hli : l = i
      · rw [if_pos hli, hli, elt_drawn hi]
      · rw [if_neg hli]; exact hv l (by omega)
    · dsimp only
      rw [elt_set (by omega), if_neg (by omega)]
      exact hu l (by omega)
  obtain ⟨⟨b, k'⟩, h1, h2, h3⟩ := wp_total.1 this
  dsimp only at h2 h3
  exact ⟨b, by rw [h1, h2], h3⟩

theorem fill_array {n : Nat} (hn : n < 4294967296) {a : Array Int} (ha : a.size = n) (k : Nat) :
    random_array w a n k = .ok (drawn w n k, k + n) := by
  obtain ⟨b, h1, h2, h3, -⟩ := run_random_array (w := w) hn (le_of_eq ha.symm) k
  rw [h1, Is.ext (n := n) ⟨by omega, h3⟩ (Is.self drawn_size)]

/-- A larger array: the drawn numbers, followed by what was there. -/
theorem fill_part {n : Nat} (hn : n < 4294967296) {a : Array Int} (ha : n ≤ a.size) (k : Nat) :
    ∃ u, random_array w a n k = .ok (drawn w n k ++ u, k + n) := by
  obtain ⟨b, h1, h2, h3, -⟩ := run_random_array (w := w) hn ha k
  refine ⟨b.extract n b.size, ?_⟩
  rw [h1]
  congr 2
  have hd : drawn w n k = b.extract 0 n := by
    refine Is.ext (n := n) (Is.self drawn_size) ⟨by simp; omega, fun i hi => ?_⟩
    rw [← h3 i hi]
    unfold elt
    simp [show i < min n b.size by omega, show i < b.size by omega]
  rw [hd]
  simp [show n ≤ b.size by omega]

theorem run_random_array16 {n : Nat} (hn : n < 4294967296) {p : Array Int} (hp : n ≤ p.size) (k : Nat) :
    ∃ q, random_array16 false w p n k = .ok (q, k + n) ∧ q.size = p.size := by
  have : Wp NoErr (random_array16 false w p n k) (fun r => r.2 = k + n ∧ r.1.size = p.size) := by
    unfold random_array16
    refine wp_forUp1 (fun j s => s.2 = k + j ∧ s.1.size = p.size) hn (Nat.zero_le _) ⟨rfl, rfl⟩ ?_ (fun _ h => h)
    rintro i ⟨b, k'⟩ - hi ⟨hk, hs⟩
    dsimp only at hk hs ⊢
    subst hk
    obtain ⟨x, ex⟩ := coeff32768 (w := w) (k + i)
    rw [ex, ok_bind, wp_bind]
    refine wp_wr (show i < b.size by omega) ?_
    rw [wp_pure]
    exact ⟨rfl, by simp [hs]⟩
  obtain ⟨⟨b, k'⟩, h1, h2, h3⟩ := wp_total.1 this
  dsimp only at h2 h3
  exact ⟨b, by rw [h1, h2], h3⟩

/-! ### Cross checks -/

/-- On arrays of `n` numbers drawn, `f` returns, `g` returns the same or stops with an error in `E`. -/
def Matches (E : Err → Prop) (n : Nat) (f g : Array Int → M (Array Int)) : Prop :=
  ∀ a : Array Int, a.size = n → InRange (-200000) 199999 a → (∃ a', f a = .ok a') ∧ Wp E (g a) (fun _ => True) ∧
    ∀ a', g a = .ok a' → f a = .ok a' ∧ a'.size = n

theorem wp_cross_check {E : Err → Prop} (hw : WorldOK w) {n : Nat} (hn : n < 4294967296) {f g : Array Int → M (Array Int)}
    (hfg : Matches E n f g) (k : Nat) : Wp E (cross_check w n f g k) (fun k' => k' = k + 3 + 100000 * n) := by
  unfold cross_check
  rw [wp_bind]
  refine wp_forUp1 (fun i s => s.2.2.2 = k + 3 + i * n ∧ s.1.size = n ∧ s.2.1.size = n ∧ s.2.2.1.size = n) (by norm_num) (by norm_num)
    ⟨by simp, hw.junk _ _, hw.junk _ _, hw.junk _ _⟩ ?_ (fun _ h => wp_pure.2 h.1)
  rintro i ⟨a, b, c, k'⟩ - - ⟨h0, h1, h2, h3⟩
  dsimp only at h0 h1 h2 h3 ⊢
  subst h0
  have hd := drawn_size (w := w) (n := n) (k := k + 3 + i * n)
  rw [fill_array hn h1, ok_bind, wp_bind]
  refine (wp_copy hn hd h2).mono ?_
  rintro _ rfl
  rw [wp_bind]
  refine (wp_copy hn hd h3).mono ?_
  rintro _ rfl
  obtain ⟨e1, e2, e3⟩ := hfg _ hd drawn_range
  exact wp_compare hn e2 e3 e1 (fun a b => (a, b, drawn w n (k + 3 + i * n), k + 3 + i * n + n))
    (fun a ha => ⟨by dsimp only; ring, ha, ha, hd⟩)

theorem cross_check_meaning (hw : WorldOK w) {n : Nat} (hn : n < 4294967296) {f g : Array Int → M (Array Int)}
    (hf : ∀ a b, a.size = n → f a = .ok b → b.size = n) (hg : ∀ a b, a.size = n → g a = .ok b → b.size = n) (k : Nat) :
    Wp TestProg.AnyErr (cross_check w n f g k) (fun k' => k' = k + 3 + 100000 * n ∧
      ∀ j, j < 100000 → ∃ r, f (drawn w n (k + 3 + j * n)) = .ok r ∧ g (drawn w n (k + 3 + j * n)) = .ok r) := by
  unfold cross_check
  rw [wp_bind]
  refine wp_forUp1 (fun i s => s.2.2.2 = k + 3 + i * n ∧ s.1.size = n ∧ s.2.1.size = n ∧ s.2.2.1.size = n ∧
    ∀ j, j < i → ∃ r, f (drawn w n (k + 3 + j * n)) = .ok r ∧ g (drawn w n (k + 3 + j * n)) = .ok r) (by norm_num) (by norm_num)
    ⟨by simp, hw.junk _ _, hw.junk _ _, hw.junk _ _, fun _ h => absurd h (Nat.not_lt_zero _)⟩ ?_
    (fun _ h => wp_pure.2 ⟨h.1, h.2.2.2.2⟩)
  rintro i ⟨a, b, c, k'⟩ - - ⟨h0, h1, h2, h2', hv⟩
  dsimp only at h0 h1 h2 h2' hv ⊢
  subst h0
  have hd := drawn_size (w := w) (n := n) (k := k + 3 + i * n)
  rw [fill_array hn h1, ok_bind, wp_bind]
  refine (wp_copy hn hd h2).mono ?_
  rintro _ rfl
  rw [wp_bind]
  refine (wp_copy hn hd h2').mono ?_
  rintro _ rfl
  dsimp only
  cases e1 : f (drawn w n (k + 3 + i * n)) with
  | error e => exact wp_error.2 trivial
  | ok u =>
    cases e2 : g (drawn w n (k + 3 + i * n)) with
    | error e => exact wp_error.2 trivial
    | ok v =>
      have su := hf _ _ hd e1
      have sv := hg _ _ hd e2
      obtain ⟨e, h3, h4⟩ := run_equal_arrays hn su sv
      rw [ok_bind, ok_bind, h3, ok_bind]
      cases he : e with
      | false => exact wp_error.2 trivial
      | true =>
        have huv := h4.1 he
        refine wp_pure.2 ⟨by dsimp only; ring, su, sv, hd, fun j hj => ?_⟩
        by_cases hji : j = i
        · subst hji
          exact ⟨u, e1, by rw [e2, huv]⟩
        · exact hv j (by omega)

/-! ### The pairs -/

/-- What the proofs need to know about a size and its tables. -/
structure SizeOK (k : Nat) (c ω : Zq) (S : Size) : Prop where
  le_k : 4 ≤ k
  k_le : k ≤ 11
  n : S.n = 2 ^ k
  half : ω ^ 2 ^ (k - 1) = -1
  shoup : StdTable 3 1 ω (-6144) 6144 k S.shoup
  rev_shoup : RevTable 3 1 ω (-6144) 6144 k S.rev_shoup
  shoup_scaled : StdTable 3 c ω (-6144) 6144 k S.shoup_scaled
  rev_shoup_scaled : RevTable 3 c ω (-6144) 6144 k S.rev_shoup_scaled

private theorem half16 : (6553 : Zq) ^ 2 ^ (4 - 1) = -1 := by decide +kernel
private theorem half128 : (12208 : Zq) ^ 2 ^ (7 - 1) = -1 := by decide +kernel
private theorem half256 : (8595 : Zq) ^ 2 ^ (8 - 1) = -1 := by decide +kernel
private theorem half512 : (10600 : Zq) ^ 2 ^ (9 - 1) = -1 := by decide +kernel
private theorem half1024 : (8209 : Zq) ^ 2 ^ (10 - 1) = -1 := by decide +kernel
private theorem half2048 : (12269 : Zq) ^ 2 ^ (11 - 1) = -1 := by decide +kernel

theorem size16_ok : SizeOK 4 1212 6553 size16 where
  le_k := by norm_num
  k_le := by norm_num
  n := by dsimp only [size16]; norm_num
  half := half16
  shoup := by dsimp only [size16]; exact shoup_sred_ntt16_12289_ok
  rev_shoup := by dsimp only [size16]; exact rev_shoup_sred_ntt16_12289_ok
  shoup_scaled := by dsimp only [size16]; exact shoup_sred_scaled_ntt16_12289_ok
  rev_shoup_scaled := by dsimp only [size16]; exact rev_shoup_sred_scaled_ntt16_12289_ok

theorem size128_ok : SizeOK 7 1022 12208 size128 where
  le_k := by norm_num
  k_le := by norm_num
  n := by dsimp only [size128]; norm_num
  half := half128
  shoup := by dsimp only [size128]; exact shoup_sred_ntt128_12289_ok
  rev_shoup := by dsimp only [size128]; exact rev_shoup_sred_ntt128_12289_ok
  shoup_scaled := by dsimp only [size128]; exact shoup_sred_scaled_ntt128_12289_ok
  rev_shoup_scaled := by dsimp only [size128]; exact rev_shoup_sred_scaled_ntt128_12289_ok

theorem size256_ok : SizeOK 8 1002 8595 size256 where
  le_k := by norm_num
  k_le := by norm_num
  n := by dsimp only [size256]; norm_num
  half := half256
  shoup := by dsimp only [size256]; exact shoup_sred_ntt256_12289_ok
  rev_shoup := by dsimp only [size256]; exact rev_shoup_sred_ntt256_12289_ok
  shoup_scaled := by dsimp only [size256]; exact shoup_sred_scaled_ntt256_12289_ok
  rev_shoup_scaled := by dsimp only [size256]; exact rev_shoup_sred_scaled_ntt256_12289_ok

theorem size512_ok : SizeOK 9 1003 10600 size512 where
  le_k := by norm_num
  k_le := by norm_num
  n := by dsimp only [size512]; norm_num
  half := half512
  shoup := by dsimp only [size512]; exact shoup_sred_ntt512_12289_ok
  rev_shoup := by dsimp only [size512]; exact rev_shoup_sred_ntt512_12289_ok
  shoup_scaled := by dsimp only [size512]; exact shoup_sred_scaled_ntt512_12289_ok
  rev_shoup_scaled := by dsimp only [size512]; exact rev_shoup_sred_scaled_ntt512_12289_ok

theorem size1024_ok : SizeOK 10 1014 8209 size1024 where
  le_k := by norm_num
  k_le := by norm_num
  n := by dsimp only [size1024]; norm_num
  half := half1024
  shoup := by dsimp only [size1024]; exact shoup_sred_ntt1024_12289_ok
  rev_shoup := by dsimp only [size1024]; exact rev_shoup_sred_ntt1024_12289_ok
  shoup_scaled := by dsimp only [size1024]; exact shoup_sred_scaled_ntt1024_12289_ok
  rev_shoup_scaled := by dsimp only [size1024]; exact rev_shoup_sred_scaled_ntt1024_12289_ok

theorem size2048_ok : SizeOK 11 1016 12269 size2048 where
  le_k := by norm_num
  k_le := by norm_num
  n := by dsimp only [size2048]; norm_num
  half := half2048
  shoup := by dsimp only [size2048]; exact shoup_sred_ntt2048_12289_ok
  rev_shoup := by dsimp only [size2048]; exact rev_shoup_sred_ntt2048_12289_ok
  shoup_scaled := by dsimp only [size2048]; exact shoup_sred_scaled_ntt2048_12289_ok
  rev_shoup_scaled := by dsimp only [size2048]; exact rev_shoup_sred_scaled_ntt2048_12289_ok


/-- `f` and `g` without further assumptions: the C functions return or stop because of overflow or an assertion. -/
theorem matches_any {k : Nat} {c ω : Zq} {S : Size} (h : SizeOK k c ω S) {P : Pair} (hP : P ∈ pairs) :
    Matches (fun e => e = .overflow ∨ e = .assertFail) S.n (fun a => P.asm a S.n (P.table S)) (fun a => P.base a S.n (P.table S)) := by
  obtain ⟨h4, h11, hn, -, t1, t2, t3, t4⟩ := h
  intro a ha hr
  rw [hn] at ha ⊢
  have hi32 := Props.tr_i32 (NttRed.InRange.mono hr (by decide) (by decide))
  have hk : k ≤ 31 := by omega
  have key : ∀ {asm base : M (Array Int)} {F : Nat → Int}, Wp Arith base (Sized (2 ^ k)) → Wp NoErr asm (Is (2 ^ k) F) →
      (∀ a', base = .ok a' → asm = .ok a') →
      (∃ a', asm = .ok a') ∧ Wp Arith base (fun _ => True) ∧ ∀ a', base = .ok a' → asm = .ok a' ∧ a'.size = 2 ^ k := by
    intro asm base F h1 h2 h3
    obtain ⟨b, hb, -⟩ := wp_total.1 h2
    refine ⟨⟨b, hb⟩, h1.mono fun _ _ => trivial, fun a' e => ⟨h3 a' e, ?_⟩⟩
    rw [e] at h1
    exact (wp_ok (E := Arith) (P := Sized (2 ^ k))).1 h1
  have u1 := Props.unit_std t1
  have u2 := Props.unit_rev t2
  simp only [pairs, List.mem_cons, List.not_mem_nil, or_false] at hP
  rcases hP with rfl | rfl | rfl | rfl | rfl | rfl | rfl | rfl
  · exact key (safe_ctRev2std hk t1.1 NttRed.safe_bf0 NttRed.safe_ctBf ha) (wp_ct_rev2std_asm h4 t1.1 u1 (Is.self ha) hi32)
      fun a' e => Props.tr_eq (c_ct_rev2std hk t1.1 u1 ha hi32 e) (wp_ct_rev2std_asm h4 t1.1 u1 (Is.self ha) hi32)
  · exact key (safe_mulCtRev2std hk t1.1 NttRed.safe_ctBf ha) (wp_mulct_rev2std_asm h4 t1.1 (Is.self ha))
      fun a' e => Props.tr_eq (c_mulct_rev2std hk t1.1 ha e) (wp_mulct_rev2std_asm h4 t1.1 (Is.self ha))
  · exact key (safe_ctStd2rev hk t2.1 NttRed.safe_bf0 NttRed.safe_ctBf ha)
      (wp_ct_std2rev_asm h4 t2.1 (rev_i16 t2) u2 (Is.self ha) hi32)
      fun a' e => Props.tr_eq (c_ct_std2rev hk t2.1 u2 ha hi32 e) (wp_ct_std2rev_asm h4 t2.1 (rev_i16 t2) u2 (Is.self ha) hi32)
  · exact key (safe_mulCtStd2rev hk t4.1 NttRed.safe_ctBf ha) (wp_mulct_std2rev_asm h4 t4.1 (rev_i16 t4) (Is.self ha))
      fun a' e => Props.tr_eq (c_mulct_std2rev hk t4.1 ha e) (wp_mulct_std2rev_asm h4 t4.1 (rev_i16 t4) (Is.self ha))
  · exact key (safe_gsRev2std hk t2.1 NttRed.safe_bf0 NttRed.safe_gsBf ha)
      (wp_gs_rev2std_asm h4 t2.1 (rev_i16 t2) u2 (Is.self ha))
      fun a' e => Props.tr_eq (c_gs_rev2std hk t2.1 u2 ha e) (wp_gs_rev2std_asm h4 t2.1 (rev_i16 t2) u2 (Is.self ha))
  · exact key (safe_gsMulRev2std hk t4.1 NttRed.safe_gsBf ha) (wp_gsmul_rev2std_asm h4 t4.1 (rev_i16 t4) (Is.self ha))
      fun a' e => Props.tr_eq (c_gsmul_rev2std hk t4.1 ha e) (wp_gsmul_rev2std_asm h4 t4.1 (rev_i16 t4) (Is.self ha))
  · exact key (safe_gsStd2rev hk t1.1 NttRed.safe_bf0 NttRed.safe_gsBf ha) (wp_gs_std2rev_asm h4 t1.1 u1 (Is.self ha))
      fun a' e => Props.tr_eq (c_gs_std2rev hk t1.1 u1 ha e) (wp_gs_std2rev_asm h4 t1.1 u1 (Is.self ha))
  · exact key (safe_gsMulStd2rev hk t3.1 NttRed.safe_gsBf ha) (wp_gsmul_std2rev_asm h4 t3.1 (Is.self ha))
      fun a' e => Props.tr_eq (c_gsmul_std2rev hk t3.1 ha e) (wp_gsmul_std2rev_asm h4 t3.1 (Is.self ha))

/-- The sizes with the bounds of Proofs/Tight.lean. -/
def Fits (S : Size) : Prop := ∃ k ψ B : Nat, SizeOK k (ψ : Zq) ((ψ : Zq) ^ 2) S ∧ 200000 ≤ B ∧
  Tight.AllOk k ψ B 2147483647 2147483647 2147483647 2147483647 ∧ Tight.ctA k ψ 0 false 2147483647 200000 = true

private theorem fits {k ψ B : Nat} {c ω : Zq} {S : Size} (h : SizeOK k c ω S) (e1 : (ψ : Zq) = c) (e2 : c ^ 2 = ω) (hB : 200000 ≤ B)
    (h1 : Tight.AllOk k ψ B 2147483647 2147483647 2147483647 2147483647)
    (h2 : Tight.ctA k ψ 0 false 2147483647 200000 = true) : Fits S := by
  subst e1
  subst e2
  exact ⟨k, ψ, B, h, hB, h1, h2⟩

private theorem sq16 : (1212 : Zq) ^ 2 = 6553 := by decide +kernel
private theorem sq128 : (1022 : Zq) ^ 2 = 12208 := by decide +kernel
private theorem sq256 : (1002 : Zq) ^ 2 = 8595 := by decide +kernel
private theorem sq512 : (1003 : Zq) ^ 2 = 10600 := by decide +kernel
private theorem sq1024 : (1014 : Zq) ^ 2 = 8209 := by decide +kernel
private theorem sq2048 : (1016 : Zq) ^ 2 = 12269 := by decide +kernel

theorem all_fit {S : Size} (hS : S ∈ sizes) : Fits S := by
  simp only [sizes, List.mem_cons, List.not_mem_nil, or_false] at hS
  rcases hS with rfl | rfl | rfl | rfl | rfl | rfl
  · exact fits size16_ok (by norm_num) sq16 (by norm_num) Tight.fwd16 Tight.mul16
  · exact fits size128_ok (by norm_num) sq128 (by norm_num) Tight.fwd128 Tight.mul128
  · exact fits size256_ok (by norm_num) sq256 (by norm_num) Tight.fwd256 Tight.mul256
  · exact fits size512_ok (by norm_num) sq512 (by norm_num) Tight.fwd512 Tight.mul512
  · exact fits size1024_ok (by norm_num) sq1024 (by norm_num) Tight.fwd1024 Tight.mul1024
  · exact fits size2048_ok (by norm_num) sq2048 (by norm_num) Tight.fwd2048 Tight.mul2048

/-- The C functions return. -/
theorem base_ok {S : Size} (h : Fits S) {P : Pair} (hP : P ∈ pairs) {a : Array Int} (ha : a.size = S.n)
    (hr : InRange (-200000) 199999 a) : ∃ a', P.base a S.n (P.table S) = .ok a' := by
  obtain ⟨k, ψ, B, ⟨h4, h11, hn, hh, t1, t2, t3, t4⟩, hB, hall, hmul⟩ := h
  rw [hn] at ha ⊢
  have hk0 : 0 < k := by omega
  have hk : k ≤ 31 := by omega
  have hψ : (ψ : Zq) ^ 2 ^ k = -1 := by rw [Tight.pow_pred hk0, pow_mul]; exact hh
  have hr' : InRange (-(B : Int)) B a := NttRed.InRange.mono hr (by omega) (by omega)
  have hA : ∀ i, i < 2 ^ k → coeff a i = (fun j => coeff a (rev k j)) (rev k i) := by
    intro i hi
    dsimp only
    rw [rev_rev _ _ hi]
  have hA' : ∀ i, i < 2 ^ k → coeff a i = coeff a i := fun _ _ => rfl
  have t1' : StdTable 3 ((ψ : Zq) ^ 0) ((ψ : Zq) ^ 2) (-6144) 6144 k S.shoup := by rwa [pow_zero]
  have t3' : StdTable 3 ((ψ : Zq) ^ 1) ((ψ : Zq) ^ 2) (-6144) 6144 k S.shoup_scaled := by rwa [pow_one]
  have t4' : RevTable 3 ((ψ : Zq) ^ 1) ((ψ : Zq) ^ 2) (-6144) 6144 k S.rev_shoup_scaled := by rwa [pow_one]
  simp only [pairs, List.mem_cons, List.not_mem_nil, or_false] at hP
  rcases hP with rfl | rfl | rfl | rfl | rfl | rfl | rfl | rfl
  · obtain ⟨a', e, -⟩ := Tight.ct_rev2std hk0 hk hψ le_rfl ha hr' t1 hall.ctA (A := fun j => coeff a (rev k j)) hA; exact ⟨a', e⟩
  · obtain ⟨a', e, -⟩ := Tight.mulct_rev2std hk0 hk hψ le_rfl ha (NttRed.InRange.mono hr (by norm_num) (by norm_num)) t1' hmul
      (A := fun j => coeff a (rev k j)) hA
    exact ⟨a', e⟩
  · obtain ⟨a', e, -⟩ := Tight.ct_std2rev hk0 hk hψ le_rfl ha hr' t2 hall.ctB (A := coeff a) hA'; exact ⟨a', e⟩
  · obtain ⟨a', e, -⟩ := Tight.mulct_std2rev hk0 hk hψ le_rfl ha hr' t4' hall.mulctB (A := coeff a) hA'; exact ⟨a', e⟩
  · obtain ⟨a', e, -⟩ := Tight.gs_rev2std hk0 hk hψ le_rfl ha hr' t2 hall.gsB (A := fun j => coeff a (rev k j)) hA; exact ⟨a', e⟩
  · obtain ⟨a', e, -⟩ := Tight.gsmul_rev2std hk0 hk hψ le_rfl ha hr' t4' hall.gsmulB (A := fun j => coeff a (rev k j)) hA; exact ⟨a', e⟩
  · obtain ⟨a', e, -⟩ := Tight.gs_std2rev hk0 hk hψ le_rfl ha hr' t1 hall.gsA (A := coeff a) hA'; exact ⟨a', e⟩
  · obtain ⟨a', e, -⟩ := Tight.gsmul_std2rev hk0 hk hψ le_rfl ha hr' t3' hall.gsmulA (A := coeff a) hA'; exact ⟨a', e⟩

theorem matches_ok {E : Err → Prop} {S : Size} (hS : S ∈ sizes) {P : Pair} (hP : P ∈ pairs) :
    Matches E S.n (fun a => P.asm a S.n (P.table S)) (fun a => P.base a S.n (P.table S)) := by
  intro a ha hr
  have hf := all_fit hS
  obtain ⟨a', e⟩ := base_ok hf hP ha hr
  obtain ⟨k, ψ, B, h, -⟩ := hf
  obtain ⟨h1, -, h3⟩ := matches_any h hP a ha hr
  exact ⟨h1, wp_of_eq e trivial, h3⟩

/-! ### The first speed test -/

theorem measure_proj {f : Array Int → M (Array Int)} {a : Array Int} {s : TestProg.Speed} {e : Err} (j : Nat → Array Int)
    (h : TestProg.measure ⟨w.random, w.cycles, j⟩ f a s = .error e) : TestAvx.measure w f a s = .error e := by
  unfold TestProg.measure at h
  unfold TestAvx.measure
  dsimp only at h
  generalize forUp 0 TestProg.NTESTS 1 (fun i (s : Array Nat × Array Int × Nat) => do
    let t ← wr s.1 i (w.cycles s.2.2)
    let x ← f s.2.1
    pure (t, x, s.2.2 + 1)) (s.t, a, s.k) = r at h ⊢
  cases r with
  | error e' => cases h; rfl
  | ok r =>
    rw [ok_bind] at h ⊢
    generalize TestProg.durations r.1 (w.cycles r.2.2) = t at h ⊢
    cases t with
    | error e' => cases h; rfl
    | ok t =>
      rw [ok_bind] at h ⊢
      generalize TestProg.average_time t = v at h ⊢
      cases v with
      | error e' => cases h; rfl
      | ok v =>
        rw [ok_bind] at h ⊢
        generalize TestProg.median_time t = v at h ⊢
        cases v with
        | error e' => cases h; rfl
        | ok v => cases h

/-- A function repeated on the first elements of a larger array. -/
theorem iter_longer {f f' : Array Int → M (Array Int)} {u : Array Int} (h1 : ∀ v v', f v = .ok v' → f' (v ++ u) = .ok (v' ++ u))
    (h2 : ∀ v e, e ≠ .oob → f v = .error e → f' (v ++ u) = .error e) {e : Err} (he : e ≠ .oob) :
    ∀ m v, iter f m v = .error e → iter f' m (v ++ u) = .error e := by
  intro m
  induction m with
  | zero => intro v h; cases h
  | succ m ih =>
    intro v h
    unfold iter at h ⊢
    cases hv : f v with
    | error e' =>
      rw [hv] at h
      cases h
      rw [h2 v e he hv]
      rfl
    | ok v' =>
      rw [hv, ok_bind] at h
      rw [h1 v v' hv, ok_bind]
      exact ih v' h

theorem speed_test_stops {k : Nat} (hk0 : 0 < k) (hk : k ≤ 31) {g : Globals} (ha : 2 ^ k ≤ g.a.size) (hp : 2 ^ k ≤ g.p.size)
    (ht : g.s.t.size = TestProg.NTESTS)
    (h0 : elt (drawn w (2 ^ k) g.s.k) 0 ≠ 0 ∨ NttRed.total (2 ^ k) (drawn w (2 ^ k) g.s.k) ≠ 0) :
    ∃ e, speed_test2 w (2 ^ k) NttRed.ntt_red_ct_rev2std g = .error e ∧ (e = .overflow ∨ e = .assertFail) := by
  have hn : 2 ^ k < 4294967296 := lt_of_le_of_lt (Nat.pow_le_pow_right (by norm_num) hk) (by norm_num)
  obtain ⟨u, e1⟩ := fill_part (w := w) hn ha g.s.k
  obtain ⟨q, e2, hq⟩ := run_random_array16 (w := w) hn hp (g.s.k + 2 ^ k)
  obtain ⟨e, h1, h2⟩ := NttRed.iter_stops hk0 hk (p := q) (by omega) drawn_size
    (fun i hi => by
      have := drawn_range (w := w) (n := 2 ^ k) (k := g.s.k) i (by rw [drawn_size]; exact hi)
      unfold I32; omega) h0
  have h2' : e = .overflow ∨ e = .assertFail := h2
  have h3 : iter (fun a => NttRed.ntt_red_ct_rev2std a (2 ^ k) q) 65 (drawn w (2 ^ k) g.s.k ++ u) = .error e := by
    have key := fun v => Props.C68_longer_table (f := NttRed.ntt_red_ct_rev2std) (F := Shared.NttRed.ntt_red_ct_rev2std)
      (by simp [Shared.tableFunctions]) (2 ^ k) v u q #[]
    simp only [Array.append_empty] at key
    refine iter_longer (fun v v' h => (key v).1 v' h) (fun v e he h => (key v).2 e he h) ?_ 65 _ h1
    rcases h2' with rfl | rfl <;> decide
  refine ⟨e, ?_, h2'⟩
  unfold speed_test2
  rw [e1, ok_bind, e2, ok_bind]
  have : TestAvx.measure w (fun a => NttRed.ntt_red_ct_rev2std a (2 ^ k) q) (drawn w (2 ^ k) g.s.k ++ u)
      { g.s with k := g.s.k + 2 ^ k + 2 ^ k } = .error e :=
    measure_proj (fun _ => #[]) (TestProg.measure_error (by exact ht) (by rw [TestProg.NTESTS_eq]; norm_num) h3)
  dsimp only
  rw [this]
  rfl

theorem foldlM_error {α β : Type} {f : α → β → M α} {a : α} {b : β} {l : List β} {e : Err} (h : f a b = .error e) :
    (b :: l).foldlM f a = .error e := by
  rw [List.foldlM_cons, h]
  rfl

theorem main_stops (hw : WorldOK w)
    (h0 : elt (drawn w 16 1600003) 0 ≠ 0 ∨ NttRed.total 16 (drawn w 16 1600003) ≠ 0) :
    ∃ e, main w true = .error e ∧ (e = .overflow ∨ e = .assertFail) := by
  obtain ⟨k', e1, e2⟩ := wp_total.1 (wp_cross_check (w := w) (E := NoErr) hw (n := size16.n) (by norm_num [size16])
    (matches_ok (S := size16) (by simp [sizes]) (P := ct_rev2std) (by simp [pairs])) 0)
  have hk' : k' = 1600003 := by rw [e2]; norm_num [size16]
  subst hk'
  obtain ⟨e, h1, h2⟩ := speed_test_stops (w := w) (k := 4) (by norm_num) (by norm_num)
    (g := ⟨Array.replicate 2048 0, Array.replicate 2048 0, ⟨Array.replicate TestProg.NTESTS 0, 1600003, []⟩⟩)
    (by rw [Array.size_replicate]; norm_num) (by rw [Array.size_replicate]; norm_num) (by rw [Array.size_replicate]) h0
  refine ⟨e, ?_, h2⟩
  have h3 : test_pair w size16 ⟨Array.replicate 2048 0, Array.replicate 2048 0, ⟨Array.replicate TestProg.NTESTS 0, 0, []⟩⟩ ct_rev2std
      = .error e := by
    unfold test_pair
    dsimp only
    rw [e1, ok_bind]
    exact (congrArg (fun r : M Globals => r >>= fun g => speed_test2 w size16.n ct_rev2std.asm g) h1).trans rfl
  have h4 : tests w size16 ⟨Array.replicate 2048 0, Array.replicate 2048 0, ⟨Array.replicate TestProg.NTESTS 0, 0, []⟩⟩ = .error e := by
    unfold tests pairs
    exact foldlM_error h3
  unfold main run_tests
  rw [if_pos rfl]
  dsimp only
  rw [foldlM_error (f := fun g S => tests w S g) h4]
  rfl

end TestNttAvx
