import Verif.Proofs.TestRedBounds
import Verif.Props.RedBounds

/-
C66: what src/test_red_bounds.c prints is right, and what the bounds it prints mean for the transforms.

The program is linked with red_bounds.c compiled with -DNDEBUG, i.e. `dbg = false`.  `bound i` is the content of the uninitialised
array `bound[12]` in the `i`-th call of `show_ct_bounds`; nothing depends on it.
-/

namespace Props
open C Spec RedBounds TestRedBounds TestTables
open NttRed (ok_bind)

private theorem redLineOK {l : RedLine} (h64 : I64 l.a ∧ I64 l.b ∧ l.a ≤ l.b)
    (h1 : min_red false l.a l.b = .ok (l.min, l.minArg)) (h2 : max_red false l.a l.b = .ok (l.max, l.maxArg)) : RedLineOK l := by
  obtain ⟨r, m, e1, g1, g2, g3⟩ := C28_min_red false l.a l.b h64.1 h64.2.1 h64.2.2
  obtain ⟨r', m', e2, k1, k2, k3⟩ := C28_max_red false l.a l.b h64.1 h64.2.1 h64.2.2
  rw [h1, Except.ok.injEq, Prod.mk.injEq] at e1
  rw [h2, Except.ok.injEq, Prod.mk.injEq] at e2
  obtain ⟨rfl, rfl⟩ := e1
  obtain ⟨rfl, rfl⟩ := e2
  exact ⟨g3, k3, g1, g2, k1, k2⟩

private theorem redLines_ok : ∀ l ∈ redLines ++ symRedLines, RedLineOK l := by
  have h : ∀ l ∈ redLines ++ symRedLines, (I64 l.a ∧ I64 l.b ∧ l.a ≤ l.b) ∧
      min_red false l.a l.b = .ok (l.min, l.minArg) ∧ max_red false l.a l.b = .ok (l.max, l.maxArg) := by
    unfold I64
    decide +kernel
  intro l hl
  have := h l hl
  exact redLineOK this.1 this.2.1 this.2.2

private theorem output (bound : Nat → Array Int) (hbound : ∀ i, (bound i).size = 12) :
    ∃ o, TestRedBounds.main false bound = .ok o ∧ OutputOK o ∧
      List.Forall₂ (fun np l => l.map TableLine.b0 = [6144, 12288, 21499, 30709, 36864] ∧
        ∀ x ∈ l, ∃ k ≤ 11, np.1 = 2 ^ k ∧ LineOK k np.2 x) TestRedBounds.tables o.tables := by
  have r1 : reductions false false 100 (-2147483648) 2147483647 = .ok redLines := by decide +kernel
  have r2 : reductions false true 100 (-2147483648) 2147483647 = .ok symRedLines := by decide +kernel
  have m1 : min_red false (-2147483648) 2147483647 = .ok (-524287, 2147479552) := by decide +kernel
  have m2 : max_red false (-2147483648) 2147483647 = .ok (536573, -2147479553) := by decide +kernel
  have m3 : min_red false (-524287) 536573 = .ok (-130, 532480) := by decide +kernel
  have m4 : max_red false (-524287) 536573 = .ok (12413, -520193) := by decide +kernel
  obtain ⟨p1, e1, h1⟩ := prodLine_eq (a := -524287) (b := 536573) (low := -524287) (high := 536573) (by norm_num) (by norm_num)
    (by norm_num) (by norm_num) (by norm_num) (by norm_num) (by norm_num) (by norm_num)
  obtain ⟨p2, e2, h2⟩ := prodLine_eq (a := -130) (b := 12413) (low := -130) (high := 12413) (by norm_num) (by norm_num)
    (by norm_num) (by norm_num) (by norm_num) (by norm_num) (by norm_num) (by norm_num)
  obtain ⟨p3, e3, h3⟩ := prodLine_eq (a := 0) (b := 12288) (low := 0) (high := 12288) (by norm_num) (by norm_num)
    (by norm_num) (by norm_num) (by norm_num) (by norm_num) (by norm_num) (by norm_num)
  obtain ⟨p4, e4, h4⟩ := prodLine_eq (a := -6144) (b := 6144) (low := -6144) (high := 6144) (by norm_num) (by norm_num)
    (by norm_num) (by norm_num) (by norm_num) (by norm_num) (by norm_num) (by norm_num)
  obtain ⟨p5, e5, h5⟩ := prodLine_eq (a := 0) (b := 12288) (low := -6144) (high := 6144) (by norm_num) (by norm_num)
    (by norm_num) (by norm_num) (by norm_num) (by norm_num) (by norm_num) (by norm_num)
  obtain ⟨b3, f3, g3, g3', g3''⟩ := maxAbs_eq h3 (by norm_num) (by norm_num) (by norm_num) (by norm_num) (by norm_num) (by norm_num)
    (by norm_num) (by norm_num)
  obtain ⟨b4, f4, g4, g4', g4''⟩ := maxAbs_eq h4 (by norm_num) (by norm_num) (by norm_num) (by norm_num) (by norm_num) (by norm_num)
    (by norm_num) (by norm_num)
  obtain ⟨b5, f5, g5, g5', g5''⟩ := maxAbs_eq h5 (by norm_num) (by norm_num) (by norm_num) (by norm_num) (by norm_num) (by norm_num)
    (by norm_num) (by norm_num)
  have ct {b low high : Int} (h0 : 0 ≤ b) (h1 : b ≤ 2147483647) (hlh : low ≤ high) (hl : -12288 ≤ low) (hh : high ≤ 12288) :
      ∃ l, ct_iteration false b low high = .ok l ∧ BestLines (fun b => ctSet b (fun w => low ≤ w ∧ w ≤ high)) 20 0 b l :=
    iteration_eq (ct_fun hlh hl hh) false h0 h1
  have gs {b low high : Int} (h0 : 0 ≤ b) (h1 : b ≤ 2147483647) (hlh : low ≤ high) (hl : -12288 ≤ low) (hh : high ≤ 12288) :
      ∃ l, gs_iteration false b low high = .ok l ∧ BestLines (fun b => gsSet b (fun w => low ≤ w ∧ w ≤ high)) 20 0 b l :=
    iteration_eq (gs_fun hlh hl hh) false h0 h1
  obtain ⟨c1, i1, k1⟩ := ct (b := 12288) (low := 0) (high := 12288) (by norm_num) (by norm_num) (by norm_num) (by norm_num) (by norm_num)
  obtain ⟨c2, i2, k2⟩ := ct (b := 12288) (low := -6144) (high := 6144) (by norm_num) (by norm_num) (by norm_num) (by norm_num) (by norm_num)
  obtain ⟨c3, i3, k3⟩ := gs (b := 12288) (low := 0) (high := 12288) (by norm_num) (by norm_num) (by norm_num) (by norm_num) (by norm_num)
  obtain ⟨c4, i4, k4⟩ := gs (b := 12288) (low := -6144) (high := 6144) (by norm_num) (by norm_num) (by norm_num) (by norm_num) (by norm_num)
  obtain ⟨d1, j1, q1⟩ := ct (b := b3) (low := 0) (high := 12288) g3' g3'' (by norm_num) (by norm_num) (by norm_num)
  obtain ⟨d2, j2, q2⟩ := gs (b := b3) (low := 0) (high := 12288) g3' g3'' (by norm_num) (by norm_num) (by norm_num)
  obtain ⟨d3, j3, q3⟩ := ct (b := b4) (low := -6144) (high := 6144) g4' g4'' (by norm_num) (by norm_num) (by norm_num)
  obtain ⟨d4, j4, q4⟩ := gs (b := b4) (low := -6144) (high := 6144) g4' g4'' (by norm_num) (by norm_num) (by norm_num)
  obtain ⟨d5, j5, q5⟩ := ct (b := b5) (low := -6144) (high := 6144) g5' g5'' (by norm_num) (by norm_num) (by norm_num)
  obtain ⟨d6, j6, q6⟩ := gs (b := b5) (low := -6144) (high := 6144) g5' g5'' (by norm_num) (by norm_num) (by norm_num)
  obtain ⟨t, l, et, ht⟩ := tables_fold bound hbound TestRedBounds.tables (fun _ h => h) (0, [])
  unfold TestRedBounds.main
  rw [r1, ok_bind, r2, ok_bind, m1, ok_bind]
  dsimp only
  rw [m2, ok_bind]
  dsimp only
  rw [e1, ok_bind, m3, ok_bind]
  dsimp only
  rw [m4, ok_bind]
  dsimp only
  rw [e2, ok_bind, i1, ok_bind, i2, ok_bind, i3, ok_bind, i4, ok_bind, e3, ok_bind, f3, ok_bind, j1, ok_bind, j2, ok_bind,
    e4, ok_bind, f4, ok_bind, j3, ok_bind, j4, ok_bind, e5, ok_bind, f5, ok_bind, j5, ok_bind, j6, ok_bind, et, ok_bind]
  refine ⟨_, rfl, ⟨rfl, rfl, redLines_ok, h1, h2, k1, k2, k3, k4, ⟨h3, b3, g3, q1, q2⟩, ⟨h4, b4, g4, q3, q4⟩, ⟨h5, b5, g5, q5, q6⟩, ?_⟩,
    ht⟩
  show List.Forall₂ _ _ l
  refine List.Forall₂.imp ?_ ht
  rintro np l ⟨h, h'⟩
  refine ⟨h, fun x hx => ?_⟩
  obtain ⟨k, hk, e, hok⟩ := h' x hx
  exact ⟨k, hk, e, hok.1⟩

/-- The program runs to completion and everything it prints is right: the reductions, the products of intervals, the bounds for the
rounds of the transforms (the best possible from one round to the next, with a reduction exactly where the bound would not fit in
`int32_t`), and, for each of the 24 tables and each of the five bounds of the inputs, the bounds on the results of the whole transforms,
marked as overflows exactly if they are at least `INT32_MAX`. -/
theorem C66_output (bound : Nat → Array Int) (hbound : ∀ i, (bound i).size = 12) :
    ∃ o, TestRedBounds.main false bound = .ok o ∧ OutputOK o := by
  obtain ⟨o, h1, h2, -⟩ := output bound hbound
  exact ⟨o, h1, h2⟩

/-- There are arrays of 12 elements. -/
example : (Array.replicate 12 (7 : Int)).size = 12 := by decide

private theorem line {bound : Nat → Array Int} (hbound : ∀ i, (bound i).size = 12) {o : TestRedBounds.Output}
    (ho : TestRedBounds.main false bound = .ok o) {n : Nat} {p : Array Int} {l : List TableLine}
    (hl : ((n, p), l) ∈ TestRedBounds.tables.zip o.tables) {x : TableLine} (hx : x ∈ l) :
    (n, p) ∈ TestRedBounds.tables ∧ ∃ k ≤ 11, n = 2 ^ k ∧ Good k p ∧ LineOK k p x ∧ 0 ≤ x.b0 ∧ x.b0 ≤ 36864 := by
  obtain ⟨o', h1, -, h2⟩ := output bound hbound
  rw [ho, Except.ok.injEq] at h1
  subst h1
  have hm := (List.of_mem_zip hl).1
  have h3 := (List.forall₂_iff_zip.1 h2).2 hl
  obtain ⟨k, hk, e, hok⟩ := h3.2 x hx
  obtain ⟨k', hk', e', hg⟩ := log_of hm
  have : k = k' := Nat.pow_right_injective (le_refl 2) (e.symm.trans e')
  subst this
  have hb : x.b0 ∈ l.map TableLine.b0 := List.mem_map_of_mem hx
  have hb' : x.b0 ∈ ([6144, 12288, 21499, 30709, 36864] : List Int) := h3.1 ▸ hb
  have hall : ∀ b ∈ ([6144, 12288, 21499, 30709, 36864] : List Int), 0 ≤ b ∧ b ≤ 36864 := by decide
  exact ⟨hm, k, hk, e, hg, hok, hall _ hb'⟩

private theorem prod_le {k : Nat} {p : Array Int} (hg : Good k p) {B : Int} (h0 : 0 ≤ B) (h1 : B ≤ 1431647249) :
    ∀ (i : Nat) (w : Int), p[i]? = some w → B * |w| ≤ 8796042698752 := by
  intro i w hw
  have := mul_le_mul h1 (hg.all hw) (abs_nonneg _) (by norm_num)
  omega

section
variable (bound : Nat → Array Int) (hbound : ∀ i, (bound i).size = 12) (o : TestRedBounds.Output)
  (ho : TestRedBounds.main false bound = .ok o) (n : Nat) (p : Array Int) (l : List TableLine)
  (hl : ((n, p), l) ∈ TestRedBounds.tables.zip o.tables) (x : TableLine) (hx : x ∈ l)
include hbound ho hl hx

/-- What the output says about the Cooley-Tukey transforms: no line is marked as an overflow, and every run of the lazy transforms that
fold in the powers of `psi`, with one of the 24 tables and inputs within the bound shown, is free of undefined behaviour and has its
results within the bound printed. -/
theorem C66_ct_safe : x.ctOver = false ∧ CtSafe n p x.b0 x.ct := by
  obtain ⟨-, k, hk, rfl, hg, ⟨hok, ⟨u, v, e⟩, -⟩, hb0, hb1⟩ := line hbound ho hl hx
  have hle := hg.ct_le hk hb0 hb1 hok
  have h0 : 0 ≤ x.ct := by
    obtain ⟨B, hc, e⟩ := hok.1
    rw [e]; exact (hg.chain_ct hb0 hc k le_rfl).1
  refine ⟨?_, fun a ha hr => ⟨?_, ?_⟩⟩
  · rw [Bool.eq_false_iff, Ne, hok.2.2.1]; omega
  · exact C41_mulntt_red_ct_rev2std false x.b0 k p u (by omega) hb0 hg.table16 x.ct v a ha hr hg.size.ge (by omega)
      (prod_le hg h0 hle) e
  · exact C41_mulntt_red_ct_std2rev false x.b0 k p u (by omega) hb0 hg.table16 x.ct v a ha hr hg.size.ge (by omega)
      (prod_le hg h0 hle) e

/-- The Gentleman-Sande transforms: if the bound printed is at most 1431647249 — always so for `n ≤ 512` — no run on inputs within the
bound shown has undefined behaviour, and the results are within the bound printed. -/
theorem C66_gs_safe : (x.gs ≤ 1431647249 → GsSafe n p x.b0 x.gs) ∧ (n ≤ 512 → x.gs ≤ 1431647249 ∧ x.gsOver = false) := by
  obtain ⟨-, k, hk, rfl, hg, ⟨hok, -, ⟨u, v, e⟩⟩, hb0, hb1⟩ := line hbound ho hl hx
  have h0 : 0 ≤ x.gs := by
    obtain ⟨B, hc, e⟩ := hok.2.1
    rw [e]; exact (hg.chain_gs hb0 hc k le_rfl).1
  constructor
  · intro hle a ha hr
    exact ⟨C42_nttmul_red_gs_rev2std false x.b0 k p u (by omega) hb0 hg.table16 x.gs v a ha hr hg.size.ge (by omega)
        (prod_le hg h0 hle) e,
      C42_nttmul_red_gs_std2rev false x.b0 k p u (by omega) hb0 hg.table16 x.gs v a ha hr hg.size.ge (by omega)
        (prod_le hg h0 hle) e,
      C42_ntt_red_gs_rev2std false x.b0 k p u (by omega) hb0 hg.table16 x.gs v a ha hr hg.size.ge (by omega)
        (prod_le hg h0 hle) e,
      C42_ntt_red_gs_std2rev false x.b0 k p u (by omega) hb0 hg.table16 x.gs v a ha hr hg.size.ge (by omega)
        (prod_le hg h0 hle) e⟩
  · intro hn
    have hk9 : k ≤ 9 := (Nat.pow_le_pow_iff_right (a := 2) (by norm_num)).1 (hn.trans (by norm_num))
    have := hg.gs_le hk9 hb0 hb1 hok
    exact ⟨this, by rw [Bool.eq_false_iff, Ne, hok.2.2.2]; omega⟩

/-- The Cooley-Tukey transforms without `psi`, with the tables without `psi`. -/
theorem C66_plain_ct_safe (hp : p ∈ [shoup_sred_ntt16_12289, rev_shoup_sred_ntt16_12289, shoup_sred_ntt128_12289,
      rev_shoup_sred_ntt128_12289, shoup_sred_ntt256_12289, rev_shoup_sred_ntt256_12289, shoup_sred_ntt512_12289,
      rev_shoup_sred_ntt512_12289, shoup_sred_ntt1024_12289, rev_shoup_sred_ntt1024_12289, shoup_sred_ntt2048_12289,
      rev_shoup_sred_ntt2048_12289]) : PlainCtSafe n p x.b0 x.ct := by
  obtain ⟨-, k, hk, rfl, hg, ⟨hok, ⟨u, v, e⟩, -⟩, hb0, hb1⟩ := line hbound ho hl hx
  have hle := hg.ct_le hk hb0 hb1 hok
  have h0 : 0 ≤ x.ct := by
    obtain ⟨B, hc, e⟩ := hok.1
    rw [e]; exact (hg.chain_ct hb0 hc k le_rfl).1
  have hone : ∀ m, m < k → p[2 ^ m]? = some (-4096) := by
    obtain ⟨t4, t7, t8, t9, t10, t11⟩ := Props.C60_test_ntt_sred_tables
    have key : ∀ {k' : Nat} {ψ : Zq} {a b c d : Array Int}, TwiddlesOK 3 ψ (-6144) 6144 k' a b c d → p = a ∨ p = b →
        ∀ m, m < k → p[2 ^ m]? = some (-4096) := by
      intro k' ψ a b c d h hp
      have hs : p.size = 2 ^ k' := by
        rcases hp with rfl | rfl <;> exact (h.entries _ (by simp)).1
      have : k = k' := Nat.pow_right_injective (le_refl 2) (hg.size.symm.trans hs)
      subst this
      rcases hp with rfl | rfl
      · exact one_of (.inl h.std)
      · exact one_of (.inr h.rev)
    simp only [List.mem_cons, List.not_mem_nil, or_false] at hp
    rcases hp with h | h | h | h | h | h | h | h | h | h | h | h
    · exact key t4 (.inl h)
    · exact key t4 (.inr h)
    · exact key t7 (.inl h)
    · exact key t7 (.inr h)
    · exact key t8 (.inl h)
    · exact key t8 (.inr h)
    · exact key t9 (.inl h)
    · exact key t9 (.inr h)
    · exact key t10 (.inl h)
    · exact key t10 (.inr h)
    · exact key t11 (.inl h)
    · exact key t11 (.inr h)
  intro a ha hr
  exact ⟨C41_ntt_red_ct_rev2std false x.b0 k p u (by omega) hb0 hg.table16 x.ct v a ha hr hg.size.ge (by omega)
      (prod_le hg h0 hle) hone e,
    C41_ntt_red_ct_std2rev false x.b0 k p u (by omega) hb0 hg.table16 x.ct v a ha hr hg.size.ge (by omega)
      (prod_le hg h0 hle) hone e⟩

end

/-- A run and a line that meet the hypotheses: the five lines for the first table. -/
example : ∃ (o : TestRedBounds.Output) (l : List TableLine) (x : TableLine),
    TestRedBounds.main false (fun _ => Array.replicate 12 0) = .ok o ∧
    ((16, shoup_sred_ntt16_12289), l) ∈ TestRedBounds.tables.zip o.tables ∧ x ∈ l ∧ x.b0 = 6144 := by
  obtain ⟨o, h, -, ht⟩ := output (fun _ => Array.replicate 12 0) (fun _ => Array.size_replicate)
  unfold TestRedBounds.tables at ht
  cases h' : o.tables with
  | nil => rw [h'] at ht; cases ht
  | cons l L =>
    rw [h'] at ht
    cases ht with
    | cons h1 h2 =>
      cases l with
      | nil => simp at h1
      | cons x l =>
        refine ⟨o, x :: l, x, h, ?_, List.mem_cons_self, ?_⟩
        · rw [h']; unfold TestRedBounds.tables; rw [List.zip_cons_cons]; exact List.mem_cons_self
        · have := h1.1
          rw [List.map_cons] at this
          exact (List.cons.inj this).1

end Props
