import Verif.Proofs.RedWideProducts
import Verif.Proofs.SpeedMul
import Verif.Props.Naive
import Verif.Props.AsmProducts
import Verif.Props.TestSpeed

/-
C59: product functions can be called again and again on the same arrays, in any order and with the arrays in any role,
without looking at what previous calls left in the operands: every call returns and computes the product of the current
contents.  The programs src/speed_mul1024*.c do this 102400 times for each product; they run to the end.
-/

namespace Props
open C Spec NTT Tables SpeedMul

/-! ### Exact and naive functions -/

/-- src/ntt<n>.c, from arrays with coefficients in `[0, Q-1]`. -/
theorem C59_ntt_history {k : Nat} {xn xpsi : Int} (h : GoodParams k xn xpsi)
    {buf : Nat → Array Nat} (hbuf : ∀ n, (buf n).size = n) {t : Nttables} (ht : make_tables buf xn xpsi = .ok t)
    (xs : List Call) (hxs : Calls [Ntt.product1 t (2 ^ k), Ntt.product2 t (2 ^ k), Ntt.product3 t (2 ^ k),
      Ntt.product4 t (2 ^ k), Ntt.product5 t (2 ^ k)] xs)
    (mem : Nat → Array Int) (hmem : ∀ i, (mem i).size = 2 ^ k ∧ Reduced (mem i)) :
    AllRight (2 ^ k) 0 12288 xs mem := by
  refine all_right (lo := 0) (hi := 12288) (fun _ h => h) (fun f hf c a b hc ha hb hra hrb => ?_) xs hxs mem hmem
  obtain ⟨c', a', b', e, s1, s2, s3, r1, v⟩ := C11_products h hbuf ht c a b hc ha hb hra hrb f hf
  obtain ⟨c2, a2, b2, e2, -, -, -, -, r2, r3⟩ := C11_operands h hbuf ht c a b hc ha hb hra hrb f hf
  have := Except.ok.inj (e.symm.trans e2)
  simp only [Prod.mk.injEq] at this
  obtain ⟨rfl, rfl, rfl⟩ := this
  exact ⟨_, e, s1, s2, s3, r1, r2, r3, v⟩

/-- src/naive_ntt<n>.c, from arrays with coefficients in `[-(Q-1), Q-1]`. -/
theorem C59_naive_history {k : Nat} {xn xpsi : Int} (h : GoodParams k xn xpsi)
    {buf : Nat → Array Nat} (hbuf : ∀ n, (buf n).size = n) {t : Nttables} (ht : make_tables buf xn xpsi = .ok t)
    (xs : List Call) (hxs : Calls [Naive.product1 t (2 ^ k), Naive.product2 t (2 ^ k), Naive.product3 t (2 ^ k),
      Naive.product4 t (2 ^ k), Naive.product5 t (2 ^ k)] xs)
    (mem : Nat → Array Int) (hmem : ∀ i, (mem i).size = 2 ^ k ∧ InRange (-12288) 12288 (mem i)) :
    AllRight (2 ^ k) (-12288) 12288 xs mem := by
  refine all_right (lo := -12288) (hi := 12288) (fun _ h => h) (fun f hf c a b hc ha hb hra hrb => ?_) xs hxs mem hmem
  obtain ⟨c', a', b', e, s1, s2, s3, r1, r2, r3, v⟩ := C23_operands h hbuf ht c a b hc ha hb hra hrb f hf
  exact ⟨_, e, s1, s2, s3, r1, r2, r3, v⟩

/-! ### Functions with lazy reduction: C and AVX2 -/

private theorem lib_root {z : Nat × Int × Int} (hz : z ∈ libraryParams) :
    ∃ ψ : Nat, (z.1, ψ) ∈ NttRed.libRoots ∧ z.2.2 = (ψ : Int) := by
  simp only [libraryParams, List.mem_cons, List.not_mem_nil, or_false] at hz
  rcases hz with rfl | rfl | rfl | rfl
  · exact ⟨1212, by decide, rfl⟩
  · exact ⟨1002, by decide, rfl⟩
  · exact ⟨1003, by decide, rfl⟩
  · exact ⟨1014, by decide, rfl⟩

private theorem wide_setup {z : Nat × Int × Int} (hz : z ∈ libraryParams)
    {buf : Nat → Array Nat} (hbuf : ∀ n, (buf n).size = n) {t : RedTables} (ht : make_red_tables buf z.2.1 z.2.2 = .ok t) :
    ∃ ψ : Nat, (z.1, ψ) ∈ NttRed.libRoots ∧ z.2.2 = (ψ : Int) ∧ (ψ : Zq) ^ 2 ^ z.1 = -1 ∧ RedTablesOK z.1 (ψ : Zq) t := by
  have hg := libraryParams_good z hz
  obtain ⟨t', e, hok⟩ := red_tables_ok hg hbuf
  have : t' = t := Except.ok.inj (e.symm.trans ht)
  subst this
  obtain ⟨ψ, h1, h2⟩ := lib_root hz
  have h3 := good_psi hg
  rw [h2] at hok h3
  rw [Int.cast_natCast] at hok h3
  exact ⟨ψ, h1, h2, h3, hok⟩

/-- Operands need not be reduced: any coefficients in `[-25000, 25000]` will do, for the four sizes of the library.  The
operands are replaced by three times their transforms, with coefficients in the same interval. -/
theorem C59_red_products : ∀ z ∈ libraryParams, ∀ buf : Nat → Array Nat, (∀ n, (buf n).size = n) →
    ∀ t, make_red_tables buf z.2.1 z.2.2 = .ok t →
    ∀ (sh : Bool) (c a b : Array Int), c.size = 2 ^ z.1 → a.size = 2 ^ z.1 → b.size = 2 ^ z.1 →
      InRange (-25000) 25000 a → InRange (-25000) 25000 b →
    ∀ product ∈ [NttRed.product1 t (2 ^ z.1) sh, NttRed.product2 t (2 ^ z.1) sh, NttRed.product3 t (2 ^ z.1) sh,
      NttRed.product4 t (2 ^ z.1) sh, NttRed.product5 t (2 ^ z.1) sh],
    ∃ c' a' b', product c a b = .ok (c', a', b') ∧ c'.size = 2 ^ z.1 ∧ a'.size = 2 ^ z.1 ∧ b'.size = 2 ^ z.1 ∧
      Reduced c' ∧ InRange (-25000) 25000 a' ∧ InRange (-25000) 25000 b' ∧
      (∀ i, i < 2 ^ z.1 → coeff c' i = negacyclic (2 ^ z.1) (coeff a) (coeff b) i) ∧
      (∀ i, i < 2 ^ z.1 → coeff a' i =
        3 * evalPoly (2 ^ z.1) (coeff a) ((z.2.2 : Zq) * ((z.2.2 : Zq) ^ 2) ^ rev z.1 i)) ∧
      ∀ i, i < 2 ^ z.1 → coeff b' i =
        3 * evalPoly (2 ^ z.1) (coeff b) ((z.2.2 : Zq) * ((z.2.2 : Zq) ^ 2) ^ rev z.1 i) := by
  intro z hz buf hbuf t ht sh c a b hc ha hb hra hrb product hp
  obtain ⟨ψ, h1, h2, h3, h4⟩ := wide_setup hz hbuf ht
  obtain ⟨⟨c', a', b'⟩, e, h⟩ := NttRed.wide_products h1 h3 h4 sh hc ha hb hra hrb product hp
  rw [h2, Int.cast_natCast]
  exact ⟨c', a', b', e, h⟩

/-- The same for the AVX2 functions, including the special first product of size 1024. -/
theorem C59_asm_products : ∀ z ∈ libraryParams, ∀ buf : Nat → Array Nat, (∀ n, (buf n).size = n) →
    ∀ t, make_red_tables buf z.2.1 z.2.2 = .ok t →
    ∀ (sh : Bool) (up : Int) (c a b : Array Int), c.size = 2 ^ z.1 → a.size = 2 ^ z.1 → b.size = 2 ^ z.1 →
      InRange (-25000) 25000 a → InRange (-25000) 25000 b →
    ∀ product, (product ∈ [AsmProducts.product1 t (2 ^ z.1) sh, AsmProducts.product2 t (2 ^ z.1) sh,
      AsmProducts.product3 t (2 ^ z.1) sh, AsmProducts.product4 t (2 ^ z.1) sh, AsmProducts.product5 t (2 ^ z.1) up sh] ∨
      z.1 = 10 ∧ product = AsmProducts.product1_1024 t (2 ^ z.1)) →
    ∃ c' a' b', product c a b = .ok (c', a', b') ∧ c'.size = 2 ^ z.1 ∧ a'.size = 2 ^ z.1 ∧ b'.size = 2 ^ z.1 ∧
      Reduced c' ∧ InRange (-25000) 25000 a' ∧ InRange (-25000) 25000 b' ∧
      (∀ i, i < 2 ^ z.1 → coeff c' i = negacyclic (2 ^ z.1) (coeff a) (coeff b) i) ∧
      (∀ i, i < 2 ^ z.1 → coeff a' i =
        3 * evalPoly (2 ^ z.1) (coeff a) ((z.2.2 : Zq) * ((z.2.2 : Zq) ^ 2) ^ rev z.1 i)) ∧
      ∀ i, i < 2 ^ z.1 → coeff b' i =
        3 * evalPoly (2 ^ z.1) (coeff b) ((z.2.2 : Zq) * ((z.2.2 : Zq) ^ 2) ^ rev z.1 i) := by
  rintro ⟨k, n, psi⟩ hz buf hbuf t ht sh up c a b hc ha hb hra hrb product hp
  obtain ⟨ψ, h1, h2, h3, h4⟩ := wide_setup hz hbuf ht
  simp only at *
  subst h2
  rw [Int.cast_natCast]
  rcases hp with hp | ⟨rfl, rfl⟩
  · obtain ⟨⟨c', a', b'⟩, e, h⟩ := AsmProducts.wide_products h1 h3 h4 sh up hc ha hb hra hrb product hp
    exact ⟨c', a', b', e, h⟩
  · have hψ : ψ = 1014 := by
      simp only [NttRed.libRoots, List.mem_cons, List.not_mem_nil, or_false, Prod.mk.injEq] at h1
      omega
    subst hψ
    obtain ⟨⟨c', a', b'⟩, e, h⟩ := AsmProducts.wide_product1_1024 h3 h4 hc ha hb hra hrb
    exact ⟨c', a', b', e, h⟩

/-- src/ntt_red<n>.c: every history of calls. -/
theorem C59_red_history : ∀ z ∈ libraryParams, ∀ buf : Nat → Array Nat, (∀ n, (buf n).size = n) →
    ∀ t, make_red_tables buf z.2.1 z.2.2 = .ok t → ∀ (sh : Bool) (xs : List Call),
    Calls [NttRed.product1 t (2 ^ z.1) sh, NttRed.product2 t (2 ^ z.1) sh, NttRed.product3 t (2 ^ z.1) sh,
      NttRed.product4 t (2 ^ z.1) sh, NttRed.product5 t (2 ^ z.1) sh] xs →
    ∀ mem : Nat → Array Int, (∀ i, (mem i).size = 2 ^ z.1 ∧ InRange (-25000) 25000 (mem i)) →
      AllRight (2 ^ z.1) 0 12288 xs mem := by
  intro z hz buf hbuf t ht sh xs hxs mem hmem
  refine all_right (lo := -25000) (hi := 25000) (fun a h i hi => ?_) (fun f hf c a b hc ha hb hra hrb => ?_) xs hxs mem hmem
  · have := h i hi; omega
  · obtain ⟨c', a', b', e, s1, s2, s3, r1, r2, r3, v, -⟩ :=
      C59_red_products z hz buf hbuf t ht sh c a b hc ha hb hra hrb f hf
    exact ⟨_, e, s1, s2, s3, r1, r2, r3, v⟩

/-- src/ntt_red_asm<n>.c: every history of calls, with any content of the upper half of the register in the fifth
product. -/
theorem C59_asm_history : ∀ z ∈ libraryParams, ∀ buf : Nat → Array Nat, (∀ n, (buf n).size = n) →
    ∀ t, make_red_tables buf z.2.1 z.2.2 = .ok t → ∀ (sh : Bool) (ups : List Int) (xs : List Call),
    Calls ([AsmProducts.product1 t (2 ^ z.1) sh, AsmProducts.product2 t (2 ^ z.1) sh, AsmProducts.product3 t (2 ^ z.1) sh,
      AsmProducts.product4 t (2 ^ z.1) sh] ++ ups.map (fun up => AsmProducts.product5 t (2 ^ z.1) up sh) ++
      if z.1 = 10 then [AsmProducts.product1_1024 t (2 ^ z.1)] else []) xs →
    ∀ mem : Nat → Array Int, (∀ i, (mem i).size = 2 ^ z.1 ∧ InRange (-25000) 25000 (mem i)) →
      AllRight (2 ^ z.1) 0 12288 xs mem := by
  intro z hz buf hbuf t ht sh ups xs hxs mem hmem
  refine all_right (lo := -25000) (hi := 25000) (fun a h i hi => ?_) (fun f hf c a b hc ha hb hra hrb => ?_) xs hxs mem hmem
  · have := h i hi; omega
  · have hf' : ∃ up, f ∈ [AsmProducts.product1 t (2 ^ z.1) sh, AsmProducts.product2 t (2 ^ z.1) sh,
        AsmProducts.product3 t (2 ^ z.1) sh, AsmProducts.product4 t (2 ^ z.1) sh,
        AsmProducts.product5 t (2 ^ z.1) up sh] ∨ z.1 = 10 ∧ f = AsmProducts.product1_1024 t (2 ^ z.1) := by
      rcases List.mem_append.1 hf with hf | hf
      · rcases List.mem_append.1 hf with hf | hf
        · refine ⟨0, Or.inl ?_⟩
          simp only [List.mem_cons, List.not_mem_nil, or_false] at hf ⊢
          rcases hf with rfl | rfl | rfl | rfl <;> simp
        · obtain ⟨up, -, rfl⟩ := List.mem_map.1 hf
          exact ⟨up, Or.inl (by simp)⟩
      · split at hf
        · exact ⟨0, Or.inr ⟨‹_›, List.mem_singleton.1 hf⟩⟩
        · cases hf
    obtain ⟨up, hf'⟩ := hf'
    obtain ⟨c', a', b', e, s1, s2, s3, r1, r2, r3, v, -⟩ :=
      C59_asm_products z hz buf hbuf t ht sh up c a b hc ha hb hra hrb f hf'
    exact ⟨_, e, s1, s2, s3, r1, r2, r3, v⟩

/-! ### The programs -/

private theorem mem1024 : (10, 1024, 1014) ∈ libraryParams := by decide

private theorem p1024 : (1024 : Nat) = 2 ^ 10 := by norm_num

/-- src/speed_mul1024.c -/
theorem C59_speed_mul1024 {buf : Nat → Array Nat} (hbuf : ∀ n, (buf n).size = n) {t : Nttables}
    (ht : make_tables buf 1024 1014 = .ok t) {w : TestProg.World} (hw : WorldOK 1024 w) :
    ∃ shown, SpeedMul.exact w t = .ok shown ∧ Measured w 5 shown := by
  refine SpeedMul.run_main hw (I := fun a => a.size = 1024 ∧ Reduced a) (fun a h => h.1)
    (fun a h => ⟨h.1, iota_reduced (by omega) h⟩) ?_
  intro f hf c a b hc ha hb
  rw [p1024] at hf hc ha hb ⊢
  obtain ⟨c', a', b', e, s1, s2, s3, r1, r2, r3⟩ :=
    C11_operands good1024 hbuf ht c a b hc ha.1 hb.1 ha.2 hb.2 f hf
  exact ⟨_, e, s1, ⟨s2, r2⟩, s3, r3⟩

/-- src/speed_mul1024_naive.c -/
theorem C59_speed_mul1024_naive {buf : Nat → Array Nat} (hbuf : ∀ n, (buf n).size = n) {t : Nttables}
    (ht : make_tables buf 1024 1014 = .ok t) {w : TestProg.World} (hw : WorldOK 1024 w) :
    ∃ shown, SpeedMul.naive w t = .ok shown ∧ Measured w 5 shown := by
  refine SpeedMul.run_main hw (I := fun a => a.size = 1024 ∧ InRange (-12288) 12288 a) (fun a h => h.1)
    (fun a h => ⟨h.1, fun i hi => by have := iota_reduced (by omega) h i hi; omega⟩) ?_
  intro f hf c a b hc ha hb
  rw [p1024] at hf hc ha hb ⊢
  obtain ⟨c', a', b', e, s1, s2, s3, r1, r2, r3, -⟩ :=
    C23_operands good1024 hbuf ht c a b hc ha.1 hb.1 ha.2 hb.2 f hf
  exact ⟨_, e, s1, ⟨s2, r2⟩, s3, r3⟩

/-- src/speed_mul1024_red.c -/
theorem C59_speed_mul1024_red {buf : Nat → Array Nat} (hbuf : ∀ n, (buf n).size = n) {t : RedTables}
    (ht : make_red_tables buf 1024 1014 = .ok t) {w : TestProg.World} (hw : WorldOK 1024 w) :
    ∃ shown, SpeedMul.red w t = .ok shown ∧ Measured w 5 shown := by
  refine SpeedMul.run_main hw (I := fun a => a.size = 1024 ∧ InRange (-25000) 25000 a) (fun a h => h.1)
    (fun a h => ⟨h.1, fun i hi => by have := iota_reduced (by omega) h i hi; omega⟩) ?_
  intro f hf c a b hc ha hb
  rw [p1024] at hf hc ha hb ⊢
  obtain ⟨c', a', b', e, s1, s2, s3, r1, r2, r3, -⟩ :=
    C59_red_products _ mem1024 buf hbuf t ht false c a b hc ha.1 hb.1 ha.2 hb.2 f hf
  exact ⟨_, e, s1, ⟨s2, r2⟩, s3, r3⟩

/-- src/speed_mul1024_red_asm.c -/
theorem C59_speed_mul1024_red_asm {buf : Nat → Array Nat} (hbuf : ∀ n, (buf n).size = n) {t : RedTables}
    (ht : make_red_tables buf 1024 1014 = .ok t) (up : Int) {w : TestProg.World} (hw : WorldOK 1024 w) :
    ∃ shown, SpeedMul.asm w up t = .ok shown ∧ Measured w 5 shown := by
  refine SpeedMul.run_main hw (I := fun a => a.size = 1024 ∧ InRange (-25000) 25000 a) (fun a h => h.1)
    (fun a h => ⟨h.1, fun i hi => by have := iota_reduced (by omega) h i hi; omega⟩) ?_
  intro f hf c a b hc ha hb
  rw [p1024] at hf hc ha hb ⊢
  obtain ⟨c', a', b', e, s1, s2, s3, r1, r2, r3, -⟩ :=
    C59_asm_products _ mem1024 buf hbuf t ht false up c a b hc ha.1 hb.1 ha.2 hb.2 f (by
      simp only [List.mem_cons, List.not_mem_nil, or_false] at hf ⊢
      rcases hf with rfl | rfl | rfl | rfl | rfl <;> simp)
  exact ⟨_, e, s1, ⟨s2, r2⟩, s3, r3⟩

/-! The hypotheses are met: a history in which an operand of the first call is an operand of the second, its result an
operand of the third, on arrays that are not reduced; a world; and the interval matters (large operands overflow). -/

example : ∃ t, make_red_tables someBuf 16 1212 = .ok t ∧
    AllRight 16 0 12288 [⟨NttRed.product1 t 16 true, 0, 1, 2⟩, ⟨NttRed.product5 t 16 true, 3, 1, 0⟩,
      ⟨NttRed.product4 t 16 true, 1, 3, 0⟩] (fun i => Array.replicate 16 (24999 - i % 2)) := by
  obtain ⟨t, e, -⟩ := red_tables_ok good16 someBuf_size
  refine ⟨t, e, C59_red_history (4, 16, 1212) (by decide) someBuf someBuf_size t e true _ ?_ _ ?_⟩
  · intro x hx
    simp only [List.mem_cons, List.not_mem_nil, or_false] at hx
    rcases hx with rfl | rfl | rfl <;> simp
  · intro i
    refine ⟨by simp, fun j hj => ?_⟩
    have hj' : j < 16 := by simpa using hj
    simp only [elt, Array.getD_eq_getD_getElem?, Array.getElem?_replicate, if_pos hj', Option.getD_some]
    omega

example : (do
    let t ← make_red_tables someBuf 4 4043
    let r ← NttRed.product1 t 4 false #[9, 9, 9, 9] #[1, 2, 3, 12288] #[0, 1, 0, 4]
    let s ← NttRed.product5 t 4 false r.1 r.2.1 r.2.2
    let u ← NttRed.product4 t 4 false s.2.1 s.1 s.2.2
    pure (r.1, u.1)) = .ok (#[12282, 12278, 6, 7], #[3326, 885, 10468, 1346]) := by decide +kernel

example : WorldOK 1024 ⟨fun _ => 7, fun i => 100 * i % 2 ^ 64, fun _ => Array.replicate 1024 5⟩ :=
  ⟨fun _ => by norm_num, fun _ => Nat.mod_lt _ (by norm_num), fun _ => by simp⟩

end Props
