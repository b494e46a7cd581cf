import Verif.Proofs.AsmProductsText

/-
C83: src/ntt_asm.S and src/ntt_red_asm<n>.c as they are written: the text of the assembly file, read in Lean and executed on the machine of
`Verif/Model/X86.lean`, computes what the C functions of src/ntt_red.c compute, and the AVX2 products, as they are written in C, compute the
product of two polynomials.

Specification: Verif/SpecAsm.lean.
-/

namespace Props
open C Avx Spec NTT Tables X86 AsmRead CLang

variable {K : Machine} {A B D P : Word} {a a' b d p : Array Int} {s : X86.State} {m k : Nat}

/-- The text is the program of `Verif/Model/Code.lean`: it has the same functions (up to names), and execution from any of its labels, in any
state, for any number of steps, is the same. -/
theorem C83_text : ∃ F, readAsm Src.ntt_asm_text = some F ∧
    ∀ (K : Machine) (l : Code.Label) (fuel : Nat) (s : X86.State),
      run K F.addr F.code fuel (codeAt (Src.labelName l) F.code) s = run K Code.addr Code.prog fuel (codeAt l Code.prog) s :=
  ⟨_, Src.ntt_asm_read, Src.ntt_asm_run⟩

/-- The elementwise functions, on any array whose size is a positive multiple of 16: the text in assembly and the function in C compute the same
array. -/
theorem C83_elementwise : ∃ F, readAsm Src.ntt_asm_text = some F ∧
    ∀ z ∈ ([(n!"reduce_array_asm", NttRed.reduce_array), (n!"reduce_array_asm2", NttRed.reduce_array), (n!"reduce_array_twice_asm", NttRed.reduce_array_twice), (n!"reduce_array_twice_asm2", NttRed.reduce_array_twice), (n!"shift_array_asm", NttRed.shift_array)] :
      List (Nat × (Array Int → Nat → M (Array Int)))),
    ∀ (K : Machine) (A : Word) (a : Array Int) (s : X86.State) (m : Nat), AsmCall F K A a s → 0 < m → a.size = 16 * m →
    ∃ a', z.2 a a.size = .ok a' ∧ AsmReturns F K z.1 A a s a' := by
  refine ⟨_, Src.ntt_asm_read, fun z hz K A a s m H hm hs => ?_⟩
  have key := C76_elementwise H.call hm hs
  simp only [List.mem_cons, List.not_mem_nil, or_false] at hz
  rcases hz with rfl | rfl | rfl | rfl | rfl
  · obtain ⟨a', h1, h2⟩ := key (.reduce_array_asm, NttRed.reduce_array) (by simp)
    exact ⟨a', h1, h2.asm (by decide)⟩
  · obtain ⟨a', h1, h2⟩ := key (.reduce_array_asm2, NttRed.reduce_array) (by simp)
    exact ⟨a', h1, h2.asm (by decide)⟩
  · obtain ⟨a', h1, h2⟩ := key (.reduce_array_twice_asm, NttRed.reduce_array_twice) (by simp)
    exact ⟨a', h1, h2.asm (by decide)⟩
  · obtain ⟨a', h1, h2⟩ := key (.reduce_array_twice_asm2, NttRed.reduce_array_twice) (by simp)
    exact ⟨a', h1, h2.asm (by decide)⟩
  · obtain ⟨a', h1, h2⟩ := key (.shift_array_asm, NttRed.shift_array) (by simp)
    exact ⟨a', h1, h2.asm (by decide)⟩

/-- The other functions on arrays: whenever the C function returns without overflow, so does the call of the text, with the same array. -/
theorem C83_multiply : ∃ F, readAsm Src.ntt_asm_text = some F ∧
    ∀ (K : Machine) (A : Word) (a a' : Array Int) (s : X86.State) (m : Nat), AsmCall F K A a s → 0 < m → a.size = 16 * m →
    (InRange (-65536) 65535 a → NttRed.correct a a.size = .ok a' → AsmReturns F K n!"correct_asm" A a s a') ∧
    (∀ P p, X86.Table K A a s P p → s.gpr rdx = P → a.size ≤ p.size → NttRed.mul_reduce_array16 a a.size p = .ok a' →
      AsmReturns F K n!"mul_reduce_array16_asm" A a s a' ∧ AsmReturns F K n!"mul_reduce_array16_asm2" A a s a') ∧
    (∀ B D b d, OperandOrSelf K A a s B b → OperandOrSelf K A a s D d → s.gpr rdx = B → s.gpr rcx = D → a.size ≤ b.size → a.size ≤ d.size →
      NttRed.mul_reduce_array a a.size b d = .ok a' → AsmReturns F K n!"mul_reduce_array_asm" A a s a') ∧
    (∀ x, toI32 (s.gpr rdx).toNat = x → NttRed.scalar_mul_reduce_array a a.size x = .ok a' →
      AsmReturns F K n!"scalar_mul_reduce_array_asm" A a s a') := by
  refine ⟨_, Src.ntt_asm_read, fun K A a a' s m H hm hs => ⟨fun hr h => ?_, fun P p T h3 hp h => ?_, fun B D b d TB TD h3 h4 hb hd h => ?_,
    fun x h3 h => ?_⟩⟩
  · exact (C76_correct H.call hm hs hr h).asm (by decide)
  · have key := C76_mul_reduce_array16 H.call hm hs T h3 hp h
    exact ⟨key.1.asm (by decide), key.2.asm (by decide)⟩
  · exact (C76_mul_reduce_array H.call hm hs TB TD h3 h4 hb hd h).asm (by decide)
  · exact (C76_scalar_mul_reduce_array H.call hm hs h3 h).asm (by decide)

/-- The transforms, for any size `2^k` from 16 and any table: whenever the C function returns (without overflow), so does the call of the text,
with the same array. -/
theorem C83_transforms : ∃ F, readAsm Src.ntt_asm_text = some F ∧
    ∀ (K : Machine) (A P : Word) (a p : Array Int) (s : X86.State) (k : Nat), AsmCall F K A a s → 4 ≤ k → a.size = 2 ^ k →
    X86.Table K A a s P p → s.gpr rdx = P → a.size ≤ p.size →
    (∀ z ∈ ([(n!"mulntt_red_ct_rev2std_asm", NttRed.mulntt_red_ct_rev2std), (n!"mulntt_red_ct_std2rev_asm", NttRed.mulntt_red_ct_std2rev), (n!"nttmul_red_gs_rev2std_asm", NttRed.nttmul_red_gs_rev2std), (n!"nttmul_red_gs_std2rev_asm", NttRed.nttmul_red_gs_std2rev)] :
      List (Nat × (Array Int → Nat → Array Int → M (Array Int)))),
      ∀ a', z.2 a a.size p = .ok a' → AsmReturns F K z.1 A a s a') ∧
    (UnitEntries k p →
    ∀ z ∈ ([(n!"ntt_red_ct_rev2std_asm", NttRed.ntt_red_ct_rev2std), (n!"ntt_red_ct_std2rev_asm", NttRed.ntt_red_ct_std2rev), (n!"ntt_red_gs_rev2std_asm", NttRed.ntt_red_gs_rev2std), (n!"ntt_red_gs_std2rev_asm", NttRed.ntt_red_gs_std2rev)] :
      List (Nat × (Array Int → Nat → Array Int → M (Array Int)))),
      ∀ a', z.2 a a.size p = .ok a' → AsmReturns F K z.1 A a s a') := by
  refine ⟨_, Src.ntt_asm_read, fun K A P a p s k H hk hs T h3 hp => ?_⟩
  have key := C76_transforms H.call hk hs T h3 hp
  refine ⟨fun z hz a' e => ?_, fun hu z hz a' e => ?_⟩
  · simp only [List.mem_cons, List.not_mem_nil, or_false] at hz
    rcases hz with rfl | rfl | rfl | rfl
    · exact (key.1 (.mulntt_red_ct_rev2std_asm, NttRed.mulntt_red_ct_rev2std) (by simp) a' e).asm (by decide)
    · exact (key.1 (.mulntt_red_ct_std2rev_asm, NttRed.mulntt_red_ct_std2rev) (by simp) a' e).asm (by decide)
    · exact (key.1 (.nttmul_red_gs_rev2std_asm, NttRed.nttmul_red_gs_rev2std) (by simp) a' e).asm (by decide)
    · exact (key.1 (.nttmul_red_gs_std2rev_asm, NttRed.nttmul_red_gs_std2rev) (by simp) a' e).asm (by decide)
  · simp only [List.mem_cons, List.not_mem_nil, or_false] at hz
    rcases hz with rfl | rfl | rfl | rfl
    · exact (key.2 hu (.ntt_red_ct_rev2std_asm, NttRed.ntt_red_ct_rev2std) (by simp) a' e).asm (by decide)
    · exact (key.2 hu (.ntt_red_ct_std2rev_asm, NttRed.ntt_red_ct_std2rev) (by simp) a' e).asm (by decide)
    · exact (key.2 hu (.ntt_red_gs_rev2std_asm, NttRed.ntt_red_gs_rev2std) (by simp) a' e).asm (by decide)
    · exact (key.2 hu (.ntt_red_gs_std2rev_asm, NttRed.ntt_red_gs_std2rev) (by simp) a' e).asm (by decide)

/-- `avx2_supported`, as written, is the documented test for AVX2. -/
theorem C83_avx2_supported : ∃ F, readAsm Src.ntt_asm_text = some F ∧ n!"avx2_supported" ∈ F.globals ∧
    ∀ (K : Machine) (s : X86.State), (∀ c, K.cpuid 1 c = K.cpuid 1 0) → Readable K (s.gpr rsp) 8 → Readable K (s.gpr rsp - 8) 8 →
    Writable K (s.gpr rsp - 8) 8 → LanesOk s →
    ∃ (N : Nat) (s' : X86.State),
      (∀ fuel, N ≤ fuel → run K F.addr F.code fuel (codeAt n!"avx2_supported" F.code) s = .ok (BitVec.ofNat 64 (val s.mem (s.gpr rsp) 8), s')) ∧
      s'.gpr rax = (if UsableAvx2 K then 1 else 0) ∧ s'.gpr rsp = s.gpr rsp + 8 ∧
      (∀ r ∈ [rbx, rbp, r12, r13, r14, r15], s'.gpr r = s.gpr r) ∧
      ∀ x, (∀ i < 8, x ≠ s.gpr rsp - 8 + BitVec.ofNat 64 i) → s'.mem x = s.mem x := by
  refine ⟨_, Src.ntt_asm_read, mem_globals (f := .avx2_supported) (by decide), fun K s h1 h2 h3 h4 h5 => ?_⟩
  obtain ⟨N, s', e, h⟩ := C76_avx2_supported h1 h2 h3 h4 h5
  exact ⟨N, s', fun fuel hf => (Src.ntt_asm_run K .avx2_supported fuel s).trans (e fuel hf), h⟩

/-- The products of src/ntt_red_asm16.c, as written there, with the functions of src/ntt_asm.S, as written there, for any `psi` for which the
tables can be made. -/
theorem C83_products16 : ∃ F P, readAsm Src.ntt_asm_text = some F ∧ readAll [Src.ntt_red_asm16_h_text, Src.ntt_red_asm16_c_text] = some P ∧
    ∀ (xpsi : Int) (buf : Nat → Array Nat) (t : RedTables), GoodParams 4 16 xpsi → (∀ n, (buf n).size = n) → make_red_tables buf 16 xpsi = .ok t →
    ∀ g ∈ [n!"ntt_red16_product1_asm", n!"ntt_red16_product2_asm", n!"ntt_red16_product3_asm", n!"ntt_red16_product4_asm", n!"ntt_red16_product5_asm"],
      AsmMultiplies F P tableNames16 16 t g := by
  refine ⟨_, Src.ntt_red_asm16_h ++ (Src.ntt_red_asm16_c ++ []), Src.ntt_asm_read, ?_, fun xpsi buf t h hbuf ht g hg => ?_⟩
  · simp only [readAll, Src.ntt_red_asm16_h_read, Src.ntt_red_asm16_c_read]; rfl
  · have key := fun K L m a b (S : Start K L 16 t a b m) hra hrb => C77_products (k := 4) (by decide) h hbuf ht true S hra hrb
    simp only [List.mem_cons, List.not_mem_nil, or_false] at hg
    rcases hg with rfl | rfl | rfl | rfl | rfl
    · exact multiplies_asm (l := AsmCalls.product1 true) (by decide +kernel) (opsOk1 _ _) fun K L m a b S ha hb => key K L m a b S ha hb _ (by simp)
    · exact multiplies_asm (l := AsmCalls.product2 true) (by decide +kernel) (opsOk2 _ _) fun K L m a b S ha hb => key K L m a b S ha hb _ (by simp)
    · exact multiplies_asm (l := AsmCalls.product3 true) (by decide +kernel) (opsOk3 _ _) fun K L m a b S ha hb => key K L m a b S ha hb _ (by simp)
    · exact multiplies_asm (l := AsmCalls.product4 true) (by decide +kernel) (opsOk4 _ _) fun K L m a b S ha hb => key K L m a b S ha hb _ (by simp)
    · exact multiplies_asm (l := AsmCalls.product5 t.rescale8 true) (by rw [textOf5]; decide +kernel) (opsOk5 _ _) fun K L m a b S ha hb => key K L m a b S ha hb _ (by simp)

/-- The products of src/ntt_red_asm256.c, as written there, with the functions of src/ntt_asm.S, as written there, for any `psi` for which the
tables can be made. -/
theorem C83_products256 : ∃ F P, readAsm Src.ntt_asm_text = some F ∧ readAll [Src.ntt_red_asm256_h_text, Src.ntt_red_asm256_c_text] = some P ∧
    ∀ (xpsi : Int) (buf : Nat → Array Nat) (t : RedTables), GoodParams 8 256 xpsi → (∀ n, (buf n).size = n) → make_red_tables buf 256 xpsi = .ok t →
    ∀ g ∈ [n!"ntt_red256_product1_asm", n!"ntt_red256_product2_asm", n!"ntt_red256_product3_asm", n!"ntt_red256_product4_asm", n!"ntt_red256_product5_asm"],
      AsmMultiplies F P tableNames256 256 t g := by
  refine ⟨_, Src.ntt_red_asm256_h ++ (Src.ntt_red_asm256_c ++ []), Src.ntt_asm_read, ?_, fun xpsi buf t h hbuf ht g hg => ?_⟩
  · simp only [readAll, Src.ntt_red_asm256_h_read, Src.ntt_red_asm256_c_read]; rfl
  · have key := fun K L m a b (S : Start K L 256 t a b m) hra hrb => C77_products (k := 8) (by decide) h hbuf ht true S hra hrb
    simp only [List.mem_cons, List.not_mem_nil, or_false] at hg
    rcases hg with rfl | rfl | rfl | rfl | rfl
    · exact multiplies_asm (l := AsmCalls.product1 true) (by decide +kernel) (opsOk1 _ _) fun K L m a b S ha hb => key K L m a b S ha hb _ (by simp)
    · exact multiplies_asm (l := AsmCalls.product2 true) (by decide +kernel) (opsOk2 _ _) fun K L m a b S ha hb => key K L m a b S ha hb _ (by simp)
    · exact multiplies_asm (l := AsmCalls.product3 true) (by decide +kernel) (opsOk3 _ _) fun K L m a b S ha hb => key K L m a b S ha hb _ (by simp)
    · exact multiplies_asm (l := AsmCalls.product4 true) (by decide +kernel) (opsOk4 _ _) fun K L m a b S ha hb => key K L m a b S ha hb _ (by simp)
    · exact multiplies_asm (l := AsmCalls.product5 t.rescale8 true) (by rw [textOf5]; decide +kernel) (opsOk5 _ _) fun K L m a b S ha hb => key K L m a b S ha hb _ (by simp)

/-- The products of src/ntt_red_asm512.c, as written there, with the functions of src/ntt_asm.S, as written there, for any `psi` for which the
tables can be made. -/
theorem C83_products512 : ∃ F P, readAsm Src.ntt_asm_text = some F ∧ readAll [Src.ntt_red_asm512_h_text, Src.ntt_red_asm512_c_text] = some P ∧
    ∀ (xpsi : Int) (buf : Nat → Array Nat) (t : RedTables), GoodParams 9 512 xpsi → (∀ n, (buf n).size = n) → make_red_tables buf 512 xpsi = .ok t →
    ∀ g ∈ [n!"ntt_red512_product1_asm", n!"ntt_red512_product2_asm", n!"ntt_red512_product3_asm", n!"ntt_red512_product4_asm", n!"ntt_red512_product5_asm"],
      AsmMultiplies F P tableNames512 512 t g := by
  refine ⟨_, Src.ntt_red_asm512_h ++ (Src.ntt_red_asm512_c ++ []), Src.ntt_asm_read, ?_, fun xpsi buf t h hbuf ht g hg => ?_⟩
  · simp only [readAll, Src.ntt_red_asm512_h_read, Src.ntt_red_asm512_c_read]; rfl
  · have key := fun K L m a b (S : Start K L 512 t a b m) hra hrb => C77_products (k := 9) (by decide) h hbuf ht true S hra hrb
    simp only [List.mem_cons, List.not_mem_nil, or_false] at hg
    rcases hg with rfl | rfl | rfl | rfl | rfl
    · exact multiplies_asm (l := AsmCalls.product1 true) (by decide +kernel) (opsOk1 _ _) fun K L m a b S ha hb => key K L m a b S ha hb _ (by simp)
    · exact multiplies_asm (l := AsmCalls.product2 true) (by decide +kernel) (opsOk2 _ _) fun K L m a b S ha hb => key K L m a b S ha hb _ (by simp)
    · exact multiplies_asm (l := AsmCalls.product3 true) (by decide +kernel) (opsOk3 _ _) fun K L m a b S ha hb => key K L m a b S ha hb _ (by simp)
    · exact multiplies_asm (l := AsmCalls.product4 true) (by decide +kernel) (opsOk4 _ _) fun K L m a b S ha hb => key K L m a b S ha hb _ (by simp)
    · exact multiplies_asm (l := AsmCalls.product5 t.rescale8 true) (by rw [textOf5]; decide +kernel) (opsOk5 _ _) fun K L m a b S ha hb => key K L m a b S ha hb _ (by simp)

/-- The products of src/ntt_red_asm1024.c, as written there, with the functions of src/ntt_asm.S, as written there, for any `psi` for which the
tables can be made (and the first product for the `psi` of the Makefile). -/
theorem C83_products1024 : ∃ F P, readAsm Src.ntt_asm_text = some F ∧ readAll [Src.ntt_red_asm1024_h_text, Src.ntt_red_asm1024_c_text] = some P ∧
    (∀ (xpsi : Int) (buf : Nat → Array Nat) (t : RedTables), GoodParams 10 1024 xpsi → (∀ n, (buf n).size = n) → make_red_tables buf 1024 xpsi = .ok t →
    ∀ g ∈ [n!"ntt_red1024_product2_asm", n!"ntt_red1024_product3_asm", n!"ntt_red1024_product4_asm", n!"ntt_red1024_product5_asm"],
      AsmMultiplies F P tableNames1024 1024 t g) ∧
    ∀ (buf : Nat → Array Nat) (t : RedTables), (∀ n, (buf n).size = n) → make_red_tables buf 1024 1014 = .ok t →
      AsmMultiplies F P tableNames1024 1024 t n!"ntt_red1024_product1_asm" := by
  refine ⟨_, Src.ntt_red_asm1024_h ++ (Src.ntt_red_asm1024_c ++ []), Src.ntt_asm_read, ?_, fun xpsi buf t h hbuf ht g hg => ?_, fun buf t hbuf ht => ?_⟩
  · simp only [readAll, Src.ntt_red_asm1024_h_read, Src.ntt_red_asm1024_c_read]; rfl
  · have key := fun K L m a b (S : Start K L 1024 t a b m) hra hrb => C77_products (k := 10) (by decide) h hbuf ht false S hra hrb
    simp only [List.mem_cons, List.not_mem_nil, or_false] at hg
    rcases hg with rfl | rfl | rfl | rfl
    · exact multiplies_asm (l := AsmCalls.product2 false) (by decide +kernel) (opsOk2 _ _) fun K L m a b S ha hb => key K L m a b S ha hb _ (by simp)
    · exact multiplies_asm (l := AsmCalls.product3 false) (by decide +kernel) (opsOk3 _ _) fun K L m a b S ha hb => key K L m a b S ha hb _ (by simp)
    · exact multiplies_asm (l := AsmCalls.product4 false) (by decide +kernel) (opsOk4 _ _) fun K L m a b S ha hb => key K L m a b S ha hb _ (by simp)
    · exact multiplies_asm (l := AsmCalls.product5 t.rescale8 false) (by rw [textOf5]; decide +kernel) (opsOk5 _ _) fun K L m a b S ha hb => key K L m a b S ha hb _ (by simp)
  · exact multiplies_asm (l := AsmCalls.product1_1024) (by decide +kernel) (opsOk_1024 _) fun K L m a b S ha hb =>
      C77_product1_1024 hbuf ht S ha hb

/-! ### The hypotheses can be met -/

private theorem longs_from : ∀ z ∈ Src.ntt_asm.longs, ∃ c, ∃ j < 8, z.1 = Code.addr c + 4 * j ∧ (z.2 : Int) = (Code.longs c).getD j 0 := by
  have h : Src.ntt_asm.longs.all (fun z => Src.consts.any fun c => (List.range 8).any fun j =>
      z.1 == Code.addr c + 4 * j && (z.2 : Int) == (Code.longs c).getD j 0) = true := by decide +kernel
  intro z hz
  have h1 := List.all_eq_true.mp h z hz
  obtain ⟨c, -, h2⟩ := List.any_eq_true.mp h1
  obtain ⟨j, hj, h3⟩ := List.any_eq_true.mp h2
  simp only [Bool.and_eq_true, beq_iff_eq] at h3
  exact ⟨c, j, List.mem_range.mp hj, h3⟩

/-- The data section of the text is that of the program. -/
theorem asmLoaded_of {K : Machine} {m : Memory} (h : Loaded K m) : AsmLoaded Src.ntt_asm K m := by
  refine ⟨h.align, by rw [longs_length]; exact h.readable, fun z hz => ?_⟩
  obtain ⟨c, j, hj, h1, h2⟩ := longs_from z hz
  rw [h1, h2]
  exact h.longs c j hj

/-- A call on an array of 16 elements, with a table. -/
example : AsmCall Src.ntt_asm Sample.K 4096 Sample.a Sample.s ∧ X86.Table Sample.K 4096 Sample.a Sample.s 12288 Sample.p ∧ Sample.a.size = 16 * 1 := by
  have h := Sample.call
  refine ⟨⟨h.size, h.low, h.readable, h.writable, h.holds, asmLoaded_of h.loaded, ?_, h.stack, h.stack_apart, h.arg1, h.arg2, h.lanes⟩,
    Sample.table, rfl⟩
  rw [longs_length]
  exact h.data_apart

/-- What a product starts from, for any reduced inputs of size 1024, when `c` is the array `a`; and the calls it makes. -/
example (a b : Array Int) (ha : a.size = 1024) (hb : b.size = 1024) (hra : Reduced a) (hrb : Reduced b) :
    ∃ t K L m, make_red_tables someBuf 1024 1014 = .ok t ∧ L.arr .c = L.arr .a ∧ AsmStart Src.ntt_asm K L 1024 t a b m := by
  have hg : GoodParams 10 1024 1014 := libraryParams_good (10, 1024, 1014) (by simp [libraryParams])
  obtain ⟨t, e, hok⟩ := red_tables_ok hg someBuf_size
  have hI : ∀ {v : Array Int}, Reduced v → ∀ i < v.size, I32 (elt v i) := by
    intro v h i hi
    have := h i hi
    unfold I32
    omega
  have S := Sample.start (t := t) .a (by omega) (by omega) (hI hra) (hI hrb) fun p => by
    rw [ha]
    refine hok.entries (tableOf t p) ?_
    cases p <;> simp [tableOf]
  rw [ha] at S
  exact ⟨t, _, _, _, e, rfl, S.fits, asmLoaded_of S.loaded, S.tables, S.size_a, S.size_b, S.holds_a, S.holds_b⟩

example : callsOf (Src.ntt_red_asm1024_h ++ (Src.ntt_red_asm1024_c ++ [])) n!"ntt_red1024_product5_asm" [n!"c", n!"a", n!"b"] =
    some [(n!"mulntt_red_ct_std2rev_asm", [.var n!"a", .num 1024, .var n!"ntt_red1024_mixed_powers_rev"]),
      (n!"reduce_array_asm", [.var n!"a", .num 1024]),
      (n!"mulntt_red_ct_std2rev_asm", [.var n!"b", .num 1024, .var n!"ntt_red1024_mixed_powers_rev"]),
      (n!"reduce_array_asm", [.var n!"b", .num 1024]),
      (n!"mul_reduce_array_asm", [.var n!"c", .num 1024, .var n!"a", .var n!"b"]),
      (n!"reduce_array_twice_asm", [.var n!"c", .num 1024]),
      (n!"nttmul_red_gs_rev2std_asm", [.var n!"c", .num 1024, .var n!"ntt_red1024_inv_mixed_powers_rev"]),
      (n!"scalar_mul_reduce_array_asm", [.var n!"c", .num 1024, .var n!"ntt_red1024_rescale8"]),
      (n!"reduce_array_twice_asm", [.var n!"c", .num 1024]),
      (n!"correct_asm", [.var n!"c", .num 1024])] := by decide +kernel

/-- Before each call there are states in which the caller makes it. -/
theorem C83_calls_possible {K : Machine} {L : Place} {N : TableNames} {v : Int} {n : Nat} {S : Word} (hS : Readable K S 8)
    (hA : ∀ x, Apart (L.arr x) (4 * n) S 8) (hv : I32 v) (hN : ∀ p x, N.tab p ≠ argName x) (hN' : ∀ p q, N.tab p = N.tab q → p = q)
    (hr : ∀ p, N.rescale8 ≠ N.tab p) (hr' : ∀ x, N.rescale8 ≠ argName x) (m : Memory) (op : AsmCalls.Op) :
    ∃ s, AsmReady K L N v n (textOf N n op).2 m s ∧ s.mem = m ∧ s.gpr rsp = S := by
  let op' : AsmCalls.Op := match op with
    | .scalar x _ => .scalar x v
    | o => o
  have et : textOf N n op' = textOf N n op := by cases op <;> rfl
  obtain ⟨s, H, h1, h2⟩ := C77_calls_possible hS hA m op' (by
    intro x w e
    cases op <;> simp only [op', reduceCtorEq] at e
    cases e; exact hv)
  have inj : ∀ x y, argName x = argName y → x = y := by intro x y; cases x <;> cases y <;> decide
  have arr : ∀ {r : Nat} {y : AsmCalls.Arg}, s.gpr r = L.arr y → HasArg L N v s r (.var (argName y)) :=
    fun h => ⟨fun z e => by rw [h, inj _ _ e], fun p e => absurd e.symm (hN p _), fun e => absurd e.symm (hr' _)⟩
  have tab : ∀ {r : Nat} {p : AsmCalls.Tbl}, s.gpr r = L.tab p → HasArg L N v s r (.var (N.tab p)) :=
    fun h => ⟨fun z e => absurd e (hN _ z), fun q e => by rw [h, hN' _ _ e], fun e => absurd e.symm (hr _)⟩
  refine ⟨s, ⟨H.kept, ?_, H.stack, H.stack_apart, H.lanes⟩, h1, h2⟩
  have hargs := H.args
  have ha1 := H.arg1
  intro z hz
  cases op <;> simp only [textOf, List.zip_cons_cons, List.zip_nil_right, List.mem_cons, List.not_mem_nil, or_false] at hz
  case one f x =>
    rcases hz with rfl | rfl
    · exact arr ha1
    · exact H.arg2
  case table f x p =>
    rcases hz with rfl | rfl | rfl
    · exact arr ha1
    · exact H.arg2
    · exact tab hargs
  case mul x y w =>
    rcases hz with rfl | rfl | rfl | rfl
    · exact arr ha1
    · exact H.arg2
    · exact arr hargs.1
    · exact arr hargs.2
  case scalar x w =>
    rcases hz with rfl | rfl | rfl
    · exact arr ha1
    · exact H.arg2
    · exact ⟨fun z e => absurd e (hr' z), fun p e => absurd e (hr p), fun _ => hargs⟩

/-- The names of the tables and arrays are different. -/
example : ∀ N ∈ [tableNames16, tableNames256, tableNames512, tableNames1024], (∀ p x, N.tab p ≠ argName x) ∧
    (∀ p q, N.tab p = N.tab q → p = q) ∧ (∀ p, N.rescale8 ≠ N.tab p) ∧ ∀ x, N.rescale8 ≠ argName x := by
  intro N hN
  simp only [List.mem_cons, List.not_mem_nil, or_false] at hN
  rcases hN with rfl | rfl | rfl | rfl
  all_goals
    refine ⟨?_, ?_, ?_, ?_⟩
    · intro p x; cases p <;> cases x <;> decide
    · intro p q; cases p <;> cases q <;> decide
    · intro p; cases p <;> decide
    · intro x; cases x <;> decide

end Props
