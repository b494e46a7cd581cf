import Verif.Proofs.CTestAvx

/-
C97: the functions compared by src/test_ntt_avx.c, and the functions with which src/test_ntt_avx.c and src/test_avx.c copy and compare arrays,
executed from their text.

Specification: Verif/SpecSourceAvx.lean.
-/

namespace Props
open C Spec CLang X86 AsmRead TestTables

/-- C97: the two functions of each of the 48 comparisons of test_ntt_avx compute the same array, from every array of the size with elements from
-200000 to 199999: the one as written in src/test_ntt_avx.c and src/ntt_red.c, the other as written in src/test_ntt_avx.c and src/ntt_asm.S.
This array is congruent to the number-theoretic transform that `meanings` gives. -/
theorem C97_same_array : ∃ (F : Asm) (R : Prog), readAsm Src.ntt_asm_text = some F ∧ read Src.ntt_red_text = some R ∧
    ∀ c ∈ compared, ∃ (k ψ : Nat) (f : Nat → Zq → (Nat → Zq) → Nat → Zq),
      (k, ψ) ∈ roots ∧ c.n = 2 ^ k ∧ meanings.lookup c.callee = some f ∧
      ∀ a : Array Int, a.size = c.n → InRange (-200000) 199999 a →
        ∃ a', Agree F (readSome Src.test_ntt_avx_text ++ R) c a a' ∧ ∀ i, i < 2 ^ k → coeff a' i = f k (ψ : Zq) (coeff a) i := by
  obtain ⟨F, hF, h⟩ := TAvx.all_same
  refine ⟨F, Src.ntt_red, hF, Src.ntt_red_read, ?_⟩
  rw [Src.test_ntt_avx_read]
  exact h

/-- The numbers in `roots` are roots of unity. -/
theorem C97_roots : ∀ r ∈ roots, (r.2 : Zq) ^ 2 ^ r.1 = -1 ∧ PrimRoot (2 ^ r.1) ((r.2 : Zq) ^ 2) := by
  have h : ∀ r ∈ roots, (r.2 : Zq) ^ 2 ^ r.1 = -1 := by decide +kernel
  exact fun r hr => ⟨h r hr, NTT.primRoot_of_psi (h r hr)⟩

/-- C97: the comparisons that the text of `run_tests` makes, through `tests16` to `tests2048`, are those of the list, by size. -/
theorem C97_compared : comparisonsOf Src.test_ntt_avx_text =
    some ([16, 128, 256, 512, 1024, 2048].flatMap fun n => (compared.filter fun c => c.n == n).map fun c => (c.n, c.asm, c.base)) := by
  decide +kernel

/-- C97: the text of `copy_array` and `equal_arrays` in test_ntt_avx.c and test_avx.c copies arrays and decides whether arrays are equal, with
and without assertions. -/
theorem C97_arrays : ∀ t ∈ [Src.test_ntt_avx_text, Src.test_avx_text],
    (CopiesArrays (readSome t) ∧ JudgesEqual (readSome t)) ∧ CopiesArrays (release (readSome t)) ∧ JudgesEqual (release (readSome t)) := by
  have key : ∀ P : Prog, CopiesArrays P ∧ JudgesEqual P → (CopiesArrays P ∧ JudgesEqual P) ∧ CopiesArrays (release P) ∧ JudgesEqual (release P) :=
    fun P h => ⟨h, fun G mem oa ob a b n t h1 h2 h3 h4 h5 h6 h7 h8 => (h.1 G mem oa ob a b n t h1 h2 h3 h4 h5 h6 h7 h8).release,
      fun mem oa ob a b n t h1 h2 h3 h4 h5 h6 h7 G =>
        ⟨fun hp => ((h.2 mem oa ob a b n t h1 h2 h3 h4 h5 h6 h7 G).1 hp).release, fun hp => ((h.2 mem oa ob a b n t h1 h2 h3 h4 h5 h6 h7 G).2 hp).release⟩⟩
  intro t ht
  simp only [List.mem_cons, List.not_mem_nil, or_false] at ht
  rcases ht with rfl | rfl
  · rw [Src.test_ntt_avx_read]
    exact key _ ⟨TAvx.copy_of (by decide +kernel), Checks.equal_arrays_of (by decide +kernel)⟩
  · rw [Src.test_avx_read]
    exact key _ ⟨TAvx.copy_of (by decide +kernel), Checks.equal_arrays_of (by decide +kernel)⟩

/-! The hypotheses are met. -/

example : compared.length = 48 := rfl

/-- A memory with a table and an array. -/
example (c : Compared) (_ : c ∈ compared) (a : Array Int) :
    let mem : Nat → Obj := fun o => if o = 0 then ⟨.i32, a⟩ else ⟨.i16, c.entries⟩
    Tab (fun x => if x = c.table then some (.ptr 1 0 1) else none) mem [0] c.table .i16 c.entries ∧ mem 0 = ⟨.i32, a⟩ :=
  ⟨⟨1, if_pos rfl, by decide, rfl⟩, rfl⟩

/-- The machine of `Sample`, with the table `rev_shoup_sred_ntt16_12289` at 3000h. -/
def sampleRev : X86.State :=
  { Sample.s with mem := fun x => if x.toNat / 4096 = 3 then Sample.byte (elt rev_shoup_sred_ntt16_12289 (x.toNat % 4096 / 2)) (x.toNat % 2) else Sample.mem x }

/-- A call of a function in assembly. -/
example : AsmCall Src.ntt_asm Sample.K 4096 Sample.a sampleRev ∧ X86.Table Sample.K 4096 Sample.a sampleRev 12288 rev_shoup_sred_ntt16_12289 ∧
    sampleRev.gpr rdx = 12288 ∧ Sample.a.size = 16 ∧ InRange (-200000) 199999 Sample.a := by
  have h := Sample.call
  refine ⟨⟨h.size, h.low, h.readable, h.writable, ?_, asmLoaded_of ⟨h.loaded.1, h.loaded.2, ?_⟩, ?_, h.stack, h.stack_apart, h.arg1, h.arg2, h.lanes⟩,
    ⟨?_, ?_, ?_⟩, rfl, rfl, by unfold InRange; decide +kernel⟩
  · unfold Holds32; decide +kernel
  · intro c; cases c <;> decide +kernel
  · rw [longs_length]
    exact h.data_apart
  · unfold Readable; decide +kernel
  · exact apart_of (by decide +kernel) (by decide +kernel)
  · unfold Holds16; decide +kernel

end Props
