import Verif.Proofs.CTestChecks
import Verif.Model.Src.TestNttTexts
import Verif.Model.Src.TestNaiveNttTexts
import Verif.Model.Src.TestNttRedTexts
import Verif.Model.Src.TestNttRedAsmTexts
import Verif.Model.Src.TestNttText
import Verif.Model.Src.TestNttRedText
import Verif.Props.SourceRelease

/-
C95: the text of the functions with which the test programs judge results.  Specification: Verif/SpecSourceChecks.lean.
-/

namespace Props
open C CLang

/-- src/test_ntt<n>.c, src/test_naive_ntt<n>.c, src/test_ntt_red<n>.c, src/test_ntt_red_asm<n>.c -/
def productTests : List Nat :=
  [Src.test_ntt16_text, Src.test_ntt256_text, Src.test_ntt512_text, Src.test_ntt1024_text,
   Src.test_naive_ntt16_text, Src.test_naive_ntt256_text, Src.test_naive_ntt512_text, Src.test_naive_ntt1024_text,
   Src.test_ntt_red16_text, Src.test_ntt_red256_text, Src.test_ntt_red512_text, Src.test_ntt_red1024_text,
   Src.test_ntt_red_asm16_text, Src.test_ntt_red_asm256_text, Src.test_ntt_red_asm512_text, Src.test_ntt_red_asm1024_text]

theorem test_ntt16_reads : ∀ p ∈ [(n!"equal_arrays", Src.test_ntt16.equal_arrays), (n!"power", Src.test_ntt16.power),
    (n!"check_ntt_simple", Src.test_ntt16.check_ntt_simple), (n!"check_ntt_ntt_simple", Src.test_ntt16.check_ntt_ntt_simple),
    (n!"simple_poly", Src.test_ntt16.simple_poly), (n!"equal_simple_poly", Src.test_ntt16.equal_simple_poly)],
    (readSome Src.test_ntt16_text).lookup p.1 = some p.2 := by
  rw [Src.test_ntt16_read]
  decide

theorem productTests_reads : ∀ t ∈ productTests, ∀ p ∈ [(n!"equal_arrays", Src.test_ntt16.equal_arrays), (n!"power", Src.test_ntt16.power),
    (n!"check_ntt_simple", Src.test_ntt16.check_ntt_simple), (n!"check_ntt_ntt_simple", Src.test_ntt16.check_ntt_ntt_simple),
    (n!"simple_poly", Src.test_ntt16.simple_poly), (n!"equal_simple_poly", Src.test_ntt16.equal_simple_poly)],
    (readSome t).lookup p.1 = some p.2 := by
  unfold productTests
  exact List.forall_mem_cons.2 ⟨test_ntt16_reads, List.forall_mem_cons.2 ⟨Src.test_ntt256_reads, List.forall_mem_cons.2 ⟨Src.test_ntt512_reads,
    List.forall_mem_cons.2 ⟨Src.test_ntt1024_reads, List.forall_mem_cons.2 ⟨Src.test_naive_ntt16_reads,
    List.forall_mem_cons.2 ⟨Src.test_naive_ntt256_reads, List.forall_mem_cons.2 ⟨Src.test_naive_ntt512_reads,
    List.forall_mem_cons.2 ⟨Src.test_naive_ntt1024_reads, List.forall_mem_cons.2 ⟨Src.test_ntt_red16_reads,
    List.forall_mem_cons.2 ⟨Src.test_ntt_red256_reads, List.forall_mem_cons.2 ⟨Src.test_ntt_red512_reads,
    List.forall_mem_cons.2 ⟨Src.test_ntt_red1024_reads, List.forall_mem_cons.2 ⟨Src.test_ntt_red_asm16_reads,
    List.forall_mem_cons.2 ⟨Src.test_ntt_red_asm256_reads, List.forall_mem_cons.2 ⟨Src.test_ntt_red_asm512_reads,
    List.forall_mem_cons.2 ⟨Src.test_ntt_red_asm1024_reads, fun _ h => absurd h List.not_mem_nil⟩⟩⟩⟩⟩⟩⟩⟩⟩⟩⟩⟩⟩⟩⟩⟩

/-- The text of `equal_arrays` in 17 test programs decides whether the first `n` elements of two arrays are equal; also when assertions are
removed. -/
theorem C95_equal_arrays : ∀ t ∈ Src.test_ntt_text :: productTests, JudgesEqual (readSome t) ∧ JudgesEqual (release (readSome t)) := by
  have H : ∀ t ∈ Src.test_ntt_text :: productTests, JudgesEqual (readSome t) :=
    List.forall_mem_cons.2 ⟨Checks.equal_arrays_of (Src.test_ntt_reads (n!"equal_arrays", Src.test_ntt16.equal_arrays) (by simp)),
      fun t ht => Checks.equal_arrays_of (productTests_reads t ht (n!"equal_arrays", Src.test_ntt16.equal_arrays) (by simp))⟩
  refine fun t ht => ⟨H t ht, fun mem oa ob a b n ty h1 h2 h3 h4 h5 h6 h7 G => ?_⟩
  obtain ⟨e1, e2⟩ := H t ht mem oa ob a b n ty h1 h2 h3 h4 h5 h6 h7 G
  exact ⟨fun h => (e1 h).release, fun h => (e2 h).release⟩

/-- The text of `power`, `check_ntt_simple` and `check_ntt_ntt_simple` in 18 test programs: `check_ntt_simple` returns `true` exactly for
the transform of X^k, `check_ntt_ntt_simple` exactly for n*X^(-k). -/
theorem C95_transforms : ∀ t ∈ Src.test_ntt_text :: Src.test_ntt_red_text :: productTests,
    JudgesTransforms (readSome t) ∧ JudgesTransforms (release (readSome t)) := by
  have H : ∀ t ∈ Src.test_ntt_text :: Src.test_ntt_red_text :: productTests, JudgesTransforms (readSome t) :=
    List.forall_mem_cons.2 ⟨Checks.judgesTransforms_of (Src.test_ntt_reads (n!"power", Src.test_ntt16.power) (by simp)) (Src.test_ntt_reads (n!"check_ntt_simple", Src.test_ntt16.check_ntt_simple) (by simp))
        (Src.test_ntt_reads (n!"check_ntt_ntt_simple", Src.test_ntt16.check_ntt_ntt_simple) (by simp)),
      List.forall_mem_cons.2 ⟨Checks.judgesTransforms_of (Src.test_ntt_red_reads (n!"power", Src.test_ntt16.power) (by simp)) (Src.test_ntt_red_reads (n!"check_ntt_simple", Src.test_ntt16.check_ntt_simple) (by simp))
        (Src.test_ntt_red_reads (n!"check_ntt_ntt_simple", Src.test_ntt16.check_ntt_ntt_simple) (by simp)),
      fun t ht => Checks.judgesTransforms_of (productTests_reads t ht (n!"power", Src.test_ntt16.power) (by simp)) (productTests_reads t ht (n!"check_ntt_simple", Src.test_ntt16.check_ntt_simple) (by simp))
        (productTests_reads t ht (n!"check_ntt_ntt_simple", Src.test_ntt16.check_ntt_ntt_simple) (by simp))⟩⟩
  refine fun t ht => ⟨H t ht, ?_, ?_, ?_⟩
  · exact fun x k t1 t2 hx hk G mem => ((H t ht).power x k t1 t2 hx hk G mem).release
  · intro mem o a n k w t1 t2 t3 h1 h2 h3 h4 h5 h6 G
    obtain ⟨e1, e2⟩ := (H t ht).check_ntt_simple mem o a n k w t1 t2 t3 h1 h2 h3 h4 h5 h6 G
    exact ⟨fun h => (e1 h).release, fun h => (e2 h).release⟩
  · intro mem o a n k t1 t2 h1 h2 h3 h4 h5 G
    obtain ⟨e1, e2⟩ := (H t ht).check_ntt_ntt_simple mem o a n k t1 t2 h1 h2 h3 h4 h5 G
    exact ⟨fun h => (e1 h).release, fun h => (e2 h).release⟩

/-- The text of `simple_poly` and `equal_simple_poly` in 16 test programs: `simple_poly` makes X^k, `equal_simple_poly` returns `true` exactly for
X^m modulo X^n + 1. -/
theorem C95_products : ∀ t ∈ productTests, JudgesProducts (readSome t) ∧ JudgesProducts (release (readSome t)) := by
  have H : ∀ t ∈ productTests, JudgesProducts (readSome t) :=
    fun t ht => Checks.judgesProducts_of (productTests_reads t ht (n!"simple_poly", Src.test_ntt16.simple_poly) (by simp)) (productTests_reads t ht (n!"equal_simple_poly", Src.test_ntt16.equal_simple_poly) (by simp))
  refine fun t ht => ⟨H t ht, ?_, ?_⟩
  · intro G mem o a k n t1 t2 h1 h2 h3 h4
    obtain ⟨a', e1, e2, e3, e4⟩ := (H t ht).simple_poly G mem o a k n t1 t2 h1 h2 h3 h4
    exact ⟨a', e1, e2, e3, e4.release⟩
  · intro mem o c n m t1 t2 h1 h2 h3 h4 h5 G
    obtain ⟨e1, e2⟩ := (H t ht).equal_simple_poly mem o c n m t1 t2 h1 h2 h3 h4 h5 G
    exact ⟨fun h => (e1 h).release, fun h => (e2 h).release⟩

/-- The hypotheses can be met. -/
example : (2 : Nat) ^ 14 ≤ 46340 ∧ productTests.length = 16 := by decide
example : Int32s #[0, 12288, -2147483648, 2147483647] := by
  intro i v h
  have : v ∈ #[0, 12288, -2147483648, 2147483647] := Array.mem_of_getElem? h
  simp at this
  omega

/-- The text executed: a correct and a wrong array. -/
example : (callValue Src.test_ntt16 (fun _ => none) 400 n!"check_ntt_ntt_simple" [.ptr 7 0 1, .int .u32 4, .int .u32 1] fun _ => ⟨.i32, #[0, 0, 0, 4]⟩).map
    Prod.fst = .ok (.int .bool 1) := by decide +kernel
example : (callValue Src.test_ntt16 (fun _ => none) 400 n!"check_ntt_ntt_simple" [.ptr 7 0 1, .int .u32 4, .int .u32 1] fun _ => ⟨.i32, #[0, 4, 0, 0]⟩).map
    Prod.fst = .ok (.int .bool 0) := by decide +kernel
example : (callValue Src.test_ntt16 (fun _ => none) 400 n!"equal_simple_poly" [.ptr 7 0 1, .int .u32 4, .int .u32 5] fun _ => ⟨.i32, #[0, 12288, 0, 0]⟩).map
    Prod.fst = .ok (.int .bool 1) := by decide +kernel
example : (callValue Src.test_ntt16 (fun _ => none) 400 n!"check_ntt_simple" [.ptr 7 0 1, .int .u32 3, .int .u32 2, .int .i32 49]
    fun _ => ⟨.i32, #[1, 2401, 1260]⟩).map Prod.fst = .ok (.int .bool 1) := by decide +kernel

end Props
