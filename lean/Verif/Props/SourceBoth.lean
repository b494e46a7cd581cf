import Verif.SpecSourceBoth
import Verif.Props.SourceAsm
import Verif.Props.SourceFun
import Verif.Proofs.CRelease

/-
C98: the functions on arrays that src/test_avx.c compares: those in src/ntt_asm.S, executed from their text, store the same array as those in
src/ntt_red.c, executed from their text, and what this array is.

Specification: Verif/SpecSourceBoth.lean.
-/

namespace Props
open C Spec CLang X86 AsmRead

private theorem stores {P : Prog} {G : Name → Option Cell} {g : Name} {vs : List Val} {mem : Nat → Obj} {o : Nat} {a' : Array Int}
    (h : Sets P G g vs mem o a') : Stores P G g vs mem o a' := by
  refine ⟨h, ?_⟩
  obtain ⟨mem', h1, h2⟩ := h
  exact ⟨mem', h1.release, h2⟩

private theorem both {F : Asm} {P : Prog} {f g : Name} {a a' : Array Int} {M : Array Int → Nat → C.M (Array Int)} (hg : DoesArray P g M)
    (hn : a.size < 2 ^ 32) (ra : AllI32 a) (e : M a a.size = .ok a') (hf : ∀ K A s, AsmCall F K A a s → AsmReturns F K f A a s a') :
    Both F P f g a a' :=
  ⟨fun G mem o hm => stores (hg G mem o a.size a a' hn hm ra e), hf⟩

/-- C98: the functions on one array. -/
theorem C98_one_array : ∃ F P, readAsm Src.ntt_asm_text = some F ∧ readAll [Src.ntt_red_text] = some P ∧
    ∀ (m : Nat) (a : Array Int), 0 < m → 16 * m < 2 ^ 32 → a.size = 16 * m →
      (AllI32 a →
        (∃ a', Elements a.size a' (fun i => red (elt a i)) ∧ Both F P n!"reduce_array_asm" n!"reduce_array" a a' ∧
          Both F P n!"reduce_array_asm2" n!"reduce_array" a a') ∧
        (∃ a', Elements a.size a' (fun i => red (red (elt a i))) ∧ Both F P n!"reduce_array_twice_asm" n!"reduce_array_twice" a a' ∧
          Both F P n!"reduce_array_twice_asm2" n!"reduce_array_twice" a a') ∧
        (∃ a', Elements a.size a' (fun i => if elt a i > 6144 then elt a i - 12289 else elt a i) ∧
          Both F P n!"shift_array_asm" n!"shift_array" a a')) ∧
      (InRange (-12289) 24577 a →
        ∃ a', Elements a.size a' (fun i => elt a i % 12289) ∧ Both F P n!"correct_asm" n!"correct" a a' ∧
          Both F P n!"correct_asm" n!"normalize" a a') := by
  obtain ⟨F, hF, e1⟩ := C83_elementwise
  obtain ⟨F', hF', e2⟩ := C83_multiply
  obtain rfl : F = F' := Option.some.inj (hF.symm.trans hF')
  obtain ⟨P, hP, c1, -⟩ := C82_ntt_red_c
  refine ⟨F, P, hF, hP, fun m a hm hn ha => ⟨fun ra => ?_, fun hr => ?_⟩⟩
  · have hn' : a.size < 2 ^ 32 := by omega
    have h32 : ∀ i, i < a.size → I32 (elt a i) := fun i hi => ⟨(ra i hi).1, (ra i hi).2⟩
    have run : ∀ {f g : Name} {M : Array Int → Nat → C.M (Array Int)} {a' : Array Int}, M a a.size = .ok a' → (g, M) ∈ ([
        (n!"normalize", NttRed.normalize),
        (n!"normalize_inv3", NttRed.normalize_inv3),
        (n!"shift_array", NttRed.shift_array),
        (n!"reduce_array", NttRed.reduce_array),
        (n!"reduce_array_twice", NttRed.reduce_array_twice),
        (n!"correct", NttRed.correct)] : List (Name × (Array Int → Nat → C.M (Array Int)))) →
        (∀ K A s, AsmCall F K A a s → ∃ a', M a a.size = .ok a' ∧ AsmReturns F K f A a s a') → Both F P f g a a' := by
      intro f g M a' e hg hf
      refine both (c1 (g, M) hg) hn' ra e fun K A s hc => ?_
      obtain ⟨b, e', h⟩ := hf K A s hc
      rw [e] at e'
      cases e'
      exact h
    obtain ⟨b1, x1, y1⟩ := NttRed.run_reduce_array hn' rfl h32
    obtain ⟨b2, x2, y2⟩ := NttRed.run_reduce_array_twice hn' rfl h32
    obtain ⟨b3, x3, y3⟩ := NttRed.run_shift_array hn' rfl h32
    refine ⟨⟨b1, y1, ?_, ?_⟩, ⟨b2, y2, ?_, ?_⟩, ⟨b3, y3, ?_⟩⟩
    · exact run x1 (by simp) fun K A s hc => e1 (n!"reduce_array_asm", NttRed.reduce_array) (by simp) K A a s m hc hm ha
    · exact run x1 (by simp) fun K A s hc => e1 (n!"reduce_array_asm2", NttRed.reduce_array) (by simp) K A a s m hc hm ha
    · exact run x2 (by simp) fun K A s hc => e1 (n!"reduce_array_twice_asm", NttRed.reduce_array_twice) (by simp) K A a s m hc hm ha
    · exact run x2 (by simp) fun K A s hc => e1 (n!"reduce_array_twice_asm2", NttRed.reduce_array_twice) (by simp) K A a s m hc hm ha
    · exact run x3 (by simp) fun K A s hc => e1 (n!"shift_array_asm", NttRed.shift_array) (by simp) K A a s m hc hm ha
  · have hn' : a.size < 2 ^ 32 := by omega
    have ra : AllI32 a := NttRed.InRange.mono hr (by decide) (by decide)
    obtain ⟨b1, x1, y1⟩ := NttRed.run_correct hn' rfl hr
    obtain ⟨b2, x2, y2⟩ := NttRed.run_normalize hn' (a := a) rfl
    obtain rfl : b2 = b1 := Asm.Is.ext (f := fun i => elt a i % 12289) y2 y1
    have hf : ∀ K A s, AsmCall F K A a s → AsmReturns F K n!"correct_asm" A a s b2 := fun K A s hc =>
      (e2 K A a b2 s m hc hm ha).1 (NttRed.InRange.mono hr (by decide) (by decide)) x1
    exact ⟨b2, y1, both (c1 (n!"correct", NttRed.correct) (by simp)) hn' ra x1 hf,
      both (c1 (n!"normalize", NttRed.normalize) (by simp)) hn' ra x2 hf⟩

/-- C98: the products of an array and a table. -/
theorem C98_table : ∃ F P, readAsm Src.ntt_asm_text = some F ∧ readAll [Src.ntt_red_text] = some P ∧
    ∀ (m : Nat) (a p : Array Int), 0 < m → 16 * m < 2 ^ 32 → a.size = 16 * m → a.size ≤ p.size → AllI32 a → InRange (-32768) 32767 p →
      (∀ i, i < a.size → Product (elt a i * elt p i)) →
      ∃ a', Elements a.size a' (fun i => red (elt a i * elt p i)) ∧ BothTable F P n!"mul_reduce_array16_asm" n!"mul_reduce_array16" a p a' ∧
        BothTable F P n!"mul_reduce_array16_asm2" n!"mul_reduce_array16" a p a' := by
  obtain ⟨F, hF, e2⟩ := C83_multiply
  obtain ⟨P, hP, -, c2, -⟩ := C82_ntt_red_c
  refine ⟨F, P, hF, hP, fun m a p hm hn ha hp ra rp hs => ?_⟩
  have hn' : a.size < 2 ^ 32 := by omega
  obtain ⟨b, x, y⟩ := NttRed.run_mul_reduce_array16 hn' rfl hp hs
  have hc : ∀ G mem o op, mem o = ⟨.i32, a⟩ → op ≠ o → mem op = ⟨.i16, p⟩ →
      Stores P G n!"mul_reduce_array16" [.ptr o 0 1, .int .u32 a.size, .ptr op 0 1] mem o b := fun G mem o op h1 h2 h3 =>
    stores (c2 (n!"mul_reduce_array16", NttRed.mul_reduce_array16) (by simp) G mem o op a.size a b p hn' h1 ra h2 h3
      (NttRed.InRange.mono rp (by decide) (by decide)) x)
  exact ⟨b, y, ⟨hc, fun K A T s h1 h2 h3 => ((e2 K A a b s m h1 hm ha).2.1 T p h2 h3 hp x).1⟩,
    ⟨hc, fun K A T s h1 h2 h3 => ((e2 K A a b s m h1 hm ha).2.1 T p h2 h3 hp x).2⟩⟩

/-- C98: the products of two arrays. -/
theorem C98_arrays : ∃ F P, readAsm Src.ntt_asm_text = some F ∧ readAll [Src.ntt_red_text] = some P ∧
    ∀ (m : Nat) (c a b : Array Int), 0 < m → 16 * m < 2 ^ 32 → c.size = 16 * m → c.size ≤ a.size → c.size ≤ b.size →
      AllI32 c → AllI32 a → AllI32 b → (∀ i, i < c.size → Product (elt a i * elt b i)) →
      ∃ c', Elements c.size c' (fun i => red (elt a i * elt b i)) ∧ BothArrays F P n!"mul_reduce_array_asm" n!"mul_reduce_array" c a b c' := by
  obtain ⟨F, hF, e2⟩ := C83_multiply
  obtain ⟨P, hP, -, -, c3, -⟩ := C82_ntt_red_c
  refine ⟨F, P, hF, hP, fun m c a b hm hn hc ha hb rc ra rb hs => ?_⟩
  have hn' : c.size < 2 ^ 32 := by omega
  obtain ⟨c', x, y⟩ := NttRed.run_mul_reduce_array hn' rfl ha hb hs
  exact ⟨c', y, fun G mem oc oa ob h1 h2 h3 h4 h5 => stores (c3 G mem oc oa ob c.size c c' a b hn' h1 rc h2 h3 ra h4 h5 rb x),
    fun K C A B s h1 h2 h3 h4 h5 => (e2 K C c c' s m h1 hm hc).2.2.1 A B a b (.inr h2) (.inr h3) h4 h5 ha hb x⟩

/-- C98: the products of an array and a number. -/
theorem C98_scalar : ∃ F P, readAsm Src.ntt_asm_text = some F ∧ readAll [Src.ntt_red_text] = some P ∧
    ∀ (m : Nat) (a : Array Int) (x : Int), 0 < m → 16 * m < 2 ^ 32 → a.size = 16 * m → AllI32 a → -2147483648 ≤ x → x ≤ 2147483647 →
      (∀ i, i < a.size → Product (elt a i * x)) →
      ∃ a', Elements a.size a' (fun i => red (elt a i * x)) ∧
        BothScalar F P n!"scalar_mul_reduce_array_asm" n!"scalar_mul_reduce_array" a x a' := by
  obtain ⟨F, hF, e2⟩ := C83_multiply
  obtain ⟨P, hP, -, -, -, c4⟩ := C82_ntt_red_c
  refine ⟨F, P, hF, hP, fun m a x hm hn ha ra x1 x2 hs => ?_⟩
  have hn' : a.size < 2 ^ 32 := by omega
  obtain ⟨a', e, y⟩ := NttRed.run_scalar_mul_reduce_array hn' rfl hs
  exact ⟨a', y, fun G mem o h1 => stores (c4 G mem o a.size a a' x hn' h1 ra x1 x2 e),
    fun K A s h1 h2 => (e2 K A a a' s m h1 hm ha).2.2.2 x h2 e⟩

/-! The hypotheses are met. -/

/-- The array and the table of the machine `Sample`, and a call on it. -/
example : 0 < 1 ∧ 16 * 1 < 2 ^ 32 ∧ Sample.a.size = 16 * 1 ∧ AllI32 Sample.a ∧ InRange (-12289) 24577 Sample.a ∧ Sample.a.size ≤ Sample.p.size ∧
    InRange (-32768) 32767 Sample.p ∧ (∀ i, i < Sample.a.size → Product (elt Sample.a i * elt Sample.p i)) ∧
    (∀ i, i < Sample.a.size → Product (elt Sample.a i * 12288)) := by
  unfold AllI32 InRange Product
  decide +kernel

/-- Elements that are not zero and not all equal. -/
example : elt Sample.a 1 * elt Sample.p 1 ≠ 0 ∧ red (elt Sample.a 1 * elt Sample.p 1) ≠ red (elt Sample.a 2 * elt Sample.p 2) := by
  decide +kernel

end Props
