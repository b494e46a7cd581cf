import Verif.Proofs.X86Trace
import Verif.Props.MachineProducts

/-
C78: what can be observed of an execution of the functions of src/ntt_asm.S (the instructions executed, so the outcomes of the jumps,
and the addresses accessed) is determined by the addresses and the count given as arguments.
-/

namespace Props
open C Spec Tables X86 AsmCalls

/-- The instructions executed within `fuel` steps by a call of `f`, each with the address and the number of bytes it accesses. -/
def traceOf (K : Machine) (fuel : Nat) (f : Code.Label) (s : State) : List (Code.Instr × Option (Word × Nat)) :=
  (observe K Code.addr Code.prog fuel (codeAt f Code.prog) s).1

/-- A call of `f` returns within `fuel` steps. -/
def ReturnsWithin (K : Machine) (fuel : Nat) (f : Code.Label) (s : State) : Prop :=
  ∃ r, run K Code.addr Code.prog fuel (codeAt f Code.prog) s = .ok r

/-- The functions of src/ntt_asm.S with the registers of their arguments that are addresses or counts: the array and its size, and
tables or operands.  Not the scalar of `scalar_mul_reduce_array_asm`. -/
def asmFunctions : List (Code.Label × List Nat) := [
  (.reduce_array_asm, [rdi, rsi]), (.reduce_array_asm2, [rdi, rsi]), (.reduce_array_twice_asm, [rdi, rsi]),
  (.reduce_array_twice_asm2, [rdi, rsi]), (.correct_asm, [rdi, rsi]), (.shift_array_asm, [rdi, rsi]),
  (.scalar_mul_reduce_array_asm, [rdi, rsi]),
  (.mul_reduce_array16_asm, [rdi, rsi, rdx]), (.mul_reduce_array16_asm2, [rdi, rsi, rdx]),
  (.mul_reduce_array_asm, [rdi, rsi, rdx, rcx]),
  (.ntt_red_ct_rev2std_asm, [rdi, rsi, rdx]), (.mulntt_red_ct_rev2std_asm, [rdi, rsi, rdx]),
  (.ntt_red_ct_std2rev_asm, [rdi, rsi, rdx]), (.mulntt_red_ct_std2rev_asm, [rdi, rsi, rdx]),
  (.ntt_red_gs_rev2std_asm, [rdi, rsi, rdx]), (.nttmul_red_gs_rev2std_asm, [rdi, rsi, rdx]),
  (.ntt_red_gs_std2rev_asm, [rdi, rsi, rdx]), (.nttmul_red_gs_std2rev_asm, [rdi, rsi, rdx])]

private theorem eqOn_of {R : List Nat} {s s' : State} (h : ∀ r ∈ R, s.gpr r = s'.gpr r) (hf : flags ∉ R) : EqOn R s s' :=
  ⟨fun r hr _ => h r hr, fun hr => absurd hr hf⟩

/-- The trace is that of the execution: its result is the result of `run`. -/
theorem C78_trace_of_run (K : Machine) (fuel : Nat) (f : Code.Label) (s : State) :
    (observe K Code.addr Code.prog fuel (codeAt f Code.prog) s).2 = run K Code.addr Code.prog fuel (codeAt f Code.prog) s :=
  observe_run ..

/-- C78: two calls of a function on the same processor with the same addresses and count and the same stack pointer execute the same
instructions and access the same addresses, after any number of steps, and return after the same number of steps (or none of them
does), whatever is in memory (arrays, tables, stack), in the vector registers, in the flags and in the other registers. -/
theorem C78_trace : ∀ z ∈ asmFunctions, ∀ (K : Machine) (s s' : State), (∀ r ∈ z.2, s.gpr r = s'.gpr r) → s.gpr rsp = s'.gpr rsp →
    ∀ fuel, traceOf K fuel z.1 s = traceOf K fuel z.1 s' ∧ (ReturnsWithin K fuel z.1 s ↔ ReturnsWithin K fuel z.1 s') := by
  intro z hz K s s' ha hs fuel
  have he : EqOn (Code.ann z.1) s s' := by
    have hsub : ∀ z ∈ asmFunctions, (∀ r ∈ Code.ann z.1, r = rsp ∨ r ∈ z.2) ∧ flags ∉ Code.ann z.1 := by decide
    obtain ⟨h1, h2⟩ := hsub z hz
    refine eqOn_of (fun r hr => ?_) h2
    rcases h1 r hr with rfl | h
    · exact hs
    · exact ha r h
  obtain ⟨h1, h2⟩ := Code.observe_eq (K := K) (f := fuel) he
  refine ⟨h1, ?_⟩
  unfold ReturnsWithin
  rcases h2 with ⟨e, h1, h2⟩ | ⟨u, v, h1, h2⟩
  · rw [h1, h2]
  · rw [h1, h2]
    exact ⟨fun _ => ⟨_, rfl⟩, fun _ => ⟨_, rfl⟩⟩

/-- C78: `avx2_supported` on the same processor: the same instructions whatever is in memory and in all registers but the stack
pointer and `rcx` (at the time of the first `cpuid` instruction the model gives it to the processor). -/
theorem C78_avx2_supported (K : Machine) (s s' : State) (h : s.gpr rcx = s'.gpr rcx) (hs : s.gpr rsp = s'.gpr rsp) (fuel : Nat) :
    traceOf K fuel .avx2_supported s = traceOf K fuel .avx2_supported s' := by
  refine (Code.observe_eq (eqOn_of (fun r hr => ?_) (by decide))).1
  have hr : r = rcx ∨ r = rsp := by simpa [Code.ann] using hr
  rcases hr with rfl | rfl
  · exact h
  · exact hs

/-- The call is one of the functions with these arguments. -/
private def listed : Op → Bool
  | .one f _ => asmFunctions.contains (f, [rdi, rsi])
  | .table f _ _ => asmFunctions.contains (f, [rdi, rsi, rdx])
  | .mul _ _ _ => true
  | .scalar _ _ => true

private theorem all_listed (r8 : Int) (sh : Bool) :
    ∀ product ∈ [product1 sh, product1_1024, product2 sh, product3 sh, product4 sh, product5 r8 sh], product.all listed = true := by
  intro product hp
  simp only [List.mem_cons, List.not_mem_nil, or_false] at hp
  rcases hp with rfl | rfl | rfl | rfl | rfl | rfl <;> cases sh <;> rfl

/-- C78: the calls of the products.  Two executions of the same call of a product on the same processor and the same places, with
different contents of the arrays, the tables and the rest of memory (`m` and `m'` are arbitrary), have the same trace and the same
number of steps. -/
theorem C78_products (r8 : Int) (sh : Bool) :
    ∀ product ∈ [product1 sh, product1_1024, product2 sh, product3 sh, product4 sh, product5 r8 sh], ∀ op ∈ product,
    ∀ (K : Machine) (L : Place) (n : Nat) (m m' : Memory) (s s' : State), Ready K L n op m s → Ready K L n op m' s' →
    s.gpr rsp = s'.gpr rsp → ∀ fuel, traceOf K fuel (label op) s = traceOf K fuel (label op) s' ∧
      (ReturnsWithin K fuel (label op) s ↔ ReturnsWithin K fuel (label op) s') := by
  intro product hp op ho K L n m m' s s' h h' hs fuel
  have hl := List.all_eq_true.mp (all_listed r8 sh product hp) op ho
  have h1 : s.gpr rdi = s'.gpr rdi := h.arg1.trans h'.arg1.symm
  have h2 : s.gpr rsi = s'.gpr rsi := h.arg2.trans h'.arg2.symm
  cases op with
  | one f x =>
    refine C78_trace (f, [rdi, rsi]) (by simpa [listed] using hl) K s s' ?_ hs fuel
    simp only [List.forall_mem_cons]
    exact ⟨h1, h2, by simp⟩
  | table f x p =>
    refine C78_trace (f, [rdi, rsi, rdx]) (by simpa [listed] using hl) K s s' ?_ hs fuel
    simp only [List.forall_mem_cons]
    have h3 : s.gpr rdx = s'.gpr rdx := h.args.trans h'.args.symm
    exact ⟨h1, h2, h3, by simp⟩
  | mul x y z =>
    refine C78_trace (.mul_reduce_array_asm, [rdi, rsi, rdx, rcx]) (by decide) K s s' ?_ hs fuel
    simp only [List.forall_mem_cons]
    exact ⟨h1, h2, h.args.1.trans h'.args.1.symm, h.args.2.trans h'.args.2.symm, by simp⟩
  | scalar x v =>
    refine C78_trace (.scalar_mul_reduce_array_asm, [rdi, rsi]) (by decide) K s s' ?_ hs fuel
    simp only [List.forall_mem_cons]
    exact ⟨h1, h2, by simp⟩

/-! ### The hypotheses can be met -/

namespace Sample

/-- Another state: all of memory, the vector registers, the flags and the other registers are different. -/
def sOther : State where
  gpr r := if r = rdi ∨ r = rsi ∨ r = rdx ∨ r = rsp then s.gpr r else 77
  ymm _ := Avx.V8.splat 5
  cf := true
  zf := true
  mem _ := 1

end Sample

/-- The trace of `reduce_array_asm` on 16 elements: 21 instructions, with accesses of the constant, of the two halves of the array, twice, and of the return
address. -/
example : (traceOf Sample.K 30 .reduce_array_asm Sample.s).filterMap Prod.snd =
    [(8192, 32), (4096, 32), (4128, 32), (4096, 32), (4128, 32), (24576, 8)] ∧
    (traceOf Sample.K 30 .reduce_array_asm Sample.s).length = 21 := by
  decide +kernel

/-- It is that of any other state with the same arguments. -/
example : traceOf Sample.K 30 .reduce_array_asm Sample.s = traceOf Sample.K 30 .reduce_array_asm Sample.sOther :=
  (C78_trace (.reduce_array_asm, [rdi, rsi]) (by decide) Sample.K Sample.s Sample.sOther (by decide) rfl 30).1

example : Sample.s.mem 4096 ≠ Sample.sOther.mem 4096 := by decide +kernel

end Props
