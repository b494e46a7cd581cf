import Verif.Model.X86
import Verif.Model.Code
import Verif.Spec

/-
Vocabulary for C76: calls of the functions of src/ntt_asm.S on the machine of `Verif/Model/X86.lean`, with the calling convention
of the System V ABI for x86-64.
-/

namespace X86
open C Avx Spec

/-- The `k` bytes from `B` can be read. -/
def Readable (K : Machine) (B : Word) (k : Nat) : Prop := ∀ i < k, K.readable (B + BitVec.ofNat 64 i) = true

/-- The `k` bytes from `B` can be written. -/
def Writable (K : Machine) (B : Word) (k : Nat) : Prop := ∀ i < k, K.writable (B + BitVec.ofNat 64 i) = true

/-- The `k` bytes from `B` and the `l` bytes from `D` have no byte in common. -/
def Apart (B : Word) (k : Nat) (D : Word) (l : Nat) : Prop :=
  ∀ i < k, ∀ j < l, B + BitVec.ofNat 64 i ≠ D + BitVec.ofNat 64 j

/-- Memory holds the `int32_t` array `a` at address `A`. -/
def Holds32 (m : Memory) (A : Word) (a : Array Int) : Prop := ∀ i < a.size, int32At m (A + BitVec.ofNat 64 (4 * i)) = elt a i

/-- Memory holds the `int16_t` array `p` at address `P`. -/
def Holds16 (m : Memory) (P : Word) (p : Array Int) : Prop := ∀ i < p.size, int16At m (P + BitVec.ofNat 64 (2 * i)) = elt p i

/-- The data section of src/ntt_asm.S is in memory, at a multiple of 32 (`.balign 32`). -/
structure Loaded (K : Machine) (m : Memory) : Prop where
  align : K.data.toNat % 32 = 0
  readable : Readable K K.data 512
  longs : ∀ c, ∀ j < 8, int32At m (K.data + BitVec.ofNat 64 (Code.addr c + 4 * j)) = (Code.longs c).getD j 0

/-- The lanes of the vector registers are `int32_t`. -/
def LanesOk (s : State) : Prop :=
  ∀ k, (I32 (s.ymm k).x0 ∧ I32 (s.ymm k).x1 ∧ I32 (s.ymm k).x2 ∧ I32 (s.ymm k).x3) ∧
    I32 (s.ymm k).x4 ∧ I32 (s.ymm k).x5 ∧ I32 (s.ymm k).x6 ∧ I32 (s.ymm k).x7

/-- `s` is the state at the start of a call `f(a, n, ..)` where `a` is the array at address `A` (in the lower half of the address
space) and `n` its number of elements: the array can be read and written; the data section is loaded; the return address can be read;
array, data section and return address have no byte in common. -/
structure Call (K : Machine) (A : Word) (a : Array Int) (s : State) : Prop where
  size : a.size < 2 ^ 32
  low : A.toNat < 2 ^ 63
  readable : Readable K A (4 * a.size)
  writable : Writable K A (4 * a.size)
  holds : Holds32 s.mem A a
  loaded : Loaded K s.mem
  data_apart : Apart A (4 * a.size) K.data 512
  stack : Readable K (s.gpr rsp) 8
  stack_apart : Apart A (4 * a.size) (s.gpr rsp) 8
  /-- the first argument -/
  arg1 : s.gpr rdi = A
  /-- the second argument, with the upper half of the register zero -/
  arg2 : s.gpr rsi = BitVec.ofNat 64 a.size
  lanes : LanesOk s

/-- A table of `int16_t` at address `P`, apart from the array. -/
structure Table (K : Machine) (A : Word) (a : Array Int) (s : State) (P : Word) (p : Array Int) : Prop where
  readable : Readable K P (2 * p.size)
  apart : Apart A (4 * a.size) P (2 * p.size)
  holds : Holds16 s.mem P p

/-- An array of `int32_t` at address `B`, apart from the array. -/
structure Operand (K : Machine) (A : Word) (a : Array Int) (s : State) (B : Word) (b : Array Int) : Prop where
  readable : Readable K B (4 * b.size)
  apart : Apart A (4 * a.size) B (4 * b.size)
  holds : Holds32 s.mem B b

/-- An operand is the array itself or an array apart from it. -/
def OperandOrSelf (K : Machine) (A : Word) (a : Array Int) (s : State) (B : Word) (b : Array Int) : Prop :=
  B = A ∧ b = a ∨ Operand K A a s B b

/-- Execution from label `f` in state `s` returns to the caller after finitely many steps: without a fault, to the return address,
with the stack pointer behind it, with `a'` in the place of the array `a` at `A`, with no other byte of memory and none of the
registers `rbx`, `rbp`, `r12` to `r15` changed. -/
def Returns (K : Machine) (f : Code.Label) (A : Word) (a : Array Int) (s : State) (a' : Array Int) : Prop :=
  ∃ (N : Nat) (s' : State),
    a'.size = a.size ∧
    (∀ fuel, N ≤ fuel → run K Code.addr Code.prog fuel (codeAt f Code.prog) s =
      .ok (BitVec.ofNat 64 (val s.mem (s.gpr rsp) 8), s')) ∧
    s'.gpr rsp = s.gpr rsp + 8 ∧
    (∀ r ∈ [rbx, rbp, r12, r13, r14, r15], s'.gpr r = s.gpr r) ∧
    Holds32 s'.mem A a' ∧
    (∀ x, (∀ i < 4 * a.size, x ≠ A + BitVec.ofNat 64 i) → s'.mem x = s.mem x) ∧
    LanesOk s'

/-- The documented test for AVX2: the system has enabled XGETBV (CPUID.1:ECX.OSXSAVE[bit 27]), the processor has AVX
(CPUID.1:ECX.AVX[bit 28]) and AVX2 (CPUID.(7,0):EBX.AVX2[bit 5]), and the system saves the XMM and YMM registers (XCR0[bits 1 and 2]). -/
def UsableAvx2 (K : Machine) : Prop :=
  (K.cpuid 1 0).2.2.1.getLsbD 27 = true ∧ (K.cpuid 1 0).2.2.1.getLsbD 28 = true ∧ (K.cpuid 7 0).2.1.getLsbD 5 = true ∧
    K.xcr0.1.getLsbD 1 = true ∧ K.xcr0.1.getLsbD 2 = true

instance (K : Machine) : Decidable (UsableAvx2 K) := by
  unfold UsableAvx2
  infer_instance

end X86
