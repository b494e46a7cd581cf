import Verif.Model.Avx
import Mathlib.Data.Nat.Notation

/-
A model of the processor for the instructions of src/ntt_asm.S: 64-bit registers, 256-bit registers, flags, a flat memory of
bytes with access rights, and execution of a program given as the list of its instructions and labels.

The arithmetic of the AVX2 instructions on registers is that of `Verif/Model/Avx.lean`.  What is added here is everything else:
which register is written, addresses (64 bits, wrapping around), loads and stores as bytes, the flags and the jumps.

Simplifications: the flags other than CF and ZF are left out (no instruction of the file reads them), and the address of the next
instruction is the rest of the program rather than a number.
-/

namespace X86
open C Avx

/-! ### Registers, by their number in the encoding of instructions -/

abbrev rax : Nat := 0
abbrev rcx : Nat := 1
abbrev rdx : Nat := 2
abbrev rbx : Nat := 3
abbrev rsp : Nat := 4
abbrev rbp : Nat := 5
abbrev rsi : Nat := 6
abbrev rdi : Nat := 7
abbrev r8 : Nat := 8
abbrev r9 : Nat := 9
abbrev r10 : Nat := 10
abbrev r11 : Nat := 11
abbrev r12 : Nat := 12
abbrev r13 : Nat := 13
abbrev r14 : Nat := 14
abbrev r15 : Nat := 15

abbrev Word := BitVec 64

/-- Contents of memory. -/
abbrev Memory := Word → BitVec 8

/-- What does not change during execution: the access rights, the address of the data section of the file, and the answers of the
processor to `cpuid` (for `eax` and `ecx`; the results in `eax`, `ebx`, `ecx`, `edx`) and `xgetbv` (for `ecx = 0`; the result in `eax`
and `edx`). -/
structure Machine where
  readable : Word → Bool
  writable : Word → Bool
  data : Word
  cpuid : BitVec 32 → BitVec 32 → BitVec 32 × BitVec 32 × BitVec 32 × BitVec 32
  xcr0 : BitVec 32 × BitVec 32

/-- What changes. -/
structure State where
  gpr : Nat → Word
  ymm : Nat → V8
  cf : Bool
  zf : Bool
  mem : Memory

/-- `f` with the value `v` at `k`. -/
def upd {α : Type} (f : Nat → α) (k : Nat) (v : α) : Nat → α := fun i => cond (Nat.beq i k) v (f i)

/-! ### Memory -/

/-- The unsigned number in the `k` bytes from address `a`, the lowest first. -/
def val (m : Memory) (a : Word) : Nat → Nat
  | 0 => 0
  | k + 1 => (m a).toNat + 256 * val m (a + 1) k

/-- The `int32_t` at address `a`. -/
def int32At (m : Memory) (a : Word) : Int := toI32 (val m a 4)

/-- The `int16_t` at address `a`. -/
def int16At (m : Memory) (a : Word) : Int := sx16 (val m a 2)

/-- The `k` bytes from `a` have a right. -/
def allowed (right : Word → Bool) (a : Word) : Nat → Bool
  | 0 => true
  | k + 1 => right a && allowed right (a + 1) k

/-- Memory after writing the `k` low bytes of `x` at `a`. -/
def put (m : Memory) (a : Word) (x : Nat) : Nat → Memory
  | 0 => m
  | k + 1 => put (fun b => if b = a then BitVec.ofNat 8 x else m b) (a + 1) (x / 256) k

/-- Read of an `int32_t`; a fault without the right. -/
def ld32 (K : Machine) (m : Memory) (a : Word) : M Int :=
  if allowed K.readable a 4 then .ok (int32At m a) else .error .oob

/-- Read of an `int16_t`. -/
def ld16 (K : Machine) (m : Memory) (a : Word) : M Int :=
  if allowed K.readable a 2 then .ok (int16At m a) else .error .oob

/-- Read of a 64-bit word. -/
def ld64 (K : Machine) (m : Memory) (a : Word) : M Word :=
  if allowed K.readable a 8 then .ok (BitVec.ofNat 64 (val m a 8)) else .error .oob

/-- Write of a 32-bit lane. -/
def st32 (K : Machine) (m : Memory) (a : Word) (x : Int) : M Memory :=
  if allowed K.writable a 4 then .ok (put m a (toU32 x) 4) else .error .oob

/-- Write of a 64-bit word. -/
def st64 (K : Machine) (m : Memory) (a : Word) (x : Word) : M Memory :=
  if allowed K.writable a 8 then .ok (put m a x.toNat 8) else .error .oob

/-- The lanes in a list, from address `a`. -/
def st32s (K : Machine) : List Int → Memory → Word → M Memory
  | [], m, _ => .ok m
  | x :: l, m, a => do
    let m ← st32 K m a x
    st32s K l m (a + 4)

/-! ### Instructions -/

/-- Instructions on the 256-bit registers only: destination first, then the sources (see `Verif/Model/Avx.lean`). -/
inductive VInstr where
  | vpaddd (d a b : Nat)
  | vpsubd (d a b : Nat)
  | vpand (d a b : Nat)
  | vpcmpgtd (d a b : Nat)
  | vpmuldq (d a b : Nat)
  | vpslld (d a k : Nat)
  | vpsrad (d a k : Nat)
  | vpsrlq (d a k : Nat)
  | vpslldq (d a k : Nat)
  | vpsrldq (d a k : Nat)
  | vpshufd (d a imm : Nat)
  | vpblendd (d a b imm : Nat)
  | vshufps (d a b imm : Nat)
  | vshufpd (d a b imm : Nat)
  | vperm2i128 (d a b imm : Nat)
  | vpermd (d a b : Nat)
  /-- `vpmovsxwq ymm, xmm` -/
  | vpmovsxwq (d a : Nat)
  /-- `vpbroadcastd ymm, xmm` -/
  | vpbroadcastd (d a : Nat)
  /-- `vpbroadcastq ymm, xmm` -/
  | vpbroadcastq (d a : Nat)
  /-- `vmovdqu ymm, ymm` -/
  | vmovdqu (d a : Nat)
  deriving DecidableEq, Repr

def VInstr.exec (i : VInstr) (y : Nat → V8) : Nat → V8 :=
  match i with
  | .vpaddd d a b => upd y d (Avx.vpaddd (y a) (y b))
  | .vpsubd d a b => upd y d (Avx.vpsubd (y a) (y b))
  | .vpand d a b => upd y d (Avx.vpand (y a) (y b))
  | .vpcmpgtd d a b => upd y d (Avx.vpcmpgtd (y a) (y b))
  | .vpmuldq d a b => upd y d (Avx.vpmuldq (y a) (y b))
  | .vpslld d a k => upd y d (Avx.vpslld (y a) k)
  | .vpsrad d a k => upd y d (Avx.vpsrad (y a) k)
  | .vpsrlq d a k => upd y d (Avx.vpsrlq (y a) k)
  | .vpslldq d a k => upd y d (Avx.vpslldq (y a) k)
  | .vpsrldq d a k => upd y d (Avx.vpsrldq (y a) k)
  | .vpshufd d a imm => upd y d (Avx.vpshufd (y a) imm)
  | .vpblendd d a b imm => upd y d (Avx.vpblendd (y a) (y b) imm)
  | .vshufps d a b imm => upd y d (Avx.vshufps (y a) (y b) imm)
  | .vshufpd d a b imm => upd y d (Avx.vshufpd (y a) (y b) imm)
  | .vperm2i128 d a b imm => upd y d (Avx.vperm2i128 (y a) (y b) imm)
  | .vpermd d a b => upd y d (Avx.vpermd (y a) (y b))
  | .vpmovsxwq d a => upd y d (Avx.vpmovsxwq (y a))
  | .vpbroadcastd d a => upd y d (Avx.vpbroadcastd (y a))
  | .vpbroadcastq d a => upd y d (Avx.vpbroadcastq (y a))
  | .vmovdqu d a => upd y d (y a)

/-- Addresses `[base + disp]` and `[base + scale * index + disp]`. -/
inductive Addr where
  | at (base disp : Nat)
  | ix (base scale index disp : Nat)
  deriving DecidableEq, Repr

/-- The effective address, modulo 2^64. -/
def Addr.ea (p : Addr) (g : Nat → Word) : Word :=
  match p with
  | .at b d => g b + BitVec.ofNat 64 d
  | .ix b k i d => g b + BitVec.ofNat 64 k * g i + BitVec.ofNat 64 d

/-- Loads into a 256-bit register. -/
inductive Load where
  /-- `vmovdqu ymm, [..]` -/
  | dqu
  /-- `vpmovsxdq ymm, [..]` -/
  | sxdq
  /-- `vpmovsxwd ymm, [..]` -/
  | sxwd
  /-- `vpmovsxwq ymm, [..]` -/
  | sxwq
  /-- `vpmovsxwq xmm, [..]` -/
  | sxwq128
  /-- `vpbroadcastw xmm, [..]` -/
  | bdcstw
  deriving DecidableEq, Repr

/-- The register loaded from memory. -/
def Load.exec (l : Load) (K : Machine) (m : Memory) (a : Word) : M V8 :=
  match l with
  | .dqu => do
    let x0 ← ld32 K m a
    let x1 ← ld32 K m (a + 4)
    let x2 ← ld32 K m (a + 8)
    let x3 ← ld32 K m (a + 12)
    let x4 ← ld32 K m (a + 16)
    let x5 ← ld32 K m (a + 20)
    let x6 ← ld32 K m (a + 24)
    let x7 ← ld32 K m (a + 28)
    pure ⟨x0, x1, x2, x3, x4, x5, x6, x7⟩
  | .sxdq => do
    let x0 ← ld32 K m a
    let x1 ← ld32 K m (a + 4)
    let x2 ← ld32 K m (a + 8)
    let x3 ← ld32 K m (a + 12)
    pure ⟨x0, sxHi x0, x1, sxHi x1, x2, sxHi x2, x3, sxHi x3⟩
  | .sxwd => do
    let x0 ← ld16 K m a
    let x1 ← ld16 K m (a + 2)
    let x2 ← ld16 K m (a + 4)
    let x3 ← ld16 K m (a + 6)
    let x4 ← ld16 K m (a + 8)
    let x5 ← ld16 K m (a + 10)
    let x6 ← ld16 K m (a + 12)
    let x7 ← ld16 K m (a + 14)
    pure ⟨x0, x1, x2, x3, x4, x5, x6, x7⟩
  | .sxwq => do
    let x0 ← ld16 K m a
    let x1 ← ld16 K m (a + 2)
    let x2 ← ld16 K m (a + 4)
    let x3 ← ld16 K m (a + 6)
    pure ⟨x0, sxHi x0, x1, sxHi x1, x2, sxHi x2, x3, sxHi x3⟩
  | .sxwq128 => do
    let x0 ← ld16 K m a
    let x1 ← ld16 K m (a + 2)
    pure ⟨x0, sxHi x0, x1, sxHi x1, 0, 0, 0, 0⟩
  | .bdcstw => do
    let x ← ld16 K m a
    let d := toI32 ((toU32 x % 65536) * 65537)
    pure ⟨d, d, d, d, 0, 0, 0, 0⟩

/-- Conditions of jumps. -/
inductive Cond where
  | b | ae | be | a | e | ne
  deriving DecidableEq, Repr

def Cond.holds (c : Cond) (cf zf : Bool) : Bool :=
  match c with
  | .b => cf
  | .ae => !cf
  | .be => cf || zf
  | .a => !(cf || zf)
  | .e => zf
  | .ne => !zf

/-- The instructions.  `L` are the labels, `S` the names of the constants in the data section. -/
inductive Instr (L S : Type) where
  | label (l : L)
  | vec (i : VInstr)
  | load (l : Load) (d : Nat) (a : Addr)
  /-- `vmovdqa ymm, [s + rip]` -/
  | const (d : Nat) (s : S)
  /-- `vmovdqu [..], ymm` -/
  | store (a : Addr) (s : Nat)
  /-- `vmovdqu [..], xmm` -/
  | store128 (a : Addr) (s : Nat)
  /-- `vmovd xmm, r64` -/
  | vmovd (d r : Nat)
  | mov (d r : Nat)
  | movi (d imm : Nat)
  | lea (d : Nat) (a : Addr)
  | add (d r : Nat)
  | addi (d imm : Nat)
  | shl (d k : Nat)
  | shr (d k : Nat)
  | cmp (r r' : Nat)
  | cmpi (r imm : Nat)
  | jmp (l : L)
  | jcc (c : Cond) (l : L)
  | ret
  /-- `mov r32, imm`: the upper half of the register is cleared, as by every instruction on 32-bit registers. -/
  | movi32 (d imm : Nat)
  | andi32 (d imm : Nat)
  | xor32 (d r : Nat)
  | cmpi32 (r imm : Nat)
  | push (r : Nat)
  | pop (d : Nat)
  | cpuid
  | xgetbv
  deriving DecidableEq, Repr

/-- The lower half of a register. -/
def low (w : Word) : BitVec 32 := w.setWidth 32

/-- Zero extension. -/
def ext (w : BitVec 32) : Word := w.setWidth 64

variable {L S : Type}

/-- The instructions that are not jumps.  `addr` gives the position of a constant in the data section. -/
def step (K : Machine) (addr : S → Nat) (i : Instr L S) (s : State) : M State :=
  match i with
  | .vec i => .ok { s with ymm := i.exec s.ymm }
  | .load l d a => do
    let v ← l.exec K s.mem (a.ea s.gpr)
    .ok { s with ymm := upd s.ymm d v }
  | .const d c =>
    -- a fault if the address is not a multiple of 32
    if (K.data + BitVec.ofNat 64 (addr c)).toNat % 32 = 0 then do
      let v ← Load.dqu.exec K s.mem (K.data + BitVec.ofNat 64 (addr c))
      .ok { s with ymm := upd s.ymm d v }
    else .error .abort
  | .store a r => do
    let m ← st32s K [(s.ymm r).x0, (s.ymm r).x1, (s.ymm r).x2, (s.ymm r).x3, (s.ymm r).x4, (s.ymm r).x5, (s.ymm r).x6,
      (s.ymm r).x7] s.mem (a.ea s.gpr)
    .ok { s with mem := m }
  | .store128 a r => do
    let m ← st32s K [(s.ymm r).x0, (s.ymm r).x1, (s.ymm r).x2, (s.ymm r).x3] s.mem (a.ea s.gpr)
    .ok { s with mem := m }
  | .vmovd d r => .ok { s with ymm := upd s.ymm d (Avx.vmovd (s.gpr r).toNat) }
  | .mov d r => .ok { s with gpr := upd s.gpr d (s.gpr r) }
  | .movi d imm => .ok { s with gpr := upd s.gpr d (BitVec.ofNat 64 imm) }
  | .lea d a => .ok { s with gpr := upd s.gpr d (a.ea s.gpr) }
  | .add d r =>
    let x := s.gpr d + s.gpr r
    .ok { s with gpr := upd s.gpr d x, cf := decide ((s.gpr d).toNat + (s.gpr r).toNat ≥ 2 ^ 64), zf := x == 0 }
  | .addi d imm =>
    let x := s.gpr d + BitVec.ofNat 64 imm
    .ok { s with gpr := upd s.gpr d x, cf := decide ((s.gpr d).toNat + imm ≥ 2 ^ 64), zf := x == 0 }
  | .shl d k =>
    let x := s.gpr d <<< k
    .ok { s with gpr := upd s.gpr d x, cf := (s.gpr d).getLsbD (64 - k), zf := x == 0 }
  | .shr d k =>
    let x := s.gpr d >>> k
    .ok { s with gpr := upd s.gpr d x, cf := (s.gpr d).getLsbD (k - 1), zf := x == 0 }
  | .cmp r r' => .ok { s with cf := decide ((s.gpr r).toNat < (s.gpr r').toNat), zf := s.gpr r == s.gpr r' }
  | .cmpi r imm =>
    .ok { s with cf := decide ((s.gpr r).toNat < (BitVec.ofNat 64 imm).toNat), zf := s.gpr r == BitVec.ofNat 64 imm }
  | .movi32 d imm => .ok { s with gpr := upd s.gpr d (ext (BitVec.ofNat 32 imm)) }
  | .andi32 d imm =>
    let x := low (s.gpr d) &&& BitVec.ofNat 32 imm
    .ok { s with gpr := upd s.gpr d (ext x), cf := false, zf := x == 0 }
  | .xor32 d r =>
    let x := low (s.gpr d) ^^^ low (s.gpr r)
    .ok { s with gpr := upd s.gpr d (ext x), cf := false, zf := x == 0 }
  | .cmpi32 r imm =>
    .ok { s with
      cf := decide ((low (s.gpr r)).toNat < (BitVec.ofNat 32 imm).toNat), zf := low (s.gpr r) == BitVec.ofNat 32 imm }
  | .push r => do
    let m ← st64 K s.mem (s.gpr rsp - 8) (s.gpr r)
    .ok { s with gpr := upd s.gpr rsp (s.gpr rsp - 8), mem := m }
  | .pop d => do
    let x ← ld64 K s.mem (s.gpr rsp)
    .ok { s with gpr := upd (upd s.gpr rsp (s.gpr rsp + 8)) d x }
  | .cpuid =>
    let r := K.cpuid (low (s.gpr rax)) (low (s.gpr rcx))
    .ok { s with gpr := upd (upd (upd (upd s.gpr rax (ext r.1)) rbx (ext r.2.1)) rcx (ext r.2.2.1)) rdx (ext r.2.2.2) }
  | .xgetbv =>
    -- invalid unless CPUID.1:ECX.OSXSAVE[bit 27] is set; a fault for a register other than XCR0
    if (K.cpuid 1 0).2.2.1.getLsbD 27 && low (s.gpr rcx) == 0 then
      .ok { s with gpr := upd (upd s.gpr rax (ext K.xcr0.1)) rdx (ext K.xcr0.2) }
    else .error .abort
  | .label _ | .jmp _ | .jcc _ _ | .ret => .ok s

variable [DecidableEq L]

/-- The program from a label on. -/
def codeAt (l : L) : List (Instr L S) → List (Instr L S)
  | [] => []
  | .label l' :: c => if l = l' then c else codeAt l c
  | _ :: c => codeAt l c

/-- Execution of `code`, a part of the program `prog`, until `ret`: the return address and the state afterwards. -/
def run (K : Machine) (addr : S → Nat) (prog : List (Instr L S)) : Nat → List (Instr L S) → State → M (Word × State)
  | 0, _, _ => .error .nonterm
  | _ + 1, [], _ => .error .abort
  | f + 1, i :: c, s =>
    match i with
    | .label _ => run K addr prog f c s
    | .jmp l => run K addr prog f (codeAt l prog) s
    | .jcc cc l => run K addr prog f (if cc.holds s.cf s.zf then codeAt l prog else c) s
    | .ret => do
      let a ← ld64 K s.mem (s.gpr rsp)
      .ok (a, { s with gpr := upd s.gpr rsp (s.gpr rsp + 8) })
    | i => do
      let s ← step K addr i s
      run K addr prog f c s

end X86
