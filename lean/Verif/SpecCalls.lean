import Verif.SpecMachine
import Verif.Model.AsmCalls
import Verif.Model.Tables

/-
Vocabulary for C77: sequences of calls of the functions of src/ntt_asm.S on the machine of `Verif/Model/X86.lean`.
-/

namespace X86
open C Avx Spec AsmCalls

/-- Where the arguments of a product and the tables are. -/
structure Place where
  arr : Arg → Word
  tab : Tbl → Word

/-- The three arrays (of `n` elements of four bytes) can be read and written, are in the lower half of the address space and apart
from the tables (of `n` elements of two bytes, that can be read) and from the data section.  `a` and `b` are apart; `c` is apart from
both or the same array as one of them. -/
structure Fits (K : Machine) (L : Place) (n : Nat) : Prop where
  low : ∀ x, (L.arr x).toNat < 2 ^ 63
  readable : ∀ x, Readable K (L.arr x) (4 * n)
  writable : ∀ x, Writable K (L.arr x) (4 * n)
  apart : Apart (L.arr .a) (4 * n) (L.arr .b) (4 * n)
  apart_c : ∀ x, L.arr .c = L.arr x ∨ Apart (L.arr .c) (4 * n) (L.arr x) (4 * n)
  tab_readable : ∀ p, Readable K (L.tab p) (2 * n)
  tab_apart : ∀ x p, Apart (L.arr x) (4 * n) (L.tab p) (2 * n)
  data_apart : ∀ x, Apart (L.arr x) (4 * n) K.data 512

/-- The caller has not changed the arrays, the tables and the data section since memory was `m`. -/
structure Kept (K : Machine) (L : Place) (n : Nat) (m m' : Memory) : Prop where
  arr : ∀ x, ∀ i < 4 * n, m' (L.arr x + BitVec.ofNat 64 i) = m (L.arr x + BitVec.ofNat 64 i)
  tab : ∀ p, ∀ i < 2 * n, m' (L.tab p + BitVec.ofNat 64 i) = m (L.tab p + BitVec.ofNat 64 i)
  data : ∀ i < 512, m' (K.data + BitVec.ofNat 64 i) = m (K.data + BitVec.ofNat 64 i)

/-- The function called. -/
def label : Op → Code.Label
  | .one f _ => f
  | .table f _ _ => f
  | .mul _ _ _ => .mul_reduce_array_asm
  | .scalar _ _ => .scalar_mul_reduce_array_asm

/-- The array it changes. -/
def dest : Op → Arg
  | .one _ x => x
  | .table _ x _ => x
  | .mul x _ _ => x
  | .scalar x _ => x

/-- The third and fourth argument. -/
def Args (L : Place) (s : State) : Op → Prop
  | .one _ _ => True
  | .table _ _ p => s.gpr rdx = L.tab p
  | .mul _ y z => s.gpr rdx = L.arr y ∧ s.gpr rcx = L.arr z
  | .scalar _ v => toI32 (s.gpr rdx).toNat = v

/-- `s` is a state in which the caller makes the call `op`, where memory was `m` after the previous call: the arguments are in their
registers, the return address can be read and is not in one of the arrays.  Everything else (the other registers, the flags, memory
outside the arrays, the tables and the data section) is arbitrary. -/
structure Ready (K : Machine) (L : Place) (n : Nat) (op : Op) (m : Memory) (s : State) : Prop where
  kept : Kept K L n m s.mem
  arg1 : s.gpr rdi = L.arr (dest op)
  arg2 : s.gpr rsi = BitVec.ofNat 64 n
  args : Args L s op
  stack : Readable K (s.gpr rsp) 8
  stack_apart : ∀ x, Apart (L.arr x) (4 * n) (s.gpr rsp) 8
  lanes : LanesOk s

/-- Whatever the caller does between them, all calls of the list return (to their return address, with the registers of the caller
preserved and no change of memory outside the destination), and memory after the last has property `Q`. -/
def Calls (K : Machine) (L : Place) (n : Nat) : List Op → Memory → (Memory → Prop) → Prop
  | [], m, Q => Q m
  | op :: l, m, Q => ∀ s, Ready K L n op m s → ∃ (N : Nat) (s' : State),
    (∀ fuel, N ≤ fuel → run K Code.addr Code.prog fuel (codeAt (label op) Code.prog) s =
      .ok (BitVec.ofNat 64 (val s.mem (s.gpr rsp) 8), s')) ∧
    s'.gpr rsp = s.gpr rsp + 8 ∧
    (∀ r ∈ [rbx, rbp, r12, r13, r14, r15], s'.gpr r = s.gpr r) ∧
    (∀ x, (∀ i < 4 * n, x ≠ L.arr (dest op) + BitVec.ofNat 64 i) → s'.mem x = s.mem x) ∧
    LanesOk s' ∧ Calls K L n l s'.mem Q

/-- The contents of a table. -/
def tableOf (t : Tables.RedTables) : Tbl → Array Int
  | .psi_powers => t.psi_powers
  | .scaled_inv_psi_powers => t.scaled_inv_psi_powers
  | .scaled_inv_psi_powers_var => t.scaled_inv_psi_powers_var
  | .omega_powers => t.omega_powers
  | .omega_powers_rev => t.omega_powers_rev
  | .inv_omega_powers => t.inv_omega_powers
  | .inv_omega_powers_rev => t.inv_omega_powers_rev
  | .mixed_powers => t.mixed_powers
  | .mixed_powers_rev => t.mixed_powers_rev
  | .inv_mixed_powers => t.inv_mixed_powers
  | .inv_mixed_powers_rev => t.inv_mixed_powers_rev

end X86
