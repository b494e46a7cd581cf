import Verif.SpecCalls
import Verif.Model.AsmRead
import Verif.Model.CCalls
import Verif.SpecSource

/-
Specification for C83: the functions of an assembly file, as read by `AsmRead.readAsm`, called on the machine of
`Verif/Model/X86.lean`; and products in C that call them.
-/

namespace X86
open C Avx Spec AsmRead AsmCalls CLang

/-- The data section of the file is in memory, at a multiple of 32, and can be read. -/
structure AsmLoaded (F : Asm) (K : Machine) (m : Memory) : Prop where
  align : K.data.toNat % 32 = 0
  readable : Readable K K.data (4 * F.longs.length)
  longs : ∀ z ∈ F.longs, int32At m (K.data + BitVec.ofNat 64 z.1) = z.2

/-- As `Call`: `s` is the state at the start of a call `f(a, n, ..)` where `a` is the array at address `A` and `n` its number of
elements. -/
structure AsmCall (F : Asm) (K : Machine) (A : Word) (a : Array Int) (s : State) : Prop where
  size : a.size < 2 ^ 32
  low : A.toNat < 2 ^ 63
  readable : Readable K A (4 * a.size)
  writable : Writable K A (4 * a.size)
  holds : Holds32 s.mem A a
  loaded : AsmLoaded F K s.mem
  data_apart : Apart A (4 * a.size) K.data (4 * F.longs.length)
  stack : Readable K (s.gpr rsp) 8
  stack_apart : Apart A (4 * a.size) (s.gpr rsp) 8
  arg1 : s.gpr rdi = A
  arg2 : s.gpr rsi = BitVec.ofNat 64 a.size
  lanes : LanesOk s

/-- As `Returns`: `f` is global, and execution from label `f` in state `s` returns to the caller after finitely many steps, without a
fault, to the return address, with the stack pointer behind it, with `a'` in the place of the array `a` at `A`, with no other byte of
memory and none of the registers `rbx`, `rbp`, `r12` to `r15` changed. -/
def AsmReturns (F : Asm) (K : Machine) (f : Nat) (A : Word) (a : Array Int) (s : State) (a' : Array Int) : Prop :=
  f ∈ F.globals ∧ ∃ (N : Nat) (s' : State),
    a'.size = a.size ∧
    (∀ fuel, N ≤ fuel → run K F.addr F.code fuel (codeAt f F.code) s = .ok (BitVec.ofNat 64 (val s.mem (s.gpr rsp) 8), s')) ∧
    s'.gpr rsp = s.gpr rsp + 8 ∧
    (∀ r ∈ [rbx, rbp, r12, r13, r14, r15], s'.gpr r = s.gpr r) ∧
    Holds32 s'.mem A a' ∧
    (∀ x, (∀ i < 4 * a.size, x ≠ A + BitVec.ofNat 64 i) → s'.mem x = s.mem x) ∧
    LanesOk s'

/-! ### Products -/

/-- The parameters of the products (src/ntt_red_asm16.c:17). -/
def argName : Arg → Name
  | .c => n!"c"
  | .a => n!"a"
  | .b => n!"b"

/-- The names of the tables, and of the constant `rescale8`. -/
structure TableNames where
  tab : Tbl → Name
  rescale8 : Name

/-- src/ntt_red16_tables.h, printed by src/make_red_tables.c -/
def tableNames16 : TableNames where
  tab p := match p with
    | .psi_powers => n!"ntt_red16_psi_powers"
    | .scaled_inv_psi_powers => n!"ntt_red16_scaled_inv_psi_powers"
    | .scaled_inv_psi_powers_var => n!"ntt_red16_scaled_inv_psi_powers_var"
    | .omega_powers => n!"ntt_red16_omega_powers"
    | .omega_powers_rev => n!"ntt_red16_omega_powers_rev"
    | .inv_omega_powers => n!"ntt_red16_inv_omega_powers"
    | .inv_omega_powers_rev => n!"ntt_red16_inv_omega_powers_rev"
    | .mixed_powers => n!"ntt_red16_mixed_powers"
    | .mixed_powers_rev => n!"ntt_red16_mixed_powers_rev"
    | .inv_mixed_powers => n!"ntt_red16_inv_mixed_powers"
    | .inv_mixed_powers_rev => n!"ntt_red16_inv_mixed_powers_rev"
  rescale8 := n!"ntt_red16_rescale8"

/-- src/ntt_red256_tables.h, printed by src/make_red_tables.c -/
def tableNames256 : TableNames where
  tab p := match p with
    | .psi_powers => n!"ntt_red256_psi_powers"
    | .scaled_inv_psi_powers => n!"ntt_red256_scaled_inv_psi_powers"
    | .scaled_inv_psi_powers_var => n!"ntt_red256_scaled_inv_psi_powers_var"
    | .omega_powers => n!"ntt_red256_omega_powers"
    | .omega_powers_rev => n!"ntt_red256_omega_powers_rev"
    | .inv_omega_powers => n!"ntt_red256_inv_omega_powers"
    | .inv_omega_powers_rev => n!"ntt_red256_inv_omega_powers_rev"
    | .mixed_powers => n!"ntt_red256_mixed_powers"
    | .mixed_powers_rev => n!"ntt_red256_mixed_powers_rev"
    | .inv_mixed_powers => n!"ntt_red256_inv_mixed_powers"
    | .inv_mixed_powers_rev => n!"ntt_red256_inv_mixed_powers_rev"
  rescale8 := n!"ntt_red256_rescale8"

/-- src/ntt_red512_tables.h, printed by src/make_red_tables.c -/
def tableNames512 : TableNames where
  tab p := match p with
    | .psi_powers => n!"ntt_red512_psi_powers"
    | .scaled_inv_psi_powers => n!"ntt_red512_scaled_inv_psi_powers"
    | .scaled_inv_psi_powers_var => n!"ntt_red512_scaled_inv_psi_powers_var"
    | .omega_powers => n!"ntt_red512_omega_powers"
    | .omega_powers_rev => n!"ntt_red512_omega_powers_rev"
    | .inv_omega_powers => n!"ntt_red512_inv_omega_powers"
    | .inv_omega_powers_rev => n!"ntt_red512_inv_omega_powers_rev"
    | .mixed_powers => n!"ntt_red512_mixed_powers"
    | .mixed_powers_rev => n!"ntt_red512_mixed_powers_rev"
    | .inv_mixed_powers => n!"ntt_red512_inv_mixed_powers"
    | .inv_mixed_powers_rev => n!"ntt_red512_inv_mixed_powers_rev"
  rescale8 := n!"ntt_red512_rescale8"

/-- src/ntt_red1024_tables.h, printed by src/make_red_tables.c -/
def tableNames1024 : TableNames where
  tab p := match p with
    | .psi_powers => n!"ntt_red1024_psi_powers"
    | .scaled_inv_psi_powers => n!"ntt_red1024_scaled_inv_psi_powers"
    | .scaled_inv_psi_powers_var => n!"ntt_red1024_scaled_inv_psi_powers_var"
    | .omega_powers => n!"ntt_red1024_omega_powers"
    | .omega_powers_rev => n!"ntt_red1024_omega_powers_rev"
    | .inv_omega_powers => n!"ntt_red1024_inv_omega_powers"
    | .inv_omega_powers_rev => n!"ntt_red1024_inv_omega_powers_rev"
    | .mixed_powers => n!"ntt_red1024_mixed_powers"
    | .mixed_powers_rev => n!"ntt_red1024_mixed_powers_rev"
    | .inv_mixed_powers => n!"ntt_red1024_inv_mixed_powers"
    | .inv_mixed_powers_rev => n!"ntt_red1024_inv_mixed_powers_rev"
  rescale8 := n!"ntt_red1024_rescale8"

/-- Register `r` holds the value of an argument: a number, with the upper half of the register zero; the address of one of the arrays
`c`, `a`, `b` or of a table; `rescale8`, in the lower half.  Nothing is known about other arguments. -/
def HasArg (L : Place) (N : TableNames) (v : Int) (s : State) (r : Nat) : Expr → Prop
  | .num k => s.gpr r = BitVec.ofNat 64 k
  | .var x => (∀ y, x = argName y → s.gpr r = L.arr y) ∧ (∀ p, x = N.tab p → s.gpr r = L.tab p) ∧
    (x = N.rescale8 → toI32 (s.gpr r).toNat = v)
  | _ => True

/-- `s` is a state in which the caller makes a call with the arguments `es`, where memory was `m` after the previous call: the arguments
are in their registers, the return address can be read and is not in one of the arrays.  The caller has changed neither the arrays nor
the tables nor the data section; everything else is arbitrary. -/
structure AsmReady (K : Machine) (L : Place) (N : TableNames) (v : Int) (n : Nat) (es : List Expr) (m : Memory) (s : State) : Prop where
  kept : Kept K L n m s.mem
  args : ∀ z ∈ List.zip [rdi, rsi, rdx, rcx] es, HasArg L N v s z.1 z.2
  stack : Readable K (s.gpr rsp) 8
  stack_apart : ∀ x, Apart (L.arr x) (4 * n) (s.gpr rsp) 8
  lanes : LanesOk s

/-- Whatever the caller does between them, all calls of the list are calls of global functions and return (to their return address, with
the registers of the caller preserved and no change of memory outside the array that is the first argument), and memory after the last has
property `Q`. -/
def AllReturn (F : Asm) (K : Machine) (L : Place) (N : TableNames) (v : Int) (n : Nat) :
    List (Name × List Expr) → Memory → (Memory → Prop) → Prop
  | [], m, Q => Q m
  | (f, es) :: l, m, Q => f ∈ F.globals ∧ ∀ s, AsmReady K L N v n es m s → ∃ (N' : Nat) (s' : State),
    (∀ fuel, N' ≤ fuel → run K F.addr F.code fuel (codeAt f F.code) s = .ok (BitVec.ofNat 64 (val s.mem (s.gpr rsp) 8), s')) ∧
    s'.gpr rsp = s.gpr rsp + 8 ∧
    (∀ r ∈ [rbx, rbp, r12, r13, r14, r15], s'.gpr r = s.gpr r) ∧
    (∀ x, (∀ y, es.head? = some (.var (argName y)) → ∀ i < 4 * n, x ≠ L.arr y + BitVec.ofNat 64 i) → s'.mem x = s.mem x) ∧
    LanesOk s' ∧ AllReturn F K L N v n l s'.mem Q

/-- Memory holds the arguments of a product, the tables `t` and the data section of the file. -/
structure AsmStart (F : Asm) (K : Machine) (L : Place) (n : Nat) (t : Tables.RedTables) (a b : Array Int) (m : Memory) : Prop where
  fits : Fits K L n
  loaded : AsmLoaded F K m
  tables : ∀ p, Holds16 m (L.tab p) (tableOf t p)
  size_a : a.size = n
  size_b : b.size = n
  holds_a : Holds32 m (L.arr .a) a
  holds_b : Holds32 m (L.arr .b) b

/-- The calls made by the function `g` of the program `P` compute the product: for `a` and `b` reduced and any contents of `c`, where `c`
can be the same array as `a` or `b`, all calls return and afterwards `c` holds the reduced coefficients of the product of the polynomials
`a` and `b` modulo `X^n + 1`. -/
def AsmMultiplies (F : Asm) (P : Prog) (N : TableNames) (n : Nat) (t : Tables.RedTables) (g : Name) : Prop :=
  ∃ l, callsOf P g [n!"c", n!"a", n!"b"] = some l ∧
    ∀ (K : Machine) (L : Place) (m : Memory) (a b : Array Int), AsmStart F K L n t a b m → Reduced a → Reduced b →
      AllReturn F K L N t.rescale8 n l m fun m' =>
        ∃ c, c.size = n ∧ Holds32 m' (L.arr .c) c ∧ Reduced c ∧ ∀ i, i < n → coeff c i = negacyclic n (coeff a) (coeff b) i

end X86
