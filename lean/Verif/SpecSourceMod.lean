import Verif.SpecSourceGen
import Verif.SpecTestRed

/-
Specification for C96: the computing functions of src/test_mod.c and src/test_red.c, executed from their text.
-/

namespace CLang
open C Spec

/-- The functions of src/test_mod.c that compute quotients and remainders modulo 12289.  `t` and `t'` are the types of the arguments before
the conversion to the types of the parameters. -/
structure Remainders (P : Prog) : Prop where
  /-- `smodq(x)` is the remainder of the truncated division -/
  smodq : ∀ (x : Int) t, -2147483648 ≤ x → x ≤ 2147483647 → Computes P n!"smodq" [.int t x] .i32 (x.tmod 12289)
  /-- `umodq(x)` is the remainder -/
  umodq : ∀ (x : Nat) t, x < 4294967296 → Computes P n!"umodq" [.int t (x : Nat)] .u32 (x % 12289 : Nat)
  /-- `pmodq(x)` is the remainder between 0 and 12288, for negative `x` too -/
  pmodq : ∀ (x : Int) t, -2147483648 ≤ x → x ≤ 2147483647 → Computes P n!"pmodq" [.int t x] .i32 (x % 12289)
  /-- `approx_qinv(n)` is 2^n/12289 rounded up, if that is less than 2^32 -/
  approx_qinv : ∀ (n : Nat) t, n < 46 → Computes P n!"approx_qinv" [.int t (n : Nat)] .u32 (2 ^ n / 12289 + 1 : Nat)
  /-- `approx_divq(x, n)`, `approx_modq(x, n)`: with n = 45 these are quotient and remainder for every `x` of type `uint32_t` -/
  full : ∀ (x : Nat) t t', x < 4294967296 →
    Computes P n!"approx_divq" [.int t (x : Nat), .int t' (45 : Nat)] .u32 (x / 12289 : Nat) ∧
    Computes P n!"approx_modq" [.int t (x : Nat), .int t' (45 : Nat)] .u32 (x % 12289 : Nat)
  /-- for `n` from 41 to 45, `approx_modq(x, n)` is the remainder for every `x` that is a product of two numbers less than 12289 -/
  approx_modq : ∀ (x n : Nat) t t', x ≤ 12288 * 12288 → 41 ≤ n → n ≤ 45 →
    Computes P n!"approx_modq" [.int t (x : Nat), .int t' (n : Nat)] .u32 (x % 12289 : Nat)
  /-- not so for n = 40 and n = 46 -/
  wrong : ∀ n, n = 40 ∨ n = 46 → ∃ x r : Nat, x ≤ 12288 * 12288 ∧ r ≠ x % 12289 ∧
    ∀ t t', Computes P n!"approx_modq" [.int t (x : Nat), .int t' (n : Nat)] .u32 (r : Nat)
  /-- the same for the signed variant, for every product of two numbers of magnitude less than 12289 -/
  approx_pmodq : ∀ (x : Int) (n : Nat) t t', |x| ≤ 12288 * 12288 → 41 ≤ n → n ≤ 45 →
    Computes P n!"approx_pmodq" [.int t x, .int t' (n : Nat)] .i32 (x % 12289)

/-- The constants of <inttypes.h> have their values. -/
def Limits (G : Name → Option Cell) : Prop :=
  G n!"INT32_MAX" = some (.int .i32 (some 2147483647)) ∧ G n!"INT32_MIN" = some (.int .i32 (some (-2147483648)))

/-- The reduction of `x` is not of type `int32_t`. -/
def Overflows (x : Int) : Prop := Spec.red x < -2147483648 ∨ 2147483647 < Spec.red x

/-- The functions of src/test_red.c that compute reductions and bounds. -/
structure Reductions (P : Prog) : Prop where
  /-- `red(x)` is the reduction, for every `x` of type `int64_t` -/
  red : ∀ (x : Int) t, -9223372036854775808 ≤ x → x ≤ 9223372036854775807 → Computes P n!"red" [.int t x] .i64 (Spec.red x)
  /-- `test_overflow(x)`: the reduction of `x` does not fit in 32 bits -/
  test_overflow : ∀ (x : Int) t, -9223372036854775808 ≤ x → x ≤ 9223372036854775807 → ∀ G mem, Limits G →
    (Overflows x → Returns P G n!"test_overflow" [.int t x] mem (.int .bool 1) mem) ∧
    (¬ Overflows x → Returns P G n!"test_overflow" [.int t x] mem (.int .bool 0) mem)
  /-- `test_overflow2(x)`: that is so for a number in the interval from 4096x to 4096x+4095 -/
  test_overflow2 : ∀ (x : Int) t, -2251799813685248 ≤ x → x ≤ 2251799813685247 → ∀ G mem, Limits G →
    ((∃ y, 4096 * x ≤ y ∧ y ≤ 4096 * x + 4095 ∧ Overflows y) → Returns P G n!"test_overflow2" [.int t x] mem (.int .bool 1) mem) ∧
    ((¬ ∃ y, 4096 * x ≤ y ∧ y ≤ 4096 * x + 4095 ∧ Overflows y) → Returns P G n!"test_overflow2" [.int t x] mem (.int .bool 0) mem)
  /-- `ct_bound(b)` and `gs_bound(b)` bound the values after a butterfly of values of magnitude at most `b` -/
  ct_bound : ∀ (b : Int) t, 0 ≤ b → b ≤ 1000000000000000000 → ∃ b', CtRound b b' ∧ Computes P n!"ct_bound" [.int t b] .i64 b'
  gs_bound : ∀ (b : Int) t, 0 ≤ b → b ≤ 1000000000000000000 → ∃ b', GsRound b b' ∧ Computes P n!"gs_bound" [.int t b] .i64 b'

end CLang
