import Verif.SpecSource

/-
Specification for C84 and C85: functions of src/make_tables.c, src/make_red_tables.c, src/make_bitrev_table.c and src/sort.c, executed
from their text.
-/

namespace CLang
open C Spec

/-- The call returns the value `v`, with sufficient fuel (so it does not loop and has no undefined behaviour, and no assertion fails),
and leaves the memory `mem'`. -/
def Returns (P : Prog) (G : Name → Option Cell) (g : Name) (vs : List Val) (mem : Nat → Obj) (v : Val) (mem' : Nat → Obj) : Prop :=
  ∃ N, ∀ f, N ≤ f → callValue P G f g vs mem = .ok (v, mem')

/-- An array of `ty` that contains these numbers. -/
def nats (ty : Ty) (a : Array Nat) : Obj := ⟨ty, a.map fun x : Nat => (x : Int)⟩

/-- The call returns `true` or `false` and does not change the memory. -/
def Decides (P : Prog) (g : Name) (vs : List Val) (p : Prop) : Prop :=
  ∀ G mem, (p → Returns P G g vs mem (.int .bool 1) mem) ∧ (¬ p → Returns P G g vs mem (.int .bool 0) mem)

/-- The call returns this number and does not change the memory. -/
def Computes (P : Prog) (g : Name) (vs : List Val) (ty : Ty) (r : Int) : Prop :=
  ∀ G mem, Returns P G g vs mem (.int ty r) mem

/-- The call, the last argument of which is the address of an object of type `uint32_t`, either returns `true` and stores a number with the
property `p` at the address, or returns `false`, when there is no such number.  Nothing else is changed. -/
def Finds (P : Prog) (g : Name) (vs : List Val) (p : Nat → Prop) : Prop :=
  ∀ G mem o z, mem o = nats .u32 #[z] →
    (∃ y, p y ∧ Returns P G g (vs ++ [.ptr o 0 1]) mem (.int .bool 1) (setMem mem o (nats .u32 #[y]))) ∨
    ((∀ y, ¬ p y) ∧ Returns P G g (vs ++ [.ptr o 0 1]) mem (.int .bool 0) mem)

/-- The call, the first argument of which is the address of an array of `n` elements of type `uint32_t`, fills the array: element `i` becomes a
number with the property `p i`.  Nothing else is changed. -/
def Fills (P : Prog) (g : Name) (n : Nat) (vs : List Val) (p : Nat → Nat → Prop) : Prop :=
  ∀ G mem o a, mem o = nats .u32 a → a.size = n →
    ∃ a', a'.size = n ∧ (∀ i v, a'[i]? = some v → p i v) ∧ Calls P G g (.ptr o 0 1 :: vs) mem (setMem mem o (nats .u32 a'))

/-- The functions that are in src/make_tables.c and in src/make_red_tables.c.  Parameters and results are of type `uint32_t`. -/
structure Helpers (P : Prog) : Prop where
  /-- `power(x, k, q)` is x^k modulo q -/
  power : ∀ x k q t, x < 65536 → k < 4294967296 → 2 ≤ q → q ≤ 65536 →
    Computes P n!"power" [.int t (x : Nat), .int t (k : Nat), .int t (q : Nat)] .u32 (x ^ k % q : Nat)
  /-- `inverse(x, q, &y)` finds the inverse modulo q -/
  inverse : ∀ x q t, 1 ≤ x → 2 ≤ q → x * q < 2147483648 →
    Finds P n!"inverse" [.int t (x : Nat), .int t (q : Nat)] fun y => y < q ∧ x * y % q = 1
  /-- `logtwo(n, &k)` finds the logarithm in base 2 -/
  logtwo : ∀ n t, 0 < n → n < 4294967296 → Finds P n!"logtwo" [.int t (n : Nat)] fun k => n = 2 ^ k
  /-- `reverse(i, k)` is the reverse of the low `k` bits of `i` -/
  reverse : ∀ i k t, i < 4294967296 → k ≤ 32 → Computes P n!"reverse" [.int t (i : Nat), .int t (k : Nat)] .u32 (rev k i : Nat)
  /-- `is_primitive_root(x, n, q)`: n is the least positive exponent with x^n = 1 modulo q -/
  is_primitive_root : ∀ x n q t, x < 65536 → 1 ≤ n → n < 4294967296 → 2 ≤ q → q ≤ 65536 →
    Decides P n!"is_primitive_root" [.int t (x : Nat), .int t (n : Nat), .int t (q : Nat)] (x ^ n % q = 1 ∧ ∀ i, 1 ≤ i → i < n → x ^ i % q ≠ 1)
  /-- `build_power_table(a, n, q, x, y)`: element `i` is x*y^i modulo q -/
  build_power_table : ∀ n q x y t, n < 4294967296 → 2 ≤ q → q ≤ 65536 → x < q → y < 65536 →
    Fills P n!"build_power_table" n [.int t (n : Nat), .int t (q : Nat), .int t (x : Nat), .int t (y : Nat)] fun i v => v = x * y ^ i % q

/-- The table that `build_table(a, 2^k, q, x, y)` makes, with all elements but the first multiplied by `s`: element 2^m + j is
x^(n/2^(m+1)) times power j of y^(n/2^(m+1)). -/
def IsTable (k q x y s i v : Nat) : Prop :=
  (i = 0 → v = 0) ∧ ∀ m j, i = 2 ^ m + j → j < 2 ^ m → v = s * x ^ (2 ^ k / 2 ^ (m + 1)) * (y ^ (2 ^ k / 2 ^ (m + 1))) ^ j % q

/-- The table that `build_rev_table` makes: the same elements, element 2^m + j is now element 2^m + (reverse of j). -/
def IsRevTable (k q x y s i v : Nat) : Prop :=
  (i = 0 → v = 0) ∧ ∀ m j, i = 2 ^ m + j → j < 2 ^ m → v = s * x ^ (2 ^ k / 2 ^ (m + 1)) * (y ^ (2 ^ k / 2 ^ (m + 1))) ^ rev m j % q

end CLang
