import Verif.SpecSourceGen

/-
Specification for C95: the functions with which the test programs judge results, executed from their text.
-/

namespace CLang
open C

/-- An array of type `int32_t`. -/
def Int32s (a : Array Int) : Prop := ∀ (i : Nat) v, a[i]? = some v → -2147483648 ≤ v ∧ v ≤ 2147483647

/-- The call returns `true` if `p`, and `false` if not `p`.  The memory is not changed. -/
def Judges (P : Prog) (g : Name) (vs : List Val) (mem : Nat → Obj) (p : Prop) : Prop :=
  ∀ G, (p → Returns P G g vs mem (.int .bool 1) mem) ∧ (¬ p → Returns P G g vs mem (.int .bool 0) mem)

/-- `equal_arrays(a, b, n)`: the first `n` elements of `a` and `b` are equal. -/
def JudgesEqual (P : Prog) : Prop :=
  ∀ mem oa ob a b n t, mem oa = ⟨.i32, a⟩ → mem ob = ⟨.i32, b⟩ → Int32s a → Int32s b → n ≤ a.size → n ≤ b.size → n < 4294967296 →
    Judges P n!"equal_arrays" [.ptr oa 0 1, .ptr ob 0 1, .int t (n : Nat)] mem (∀ i : Nat, i < n → a[i]? = b[i]?)

/-- The functions that judge the results of transforms. -/
structure JudgesTransforms (P : Prog) : Prop where
  /-- `power(x, k)` is x^k modulo 12289 -/
  power : ∀ x k t t', x ≤ 46340 → k < 4294967296 → Computes P n!"power" [.int t (x : Nat), .int t' (k : Nat)] .i32 (x ^ k % 12289 : Nat)
  /-- `check_ntt_simple(a, n, k, omega)`: `a` is the transform of X^k, in standard order; element `i` is omega^(k*i) -/
  check_ntt_simple : ∀ mem o a n k w t t' t'', mem o = ⟨.i32, a⟩ → Int32s a → n ≤ a.size → n < 4294967296 → k < 4294967296 → w ≤ 46340 →
    Judges P n!"check_ntt_simple" [.ptr o 0 1, .int t (n : Nat), .int t' (k : Nat), .int t'' (w : Nat)] mem
      (∀ i : Nat, i < n → a[i]? = some ((w ^ (k * i) % 12289 : Nat) : Int))
  /-- `check_ntt_ntt_simple(a, n, k)`: `a` is n*X^j, with j + k = 0 modulo n -/
  check_ntt_ntt_simple : ∀ mem o a n k t t', mem o = ⟨.i32, a⟩ → Int32s a → n ≤ a.size → n < 2147483648 → k < n →
    Judges P n!"check_ntt_ntt_simple" [.ptr o 0 1, .int t (n : Nat), .int t' (k : Nat)] mem
      (∀ i : Nat, i < n → a[i]? = some (if (i + k) % n = 0 then (n : Int) else 0))

/-- The functions that judge products. -/
structure JudgesProducts (P : Prog) : Prop where
  /-- `simple_poly(a, k, n)` stores X^k in the first `n` elements of `a` -/
  simple_poly : ∀ G mem o a k n t t', mem o = ⟨.i32, a⟩ → k < n → n ≤ a.size → n < 4294967296 →
    ∃ a' : Array Int, a'.size = a.size ∧ (∀ i : Nat, i < n → a'[i]? = some (if i = k then 1 else 0)) ∧ (∀ i : Nat, n ≤ i → a'[i]? = a[i]?) ∧
      Calls P G n!"simple_poly" [.ptr o 0 1, .int t (k : Nat), .int t' (n : Nat)] mem (setMem mem o ⟨.i32, a'⟩)
  /-- `equal_simple_poly(c, n, m)`: `c` is X^m modulo X^n + 1, that is X^m or 12288*X^(m-n) -/
  equal_simple_poly : ∀ mem o c n m t t', mem o = ⟨.i32, c⟩ → Int32s c → n ≤ c.size → 2 * n < 4294967296 → m < 2 * n →
    Judges P n!"equal_simple_poly" [.ptr o 0 1, .int t (n : Nat), .int t' (m : Nat)] mem
      (∀ i : Nat, i < n → c[i]? = some (if i = m then 1 else if i + n = m then 12288 else 0))

end CLang
