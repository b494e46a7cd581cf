/-
Machine semantics used by the model: an error monad whose errors are the undefined (or
fatal) behaviours of C, checked signed arithmetic, wrapping unsigned arithmetic, bounds-checked
arrays and counted loops.

Target: LP64 with two's complement integers (gcc/clang on x86-64), as assumed by the repo's
Makefile.  `int32_t`/`int64_t` values are Lean `Int`s together with range checks; `uint32_t` loop
counters are Lean `Nat`s reduced modulo 2^32.
-/

namespace C

/-- Everything that can go wrong in a run of the C code. -/
inductive Err where
  /-- signed overflow (undefined behaviour) -/
  | overflow
  /-- array access out of bounds (undefined behaviour) -/
  | oob
  /-- a failed `assert` -/
  | assertFail
  /-- division or remainder by zero (undefined behaviour) -/
  | divZero
  /-- the program calls `abort()` or `exit(EXIT_FAILURE)` -/
  | abort
  /-- a loop has used up its fuel: the model gives up, as on a non-terminating loop -/
  | nonterm
  deriving DecidableEq, Repr

/-- Runs of the C code: a value or one of the errors above. -/
abbrev M := Except Err

/-- `x` is representable as `int32_t`. -/
def I32 (x : Int) : Prop := -2147483648 ≤ x ∧ x ≤ 2147483647

/-- `x` is representable as `int64_t`. -/
def I64 (x : Int) : Prop := -9223372036854775808 ≤ x ∧ x ≤ 9223372036854775807

instance (x : Int) : Decidable (I32 x) := inferInstanceAs (Decidable (_ ∧ _))
instance (x : Int) : Decidable (I64 x) := inferInstanceAs (Decidable (_ ∧ _))

/-- Result of a signed 32-bit operation with exact result `x`: overflow is an error. -/
def i32 (x : Int) : M Int := if I32 x then .ok x else .error .overflow

/-- Result of a signed 64-bit operation with exact result `x`: overflow is an error. -/
def i64 (x : Int) : M Int := if I64 x then .ok x else .error .overflow

/-- Conversion of any integer value to `int32_t` (two's complement wrap, no error). -/
def toI32 (x : Int) : Int := (x + 2147483648) % 4294967296 - 2147483648

/-- Conversion of any integer value to `int64_t` (two's complement wrap, no error). -/
def toI64 (x : Int) : Int :=
  (x + 9223372036854775808) % 18446744073709551616 - 9223372036854775808

/-- Conversion of a signed value to `uint32_t`. -/
def toU32 (x : Int) : Nat := (x % 4294967296).toNat

/-- Conversion of a signed value to `uint64_t`. -/
def toU64 (x : Int) : Nat := (x % 18446744073709551616).toNat

/-- `uint32_t` result of an operation with exact result `x`. -/
def u32 (x : Nat) : Nat := x % 4294967296

/-- `uint64_t` result of an operation with exact result `x`. -/
def u64 (x : Nat) : Nat := x % 18446744073709551616

/-- Arithmetic right shift `x >> k` of a signed value (floor division by `2^k`). -/
def sar (x : Int) (k : Nat) : Int := x / (2 ^ k : Nat)

/-- Bitwise and of two `int32_t` values. -/
def land32 (x y : Int) : Int := toI32 (Int.ofNat (toU32 x &&& toU32 y))

/-- Bitwise and of two `int64_t` values. -/
def land64 (x y : Int) : Int := toI64 (Int.ofNat (toU64 x &&& toU64 y))

/-- Bitwise or of two `int64_t` values. -/
def lor64 (x y : Int) : Int := toI64 (Int.ofNat (toU64 x ||| toU64 y))

/-- C remainder `x % y` of signed values: truncated, error when `y = 0`. -/
def crem (x y : Int) : M Int := if y = 0 then .error .divZero else .ok (x.tmod y)

/-- C quotient `x / y` of signed values: truncated, error when `y = 0`. -/
def cdiv (x y : Int) : M Int := if y = 0 then .error .divZero else .ok (x.tdiv y)

/-- Unsigned remainder; error when the divisor is 0. -/
def urem (x y : Nat) : M Nat := if y = 0 then .error .divZero else .ok (x % y)

/-- Unsigned quotient; error when the divisor is 0. -/
def udiv (x y : Nat) : M Nat := if y = 0 then .error .divZero else .ok (x / y)

/-- `assert(b)` in a build where assertions are enabled. -/
def cassert (b : Bool) : M Unit := if b then .ok () else .error .assertFail

/-- Array read `a[i]`. -/
def rd {α : Type} (a : Array α) (i : Nat) : M α :=
  match a[i]? with
  | some x => .ok x
  | none => .error .oob

/-- Array write `a[i] = x`. -/
def wr {α : Type} (a : Array α) (i : Nat) (x : α) : M (Array α) :=
  if i < a.size then .ok (a.setIfInBounds i x) else .error .oob

/-- `for (; cond(i); i = next(i)) body`, with `fuel` bounding the number of tests of `cond`. -/
def cfor {σ : Type} (cond : Nat → Bool) (next : Nat → Nat) (body : Nat → σ → M σ) :
    Nat → Nat → σ → M σ
  | 0, _, _ => .error .nonterm
  | fuel + 1, i, s =>
    if cond i then do
      let s ← body i s
      cfor cond next body fuel (next i) s
    else .ok s

/-- `for (i = lo; i < hi; i += step) body` with an `uint32_t` counter. -/
def forUp {σ : Type} (lo hi step : Nat) (body : Nat → σ → M σ) (s : σ) : M σ :=
  cfor (fun i => decide (i < hi)) (fun i => u32 (i + step)) body (hi + 1) lo s

/-- `for (t = lo; t < hi; t <<= 1) body` with an `uint32_t` counter. -/
def forShl {σ : Type} (lo hi : Nat) (body : Nat → σ → M σ) (s : σ) : M σ :=
  cfor (fun t => decide (t < hi)) (fun t => u32 (2 * t)) body 34 lo s

/-- `for (t = hi; t > 0; t >>= 1) body` with an `uint32_t` counter. -/
def forShr {σ : Type} (hi : Nat) (body : Nat → σ → M σ) (s : σ) : M σ :=
  cfor (fun t => decide (0 < t)) (fun t => t / 2) body 34 hi s

/-- `while (cond(s)) s = body(s)`, with `fuel` bounding the number of tests of `cond`. -/
def cwhile {σ : Type} (cond : σ → Bool) (body : σ → M σ) : Nat → σ → M σ
  | 0, _ => .error .nonterm
  | fuel + 1, s =>
    if cond s then do
      let s ← body s
      cwhile cond body fuel s
    else .ok s

end C
