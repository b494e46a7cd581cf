import Verif.CSem

/-
The AVX2 instructions used by src/ntt_asm.S, after the Intel manual (volume 2).

A 256-bit register is eight 32-bit lanes; a lane is kept as the signed integer it denotes in two's
complement.  Lane 0 is the least significant.  Arithmetic wraps and nothing is undefined; the only
failures are memory accesses outside an array (`Err.oob`) and loops out of fuel.

An `xmm` register is the lower half of a register; instructions that write it clear the upper half
(VEX encoding).

Memory: a pointer is a byte offset from the start of the array it points into, so pointer
arithmetic is as in the source.  `int32_t` arrays have 4-byte elements, `int16_t` arrays 2-byte
elements; an offset that is not a multiple of the element size does not occur in the code and is
treated as out of bounds.  Addresses do not wrap (an array fits in the address space).
-/

namespace Avx
open C

/-- A 256-bit register. -/
structure V8 where
  x0 : Int
  x1 : Int
  x2 : Int
  x3 : Int
  x4 : Int
  x5 : Int
  x6 : Int
  x7 : Int
  deriving DecidableEq, Repr

namespace V8

/-- Lane `i`. -/
def get (v : V8) (i : Nat) : Int :=
  match i with
  | 0 => v.x0
  | 1 => v.x1
  | 2 => v.x2
  | 3 => v.x3
  | 4 => v.x4
  | 5 => v.x5
  | 6 => v.x6
  | _ => v.x7

/-- The register with lanes `f 0`, ..., `f 7`. -/
def ofFn (f : Nat → Int) : V8 := ⟨f 0, f 1, f 2, f 3, f 4, f 5, f 6, f 7⟩

/-- Eight copies. -/
def splat (x : Int) : V8 := ⟨x, x, x, x, x, x, x, x⟩

end V8

/-! ### lane arithmetic -/

/-- 32-bit sum. -/
def add32 (x y : Int) : Int := toI32 (x + y)

/-- 32-bit difference. -/
def sub32 (x y : Int) : Int := toI32 (x - y)

/-- 32-bit left shift. -/
def sll32 (x : Int) (k : Nat) : Int := toI32 (x * (2 ^ k : Nat))

/-- Lower half of the signed product of two lanes. -/
def mulLo (x y : Int) : Int := toI32 (x * y)

/-- Upper half of the signed product of two lanes. -/
def mulHi (x y : Int) : Int := toI32 (x * y / 4294967296)

/-- The unsigned 64-bit number with lower half `lo` and upper half `hi`. -/
def quad (lo hi : Int) : Nat := toU32 lo + 4294967296 * toU32 hi

/-- Lower half of a logical 64-bit right shift. -/
def srlLo (lo hi : Int) (k : Nat) : Int := toI32 (quad lo hi / 2 ^ k : Nat)

/-- Upper half of a logical 64-bit right shift. -/
def srlHi (lo hi : Int) (k : Nat) : Int := toI32 (quad lo hi / 2 ^ k / 4294967296 : Nat)

/-- The 16-bit two's complement number with the bits of `u < 65536`. -/
def sx16 (u : Nat) : Int := if u < 32768 then u else (u : Int) - 65536

/-- Upper half of the sign extension of `x` to 64 bits. -/
def sxHi (x : Int) : Int := if x < 0 then -1 else 0

/-! ### register to register -/

/-- `vpaddd`: packed 32-bit addition. -/
def vpaddd (u v : V8) : V8 := .ofFn fun i => add32 (u.get i) (v.get i)

/-- `vpsubd`: packed 32-bit subtraction. -/
def vpsubd (u v : V8) : V8 := .ofFn fun i => sub32 (u.get i) (v.get i)

/-- `vpand`: bitwise and. -/
def vpand (u v : V8) : V8 := .ofFn fun i => land32 (u.get i) (v.get i)

/-- `vpslld`: packed 32-bit left shift. -/
def vpslld (u : V8) (k : Nat) : V8 := .ofFn fun i => sll32 (u.get i) k

/-- `vpsrad`: packed 32-bit arithmetic right shift. -/
def vpsrad (u : V8) (k : Nat) : V8 := .ofFn fun i => sar (u.get i) k

/-- `vpcmpgtd`: packed signed comparison, all ones when greater. -/
def vpcmpgtd (u v : V8) : V8 := .ofFn fun i => if u.get i > v.get i then -1 else 0

/-- `vpmuldq`: signed products of the even lanes, 64 bits each. -/
def vpmuldq (u v : V8) : V8 := .ofFn fun i =>
  if i % 2 = 0 then mulLo (u.get i) (v.get i) else mulHi (u.get (i - 1)) (v.get (i - 1))

/-- `vpsrlq`: packed 64-bit logical right shift. -/
def vpsrlq (u : V8) (k : Nat) : V8 := .ofFn fun i =>
  if i % 2 = 0 then srlLo (u.get i) (u.get (i + 1)) k else srlHi (u.get (i - 1)) (u.get i) k

/-- `vpslldq`: left shift of each 128-bit half by `b` bytes; here `b` is a multiple of 4. -/
def vpslldq (u : V8) (b : Nat) : V8 := .ofFn fun i =>
  if i % 4 < b / 4 then 0 else u.get (i - b / 4)

/-- `vpsrldq`: right shift of each 128-bit half by `b` bytes; here `b` is a multiple of 4. -/
def vpsrldq (u : V8) (b : Nat) : V8 := .ofFn fun i =>
  if i % 4 + b / 4 < 4 then u.get (i + b / 4) else 0

/-- `vpshufd`: in each 128-bit half, lane `i` is the lane selected by the bits `2i, 2i+1` of the
immediate. -/
def vpshufd (u : V8) (imm : Nat) : V8 := .ofFn fun i =>
  u.get (4 * (i / 4) + imm / 4 ^ (i % 4) % 4)

/-- `vpblendd`: lane `i` is from the second operand when bit `i` of the immediate is 1. -/
def vpblendd (u v : V8) (imm : Nat) : V8 := .ofFn fun i =>
  if imm / 2 ^ i % 2 = 1 then v.get i else u.get i

/-- `vshufps`: in each 128-bit half, lanes 0 and 1 are selected from the first operand, lanes 2 and 3
from the second, by two bits each. -/
def vshufps (u v : V8) (imm : Nat) : V8 := .ofFn fun i =>
  (if i % 4 < 2 then u else v).get (4 * (i / 4) + imm / 4 ^ (i % 4) % 4)

/-- `vshufpd`: 64-bit lane `j` (of four) is from the first operand for `j` even, from the second for
`j` odd; bit `j` of the immediate selects the lower or upper 64 bits of the 128-bit half. -/
def vshufpd (u v : V8) (imm : Nat) : V8 := .ofFn fun i =>
  (if i / 2 % 2 = 0 then u else v).get (4 * (i / 4) + 2 * (imm / 2 ^ (i / 2) % 2) + i % 2)

/-- `vperm2i128`: bits 0-1 (4-5) of the immediate select the lower (upper) 128-bit half of the result
among the halves of the first and second operand; bits 3 and 7 (clear a half) are 0 in the code. -/
def vperm2i128 (u v : V8) (imm : Nat) : V8 := .ofFn fun i =>
  let s := imm / 16 ^ (i / 4) % 4
  (if s / 2 = 0 then u else v).get (4 * (s % 2) + i % 4)

/-- `vpermd`: lane `i` of the result is the lane of `v` selected by the three low bits of lane `i` of
the index operand `u`. -/
def vpermd (u v : V8) : V8 := .ofFn fun i => v.get (toU32 (u.get i) % 8)

/-- 16-bit word `i` of a register. -/
def V8.word (u : V8) (i : Nat) : Int := sx16 (toU32 (u.get (i / 2)) / 65536 ^ (i % 2) % 65536)

/-- `vpmovsxwq ymm, xmm`: the four low words, sign-extended to 64 bits. -/
def vpmovsxwq (u : V8) : V8 := .ofFn fun i =>
  if i % 2 = 0 then u.word (i / 2) else sxHi (u.word (i / 2))

/-- `vmovd xmm, r64` (assembled as `vmovq`): the two halves of a 64-bit register. -/
def vmovd (r : Int) : V8 := ⟨toI32 r, toI32 (r / 4294967296), 0, 0, 0, 0, 0, 0⟩

/-- `vpbroadcastd ymm, xmm`: copies of lane 0. -/
def vpbroadcastd (u : V8) : V8 := .splat u.x0

/-- `vpbroadcastq ymm, xmm`: copies of lanes 0 and 1. -/
def vpbroadcastq (u : V8) : V8 := .ofFn fun i => u.get (i % 2)

/-! ### memory -/

/-- The `i`-th 32-bit integer at byte offset `r` of an `int32_t` array. -/
def mem32 (a : Array Int) (r i : Nat) : M Int :=
  if r % 4 = 0 then rd a (r / 4 + i) else .error .oob

/-- The `i`-th 16-bit integer at byte offset `r` of an `int16_t` array. -/
def mem16 (p : Array Int) (r i : Nat) : M Int :=
  if r % 2 = 0 then rd p (r / 2 + i) else .error .oob

/-- Replace the elements from index `s` by the given ones. -/
def putList : List Int → Array Int → Nat → M (Array Int)
  | [], a, _ => .ok a
  | x :: l, a, s => do
    let a ← wr a s x
    putList l a (s + 1)

/-- `vmovdqu ymm, [r]`: load of 256 bits. -/
def load (a : Array Int) (r : Nat) : M V8 := do
  let x0 ← mem32 a r 0
  let x1 ← mem32 a r 1
  let x2 ← mem32 a r 2
  let x3 ← mem32 a r 3
  let x4 ← mem32 a r 4
  let x5 ← mem32 a r 5
  let x6 ← mem32 a r 6
  let x7 ← mem32 a r 7
  pure ⟨x0, x1, x2, x3, x4, x5, x6, x7⟩

/-- `vmovdqu [r], ymm`: store of 256 bits. -/
def store (a : Array Int) (r : Nat) (v : V8) : M (Array Int) :=
  if r % 4 = 0 then putList [v.x0, v.x1, v.x2, v.x3, v.x4, v.x5, v.x6, v.x7] a (r / 4)
  else .error .oob

/-- `vmovdqu [r], xmm`: store of 128 bits. -/
def store128 (a : Array Int) (r : Nat) (v : V8) : M (Array Int) :=
  if r % 4 = 0 then putList [v.x0, v.x1, v.x2, v.x3] a (r / 4) else .error .oob

/-- `vpmovsxdq ymm, [r]`: four 32-bit integers, sign-extended to 64 bits. -/
def load_sxdq (a : Array Int) (r : Nat) : M V8 := do
  let x0 ← mem32 a r 0
  let x1 ← mem32 a r 1
  let x2 ← mem32 a r 2
  let x3 ← mem32 a r 3
  pure ⟨x0, sxHi x0, x1, sxHi x1, x2, sxHi x2, x3, sxHi x3⟩

/-- `vpmovsxwd ymm, [r]`: eight 16-bit integers, sign-extended to 32 bits. -/
def load_sxwd (p : Array Int) (r : Nat) : M V8 := do
  let x0 ← mem16 p r 0
  let x1 ← mem16 p r 1
  let x2 ← mem16 p r 2
  let x3 ← mem16 p r 3
  let x4 ← mem16 p r 4
  let x5 ← mem16 p r 5
  let x6 ← mem16 p r 6
  let x7 ← mem16 p r 7
  pure ⟨x0, x1, x2, x3, x4, x5, x6, x7⟩

/-- `vpmovsxwq ymm, [r]`: four 16-bit integers, sign-extended to 64 bits. -/
def load_sxwq (p : Array Int) (r : Nat) : M V8 := do
  let x0 ← mem16 p r 0
  let x1 ← mem16 p r 1
  let x2 ← mem16 p r 2
  let x3 ← mem16 p r 3
  pure ⟨x0, sxHi x0, x1, sxHi x1, x2, sxHi x2, x3, sxHi x3⟩

/-- `vpmovsxwq xmm, [r]`: two 16-bit integers, sign-extended to 64 bits. -/
def load_sxwq128 (p : Array Int) (r : Nat) : M V8 := do
  let x0 ← mem16 p r 0
  let x1 ← mem16 p r 1
  pure ⟨x0, sxHi x0, x1, sxHi x1, 0, 0, 0, 0⟩

/-- `vpbroadcastw xmm, [r]`: eight copies of a 16-bit integer. -/
def load_bdcstw (p : Array Int) (r : Nat) : M V8 := do
  let x ← mem16 p r 0
  let d := toI32 ((toU32 x % 65536) * 65537)
  pure ⟨d, d, d, d, 0, 0, 0, 0⟩

/-! ### control -/

/-- A loop `label: body; jcc label`: the body yields the new state and whether the jump is taken. -/
def jloop {σ : Type} (body : σ → M (σ × Bool)) : Nat → σ → M σ
  | 0, _ => .error .nonterm
  | fuel + 1, s => do
    let (s, taken) ← body s
    if taken then jloop body fuel s else pure s

end Avx
