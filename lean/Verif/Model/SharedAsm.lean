import Verif.Shared
import Verif.TraceAsm

/-
The memory accesses of src/ntt_asm.S on references (see `Verif/Shared.lean`): operations for the functions of
`Verif/Model/AsmPoly.lean` and `Verif/Model/AsmPolyProducts.lean`, which are generated from the models of
src/ntt_asm.S and src/ntt_red_asm<n>.c.

A vector access is a sequence of accesses to the elements, from the lowest address: other threads can run in
between.  (The processor does not guarantee that a 16 or 32 byte access is done at once; the order of the parts
is a simplification.)
-/

namespace Shared
open C Avx TraceAsm

/-- See `Avx.mem32`. -/
def pmem32 (h : Ref) (r i : Nat) : Prog Int := if r % 4 = 0 then prd h (r / 4 + i) else .fail .oob

/-- See `Avx.mem16`. -/
def pmem16 (h : Ref) (r i : Nat) : Prog Int := if r % 2 = 0 then prd h (r / 2 + i) else .fail .oob

/-- See `Avx.putList`. -/
def pputList : List Int → Ref → Nat → Prog Ref
  | [], h, _ => pure h
  | x :: l, h, s => do
    let h ← pwr h s x
    pputList l h (s + 1)

/-- `vmovdqu ymm, [r]`, see `Avx.load`. -/
def pload (h : Ref) (r : Nat) : Prog V8 := do
  let x0 ← pmem32 h r 0
  let x1 ← pmem32 h r 1
  let x2 ← pmem32 h r 2
  let x3 ← pmem32 h r 3
  let x4 ← pmem32 h r 4
  let x5 ← pmem32 h r 5
  let x6 ← pmem32 h r 6
  let x7 ← pmem32 h r 7
  pure ⟨x0, x1, x2, x3, x4, x5, x6, x7⟩

/-- `vmovdqu [r], ymm`, see `Avx.store`. -/
def pstore (h : Ref) (r : Nat) (v : V8) : Prog Ref :=
  if r % 4 = 0 then pputList [v.x0, v.x1, v.x2, v.x3, v.x4, v.x5, v.x6, v.x7] h (r / 4) else .fail .oob

/-- `vmovdqu [r], xmm`, see `Avx.store128`. -/
def pstore128 (h : Ref) (r : Nat) (v : V8) : Prog Ref :=
  if r % 4 = 0 then pputList [v.x0, v.x1, v.x2, v.x3] h (r / 4) else .fail .oob

/-- `vpmovsxdq ymm, [r]`, see `Avx.load_sxdq`. -/
def pload_sxdq (h : Ref) (r : Nat) : Prog V8 := do
  let x0 ← pmem32 h r 0
  let x1 ← pmem32 h r 1
  let x2 ← pmem32 h r 2
  let x3 ← pmem32 h r 3
  pure ⟨x0, sxHi x0, x1, sxHi x1, x2, sxHi x2, x3, sxHi x3⟩

/-- `vpmovsxwd ymm, [r]`, see `Avx.load_sxwd`. -/
def pload_sxwd (h : Ref) (r : Nat) : Prog V8 := do
  let x0 ← pmem16 h r 0
  let x1 ← pmem16 h r 1
  let x2 ← pmem16 h r 2
  let x3 ← pmem16 h r 3
  let x4 ← pmem16 h r 4
  let x5 ← pmem16 h r 5
  let x6 ← pmem16 h r 6
  let x7 ← pmem16 h r 7
  pure ⟨x0, x1, x2, x3, x4, x5, x6, x7⟩

/-- `vpmovsxwq ymm, [r]`, see `Avx.load_sxwq`. -/
def pload_sxwq (h : Ref) (r : Nat) : Prog V8 := do
  let x0 ← pmem16 h r 0
  let x1 ← pmem16 h r 1
  let x2 ← pmem16 h r 2
  let x3 ← pmem16 h r 3
  pure ⟨x0, sxHi x0, x1, sxHi x1, x2, sxHi x2, x3, sxHi x3⟩

/-- `vpmovsxwq xmm, [r]`, see `Avx.load_sxwq128`. -/
def pload_sxwq128 (h : Ref) (r : Nat) : Prog V8 := do
  let x0 ← pmem16 h r 0
  let x1 ← pmem16 h r 1
  pure ⟨x0, sxHi x0, x1, sxHi x1, 0, 0, 0, 0⟩

/-- `vpbroadcastw xmm, [r]`, see `Avx.load_bdcstw`. -/
def pload_bdcstw (h : Ref) (r : Nat) : Prog V8 := do
  let x ← pmem16 h r 0
  let d := toI32 ((toU32 x % 65536) * 65537)
  pure ⟨d, d, d, d, 0, 0, 0, 0⟩

/-- See `Avx.jloop`. -/
def pjloop {σ : Type} (body : σ → Prog (σ × Bool)) : Nat → σ → Prog σ
  | 0, _ => .fail .nonterm
  | fuel + 1, s => do
    let r ← body s
    if r.2 then pjloop body fuel r.1 else pure r.1

/-- The operations of the assembly functions on references. -/
def shared : Ops Prog Ref where
  load := pload
  load_sxdq := pload_sxdq
  load_sxwd := pload_sxwd
  load_sxwq := pload_sxwq
  load_sxwq128 := pload_sxwq128
  load_bdcstw := pload_bdcstw
  store := pstore
  store128 := pstore128
  jloop := pjloop
  branch := fun c _ x y => if c then x else y

end Shared
