import Verif.CSem

/-
Model of the table generators src/make_tables.c, src/make_red_tables.c and
src/make_bitrev_table.c.

The generators print C source text; the model returns the contents of the printed tables and
constants instead.  Not modelled: command-line parsing (`atol`, `argc`; the arguments are given
as integers), the text layout, files, failure of `malloc`.  The uninitialised buffer returned by
`malloc` is a parameter.  These programs are compiled without -DNDEBUG (src/Makefile:32-39), so
assertions are checked.
-/

namespace Tables
open C

/-- `power` (src/make_tables.c:30-44, same in src/make_red_tables.c:32-46): `x^k` modulo `q`. -/
def power (x k q : Nat) : M Nat := do
  cassert (decide (q > 0))
  let r ← cwhile (fun (st : Nat × Nat × Nat) => decide (st.2.2 ≠ 0)) (fun st => do
    let (x, y, k) := st
    let y ← (if k &&& 1 ≠ 0 then urem (u32 (y * x)) q else .ok y)
    let k := k / 2
    let x ← urem (u32 (x * x)) q
    pure (x, y, k)) 34 (x, 1, k)
  pure r.2.1

/-- Variables of the extended Euclid loop of `inverse`. -/
structure Euclid where
  r1 : Int
  r2 : Int
  u1 : Int
  u2 : Int
  v1 : Int
  v2 : Int

/-- Loop body of `inverse` (src/make_tables.c:57-64). -/
def inverseStep (x q : Nat) (s : Euclid) : M Euclid := do
  -- assert(r1 == (int32_t) x * u1 + (int32_t) q * v1)
  let a ← i32 (toI32 x * s.u1)
  let b ← i32 (toI32 q * s.v1)
  let c ← i32 (a + b)
  cassert (decide (s.r1 = c))
  -- assert(r2 == (int32_t) x * u2 + (int32_t) q * v2)
  let a ← i32 (toI32 x * s.u2)
  let b ← i32 (toI32 q * s.v2)
  let c ← i32 (a + b)
  cassert (decide (s.r2 = c))
  cassert (decide (s.r1 ≥ 0))
  let g ← cdiv s.r1 s.r2
  -- aux = r1; r1 = r2; r2 = aux - g * r2; and the same for u and v
  let m ← i32 (g * s.r2)
  let r ← i32 (s.r1 - m)
  let m ← i32 (g * s.u2)
  let u ← i32 (s.u1 - m)
  let m ← i32 (g * s.v2)
  let v ← i32 (s.v1 - m)
  pure { r1 := s.r2, r2 := r, u1 := s.u2, u2 := u, v1 := s.v2, v2 := v }

/-- `inverse` (src/make_tables.c:49-77, same in src/make_red_tables.c:51-79): `some` is the result
`true` with the value of `*inv_x`, `none` the result `false`. -/
def inverse (x q : Nat) : M (Option Nat) := do
  let s ← cwhile (fun (s : Euclid) => decide (s.r2 > 0)) (inverseStep x q) (q + 2)
    { r1 := toI32 x, r2 := toI32 q, u1 := 1, u2 := 0, v1 := 0, v2 := 1 }
  if s.r1 = 1 then do
    let u ← crem s.u1 (toI32 q)
    -- if (u1 < 0) u1 += q: uint32_t addition, converted back to int32_t
    let u := if u < 0 then toI32 (u32 (toU32 u + q) : Nat) else u
    let m ← i32 (toI32 x * u)
    let m ← crem m (toI32 q)
    cassert (decide (m = 1))
    pure (some (toU32 u))
  else pure none

/-- `logtwo` (src/make_tables.c:83-96, src/make_red_tables.c:85-98, src/make_bitrev_table.c:17-30):
`some k` is the result `true` with `*k = k`.  The loop does not terminate when `n = 0`. -/
def logtwo (n : Nat) : M (Option Nat) := do
  let r ← cwhile (fun (st : Nat × Nat) => decide (st.2 &&& 1 = 0))
    (fun st => pure (u32 (st.1 + 1), st.2 / 2)) 34 (0, n)
  if r.2 = 1 then pure (some r.1) else pure none

/-- `reverse` (src/make_tables.c:101-112, src/make_red_tables.c:103-114,
src/make_bitrev_table.c:35-46). -/
def reverse (i k : Nat) : M Nat := do
  let r ← forUp 0 k 1 (fun _ (st : Nat × Nat) => do
    let b := st.2 &&& 1
    pure (u32 (2 * st.1) ||| b, st.2 / 2)) (0, i)
  pure r.1

/-- `is_primitive_root` (src/make_tables.c:119-129, src/make_red_tables.c:133-143).
The loop with early return is a loop that stops working once the answer is known. -/
def is_primitive_root (x n q : Nat) : M Bool := do
  let found ← forUp 1 n 1 (fun i found => do
    if found then pure true
    else do
      let p ← power x i q
      pure (decide (p = 1))) false
  if found then pure false
  else do
    let p ← power x n q
    pure (decide (p = 1))

/-- `build_power_table` (src/make_tables.c:135-142, src/make_red_tables.c:171-178):
`a[i] = x * y^i mod q`. -/
def build_power_table (a : Array Nat) (n q x y : Nat) : M (Array Nat) := do
  let r ← forUp 0 n 1 (fun i (st : Nat × Array Nat) => do
    let a ← wr st.2 i st.1
    let x ← urem (u32 (st.1 * y)) q
    pure (x, a)) (x, a)
  pure r.2

/-- Inner loop of `build_table` (src/make_tables.c:158-163): state `(i, b, a)`. -/
def buildInner (n q t c : Nat) (st : Nat × Nat × Array Nat) : M (Nat × Nat × Array Nat) :=
  forUp 0 t 1 (fun j (st : Nat × Nat × Array Nat) => do
    let (i, b, a) := st
    cassert (decide (i = u32 (t + j)) && decide (i < n))
    let a ← wr a i b
    let i := u32 (i + 1)
    let b ← urem (u32 (b * c)) q
    pure (i, b, a)) st

/-- `build_table` (src/make_tables.c:150-166; `inv_k = none`) and its version with scaling factor
(src/make_red_tables.c:186-203; `inv_k = some _`, one more multiplication before the inner
loop). -/
def build_table (a : Array Nat) (n q x y : Nat) (inv_k : Option Nat) : M (Array Nat) := do
  let a ← wr a 0 0
  let r ← forShl 1 n (fun t (st : Nat × Array Nat) => do
    let e ← udiv n (u32 (2 * t))
    let b ← power x e q
    let c ← power y e q
    let b ← (match inv_k with
      | none => .ok b
      | some ik => urem (u32 (b * ik)) q)
    let r ← buildInner n q t c (st.1, b, st.2)
    pure (r.1, r.2.2)) (1, a)
  pure r.2

/-- Inner loop of `build_rev_table` (src/make_tables.c:183-188): state `(b, a)`. -/
def buildRevInner (q t k c : Nat) (st : Nat × Array Nat) : M (Nat × Array Nat) :=
  forUp 0 t 1 (fun j (st : Nat × Array Nat) => do
    let r ← reverse j k
    let i := u32 (t + r)
    cassert (decide (t ≤ i) && decide (i < u32 (2 * t)))
    let a ← wr st.2 i st.1
    let b ← urem (u32 (st.1 * c)) q
    pure (b, a)) st

/-- `build_rev_table` (src/make_tables.c:174-190; `inv_k = none`) and its version with scaling
factor (src/make_red_tables.c:211-228; `inv_k = some _`). -/
def build_rev_table (a : Array Nat) (n q x y : Nat) (inv_k : Option Nat) : M (Array Nat) := do
  let a ← wr a 0 0
  -- for (t=1, k=0; t<n; t <<= 1, k++)
  let r ← forShl 1 n (fun t (st : Nat × Array Nat) => do
    let e ← udiv n (u32 (2 * t))
    let b ← power x e q
    let c ← power y e q
    let b ← (match inv_k with
      | none => .ok b
      | some ik => urem (u32 (b * ik)) q)
    let r ← buildRevInner q t st.1 c (b, st.2)
    pure (u32 (st.1 + 1), r.2)) (0, a)
  pure r.2

/-- Value of an initialiser in an array of `uint16_t` (src/make_tables.c:200-204). -/
def printU16 (a : Array Nat) : Array Int := a.map (fun x => ((x % 65536 : Nat) : Int))

/-- The constants and tables written by `make_tables` (src/make_tables.c:248-337). -/
structure Nttables where
  n : Nat
  psi : Nat
  omega : Nat
  inv_psi : Nat
  inv_omega : Nat
  inv_n : Nat
  psi_powers : Array Int
  inv_psi_powers : Array Int
  inv_psi_powers_rev : Array Int
  scaled_inv_psi_powers : Array Int
  omega_powers : Array Int
  omega_powers_rev : Array Int
  inv_omega_powers : Array Int
  inv_omega_powers_rev : Array Int
  mixed_powers : Array Int
  mixed_powers_rev : Array Int
  inv_mixed_powers : Array Int
  inv_mixed_powers_rev : Array Int

/-- `print_tables` (src/make_tables.c:289-337): all tables are built in the same buffer. -/
def print_tables (buf : Array Nat) (q n inv_n psi phi inv_psi inv_phi : Nat) : M Nttables := do
  let t1 ← build_power_table buf n q 1 psi
  let t2 ← build_power_table t1 n q 1 inv_psi
  let t3 ← build_rev_table t2 n q 1 inv_psi none
  let t4 ← build_power_table t3 n q inv_n inv_psi
  let t5 ← build_table t4 n q 1 phi none
  let t6 ← build_rev_table t5 n q 1 phi none
  let t7 ← build_table t6 n q 1 inv_phi none
  let t8 ← build_rev_table t7 n q 1 inv_phi none
  let t9 ← build_table t8 n q psi phi none
  let t10 ← build_rev_table t9 n q psi phi none
  let t11 ← build_table t10 n q inv_psi inv_phi none
  let t12 ← build_rev_table t11 n q inv_psi inv_phi none
  pure
    { n := n, psi := psi, omega := phi, inv_psi := inv_psi, inv_omega := inv_phi, inv_n := inv_n
      psi_powers := printU16 t1, inv_psi_powers := printU16 t2
      inv_psi_powers_rev := printU16 t3, scaled_inv_psi_powers := printU16 t4
      omega_powers := printU16 t5, omega_powers_rev := printU16 t6
      inv_omega_powers := printU16 t7, inv_omega_powers_rev := printU16 t8
      mixed_powers := printU16 t9, mixed_powers_rev := printU16 t10
      inv_mixed_powers := printU16 t11, inv_mixed_powers_rev := printU16 t12 }

/-- Result of `inverse` in `main`: exit with an error message when there is no inverse
(src/make_tables.c:400-411). -/
def inverseOrExit (x q : Nat) : M Nat := do
  match ← inverse x q with
  | some y => .ok y
  | none => .error .abort

/-- Parameter checks at the start of `main` (src/make_tables.c:364-399,
src/make_red_tables.c:425-464): `xn` and `xpsi` are the values of the two command-line
arguments.  Returns `(n, psi, phi)`. -/
def checkArgs (q : Nat) (xn xpsi : Int) : M (Nat × Nat × Nat) := do
  if xn ≤ 1 then .error .abort
  else if xn ≥ 100000 then .error .abort
  else do
    let n := xn.toNat
    match ← logtwo n with
    | none => .error .abort
    | some _ =>
      if xpsi ≤ 1 ∨ xpsi ≥ q then .error .abort
      else do
        let psi := xpsi.toNat
        let i ← power psi n q
        if i ≠ q - 1 then .error .abort
        else do
          let phi ← urem (u32 (psi * psi)) q
          let b ← is_primitive_root phi n q
          cassert b
          pure (n, psi, phi)

/-- `main` of make_tables (src/make_tables.c:358-441): every `exit(EXIT_FAILURE)` is the error
`abort`. `buf n` is the buffer of size `n` returned by `malloc`. -/
def make_tables (buf : Nat → Array Nat) (xn xpsi : Int) : M Nttables := do
  let q := 12289
  let (n, psi, phi) ← checkArgs q xn xpsi
  let inv_psi ← inverseOrExit psi q
  let inv_phi ← inverseOrExit phi q
  let inv_n ← inverseOrExit n q
  print_tables (buf n) q n inv_n psi phi inv_psi inv_phi

/-! ### src/make_red_tables.c -/

/-- `find_k` (src/make_red_tables.c:119-127). -/
def find_k (q : Nat) : M Nat :=
  cwhile (fun x => decide (x &&& 1 = 0)) (fun x => pure (x / 2)) 34 (q - 1)

/-- `rescale_factor8` and `rescale_factor6` (src/make_red_tables.c:149-164), with exponent `e`
8 or 6. -/
def rescale_factor (e inv_n inv_k q : Nat) : M Nat := do
  let s ← power inv_k e q
  urem (u32 (s * inv_n)) q

/-- `shift` (src/make_red_tables.c:233-236): `x-q` is `uint32_t` arithmetic, converted to
`int32_t` by the return. -/
def shift (x q : Nat) : M Int := do
  cassert (decide (x < q))
  pure (if x ≤ q / 2 then (x : Int) else toI32 ((x : Int) - q))

/-- Value of an initialiser in an array of `int16_t`. -/
def toI16 (x : Int) : Int := (x + 32768) % 65536 - 32768

/-- `print_table` (src/make_red_tables.c:243-259): values written to a table of `int16_t`. -/
def printI16 (a : Array Nat) (n q : Nat) : M (Array Int) :=
  forUp 0 n 1 (fun i (r : Array Int) => do
    let x ← rd a i
    let y ← shift x q
    pure (r.push (toI16 y))) #[]

/-- The constants and tables written by `make_red_tables` (src/make_red_tables.c:298-398). -/
structure RedTables where
  n : Nat
  psi : Nat
  omega : Nat
  inv_psi : Nat
  inv_omega : Nat
  inv_n : Nat
  inv_k : Nat
  rescale8 : Nat
  rescale6 : Nat
  psi_powers : Array Int
  psi_powers_rev : Array Int
  inv_psi_powers : Array Int
  scaled_inv_psi_powers : Array Int
  scaled_inv_psi_powers_var : Array Int
  omega_powers : Array Int
  omega_powers_rev : Array Int
  inv_omega_powers : Array Int
  inv_omega_powers_rev : Array Int
  mixed_powers : Array Int
  mixed_powers_rev : Array Int
  inv_mixed_powers : Array Int
  inv_mixed_powers_rev : Array Int

/-- `print_declarations` and `print_tables` (src/make_red_tables.c:298-398). -/
def print_red_tables (buf : Array Nat) (q n inv_n psi phi inv_psi inv_phi inv_k : Nat) :
    M RedTables := do
  let r8 ← rescale_factor 8 inv_n inv_k q
  let r6 ← rescale_factor 6 inv_n inv_k q
  let t1 ← build_power_table buf n q inv_k psi
  let p1 ← printI16 t1 n q
  let t2 ← build_rev_table t1 n q 1 psi (some inv_k)
  let p2 ← printI16 t2 n q
  let t3 ← build_power_table t2 n q inv_k inv_psi
  let p3 ← printI16 t3 n q
  let t4 ← build_power_table t3 n q r8 inv_psi
  let p4 ← printI16 t4 n q
  let t5 ← build_power_table t4 n q r6 inv_psi
  let p5 ← printI16 t5 n q
  let t6 ← build_table t5 n q 1 phi (some inv_k)
  let p6 ← printI16 t6 n q
  let t7 ← build_rev_table t6 n q 1 phi (some inv_k)
  let p7 ← printI16 t7 n q
  let t8 ← build_table t7 n q 1 inv_phi (some inv_k)
  let p8 ← printI16 t8 n q
  let t9 ← build_rev_table t8 n q 1 inv_phi (some inv_k)
  let p9 ← printI16 t9 n q
  let t10 ← build_table t9 n q psi phi (some inv_k)
  let p10 ← printI16 t10 n q
  let t11 ← build_rev_table t10 n q psi phi (some inv_k)
  let p11 ← printI16 t11 n q
  let t12 ← build_table t11 n q inv_psi inv_phi (some inv_k)
  let p12 ← printI16 t12 n q
  let t13 ← build_rev_table t12 n q inv_psi inv_phi (some inv_k)
  let p13 ← printI16 t13 n q
  pure
    { n := n, psi := psi, omega := phi, inv_psi := inv_psi, inv_omega := inv_phi, inv_n := inv_n
      inv_k := inv_k, rescale8 := r8, rescale6 := r6
      psi_powers := p1, psi_powers_rev := p2, inv_psi_powers := p3
      scaled_inv_psi_powers := p4, scaled_inv_psi_powers_var := p5
      omega_powers := p6, omega_powers_rev := p7
      inv_omega_powers := p8, inv_omega_powers_rev := p9
      mixed_powers := p10, mixed_powers_rev := p11
      inv_mixed_powers := p12, inv_mixed_powers_rev := p13 }

/-- `main` of make_red_tables (src/make_red_tables.c:419-514). -/
def make_red_tables (buf : Nat → Array Nat) (xn xpsi : Int) : M RedTables := do
  let q := 12289
  let k ← find_k q
  if k = 0 ∨ k ≥ q then .error .abort
  else do
    let (n, psi, phi) ← checkArgs q xn xpsi
    let inv_psi ← inverseOrExit psi q
    let inv_phi ← inverseOrExit phi q
    let inv_n ← inverseOrExit n q
    let inv_k ← inverseOrExit k q
    print_red_tables (buf n) q n inv_n psi phi inv_psi inv_phi inv_k

/-! ### src/make_bitrev_table.c -/

/-- `rev_table_npairs` (src/make_bitrev_table.c:51-59). -/
def rev_table_npairs (n k : Nat) : M Nat :=
  forUp 0 n 1 (fun i c => do
    let r ← reverse i k
    pure (u32 (c + if i < r then 1 else 0))) 0

/-- `print_bitrev_table` (src/make_bitrev_table.c:66-86): the pairs printed. -/
def print_bitrev_table (n k : Nat) : M (Array (Nat × Nat)) :=
  forUp 0 n 1 (fun i (r : Array (Nat × Nat)) => do
    let j ← reverse i k
    if i < j then pure (r.push (i, j)) else pure r) #[]

/-- `main` of make_bitrev_table (src/make_bitrev_table.c:125-168): the number `BITREV<n>_NPAIRS`
and the contents of the table. -/
def make_bitrev_table (xn : Int) : M (Nat × Array (Nat × Nat)) := do
  if xn ≤ 1 then .error .abort
  else if xn ≥ 65535 then .error .abort
  else do
    let n := xn.toNat
    match ← logtwo n with
    | none => .error .abort
    | some log_n => do
      let m ← rev_table_npairs n log_n
      let t ← print_bitrev_table n log_n
      pure (m, t)

end Tables
