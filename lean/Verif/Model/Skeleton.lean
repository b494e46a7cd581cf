import Verif.CSem

/-
Loop structure of the NTT functions.

`src/ntt.c`, `src/ntt_red.c`, `src/naive_ntt.c` and `src/ntt_red_interval.c` contain the same
loop nests; only the butterfly (the three statements in the innermost loop) and the type of the
array and table elements differ.  Each loop nest is written once here, with the butterfly as a
parameter: `bf0 s k a` is the butterfly of the loops without multiplication on the pair of
indices `(s,k)`, `bf w s k a` the butterfly with twiddle factor `w` read from table `p`.
The models of the individual functions (in `Verif/Model/Ntt.lean` etc.) are instances.

All index arithmetic is `uint32_t` arithmetic (wrapping, `C.u32`).
-/

namespace NTT
open C

variable {α τ : Type}

/-- Body of one iteration of the outer loop of `ntt_ct_rev2std` and `ntt_gs_std2rev`
(variants without psi), for a given `t`:
src/ntt.c:226-241 and 477-491 (`ntt_ct_rev2std`, `ntt_gs_std2rev`), src/ntt_red.c:254-268 and
505-519, src/naive_ntt.c:135-150 and 388-403. -/
def roundA (bf0 : Nat → Nat → Array α → M (Array α))
    (bf : τ → Nat → Nat → Array α → M (Array α))
    (n : Nat) (p : Array τ) (t : Nat) (a : Array α) : M (Array α) := do
  -- first loop: for (s=0; s<n; s += t + t)
  let a ← forUp 0 n (u32 (t + t)) (fun s a => bf0 s (u32 (s + t)) a) a
  -- general case: for (j=1; j<t; j++)
  forUp 1 t 1 (fun j a => do
    let w ← rd p (u32 (t + j))
    -- for (s=j; s<n; s += t + t)
    forUp j n (u32 (t + t)) (fun s a => bf w s (u32 (s + t)) a) a) a

/-- Body of one iteration of the outer loop of `mulntt_ct_rev2std` and `nttmul_gs_std2rev`
(variants with psi: `j` starts at 0):
src/ntt.c:268-276 and 516-523, src/ntt_red.c:295-302 and 545-552,
src/naive_ntt.c:177-185 and 428-436. -/
def roundAMul (bf : τ → Nat → Nat → Array α → M (Array α))
    (n : Nat) (p : Array τ) (t : Nat) (a : Array α) : M (Array α) :=
  forUp 0 t 1 (fun j a => do
    let w ← rd p (u32 (t + j))
    forUp j n (u32 (t + t)) (fun s a => bf w s (u32 (s + t)) a) a) a

/-- Body of one iteration of the outer loop of `ntt_ct_std2rev`, after `d >>= 1`; `u` is
incremented before the inner loop: src/ntt.c:312-327, src/ntt_red.c:338-353,
src/naive_ntt.c:221-236. -/
def roundBCt (bf0 : Nat → Nat → Array α → M (Array α))
    (bf : τ → Nat → Nat → Array α → M (Array α))
    (p : Array τ) (t d : Nat) (a : Array α) : M (Array α) := do
  -- for (s=0; s<d; s ++)
  let a ← forUp 0 d 1 (fun s a => bf0 s (u32 (s + d)) a) a
  -- u = 0; for (j=1; j<t; j++)
  let r ← forUp 1 t 1 (fun j (st : Nat × Array α) => do
    let w ← rd p (u32 (t + j))
    let u := u32 (st.1 + u32 (2 * d))
    let a ← forUp u (u32 (u + d)) 1 (fun s a => bf w s (u32 (s + d)) a) st.2
    pure (u, a)) (0, a)
  pure r.2

/-- Body of one iteration of the outer loop of `ntt_gs_rev2std`, after `t >>= 1`; `u` starts at
`2*d` and is incremented after the inner loop: src/ntt.c:400-414, src/ntt_red.c:427-441,
src/naive_ntt.c:309-324. -/
def roundBGs (bf0 : Nat → Nat → Array α → M (Array α))
    (bf : τ → Nat → Nat → Array α → M (Array α))
    (p : Array τ) (t d : Nat) (a : Array α) : M (Array α) := do
  let a ← forUp 0 d 1 (fun s a => bf0 s (u32 (s + d)) a) a
  -- for (j=1, u=2*d; j<t; j++, u += 2*d)
  let r ← forUp 1 t 1 (fun j (st : Nat × Array α) => do
    let w ← rd p (u32 (t + j))
    let a ← forUp st.1 (u32 (st.1 + d)) 1 (fun s a => bf w s (u32 (s + d)) a) st.2
    pure (u32 (st.1 + u32 (2 * d)), a)) (u32 (2 * d), a)
  pure r.2

/-- Body of one iteration of the outer loop of `mulntt_ct_std2rev` (after `d >>= 1`) and
`nttmul_gs_rev2std` (after `t >>= 1`): src/ntt.c:362-369 and 442-449,
src/ntt_red.c:388-395 and 470-477, src/naive_ntt.c:271-278 and 352-360. -/
def roundBMul (bf : τ → Nat → Nat → Array α → M (Array α))
    (p : Array τ) (t d : Nat) (a : Array α) : M (Array α) := do
  -- for (j=0, u=0; j<t; j++, u += 2*d)
  let r ← forUp 0 t 1 (fun j (st : Nat × Array α) => do
    let w ← rd p (u32 (t + j))
    let a ← forUp st.1 (u32 (st.1 + d)) 1 (fun s a => bf w s (u32 (s + d)) a) st.2
    pure (u32 (st.1 + u32 (2 * d)), a)) (0, a)
  pure r.2

/-- `for (t=1; t<n; t <<= 1)` with body `roundA`: `ntt_ct_rev2std` (src/ntt.c:216-243,
src/ntt_red.c:244-270, src/naive_ntt.c:125-152). -/
def ctRev2std (bf0 : Nat → Nat → Array α → M (Array α))
    (bf : τ → Nat → Nat → Array α → M (Array α))
    (a : Array α) (n : Nat) (p : Array τ) : M (Array α) :=
  forShl 1 n (fun t a => roundA bf0 bf n p t a) a

/-- `mulntt_ct_rev2std` (src/ntt.c:253-278, src/ntt_red.c:280-304, src/naive_ntt.c:162-187). -/
def mulCtRev2std (bf : τ → Nat → Nat → Array α → M (Array α))
    (a : Array α) (n : Nat) (p : Array τ) : M (Array α) :=
  forShl 1 n (fun t a => roundAMul bf n p t a) a

/-- `ntt_ct_std2rev` (src/ntt.c:295-329, src/ntt_red.c:321-355, src/naive_ntt.c:204-238):
`d = n; for (t=1; t<n; t <<= 1) { d >>= 1; ... }`. -/
def ctStd2rev (bf0 : Nat → Nat → Array α → M (Array α))
    (bf : τ → Nat → Nat → Array α → M (Array α))
    (a : Array α) (n : Nat) (p : Array τ) : M (Array α) := do
  let r ← forShl 1 n (fun t (st : Nat × Array α) => do
    let d := st.1 / 2
    let a ← roundBCt bf0 bf p t d st.2
    pure (d, a)) (n, a)
  pure r.2

/-- `mulntt_ct_std2rev` (src/ntt.c:342-371, src/ntt_red.c:368-397, src/naive_ntt.c:251-280). -/
def mulCtStd2rev (bf : τ → Nat → Nat → Array α → M (Array α))
    (a : Array α) (n : Nat) (p : Array τ) : M (Array α) := do
  let r ← forShl 1 n (fun t (st : Nat × Array α) => do
    let d := st.1 / 2
    let a ← roundBMul bf p t d st.2
    pure (d, a)) (n, a)
  pure r.2

/-- `ntt_gs_rev2std` (src/ntt.c:387-416, src/ntt_red.c:414-443, src/naive_ntt.c:296-326):
`t = n; for (d=1; d<n; d<<=1) { t >>= 1; ... }`. -/
def gsRev2std (bf0 : Nat → Nat → Array α → M (Array α))
    (bf : τ → Nat → Nat → Array α → M (Array α))
    (a : Array α) (n : Nat) (p : Array τ) : M (Array α) := do
  let r ← forShl 1 n (fun d (st : Nat × Array α) => do
    let t := st.1 / 2
    let a ← roundBGs bf0 bf p t d st.2
    pure (t, a)) (n, a)
  pure r.2

/-- `nttmul_gs_rev2std` (src/ntt.c:428-451, src/ntt_red.c:456-479, src/naive_ntt.c:338-362). -/
def gsMulRev2std (bf : τ → Nat → Nat → Array α → M (Array α))
    (a : Array α) (n : Nat) (p : Array τ) : M (Array α) := do
  let r ← forShl 1 n (fun d (st : Nat × Array α) => do
    let t := st.1 / 2
    let a ← roundBMul bf p t d st.2
    pure (t, a)) (n, a)
  pure r.2

/-- `ntt_gs_std2rev` (src/ntt.c:467-493, src/ntt_red.c:495-521, src/naive_ntt.c:378-405):
`for (t = n>>1; t > 0; t >>= 1)`. -/
def gsStd2rev (bf0 : Nat → Nat → Array α → M (Array α))
    (bf : τ → Nat → Nat → Array α → M (Array α))
    (a : Array α) (n : Nat) (p : Array τ) : M (Array α) :=
  forShr (n / 2) (fun t a => roundA bf0 bf n p t a) a

/-- `nttmul_gs_std2rev` (src/ntt.c:505-525, src/ntt_red.c:534-554, src/naive_ntt.c:417-438). -/
def gsMulStd2rev (bf : τ → Nat → Nat → Array α → M (Array α))
    (a : Array α) (n : Nat) (p : Array τ) : M (Array α) :=
  forShr (n / 2) (fun t a => roundAMul bf n p t a) a

/-- `ntt_ct_rev2std_v1` (src/ntt.c:168-197): the table is `p[i] = psi^i` and the twiddle of round
`t` is read at `p[j*l]`, where `l` starts at `n` and is halved with each round. -/
def ctRev2stdV1 (bf0 : Nat → Nat → Array α → M (Array α))
    (bf : τ → Nat → Nat → Array α → M (Array α))
    (a : Array α) (n : Nat) (p : Array τ) : M (Array α) := do
  -- for (t=1, l = n; t<n; t <<= 1, l >>= 1)
  let r ← forShl 1 n (fun t (st : Nat × Array α) => do
    let l := st.1
    let a ← forUp 0 n (u32 (t + t)) (fun s a => bf0 s (u32 (s + t)) a) st.2
    let a ← forUp 1 t 1 (fun j a => do
      let w ← rd p (u32 (j * l))
      forUp j n (u32 (t + t)) (fun s a => bf w s (u32 (s + t)) a) a) a
    pure (l / 2, a)) (n, a)
  pure r.2

end NTT
