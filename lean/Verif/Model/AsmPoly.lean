import Verif.TraceAsm
import Verif.Model.NttAsm

/-
The functions of src/ntt_asm.S over the operations of `Verif/TraceAsm.lean`.

Generated by tools/genasmtrace.py from `Verif/Model/NttAsm.lean`: the same lines, with loads, stores, loops and
branches replaced by those of `O`, and every other instruction written `let x ← pure ...`.  For the operations
`plain` the functions are those of `Verif/Model/NttAsm.lean` (`plain_eq` in `Verif/Proofs/AsmPoly.lean`).
-/

namespace AsmPoly
open C Avx TraceAsm

variable {m : Type → Type} [Monad m] {A : Type} (O : Ops m A)

/-- Loop `loop0`, src/ntt_asm.S:137-159. -/
def loop0 (rsi : Nat) (ymm3 : V8) (s : A × Nat) : m ((A × Nat) × Bool) := do
  -- the state
  let a ← pure s.1
  let rax ← pure (s.2 : Nat)
  let ymm0 ← O.load a rax
  let ymm1 ← O.load a (rax + 32)
  let ymm0 ← pure (Asm.loop0_blk_1 ymm0 ymm3)
  let a ← O.store a rax ymm0
  let ymm1 ← pure (Asm.loop0_blk_2 ymm1 ymm3)
  let a ← O.store a (rax + 32) ymm1
  let rax ← pure (rax + 64 : Nat)
  pure ((a, rax), decide (rax < rsi))

/-- `reduce_array_asm`, src/ntt_asm.S:130-160. -/
def reduce_array_asm (a : A) (n : Nat) : m (A) := do
  let rdi ← pure (0 : Nat)
  let rsi ← pure (n : Nat)
  let ymm3 ← pure (Asm.mask)
  let rax ← pure (rdi : Nat)
  let rsi ← pure (rdi + 4 * rsi : Nat)
  let st ← O.jloop (loop0 O rsi ymm3) n (a, rax)
  let a ← pure st.1
  pure a

/-- Loop `loop0b`, src/ntt_asm.S:173-186. -/
def loop0b (rsi : Nat) (ymm3 : V8) (s : A × Nat) : m ((A × Nat) × Bool) := do
  -- the state
  let a ← pure s.1
  let rax ← pure (s.2 : Nat)
  let ymm0 ← O.load a rax
  let ymm0 ← pure (Asm.loop0b_blk_1 ymm0 ymm3)
  let a ← O.store a rax ymm0
  let rax ← pure (rax + 32 : Nat)
  pure ((a, rax), decide (rax < rsi))

/-- `reduce_array_asm2`, src/ntt_asm.S:166-187. -/
def reduce_array_asm2 (a : A) (n : Nat) : m (A) := do
  let rdi ← pure (0 : Nat)
  let rsi ← pure (n : Nat)
  let ymm3 ← pure (Asm.mask)
  let rax ← pure (rdi : Nat)
  let rsi ← pure (rdi + 4 * rsi : Nat)
  let st ← O.jloop (loop0b O rsi ymm3) n (a, rax)
  let a ← pure st.1
  pure a

/-- Loop `loop1`, src/ntt_asm.S:206-242. -/
def loop1 (rsi : Nat) (ymm3 : V8) (s : A × Nat) : m ((A × Nat) × Bool) := do
  -- the state
  let a ← pure s.1
  let rax ← pure (s.2 : Nat)
  let ymm0 ← O.load a rax
  let ymm1 ← O.load a (rax + 32)
  let ymm0 ← pure (Asm.loop1_blk_1 ymm0 ymm3)
  let a ← O.store a rax ymm0
  let ymm1 ← pure (Asm.loop1_blk_2 ymm1 ymm3)
  let a ← O.store a (rax + 32) ymm1
  let rax ← pure (rax + 64 : Nat)
  pure ((a, rax), decide (rax < rsi))

/-- `reduce_array_twice_asm`, src/ntt_asm.S:199-243. -/
def reduce_array_twice_asm (a : A) (n : Nat) : m (A) := do
  let rdi ← pure (0 : Nat)
  let rsi ← pure (n : Nat)
  let ymm3 ← pure (Asm.mask)
  let rax ← pure (rdi : Nat)
  let rsi ← pure (rdi + 4 * rsi : Nat)
  let st ← O.jloop (loop1 O rsi ymm3) n (a, rax)
  let a ← pure st.1
  pure a

/-- Loop `loop1b`, src/ntt_asm.S:256-276. -/
def loop1b (rsi : Nat) (ymm3 : V8) (s : A × Nat) : m ((A × Nat) × Bool) := do
  -- the state
  let a ← pure s.1
  let rax ← pure (s.2 : Nat)
  let ymm0 ← O.load a rax
  let ymm0 ← pure (Asm.loop1b_blk_1 ymm0 ymm3)
  let a ← O.store a rax ymm0
  let rax ← pure (rax + 32 : Nat)
  pure ((a, rax), decide (rax < rsi))

/-- `reduce_array_twice_asm2`, src/ntt_asm.S:249-277. -/
def reduce_array_twice_asm2 (a : A) (n : Nat) : m (A) := do
  let rdi ← pure (0 : Nat)
  let rsi ← pure (n : Nat)
  let ymm3 ← pure (Asm.mask)
  let rax ← pure (rdi : Nat)
  let rsi ← pure (rdi + 4 * rsi : Nat)
  let st ← O.jloop (loop1b O rsi ymm3) n (a, rax)
  let a ← pure st.1
  pure a

/-- Loop `loop2`, src/ntt_asm.S:299-323. -/
def loop2 (rsi : Nat) (ymm3 : V8) (ymm4 : V8) (s : A × Nat) : m ((A × Nat) × Bool) := do
  -- the state
  let a ← pure s.1
  let rax ← pure (s.2 : Nat)
  let ymm0 ← O.load a rax
  let ymm1 ← O.load a (rax + 32)
  let ymm0 ← pure (Asm.loop2_blk_1 ymm0 ymm3 ymm4)
  let a ← O.store a rax ymm0
  let ymm1 ← pure (Asm.loop2_blk_2 ymm1 ymm3 ymm4)
  let a ← O.store a (rax + 32) ymm1
  let rax ← pure (rax + 64 : Nat)
  pure ((a, rax), decide (rax < rsi))

/-- `correct_asm`, src/ntt_asm.S:291-324. -/
def correct_asm (a : A) (n : Nat) : m (A) := do
  let rdi ← pure (0 : Nat)
  let rsi ← pure (n : Nat)
  let ymm3 ← pure (Asm.q_x8)
  let ymm4 ← pure (Asm.q_minus1_x8)
  let rax ← pure (rdi : Nat)
  let rsi ← pure (rdi + 4 * rsi : Nat)
  let st ← O.jloop (loop2 O rsi ymm3 ymm4) n (a, rax)
  let a ← pure st.1
  pure a

/-- Loop `loop_shift`, src/ntt_asm.S:345-363. -/
def loop_shift (rsi : Nat) (ymm3 : V8) (ymm4 : V8) (s : A × Nat) : m ((A × Nat) × Bool) := do
  -- the state
  let a ← pure s.1
  let rax ← pure (s.2 : Nat)
  let ymm0 ← O.load a rax
  let ymm1 ← O.load a (rax + 32)
  let ymm0 ← pure (Asm.loop_shift_blk_1 ymm0 ymm3 ymm4)
  let a ← O.store a rax ymm0
  let ymm1 ← pure (Asm.loop_shift_blk_2 ymm1 ymm3 ymm4)
  let a ← O.store a (rax + 32) ymm1
  let rax ← pure (rax + 64 : Nat)
  pure ((a, rax), decide (rax < rsi))

/-- `shift_array_asm`, src/ntt_asm.S:337-364. -/
def shift_array_asm (a : A) (n : Nat) : m (A) := do
  let rdi ← pure (0 : Nat)
  let rsi ← pure (n : Nat)
  let ymm3 ← pure (Asm.q_x8)
  let ymm4 ← pure (Asm.half_q_x8)
  let rax ← pure (rdi : Nat)
  let rsi ← pure (rdi + 4 * rsi : Nat)
  let st ← O.jloop (loop_shift O rsi ymm3 ymm4) n (a, rax)
  let a ← pure st.1
  pure a

/-- Loop `loop3`, src/ntt_asm.S:417-445. -/
def loop3 (p : A) (rsi : Nat) (ymm4 : V8) (s : A × Nat × Nat) : m ((A × Nat × Nat) × Bool) := do
  -- the state
  let a ← pure s.1
  let rax ← pure (s.2.1 : Nat)
  let rdx ← pure (s.2.2 : Nat)
  let ymm0 ← O.load a rax
  let ymm1 ← O.load_sxwd p rdx
  let ymm0 ← pure (Asm.loop3_blk_1 ymm0 ymm1 ymm4)
  let a ← O.store a rax ymm0
  let rax ← pure (rax + 32 : Nat)
  let rdx ← pure (rdx + 16 : Nat)
  pure ((a, rax, rdx), decide (rax < rsi))

/-- `mul_reduce_array16_asm`, src/ntt_asm.S:410-446. -/
def mul_reduce_array16_asm (a : A) (n : Nat) (p : A) : m (A) := do
  let rdi ← pure (0 : Nat)
  let rsi ← pure (n : Nat)
  let rdx ← pure (0 : Nat)
  let ymm4 ← pure (Asm.mask)
  let rax ← pure (rdi : Nat)
  let rsi ← pure (rdi + 4 * rsi : Nat)
  let st ← O.jloop (loop3 O p rsi ymm4) n (a, rax, rdx)
  let a ← pure st.1
  pure a

/-- Loop `loop4`, src/ntt_asm.S:459-477. -/
def loop4 (p : A) (rsi : Nat) (ymm5 : V8) (ymm6 : V8) (s : A × Nat × Nat) : m ((A × Nat × Nat) × Bool) := do
  -- the state
  let a ← pure s.1
  let rax ← pure (s.2.1 : Nat)
  let rdx ← pure (s.2.2 : Nat)
  let ymm0 ← O.load_sxdq a rax
  let ymm1 ← O.load_sxwq p rdx
  let ymm0 ← pure (Asm.loop4_blk_1 ymm0 ymm1 ymm5 ymm6)
  let a ← O.store128 a rax ymm0
  let rax ← pure (rax + 16 : Nat)
  let rdx ← pure (rdx + 8 : Nat)
  pure ((a, rax, rdx), decide (rax < rsi))

/-- `mul_reduce_array16_asm2`, src/ntt_asm.S:451-479. -/
def mul_reduce_array16_asm2 (a : A) (n : Nat) (p : A) : m (A) := do
  let rdi ← pure (0 : Nat)
  let rsi ← pure (n : Nat)
  let rdx ← pure (0 : Nat)
  let ymm5 ← pure (Asm.perm0246)
  let ymm6 ← pure (Asm.mask)
  let rax ← pure (rdi : Nat)
  let rsi ← pure (rdi + 4 * rsi : Nat)
  let st ← O.jloop (loop4 O p rsi ymm5 ymm6) n (a, rax, rdx)
  let a ← pure st.1
  pure a

/-- Loop `loop5`, src/ntt_asm.S:502-531; `b` and `c` are the arrays at `rdx` and `rcx`. -/
def loop5 (b : A) (c : A) (rsi : Nat) (ymm4 : V8) (s : A × Nat × Nat × Nat) : m ((A × Nat × Nat × Nat) × Bool) := do
  -- the state
  let a ← pure s.1
  let rax ← pure (s.2.1 : Nat)
  let rdx ← pure (s.2.2.1 : Nat)
  let rcx ← pure (s.2.2.2 : Nat)
  let ymm0 ← O.load b rdx
  let ymm1 ← O.load c rcx
  let ymm0 ← pure (Asm.loop5_blk_1 ymm0 ymm1 ymm4)
  let a ← O.store a rax ymm0
  let rax ← pure (rax + 32 : Nat)
  let rdx ← pure (rdx + 32 : Nat)
  let rcx ← pure (rcx + 32 : Nat)
  pure ((a, rax, rdx, rcx), decide (rax < rsi))

/-- `mul_reduce_array_asm`, src/ntt_asm.S:495-532, for `a` distinct from `b` and `c`. -/
def mul_reduce_array_asm (a : A) (n : Nat) (b : A) (c : A) : m (A) := do
  let rdi ← pure (0 : Nat)
  let rsi ← pure (n : Nat)
  let rdx ← pure (0 : Nat)
  let rcx ← pure (0 : Nat)
  let ymm4 ← pure (Asm.mask)
  let rax ← pure (rdi : Nat)
  let rsi ← pure (rdi + 4 * rsi : Nat)
  let st ← O.jloop (loop5 O b c rsi ymm4) n (a, rax, rdx, rcx)
  let a ← pure st.1
  pure a

/-- Loop `loop6`, src/ntt_asm.S:554-579. -/
def loop6 (rsi : Nat) (ymm1 : V8) (ymm4 : V8) (s : A × Nat) : m ((A × Nat) × Bool) := do
  -- the state
  let a ← pure s.1
  let rax ← pure (s.2 : Nat)
  let ymm0 ← O.load a rax
  let ymm0 ← pure (Asm.loop6_blk_1 ymm0 ymm1 ymm4)
  let a ← O.store a rax ymm0
  let rax ← pure (rax + 32 : Nat)
  pure ((a, rax), decide (rax < rsi))

/-- `scalar_mul_reduce_array_asm`, src/ntt_asm.S:545-580.  `rdx` is the whole 64-bit register, whose
lower half is the `int32_t` argument `c`; the upper half is not specified by the ABI. -/
def scalar_mul_reduce_array_asm (a : A) (n : Nat) (rdx : Int) : m (A) := do
  let rdi ← pure (0 : Nat)
  let rsi ← pure (n : Nat)
  let ymm4 ← pure (Asm.mask)
  let rax ← pure (rdi : Nat)
  let rsi ← pure (rdi + 4 * rsi : Nat)
  let ymm0 ← pure (vmovd rdx)
  let ymm1 ← pure (Asm.scalar_mul_reduce_array_asm_blk_1 ymm0)
  let st ← O.jloop (loop6 O rsi ymm1 ymm4) n (a, rax)
  let a ← pure st.1
  pure a

/-- Loop `ct_r2s_size8_loop`, src/ntt_asm.S:683-728. -/
def ct_r2s_size8_loop (rsi : Nat) (ymm4 : V8) (ymm5 : V8) (ymm6 : V8) (s : A × Nat) : m ((A × Nat) × Bool) := do
  -- the state
  let a ← pure s.1
  let rax ← pure (s.2 : Nat)
  let ymm0 ← O.load a rax
  let ymm0 ← pure (Asm.ct_r2s_size8_loop_blk_1 ymm0 ymm4 ymm5 ymm6)
  let a ← O.store a rax ymm0
  let rax ← pure (rax + 32 : Nat)
  pure ((a, rax), decide (rax < rsi))

/-- Loop `ct_r2s_size16_loop`, src/ntt_asm.S:737-769. -/
def ct_r2s_size16_loop (rsi : Nat) (ymm4 : V8) (ymm5 : V8) (ymm6 : V8) (s : A × Nat) : m ((A × Nat) × Bool) := do
  -- the state
  let a ← pure s.1
  let rax ← pure (s.2 : Nat)
  let ymm0 ← O.load a rax
  let ymm1 ← O.load a (rax + 32)
  let t ← pure (Asm.ct_r2s_size16_loop_blk_1 ymm0 ymm1 ymm4 ymm5 ymm6)
  let ymm2 ← pure (t.1)
  let ymm3 ← pure (t.2)
  let a ← O.store a rax ymm2
  let a ← O.store a (rax + 32) ymm3
  let rax ← pure (rax + 64 : Nat)
  pure ((a, rax), decide (rax < rsi))

/-- Loop `ct_r2s_inner_loop`, src/ntt_asm.S:796-827. -/
def ct_r2s_inner_loop (p : A) (r8 : Nat) (ymm4 : V8) (s : A × Nat × Nat × Nat) : m ((A × Nat × Nat × Nat) × Bool) := do
  -- the state
  let a ← pure s.1
  let rax ← pure (s.2.1 : Nat)
  let rcx ← pure (s.2.2.1 : Nat)
  let rdx ← pure (s.2.2.2 : Nat)
  let ymm0 ← O.load a rax
  let ymm1 ← O.load a rcx
  let ymm6 ← O.load_sxwd p rdx
  let t ← pure (Asm.ct_r2s_inner_loop_blk_1 ymm0 ymm1 ymm4 ymm6)
  let ymm2 ← pure (t.1)
  let ymm3 ← pure (t.2)
  let a ← O.store a rax ymm2
  let a ← O.store a rcx ymm3
  let rdx ← pure (rdx + 16 : Nat)
  let rax ← pure (rax + 32 : Nat)
  let rcx ← pure (rcx + 32 : Nat)
  pure ((a, rax, rcx, rdx), decide (rcx < r8))

/-- Loop `ct_r2s_loop_aux1`, src/ntt_asm.S:785-832. -/
def ct_r2s_loop_aux1 (p : A) (n : Nat) (rsi : Nat) (r10 : Nat) (r11 : Nat) (ymm4 : V8) (s : A × Nat) : m ((A × Nat) × Bool) := do
  -- the state
  let a ← pure s.1
  let rax ← pure (s.2 : Nat)
  let rcx ← pure (rax + 2 * r10 : Nat)
  let r8 ← pure (rax + 4 * r10 : Nat)
  let rdx ← pure (r11 : Nat)
  let st ← O.jloop (ct_r2s_inner_loop O p r8 ymm4) n (a, rax, rcx, rdx)
  let a ← pure st.1
  let rax ← pure (r8 : Nat)
  pure ((a, rax), decide (rax < rsi))

/-- Loop `ct_r2s_size32_loop`, src/ntt_asm.S:782-839. -/
def ct_r2s_size32_loop (p : A) (n : Nat) (rdi : Nat) (rsi : Nat) (r9 : Nat) (ymm4 : V8) (s : A × Nat × Nat) : m ((A × Nat × Nat) × Bool) := do
  -- the state
  let a ← pure s.1
  let r10 ← pure (s.2.1 : Nat)
  let r11 ← pure (s.2.2 : Nat)
  let rax ← pure (rdi : Nat)
  let st ← O.jloop (ct_r2s_loop_aux1 O p n rsi r10 r11 ymm4) n (a, rax)
  let a ← pure st.1
  let r11 ← pure (r11 + r10 : Nat)
  let r10 ← pure (2 * r10 : Nat)
  pure ((a, r10, r11), decide (r10 ≤ r9))

/-- From `ct_r2s_size16_loop` to the end, src/ntt_asm.S:737-842. -/
def ct_r2s_tail (p : A) (n : Nat) (rdi : Nat) (rsi : Nat) (rdx : Nat) (r9 : Nat) (ymm4 : V8) (ymm5 : V8) (ymm6 : V8) (a : A) (rax : Nat) : m (A) := do
  let st ← O.jloop (ct_r2s_size16_loop O rsi ymm4 ymm5 ymm6) n (a, rax)
  let a ← pure st.1
  O.branch (r9 ≤ 16)
    (do
      pure a)
    (do
      let r10 ← pure (32 : Nat)
      let r11 ← pure (rdx + 32 : Nat)
      let st ← O.jloop (ct_r2s_size32_loop O p n rdi rsi r9 ymm4) n (a, r10, r11)
      let a ← pure st.1
      pure a)

/-- `ntt_red_ct_rev2std_asm`, src/ntt_asm.S:665-842. -/
def ntt_red_ct_rev2std_asm (a : A) (n : Nat) (p : A) : m (A) := do
  let rdi ← pure (0 : Nat)
  let rsi ← pure (n : Nat)
  let rdx ← pure (0 : Nat)
  let rax ← pure (rdi : Nat)
  let r9 ← pure (rsi : Nat)
  let rsi ← pure (rdi + 4 * rsi : Nat)
  let ymm4 ← O.load_sxwd p rdx
  let ymm5 ← pure (Asm.perm5)
  let ymm5 ← pure (Asm.ntt_red_ct_rev2std_asm_blk_1 ymm4 ymm5)
  let ymm6 ← pure (Asm.perm4)
  let ymm6 ← pure (Asm.ntt_red_ct_rev2std_asm_blk_2 ymm4 ymm6)
  let ymm4 ← pure (Asm.mask)
  let st ← O.jloop (ct_r2s_size8_loop O rsi ymm4 ymm5 ymm6) n (a, rax)
  let a ← pure st.1
  let rax ← pure (rdi : Nat)
  let ymm6 ← O.load_sxwd p (rdx + 16)
  let ymm5 ← pure (Asm.ntt_red_ct_rev2std_asm_2_blk_1 ymm6)
  ct_r2s_tail O p n rdi rsi rdx r9 ymm4 ymm5 ymm6 a rax

/-- Loop `mct_r2s_size8_loop2`, src/ntt_asm.S:884-936. -/
def mct_r2s_size8_loop2 (rsi : Nat) (ymm4 : V8) (ymm5 : V8) (ymm6 : V8) (ymm7 : V8) (s : A × Nat) : m ((A × Nat) × Bool) := do
  -- the state
  let a ← pure s.1
  let rax ← pure (s.2 : Nat)
  let ymm0 ← O.load a rax
  let ymm0 ← pure (Asm.mct_r2s_size8_loop2_blk_1 ymm0 ymm4 ymm5 ymm6 ymm7)
  let a ← O.store a rax ymm0
  let rax ← pure (rax + 32 : Nat)
  pure ((a, rax), decide (rax < rsi))

/-- `mulntt_red_ct_rev2std_asm`, src/ntt_asm.S:864-945. -/
def mulntt_red_ct_rev2std_asm (a : A) (n : Nat) (p : A) : m (A) := do
  let rdi ← pure (0 : Nat)
  let rsi ← pure (n : Nat)
  let rdx ← pure (0 : Nat)
  let rax ← pure (rdi : Nat)
  let r9 ← pure (rsi : Nat)
  let rsi ← pure (rdi + 4 * rsi : Nat)
  let ymm4 ← O.load_sxwd p rdx
  let ymm5 ← pure (Asm.perm5)
  let ymm5 ← pure (Asm.mulntt_red_ct_rev2std_asm_blk_1 ymm4 ymm5)
  let ymm6 ← pure (Asm.perm4)
  let ymm6 ← pure (Asm.mulntt_red_ct_rev2std_asm_blk_2 ymm4 ymm6)
  let ymm7 ← pure (Asm.perm3)
  let ymm7 ← pure (Asm.mulntt_red_ct_rev2std_asm_blk_3 ymm4 ymm7)
  let ymm4 ← pure (Asm.mask)
  let st ← O.jloop (mct_r2s_size8_loop2 O rsi ymm4 ymm5 ymm6 ymm7) n (a, rax)
  let a ← pure st.1
  let rax ← pure (rdi : Nat)
  let ymm6 ← O.load_sxwd p (rdx + 16)
  let ymm5 ← pure (Asm.mulntt_red_ct_rev2std_asm_2_blk_1 ymm6)
  ct_r2s_tail O p n rdi rsi rdx r9 ymm4 ymm5 ymm6 a rax

/-- Loop `ct_s2r_loop1`, src/ntt_asm.S:981-991. -/
def ct_s2r_loop1 (r8 : Nat) (s : A × Nat × Nat) : m ((A × Nat × Nat) × Bool) := do
  -- the state
  let a ← pure s.1
  let rax ← pure (s.2.1 : Nat)
  let rcx ← pure (s.2.2 : Nat)
  let ymm0 ← O.load a rax
  let ymm1 ← O.load a rcx
  let t ← pure (Asm.ct_s2r_loop1_blk_1 ymm0 ymm1)
  let ymm2 ← pure (t.1)
  let ymm3 ← pure (t.2)
  let a ← O.store a rax ymm2
  let a ← O.store a rcx ymm3
  let rcx ← pure (rcx + 32 : Nat)
  let rax ← pure (rax + 32 : Nat)
  pure ((a, rax, rcx), decide (rcx < r8))

/-- Loop `ct_s2r_loop2_inner1`, src/ntt_asm.S:1009-1020. -/
def ct_s2r_loop2_inner1 (r9 : Nat) (s : A × Nat × Nat) : m ((A × Nat × Nat) × Bool) := do
  -- the state
  let a ← pure s.1
  let rax ← pure (s.2.1 : Nat)
  let rcx ← pure (s.2.2 : Nat)
  let ymm0 ← O.load a rax
  let ymm1 ← O.load a rcx
  let t ← pure (Asm.ct_s2r_loop2_inner1_blk_1 ymm0 ymm1)
  let ymm2 ← pure (t.1)
  let ymm3 ← pure (t.2)
  let a ← O.store a rax ymm2
  let a ← O.store a rcx ymm3
  let rax ← pure (rax + 32 : Nat)
  let rcx ← pure (rcx + 32 : Nat)
  pure ((a, rax, rcx), decide (rax < r9))

/-- Loop `ct_s2r_loop2_inner2`, src/ntt_asm.S:1039-1068. -/
def ct_s2r_loop2_inner2 (r9 : Nat) (ymm4 : V8) (ymm5 : V8) (s : A × Nat × Nat) : m ((A × Nat × Nat) × Bool) := do
  -- the state
  let a ← pure s.1
  let rax ← pure (s.2.1 : Nat)
  let rcx ← pure (s.2.2 : Nat)
  let ymm0 ← O.load a rax
  let ymm1 ← O.load a rcx
  let t ← pure (Asm.ct_s2r_loop2_inner2_blk_1 ymm0 ymm1 ymm4 ymm5)
  let ymm2 ← pure (t.1)
  let ymm3 ← pure (t.2)
  let a ← O.store a rax ymm2
  let a ← O.store a rcx ymm3
  let rax ← pure (rax + 32 : Nat)
  let rcx ← pure (rcx + 32 : Nat)
  pure ((a, rax, rcx), decide (rax < r9))

/-- Loop `ct_s2r_loop2_aux`, src/ntt_asm.S:1022-1071. -/
def ct_s2r_loop2_aux (p : A) (n : Nat) (rsi : Nat) (r8 : Nat) (ymm4 : V8) (s : A × Nat × Nat) : m ((A × Nat × Nat) × Bool) := do
  -- the state
  let a ← pure s.1
  let rcx ← pure (s.2.1 : Nat)
  let rdx ← pure (s.2.2 : Nat)
  let rdx ← pure (rdx + 2 : Nat)
  let ymm5 ← O.load_bdcstw p rdx
  let ymm5 ← pure (Asm.ct_s2r_loop2_aux_blk_1 ymm5)
  let rax ← pure (rcx : Nat)
  let rcx ← pure (rax + 2 * rsi : Nat)
  let r9 ← pure (rcx : Nat)
  let st ← O.jloop (ct_s2r_loop2_inner2 O r9 ymm4 ymm5) n (a, rax, rcx)
  let a ← pure st.1
  let rcx ← pure (st.2.2 : Nat)
  pure ((a, rcx, rdx), decide (rcx < r8))

/-- Loop `ct_s2r_loop2`, src/ntt_asm.S:1004-1076. -/
def ct_s2r_loop2 (p : A) (n : Nat) (rdi : Nat) (r8 : Nat) (ymm4 : V8) (s : A × Nat × Nat) : m ((A × Nat × Nat) × Bool) := do
  -- the state
  let a ← pure s.1
  let rsi ← pure (s.2.1 : Nat)
  let rdx ← pure (s.2.2 : Nat)
  let rax ← pure (rdi : Nat)
  let rcx ← pure (rdi + 2 * rsi : Nat)
  let r9 ← pure (rcx : Nat)
  let st ← O.jloop (ct_s2r_loop2_inner1 O r9) n (a, rax, rcx)
  let a ← pure st.1
  let rcx ← pure (st.2.2 : Nat)
  let st ← O.jloop (ct_s2r_loop2_aux O p n rsi r8 ymm4) n (a, rcx, rdx)
  let a ← pure st.1
  let rdx ← pure (st.2.2 : Nat)
  let rdx ← pure (rdx + 2 : Nat)
  let rsi ← pure (rsi / 2 : Nat)
  pure ((a, rsi, rdx), decide (rsi > 8))

/-- Loop `ct_s2r_finish_size4`, src/ntt_asm.S:1085-1124. -/
def ct_s2r_finish_size4 (p : A) (r8 : Nat) (ymm4 : V8) (ymm6 : V8) (s : A × Nat × Nat) : m ((A × Nat × Nat) × Bool) := do
  -- the state
  let a ← pure s.1
  let rax ← pure (s.2.1 : Nat)
  let rdx ← pure (s.2.2 : Nat)
  let ymm5 ← O.load_sxwq128 p rdx
  let ymm5 ← pure (Asm.ct_s2r_finish_size4_blk_1 ymm5 ymm6)
  let ymm0 ← O.load a rax
  let ymm1 ← O.load a (rax + 32)
  let t ← pure (Asm.ct_s2r_finish_size4_blk_2 ymm0 ymm1 ymm4 ymm5)
  let ymm2 ← pure (t.1)
  let ymm3 ← pure (t.2)
  let a ← O.store a rax ymm2
  let a ← O.store a (rax + 32) ymm3
  let rax ← pure (rax + 64 : Nat)
  let rdx ← pure (rdx + 4 : Nat)
  pure ((a, rax, rdx), decide (rax < r8))

/-- Loop `ct_s2r_finish_size2`, src/ntt_asm.S:1129-1168. -/
def ct_s2r_finish_size2 (p : A) (r8 : Nat) (ymm4 : V8) (ymm6 : V8) (s : A × Nat × Nat) : m ((A × Nat × Nat) × Bool) := do
  -- the state
  let a ← pure s.1
  let rax ← pure (s.2.1 : Nat)
  let rdx ← pure (s.2.2 : Nat)
  let ymm5 ← O.load_sxwq p rdx
  let ymm5 ← pure (Asm.ct_s2r_finish_size2_blk_1 ymm5 ymm6)
  let ymm0 ← O.load a rax
  let ymm1 ← O.load a (rax + 32)
  let t ← pure (Asm.ct_s2r_finish_size2_blk_2 ymm0 ymm1 ymm4 ymm5)
  let ymm2 ← pure (t.1)
  let ymm3 ← pure (t.2)
  let a ← O.store a rax ymm2
  let a ← O.store a (rax + 32) ymm3
  let rax ← pure (rax + 64 : Nat)
  let rdx ← pure (rdx + 8 : Nat)
  pure ((a, rax, rdx), decide (rax < r8))

/-- Loop `ct_s2r_finish_size1`, src/ntt_asm.S:1171-1213. -/
def ct_s2r_finish_size1 (p : A) (r8 : Nat) (ymm4 : V8) (s : A × Nat × Nat) : m ((A × Nat × Nat) × Bool) := do
  -- the state
  let a ← pure s.1
  let rax ← pure (s.2.1 : Nat)
  let rdx ← pure (s.2.2 : Nat)
  let ymm5 ← O.load_sxwq p rdx
  let ymm6 ← O.load_sxwq p (rdx + 8)
  let ymm0 ← O.load a rax
  let ymm1 ← O.load a (rax + 32)
  let t ← pure (Asm.ct_s2r_finish_size1_blk_1 ymm0 ymm1 ymm4 ymm5 ymm6)
  let ymm2 ← pure (t.1)
  let ymm3 ← pure (t.2)
  let a ← O.store a rax ymm2
  let a ← O.store a (rax + 32) ymm3
  let rax ← pure (rax + 64 : Nat)
  let rdx ← pure (rdx + 16 : Nat)
  pure ((a, rax, rdx), decide (rax < r8))

/-- From `ct_s2r_finish` to the end, src/ntt_asm.S:1082-1215. -/
def ct_s2r_finish (p : A) (n : Nat) (rdi : Nat) (r8 : Nat) (ymm4 : V8) (a : A) (rdx : Nat) : m (A) := do
  let rax ← pure (rdi : Nat)
  let ymm6 ← pure (Asm.perm2020)
  let st ← O.jloop (ct_s2r_finish_size4 O p r8 ymm4 ymm6) n (a, rax, rdx)
  let a ← pure st.1
  let rdx ← pure (st.2.2 : Nat)
  let rax ← pure (rdi : Nat)
  let ymm6 ← pure (Asm.perm0426)
  let st ← O.jloop (ct_s2r_finish_size2 O p r8 ymm4 ymm6) n (a, rax, rdx)
  let a ← pure st.1
  let rdx ← pure (st.2.2 : Nat)
  let rax ← pure (rdi : Nat)
  let st ← O.jloop (ct_s2r_finish_size1 O p r8 ymm4) n (a, rax, rdx)
  let a ← pure st.1
  pure a

/-- `ntt_red_ct_std2rev_asm`, src/ntt_asm.S:961-1215. -/
def ntt_red_ct_std2rev_asm (a : A) (n : Nat) (p : A) : m (A) := do
  let rdi ← pure (0 : Nat)
  let rsi ← pure (n : Nat)
  let rdx ← pure (0 : Nat)
  let r8 ← pure (rdi + 4 * rsi : Nat)
  let ymm4 ← pure (Asm.mask)
  let rax ← pure (rdi : Nat)
  let rcx ← pure (rdi + 2 * rsi : Nat)
  let st ← O.jloop (ct_s2r_loop1 O r8) n (a, rax, rcx)
  let a ← pure st.1
  let rdx ← pure (rdx + 4 : Nat)
  let rsi ← pure (rsi / 2 : Nat)
  O.branch (rsi ≤ 8)
    (do
      ct_s2r_finish O p n rdi r8 ymm4 a rdx)
    (do
      let st ← O.jloop (ct_s2r_loop2 O p n rdi r8 ymm4) n (a, rsi, rdx)
      let a ← pure st.1
      let rdx ← pure (st.2.2 : Nat)
      ct_s2r_finish O p n rdi r8 ymm4 a rdx)

/-- Loop `mct_s2r_loop_inner`, src/ntt_asm.S:1257-1286. -/
def mct_s2r_loop_inner (r9 : Nat) (ymm4 : V8) (ymm5 : V8) (s : A × Nat × Nat) : m ((A × Nat × Nat) × Bool) := do
  -- the state
  let a ← pure s.1
  let rax ← pure (s.2.1 : Nat)
  let rcx ← pure (s.2.2 : Nat)
  let ymm0 ← O.load a rax
  let ymm1 ← O.load a rcx
  let t ← pure (Asm.mct_s2r_loop_inner_blk_1 ymm0 ymm1 ymm4 ymm5)
  let ymm2 ← pure (t.1)
  let ymm3 ← pure (t.2)
  let a ← O.store a rax ymm2
  let a ← O.store a rcx ymm3
  let rax ← pure (rax + 32 : Nat)
  let rcx ← pure (rcx + 32 : Nat)
  pure ((a, rax, rcx), decide (rax < r9))

/-- Loop `mct_s2r_loop_aux`, src/ntt_asm.S:1247-1292. -/
def mct_s2r_loop_aux (p : A) (n : Nat) (rsi : Nat) (r8 : Nat) (ymm4 : V8) (s : A × Nat × Nat × Nat × Nat) : m ((A × Nat × Nat × Nat × Nat) × Bool) := do
  -- the state
  let a ← pure s.1
  let rax ← pure (s.2.1 : Nat)
  let rcx ← pure (s.2.2.1 : Nat)
  let r9 ← pure (s.2.2.2.1 : Nat)
  let rdx ← pure (s.2.2.2.2 : Nat)
  let rdx ← pure (rdx + 2 : Nat)
  let ymm5 ← O.load_bdcstw p rdx
  let ymm5 ← pure (Asm.mct_s2r_loop_aux_blk_1 ymm5)
  let st ← O.jloop (mct_s2r_loop_inner O r9 ymm4 ymm5) n (a, rax, rcx)
  let a ← pure st.1
  let rcx ← pure (st.2.2 : Nat)
  let rax ← pure (rcx : Nat)
  let rcx ← pure (rax + 2 * rsi : Nat)
  let r9 ← pure (rcx : Nat)
  pure ((a, rax, rcx, r9, rdx), decide (rax < r8))

/-- Loop `mct_s2r_loop`, src/ntt_asm.S:1242-1296. -/
def mct_s2r_loop (p : A) (n : Nat) (rdi : Nat) (r8 : Nat) (ymm4 : V8) (s : A × Nat × Nat) : m ((A × Nat × Nat) × Bool) := do
  -- the state
  let a ← pure s.1
  let rsi ← pure (s.2.1 : Nat)
  let rdx ← pure (s.2.2 : Nat)
  let rax ← pure (rdi : Nat)
  let rcx ← pure (rdi + 2 * rsi : Nat)
  let r9 ← pure (rcx : Nat)
  let st ← O.jloop (mct_s2r_loop_aux O p n rsi r8 ymm4) n (a, rax, rcx, r9, rdx)
  let a ← pure st.1
  let rdx ← pure (st.2.2.2.2 : Nat)
  let rsi ← pure (rsi / 2 : Nat)
  pure ((a, rsi, rdx), decide (rsi > 8))

/-- `mulntt_red_ct_std2rev_asm`, src/ntt_asm.S:1233-1302. -/
def mulntt_red_ct_std2rev_asm (a : A) (n : Nat) (p : A) : m (A) := do
  let rdi ← pure (0 : Nat)
  let rsi ← pure (n : Nat)
  let rdx ← pure (0 : Nat)
  let r8 ← pure (rdi + 4 * rsi : Nat)
  let ymm4 ← pure (Asm.mask)
  let st ← O.jloop (mct_s2r_loop O p n rdi r8 ymm4) n (a, rsi, rdx)
  let a ← pure st.1
  let rdx ← pure (st.2.2 : Nat)
  let rdx ← pure (rdx + 2 : Nat)
  ct_s2r_finish O p n rdi r8 ymm4 a rdx

/-- Loop `gs_r2s_loop0`, src/ntt_asm.S:1336-1399. -/
def gs_r2s_loop0 (p : A) (rcx : Nat) (ymm4 : V8) (ymm6 : V8) (s : A × Nat × Nat × Nat × Nat) : m ((A × Nat × Nat × Nat × Nat) × Bool) := do
  -- the state
  let a ← pure s.1
  let rax ← pure (s.2.1 : Nat)
  let r8 ← pure (s.2.2.1 : Nat)
  let r9 ← pure (s.2.2.2.1 : Nat)
  let r10 ← pure (s.2.2.2.2 : Nat)
  let ymm5 ← O.load_sxwq p r8
  let ymm0 ← O.load a rax
  let t ← pure (Asm.gs_r2s_loop0_blk_1 ymm0 ymm4 ymm5)
  let ymm0 ← pure (t.1)
  let ymm1 ← pure (t.2)
  let ymm5 ← O.load_sxwq128 p r9
  let t ← pure (Asm.gs_r2s_loop0_blk_2 ymm0 ymm1 ymm4 ymm5 ymm6)
  let ymm0 ← pure (t.1)
  let ymm1 ← pure (t.2)
  let ymm5 ← O.load_bdcstw p r10
  let ymm0 ← pure (Asm.gs_r2s_loop0_blk_3 ymm0 ymm1 ymm4 ymm5)
  let a ← O.store a rax ymm0
  let rax ← pure (rax + 32 : Nat)
  let r8 ← pure (r8 + 8 : Nat)
  let r9 ← pure (r9 + 4 : Nat)
  let r10 ← pure (r10 + 2 : Nat)
  pure ((a, rax, r8, r9, r10), decide (rax < rcx))

/-- Loop `gs_r2s_size16_loop`, src/ntt_asm.S:1424-1454. -/
def gs_r2s_size16_loop (p : A) (rcx : Nat) (ymm4 : V8) (s : A × Nat × Nat) : m ((A × Nat × Nat) × Bool) := do
  -- the state
  let a ← pure s.1
  let rax ← pure (s.2.1 : Nat)
  let r9 ← pure (s.2.2 : Nat)
  let ymm5 ← O.load_bdcstw p r9
  let ymm5 ← pure (Asm.gs_r2s_size16_loop_blk_1 ymm5)
  let ymm0 ← O.load a rax
  let ymm1 ← O.load a (rax + 32)
  let t ← pure (Asm.gs_r2s_size16_loop_blk_2 ymm0 ymm1 ymm4 ymm5)
  let ymm0 ← pure (t.1)
  let ymm1 ← pure (t.2)
  let a ← O.store a rax ymm0
  let a ← O.store a (rax + 32) ymm1
  let rax ← pure (rax + 64 : Nat)
  let r9 ← pure (r9 + 2 : Nat)
  pure ((a, rax, r9), decide (rax < rcx))

/-- Loop `gs_r2s_size32_first_blocks`, src/ntt_asm.S:1470-1482. -/
def gs_r2s_size32_first_blocks (r8 : Nat) (s : A × Nat × Nat) : m ((A × Nat × Nat) × Bool) := do
  -- the state
  let a ← pure s.1
  let rax ← pure (s.2.1 : Nat)
  let rcx ← pure (s.2.2 : Nat)
  let ymm0 ← O.load a rax
  let ymm1 ← O.load a rcx
  let t ← pure (Asm.gs_r2s_size32_first_blocks_blk_1 ymm0 ymm1)
  let ymm0 ← pure (t.1)
  let ymm2 ← pure (t.2)
  let a ← O.store a rax ymm0
  let a ← O.store a rcx ymm2
  let rax ← pure (rax + 32 : Nat)
  let rcx ← pure (rcx + 32 : Nat)
  pure ((a, rax, rcx), decide (rax < r8))

/-- Loop `gs_r2s_size32_inner_loop`, src/ntt_asm.S:1495-1523. -/
def gs_r2s_size32_inner_loop (r8 : Nat) (ymm4 : V8) (ymm5 : V8) (s : A × Nat × Nat) : m ((A × Nat × Nat) × Bool) := do
  -- the state
  let a ← pure s.1
  let rax ← pure (s.2.1 : Nat)
  let rcx ← pure (s.2.2 : Nat)
  let ymm0 ← O.load a rax
  let ymm1 ← O.load a rcx
  let t ← pure (Asm.gs_r2s_size32_inner_loop_blk_1 ymm0 ymm1 ymm4 ymm5)
  let ymm0 ← pure (t.1)
  let ymm1 ← pure (t.2)
  let a ← O.store a rax ymm0
  let a ← O.store a rcx ymm1
  let rax ← pure (rax + 32 : Nat)
  let rcx ← pure (rcx + 32 : Nat)
  pure ((a, rax, rcx), decide (rax < r8))

/-- Loop `gs_r2s_size32_other_blocks`, src/ntt_asm.S:1487-1526. -/
def gs_r2s_size32_other_blocks (p : A) (n : Nat) (r10 : Nat) (r11 : Nat) (ymm4 : V8) (s : A × Nat × Nat) : m ((A × Nat × Nat) × Bool) := do
  -- the state
  let a ← pure s.1
  let rcx ← pure (s.2.1 : Nat)
  let r9 ← pure (s.2.2 : Nat)
  let r9 ← pure (r9 + 2 : Nat)
  let ymm5 ← O.load_bdcstw p r9
  let ymm5 ← pure (Asm.gs_r2s_size32_other_blocks_blk_1 ymm5)
  let rax ← pure (rcx : Nat)
  let rcx ← pure (rcx + r11 : Nat)
  let r8 ← pure (rcx : Nat)
  let st ← O.jloop (gs_r2s_size32_inner_loop O r8 ymm4 ymm5) n (a, rax, rcx)
  let a ← pure st.1
  let rcx ← pure (st.2.2 : Nat)
  pure ((a, rcx, r9), decide (rcx < r10))

/-- Loop `gs_r2s_size32_loop`, src/ntt_asm.S:1463-1529; the jump to `gs_r2s_done` (1485) leaves it. -/
def gs_r2s_size32_loop (p : A) (n : Nat) (rdi : Nat) (rdx : Nat) (r10 : Nat) (ymm4 : V8) (s : A × Nat × Nat) : m ((A × Nat × Nat) × Bool) := do
  -- the state
  let a ← pure s.1
  let rsi ← pure (s.2.1 : Nat)
  let r11 ← pure (s.2.2 : Nat)
  let rax ← pure (rdi : Nat)
  let rcx ← pure (rax + r11 : Nat)
  let r8 ← pure (rcx : Nat)
  let rsi ← pure (rsi / 2 : Nat)
  let r9 ← pure (rdx + rsi : Nat)
  let st ← O.jloop (gs_r2s_size32_first_blocks O r8) n (a, rax, rcx)
  let a ← pure st.1
  let rcx ← pure (st.2.2 : Nat)
  O.branch (rcx ≥ r10)
    (do
      pure ((a, rsi, r11), false))
    (do
      let st ← O.jloop (gs_r2s_size32_other_blocks O p n r10 r11 ymm4) n (a, rcx, r9)
      let a ← pure st.1
      let r11 ← pure (2 * r11 : Nat)
      pure ((a, rsi, r11), true))

/-- `ntt_red_gs_rev2std_asm`, src/ntt_asm.S:1318-1532. -/
def ntt_red_gs_rev2std_asm (a : A) (n : Nat) (p : A) : m (A) := do
  let rdi ← pure (0 : Nat)
  let rsi ← pure (n : Nat)
  let rdx ← pure (0 : Nat)
  let rcx ← pure (rdi + 4 * rsi : Nat)
  let r8 ← pure (rdx + rsi : Nat)
  let rsi ← pure (rsi / 2 : Nat)
  let r9 ← pure (rdx + rsi : Nat)
  let rsi ← pure (rsi / 2 : Nat)
  let r10 ← pure (rdx + rsi : Nat)
  let rax ← pure (rdi : Nat)
  let ymm4 ← pure (Asm.mask)
  let ymm6 ← pure (Asm.perm2020)
  let st ← O.jloop (gs_r2s_loop0 O p rcx ymm4 ymm6) n (a, rax, r8, r9, r10)
  let a ← pure st.1
  let rax ← pure (rdi : Nat)
  let ymm0 ← O.load a rax
  let ymm1 ← O.load a (rax + 32)
  let t ← pure (Asm.ntt_red_gs_rev2std_asm_2_blk_1 ymm0 ymm1)
  let ymm0 ← pure (t.1)
  let ymm2 ← pure (t.2)
  let a ← O.store a rax ymm0
  let a ← O.store a (rax + 32) ymm2
  let rax ← pure (rax + 64 : Nat)
  O.branch (rax ≥ rcx)
    (do
      pure a)
    (do
      let rsi ← pure (rsi / 2 : Nat)
      let r9 ← pure (rdx + rsi + 2 : Nat)
      let st ← O.jloop (gs_r2s_size16_loop O p rcx ymm4) n (a, rax, r9)
      let a ← pure st.1
      let r10 ← pure (rcx : Nat)
      let r11 ← pure (64 : Nat)
      let st ← O.jloop (gs_r2s_size32_loop O p n rdi rdx r10 ymm4) n (a, rsi, r11)
      let a ← pure st.1
      pure a)

/-- Loop `mgs_r2s_loop0`, src/ntt_asm.S:1568-1631. -/
def mgs_r2s_loop0 (p : A) (rcx : Nat) (ymm4 : V8) (ymm6 : V8) (s : A × Nat × Nat × Nat × Nat) : m ((A × Nat × Nat × Nat × Nat) × Bool) := do
  -- the state
  let a ← pure s.1
  let rax ← pure (s.2.1 : Nat)
  let r8 ← pure (s.2.2.1 : Nat)
  let r9 ← pure (s.2.2.2.1 : Nat)
  let r10 ← pure (s.2.2.2.2 : Nat)
  let ymm5 ← O.load_sxwq p r8
  let ymm0 ← O.load a rax
  let t ← pure (Asm.mgs_r2s_loop0_blk_1 ymm0 ymm4 ymm5)
  let ymm0 ← pure (t.1)
  let ymm1 ← pure (t.2)
  let ymm5 ← O.load_sxwq128 p r9
  let t ← pure (Asm.mgs_r2s_loop0_blk_2 ymm0 ymm1 ymm4 ymm5 ymm6)
  let ymm0 ← pure (t.1)
  let ymm1 ← pure (t.2)
  let ymm5 ← O.load_bdcstw p r10
  let ymm0 ← pure (Asm.mgs_r2s_loop0_blk_3 ymm0 ymm1 ymm4 ymm5)
  let a ← O.store a rax ymm0
  let rax ← pure (rax + 32 : Nat)
  let r8 ← pure (r8 + 8 : Nat)
  let r9 ← pure (r9 + 4 : Nat)
  let r10 ← pure (r10 + 2 : Nat)
  pure ((a, rax, r8, r9, r10), decide (rax < rcx))

/-- Loop `mgs_r2s_size16_loop`, src/ntt_asm.S:1639-1669. -/
def mgs_r2s_size16_loop (p : A) (rcx : Nat) (ymm4 : V8) (s : A × Nat × Nat) : m ((A × Nat × Nat) × Bool) := do
  -- the state
  let a ← pure s.1
  let rax ← pure (s.2.1 : Nat)
  let r9 ← pure (s.2.2 : Nat)
  let ymm5 ← O.load_bdcstw p r9
  let ymm5 ← pure (Asm.mgs_r2s_size16_loop_blk_1 ymm5)
  let ymm0 ← O.load a rax
  let ymm1 ← O.load a (rax + 32)
  let t ← pure (Asm.mgs_r2s_size16_loop_blk_2 ymm0 ymm1 ymm4 ymm5)
  let ymm0 ← pure (t.1)
  let ymm1 ← pure (t.2)
  let a ← O.store a rax ymm0
  let a ← O.store a (rax + 32) ymm1
  let rax ← pure (rax + 64 : Nat)
  let r9 ← pure (r9 + 2 : Nat)
  pure ((a, rax, r9), decide (rax < rcx))

/-- Loop `mgs_r2s_size32_inner_loop`, src/ntt_asm.S:1691-1719. -/
def mgs_r2s_size32_inner_loop (r8 : Nat) (ymm4 : V8) (ymm5 : V8) (s : A × Nat × Nat) : m ((A × Nat × Nat) × Bool) := do
  -- the state
  let a ← pure s.1
  let rax ← pure (s.2.1 : Nat)
  let rcx ← pure (s.2.2 : Nat)
  let ymm0 ← O.load a rax
  let ymm1 ← O.load a rcx
  let t ← pure (Asm.mgs_r2s_size32_inner_loop_blk_1 ymm0 ymm1 ymm4 ymm5)
  let ymm0 ← pure (t.1)
  let ymm1 ← pure (t.2)
  let a ← O.store a rax ymm0
  let a ← O.store a rcx ymm1
  let rax ← pure (rax + 32 : Nat)
  let rcx ← pure (rcx + 32 : Nat)
  pure ((a, rax, rcx), decide (rax < r8))

/-- Loop `mgs_r2s_size32_blocks`, src/ntt_asm.S:1687-1726. -/
def mgs_r2s_size32_blocks (p : A) (n : Nat) (r10 : Nat) (r11 : Nat) (ymm4 : V8) (s : A × Nat × Nat × Nat × Nat) : m ((A × Nat × Nat × Nat × Nat) × Bool) := do
  -- the state
  let a ← pure s.1
  let rax ← pure (s.2.1 : Nat)
  let rcx ← pure (s.2.2.1 : Nat)
  let r8 ← pure (s.2.2.2.1 : Nat)
  let r9 ← pure (s.2.2.2.2 : Nat)
  let ymm5 ← O.load_bdcstw p r9
  let ymm5 ← pure (Asm.mgs_r2s_size32_blocks_blk_1 ymm5)
  let st ← O.jloop (mgs_r2s_size32_inner_loop O r8 ymm4 ymm5) n (a, rax, rcx)
  let a ← pure st.1
  let rcx ← pure (st.2.2 : Nat)
  let rax ← pure (rcx : Nat)
  let rcx ← pure (rcx + r11 : Nat)
  let r8 ← pure (rcx : Nat)
  let r9 ← pure (r9 + 2 : Nat)
  pure ((a, rax, rcx, r8, r9), decide (rax < r10))

/-- Loop `mgs_r2s_size32_loop`, src/ntt_asm.S:1680-1730. -/
def mgs_r2s_size32_loop (p : A) (n : Nat) (rdi : Nat) (rdx : Nat) (r10 : Nat) (ymm4 : V8) (s : A × Nat × Nat) : m ((A × Nat × Nat) × Bool) := do
  -- the state
  let a ← pure s.1
  let rsi ← pure (s.2.1 : Nat)
  let r11 ← pure (s.2.2 : Nat)
  let rax ← pure (rdi : Nat)
  let rcx ← pure (rax + r11 : Nat)
  let r8 ← pure (rcx : Nat)
  let rsi ← pure (rsi / 2 : Nat)
  let r9 ← pure (rdx + rsi : Nat)
  let st ← O.jloop (mgs_r2s_size32_blocks O p n r10 r11 ymm4) n (a, rax, rcx, r8, r9)
  let a ← pure st.1
  let r11 ← pure (2 * r11 : Nat)
  pure ((a, rsi, r11), decide (rsi ≠ 2))

/-- `nttmul_red_gs_rev2std_asm`, src/ntt_asm.S:1549-1733. -/
def nttmul_red_gs_rev2std_asm (a : A) (n : Nat) (p : A) : m (A) := do
  let rdi ← pure (0 : Nat)
  let rsi ← pure (n : Nat)
  let rdx ← pure (0 : Nat)
  let rcx ← pure (rdi + 4 * rsi : Nat)
  let r8 ← pure (rdx + rsi : Nat)
  let rsi ← pure (rsi / 2 : Nat)
  let r9 ← pure (rdx + rsi : Nat)
  let rsi ← pure (rsi / 2 : Nat)
  let r10 ← pure (rdx + rsi : Nat)
  let rax ← pure (rdi : Nat)
  let ymm4 ← pure (Asm.mask)
  let ymm6 ← pure (Asm.perm2020)
  let st ← O.jloop (mgs_r2s_loop0 O p rcx ymm4 ymm6) n (a, rax, r8, r9, r10)
  let a ← pure st.1
  let rax ← pure (rdi : Nat)
  let rsi ← pure (rsi / 2 : Nat)
  let r9 ← pure (rdx + rsi : Nat)
  let st ← O.jloop (mgs_r2s_size16_loop O p rcx ymm4) n (a, rax, r9)
  let a ← pure st.1
  O.branch (rsi = 2)
    (do
      pure a)
    (do
      let r10 ← pure (rcx : Nat)
      let r11 ← pure (64 : Nat)
      let st ← O.jloop (mgs_r2s_size32_loop O p n rdi rdx r10 ymm4) n (a, rsi, r11)
      let a ← pure st.1
      pure a)

/-- Loop `gs_s2r_inner_loop`, src/ntt_asm.S:1772-1810. -/
def gs_s2r_inner_loop (rsi : Nat) (r11 : Nat) (ymm4 : V8) (ymm5 : V8) (ymm6 : V8) (s : A × Nat × Nat) : m ((A × Nat × Nat) × Bool) := do
  -- the state
  let a ← pure s.1
  let rax ← pure (s.2.1 : Nat)
  let rcx ← pure (s.2.2 : Nat)
  let ymm0 ← O.load a rax
  let ymm1 ← O.load a rcx
  let t ← pure (Asm.gs_s2r_inner_loop_blk_1 ymm0 ymm1 ymm4 ymm5 ymm6)
  let ymm0 ← pure (t.1)
  let ymm2 ← pure (t.2)
  let a ← O.store a rax ymm2
  let a ← O.store a rcx ymm0
  let rax ← pure (rax + 4 * rsi : Nat)
  let rcx ← pure (rcx + 4 * rsi : Nat)
  pure ((a, rax, rcx), decide (rax < r11))

/-- Loop `gs_s2r_loop`, src/ntt_asm.S:1767-1815. -/
def gs_s2r_loop (p : A) (n : Nat) (rsi : Nat) (r10 : Nat) (r11 : Nat) (ymm4 : V8) (s : A × Nat × Nat) : m ((A × Nat × Nat) × Bool) := do
  -- the state
  let a ← pure s.1
  let r8 ← pure (s.2.1 : Nat)
  let r9 ← pure (s.2.2 : Nat)
  let ymm5 ← O.load_sxwd p r9
  let ymm6 ← pure (Asm.gs_s2r_loop_blk_1 ymm5)
  let rax ← pure (r8 : Nat)
  let rcx ← pure (r8 + 2 * rsi : Nat)
  let st ← O.jloop (gs_s2r_inner_loop O rsi r11 ymm4 ymm5 ymm6) n (a, rax, rcx)
  let a ← pure st.1
  let r8 ← pure (r8 + 32 : Nat)
  let r9 ← pure (r9 + 16 : Nat)
  pure ((a, r8, r9), decide (r8 < r10))

/-- Loop `gs_s2r_main`, src/ntt_asm.S:1763-1819. -/
def gs_s2r_main (p : A) (n : Nat) (rdi : Nat) (rdx : Nat) (r11 : Nat) (ymm4 : V8) (s : A × Nat) : m ((A × Nat) × Bool) := do
  -- the state
  let a ← pure s.1
  let rsi ← pure (s.2 : Nat)
  let r8 ← pure (rdi : Nat)
  let r9 ← pure (rdx + rsi : Nat)
  let r10 ← pure (r8 + 2 * rsi : Nat)
  let st ← O.jloop (gs_s2r_loop O p n rsi r10 r11 ymm4) n (a, r8, r9)
  let a ← pure st.1
  let rsi ← pure (rsi / 2 : Nat)
  pure ((a, rsi), decide (rsi ≥ 16))

/-- Loop `gs_s2r_finish_loop`, src/ntt_asm.S:1843-1922. -/
def gs_s2r_finish_loop (r11 : Nat) (ymm4 : V8) (ymm5 : V8) (ymm6 : V8) (ymm7 : V8) (ymm9 : V8) (s : A × Nat) : m ((A × Nat) × Bool) := do
  -- the state
  let a ← pure s.1
  let rax ← pure (s.2 : Nat)
  let ymm0 ← O.load a rax
  let ymm1 ← O.load a (rax + 32)
  let t ← pure (Asm.gs_s2r_finish_loop_blk_1 ymm0 ymm1 ymm4 ymm5 ymm6 ymm7 ymm9)
  let ymm0 ← pure (t.1)
  let ymm1 ← pure (t.2)
  let a ← O.store a rax ymm0
  let a ← O.store a (rax + 32) ymm1
  let rax ← pure (rax + 64 : Nat)
  pure ((a, rax), decide (rax < r11))

/-- `ntt_red_gs_std2rev_asm`, src/ntt_asm.S:1749-1924. -/
def ntt_red_gs_std2rev_asm (a : A) (n : Nat) (p : A) : m (A) := do
  let rdi ← pure (0 : Nat)
  let rsi ← pure (n : Nat)
  let rdx ← pure (0 : Nat)
  let r11 ← pure (rdi + 4 * rsi : Nat)
  let ymm4 ← pure (Asm.mask)
  let st ← O.jloop (gs_s2r_main O p n rdi rdx r11 ymm4) n (a, rsi)
  let a ← pure st.1
  let ymm5 ← O.load_sxwd p rdx
  let t ← pure (Asm.ntt_red_gs_std2rev_asm_2_blk_1 ymm5)
  let ymm5 ← pure (t.1)
  let ymm6 ← pure (t.2.1)
  let ymm7 ← pure (t.2.2)
  let rax ← pure (rdi : Nat)
  let ymm9 ← pure (Asm.perm04152637)
  let st ← O.jloop (gs_s2r_finish_loop O r11 ymm4 ymm5 ymm6 ymm7 ymm9) n (a, rax)
  let a ← pure st.1
  pure a

/-- Loop `mgs_s2r_inner_loop`, src/ntt_asm.S:1958-1996. -/
def mgs_s2r_inner_loop (rsi : Nat) (r11 : Nat) (ymm4 : V8) (ymm5 : V8) (ymm6 : V8) (s : A × Nat × Nat) : m ((A × Nat × Nat) × Bool) := do
  -- the state
  let a ← pure s.1
  let rax ← pure (s.2.1 : Nat)
  let rcx ← pure (s.2.2 : Nat)
  let ymm0 ← O.load a rax
  let ymm1 ← O.load a rcx
  let t ← pure (Asm.mgs_s2r_inner_loop_blk_1 ymm0 ymm1 ymm4 ymm5 ymm6)
  let ymm0 ← pure (t.1)
  let ymm2 ← pure (t.2)
  let a ← O.store a rax ymm2
  let a ← O.store a rcx ymm0
  let rax ← pure (rax + 4 * rsi : Nat)
  let rcx ← pure (rcx + 4 * rsi : Nat)
  pure ((a, rax, rcx), decide (rax < r11))

/-- Loop `mgs_s2r_loop`, src/ntt_asm.S:1953-2001. -/
def mgs_s2r_loop (p : A) (n : Nat) (rsi : Nat) (r10 : Nat) (r11 : Nat) (ymm4 : V8) (s : A × Nat × Nat) : m ((A × Nat × Nat) × Bool) := do
  -- the state
  let a ← pure s.1
  let r8 ← pure (s.2.1 : Nat)
  let r9 ← pure (s.2.2 : Nat)
  let ymm5 ← O.load_sxwd p r9
  let ymm6 ← pure (Asm.mgs_s2r_loop_blk_1 ymm5)
  let rax ← pure (r8 : Nat)
  let rcx ← pure (r8 + 2 * rsi : Nat)
  let st ← O.jloop (mgs_s2r_inner_loop O rsi r11 ymm4 ymm5 ymm6) n (a, rax, rcx)
  let a ← pure st.1
  let r8 ← pure (r8 + 32 : Nat)
  let r9 ← pure (r9 + 16 : Nat)
  pure ((a, r8, r9), decide (r8 < r10))

/-- Loop `mgs_s2r_main`, src/ntt_asm.S:1949-2005. -/
def mgs_s2r_main (p : A) (n : Nat) (rdi : Nat) (rdx : Nat) (r11 : Nat) (ymm4 : V8) (s : A × Nat) : m ((A × Nat) × Bool) := do
  -- the state
  let a ← pure s.1
  let rsi ← pure (s.2 : Nat)
  let r8 ← pure (rdi : Nat)
  let r9 ← pure (rdx + rsi : Nat)
  let r10 ← pure (r8 + 2 * rsi : Nat)
  let st ← O.jloop (mgs_s2r_loop O p n rsi r10 r11 ymm4) n (a, r8, r9)
  let a ← pure st.1
  let rsi ← pure (rsi / 2 : Nat)
  pure ((a, rsi), decide (rsi ≥ 16))

/-- Loop `mgs_s2r_finish_loop`, src/ntt_asm.S:2038-2140. -/
def mgs_s2r_finish_loop (r11 : Nat) (ymm4 : V8) (ymm5 : V8) (ymm6 : V8) (ymm7 : V8) (ymm8 : V8) (ymm9 : V8) (ymm10 : V8) (s : A × Nat) : m ((A × Nat) × Bool) := do
  -- the state
  let a ← pure s.1
  let rax ← pure (s.2 : Nat)
  let ymm0 ← O.load a rax
  let ymm1 ← O.load a (rax + 32)
  let t ← pure (Asm.mgs_s2r_finish_loop_blk_1 ymm0 ymm1 ymm4 ymm5 ymm6 ymm7 ymm8 ymm9 ymm10)
  let ymm0 ← pure (t.1)
  let ymm1 ← pure (t.2)
  let a ← O.store a rax ymm0
  let a ← O.store a (rax + 32) ymm1
  let rax ← pure (rax + 64 : Nat)
  pure ((a, rax), decide (rax < r11))

/-- `nttmul_red_gs_std2rev_asm`, src/ntt_asm.S:1941-2142. -/
def nttmul_red_gs_std2rev_asm (a : A) (n : Nat) (p : A) : m (A) := do
  let rdi ← pure (0 : Nat)
  let rsi ← pure (n : Nat)
  let rdx ← pure (0 : Nat)
  let r11 ← pure (rdi + 4 * rsi : Nat)
  let ymm4 ← pure (Asm.mask)
  let st ← O.jloop (mgs_s2r_main O p n rdi rdx r11 ymm4) n (a, rsi)
  let a ← pure st.1
  let ymm0 ← O.load_sxwd p rdx
  let ymm9 ← pure (Asm.perm_bdcst1)
  let ymm9 ← pure (Asm.nttmul_red_gs_std2rev_asm_2_blk_1 ymm0 ymm9)
  let ymm8 ← pure (Asm.perm_bdcst3)
  let ymm8 ← pure (Asm.nttmul_red_gs_std2rev_asm_2_blk_2 ymm0 ymm8)
  let ymm7 ← pure (Asm.perm_bdcst2)
  let ymm7 ← pure (Asm.nttmul_red_gs_std2rev_asm_2_blk_3 ymm0 ymm7)
  let ymm6 ← pure (Asm.perm5070)
  let ymm6 ← pure (Asm.nttmul_red_gs_std2rev_asm_2_blk_4 ymm0 ymm6)
  let ymm5 ← pure (Asm.perm4060)
  let ymm5 ← pure (Asm.nttmul_red_gs_std2rev_asm_2_blk_5 ymm0 ymm5)
  let rax ← pure (rdi : Nat)
  let ymm10 ← pure (Asm.perm04152637)
  let st ← O.jloop (mgs_s2r_finish_loop O r11 ymm4 ymm5 ymm6 ymm7 ymm8 ymm9 ymm10) n (a, rax)
  let a ← pure st.1
  pure a

end AsmPoly
