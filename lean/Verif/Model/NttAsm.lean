import Verif.Model.Avx

/-
Model of src/ntt_asm.S (all functions except `avx2_supported`).

Generated by tools/genasm.py from tools/ntt_asm.tmpl (control flow, written by hand) and the
instructions of src/ntt_asm.S.  Every instruction is one line with the same operands.

* `rdi`, `rdx` (and `rcx` in `mul_reduce_array_asm`) are the offsets of pointer arguments: 0.
* `rsi` is the argument `n`: the upper half of the register is taken to be 0 (the C prototype says
  `uint32_t`; compilers zero-extend it, the ABI does not promise it).
* A label with a backward jump is a `jloop`; its state is the array and the registers that change
  from one iteration to the next.  The fuel `n` bounds the number of iterations.
* Functions return the final contents of the array.
-/

namespace Asm
open C Avx

/-- src/ntt_asm.S:26-27 -/
def mask : V8 := .splat 0xfff

/-- src/ntt_asm.S:30-31 -/
def q_x8 : V8 := .splat 12289

/-- src/ntt_asm.S:34-35 -/
def q_minus1_x8 : V8 := .splat 12288

/-- src/ntt_asm.S:38-39 -/
def half_q_x8 : V8 := .splat 6144

/-- src/ntt_asm.S:42-43 -/
def perm0246 : V8 := ⟨0, 2, 4, 6, 0, 0, 0, 0⟩

/-- src/ntt_asm.S:46-47 -/
def perm5 : V8 := ⟨4, 0, 5, 0, 6, 0, 7, 0⟩

/-- src/ntt_asm.S:48-49 -/
def perm4 : V8 := ⟨2, 0, 3, 0, 2, 0, 3, 0⟩

/-- src/ntt_asm.S:50-51 -/
def perm3 : V8 := ⟨1, 0, 1, 0, 1, 0, 1, 0⟩

/-- src/ntt_asm.S:54-55 -/
def perm2020 : V8 := ⟨0, 0, 0, 0, 2, 0, 2, 0⟩

/-- src/ntt_asm.S:57-58 -/
def perm0426 : V8 := ⟨0, 0, 4, 0, 2, 0, 6, 0⟩

/-- src/ntt_asm.S:61-62 -/
def perm04152637 : V8 := ⟨0, 4, 1, 5, 2, 6, 3, 7⟩

/-- src/ntt_asm.S:65-66 -/
def perm5070 : V8 := ⟨5, 0, 7, 0, 5, 0, 7, 0⟩

/-- src/ntt_asm.S:68-69 -/
def perm4060 : V8 := ⟨4, 0, 6, 0, 4, 0, 6, 0⟩

/-- src/ntt_asm.S:71-72 -/
def perm_bdcst1 : V8 := ⟨1, 0, 1, 0, 1, 0, 1, 0⟩

/-- src/ntt_asm.S:74-75 -/
def perm_bdcst2 : V8 := ⟨2, 0, 2, 0, 2, 0, 2, 0⟩

/-- src/ntt_asm.S:77-78 -/
def perm_bdcst3 : V8 := ⟨3, 0, 3, 0, 3, 0, 3, 0⟩

/-- src/ntt_asm.S:141-145 -/
def loop0_blk_1 (ymm0 ymm3 : V8) : V8 :=
  let ymm2 := vpsrad ymm0 12
  let ymm0 := vpand ymm0 ymm3
  let ymm4 := vpslld ymm0 1
  let ymm0 := vpaddd ymm0 ymm4
  let ymm0 := vpsubd ymm0 ymm2
  ymm0

/-- src/ntt_asm.S:149-153 -/
def loop0_blk_2 (ymm1 ymm3 : V8) : V8 :=
  let ymm2 := vpsrad ymm1 12
  let ymm1 := vpand ymm1 ymm3
  let ymm4 := vpslld ymm1 1
  let ymm1 := vpaddd ymm1 ymm4
  let ymm1 := vpsubd ymm1 ymm2
  ymm1

/-- Loop `loop0`, src/ntt_asm.S:137-159. -/
def loop0 (rsi : Nat) (ymm3 : V8) (s : Array Int × Nat) : M ((Array Int × Nat) × Bool) := do
  let (a, rax) := s
  let ymm0 ← load a rax
  let ymm1 ← load a (rax + 32)
  let ymm0 := loop0_blk_1 ymm0 ymm3
  let a ← store a rax ymm0
  let ymm1 := loop0_blk_2 ymm1 ymm3
  let a ← store a (rax + 32) ymm1
  let rax := rax + 64
  pure ((a, rax), decide (rax < rsi))

/-- `reduce_array_asm`, src/ntt_asm.S:130-160. -/
def reduce_array_asm (a : Array Int) (n : Nat) : M (Array Int) := do
  let rdi := 0
  let rsi := n
  let ymm3 := mask
  let rax := rdi
  let rsi := rdi + 4 * rsi
  let (a, _) ← jloop (loop0 rsi ymm3) n (a, rax)
  pure a

/-- src/ntt_asm.S:176-180 -/
def loop0b_blk_1 (ymm0 ymm3 : V8) : V8 :=
  let ymm2 := vpsrad ymm0 12
  let ymm0 := vpand ymm0 ymm3
  let ymm4 := vpslld ymm0 1
  let ymm0 := vpaddd ymm0 ymm4
  let ymm0 := vpsubd ymm0 ymm2
  ymm0

/-- Loop `loop0b`, src/ntt_asm.S:173-186. -/
def loop0b (rsi : Nat) (ymm3 : V8) (s : Array Int × Nat) : M ((Array Int × Nat) × Bool) := do
  let (a, rax) := s
  let ymm0 ← load a rax
  let ymm0 := loop0b_blk_1 ymm0 ymm3
  let a ← store a rax ymm0
  let rax := rax + 32
  pure ((a, rax), decide (rax < rsi))

/-- `reduce_array_asm2`, src/ntt_asm.S:166-187. -/
def reduce_array_asm2 (a : Array Int) (n : Nat) : M (Array Int) := do
  let rdi := 0
  let rsi := n
  let ymm3 := mask
  let rax := rdi
  let rsi := rdi + 4 * rsi
  let (a, _) ← jloop (loop0b rsi ymm3) n (a, rax)
  pure a

/-- src/ntt_asm.S:211-221 -/
def loop1_blk_1 (ymm0 ymm3 : V8) : V8 :=
  let ymm2 := vpsrad ymm0 12
  let ymm0 := vpand ymm0 ymm3
  let ymm4 := vpslld ymm0 1
  let ymm0 := vpaddd ymm0 ymm4
  let ymm0 := vpsubd ymm0 ymm2
  let ymm2 := vpsrad ymm0 12
  let ymm0 := vpand ymm0 ymm3
  let ymm4 := vpslld ymm0 1
  let ymm0 := vpaddd ymm0 ymm4
  let ymm0 := vpsubd ymm0 ymm2
  ymm0

/-- src/ntt_asm.S:226-236 -/
def loop1_blk_2 (ymm1 ymm3 : V8) : V8 :=
  let ymm2 := vpsrad ymm1 12
  let ymm1 := vpand ymm1 ymm3
  let ymm4 := vpslld ymm1 1
  let ymm1 := vpaddd ymm1 ymm4
  let ymm1 := vpsubd ymm1 ymm2
  let ymm2 := vpsrad ymm1 12
  let ymm1 := vpand ymm1 ymm3
  let ymm4 := vpslld ymm1 1
  let ymm1 := vpaddd ymm1 ymm4
  let ymm1 := vpsubd ymm1 ymm2
  ymm1

/-- Loop `loop1`, src/ntt_asm.S:206-242. -/
def loop1 (rsi : Nat) (ymm3 : V8) (s : Array Int × Nat) : M ((Array Int × Nat) × Bool) := do
  let (a, rax) := s
  let ymm0 ← load a rax
  let ymm1 ← load a (rax + 32)
  let ymm0 := loop1_blk_1 ymm0 ymm3
  let a ← store a rax ymm0
  let ymm1 := loop1_blk_2 ymm1 ymm3
  let a ← store a (rax + 32) ymm1
  let rax := rax + 64
  pure ((a, rax), decide (rax < rsi))

/-- `reduce_array_twice_asm`, src/ntt_asm.S:199-243. -/
def reduce_array_twice_asm (a : Array Int) (n : Nat) : M (Array Int) := do
  let rdi := 0
  let rsi := n
  let ymm3 := mask
  let rax := rdi
  let rsi := rdi + 4 * rsi
  let (a, _) ← jloop (loop1 rsi ymm3) n (a, rax)
  pure a

/-- src/ntt_asm.S:260-270 -/
def loop1b_blk_1 (ymm0 ymm3 : V8) : V8 :=
  let ymm2 := vpsrad ymm0 12
  let ymm0 := vpand ymm0 ymm3
  let ymm4 := vpslld ymm0 1
  let ymm0 := vpaddd ymm0 ymm4
  let ymm0 := vpsubd ymm0 ymm2
  let ymm2 := vpsrad ymm0 12
  let ymm0 := vpand ymm0 ymm3
  let ymm4 := vpslld ymm0 1
  let ymm0 := vpaddd ymm0 ymm4
  let ymm0 := vpsubd ymm0 ymm2
  ymm0

/-- Loop `loop1b`, src/ntt_asm.S:256-276. -/
def loop1b (rsi : Nat) (ymm3 : V8) (s : Array Int × Nat) : M ((Array Int × Nat) × Bool) := do
  let (a, rax) := s
  let ymm0 ← load a rax
  let ymm0 := loop1b_blk_1 ymm0 ymm3
  let a ← store a rax ymm0
  let rax := rax + 32
  pure ((a, rax), decide (rax < rsi))

/-- `reduce_array_twice_asm2`, src/ntt_asm.S:249-277. -/
def reduce_array_twice_asm2 (a : Array Int) (n : Nat) : M (Array Int) := do
  let rdi := 0
  let rsi := n
  let ymm3 := mask
  let rax := rdi
  let rsi := rdi + 4 * rsi
  let (a, _) ← jloop (loop1b rsi ymm3) n (a, rax)
  pure a

/-- src/ntt_asm.S:303-308 -/
def loop2_blk_1 (ymm0 ymm3 ymm4 : V8) : V8 :=
  let ymm2 := vpsrad ymm0 31
  let ymm5 := vpcmpgtd ymm0 ymm4
  let ymm2 := vpand ymm2 ymm3
  let ymm5 := vpand ymm5 ymm3
  let ymm0 := vpaddd ymm0 ymm2
  let ymm0 := vpsubd ymm0 ymm5
  ymm0

/-- src/ntt_asm.S:312-317 -/
def loop2_blk_2 (ymm1 ymm3 ymm4 : V8) : V8 :=
  let ymm2 := vpsrad ymm1 31
  let ymm5 := vpcmpgtd ymm1 ymm4
  let ymm2 := vpand ymm2 ymm3
  let ymm5 := vpand ymm5 ymm3
  let ymm1 := vpaddd ymm1 ymm2
  let ymm1 := vpsubd ymm1 ymm5
  ymm1

/-- Loop `loop2`, src/ntt_asm.S:299-323. -/
def loop2 (rsi : Nat) (ymm3 ymm4 : V8) (s : Array Int × Nat) : M ((Array Int × Nat) × Bool) := do
  let (a, rax) := s
  let ymm0 ← load a rax
  let ymm1 ← load a (rax + 32)
  let ymm0 := loop2_blk_1 ymm0 ymm3 ymm4
  let a ← store a rax ymm0
  let ymm1 := loop2_blk_2 ymm1 ymm3 ymm4
  let a ← store a (rax + 32) ymm1
  let rax := rax + 64
  pure ((a, rax), decide (rax < rsi))

/-- `correct_asm`, src/ntt_asm.S:291-324. -/
def correct_asm (a : Array Int) (n : Nat) : M (Array Int) := do
  let rdi := 0
  let rsi := n
  let ymm3 := q_x8
  let ymm4 := q_minus1_x8
  let rax := rdi
  let rsi := rdi + 4 * rsi
  let (a, _) ← jloop (loop2 rsi ymm3 ymm4) n (a, rax)
  pure a

/-- src/ntt_asm.S:349-351 -/
def loop_shift_blk_1 (ymm0 ymm3 ymm4 : V8) : V8 :=
  let ymm2 := vpcmpgtd ymm0 ymm4
  let ymm2 := vpand ymm2 ymm3
  let ymm0 := vpsubd ymm0 ymm2
  ymm0

/-- src/ntt_asm.S:355-357 -/
def loop_shift_blk_2 (ymm1 ymm3 ymm4 : V8) : V8 :=
  let ymm2 := vpcmpgtd ymm1 ymm4
  let ymm2 := vpand ymm2 ymm3
  let ymm1 := vpsubd ymm1 ymm2
  ymm1

/-- Loop `loop_shift`, src/ntt_asm.S:345-363. -/
def loop_shift (rsi : Nat) (ymm3 ymm4 : V8) (s : Array Int × Nat) :
    M ((Array Int × Nat) × Bool) := do
  let (a, rax) := s
  let ymm0 ← load a rax
  let ymm1 ← load a (rax + 32)
  let ymm0 := loop_shift_blk_1 ymm0 ymm3 ymm4
  let a ← store a rax ymm0
  let ymm1 := loop_shift_blk_2 ymm1 ymm3 ymm4
  let a ← store a (rax + 32) ymm1
  let rax := rax + 64
  pure ((a, rax), decide (rax < rsi))

/-- `shift_array_asm`, src/ntt_asm.S:337-364. -/
def shift_array_asm (a : Array Int) (n : Nat) : M (Array Int) := do
  let rdi := 0
  let rsi := n
  let ymm3 := q_x8
  let ymm4 := half_q_x8
  let rax := rdi
  let rsi := rdi + 4 * rsi
  let (a, _) ← jloop (loop_shift rsi ymm3 ymm4) n (a, rax)
  pure a

/-- src/ntt_asm.S:422-438 -/
def loop3_blk_1 (ymm0 ymm1 ymm4 : V8) : V8 :=
  let ymm2 := vpmuldq ymm0 ymm1
  let ymm0 := vpshufd ymm0 0x31
  let ymm1 := vpshufd ymm1 0x31
  let ymm3 := vpmuldq ymm0 ymm1
  let ymm0 := vpslldq ymm3 4
  let ymm0 := vpblendd ymm0 ymm2 0x55
  let ymm0 := vpand ymm0 ymm4
  let ymm3 := vpsrlq ymm3 12
  let ymm2 := vpsrlq ymm2 12
  let ymm3 := vpslldq ymm3 4
  let ymm1 := vpblendd ymm3 ymm2 0x55
  let ymm2 := vpslld ymm0 1
  let ymm0 := vpaddd ymm0 ymm2
  let ymm0 := vpsubd ymm0 ymm1
  ymm0

/-- Loop `loop3`, src/ntt_asm.S:417-445. -/
def loop3 (p : Array Int) (rsi : Nat) (ymm4 : V8) (s : Array Int × Nat × Nat) :
    M ((Array Int × Nat × Nat) × Bool) := do
  let (a, rax, rdx) := s
  let ymm0 ← load a rax
  let ymm1 ← load_sxwd p rdx
  let ymm0 := loop3_blk_1 ymm0 ymm1 ymm4
  let a ← store a rax ymm0
  let rax := rax + 32
  let rdx := rdx + 16
  pure ((a, rax, rdx), decide (rax < rsi))

/-- `mul_reduce_array16_asm`, src/ntt_asm.S:410-446. -/
def mul_reduce_array16_asm (a : Array Int) (n : Nat) (p : Array Int) : M (Array Int) := do
  let rdi := 0
  let rsi := n
  let rdx := 0
  let ymm4 := mask
  let rax := rdi
  let rsi := rdi + 4 * rsi
  let (a, _) ← jloop (loop3 p rsi ymm4) n (a, rax, rdx)
  pure a

/-- src/ntt_asm.S:462-471 -/
def loop4_blk_1 (ymm0 ymm1 ymm5 ymm6 : V8) : V8 :=
  let ymm0 := vpmuldq ymm1 ymm0
  let ymm3 := ymm0
  let ymm0 := vpand ymm6 ymm0
  let ymm3 := vpsrlq ymm3 12
  let ymm4 := vpslld ymm0 1
  let ymm3 := vpsubd ymm0 ymm3
  let ymm0 := vpaddd ymm3 ymm4
  let ymm0 := vpermd ymm5 ymm0
  ymm0

/-- Loop `loop4`, src/ntt_asm.S:459-477. -/
def loop4 (p : Array Int) (rsi : Nat) (ymm5 ymm6 : V8) (s : Array Int × Nat × Nat) :
    M ((Array Int × Nat × Nat) × Bool) := do
  let (a, rax, rdx) := s
  let ymm0 ← load_sxdq a rax
  let ymm1 ← load_sxwq p rdx
  let ymm0 := loop4_blk_1 ymm0 ymm1 ymm5 ymm6
  let a ← store128 a rax ymm0
  let rax := rax + 16
  let rdx := rdx + 8
  pure ((a, rax, rdx), decide (rax < rsi))

/-- `mul_reduce_array16_asm2`, src/ntt_asm.S:451-479. -/
def mul_reduce_array16_asm2 (a : Array Int) (n : Nat) (p : Array Int) : M (Array Int) := do
  let rdi := 0
  let rsi := n
  let rdx := 0
  let ymm5 := perm0246
  let ymm6 := mask
  let rax := rdi
  let rsi := rdi + 4 * rsi
  let (a, _) ← jloop (loop4 p rsi ymm5 ymm6) n (a, rax, rdx)
  pure a

/-- src/ntt_asm.S:507-523 -/
def loop5_blk_1 (ymm0 ymm1 ymm4 : V8) : V8 :=
  let ymm2 := vpmuldq ymm0 ymm1
  let ymm0 := vpshufd ymm0 0x31
  let ymm1 := vpshufd ymm1 0x31
  let ymm3 := vpmuldq ymm0 ymm1
  let ymm0 := vpslldq ymm3 4
  let ymm0 := vpblendd ymm0 ymm2 0x55
  let ymm0 := vpand ymm0 ymm4
  let ymm3 := vpsrlq ymm3 12
  let ymm2 := vpsrlq ymm2 12
  let ymm3 := vpslldq ymm3 4
  let ymm1 := vpblendd ymm3 ymm2 0x55
  let ymm2 := vpslld ymm0 1
  let ymm0 := vpaddd ymm0 ymm2
  let ymm0 := vpsubd ymm0 ymm1
  ymm0

/-- Loop `loop5`, src/ntt_asm.S:502-531; `b` and `c` are the arrays at `rdx` and `rcx`. -/
def loop5 (b c : Array Int) (rsi : Nat) (ymm4 : V8) (s : Array Int × Nat × Nat × Nat) :
    M ((Array Int × Nat × Nat × Nat) × Bool) := do
  let (a, rax, rdx, rcx) := s
  let ymm0 ← load b rdx
  let ymm1 ← load c rcx
  let ymm0 := loop5_blk_1 ymm0 ymm1 ymm4
  let a ← store a rax ymm0
  let rax := rax + 32
  let rdx := rdx + 32
  let rcx := rcx + 32
  pure ((a, rax, rdx, rcx), decide (rax < rsi))

/-- `mul_reduce_array_asm`, src/ntt_asm.S:495-532, for `a` distinct from `b` and `c`. -/
def mul_reduce_array_asm (a : Array Int) (n : Nat) (b c : Array Int) : M (Array Int) := do
  let rdi := 0
  let rsi := n
  let rdx := 0
  let rcx := 0
  let ymm4 := mask
  let rax := rdi
  let rsi := rdi + 4 * rsi
  let (a, _) ← jloop (loop5 b c rsi ymm4) n (a, rax, rdx, rcx)
  pure a

/-- src/ntt_asm.S:558-573 -/
def loop6_blk_1 (ymm0 ymm1 ymm4 : V8) : V8 :=
  let ymm2 := vpmuldq ymm0 ymm1
  let ymm0 := vpshufd ymm0 0x31
  let ymm3 := vpmuldq ymm0 ymm1
  let ymm0 := vpslldq ymm3 4
  let ymm0 := vpblendd ymm0 ymm2 0x55
  let ymm0 := vpand ymm0 ymm4
  let ymm3 := vpsrlq ymm3 12
  let ymm2 := vpsrlq ymm2 12
  let ymm3 := vpslldq ymm3 4
  let ymm3 := vpblendd ymm3 ymm2 0x55
  let ymm2 := vpslld ymm0 1
  let ymm0 := vpaddd ymm0 ymm2
  let ymm0 := vpsubd ymm0 ymm3
  ymm0

/-- Loop `loop6`, src/ntt_asm.S:554-579. -/
def loop6 (rsi : Nat) (ymm1 ymm4 : V8) (s : Array Int × Nat) : M ((Array Int × Nat) × Bool) := do
  let (a, rax) := s
  let ymm0 ← load a rax
  let ymm0 := loop6_blk_1 ymm0 ymm1 ymm4
  let a ← store a rax ymm0
  let rax := rax + 32
  pure ((a, rax), decide (rax < rsi))

/-- src/ntt_asm.S:552-552 -/
def scalar_mul_reduce_array_asm_blk_1 (ymm0 : V8) : V8 :=
  let ymm1 := vpbroadcastd ymm0
  ymm1

/-- `scalar_mul_reduce_array_asm`, src/ntt_asm.S:545-580.  `rdx` is the whole 64-bit register, whose
lower half is the `int32_t` argument `c`; the upper half is not specified by the ABI. -/
def scalar_mul_reduce_array_asm (a : Array Int) (n : Nat) (rdx : Int) : M (Array Int) := do
  let rdi := 0
  let rsi := n
  let ymm4 := mask
  let rax := rdi
  let rsi := rdi + 4 * rsi
  let ymm0 := vmovd rdx
  let ymm1 := scalar_mul_reduce_array_asm_blk_1 ymm0
  let (a, _) ← jloop (loop6 rsi ymm1 ymm4) n (a, rax)
  pure a

/-! ### Cooley-Tukey, bit-reverse to standard order -/

/-- src/ntt_asm.S:686-721 -/
def ct_r2s_size8_loop_blk_1 (ymm0 ymm4 ymm5 ymm6 : V8) : V8 :=
  let ymm1 := vpsrldq ymm0 4
  let ymm2 := vpaddd ymm0 ymm1
  let ymm3 := vpsubd ymm0 ymm1
  let ymm0 := vshufps ymm2 ymm3 0x44
  let ymm1 := vshufps ymm2 ymm3 0xee
  let ymm1 := vpmuldq ymm1 ymm6
  let ymm2 := vpand ymm1 ymm4
  let ymm1 := vpsrlq ymm1 12
  let ymm3 := vpslld ymm2 1
  let ymm2 := vpaddd ymm2 ymm3
  let ymm1 := vpsubd ymm2 ymm1
  let ymm2 := vpaddd ymm0 ymm1
  let ymm3 := vpsubd ymm0 ymm1
  let ymm0 := vperm2i128 ymm2 ymm3 0x20
  let ymm1 := vperm2i128 ymm2 ymm3 0x31
  let ymm1 := vpmuldq ymm1 ymm5
  let ymm2 := vpand ymm1 ymm4
  let ymm1 := vpsrlq ymm1 12
  let ymm3 := vpslld ymm2 1
  let ymm2 := vpaddd ymm2 ymm3
  let ymm1 := vpsubd ymm2 ymm1
  let ymm2 := vpaddd ymm0 ymm1
  let ymm3 := vpsubd ymm0 ymm1
  let ymm0 := vperm2i128 ymm2 ymm3 0x20
  let ymm1 := vperm2i128 ymm2 ymm3 0x31
  let ymm0 := vshufps ymm0 ymm1 0x88
  ymm0

/-- Loop `ct_r2s_size8_loop`, src/ntt_asm.S:683-728. -/
def ct_r2s_size8_loop (rsi : Nat) (ymm4 ymm5 ymm6 : V8) (s : Array Int × Nat) :
    M ((Array Int × Nat) × Bool) := do
  let (a, rax) := s
  let ymm0 ← load a rax
  let ymm0 := ct_r2s_size8_loop_blk_1 ymm0 ymm4 ymm5 ymm6
  let a ← store a rax ymm0
  let rax := rax + 32
  pure ((a, rax), decide (rax < rsi))

/-- src/ntt_asm.S:742-762 -/
def ct_r2s_size16_loop_blk_1 (ymm0 ymm1 ymm4 ymm5 ymm6 : V8) : V8 × V8 :=
  let ymm2 := vpmuldq ymm1 ymm6
  let ymm1 := vpshufd ymm1 0x31
  let ymm3 := vpmuldq ymm1 ymm5
  let ymm1 := vpslldq ymm3 4
  let ymm1 := vpblendd ymm1 ymm2 0x55
  let ymm1 := vpand ymm1 ymm4
  let ymm3 := vpsrlq ymm3 12
  let ymm2 := vpsrlq ymm2 12
  let ymm3 := vpslldq ymm3 4
  let ymm2 := vpblendd ymm3 ymm2 0x55
  let ymm3 := vpslld ymm1 1
  let ymm1 := vpaddd ymm1 ymm3
  let ymm1 := vpsubd ymm1 ymm2
  let ymm2 := vpaddd ymm0 ymm1
  let ymm3 := vpsubd ymm0 ymm1
  (ymm2, ymm3)

/-- Loop `ct_r2s_size16_loop`, src/ntt_asm.S:737-769. -/
def ct_r2s_size16_loop (rsi : Nat) (ymm4 ymm5 ymm6 : V8) (s : Array Int × Nat) :
    M ((Array Int × Nat) × Bool) := do
  let (a, rax) := s
  let ymm0 ← load a rax
  let ymm1 ← load a (rax + 32)
  let (ymm2, ymm3) := ct_r2s_size16_loop_blk_1 ymm0 ymm1 ymm4 ymm5 ymm6
  let a ← store a rax ymm2
  let a ← store a (rax + 32) ymm3
  let rax := rax + 64
  pure ((a, rax), decide (rax < rsi))

/-- src/ntt_asm.S:802-818 -/
def ct_r2s_inner_loop_blk_1 (ymm0 ymm1 ymm4 ymm6 : V8) : V8 × V8 :=
  let ymm2 := vpmuldq ymm1 ymm6
  let ymm1 := vpshufd ymm1 0x31
  let ymm6 := vpshufd ymm6 0x31
  let ymm3 := vpmuldq ymm1 ymm6
  let ymm1 := vpslldq ymm3 4
  let ymm1 := vpblendd ymm1 ymm2 0x55
  let ymm1 := vpand ymm1 ymm4
  let ymm3 := vpsrlq ymm3 12
  let ymm2 := vpsrlq ymm2 12
  let ymm3 := vpslldq ymm3 4
  let ymm2 := vpblendd ymm3 ymm2 0x55
  let ymm3 := vpslld ymm1 1
  let ymm1 := vpaddd ymm1 ymm3
  let ymm1 := vpsubd ymm1 ymm2
  let ymm2 := vpaddd ymm0 ymm1
  let ymm3 := vpsubd ymm0 ymm1
  (ymm2, ymm3)

/-- Loop `ct_r2s_inner_loop`, src/ntt_asm.S:796-827. -/
def ct_r2s_inner_loop (p : Array Int) (r8 : Nat) (ymm4 : V8) (s : Array Int × Nat × Nat × Nat) :
    M ((Array Int × Nat × Nat × Nat) × Bool) := do
  let (a, rax, rcx, rdx) := s
  let ymm0 ← load a rax
  let ymm1 ← load a rcx
  let ymm6 ← load_sxwd p rdx
  let (ymm2, ymm3) := ct_r2s_inner_loop_blk_1 ymm0 ymm1 ymm4 ymm6
  let a ← store a rax ymm2
  let a ← store a rcx ymm3
  let rdx := rdx + 16
  let rax := rax + 32
  let rcx := rcx + 32
  pure ((a, rax, rcx, rdx), decide (rcx < r8))

/-- Loop `ct_r2s_loop_aux1`, src/ntt_asm.S:785-832. -/
def ct_r2s_loop_aux1 (p : Array Int) (n rsi r10 r11 : Nat) (ymm4 : V8) (s : Array Int × Nat) :
    M ((Array Int × Nat) × Bool) := do
  let (a, rax) := s
  let rcx := rax + 2 * r10
  let r8 := rax + 4 * r10
  let rdx := r11
  let (a, _) ← jloop (ct_r2s_inner_loop p r8 ymm4) n (a, rax, rcx, rdx)
  let rax := r8
  pure ((a, rax), decide (rax < rsi))

/-- Loop `ct_r2s_size32_loop`, src/ntt_asm.S:782-839. -/
def ct_r2s_size32_loop (p : Array Int) (n rdi rsi r9 : Nat) (ymm4 : V8) (s : Array Int × Nat × Nat) :
    M ((Array Int × Nat × Nat) × Bool) := do
  let (a, r10, r11) := s
  let rax := rdi
  let (a, _) ← jloop (ct_r2s_loop_aux1 p n rsi r10 r11 ymm4) n (a, rax)
  let r11 := r11 + r10
  let r10 := 2 * r10
  pure ((a, r10, r11), decide (r10 ≤ r9))

/-- From `ct_r2s_size16_loop` to the end, src/ntt_asm.S:737-842. -/
def ct_r2s_tail (p : Array Int) (n rdi rsi rdx r9 : Nat) (ymm4 ymm5 ymm6 : V8) (a : Array Int)
    (rax : Nat) : M (Array Int) := do
  let (a, _) ← jloop (ct_r2s_size16_loop rsi ymm4 ymm5 ymm6) n (a, rax)
  if r9 ≤ 16 then pure a
  else do
    let r10 := 32
    let r11 := rdx + 32
    let (a, _) ← jloop (ct_r2s_size32_loop p n rdi rsi r9 ymm4) n (a, r10, r11)
    pure a

/-- src/ntt_asm.S:674-674 -/
def ntt_red_ct_rev2std_asm_blk_1 (ymm4 ymm5 : V8) : V8 :=
  let ymm5 := vpermd ymm5 ymm4
  ymm5

/-- src/ntt_asm.S:676-676 -/
def ntt_red_ct_rev2std_asm_blk_2 (ymm4 ymm6 : V8) : V8 :=
  let ymm6 := vpermd ymm6 ymm4
  ymm6

/-- src/ntt_asm.S:735-735 -/
def ntt_red_ct_rev2std_asm_2_blk_1 (ymm6 : V8) : V8 :=
  let ymm5 := vpshufd ymm6 0x31
  ymm5

/-- `ntt_red_ct_rev2std_asm`, src/ntt_asm.S:665-842. -/
def ntt_red_ct_rev2std_asm (a : Array Int) (n : Nat) (p : Array Int) : M (Array Int) := do
  let rdi := 0
  let rsi := n
  let rdx := 0
  let rax := rdi
  let r9 := rsi
  let rsi := rdi + 4 * rsi
  let ymm4 ← load_sxwd p rdx
  let ymm5 := perm5
  let ymm5 := ntt_red_ct_rev2std_asm_blk_1 ymm4 ymm5
  let ymm6 := perm4
  let ymm6 := ntt_red_ct_rev2std_asm_blk_2 ymm4 ymm6
  let ymm4 := mask
  let (a, _) ← jloop (ct_r2s_size8_loop rsi ymm4 ymm5 ymm6) n (a, rax)
  let rax := rdi
  let ymm6 ← load_sxwd p (rdx + 16)
  let ymm5 := ntt_red_ct_rev2std_asm_2_blk_1 ymm6
  ct_r2s_tail p n rdi rsi rdx r9 ymm4 ymm5 ymm6 a rax

/-- src/ntt_asm.S:888-929 -/
def mct_r2s_size8_loop2_blk_1 (ymm0 ymm4 ymm5 ymm6 ymm7 : V8) : V8 :=
  let ymm1 := vpsrldq ymm0 4
  let ymm1 := vpmuldq ymm1 ymm7
  let ymm2 := vpand ymm1 ymm4
  let ymm1 := vpsrlq ymm1 12
  let ymm3 := vpslld ymm2 1
  let ymm2 := vpaddd ymm2 ymm3
  let ymm1 := vpsubd ymm2 ymm1
  let ymm2 := vpaddd ymm0 ymm1
  let ymm3 := vpsubd ymm0 ymm1
  let ymm0 := vshufps ymm2 ymm3 0x44
  let ymm1 := vshufps ymm2 ymm3 0xee
  let ymm1 := vpmuldq ymm1 ymm6
  let ymm2 := vpand ymm1 ymm4
  let ymm1 := vpsrlq ymm1 12
  let ymm3 := vpslld ymm2 1
  let ymm2 := vpaddd ymm2 ymm3
  let ymm1 := vpsubd ymm2 ymm1
  let ymm2 := vpaddd ymm0 ymm1
  let ymm3 := vpsubd ymm0 ymm1
  let ymm0 := vperm2i128 ymm2 ymm3 0x20
  let ymm1 := vperm2i128 ymm2 ymm3 0x31
  let ymm1 := vpmuldq ymm1 ymm5
  let ymm2 := vpand ymm1 ymm4
  let ymm1 := vpsrlq ymm1 12
  let ymm3 := vpslld ymm2 1
  let ymm2 := vpaddd ymm2 ymm3
  let ymm1 := vpsubd ymm2 ymm1
  let ymm2 := vpaddd ymm0 ymm1
  let ymm3 := vpsubd ymm0 ymm1
  let ymm0 := vperm2i128 ymm2 ymm3 0x20
  let ymm1 := vperm2i128 ymm2 ymm3 0x31
  let ymm0 := vshufps ymm0 ymm1 0x88
  ymm0

/-- Loop `mct_r2s_size8_loop2`, src/ntt_asm.S:884-936. -/
def mct_r2s_size8_loop2 (rsi : Nat) (ymm4 ymm5 ymm6 ymm7 : V8) (s : Array Int × Nat) :
    M ((Array Int × Nat) × Bool) := do
  let (a, rax) := s
  let ymm0 ← load a rax
  let ymm0 := mct_r2s_size8_loop2_blk_1 ymm0 ymm4 ymm5 ymm6 ymm7
  let a ← store a rax ymm0
  let rax := rax + 32
  pure ((a, rax), decide (rax < rsi))

/-- src/ntt_asm.S:873-873 -/
def mulntt_red_ct_rev2std_asm_blk_1 (ymm4 ymm5 : V8) : V8 :=
  let ymm5 := vpermd ymm5 ymm4
  ymm5

/-- src/ntt_asm.S:875-875 -/
def mulntt_red_ct_rev2std_asm_blk_2 (ymm4 ymm6 : V8) : V8 :=
  let ymm6 := vpermd ymm6 ymm4
  ymm6

/-- src/ntt_asm.S:877-877 -/
def mulntt_red_ct_rev2std_asm_blk_3 (ymm4 ymm7 : V8) : V8 :=
  let ymm7 := vpermd ymm7 ymm4
  ymm7

/-- src/ntt_asm.S:944-944 -/
def mulntt_red_ct_rev2std_asm_2_blk_1 (ymm6 : V8) : V8 :=
  let ymm5 := vpshufd ymm6 0x31
  ymm5

/-- `mulntt_red_ct_rev2std_asm`, src/ntt_asm.S:864-945. -/
def mulntt_red_ct_rev2std_asm (a : Array Int) (n : Nat) (p : Array Int) : M (Array Int) := do
  let rdi := 0
  let rsi := n
  let rdx := 0
  let rax := rdi
  let r9 := rsi
  let rsi := rdi + 4 * rsi
  let ymm4 ← load_sxwd p rdx
  let ymm5 := perm5
  let ymm5 := mulntt_red_ct_rev2std_asm_blk_1 ymm4 ymm5
  let ymm6 := perm4
  let ymm6 := mulntt_red_ct_rev2std_asm_blk_2 ymm4 ymm6
  let ymm7 := perm3
  let ymm7 := mulntt_red_ct_rev2std_asm_blk_3 ymm4 ymm7
  let ymm4 := mask
  let (a, _) ← jloop (mct_r2s_size8_loop2 rsi ymm4 ymm5 ymm6 ymm7) n (a, rax)
  let rax := rdi
  let ymm6 ← load_sxwd p (rdx + 16)
  let ymm5 := mulntt_red_ct_rev2std_asm_2_blk_1 ymm6
  ct_r2s_tail p n rdi rsi rdx r9 ymm4 ymm5 ymm6 a rax

/-! ### Cooley-Tukey, standard to bit-reverse order -/

/-- src/ntt_asm.S:984-985 -/
def ct_s2r_loop1_blk_1 (ymm0 ymm1 : V8) : V8 × V8 :=
  let ymm2 := vpaddd ymm0 ymm1
  let ymm3 := vpsubd ymm0 ymm1
  (ymm2, ymm3)

/-- Loop `ct_s2r_loop1`, src/ntt_asm.S:981-991. -/
def ct_s2r_loop1 (r8 : Nat) (s : Array Int × Nat × Nat) : M ((Array Int × Nat × Nat) × Bool) := do
  let (a, rax, rcx) := s
  let ymm0 ← load a rax
  let ymm1 ← load a rcx
  let (ymm2, ymm3) := ct_s2r_loop1_blk_1 ymm0 ymm1
  let a ← store a rax ymm2
  let a ← store a rcx ymm3
  let rcx := rcx + 32
  let rax := rax + 32
  pure ((a, rax, rcx), decide (rcx < r8))

/-- src/ntt_asm.S:1013-1014 -/
def ct_s2r_loop2_inner1_blk_1 (ymm0 ymm1 : V8) : V8 × V8 :=
  let ymm2 := vpaddd ymm0 ymm1
  let ymm3 := vpsubd ymm0 ymm1
  (ymm2, ymm3)

/-- Loop `ct_s2r_loop2_inner1`, src/ntt_asm.S:1009-1020. -/
def ct_s2r_loop2_inner1 (r9 : Nat) (s : Array Int × Nat × Nat) :
    M ((Array Int × Nat × Nat) × Bool) := do
  let (a, rax, rcx) := s
  let ymm0 ← load a rax
  let ymm1 ← load a rcx
  let (ymm2, ymm3) := ct_s2r_loop2_inner1_blk_1 ymm0 ymm1
  let a ← store a rax ymm2
  let a ← store a rcx ymm3
  let rax := rax + 32
  let rcx := rcx + 32
  pure ((a, rax, rcx), decide (rax < r9))

/-- src/ntt_asm.S:1044-1061 -/
def ct_s2r_loop2_inner2_blk_1 (ymm0 ymm1 ymm4 ymm5 : V8) : V8 × V8 :=
  let ymm2 := vpmuldq ymm1 ymm5
  let ymm1 := vpshufd ymm1 0x31
  let ymm3 := vpmuldq ymm1 ymm5
  let ymm1 := vpslldq ymm3 4
  let ymm1 := vpblendd ymm1 ymm2 0x55
  let ymm1 := vpand ymm1 ymm4
  let ymm3 := vpsrlq ymm3 12
  let ymm2 := vpsrlq ymm2 12
  let ymm3 := vpslldq ymm3 4
  let ymm3 := vpblendd ymm3 ymm2 0x55
  let ymm2 := vpslld ymm1 1
  let ymm1 := vpaddd ymm1 ymm2
  let ymm1 := vpsubd ymm1 ymm3
  let ymm2 := vpaddd ymm0 ymm1
  let ymm3 := vpsubd ymm0 ymm1
  (ymm2, ymm3)

/-- Loop `ct_s2r_loop2_inner2`, src/ntt_asm.S:1039-1068. -/
def ct_s2r_loop2_inner2 (r9 : Nat) (ymm4 ymm5 : V8) (s : Array Int × Nat × Nat) :
    M ((Array Int × Nat × Nat) × Bool) := do
  let (a, rax, rcx) := s
  let ymm0 ← load a rax
  let ymm1 ← load a rcx
  let (ymm2, ymm3) := ct_s2r_loop2_inner2_blk_1 ymm0 ymm1 ymm4 ymm5
  let a ← store a rax ymm2
  let a ← store a rcx ymm3
  let rax := rax + 32
  let rcx := rcx + 32
  pure ((a, rax, rcx), decide (rax < r9))

/-- src/ntt_asm.S:1025-1025 -/
def ct_s2r_loop2_aux_blk_1 (ymm5 : V8) : V8 :=
  let ymm5 := vpmovsxwq ymm5
  ymm5

/-- Loop `ct_s2r_loop2_aux`, src/ntt_asm.S:1022-1071. -/
def ct_s2r_loop2_aux (p : Array Int) (n rsi r8 : Nat) (ymm4 : V8) (s : Array Int × Nat × Nat) :
    M ((Array Int × Nat × Nat) × Bool) := do
  let (a, rcx, rdx) := s
  let rdx := rdx + 2
  let ymm5 ← load_bdcstw p rdx
  let ymm5 := ct_s2r_loop2_aux_blk_1 ymm5
  let rax := rcx
  let rcx := rax + 2 * rsi
  let r9 := rcx
  let (a, _, rcx) ← jloop (ct_s2r_loop2_inner2 r9 ymm4 ymm5) n (a, rax, rcx)
  pure ((a, rcx, rdx), decide (rcx < r8))

/-- Loop `ct_s2r_loop2`, src/ntt_asm.S:1004-1076. -/
def ct_s2r_loop2 (p : Array Int) (n rdi r8 : Nat) (ymm4 : V8) (s : Array Int × Nat × Nat) :
    M ((Array Int × Nat × Nat) × Bool) := do
  let (a, rsi, rdx) := s
  let rax := rdi
  let rcx := rdi + 2 * rsi
  let r9 := rcx
  let (a, _, rcx) ← jloop (ct_s2r_loop2_inner1 r9) n (a, rax, rcx)
  let (a, _, rdx) ← jloop (ct_s2r_loop2_aux p n rsi r8 ymm4) n (a, rcx, rdx)
  let rdx := rdx + 2
  let rsi := rsi / 2
  pure ((a, rsi, rdx), decide (rsi > 8))

/-- src/ntt_asm.S:1088-1088 -/
def ct_s2r_finish_size4_blk_1 (ymm5 ymm6 : V8) : V8 :=
  let ymm5 := vpermd ymm6 ymm5
  ymm5

/-- src/ntt_asm.S:1092-1116 -/
def ct_s2r_finish_size4_blk_2 (ymm0 ymm1 ymm4 ymm5 : V8) : V8 × V8 :=
  let ymm2 := vperm2i128 ymm0 ymm1 0x20
  let ymm3 := vperm2i128 ymm0 ymm1 0x31
  let ymm0 := vpmuldq ymm3 ymm5
  let ymm3 := vpshufd ymm3 0x31
  let ymm1 := vpmuldq ymm3 ymm5
  let ymm3 := vpslldq ymm1 4
  let ymm3 := vpblendd ymm3 ymm0 0x55
  let ymm3 := vpand ymm3 ymm4
  let ymm1 := vpsrlq ymm1 12
  let ymm0 := vpsrlq ymm0 12
  let ymm1 := vpslldq ymm1 4
  let ymm1 := vpblendd ymm1 ymm0 0x55
  let ymm0 := vpslld ymm3 1
  let ymm3 := vpaddd ymm3 ymm0
  let ymm3 := vpsubd ymm3 ymm1
  let ymm0 := vpaddd ymm2 ymm3
  let ymm1 := vpsubd ymm2 ymm3
  let ymm2 := vperm2i128 ymm0 ymm1 0x20
  let ymm3 := vperm2i128 ymm0 ymm1 0x31
  (ymm2, ymm3)

/-- Loop `ct_s2r_finish_size4`, src/ntt_asm.S:1085-1124. -/
def ct_s2r_finish_size4 (p : Array Int) (r8 : Nat) (ymm4 ymm6 : V8) (s : Array Int × Nat × Nat) :
    M ((Array Int × Nat × Nat) × Bool) := do
  let (a, rax, rdx) := s
  let ymm5 ← load_sxwq128 p rdx
  let ymm5 := ct_s2r_finish_size4_blk_1 ymm5 ymm6
  let ymm0 ← load a rax
  let ymm1 ← load a (rax + 32)
  let (ymm2, ymm3) := ct_s2r_finish_size4_blk_2 ymm0 ymm1 ymm4 ymm5
  let a ← store a rax ymm2
  let a ← store a (rax + 32) ymm3
  let rax := rax + 64
  let rdx := rdx + 4
  pure ((a, rax, rdx), decide (rax < r8))

/-- src/ntt_asm.S:1131-1131 -/
def ct_s2r_finish_size2_blk_1 (ymm5 ymm6 : V8) : V8 :=
  let ymm5 := vpermd ymm6 ymm5
  ymm5

/-- src/ntt_asm.S:1136-1160 -/
def ct_s2r_finish_size2_blk_2 (ymm0 ymm1 ymm4 ymm5 : V8) : V8 × V8 :=
  let ymm2 := vshufpd ymm0 ymm1 0x00
  let ymm3 := vshufpd ymm0 ymm1 0x0f
  let ymm0 := vpmuldq ymm3 ymm5
  let ymm3 := vpshufd ymm3 0x31
  let ymm1 := vpmuldq ymm3 ymm5
  let ymm3 := vpslldq ymm1 4
  let ymm3 := vpblendd ymm3 ymm0 0x55
  let ymm3 := vpand ymm3 ymm4
  let ymm1 := vpsrlq ymm1 12
  let ymm0 := vpsrlq ymm0 12
  let ymm1 := vpslldq ymm1 4
  let ymm1 := vpblendd ymm1 ymm0 0x55
  let ymm0 := vpslld ymm3 1
  let ymm3 := vpaddd ymm3 ymm0
  let ymm3 := vpsubd ymm3 ymm1
  let ymm0 := vpaddd ymm2 ymm3
  let ymm1 := vpsubd ymm2 ymm3
  let ymm2 := vshufpd ymm0 ymm1 0x00
  let ymm3 := vshufpd ymm0 ymm1 0x0f
  (ymm2, ymm3)

/-- Loop `ct_s2r_finish_size2`, src/ntt_asm.S:1129-1168. -/
def ct_s2r_finish_size2 (p : Array Int) (r8 : Nat) (ymm4 ymm6 : V8) (s : Array Int × Nat × Nat) :
    M ((Array Int × Nat × Nat) × Bool) := do
  let (a, rax, rdx) := s
  let ymm5 ← load_sxwq p rdx
  let ymm5 := ct_s2r_finish_size2_blk_1 ymm5 ymm6
  let ymm0 ← load a rax
  let ymm1 ← load a (rax + 32)
  let (ymm2, ymm3) := ct_s2r_finish_size2_blk_2 ymm0 ymm1 ymm4 ymm5
  let a ← store a rax ymm2
  let a ← store a (rax + 32) ymm3
  let rax := rax + 64
  let rdx := rdx + 8
  pure ((a, rax, rdx), decide (rax < r8))

/-- src/ntt_asm.S:1178-1205 -/
def ct_s2r_finish_size1_blk_1 (ymm0 ymm1 ymm4 ymm5 ymm6 : V8) : V8 × V8 :=
  let ymm2 := vpslldq ymm1 4
  let ymm2 := vpblendd ymm0 ymm2 0xaa
  let ymm0 := vpsrldq ymm0 4
  let ymm0 := vpmuldq ymm0 ymm5
  let ymm1 := vpsrldq ymm1 4
  let ymm1 := vpmuldq ymm1 ymm6
  let ymm3 := vpslldq ymm1 4
  let ymm3 := vpblendd ymm3 ymm0 0x55
  let ymm3 := vpand ymm3 ymm4
  let ymm1 := vpsrlq ymm1 12
  let ymm0 := vpsrlq ymm0 12
  let ymm1 := vpslldq ymm1 4
  let ymm1 := vpblendd ymm1 ymm0 0x55
  let ymm0 := vpslld ymm3 1
  let ymm3 := vpaddd ymm3 ymm0
  let ymm3 := vpsubd ymm3 ymm1
  let ymm0 := vpaddd ymm2 ymm3
  let ymm1 := vpsubd ymm2 ymm3
  let ymm2 := vpslldq ymm1 4
  let ymm2 := vpblendd ymm0 ymm2 0xaa
  let ymm0 := vpsrldq ymm0 4
  let ymm3 := vpblendd ymm0 ymm1 0xaa
  (ymm2, ymm3)

/-- Loop `ct_s2r_finish_size1`, src/ntt_asm.S:1171-1213. -/
def ct_s2r_finish_size1 (p : Array Int) (r8 : Nat) (ymm4 : V8) (s : Array Int × Nat × Nat) :
    M ((Array Int × Nat × Nat) × Bool) := do
  let (a, rax, rdx) := s
  let ymm5 ← load_sxwq p rdx
  let ymm6 ← load_sxwq p (rdx + 8)
  let ymm0 ← load a rax
  let ymm1 ← load a (rax + 32)
  let (ymm2, ymm3) := ct_s2r_finish_size1_blk_1 ymm0 ymm1 ymm4 ymm5 ymm6
  let a ← store a rax ymm2
  let a ← store a (rax + 32) ymm3
  let rax := rax + 64
  let rdx := rdx + 16
  pure ((a, rax, rdx), decide (rax < r8))

/-- From `ct_s2r_finish` to the end, src/ntt_asm.S:1082-1215. -/
def ct_s2r_finish (p : Array Int) (n rdi r8 : Nat) (ymm4 : V8) (a : Array Int) (rdx : Nat) :
    M (Array Int) := do
  let rax := rdi
  let ymm6 := perm2020
  let (a, _, rdx) ← jloop (ct_s2r_finish_size4 p r8 ymm4 ymm6) n (a, rax, rdx)
  let rax := rdi
  let ymm6 := perm0426
  let (a, _, rdx) ← jloop (ct_s2r_finish_size2 p r8 ymm4 ymm6) n (a, rax, rdx)
  let rax := rdi
  let (a, _) ← jloop (ct_s2r_finish_size1 p r8 ymm4) n (a, rax, rdx)
  pure a

/-- `ntt_red_ct_std2rev_asm`, src/ntt_asm.S:961-1215. -/
def ntt_red_ct_std2rev_asm (a : Array Int) (n : Nat) (p : Array Int) : M (Array Int) := do
  let rdi := 0
  let rsi := n
  let rdx := 0
  let r8 := rdi + 4 * rsi
  let ymm4 := mask
  let rax := rdi
  let rcx := rdi + 2 * rsi
  let (a, _) ← jloop (ct_s2r_loop1 r8) n (a, rax, rcx)
  let rdx := rdx + 4
  let rsi := rsi / 2
  if rsi ≤ 8 then ct_s2r_finish p n rdi r8 ymm4 a rdx
  else do
    let (a, _, rdx) ← jloop (ct_s2r_loop2 p n rdi r8 ymm4) n (a, rsi, rdx)
    ct_s2r_finish p n rdi r8 ymm4 a rdx

/-- src/ntt_asm.S:1262-1279 -/
def mct_s2r_loop_inner_blk_1 (ymm0 ymm1 ymm4 ymm5 : V8) : V8 × V8 :=
  let ymm2 := vpmuldq ymm1 ymm5
  let ymm1 := vpshufd ymm1 0x31
  let ymm3 := vpmuldq ymm1 ymm5
  let ymm1 := vpslldq ymm3 4
  let ymm1 := vpblendd ymm1 ymm2 0x55
  let ymm1 := vpand ymm1 ymm4
  let ymm3 := vpsrlq ymm3 12
  let ymm2 := vpsrlq ymm2 12
  let ymm3 := vpslldq ymm3 4
  let ymm3 := vpblendd ymm3 ymm2 0x55
  let ymm2 := vpslld ymm1 1
  let ymm1 := vpaddd ymm1 ymm2
  let ymm1 := vpsubd ymm1 ymm3
  let ymm2 := vpaddd ymm0 ymm1
  let ymm3 := vpsubd ymm0 ymm1
  (ymm2, ymm3)

/-- Loop `mct_s2r_loop_inner`, src/ntt_asm.S:1257-1286. -/
def mct_s2r_loop_inner (r9 : Nat) (ymm4 ymm5 : V8) (s : Array Int × Nat × Nat) :
    M ((Array Int × Nat × Nat) × Bool) := do
  let (a, rax, rcx) := s
  let ymm0 ← load a rax
  let ymm1 ← load a rcx
  let (ymm2, ymm3) := mct_s2r_loop_inner_blk_1 ymm0 ymm1 ymm4 ymm5
  let a ← store a rax ymm2
  let a ← store a rcx ymm3
  let rax := rax + 32
  let rcx := rcx + 32
  pure ((a, rax, rcx), decide (rax < r9))

/-- src/ntt_asm.S:1250-1250 -/
def mct_s2r_loop_aux_blk_1 (ymm5 : V8) : V8 :=
  let ymm5 := vpmovsxwq ymm5
  ymm5

/-- Loop `mct_s2r_loop_aux`, src/ntt_asm.S:1247-1292. -/
def mct_s2r_loop_aux (p : Array Int) (n rsi r8 : Nat) (ymm4 : V8)
    (s : Array Int × Nat × Nat × Nat × Nat) : M ((Array Int × Nat × Nat × Nat × Nat) × Bool) := do
  let (a, rax, rcx, r9, rdx) := s
  let rdx := rdx + 2
  let ymm5 ← load_bdcstw p rdx
  let ymm5 := mct_s2r_loop_aux_blk_1 ymm5
  let (a, _, rcx) ← jloop (mct_s2r_loop_inner r9 ymm4 ymm5) n (a, rax, rcx)
  let rax := rcx
  let rcx := rax + 2 * rsi
  let r9 := rcx
  pure ((a, rax, rcx, r9, rdx), decide (rax < r8))

/-- Loop `mct_s2r_loop`, src/ntt_asm.S:1242-1296. -/
def mct_s2r_loop (p : Array Int) (n rdi r8 : Nat) (ymm4 : V8) (s : Array Int × Nat × Nat) :
    M ((Array Int × Nat × Nat) × Bool) := do
  let (a, rsi, rdx) := s
  let rax := rdi
  let rcx := rdi + 2 * rsi
  let r9 := rcx
  let (a, _, _, _, rdx) ← jloop (mct_s2r_loop_aux p n rsi r8 ymm4) n (a, rax, rcx, r9, rdx)
  let rsi := rsi / 2
  pure ((a, rsi, rdx), decide (rsi > 8))

/-- `mulntt_red_ct_std2rev_asm`, src/ntt_asm.S:1233-1302. -/
def mulntt_red_ct_std2rev_asm (a : Array Int) (n : Nat) (p : Array Int) : M (Array Int) := do
  let rdi := 0
  let rsi := n
  let rdx := 0
  let r8 := rdi + 4 * rsi
  let ymm4 := mask
  let (a, _, rdx) ← jloop (mct_s2r_loop p n rdi r8 ymm4) n (a, rsi, rdx)
  let rdx := rdx + 2
  ct_s2r_finish p n rdi r8 ymm4 a rdx

/-! ### Gentleman-Sande, bit-reverse to standard order -/

/-- src/ntt_asm.S:1341-1349 -/
def gs_r2s_loop0_blk_1 (ymm0 ymm4 ymm5 : V8) : V8 × V8 :=
  let ymm1 := vpsrldq ymm0 4
  let ymm2 := vpsubd ymm0 ymm1
  let ymm0 := vpaddd ymm0 ymm1
  let ymm2 := vpmuldq ymm2 ymm5
  let ymm3 := vpand ymm2 ymm4
  let ymm2 := vpsrlq ymm2 12
  let ymm1 := vpslld ymm3 1
  let ymm3 := vpaddd ymm3 ymm1
  let ymm1 := vpsubd ymm3 ymm2
  (ymm0, ymm1)

/-- src/ntt_asm.S:1356-1368 -/
def gs_r2s_loop0_blk_2 (ymm0 ymm1 ymm4 ymm5 ymm6 : V8) : V8 × V8 :=
  let ymm5 := vpermd ymm6 ymm5
  let ymm2 := vshufps ymm0 ymm1 0x44
  let ymm3 := vshufps ymm0 ymm1 0xee
  let ymm1 := vpsubd ymm2 ymm3
  let ymm0 := vpaddd ymm2 ymm3
  let ymm1 := vpmuldq ymm1 ymm5
  let ymm3 := vpand ymm1 ymm4
  let ymm2 := vpsrlq ymm1 12
  let ymm1 := vpslld ymm3 1
  let ymm3 := vpaddd ymm3 ymm1
  let ymm1 := vpsubd ymm3 ymm2
  (ymm0, ymm1)

/-- src/ntt_asm.S:1374-1391 -/
def gs_r2s_loop0_blk_3 (ymm0 ymm1 ymm4 ymm5 : V8) : V8 :=
  let ymm5 := vpmovsxwq ymm5
  let ymm2 := vperm2i128 ymm0 ymm1 0x20
  let ymm3 := vperm2i128 ymm0 ymm1 0x31
  let ymm1 := vpsubd ymm2 ymm3
  let ymm0 := vpaddd ymm2 ymm3
  let ymm1 := vpmuldq ymm1 ymm5
  let ymm3 := vpand ymm1 ymm4
  let ymm2 := vpsrlq ymm1 12
  let ymm1 := vpslld ymm3 1
  let ymm3 := vpaddd ymm3 ymm1
  let ymm1 := vpsubd ymm3 ymm2
  let ymm2 := vperm2i128 ymm0 ymm1 0x20
  let ymm3 := vperm2i128 ymm0 ymm1 0x31
  let ymm0 := vshufps ymm2 ymm3 0x88
  ymm0

/-- Loop `gs_r2s_loop0`, src/ntt_asm.S:1336-1399. -/
def gs_r2s_loop0 (p : Array Int) (rcx : Nat) (ymm4 ymm6 : V8)
    (s : Array Int × Nat × Nat × Nat × Nat) : M ((Array Int × Nat × Nat × Nat × Nat) × Bool) := do
  let (a, rax, r8, r9, r10) := s
  let ymm5 ← load_sxwq p r8
  let ymm0 ← load a rax
  let (ymm0, ymm1) := gs_r2s_loop0_blk_1 ymm0 ymm4 ymm5
  let ymm5 ← load_sxwq128 p r9
  let (ymm0, ymm1) := gs_r2s_loop0_blk_2 ymm0 ymm1 ymm4 ymm5 ymm6
  let ymm5 ← load_bdcstw p r10
  let ymm0 := gs_r2s_loop0_blk_3 ymm0 ymm1 ymm4 ymm5
  let a ← store a rax ymm0
  let rax := rax + 32
  let r8 := r8 + 8
  let r9 := r9 + 4
  let r10 := r10 + 2
  pure ((a, rax, r8, r9, r10), decide (rax < rcx))

/-- src/ntt_asm.S:1426-1426 -/
def gs_r2s_size16_loop_blk_1 (ymm5 : V8) : V8 :=
  let ymm5 := vpmovsxwq ymm5
  ymm5

/-- src/ntt_asm.S:1430-1446 -/
def gs_r2s_size16_loop_blk_2 (ymm0 ymm1 ymm4 ymm5 : V8) : V8 × V8 :=
  let ymm2 := vpsubd ymm0 ymm1
  let ymm0 := vpaddd ymm0 ymm1
  let ymm1 := vpmuldq ymm2 ymm5
  let ymm2 := vpshufd ymm2 0x31
  let ymm3 := vpmuldq ymm2 ymm5
  let ymm2 := vpslldq ymm3 4
  let ymm2 := vpblendd ymm2 ymm1 0x55
  let ymm2 := vpand ymm2 ymm4
  let ymm1 := vpsrlq ymm1 12
  let ymm3 := vpsrlq ymm3 12
  let ymm3 := vpslldq ymm3 4
  let ymm1 := vpblendd ymm3 ymm1 0x55
  let ymm3 := vpslld ymm2 1
  let ymm2 := vpaddd ymm2 ymm3
  let ymm1 := vpsubd ymm2 ymm1
  (ymm0, ymm1)

/-- Loop `gs_r2s_size16_loop`, src/ntt_asm.S:1424-1454. -/
def gs_r2s_size16_loop (p : Array Int) (rcx : Nat) (ymm4 : V8) (s : Array Int × Nat × Nat) :
    M ((Array Int × Nat × Nat) × Bool) := do
  let (a, rax, r9) := s
  let ymm5 ← load_bdcstw p r9
  let ymm5 := gs_r2s_size16_loop_blk_1 ymm5
  let ymm0 ← load a rax
  let ymm1 ← load a (rax + 32)
  let (ymm0, ymm1) := gs_r2s_size16_loop_blk_2 ymm0 ymm1 ymm4 ymm5
  let a ← store a rax ymm0
  let a ← store a (rax + 32) ymm1
  let rax := rax + 64
  let r9 := r9 + 2
  pure ((a, rax, r9), decide (rax < rcx))

/-- src/ntt_asm.S:1474-1475 -/
def gs_r2s_size32_first_blocks_blk_1 (ymm0 ymm1 : V8) : V8 × V8 :=
  let ymm2 := vpsubd ymm0 ymm1
  let ymm0 := vpaddd ymm0 ymm1
  (ymm0, ymm2)

/-- Loop `gs_r2s_size32_first_blocks`, src/ntt_asm.S:1470-1482. -/
def gs_r2s_size32_first_blocks (r8 : Nat) (s : Array Int × Nat × Nat) :
    M ((Array Int × Nat × Nat) × Bool) := do
  let (a, rax, rcx) := s
  let ymm0 ← load a rax
  let ymm1 ← load a rcx
  let (ymm0, ymm2) := gs_r2s_size32_first_blocks_blk_1 ymm0 ymm1
  let a ← store a rax ymm0
  let a ← store a rcx ymm2
  let rax := rax + 32
  let rcx := rcx + 32
  pure ((a, rax, rcx), decide (rax < r8))

/-- src/ntt_asm.S:1498-1515 -/
def gs_r2s_size32_inner_loop_blk_1 (ymm0 ymm1 ymm4 ymm5 : V8) : V8 × V8 :=
  let ymm2 := vpsubd ymm0 ymm1
  let ymm0 := vpaddd ymm0 ymm1
  let ymm1 := vpmuldq ymm2 ymm5
  let ymm2 := vpshufd ymm2 0x31
  let ymm3 := vpmuldq ymm2 ymm5
  let ymm2 := vpslldq ymm3 4
  let ymm2 := vpblendd ymm2 ymm1 0x55
  let ymm2 := vpand ymm2 ymm4
  let ymm1 := vpsrlq ymm1 12
  let ymm3 := vpsrlq ymm3 12
  let ymm3 := vpslldq ymm3 4
  let ymm1 := vpblendd ymm3 ymm1 0x55
  let ymm3 := vpslld ymm2 1
  let ymm2 := vpaddd ymm2 ymm3
  let ymm1 := vpsubd ymm2 ymm1
  (ymm0, ymm1)

/-- Loop `gs_r2s_size32_inner_loop`, src/ntt_asm.S:1495-1523. -/
def gs_r2s_size32_inner_loop (r8 : Nat) (ymm4 ymm5 : V8) (s : Array Int × Nat × Nat) :
    M ((Array Int × Nat × Nat) × Bool) := do
  let (a, rax, rcx) := s
  let ymm0 ← load a rax
  let ymm1 ← load a rcx
  let (ymm0, ymm1) := gs_r2s_size32_inner_loop_blk_1 ymm0 ymm1 ymm4 ymm5
  let a ← store a rax ymm0
  let a ← store a rcx ymm1
  let rax := rax + 32
  let rcx := rcx + 32
  pure ((a, rax, rcx), decide (rax < r8))

/-- src/ntt_asm.S:1491-1491 -/
def gs_r2s_size32_other_blocks_blk_1 (ymm5 : V8) : V8 :=
  let ymm5 := vpmovsxwq ymm5
  ymm5

/-- Loop `gs_r2s_size32_other_blocks`, src/ntt_asm.S:1487-1526. -/
def gs_r2s_size32_other_blocks (p : Array Int) (n r10 r11 : Nat) (ymm4 : V8)
    (s : Array Int × Nat × Nat) : M ((Array Int × Nat × Nat) × Bool) := do
  let (a, rcx, r9) := s
  let r9 := r9 + 2
  let ymm5 ← load_bdcstw p r9
  let ymm5 := gs_r2s_size32_other_blocks_blk_1 ymm5
  let rax := rcx
  let rcx := rcx + r11
  let r8 := rcx
  let (a, _, rcx) ← jloop (gs_r2s_size32_inner_loop r8 ymm4 ymm5) n (a, rax, rcx)
  pure ((a, rcx, r9), decide (rcx < r10))

/-- Loop `gs_r2s_size32_loop`, src/ntt_asm.S:1463-1529; the jump to `gs_r2s_done` (1485) leaves it. -/
def gs_r2s_size32_loop (p : Array Int) (n rdi rdx r10 : Nat) (ymm4 : V8) (s : Array Int × Nat × Nat) :
    M ((Array Int × Nat × Nat) × Bool) := do
  let (a, rsi, r11) := s
  let rax := rdi
  let rcx := rax + r11
  let r8 := rcx
  let rsi := rsi / 2
  let r9 := rdx + rsi
  let (a, _, rcx) ← jloop (gs_r2s_size32_first_blocks r8) n (a, rax, rcx)
  if rcx ≥ r10 then pure ((a, rsi, r11), false)
  else do
    let (a, _) ← jloop (gs_r2s_size32_other_blocks p n r10 r11 ymm4) n (a, rcx, r9)
    let r11 := 2 * r11
    pure ((a, rsi, r11), true)

/-- src/ntt_asm.S:1411-1412 -/
def ntt_red_gs_rev2std_asm_2_blk_1 (ymm0 ymm1 : V8) : V8 × V8 :=
  let ymm2 := vpsubd ymm0 ymm1
  let ymm0 := vpaddd ymm0 ymm1
  (ymm0, ymm2)

/-- `ntt_red_gs_rev2std_asm`, src/ntt_asm.S:1318-1532. -/
def ntt_red_gs_rev2std_asm (a : Array Int) (n : Nat) (p : Array Int) : M (Array Int) := do
  let rdi := 0
  let rsi := n
  let rdx := 0
  let rcx := rdi + 4 * rsi
  let r8 := rdx + rsi
  let rsi := rsi / 2
  let r9 := rdx + rsi
  let rsi := rsi / 2
  let r10 := rdx + rsi
  let rax := rdi
  let ymm4 := mask
  let ymm6 := perm2020
  let (a, _) ← jloop (gs_r2s_loop0 p rcx ymm4 ymm6) n (a, rax, r8, r9, r10)
  let rax := rdi
  let ymm0 ← load a rax
  let ymm1 ← load a (rax + 32)
  let (ymm0, ymm2) := ntt_red_gs_rev2std_asm_2_blk_1 ymm0 ymm1
  let a ← store a rax ymm0
  let a ← store a (rax + 32) ymm2
  let rax := rax + 64
  if rax ≥ rcx then pure a
  else do
    let rsi := rsi / 2
    let r9 := rdx + rsi + 2
    let (a, _) ← jloop (gs_r2s_size16_loop p rcx ymm4) n (a, rax, r9)
    let r10 := rcx
    let r11 := 64
    let (a, _) ← jloop (gs_r2s_size32_loop p n rdi rdx r10 ymm4) n (a, rsi, r11)
    pure a

/-- src/ntt_asm.S:1573-1581 -/
def mgs_r2s_loop0_blk_1 (ymm0 ymm4 ymm5 : V8) : V8 × V8 :=
  let ymm1 := vpsrldq ymm0 4
  let ymm2 := vpsubd ymm0 ymm1
  let ymm0 := vpaddd ymm0 ymm1
  let ymm2 := vpmuldq ymm2 ymm5
  let ymm3 := vpand ymm2 ymm4
  let ymm2 := vpsrlq ymm2 12
  let ymm1 := vpslld ymm3 1
  let ymm3 := vpaddd ymm3 ymm1
  let ymm1 := vpsubd ymm3 ymm2
  (ymm0, ymm1)

/-- src/ntt_asm.S:1588-1600 -/
def mgs_r2s_loop0_blk_2 (ymm0 ymm1 ymm4 ymm5 ymm6 : V8) : V8 × V8 :=
  let ymm5 := vpermd ymm6 ymm5
  let ymm2 := vshufps ymm0 ymm1 0x44
  let ymm3 := vshufps ymm0 ymm1 0xee
  let ymm1 := vpsubd ymm2 ymm3
  let ymm0 := vpaddd ymm2 ymm3
  let ymm1 := vpmuldq ymm1 ymm5
  let ymm3 := vpand ymm1 ymm4
  let ymm2 := vpsrlq ymm1 12
  let ymm1 := vpslld ymm3 1
  let ymm3 := vpaddd ymm3 ymm1
  let ymm1 := vpsubd ymm3 ymm2
  (ymm0, ymm1)

/-- src/ntt_asm.S:1606-1623 -/
def mgs_r2s_loop0_blk_3 (ymm0 ymm1 ymm4 ymm5 : V8) : V8 :=
  let ymm5 := vpmovsxwq ymm5
  let ymm2 := vperm2i128 ymm0 ymm1 0x20
  let ymm3 := vperm2i128 ymm0 ymm1 0x31
  let ymm1 := vpsubd ymm2 ymm3
  let ymm0 := vpaddd ymm2 ymm3
  let ymm1 := vpmuldq ymm1 ymm5
  let ymm3 := vpand ymm1 ymm4
  let ymm2 := vpsrlq ymm1 12
  let ymm1 := vpslld ymm3 1
  let ymm3 := vpaddd ymm3 ymm1
  let ymm1 := vpsubd ymm3 ymm2
  let ymm2 := vperm2i128 ymm0 ymm1 0x20
  let ymm3 := vperm2i128 ymm0 ymm1 0x31
  let ymm0 := vshufps ymm2 ymm3 0x88
  ymm0

/-- Loop `mgs_r2s_loop0`, src/ntt_asm.S:1568-1631. -/
def mgs_r2s_loop0 (p : Array Int) (rcx : Nat) (ymm4 ymm6 : V8)
    (s : Array Int × Nat × Nat × Nat × Nat) : M ((Array Int × Nat × Nat × Nat × Nat) × Bool) := do
  let (a, rax, r8, r9, r10) := s
  let ymm5 ← load_sxwq p r8
  let ymm0 ← load a rax
  let (ymm0, ymm1) := mgs_r2s_loop0_blk_1 ymm0 ymm4 ymm5
  let ymm5 ← load_sxwq128 p r9
  let (ymm0, ymm1) := mgs_r2s_loop0_blk_2 ymm0 ymm1 ymm4 ymm5 ymm6
  let ymm5 ← load_bdcstw p r10
  let ymm0 := mgs_r2s_loop0_blk_3 ymm0 ymm1 ymm4 ymm5
  let a ← store a rax ymm0
  let rax := rax + 32
  let r8 := r8 + 8
  let r9 := r9 + 4
  let r10 := r10 + 2
  pure ((a, rax, r8, r9, r10), decide (rax < rcx))

/-- src/ntt_asm.S:1641-1641 -/
def mgs_r2s_size16_loop_blk_1 (ymm5 : V8) : V8 :=
  let ymm5 := vpmovsxwq ymm5
  ymm5

/-- src/ntt_asm.S:1645-1661 -/
def mgs_r2s_size16_loop_blk_2 (ymm0 ymm1 ymm4 ymm5 : V8) : V8 × V8 :=
  let ymm2 := vpsubd ymm0 ymm1
  let ymm0 := vpaddd ymm0 ymm1
  let ymm1 := vpmuldq ymm2 ymm5
  let ymm2 := vpshufd ymm2 0x31
  let ymm3 := vpmuldq ymm2 ymm5
  let ymm2 := vpslldq ymm3 4
  let ymm2 := vpblendd ymm2 ymm1 0x55
  let ymm2 := vpand ymm2 ymm4
  let ymm1 := vpsrlq ymm1 12
  let ymm3 := vpsrlq ymm3 12
  let ymm3 := vpslldq ymm3 4
  let ymm1 := vpblendd ymm3 ymm1 0x55
  let ymm3 := vpslld ymm2 1
  let ymm2 := vpaddd ymm2 ymm3
  let ymm1 := vpsubd ymm2 ymm1
  (ymm0, ymm1)

/-- Loop `mgs_r2s_size16_loop`, src/ntt_asm.S:1639-1669. -/
def mgs_r2s_size16_loop (p : Array Int) (rcx : Nat) (ymm4 : V8) (s : Array Int × Nat × Nat) :
    M ((Array Int × Nat × Nat) × Bool) := do
  let (a, rax, r9) := s
  let ymm5 ← load_bdcstw p r9
  let ymm5 := mgs_r2s_size16_loop_blk_1 ymm5
  let ymm0 ← load a rax
  let ymm1 ← load a (rax + 32)
  let (ymm0, ymm1) := mgs_r2s_size16_loop_blk_2 ymm0 ymm1 ymm4 ymm5
  let a ← store a rax ymm0
  let a ← store a (rax + 32) ymm1
  let rax := rax + 64
  let r9 := r9 + 2
  pure ((a, rax, r9), decide (rax < rcx))

/-- src/ntt_asm.S:1694-1711 -/
def mgs_r2s_size32_inner_loop_blk_1 (ymm0 ymm1 ymm4 ymm5 : V8) : V8 × V8 :=
  let ymm2 := vpsubd ymm0 ymm1
  let ymm0 := vpaddd ymm0 ymm1
  let ymm1 := vpmuldq ymm2 ymm5
  let ymm2 := vpshufd ymm2 0x31
  let ymm3 := vpmuldq ymm2 ymm5
  let ymm2 := vpslldq ymm3 4
  let ymm2 := vpblendd ymm2 ymm1 0x55
  let ymm2 := vpand ymm2 ymm4
  let ymm1 := vpsrlq ymm1 12
  let ymm3 := vpsrlq ymm3 12
  let ymm3 := vpslldq ymm3 4
  let ymm1 := vpblendd ymm3 ymm1 0x55
  let ymm3 := vpslld ymm2 1
  let ymm2 := vpaddd ymm2 ymm3
  let ymm1 := vpsubd ymm2 ymm1
  (ymm0, ymm1)

/-- Loop `mgs_r2s_size32_inner_loop`, src/ntt_asm.S:1691-1719. -/
def mgs_r2s_size32_inner_loop (r8 : Nat) (ymm4 ymm5 : V8) (s : Array Int × Nat × Nat) :
    M ((Array Int × Nat × Nat) × Bool) := do
  let (a, rax, rcx) := s
  let ymm0 ← load a rax
  let ymm1 ← load a rcx
  let (ymm0, ymm1) := mgs_r2s_size32_inner_loop_blk_1 ymm0 ymm1 ymm4 ymm5
  let a ← store a rax ymm0
  let a ← store a rcx ymm1
  let rax := rax + 32
  let rcx := rcx + 32
  pure ((a, rax, rcx), decide (rax < r8))

/-- src/ntt_asm.S:1689-1689 -/
def mgs_r2s_size32_blocks_blk_1 (ymm5 : V8) : V8 :=
  let ymm5 := vpmovsxwq ymm5
  ymm5

/-- Loop `mgs_r2s_size32_blocks`, src/ntt_asm.S:1687-1726. -/
def mgs_r2s_size32_blocks (p : Array Int) (n r10 r11 : Nat) (ymm4 : V8)
    (s : Array Int × Nat × Nat × Nat × Nat) : M ((Array Int × Nat × Nat × Nat × Nat) × Bool) := do
  let (a, rax, rcx, r8, r9) := s
  let ymm5 ← load_bdcstw p r9
  let ymm5 := mgs_r2s_size32_blocks_blk_1 ymm5
  let (a, _, rcx) ← jloop (mgs_r2s_size32_inner_loop r8 ymm4 ymm5) n (a, rax, rcx)
  let rax := rcx
  let rcx := rcx + r11
  let r8 := rcx
  let r9 := r9 + 2
  pure ((a, rax, rcx, r8, r9), decide (rax < r10))

/-- Loop `mgs_r2s_size32_loop`, src/ntt_asm.S:1680-1730. -/
def mgs_r2s_size32_loop (p : Array Int) (n rdi rdx r10 : Nat) (ymm4 : V8)
    (s : Array Int × Nat × Nat) : M ((Array Int × Nat × Nat) × Bool) := do
  let (a, rsi, r11) := s
  let rax := rdi
  let rcx := rax + r11
  let r8 := rcx
  let rsi := rsi / 2
  let r9 := rdx + rsi
  let (a, _) ← jloop (mgs_r2s_size32_blocks p n r10 r11 ymm4) n (a, rax, rcx, r8, r9)
  let r11 := 2 * r11
  pure ((a, rsi, r11), decide (rsi ≠ 2))

/-- `nttmul_red_gs_rev2std_asm`, src/ntt_asm.S:1549-1733. -/
def nttmul_red_gs_rev2std_asm (a : Array Int) (n : Nat) (p : Array Int) : M (Array Int) := do
  let rdi := 0
  let rsi := n
  let rdx := 0
  let rcx := rdi + 4 * rsi
  let r8 := rdx + rsi
  let rsi := rsi / 2
  let r9 := rdx + rsi
  let rsi := rsi / 2
  let r10 := rdx + rsi
  let rax := rdi
  let ymm4 := mask
  let ymm6 := perm2020
  let (a, _) ← jloop (mgs_r2s_loop0 p rcx ymm4 ymm6) n (a, rax, r8, r9, r10)
  let rax := rdi
  let rsi := rsi / 2
  let r9 := rdx + rsi
  let (a, _) ← jloop (mgs_r2s_size16_loop p rcx ymm4) n (a, rax, r9)
  if rsi = 2 then pure a
  else do
    let r10 := rcx
    let r11 := 64
    let (a, _) ← jloop (mgs_r2s_size32_loop p n rdi rdx r10 ymm4) n (a, rsi, r11)
    pure a

/-! ### Gentleman-Sande, standard to bit-reverse order -/

/-- src/ntt_asm.S:1783-1802 -/
def gs_s2r_inner_loop_blk_1 (ymm0 ymm1 ymm4 ymm5 ymm6 : V8) : V8 × V8 :=
  let ymm2 := vpaddd ymm0 ymm1
  let ymm0 := vpsubd ymm0 ymm1
  let ymm1 := vpmuldq ymm0 ymm5
  let ymm0 := vpshufd ymm0 0x31
  let ymm3 := vpmuldq ymm0 ymm6
  let ymm0 := vpslldq ymm3 4
  let ymm0 := vpblendd ymm0 ymm1 0x55
  let ymm0 := vpand ymm0 ymm4
  let ymm3 := vpsrlq ymm3 12
  let ymm1 := vpsrlq ymm1 12
  let ymm3 := vpslldq ymm3 4
  let ymm1 := vpblendd ymm3 ymm1 0x55
  let ymm3 := vpslld ymm0 1
  let ymm0 := vpaddd ymm0 ymm3
  let ymm0 := vpsubd ymm0 ymm1
  (ymm0, ymm2)

/-- Loop `gs_s2r_inner_loop`, src/ntt_asm.S:1772-1810. -/
def gs_s2r_inner_loop (rsi r11 : Nat) (ymm4 ymm5 ymm6 : V8) (s : Array Int × Nat × Nat) :
    M ((Array Int × Nat × Nat) × Bool) := do
  let (a, rax, rcx) := s
  let ymm0 ← load a rax
  let ymm1 ← load a rcx
  let (ymm0, ymm2) := gs_s2r_inner_loop_blk_1 ymm0 ymm1 ymm4 ymm5 ymm6
  let a ← store a rax ymm2
  let a ← store a rcx ymm0
  let rax := rax + 4 * rsi
  let rcx := rcx + 4 * rsi
  pure ((a, rax, rcx), decide (rax < r11))

/-- src/ntt_asm.S:1769-1769 -/
def gs_s2r_loop_blk_1 (ymm5 : V8) : V8 :=
  let ymm6 := vpshufd ymm5 0x31
  ymm6

/-- Loop `gs_s2r_loop`, src/ntt_asm.S:1767-1815. -/
def gs_s2r_loop (p : Array Int) (n rsi r10 r11 : Nat) (ymm4 : V8) (s : Array Int × Nat × Nat) :
    M ((Array Int × Nat × Nat) × Bool) := do
  let (a, r8, r9) := s
  let ymm5 ← load_sxwd p r9
  let ymm6 := gs_s2r_loop_blk_1 ymm5
  let rax := r8
  let rcx := r8 + 2 * rsi
  let (a, _) ← jloop (gs_s2r_inner_loop rsi r11 ymm4 ymm5 ymm6) n (a, rax, rcx)
  let r8 := r8 + 32
  let r9 := r9 + 16
  pure ((a, r8, r9), decide (r8 < r10))

/-- Loop `gs_s2r_main`, src/ntt_asm.S:1763-1819. -/
def gs_s2r_main (p : Array Int) (n rdi rdx r11 : Nat) (ymm4 : V8) (s : Array Int × Nat) :
    M ((Array Int × Nat) × Bool) := do
  let (a, rsi) := s
  let r8 := rdi
  let r9 := rdx + rsi
  let r10 := r8 + 2 * rsi
  let (a, _) ← jloop (gs_s2r_loop p n rsi r10 r11 ymm4) n (a, r8, r9)
  let rsi := rsi / 2
  pure ((a, rsi), decide (rsi ≥ 16))

/-- src/ntt_asm.S:1849-1915 -/
def gs_s2r_finish_loop_blk_1 (ymm0 ymm1 ymm4 ymm5 ymm6 ymm7 ymm9 : V8) : V8 × V8 :=
  let ymm2 := vperm2i128 ymm0 ymm1 0x20
  let ymm3 := vperm2i128 ymm0 ymm1 0x31
  let ymm0 := vpaddd ymm2 ymm3
  let ymm1 := vpsubd ymm2 ymm3
  let ymm2 := vpmuldq ymm1 ymm5
  let ymm1 := vpshufd ymm1 0x31
  let ymm3 := vpmuldq ymm1 ymm6
  let ymm1 := vpslldq ymm3 4
  let ymm1 := vpblendd ymm1 ymm2 0x55
  let ymm1 := vpand ymm1 ymm4
  let ymm3 := vpsrlq ymm3 12
  let ymm2 := vpsrlq ymm2 12
  let ymm3 := vpslldq ymm3 4
  let ymm2 := vpblendd ymm3 ymm2 0x55
  let ymm3 := vpslld ymm1 1
  let ymm1 := vpaddd ymm1 ymm3
  let ymm1 := vpsubd ymm1 ymm2
  let ymm2 := vshufpd ymm0 ymm1 0x00
  let ymm3 := vshufpd ymm0 ymm1 0x0f
  let ymm0 := vpaddd ymm2 ymm3
  let ymm1 := vpsubd ymm2 ymm3
  let ymm2 := vpshufd ymm1 0x31
  let ymm2 := vpmuldq ymm2 ymm7
  let ymm3 := vpand ymm2 ymm4
  let ymm2 := vpsrlq ymm2 12
  let ymm8 := vpslld ymm3 1
  let ymm3 := vpaddd ymm3 ymm8
  let ymm3 := vpsubd ymm3 ymm2
  let ymm3 := vpslldq ymm3 4
  let ymm1 := vpblendd ymm3 ymm1 0x55
  let ymm2 := vpslldq ymm1 4
  let ymm2 := vpblendd ymm2 ymm0 0x55
  let ymm3 := vpsrldq ymm0 4
  let ymm3 := vpblendd ymm1 ymm3 0x55
  let ymm0 := vpaddd ymm2 ymm3
  let ymm1 := vpsubd ymm2 ymm3
  let ymm2 := vperm2i128 ymm0 ymm1 0x20
  let ymm3 := vperm2i128 ymm0 ymm1 0x31
  let ymm0 := vpermd ymm9 ymm2
  let ymm1 := vpermd ymm9 ymm3
  (ymm0, ymm1)

/-- Loop `gs_s2r_finish_loop`, src/ntt_asm.S:1843-1922. -/
def gs_s2r_finish_loop (r11 : Nat) (ymm4 ymm5 ymm6 ymm7 ymm9 : V8) (s : Array Int × Nat) :
    M ((Array Int × Nat) × Bool) := do
  let (a, rax) := s
  let ymm0 ← load a rax
  let ymm1 ← load a (rax + 32)
  let (ymm0, ymm1) := gs_s2r_finish_loop_blk_1 ymm0 ymm1 ymm4 ymm5 ymm6 ymm7 ymm9
  let a ← store a rax ymm0
  let a ← store a (rax + 32) ymm1
  let rax := rax + 64
  pure ((a, rax), decide (rax < r11))

/-- src/ntt_asm.S:1834-1838 -/
def ntt_red_gs_std2rev_asm_2_blk_1 (ymm5 : V8) : V8 × V8 × V8 :=
  let ymm7 := vpsrldq ymm5 12
  let ymm7 := vpbroadcastq ymm7
  let ymm5 := vperm2i128 ymm5 ymm5 0x11
  let ymm6 := vpshufd ymm5 0x31
  (ymm5, ymm6, ymm7)

/-- `ntt_red_gs_std2rev_asm`, src/ntt_asm.S:1749-1924. -/
def ntt_red_gs_std2rev_asm (a : Array Int) (n : Nat) (p : Array Int) : M (Array Int) := do
  let rdi := 0
  let rsi := n
  let rdx := 0
  let r11 := rdi + 4 * rsi
  let ymm4 := mask
  let (a, _) ← jloop (gs_s2r_main p n rdi rdx r11 ymm4) n (a, rsi)
  let ymm5 ← load_sxwd p rdx
  let (ymm5, ymm6, ymm7) := ntt_red_gs_std2rev_asm_2_blk_1 ymm5
  let rax := rdi
  let ymm9 := perm04152637
  let (a, _) ← jloop (gs_s2r_finish_loop r11 ymm4 ymm5 ymm6 ymm7 ymm9) n (a, rax)
  pure a

/-- src/ntt_asm.S:1969-1988 -/
def mgs_s2r_inner_loop_blk_1 (ymm0 ymm1 ymm4 ymm5 ymm6 : V8) : V8 × V8 :=
  let ymm2 := vpaddd ymm0 ymm1
  let ymm0 := vpsubd ymm0 ymm1
  let ymm1 := vpmuldq ymm0 ymm5
  let ymm0 := vpshufd ymm0 0x31
  let ymm3 := vpmuldq ymm0 ymm6
  let ymm0 := vpslldq ymm3 4
  let ymm0 := vpblendd ymm0 ymm1 0x55
  let ymm0 := vpand ymm0 ymm4
  let ymm3 := vpsrlq ymm3 12
  let ymm1 := vpsrlq ymm1 12
  let ymm3 := vpslldq ymm3 4
  let ymm1 := vpblendd ymm3 ymm1 0x55
  let ymm3 := vpslld ymm0 1
  let ymm0 := vpaddd ymm0 ymm3
  let ymm0 := vpsubd ymm0 ymm1
  (ymm0, ymm2)

/-- Loop `mgs_s2r_inner_loop`, src/ntt_asm.S:1958-1996. -/
def mgs_s2r_inner_loop (rsi r11 : Nat) (ymm4 ymm5 ymm6 : V8) (s : Array Int × Nat × Nat) :
    M ((Array Int × Nat × Nat) × Bool) := do
  let (a, rax, rcx) := s
  let ymm0 ← load a rax
  let ymm1 ← load a rcx
  let (ymm0, ymm2) := mgs_s2r_inner_loop_blk_1 ymm0 ymm1 ymm4 ymm5 ymm6
  let a ← store a rax ymm2
  let a ← store a rcx ymm0
  let rax := rax + 4 * rsi
  let rcx := rcx + 4 * rsi
  pure ((a, rax, rcx), decide (rax < r11))

/-- src/ntt_asm.S:1955-1955 -/
def mgs_s2r_loop_blk_1 (ymm5 : V8) : V8 :=
  let ymm6 := vpshufd ymm5 0x31
  ymm6

/-- Loop `mgs_s2r_loop`, src/ntt_asm.S:1953-2001. -/
def mgs_s2r_loop (p : Array Int) (n rsi r10 r11 : Nat) (ymm4 : V8) (s : Array Int × Nat × Nat) :
    M ((Array Int × Nat × Nat) × Bool) := do
  let (a, r8, r9) := s
  let ymm5 ← load_sxwd p r9
  let ymm6 := mgs_s2r_loop_blk_1 ymm5
  let rax := r8
  let rcx := r8 + 2 * rsi
  let (a, _) ← jloop (mgs_s2r_inner_loop rsi r11 ymm4 ymm5 ymm6) n (a, rax, rcx)
  let r8 := r8 + 32
  let r9 := r9 + 16
  pure ((a, r8, r9), decide (r8 < r10))

/-- Loop `mgs_s2r_main`, src/ntt_asm.S:1949-2005. -/
def mgs_s2r_main (p : Array Int) (n rdi rdx r11 : Nat) (ymm4 : V8) (s : Array Int × Nat) :
    M ((Array Int × Nat) × Bool) := do
  let (a, rsi) := s
  let r8 := rdi
  let r9 := rdx + rsi
  let r10 := r8 + 2 * rsi
  let (a, _) ← jloop (mgs_s2r_loop p n rsi r10 r11 ymm4) n (a, r8, r9)
  let rsi := rsi / 2
  pure ((a, rsi), decide (rsi ≥ 16))

/-- src/ntt_asm.S:2044-2133 -/
def mgs_s2r_finish_loop_blk_1 (ymm0 ymm1 ymm4 ymm5 ymm6 ymm7 ymm8 ymm9 ymm10 : V8) : V8 × V8 :=
  let ymm2 := vperm2i128 ymm0 ymm1 0x20
  let ymm3 := vperm2i128 ymm0 ymm1 0x31
  let ymm0 := vpaddd ymm2 ymm3
  let ymm1 := vpsubd ymm2 ymm3
  let ymm2 := vpmuldq ymm1 ymm5
  let ymm1 := vpshufd ymm1 0x31
  let ymm3 := vpmuldq ymm1 ymm6
  let ymm1 := vpslldq ymm3 4
  let ymm1 := vpblendd ymm1 ymm2 0x55
  let ymm1 := vpand ymm1 ymm4
  let ymm3 := vpsrlq ymm3 12
  let ymm2 := vpsrlq ymm2 12
  let ymm3 := vpslldq ymm3 4
  let ymm2 := vpblendd ymm3 ymm2 0x55
  let ymm3 := vpslld ymm1 1
  let ymm1 := vpaddd ymm1 ymm3
  let ymm1 := vpsubd ymm1 ymm2
  let ymm2 := vshufpd ymm0 ymm1 0x00
  let ymm3 := vshufpd ymm0 ymm1 0x0f
  let ymm0 := vpaddd ymm2 ymm3
  let ymm1 := vpsubd ymm2 ymm3
  let ymm2 := vpmuldq ymm1 ymm7
  let ymm1 := vpshufd ymm1 0x31
  let ymm3 := vpmuldq ymm1 ymm8
  let ymm1 := vpslldq ymm3 4
  let ymm1 := vpblendd ymm1 ymm2 0x55
  let ymm1 := vpand ymm1 ymm4
  let ymm3 := vpsrlq ymm3 12
  let ymm2 := vpsrlq ymm2 12
  let ymm3 := vpslldq ymm3 4
  let ymm2 := vpblendd ymm3 ymm2 0x55
  let ymm3 := vpslld ymm1 1
  let ymm1 := vpaddd ymm1 ymm3
  let ymm1 := vpsubd ymm1 ymm2
  let ymm2 := vpslldq ymm1 4
  let ymm2 := vpblendd ymm2 ymm0 0x55
  let ymm3 := vpsrldq ymm0 4
  let ymm3 := vpblendd ymm1 ymm3 0x55
  let ymm0 := vpaddd ymm2 ymm3
  let ymm1 := vpsubd ymm2 ymm3
  let ymm2 := vpmuldq ymm1 ymm9
  let ymm1 := vpshufd ymm1 0x31
  let ymm3 := vpmuldq ymm1 ymm9
  let ymm1 := vpslldq ymm3 4
  let ymm1 := vpblendd ymm1 ymm2 0x55
  let ymm1 := vpand ymm1 ymm4
  let ymm3 := vpsrlq ymm3 12
  let ymm2 := vpsrlq ymm2 12
  let ymm3 := vpslldq ymm3 4
  let ymm2 := vpblendd ymm3 ymm2 0x55
  let ymm3 := vpslld ymm1 1
  let ymm1 := vpaddd ymm1 ymm3
  let ymm1 := vpsubd ymm1 ymm2
  let ymm2 := vperm2i128 ymm0 ymm1 0x20
  let ymm3 := vperm2i128 ymm0 ymm1 0x31
  let ymm0 := vpermd ymm10 ymm2
  let ymm1 := vpermd ymm10 ymm3
  (ymm0, ymm1)

/-- Loop `mgs_s2r_finish_loop`, src/ntt_asm.S:2038-2140. -/
def mgs_s2r_finish_loop (r11 : Nat) (ymm4 ymm5 ymm6 ymm7 ymm8 ymm9 ymm10 : V8)
    (s : Array Int × Nat) : M ((Array Int × Nat) × Bool) := do
  let (a, rax) := s
  let ymm0 ← load a rax
  let ymm1 ← load a (rax + 32)
  let (ymm0, ymm1) := mgs_s2r_finish_loop_blk_1 ymm0 ymm1 ymm4 ymm5 ymm6 ymm7 ymm8 ymm9 ymm10
  let a ← store a rax ymm0
  let a ← store a (rax + 32) ymm1
  let rax := rax + 64
  pure ((a, rax), decide (rax < r11))

/-- src/ntt_asm.S:2025-2025 -/
def nttmul_red_gs_std2rev_asm_2_blk_1 (ymm0 ymm9 : V8) : V8 :=
  let ymm9 := vpermd ymm9 ymm0
  ymm9

/-- src/ntt_asm.S:2027-2027 -/
def nttmul_red_gs_std2rev_asm_2_blk_2 (ymm0 ymm8 : V8) : V8 :=
  let ymm8 := vpermd ymm8 ymm0
  ymm8

/-- src/ntt_asm.S:2029-2029 -/
def nttmul_red_gs_std2rev_asm_2_blk_3 (ymm0 ymm7 : V8) : V8 :=
  let ymm7 := vpermd ymm7 ymm0
  ymm7

/-- src/ntt_asm.S:2031-2031 -/
def nttmul_red_gs_std2rev_asm_2_blk_4 (ymm0 ymm6 : V8) : V8 :=
  let ymm6 := vpermd ymm6 ymm0
  ymm6

/-- src/ntt_asm.S:2033-2033 -/
def nttmul_red_gs_std2rev_asm_2_blk_5 (ymm0 ymm5 : V8) : V8 :=
  let ymm5 := vpermd ymm5 ymm0
  ymm5

/-- `nttmul_red_gs_std2rev_asm`, src/ntt_asm.S:1941-2142. -/
def nttmul_red_gs_std2rev_asm (a : Array Int) (n : Nat) (p : Array Int) : M (Array Int) := do
  let rdi := 0
  let rsi := n
  let rdx := 0
  let r11 := rdi + 4 * rsi
  let ymm4 := mask
  let (a, _) ← jloop (mgs_s2r_main p n rdi rdx r11 ymm4) n (a, rsi)
  let ymm0 ← load_sxwd p rdx
  let ymm9 := perm_bdcst1
  let ymm9 := nttmul_red_gs_std2rev_asm_2_blk_1 ymm0 ymm9
  let ymm8 := perm_bdcst3
  let ymm8 := nttmul_red_gs_std2rev_asm_2_blk_2 ymm0 ymm8
  let ymm7 := perm_bdcst2
  let ymm7 := nttmul_red_gs_std2rev_asm_2_blk_3 ymm0 ymm7
  let ymm6 := perm5070
  let ymm6 := nttmul_red_gs_std2rev_asm_2_blk_4 ymm0 ymm6
  let ymm5 := perm4060
  let ymm5 := nttmul_red_gs_std2rev_asm_2_blk_5 ymm0 ymm5
  let rax := rdi
  let ymm10 := perm04152637
  let (a, _) ← jloop (mgs_s2r_finish_loop r11 ymm4 ymm5 ymm6 ymm7 ymm8 ymm9 ymm10) n (a, rax)
  pure a

end Asm
