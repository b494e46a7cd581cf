import Verif.Model.Avx

/-
Model of src/ntt_asm.S (all functions except `avx2_supported`).

Generated by tools/genasm.py from tools/ntt_asm.tmpl (control flow, written by hand) and the
instructions of src/ntt_asm.S.  Every instruction is one line with the same operands.

* `rdi`, `rdx` (and `rcx` in `mul_reduce_array_asm`) are the offsets of pointer arguments: 0.
* `rsi` is the argument `n`: the upper half of the register is taken to be 0 (the C prototype says
  `uint32_t`; compilers zero-extend it, the ABI does not promise it).
* A label with a backward jump is a `jloop`; its state is the array and the registers that change
  from one iteration to the next.  The fuel `n` bounds the number of iterations.
* Functions return the final contents of the array.
-/

namespace Asm
open C Avx

/-- src/ntt_asm.S:26-27 -/
def mask : V8 := .splat 0xfff

/-- src/ntt_asm.S:30-31 -/
def q_x8 : V8 := .splat 12289

/-- src/ntt_asm.S:34-35 -/
def q_minus1_x8 : V8 := .splat 12288

/-- src/ntt_asm.S:38-39 -/
def half_q_x8 : V8 := .splat 6144

/-- src/ntt_asm.S:42-43 -/
def perm0246 : V8 := ⟨0, 2, 4, 6, 0, 0, 0, 0⟩

/-- src/ntt_asm.S:46-47 -/
def perm5 : V8 := ⟨4, 0, 5, 0, 6, 0, 7, 0⟩

/-- src/ntt_asm.S:48-49 -/
def perm4 : V8 := ⟨2, 0, 3, 0, 2, 0, 3, 0⟩

/-- src/ntt_asm.S:50-51 -/
def perm3 : V8 := ⟨1, 0, 1, 0, 1, 0, 1, 0⟩

/-- src/ntt_asm.S:54-55 -/
def perm2020 : V8 := ⟨0, 0, 0, 0, 2, 0, 2, 0⟩

/-- src/ntt_asm.S:57-58 -/
def perm0426 : V8 := ⟨0, 0, 4, 0, 2, 0, 6, 0⟩

/-- src/ntt_asm.S:61-62 -/
def perm04152637 : V8 := ⟨0, 4, 1, 5, 2, 6, 3, 7⟩

/-- src/ntt_asm.S:65-66 -/
def perm5070 : V8 := ⟨5, 0, 7, 0, 5, 0, 7, 0⟩

/-- src/ntt_asm.S:68-69 -/
def perm4060 : V8 := ⟨4, 0, 6, 0, 4, 0, 6, 0⟩

/-- src/ntt_asm.S:71-72 -/
def perm_bdcst1 : V8 := ⟨1, 0, 1, 0, 1, 0, 1, 0⟩

/-- src/ntt_asm.S:74-75 -/
def perm_bdcst2 : V8 := ⟨2, 0, 2, 0, 2, 0, 2, 0⟩

/-- src/ntt_asm.S:77-78 -/
def perm_bdcst3 : V8 := ⟨3, 0, 3, 0, 3, 0, 3, 0⟩

/-- Loop `loop0`, src/ntt_asm.S:137-159. -/
def loop0 (rsi : Nat) (ymm3 : V8) (s : Array Int × Nat) : M ((Array Int × Nat) × Bool) := do
  let (a, rax) := s
  @@ 138-157
  pure ((a, rax), decide (rax < rsi))

/-- `reduce_array_asm`, src/ntt_asm.S:130-160. -/
def reduce_array_asm (a : Array Int) (n : Nat) : M (Array Int) := do
  let rdi := 0
  let rsi := n
  @@ 133-135
  let (a, _) ← jloop (loop0 rsi ymm3) n (a, rax)
  pure a

/-- Loop `loop0b`, src/ntt_asm.S:173-186. -/
def loop0b (rsi : Nat) (ymm3 : V8) (s : Array Int × Nat) : M ((Array Int × Nat) × Bool) := do
  let (a, rax) := s
  @@ 174-184
  pure ((a, rax), decide (rax < rsi))

/-- `reduce_array_asm2`, src/ntt_asm.S:166-187. -/
def reduce_array_asm2 (a : Array Int) (n : Nat) : M (Array Int) := do
  let rdi := 0
  let rsi := n
  @@ 169-171
  let (a, _) ← jloop (loop0b rsi ymm3) n (a, rax)
  pure a

/-- Loop `loop1`, src/ntt_asm.S:206-242. -/
def loop1 (rsi : Nat) (ymm3 : V8) (s : Array Int × Nat) : M ((Array Int × Nat) × Bool) := do
  let (a, rax) := s
  @@ 207-240
  pure ((a, rax), decide (rax < rsi))

/-- `reduce_array_twice_asm`, src/ntt_asm.S:199-243. -/
def reduce_array_twice_asm (a : Array Int) (n : Nat) : M (Array Int) := do
  let rdi := 0
  let rsi := n
  @@ 202-204
  let (a, _) ← jloop (loop1 rsi ymm3) n (a, rax)
  pure a

/-- Loop `loop1b`, src/ntt_asm.S:256-276. -/
def loop1b (rsi : Nat) (ymm3 : V8) (s : Array Int × Nat) : M ((Array Int × Nat) × Bool) := do
  let (a, rax) := s
  @@ 257-274
  pure ((a, rax), decide (rax < rsi))

/-- `reduce_array_twice_asm2`, src/ntt_asm.S:249-277. -/
def reduce_array_twice_asm2 (a : Array Int) (n : Nat) : M (Array Int) := do
  let rdi := 0
  let rsi := n
  @@ 252-254
  let (a, _) ← jloop (loop1b rsi ymm3) n (a, rax)
  pure a

/-- Loop `loop2`, src/ntt_asm.S:299-323. -/
def loop2 (rsi : Nat) (ymm3 ymm4 : V8) (s : Array Int × Nat) : M ((Array Int × Nat) × Bool) := do
  let (a, rax) := s
  @@ 300-321
  pure ((a, rax), decide (rax < rsi))

/-- `correct_asm`, src/ntt_asm.S:291-324. -/
def correct_asm (a : Array Int) (n : Nat) : M (Array Int) := do
  let rdi := 0
  let rsi := n
  @@ 294-297
  let (a, _) ← jloop (loop2 rsi ymm3 ymm4) n (a, rax)
  pure a

/-- Loop `loop_shift`, src/ntt_asm.S:345-363. -/
def loop_shift (rsi : Nat) (ymm3 ymm4 : V8) (s : Array Int × Nat) :
    M ((Array Int × Nat) × Bool) := do
  let (a, rax) := s
  @@ 346-361
  pure ((a, rax), decide (rax < rsi))

/-- `shift_array_asm`, src/ntt_asm.S:337-364. -/
def shift_array_asm (a : Array Int) (n : Nat) : M (Array Int) := do
  let rdi := 0
  let rsi := n
  @@ 340-343
  let (a, _) ← jloop (loop_shift rsi ymm3 ymm4) n (a, rax)
  pure a

/-- Loop `loop3`, src/ntt_asm.S:417-445. -/
def loop3 (p : Array Int) (rsi : Nat) (ymm4 : V8) (s : Array Int × Nat × Nat) :
    M ((Array Int × Nat × Nat) × Bool) := do
  let (a, rax, rdx) := s
  @@ 418-443
  pure ((a, rax, rdx), decide (rax < rsi))

/-- `mul_reduce_array16_asm`, src/ntt_asm.S:410-446. -/
def mul_reduce_array16_asm (a : Array Int) (n : Nat) (p : Array Int) : M (Array Int) := do
  let rdi := 0
  let rsi := n
  let rdx := 0
  @@ 413-415
  let (a, _) ← jloop (loop3 p rsi ymm4) n (a, rax, rdx)
  pure a

/-- Loop `loop4`, src/ntt_asm.S:459-477. -/
def loop4 (p : Array Int) (rsi : Nat) (ymm5 ymm6 : V8) (s : Array Int × Nat × Nat) :
    M ((Array Int × Nat × Nat) × Bool) := do
  let (a, rax, rdx) := s
  @@ 460-475
  pure ((a, rax, rdx), decide (rax < rsi))

/-- `mul_reduce_array16_asm2`, src/ntt_asm.S:451-479. -/
def mul_reduce_array16_asm2 (a : Array Int) (n : Nat) (p : Array Int) : M (Array Int) := do
  let rdi := 0
  let rsi := n
  let rdx := 0
  @@ 454-457
  let (a, _) ← jloop (loop4 p rsi ymm5 ymm6) n (a, rax, rdx)
  pure a

/-- Loop `loop5`, src/ntt_asm.S:502-531; `b` and `c` are the arrays at `rdx` and `rcx`. -/
def loop5 (b c : Array Int) (rsi : Nat) (ymm4 : V8) (s : Array Int × Nat × Nat × Nat) :
    M ((Array Int × Nat × Nat × Nat) × Bool) := do
  let (a, rax, rdx, rcx) := s
  @@ 503-529 arrays=rdx:b,rcx:c
  pure ((a, rax, rdx, rcx), decide (rax < rsi))

/-- `mul_reduce_array_asm`, src/ntt_asm.S:495-532, for `a` distinct from `b` and `c`. -/
def mul_reduce_array_asm (a : Array Int) (n : Nat) (b c : Array Int) : M (Array Int) := do
  let rdi := 0
  let rsi := n
  let rdx := 0
  let rcx := 0
  @@ 498-500
  let (a, _) ← jloop (loop5 b c rsi ymm4) n (a, rax, rdx, rcx)
  pure a

/-- Loop `loop6`, src/ntt_asm.S:554-579. -/
def loop6 (rsi : Nat) (ymm1 ymm4 : V8) (s : Array Int × Nat) : M ((Array Int × Nat) × Bool) := do
  let (a, rax) := s
  @@ 555-577
  pure ((a, rax), decide (rax < rsi))

/-- `scalar_mul_reduce_array_asm`, src/ntt_asm.S:545-580.  `rdx` is the whole 64-bit register, whose
lower half is the `int32_t` argument `c`; the upper half is not specified by the ABI. -/
def scalar_mul_reduce_array_asm (a : Array Int) (n : Nat) (rdx : Int) : M (Array Int) := do
  let rdi := 0
  let rsi := n
  @@ 548-552 keep=ymm1
  let (a, _) ← jloop (loop6 rsi ymm1 ymm4) n (a, rax)
  pure a

/-! ### Cooley-Tukey, bit-reverse to standard order -/

/-- Loop `ct_r2s_size8_loop`, src/ntt_asm.S:683-728. -/
def ct_r2s_size8_loop (rsi : Nat) (ymm4 ymm5 ymm6 : V8) (s : Array Int × Nat) :
    M ((Array Int × Nat) × Bool) := do
  let (a, rax) := s
  @@ 684-726
  pure ((a, rax), decide (rax < rsi))

/-- Loop `ct_r2s_size16_loop`, src/ntt_asm.S:737-769. -/
def ct_r2s_size16_loop (rsi : Nat) (ymm4 ymm5 ymm6 : V8) (s : Array Int × Nat) :
    M ((Array Int × Nat) × Bool) := do
  let (a, rax) := s
  @@ 738-767
  pure ((a, rax), decide (rax < rsi))

/-- Loop `ct_r2s_inner_loop`, src/ntt_asm.S:796-827. -/
def ct_r2s_inner_loop (p : Array Int) (r8 : Nat) (ymm4 : V8) (s : Array Int × Nat × Nat × Nat) :
    M ((Array Int × Nat × Nat × Nat) × Bool) := do
  let (a, rax, rcx, rdx) := s
  @@ 797-825
  pure ((a, rax, rcx, rdx), decide (rcx < r8))

/-- Loop `ct_r2s_loop_aux1`, src/ntt_asm.S:785-832. -/
def ct_r2s_loop_aux1 (p : Array Int) (n rsi r10 r11 : Nat) (ymm4 : V8) (s : Array Int × Nat) :
    M ((Array Int × Nat) × Bool) := do
  let (a, rax) := s
  @@ 786-788
  let (a, _) ← jloop (ct_r2s_inner_loop p r8 ymm4) n (a, rax, rcx, rdx)
  @@ 830-830
  pure ((a, rax), decide (rax < rsi))

/-- Loop `ct_r2s_size32_loop`, src/ntt_asm.S:782-839. -/
def ct_r2s_size32_loop (p : Array Int) (n rdi rsi r9 : Nat) (ymm4 : V8) (s : Array Int × Nat × Nat) :
    M ((Array Int × Nat × Nat) × Bool) := do
  let (a, r10, r11) := s
  @@ 783-783
  let (a, _) ← jloop (ct_r2s_loop_aux1 p n rsi r10 r11 ymm4) n (a, rax)
  @@ 836-837
  pure ((a, r10, r11), decide (r10 ≤ r9))

/-- From `ct_r2s_size16_loop` to the end, src/ntt_asm.S:737-842. -/
def ct_r2s_tail (p : Array Int) (n rdi rsi rdx r9 : Nat) (ymm4 ymm5 ymm6 : V8) (a : Array Int)
    (rax : Nat) : M (Array Int) := do
  let (a, _) ← jloop (ct_r2s_size16_loop rsi ymm4 ymm5 ymm6) n (a, rax)
  if r9 ≤ 16 then pure a
  else do
    @@ 779-780
    let (a, _) ← jloop (ct_r2s_size32_loop p n rdi rsi r9 ymm4) n (a, r10, r11)
    pure a

/-- `ntt_red_ct_rev2std_asm`, src/ntt_asm.S:665-842. -/
def ntt_red_ct_rev2std_asm (a : Array Int) (n : Nat) (p : Array Int) : M (Array Int) := do
  let rdi := 0
  let rsi := n
  let rdx := 0
  @@ 668-678 keep=ymm5,ymm6
  let (a, _) ← jloop (ct_r2s_size8_loop rsi ymm4 ymm5 ymm6) n (a, rax)
  @@ 733-735 keep=ymm5
  ct_r2s_tail p n rdi rsi rdx r9 ymm4 ymm5 ymm6 a rax

/-- Loop `mct_r2s_size8_loop2`, src/ntt_asm.S:884-936. -/
def mct_r2s_size8_loop2 (rsi : Nat) (ymm4 ymm5 ymm6 ymm7 : V8) (s : Array Int × Nat) :
    M ((Array Int × Nat) × Bool) := do
  let (a, rax) := s
  @@ 885-934
  pure ((a, rax), decide (rax < rsi))

/-- `mulntt_red_ct_rev2std_asm`, src/ntt_asm.S:864-945. -/
def mulntt_red_ct_rev2std_asm (a : Array Int) (n : Nat) (p : Array Int) : M (Array Int) := do
  let rdi := 0
  let rsi := n
  let rdx := 0
  @@ 867-879 keep=ymm5,ymm6,ymm7
  let (a, _) ← jloop (mct_r2s_size8_loop2 rsi ymm4 ymm5 ymm6 ymm7) n (a, rax)
  @@ 942-944 keep=ymm5
  ct_r2s_tail p n rdi rsi rdx r9 ymm4 ymm5 ymm6 a rax

/-! ### Cooley-Tukey, standard to bit-reverse order -/

/-- Loop `ct_s2r_loop1`, src/ntt_asm.S:981-991. -/
def ct_s2r_loop1 (r8 : Nat) (s : Array Int × Nat × Nat) : M ((Array Int × Nat × Nat) × Bool) := do
  let (a, rax, rcx) := s
  @@ 982-989
  pure ((a, rax, rcx), decide (rcx < r8))

/-- Loop `ct_s2r_loop2_inner1`, src/ntt_asm.S:1009-1020. -/
def ct_s2r_loop2_inner1 (r9 : Nat) (s : Array Int × Nat × Nat) :
    M ((Array Int × Nat × Nat) × Bool) := do
  let (a, rax, rcx) := s
  @@ 1011-1018
  pure ((a, rax, rcx), decide (rax < r9))

/-- Loop `ct_s2r_loop2_inner2`, src/ntt_asm.S:1039-1068. -/
def ct_s2r_loop2_inner2 (r9 : Nat) (ymm4 ymm5 : V8) (s : Array Int × Nat × Nat) :
    M ((Array Int × Nat × Nat) × Bool) := do
  let (a, rax, rcx) := s
  @@ 1040-1066
  pure ((a, rax, rcx), decide (rax < r9))

/-- Loop `ct_s2r_loop2_aux`, src/ntt_asm.S:1022-1071. -/
def ct_s2r_loop2_aux (p : Array Int) (n rsi r8 : Nat) (ymm4 : V8) (s : Array Int × Nat × Nat) :
    M ((Array Int × Nat × Nat) × Bool) := do
  let (a, rcx, rdx) := s
  @@ 1023-1028 keep=ymm5
  let (a, _, rcx) ← jloop (ct_s2r_loop2_inner2 r9 ymm4 ymm5) n (a, rax, rcx)
  pure ((a, rcx, rdx), decide (rcx < r8))

/-- Loop `ct_s2r_loop2`, src/ntt_asm.S:1004-1076. -/
def ct_s2r_loop2 (p : Array Int) (n rdi r8 : Nat) (ymm4 : V8) (s : Array Int × Nat × Nat) :
    M ((Array Int × Nat × Nat) × Bool) := do
  let (a, rsi, rdx) := s
  @@ 1005-1007
  let (a, _, rcx) ← jloop (ct_s2r_loop2_inner1 r9) n (a, rax, rcx)
  let (a, _, rdx) ← jloop (ct_s2r_loop2_aux p n rsi r8 ymm4) n (a, rcx, rdx)
  @@ 1073-1074
  pure ((a, rsi, rdx), decide (rsi > 8))

/-- Loop `ct_s2r_finish_size4`, src/ntt_asm.S:1085-1124. -/
def ct_s2r_finish_size4 (p : Array Int) (r8 : Nat) (ymm4 ymm6 : V8) (s : Array Int × Nat × Nat) :
    M ((Array Int × Nat × Nat) × Bool) := do
  let (a, rax, rdx) := s
  @@ 1087-1122
  pure ((a, rax, rdx), decide (rax < r8))

/-- Loop `ct_s2r_finish_size2`, src/ntt_asm.S:1129-1168. -/
def ct_s2r_finish_size2 (p : Array Int) (r8 : Nat) (ymm4 ymm6 : V8) (s : Array Int × Nat × Nat) :
    M ((Array Int × Nat × Nat) × Bool) := do
  let (a, rax, rdx) := s
  @@ 1130-1166
  pure ((a, rax, rdx), decide (rax < r8))

/-- Loop `ct_s2r_finish_size1`, src/ntt_asm.S:1171-1213. -/
def ct_s2r_finish_size1 (p : Array Int) (r8 : Nat) (ymm4 : V8) (s : Array Int × Nat × Nat) :
    M ((Array Int × Nat × Nat) × Bool) := do
  let (a, rax, rdx) := s
  @@ 1172-1211
  pure ((a, rax, rdx), decide (rax < r8))

/-- From `ct_s2r_finish` to the end, src/ntt_asm.S:1082-1215. -/
def ct_s2r_finish (p : Array Int) (n rdi r8 : Nat) (ymm4 : V8) (a : Array Int) (rdx : Nat) :
    M (Array Int) := do
  @@ 1083-1084
  let (a, _, rdx) ← jloop (ct_s2r_finish_size4 p r8 ymm4 ymm6) n (a, rax, rdx)
  @@ 1126-1127
  let (a, _, rdx) ← jloop (ct_s2r_finish_size2 p r8 ymm4 ymm6) n (a, rax, rdx)
  @@ 1170-1170
  let (a, _) ← jloop (ct_s2r_finish_size1 p r8 ymm4) n (a, rax, rdx)
  pure a

/-- `ntt_red_ct_std2rev_asm`, src/ntt_asm.S:961-1215. -/
def ntt_red_ct_std2rev_asm (a : Array Int) (n : Nat) (p : Array Int) : M (Array Int) := do
  let rdi := 0
  let rsi := n
  let rdx := 0
  @@ 964-980
  let (a, _) ← jloop (ct_s2r_loop1 r8) n (a, rax, rcx)
  @@ 998-1000
  if rsi ≤ 8 then ct_s2r_finish p n rdi r8 ymm4 a rdx
  else do
    let (a, _, rdx) ← jloop (ct_s2r_loop2 p n rdi r8 ymm4) n (a, rsi, rdx)
    ct_s2r_finish p n rdi r8 ymm4 a rdx

/-- Loop `mct_s2r_loop_inner`, src/ntt_asm.S:1257-1286. -/
def mct_s2r_loop_inner (r9 : Nat) (ymm4 ymm5 : V8) (s : Array Int × Nat × Nat) :
    M ((Array Int × Nat × Nat) × Bool) := do
  let (a, rax, rcx) := s
  @@ 1258-1284
  pure ((a, rax, rcx), decide (rax < r9))

/-- Loop `mct_s2r_loop_aux`, src/ntt_asm.S:1247-1292. -/
def mct_s2r_loop_aux (p : Array Int) (n rsi r8 : Nat) (ymm4 : V8)
    (s : Array Int × Nat × Nat × Nat × Nat) : M ((Array Int × Nat × Nat × Nat × Nat) × Bool) := do
  let (a, rax, rcx, r9, rdx) := s
  @@ 1248-1250 keep=ymm5
  let (a, _, rcx) ← jloop (mct_s2r_loop_inner r9 ymm4 ymm5) n (a, rax, rcx)
  @@ 1288-1290
  pure ((a, rax, rcx, r9, rdx), decide (rax < r8))

/-- Loop `mct_s2r_loop`, src/ntt_asm.S:1242-1296. -/
def mct_s2r_loop (p : Array Int) (n rdi r8 : Nat) (ymm4 : V8) (s : Array Int × Nat × Nat) :
    M ((Array Int × Nat × Nat) × Bool) := do
  let (a, rsi, rdx) := s
  @@ 1243-1245
  let (a, _, _, _, rdx) ← jloop (mct_s2r_loop_aux p n rsi r8 ymm4) n (a, rax, rcx, r9, rdx)
  @@ 1294-1294
  pure ((a, rsi, rdx), decide (rsi > 8))

/-- `mulntt_red_ct_std2rev_asm`, src/ntt_asm.S:1233-1302. -/
def mulntt_red_ct_std2rev_asm (a : Array Int) (n : Nat) (p : Array Int) : M (Array Int) := do
  let rdi := 0
  let rsi := n
  let rdx := 0
  @@ 1236-1237
  let (a, _, rdx) ← jloop (mct_s2r_loop p n rdi r8 ymm4) n (a, rsi, rdx)
  @@ 1301-1301
  ct_s2r_finish p n rdi r8 ymm4 a rdx

/-! ### Gentleman-Sande, bit-reverse to standard order -/

/-- Loop `gs_r2s_loop0`, src/ntt_asm.S:1336-1399. -/
def gs_r2s_loop0 (p : Array Int) (rcx : Nat) (ymm4 ymm6 : V8)
    (s : Array Int × Nat × Nat × Nat × Nat) : M ((Array Int × Nat × Nat × Nat × Nat) × Bool) := do
  let (a, rax, r8, r9, r10) := s
  @@ 1338-1397
  pure ((a, rax, r8, r9, r10), decide (rax < rcx))

/-- Loop `gs_r2s_size16_loop`, src/ntt_asm.S:1424-1454. -/
def gs_r2s_size16_loop (p : Array Int) (rcx : Nat) (ymm4 : V8) (s : Array Int × Nat × Nat) :
    M ((Array Int × Nat × Nat) × Bool) := do
  let (a, rax, r9) := s
  @@ 1425-1452
  pure ((a, rax, r9), decide (rax < rcx))

/-- Loop `gs_r2s_size32_first_blocks`, src/ntt_asm.S:1470-1482. -/
def gs_r2s_size32_first_blocks (r8 : Nat) (s : Array Int × Nat × Nat) :
    M ((Array Int × Nat × Nat) × Bool) := do
  let (a, rax, rcx) := s
  @@ 1472-1480
  pure ((a, rax, rcx), decide (rax < r8))

/-- Loop `gs_r2s_size32_inner_loop`, src/ntt_asm.S:1495-1523. -/
def gs_r2s_size32_inner_loop (r8 : Nat) (ymm4 ymm5 : V8) (s : Array Int × Nat × Nat) :
    M ((Array Int × Nat × Nat) × Bool) := do
  let (a, rax, rcx) := s
  @@ 1496-1521
  pure ((a, rax, rcx), decide (rax < r8))

/-- Loop `gs_r2s_size32_other_blocks`, src/ntt_asm.S:1487-1526. -/
def gs_r2s_size32_other_blocks (p : Array Int) (n r10 r11 : Nat) (ymm4 : V8)
    (s : Array Int × Nat × Nat) : M ((Array Int × Nat × Nat) × Bool) := do
  let (a, rcx, r9) := s
  @@ 1489-1494 keep=ymm5
  let (a, _, rcx) ← jloop (gs_r2s_size32_inner_loop r8 ymm4 ymm5) n (a, rax, rcx)
  pure ((a, rcx, r9), decide (rcx < r10))

/-- Loop `gs_r2s_size32_loop`, src/ntt_asm.S:1463-1529; the jump to `gs_r2s_done` (1485) leaves it. -/
def gs_r2s_size32_loop (p : Array Int) (n rdi rdx r10 : Nat) (ymm4 : V8) (s : Array Int × Nat × Nat) :
    M ((Array Int × Nat × Nat) × Bool) := do
  let (a, rsi, r11) := s
  @@ 1464-1468
  let (a, _, rcx) ← jloop (gs_r2s_size32_first_blocks r8) n (a, rax, rcx)
  if rcx ≥ r10 then pure ((a, rsi, r11), false)
  else do
    let (a, _) ← jloop (gs_r2s_size32_other_blocks p n r10 r11 ymm4) n (a, rcx, r9)
    @@ 1528-1528
    pure ((a, rsi, r11), true)

/-- `ntt_red_gs_rev2std_asm`, src/ntt_asm.S:1318-1532. -/
def ntt_red_gs_rev2std_asm (a : Array Int) (n : Nat) (p : Array Int) : M (Array Int) := do
  let rdi := 0
  let rsi := n
  let rdx := 0
  @@ 1321-1330
  let (a, _) ← jloop (gs_r2s_loop0 p rcx ymm4 ymm6) n (a, rax, r8, r9, r10)
  @@ 1405-1416
  if rax ≥ rcx then pure a
  else do
    @@ 1422-1423
    let (a, _) ← jloop (gs_r2s_size16_loop p rcx ymm4) n (a, rax, r9)
    @@ 1460-1461
    let (a, _) ← jloop (gs_r2s_size32_loop p n rdi rdx r10 ymm4) n (a, rsi, r11)
    pure a

/-- Loop `mgs_r2s_loop0`, src/ntt_asm.S:1568-1631. -/
def mgs_r2s_loop0 (p : Array Int) (rcx : Nat) (ymm4 ymm6 : V8)
    (s : Array Int × Nat × Nat × Nat × Nat) : M ((Array Int × Nat × Nat × Nat × Nat) × Bool) := do
  let (a, rax, r8, r9, r10) := s
  @@ 1570-1629
  pure ((a, rax, r8, r9, r10), decide (rax < rcx))

/-- Loop `mgs_r2s_size16_loop`, src/ntt_asm.S:1639-1669. -/
def mgs_r2s_size16_loop (p : Array Int) (rcx : Nat) (ymm4 : V8) (s : Array Int × Nat × Nat) :
    M ((Array Int × Nat × Nat) × Bool) := do
  let (a, rax, r9) := s
  @@ 1640-1667
  pure ((a, rax, r9), decide (rax < rcx))

/-- Loop `mgs_r2s_size32_inner_loop`, src/ntt_asm.S:1691-1719. -/
def mgs_r2s_size32_inner_loop (r8 : Nat) (ymm4 ymm5 : V8) (s : Array Int × Nat × Nat) :
    M ((Array Int × Nat × Nat) × Bool) := do
  let (a, rax, rcx) := s
  @@ 1692-1717
  pure ((a, rax, rcx), decide (rax < r8))

/-- Loop `mgs_r2s_size32_blocks`, src/ntt_asm.S:1687-1726. -/
def mgs_r2s_size32_blocks (p : Array Int) (n r10 r11 : Nat) (ymm4 : V8)
    (s : Array Int × Nat × Nat × Nat × Nat) : M ((Array Int × Nat × Nat × Nat × Nat) × Bool) := do
  let (a, rax, rcx, r8, r9) := s
  @@ 1688-1689 keep=ymm5
  let (a, _, rcx) ← jloop (mgs_r2s_size32_inner_loop r8 ymm4 ymm5) n (a, rax, rcx)
  @@ 1721-1724
  pure ((a, rax, rcx, r8, r9), decide (rax < r10))

/-- Loop `mgs_r2s_size32_loop`, src/ntt_asm.S:1680-1730. -/
def mgs_r2s_size32_loop (p : Array Int) (n rdi rdx r10 : Nat) (ymm4 : V8)
    (s : Array Int × Nat × Nat) : M ((Array Int × Nat × Nat) × Bool) := do
  let (a, rsi, r11) := s
  @@ 1681-1685
  let (a, _) ← jloop (mgs_r2s_size32_blocks p n r10 r11 ymm4) n (a, rax, rcx, r8, r9)
  @@ 1728-1728
  pure ((a, rsi, r11), decide (rsi ≠ 2))

/-- `nttmul_red_gs_rev2std_asm`, src/ntt_asm.S:1549-1733. -/
def nttmul_red_gs_rev2std_asm (a : Array Int) (n : Nat) (p : Array Int) : M (Array Int) := do
  let rdi := 0
  let rsi := n
  let rdx := 0
  @@ 1552-1561
  let (a, _) ← jloop (mgs_r2s_loop0 p rcx ymm4 ymm6) n (a, rax, r8, r9, r10)
  @@ 1636-1638
  let (a, _) ← jloop (mgs_r2s_size16_loop p rcx ymm4) n (a, rax, r9)
  if rsi = 2 then pure a
  else do
    @@ 1677-1678
    let (a, _) ← jloop (mgs_r2s_size32_loop p n rdi rdx r10 ymm4) n (a, rsi, r11)
    pure a

/-! ### Gentleman-Sande, standard to bit-reverse order -/

/-- Loop `gs_s2r_inner_loop`, src/ntt_asm.S:1772-1810. -/
def gs_s2r_inner_loop (rsi r11 : Nat) (ymm4 ymm5 ymm6 : V8) (s : Array Int × Nat × Nat) :
    M ((Array Int × Nat × Nat) × Bool) := do
  let (a, rax, rcx) := s
  @@ 1781-1808
  pure ((a, rax, rcx), decide (rax < r11))

/-- Loop `gs_s2r_loop`, src/ntt_asm.S:1767-1815. -/
def gs_s2r_loop (p : Array Int) (n rsi r10 r11 : Nat) (ymm4 : V8) (s : Array Int × Nat × Nat) :
    M ((Array Int × Nat × Nat) × Bool) := do
  let (a, r8, r9) := s
  @@ 1768-1771 keep=ymm6
  let (a, _) ← jloop (gs_s2r_inner_loop rsi r11 ymm4 ymm5 ymm6) n (a, rax, rcx)
  @@ 1812-1813
  pure ((a, r8, r9), decide (r8 < r10))

/-- Loop `gs_s2r_main`, src/ntt_asm.S:1763-1819. -/
def gs_s2r_main (p : Array Int) (n rdi rdx r11 : Nat) (ymm4 : V8) (s : Array Int × Nat) :
    M ((Array Int × Nat) × Bool) := do
  let (a, rsi) := s
  @@ 1764-1766
  let (a, _) ← jloop (gs_s2r_loop p n rsi r10 r11 ymm4) n (a, r8, r9)
  @@ 1817-1817
  pure ((a, rsi), decide (rsi ≥ 16))

/-- Loop `gs_s2r_finish_loop`, src/ntt_asm.S:1843-1922. -/
def gs_s2r_finish_loop (r11 : Nat) (ymm4 ymm5 ymm6 ymm7 ymm9 : V8) (s : Array Int × Nat) :
    M ((Array Int × Nat) × Bool) := do
  let (a, rax) := s
  @@ 1845-1920
  pure ((a, rax), decide (rax < r11))

/-- `ntt_red_gs_std2rev_asm`, src/ntt_asm.S:1749-1924. -/
def ntt_red_gs_std2rev_asm (a : Array Int) (n : Nat) (p : Array Int) : M (Array Int) := do
  let rdi := 0
  let rsi := n
  let rdx := 0
  @@ 1752-1753
  let (a, _) ← jloop (gs_s2r_main p n rdi rdx r11 ymm4) n (a, rsi)
  @@ 1833-1841 keep=ymm5,ymm6,ymm7
  let (a, _) ← jloop (gs_s2r_finish_loop r11 ymm4 ymm5 ymm6 ymm7 ymm9) n (a, rax)
  pure a

/-- Loop `mgs_s2r_inner_loop`, src/ntt_asm.S:1958-1996. -/
def mgs_s2r_inner_loop (rsi r11 : Nat) (ymm4 ymm5 ymm6 : V8) (s : Array Int × Nat × Nat) :
    M ((Array Int × Nat × Nat) × Bool) := do
  let (a, rax, rcx) := s
  @@ 1967-1994
  pure ((a, rax, rcx), decide (rax < r11))

/-- Loop `mgs_s2r_loop`, src/ntt_asm.S:1953-2001. -/
def mgs_s2r_loop (p : Array Int) (n rsi r10 r11 : Nat) (ymm4 : V8) (s : Array Int × Nat × Nat) :
    M ((Array Int × Nat × Nat) × Bool) := do
  let (a, r8, r9) := s
  @@ 1954-1957 keep=ymm6
  let (a, _) ← jloop (mgs_s2r_inner_loop rsi r11 ymm4 ymm5 ymm6) n (a, rax, rcx)
  @@ 1998-1999
  pure ((a, r8, r9), decide (r8 < r10))

/-- Loop `mgs_s2r_main`, src/ntt_asm.S:1949-2005. -/
def mgs_s2r_main (p : Array Int) (n rdi rdx r11 : Nat) (ymm4 : V8) (s : Array Int × Nat) :
    M ((Array Int × Nat) × Bool) := do
  let (a, rsi) := s
  @@ 1950-1952
  let (a, _) ← jloop (mgs_s2r_loop p n rsi r10 r11 ymm4) n (a, r8, r9)
  @@ 2003-2003
  pure ((a, rsi), decide (rsi ≥ 16))

/-- Loop `mgs_s2r_finish_loop`, src/ntt_asm.S:2038-2140. -/
def mgs_s2r_finish_loop (r11 : Nat) (ymm4 ymm5 ymm6 ymm7 ymm8 ymm9 ymm10 : V8)
    (s : Array Int × Nat) : M ((Array Int × Nat) × Bool) := do
  let (a, rax) := s
  @@ 2040-2138
  pure ((a, rax), decide (rax < r11))

/-- `nttmul_red_gs_std2rev_asm`, src/ntt_asm.S:1941-2142. -/
def nttmul_red_gs_std2rev_asm (a : Array Int) (n : Nat) (p : Array Int) : M (Array Int) := do
  let rdi := 0
  let rsi := n
  let rdx := 0
  @@ 1944-1945
  let (a, _) ← jloop (mgs_s2r_main p n rdi rdx r11 ymm4) n (a, rsi)
  @@ 2023-2036 keep=ymm5,ymm6,ymm7,ymm8,ymm9
  let (a, _) ← jloop (mgs_s2r_finish_loop r11 ymm4 ymm5 ymm6 ymm7 ymm8 ymm9 ymm10) n (a, rax)
  pure a

end Asm
