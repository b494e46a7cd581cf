import Verif.Model.X86

/-
The text of src/ntt_asm.S.  Generated by tools/gencode.py: one element of the lists for each label and instruction of the file, in
the order of the file.
-/

namespace Code
open X86

/-- The constants in the data section (src/ntt_asm.S:26-78), in the order of the file. -/
inductive Const where
  | mask
  | q_x8
  | q_minus1_x8
  | half_q_x8
  | perm0246
  | perm5
  | perm4
  | perm3
  | perm2020
  | perm0426
  | perm04152637
  | perm5070
  | perm4060
  | perm_bdcst1
  | perm_bdcst2
  | perm_bdcst3
  deriving DecidableEq, Repr

/-- The position of a constant in the data section: each takes 32 bytes. -/
def addr : Const → Nat
  | .mask => 0
  | .q_x8 => 32
  | .q_minus1_x8 => 64
  | .half_q_x8 => 96
  | .perm0246 => 128
  | .perm5 => 160
  | .perm4 => 192
  | .perm3 => 224
  | .perm2020 => 256
  | .perm0426 => 288
  | .perm04152637 => 320
  | .perm5070 => 352
  | .perm4060 => 384
  | .perm_bdcst1 => 416
  | .perm_bdcst2 => 448
  | .perm_bdcst3 => 480

/-- The eight integers of a constant. -/
def longs : Const → List Int
  | .mask => [4095, 4095, 4095, 4095, 4095, 4095, 4095, 4095]  -- line 26
  | .q_x8 => [12289, 12289, 12289, 12289, 12289, 12289, 12289, 12289]  -- line 30
  | .q_minus1_x8 => [12288, 12288, 12288, 12288, 12288, 12288, 12288, 12288]  -- line 34
  | .half_q_x8 => [6144, 6144, 6144, 6144, 6144, 6144, 6144, 6144]  -- line 38
  | .perm0246 => [0, 2, 4, 6, 0, 0, 0, 0]  -- line 42
  | .perm5 => [4, 0, 5, 0, 6, 0, 7, 0]  -- line 46
  | .perm4 => [2, 0, 3, 0, 2, 0, 3, 0]  -- line 48
  | .perm3 => [1, 0, 1, 0, 1, 0, 1, 0]  -- line 50
  | .perm2020 => [0, 0, 0, 0, 2, 0, 2, 0]  -- line 54
  | .perm0426 => [0, 0, 4, 0, 2, 0, 6, 0]  -- line 57
  | .perm04152637 => [0, 4, 1, 5, 2, 6, 3, 7]  -- line 61
  | .perm5070 => [5, 0, 7, 0, 5, 0, 7, 0]  -- line 65
  | .perm4060 => [4, 0, 6, 0, 4, 0, 6, 0]  -- line 68
  | .perm_bdcst1 => [1, 0, 1, 0, 1, 0, 1, 0]  -- line 71
  | .perm_bdcst2 => [2, 0, 2, 0, 2, 0, 2, 0]  -- line 74
  | .perm_bdcst3 => [3, 0, 3, 0, 3, 0, 3, 0]  -- line 77

/-- The labels of the text section. -/
inductive Label where
  | avx2_supported
  | not_supported
  | reduce_array_asm
  | loop0
  | reduce_array_asm2
  | loop0b
  | reduce_array_twice_asm
  | loop1
  | reduce_array_twice_asm2
  | loop1b
  | correct_asm
  | loop2
  | shift_array_asm
  | loop_shift
  | mul_reduce_array16_asm
  | loop3
  | mul_reduce_array16_asm2
  | loop4
  | mul_reduce_array_asm
  | loop5
  | scalar_mul_reduce_array_asm
  | loop6
  | ntt_red_ct_rev2std_asm
  | ct_r2s_size8_loop
  | ct_r2s_size16_loop
  | ct_r2s_size32_loop
  | ct_r2s_loop_aux1
  | ct_r2s_inner_loop
  | ct_r2s_done
  | mulntt_red_ct_rev2std_asm
  | mct_r2s_size8_loop2
  | ntt_red_ct_std2rev_asm
  | ct_s2r_loop1
  | ct_s2r_loop2
  | ct_s2r_loop2_inner1
  | ct_s2r_loop2_aux
  | ct_s2r_loop2_inner2
  | ct_s2r_finish
  | ct_s2r_finish_size4
  | ct_s2r_finish_size2
  | ct_s2r_finish_size1
  | mulntt_red_ct_std2rev_asm
  | mct_s2r_loop
  | mct_s2r_loop_aux
  | mct_s2r_loop_inner
  | ntt_red_gs_rev2std_asm
  | gs_r2s_loop0
  | gs_r2s_size16_loop
  | gs_r2s_size32_loop
  | gs_r2s_size32_first_blocks
  | gs_r2s_size32_other_blocks
  | gs_r2s_size32_inner_loop
  | gs_r2s_done
  | nttmul_red_gs_rev2std_asm
  | mgs_r2s_loop0
  | mgs_r2s_size16_loop
  | mgs_r2s_size32_loop
  | mgs_r2s_size32_blocks
  | mgs_r2s_size32_inner_loop
  | mgs_r2s_done
  | ntt_red_gs_std2rev_asm
  | gs_s2r_main
  | gs_s2r_loop
  | gs_s2r_inner_loop
  | gs_s2r_finish_loop
  | nttmul_red_gs_std2rev_asm
  | mgs_s2r_main
  | mgs_s2r_loop
  | mgs_s2r_inner_loop
  | mgs_s2r_finish_loop
  deriving DecidableEq, Repr

abbrev Instr := X86.Instr Label Const

/-- src/ntt_asm.S:94-114 -/
def avx2_supported : List Instr := [
  .label .avx2_supported,
  .push rbx,
  .movi32 rax 1,
  .cpuid,
  .andi32 rcx 402653184,
  .cmpi32 rcx 402653184,
  .jcc .ne .not_supported,
  .movi32 rax 7,
  .xor32 rcx rcx,
  .cpuid,
  .andi32 rbx 32,
  .cmpi32 rbx 32,
  .jcc .ne .not_supported,
  .xor32 rcx rcx,
  .xgetbv,
  .andi32 rax 6,
  .cmpi32 rax 6,
  .jcc .ne .not_supported,
  .movi32 rax 1,
  .pop rbx,
  .ret]

/-- src/ntt_asm.S:115-118 -/
def not_supported : List Instr := [
  .label .not_supported,
  .xor32 rax rax,
  .pop rbx,
  .ret]

/-- src/ntt_asm.S:132-135 -/
def reduce_array_asm : List Instr := [
  .label .reduce_array_asm,
  .const 3 .mask,
  .mov rax rdi,
  .lea rsi (.ix rdi 4 rsi 0)]

/-- src/ntt_asm.S:137-160 -/
def loop0 : List Instr := [
  .label .loop0,
  .load .dqu 0 (.at rax 0),
  .load .dqu 1 (.at rax 32),
  .vec (.vpsrad 2 0 12),
  .vec (.vpand 0 0 3),
  .vec (.vpslld 4 0 1),
  .vec (.vpaddd 0 0 4),
  .vec (.vpsubd 0 0 2),
  .store (.at rax 0) 0,
  .vec (.vpsrad 2 1 12),
  .vec (.vpand 1 1 3),
  .vec (.vpslld 4 1 1),
  .vec (.vpaddd 1 1 4),
  .vec (.vpsubd 1 1 2),
  .store (.at rax 32) 1,
  .addi rax 64,
  .cmp rax rsi,
  .jcc .b .loop0,
  .ret]

/-- src/ntt_asm.S:168-171 -/
def reduce_array_asm2 : List Instr := [
  .label .reduce_array_asm2,
  .const 3 .mask,
  .mov rax rdi,
  .lea rsi (.ix rdi 4 rsi 0)]

/-- src/ntt_asm.S:173-187 -/
def loop0b : List Instr := [
  .label .loop0b,
  .load .dqu 0 (.at rax 0),
  .vec (.vpsrad 2 0 12),
  .vec (.vpand 0 0 3),
  .vec (.vpslld 4 0 1),
  .vec (.vpaddd 0 0 4),
  .vec (.vpsubd 0 0 2),
  .store (.at rax 0) 0,
  .addi rax 32,
  .cmp rax rsi,
  .jcc .b .loop0b,
  .ret]

/-- src/ntt_asm.S:201-204 -/
def reduce_array_twice_asm : List Instr := [
  .label .reduce_array_twice_asm,
  .const 3 .mask,
  .mov rax rdi,
  .lea rsi (.ix rdi 4 rsi 0)]

/-- src/ntt_asm.S:206-243 -/
def loop1 : List Instr := [
  .label .loop1,
  .load .dqu 0 (.at rax 0),
  .load .dqu 1 (.at rax 32),
  .vec (.vpsrad 2 0 12),
  .vec (.vpand 0 0 3),
  .vec (.vpslld 4 0 1),
  .vec (.vpaddd 0 0 4),
  .vec (.vpsubd 0 0 2),
  .vec (.vpsrad 2 0 12),
  .vec (.vpand 0 0 3),
  .vec (.vpslld 4 0 1),
  .vec (.vpaddd 0 0 4),
  .vec (.vpsubd 0 0 2),
  .store (.at rax 0) 0,
  .vec (.vpsrad 2 1 12),
  .vec (.vpand 1 1 3),
  .vec (.vpslld 4 1 1),
  .vec (.vpaddd 1 1 4),
  .vec (.vpsubd 1 1 2),
  .vec (.vpsrad 2 1 12),
  .vec (.vpand 1 1 3),
  .vec (.vpslld 4 1 1),
  .vec (.vpaddd 1 1 4),
  .vec (.vpsubd 1 1 2),
  .store (.at rax 32) 1,
  .addi rax 64,
  .cmp rax rsi,
  .jcc .b .loop1,
  .ret]

/-- src/ntt_asm.S:251-254 -/
def reduce_array_twice_asm2 : List Instr := [
  .label .reduce_array_twice_asm2,
  .const 3 .mask,
  .mov rax rdi,
  .lea rsi (.ix rdi 4 rsi 0)]

/-- src/ntt_asm.S:256-277 -/
def loop1b : List Instr := [
  .label .loop1b,
  .load .dqu 0 (.at rax 0),
  .vec (.vpsrad 2 0 12),
  .vec (.vpand 0 0 3),
  .vec (.vpslld 4 0 1),
  .vec (.vpaddd 0 0 4),
  .vec (.vpsubd 0 0 2),
  .vec (.vpsrad 2 0 12),
  .vec (.vpand 0 0 3),
  .vec (.vpslld 4 0 1),
  .vec (.vpaddd 0 0 4),
  .vec (.vpsubd 0 0 2),
  .store (.at rax 0) 0,
  .addi rax 32,
  .cmp rax rsi,
  .jcc .b .loop1b,
  .ret]

/-- src/ntt_asm.S:293-297 -/
def correct_asm : List Instr := [
  .label .correct_asm,
  .const 3 .q_x8,
  .const 4 .q_minus1_x8,
  .mov rax rdi,
  .lea rsi (.ix rdi 4 rsi 0)]

/-- src/ntt_asm.S:299-324 -/
def loop2 : List Instr := [
  .label .loop2,
  .load .dqu 0 (.at rax 0),
  .load .dqu 1 (.at rax 32),
  .vec (.vpsrad 2 0 31),
  .vec (.vpcmpgtd 5 0 4),
  .vec (.vpand 2 2 3),
  .vec (.vpand 5 5 3),
  .vec (.vpaddd 0 0 2),
  .vec (.vpsubd 0 0 5),
  .store (.at rax 0) 0,
  .vec (.vpsrad 2 1 31),
  .vec (.vpcmpgtd 5 1 4),
  .vec (.vpand 2 2 3),
  .vec (.vpand 5 5 3),
  .vec (.vpaddd 1 1 2),
  .vec (.vpsubd 1 1 5),
  .store (.at rax 32) 1,
  .addi rax 64,
  .cmp rax rsi,
  .jcc .b .loop2,
  .ret]

/-- src/ntt_asm.S:339-343 -/
def shift_array_asm : List Instr := [
  .label .shift_array_asm,
  .const 3 .q_x8,
  .const 4 .half_q_x8,
  .mov rax rdi,
  .lea rsi (.ix rdi 4 rsi 0)]

/-- src/ntt_asm.S:345-364 -/
def loop_shift : List Instr := [
  .label .loop_shift,
  .load .dqu 0 (.at rax 0),
  .load .dqu 1 (.at rax 32),
  .vec (.vpcmpgtd 2 0 4),
  .vec (.vpand 2 2 3),
  .vec (.vpsubd 0 0 2),
  .store (.at rax 0) 0,
  .vec (.vpcmpgtd 2 1 4),
  .vec (.vpand 2 2 3),
  .vec (.vpsubd 1 1 2),
  .store (.at rax 32) 1,
  .addi rax 64,
  .cmp rax rsi,
  .jcc .b .loop_shift,
  .ret]

/-- src/ntt_asm.S:412-415 -/
def mul_reduce_array16_asm : List Instr := [
  .label .mul_reduce_array16_asm,
  .const 4 .mask,
  .mov rax rdi,
  .lea rsi (.ix rdi 4 rsi 0)]

/-- src/ntt_asm.S:417-446 -/
def loop3 : List Instr := [
  .label .loop3,
  .load .dqu 0 (.at rax 0),
  .load .sxwd 1 (.at rdx 0),
  .vec (.vpmuldq 2 0 1),
  .vec (.vpshufd 0 0 49),
  .vec (.vpshufd 1 1 49),
  .vec (.vpmuldq 3 0 1),
  .vec (.vpslldq 0 3 4),
  .vec (.vpblendd 0 0 2 85),
  .vec (.vpand 0 0 4),
  .vec (.vpsrlq 3 3 12),
  .vec (.vpsrlq 2 2 12),
  .vec (.vpslldq 3 3 4),
  .vec (.vpblendd 1 3 2 85),
  .vec (.vpslld 2 0 1),
  .vec (.vpaddd 0 0 2),
  .vec (.vpsubd 0 0 1),
  .store (.at rax 0) 0,
  .addi rax 32,
  .addi rdx 16,
  .cmp rax rsi,
  .jcc .b .loop3,
  .ret]

/-- src/ntt_asm.S:453-457 -/
def mul_reduce_array16_asm2 : List Instr := [
  .label .mul_reduce_array16_asm2,
  .const 5 .perm0246,
  .const 6 .mask,
  .mov rax rdi,
  .lea rsi (.ix rdi 4 rsi 0)]

/-- src/ntt_asm.S:459-479 -/
def loop4 : List Instr := [
  .label .loop4,
  .load .sxdq 0 (.at rax 0),
  .load .sxwq 1 (.at rdx 0),
  .vec (.vpmuldq 0 1 0),
  .vec (.vmovdqu 3 0),
  .vec (.vpand 0 6 0),
  .vec (.vpsrlq 3 3 12),
  .vec (.vpslld 4 0 1),
  .vec (.vpsubd 3 0 3),
  .vec (.vpaddd 0 3 4),
  .vec (.vpermd 0 5 0),
  .store128 (.at rax 0) 0,
  .addi rax 16,
  .addi rdx 8,
  .cmp rax rsi,
  .jcc .b .loop4,
  .ret]

/-- src/ntt_asm.S:497-500 -/
def mul_reduce_array_asm : List Instr := [
  .label .mul_reduce_array_asm,
  .const 4 .mask,
  .mov rax rdi,
  .lea rsi (.ix rdi 4 rsi 0)]

/-- src/ntt_asm.S:502-532 -/
def loop5 : List Instr := [
  .label .loop5,
  .load .dqu 0 (.at rdx 0),
  .load .dqu 1 (.at rcx 0),
  .vec (.vpmuldq 2 0 1),
  .vec (.vpshufd 0 0 49),
  .vec (.vpshufd 1 1 49),
  .vec (.vpmuldq 3 0 1),
  .vec (.vpslldq 0 3 4),
  .vec (.vpblendd 0 0 2 85),
  .vec (.vpand 0 0 4),
  .vec (.vpsrlq 3 3 12),
  .vec (.vpsrlq 2 2 12),
  .vec (.vpslldq 3 3 4),
  .vec (.vpblendd 1 3 2 85),
  .vec (.vpslld 2 0 1),
  .vec (.vpaddd 0 0 2),
  .vec (.vpsubd 0 0 1),
  .store (.at rax 0) 0,
  .addi rax 32,
  .addi rdx 32,
  .addi rcx 32,
  .cmp rax rsi,
  .jcc .b .loop5,
  .ret]

/-- src/ntt_asm.S:547-552 -/
def scalar_mul_reduce_array_asm : List Instr := [
  .label .scalar_mul_reduce_array_asm,
  .const 4 .mask,
  .mov rax rdi,
  .lea rsi (.ix rdi 4 rsi 0),
  .vmovd 0 rdx,
  .vec (.vpbroadcastd 1 0)]

/-- src/ntt_asm.S:554-580 -/
def loop6 : List Instr := [
  .label .loop6,
  .load .dqu 0 (.at rax 0),
  .vec (.vpmuldq 2 0 1),
  .vec (.vpshufd 0 0 49),
  .vec (.vpmuldq 3 0 1),
  .vec (.vpslldq 0 3 4),
  .vec (.vpblendd 0 0 2 85),
  .vec (.vpand 0 0 4),
  .vec (.vpsrlq 3 3 12),
  .vec (.vpsrlq 2 2 12),
  .vec (.vpslldq 3 3 4),
  .vec (.vpblendd 3 3 2 85),
  .vec (.vpslld 2 0 1),
  .vec (.vpaddd 0 0 2),
  .vec (.vpsubd 0 0 3),
  .store (.at rax 0) 0,
  .addi rax 32,
  .cmp rax rsi,
  .jcc .b .loop6,
  .ret]

/-- src/ntt_asm.S:667-678 -/
def ntt_red_ct_rev2std_asm : List Instr := [
  .label .ntt_red_ct_rev2std_asm,
  .mov rax rdi,
  .mov r9 rsi,
  .lea rsi (.ix rdi 4 rsi 0),
  .load .sxwd 4 (.at rdx 0),
  .const 5 .perm5,
  .vec (.vpermd 5 5 4),
  .const 6 .perm4,
  .vec (.vpermd 6 6 4),
  .const 4 .mask]

/-- src/ntt_asm.S:683-735 -/
def ct_r2s_size8_loop : List Instr := [
  .label .ct_r2s_size8_loop,
  .load .dqu 0 (.at rax 0),
  .vec (.vpsrldq 1 0 4),
  .vec (.vpaddd 2 0 1),
  .vec (.vpsubd 3 0 1),
  .vec (.vshufps 0 2 3 68),
  .vec (.vshufps 1 2 3 238),
  .vec (.vpmuldq 1 1 6),
  .vec (.vpand 2 1 4),
  .vec (.vpsrlq 1 1 12),
  .vec (.vpslld 3 2 1),
  .vec (.vpaddd 2 2 3),
  .vec (.vpsubd 1 2 1),
  .vec (.vpaddd 2 0 1),
  .vec (.vpsubd 3 0 1),
  .vec (.vperm2i128 0 2 3 32),
  .vec (.vperm2i128 1 2 3 49),
  .vec (.vpmuldq 1 1 5),
  .vec (.vpand 2 1 4),
  .vec (.vpsrlq 1 1 12),
  .vec (.vpslld 3 2 1),
  .vec (.vpaddd 2 2 3),
  .vec (.vpsubd 1 2 1),
  .vec (.vpaddd 2 0 1),
  .vec (.vpsubd 3 0 1),
  .vec (.vperm2i128 0 2 3 32),
  .vec (.vperm2i128 1 2 3 49),
  .vec (.vshufps 0 0 1 136),
  .store (.at rax 0) 0,
  .addi rax 32,
  .cmp rax rsi,
  .jcc .b .ct_r2s_size8_loop,
  .mov rax rdi,
  .load .sxwd 6 (.at rdx 16),
  .vec (.vpshufd 5 6 49)]

/-- src/ntt_asm.S:737-780 -/
def ct_r2s_size16_loop : List Instr := [
  .label .ct_r2s_size16_loop,
  .load .dqu 0 (.at rax 0),
  .load .dqu 1 (.at rax 32),
  .vec (.vpmuldq 2 1 6),
  .vec (.vpshufd 1 1 49),
  .vec (.vpmuldq 3 1 5),
  .vec (.vpslldq 1 3 4),
  .vec (.vpblendd 1 1 2 85),
  .vec (.vpand 1 1 4),
  .vec (.vpsrlq 3 3 12),
  .vec (.vpsrlq 2 2 12),
  .vec (.vpslldq 3 3 4),
  .vec (.vpblendd 2 3 2 85),
  .vec (.vpslld 3 1 1),
  .vec (.vpaddd 1 1 3),
  .vec (.vpsubd 1 1 2),
  .vec (.vpaddd 2 0 1),
  .vec (.vpsubd 3 0 1),
  .store (.at rax 0) 2,
  .store (.at rax 32) 3,
  .addi rax 64,
  .cmp rax rsi,
  .jcc .b .ct_r2s_size16_loop,
  .cmpi r9 16,
  .jcc .be .ct_r2s_done,
  .movi r10 32,
  .lea r11 (.at rdx 32)]

/-- src/ntt_asm.S:782-783 -/
def ct_r2s_size32_loop : List Instr := [
  .label .ct_r2s_size32_loop,
  .mov rax rdi]

/-- src/ntt_asm.S:785-788 -/
def ct_r2s_loop_aux1 : List Instr := [
  .label .ct_r2s_loop_aux1,
  .lea rcx (.ix rax 2 r10 0),
  .lea r8 (.ix rax 4 r10 0),
  .mov rdx r11]

/-- src/ntt_asm.S:796-839 -/
def ct_r2s_inner_loop : List Instr := [
  .label .ct_r2s_inner_loop,
  .load .dqu 0 (.at rax 0),
  .load .dqu 1 (.at rcx 0),
  .load .sxwd 6 (.at rdx 0),
  .vec (.vpmuldq 2 1 6),
  .vec (.vpshufd 1 1 49),
  .vec (.vpshufd 6 6 49),
  .vec (.vpmuldq 3 1 6),
  .vec (.vpslldq 1 3 4),
  .vec (.vpblendd 1 1 2 85),
  .vec (.vpand 1 1 4),
  .vec (.vpsrlq 3 3 12),
  .vec (.vpsrlq 2 2 12),
  .vec (.vpslldq 3 3 4),
  .vec (.vpblendd 2 3 2 85),
  .vec (.vpslld 3 1 1),
  .vec (.vpaddd 1 1 3),
  .vec (.vpsubd 1 1 2),
  .vec (.vpaddd 2 0 1),
  .vec (.vpsubd 3 0 1),
  .store (.at rax 0) 2,
  .store (.at rcx 0) 3,
  .addi rdx 16,
  .addi rax 32,
  .addi rcx 32,
  .cmp rcx r8,
  .jcc .b .ct_r2s_inner_loop,
  .mov rax r8,
  .cmp rax rsi,
  .jcc .b .ct_r2s_loop_aux1,
  .add r11 r10,
  .shl r10 1,
  .cmp r10 r9,
  .jcc .be .ct_r2s_size32_loop]

/-- src/ntt_asm.S:841-842 -/
def ct_r2s_done : List Instr := [
  .label .ct_r2s_done,
  .ret]

/-- src/ntt_asm.S:866-879 -/
def mulntt_red_ct_rev2std_asm : List Instr := [
  .label .mulntt_red_ct_rev2std_asm,
  .mov rax rdi,
  .mov r9 rsi,
  .lea rsi (.ix rdi 4 rsi 0),
  .load .sxwd 4 (.at rdx 0),
  .const 5 .perm5,
  .vec (.vpermd 5 5 4),
  .const 6 .perm4,
  .vec (.vpermd 6 6 4),
  .const 7 .perm3,
  .vec (.vpermd 7 7 4),
  .const 4 .mask]

/-- src/ntt_asm.S:884-945 -/
def mct_r2s_size8_loop2 : List Instr := [
  .label .mct_r2s_size8_loop2,
  .load .dqu 0 (.at rax 0),
  .vec (.vpsrldq 1 0 4),
  .vec (.vpmuldq 1 1 7),
  .vec (.vpand 2 1 4),
  .vec (.vpsrlq 1 1 12),
  .vec (.vpslld 3 2 1),
  .vec (.vpaddd 2 2 3),
  .vec (.vpsubd 1 2 1),
  .vec (.vpaddd 2 0 1),
  .vec (.vpsubd 3 0 1),
  .vec (.vshufps 0 2 3 68),
  .vec (.vshufps 1 2 3 238),
  .vec (.vpmuldq 1 1 6),
  .vec (.vpand 2 1 4),
  .vec (.vpsrlq 1 1 12),
  .vec (.vpslld 3 2 1),
  .vec (.vpaddd 2 2 3),
  .vec (.vpsubd 1 2 1),
  .vec (.vpaddd 2 0 1),
  .vec (.vpsubd 3 0 1),
  .vec (.vperm2i128 0 2 3 32),
  .vec (.vperm2i128 1 2 3 49),
  .vec (.vpmuldq 1 1 5),
  .vec (.vpand 2 1 4),
  .vec (.vpsrlq 1 1 12),
  .vec (.vpslld 3 2 1),
  .vec (.vpaddd 2 2 3),
  .vec (.vpsubd 1 2 1),
  .vec (.vpaddd 2 0 1),
  .vec (.vpsubd 3 0 1),
  .vec (.vperm2i128 0 2 3 32),
  .vec (.vperm2i128 1 2 3 49),
  .vec (.vshufps 0 0 1 136),
  .store (.at rax 0) 0,
  .addi rax 32,
  .cmp rax rsi,
  .jcc .b .mct_r2s_size8_loop2,
  .mov rax rdi,
  .load .sxwd 6 (.at rdx 16),
  .vec (.vpshufd 5 6 49),
  .jmp .ct_r2s_size16_loop]

/-- src/ntt_asm.S:963-980 -/
def ntt_red_ct_std2rev_asm : List Instr := [
  .label .ntt_red_ct_std2rev_asm,
  .lea r8 (.ix rdi 4 rsi 0),
  .const 4 .mask,
  .mov rax rdi,
  .lea rcx (.ix rdi 2 rsi 0)]

/-- src/ntt_asm.S:981-1002 -/
def ct_s2r_loop1 : List Instr := [
  .label .ct_s2r_loop1,
  .load .dqu 0 (.at rax 0),
  .load .dqu 1 (.at rcx 0),
  .vec (.vpaddd 2 0 1),
  .vec (.vpsubd 3 0 1),
  .store (.at rax 0) 2,
  .store (.at rcx 0) 3,
  .addi rcx 32,
  .addi rax 32,
  .cmp rcx r8,
  .jcc .b .ct_s2r_loop1,
  .addi rdx 4,
  .shr rsi 1,
  .cmpi rsi 8,
  .jcc .be .ct_s2r_finish]

/-- src/ntt_asm.S:1004-1007 -/
def ct_s2r_loop2 : List Instr := [
  .label .ct_s2r_loop2,
  .mov rax rdi,
  .lea rcx (.ix rdi 2 rsi 0),
  .mov r9 rcx]

/-- src/ntt_asm.S:1009-1020 -/
def ct_s2r_loop2_inner1 : List Instr := [
  .label .ct_s2r_loop2_inner1,
  .load .dqu 0 (.at rax 0),
  .load .dqu 1 (.at rcx 0),
  .vec (.vpaddd 2 0 1),
  .vec (.vpsubd 3 0 1),
  .store (.at rax 0) 2,
  .store (.at rcx 0) 3,
  .addi rax 32,
  .addi rcx 32,
  .cmp rax r9,
  .jcc .b .ct_s2r_loop2_inner1]

/-- src/ntt_asm.S:1022-1028 -/
def ct_s2r_loop2_aux : List Instr := [
  .label .ct_s2r_loop2_aux,
  .addi rdx 2,
  .load .bdcstw 5 (.at rdx 0),
  .vec (.vpmovsxwq 5 5),
  .mov rax rcx,
  .lea rcx (.ix rax 2 rsi 0),
  .mov r9 rcx]

/-- src/ntt_asm.S:1039-1076 -/
def ct_s2r_loop2_inner2 : List Instr := [
  .label .ct_s2r_loop2_inner2,
  .load .dqu 0 (.at rax 0),
  .load .dqu 1 (.at rcx 0),
  .vec (.vpmuldq 2 1 5),
  .vec (.vpshufd 1 1 49),
  .vec (.vpmuldq 3 1 5),
  .vec (.vpslldq 1 3 4),
  .vec (.vpblendd 1 1 2 85),
  .vec (.vpand 1 1 4),
  .vec (.vpsrlq 3 3 12),
  .vec (.vpsrlq 2 2 12),
  .vec (.vpslldq 3 3 4),
  .vec (.vpblendd 3 3 2 85),
  .vec (.vpslld 2 1 1),
  .vec (.vpaddd 1 1 2),
  .vec (.vpsubd 1 1 3),
  .vec (.vpaddd 2 0 1),
  .vec (.vpsubd 3 0 1),
  .store (.at rax 0) 2,
  .store (.at rcx 0) 3,
  .addi rax 32,
  .addi rcx 32,
  .cmp rax r9,
  .jcc .b .ct_s2r_loop2_inner2,
  .cmp rcx r8,
  .jcc .b .ct_s2r_loop2_aux,
  .addi rdx 2,
  .shr rsi 1,
  .cmpi rsi 8,
  .jcc .a .ct_s2r_loop2]

/-- src/ntt_asm.S:1082-1084 -/
def ct_s2r_finish : List Instr := [
  .label .ct_s2r_finish,
  .mov rax rdi,
  .const 6 .perm2020]

/-- src/ntt_asm.S:1085-1127 -/
def ct_s2r_finish_size4 : List Instr := [
  .label .ct_s2r_finish_size4,
  .load .sxwq128 5 (.at rdx 0),
  .vec (.vpermd 5 6 5),
  .load .dqu 0 (.at rax 0),
  .load .dqu 1 (.at rax 32),
  .vec (.vperm2i128 2 0 1 32),
  .vec (.vperm2i128 3 0 1 49),
  .vec (.vpmuldq 0 3 5),
  .vec (.vpshufd 3 3 49),
  .vec (.vpmuldq 1 3 5),
  .vec (.vpslldq 3 1 4),
  .vec (.vpblendd 3 3 0 85),
  .vec (.vpand 3 3 4),
  .vec (.vpsrlq 1 1 12),
  .vec (.vpsrlq 0 0 12),
  .vec (.vpslldq 1 1 4),
  .vec (.vpblendd 1 1 0 85),
  .vec (.vpslld 0 3 1),
  .vec (.vpaddd 3 3 0),
  .vec (.vpsubd 3 3 1),
  .vec (.vpaddd 0 2 3),
  .vec (.vpsubd 1 2 3),
  .vec (.vperm2i128 2 0 1 32),
  .vec (.vperm2i128 3 0 1 49),
  .store (.at rax 0) 2,
  .store (.at rax 32) 3,
  .addi rax 64,
  .addi rdx 4,
  .cmp rax r8,
  .jcc .b .ct_s2r_finish_size4,
  .mov rax rdi,
  .const 6 .perm0426]

/-- src/ntt_asm.S:1129-1170 -/
def ct_s2r_finish_size2 : List Instr := [
  .label .ct_s2r_finish_size2,
  .load .sxwq 5 (.at rdx 0),
  .vec (.vpermd 5 6 5),
  .load .dqu 0 (.at rax 0),
  .load .dqu 1 (.at rax 32),
  .vec (.vshufpd 2 0 1 0),
  .vec (.vshufpd 3 0 1 15),
  .vec (.vpmuldq 0 3 5),
  .vec (.vpshufd 3 3 49),
  .vec (.vpmuldq 1 3 5),
  .vec (.vpslldq 3 1 4),
  .vec (.vpblendd 3 3 0 85),
  .vec (.vpand 3 3 4),
  .vec (.vpsrlq 1 1 12),
  .vec (.vpsrlq 0 0 12),
  .vec (.vpslldq 1 1 4),
  .vec (.vpblendd 1 1 0 85),
  .vec (.vpslld 0 3 1),
  .vec (.vpaddd 3 3 0),
  .vec (.vpsubd 3 3 1),
  .vec (.vpaddd 0 2 3),
  .vec (.vpsubd 1 2 3),
  .vec (.vshufpd 2 0 1 0),
  .vec (.vshufpd 3 0 1 15),
  .store (.at rax 0) 2,
  .store (.at rax 32) 3,
  .addi rax 64,
  .addi rdx 8,
  .cmp rax r8,
  .jcc .b .ct_s2r_finish_size2,
  .mov rax rdi]

/-- src/ntt_asm.S:1171-1215 -/
def ct_s2r_finish_size1 : List Instr := [
  .label .ct_s2r_finish_size1,
  .load .sxwq 5 (.at rdx 0),
  .load .sxwq 6 (.at rdx 8),
  .load .dqu 0 (.at rax 0),
  .load .dqu 1 (.at rax 32),
  .vec (.vpslldq 2 1 4),
  .vec (.vpblendd 2 0 2 170),
  .vec (.vpsrldq 0 0 4),
  .vec (.vpmuldq 0 0 5),
  .vec (.vpsrldq 1 1 4),
  .vec (.vpmuldq 1 1 6),
  .vec (.vpslldq 3 1 4),
  .vec (.vpblendd 3 3 0 85),
  .vec (.vpand 3 3 4),
  .vec (.vpsrlq 1 1 12),
  .vec (.vpsrlq 0 0 12),
  .vec (.vpslldq 1 1 4),
  .vec (.vpblendd 1 1 0 85),
  .vec (.vpslld 0 3 1),
  .vec (.vpaddd 3 3 0),
  .vec (.vpsubd 3 3 1),
  .vec (.vpaddd 0 2 3),
  .vec (.vpsubd 1 2 3),
  .vec (.vpslldq 2 1 4),
  .vec (.vpblendd 2 0 2 170),
  .vec (.vpsrldq 0 0 4),
  .vec (.vpblendd 3 0 1 170),
  .store (.at rax 0) 2,
  .store (.at rax 32) 3,
  .addi rax 64,
  .addi rdx 16,
  .cmp rax r8,
  .jcc .b .ct_s2r_finish_size1,
  .ret]

/-- src/ntt_asm.S:1235-1237 -/
def mulntt_red_ct_std2rev_asm : List Instr := [
  .label .mulntt_red_ct_std2rev_asm,
  .lea r8 (.ix rdi 4 rsi 0),
  .const 4 .mask]

/-- src/ntt_asm.S:1242-1245 -/
def mct_s2r_loop : List Instr := [
  .label .mct_s2r_loop,
  .mov rax rdi,
  .lea rcx (.ix rdi 2 rsi 0),
  .mov r9 rcx]

/-- src/ntt_asm.S:1247-1250 -/
def mct_s2r_loop_aux : List Instr := [
  .label .mct_s2r_loop_aux,
  .addi rdx 2,
  .load .bdcstw 5 (.at rdx 0),
  .vec (.vpmovsxwq 5 5)]

/-- src/ntt_asm.S:1257-1302 -/
def mct_s2r_loop_inner : List Instr := [
  .label .mct_s2r_loop_inner,
  .load .dqu 0 (.at rax 0),
  .load .dqu 1 (.at rcx 0),
  .vec (.vpmuldq 2 1 5),
  .vec (.vpshufd 1 1 49),
  .vec (.vpmuldq 3 1 5),
  .vec (.vpslldq 1 3 4),
  .vec (.vpblendd 1 1 2 85),
  .vec (.vpand 1 1 4),
  .vec (.vpsrlq 3 3 12),
  .vec (.vpsrlq 2 2 12),
  .vec (.vpslldq 3 3 4),
  .vec (.vpblendd 3 3 2 85),
  .vec (.vpslld 2 1 1),
  .vec (.vpaddd 1 1 2),
  .vec (.vpsubd 1 1 3),
  .vec (.vpaddd 2 0 1),
  .vec (.vpsubd 3 0 1),
  .store (.at rax 0) 2,
  .store (.at rcx 0) 3,
  .addi rax 32,
  .addi rcx 32,
  .cmp rax r9,
  .jcc .b .mct_s2r_loop_inner,
  .mov rax rcx,
  .lea rcx (.ix rax 2 rsi 0),
  .mov r9 rcx,
  .cmp rax r8,
  .jcc .b .mct_s2r_loop_aux,
  .shr rsi 1,
  .cmpi rsi 8,
  .jcc .a .mct_s2r_loop,
  .addi rdx 2,
  .jmp .ct_s2r_finish]

/-- src/ntt_asm.S:1320-1330 -/
def ntt_red_gs_rev2std_asm : List Instr := [
  .label .ntt_red_gs_rev2std_asm,
  .lea rcx (.ix rdi 4 rsi 0),
  .lea r8 (.ix rdx 1 rsi 0),
  .shr rsi 1,
  .lea r9 (.ix rdx 1 rsi 0),
  .shr rsi 1,
  .lea r10 (.ix rdx 1 rsi 0),
  .mov rax rdi,
  .const 4 .mask,
  .const 6 .perm2020]

/-- src/ntt_asm.S:1336-1423 -/
def gs_r2s_loop0 : List Instr := [
  .label .gs_r2s_loop0,
  .load .sxwq 5 (.at r8 0),
  .load .dqu 0 (.at rax 0),
  .vec (.vpsrldq 1 0 4),
  .vec (.vpsubd 2 0 1),
  .vec (.vpaddd 0 0 1),
  .vec (.vpmuldq 2 2 5),
  .vec (.vpand 3 2 4),
  .vec (.vpsrlq 2 2 12),
  .vec (.vpslld 1 3 1),
  .vec (.vpaddd 3 3 1),
  .vec (.vpsubd 1 3 2),
  .load .sxwq128 5 (.at r9 0),
  .vec (.vpermd 5 6 5),
  .vec (.vshufps 2 0 1 68),
  .vec (.vshufps 3 0 1 238),
  .vec (.vpsubd 1 2 3),
  .vec (.vpaddd 0 2 3),
  .vec (.vpmuldq 1 1 5),
  .vec (.vpand 3 1 4),
  .vec (.vpsrlq 2 1 12),
  .vec (.vpslld 1 3 1),
  .vec (.vpaddd 3 3 1),
  .vec (.vpsubd 1 3 2),
  .load .bdcstw 5 (.at r10 0),
  .vec (.vpmovsxwq 5 5),
  .vec (.vperm2i128 2 0 1 32),
  .vec (.vperm2i128 3 0 1 49),
  .vec (.vpsubd 1 2 3),
  .vec (.vpaddd 0 2 3),
  .vec (.vpmuldq 1 1 5),
  .vec (.vpand 3 1 4),
  .vec (.vpsrlq 2 1 12),
  .vec (.vpslld 1 3 1),
  .vec (.vpaddd 3 3 1),
  .vec (.vpsubd 1 3 2),
  .vec (.vperm2i128 2 0 1 32),
  .vec (.vperm2i128 3 0 1 49),
  .vec (.vshufps 0 2 3 136),
  .store (.at rax 0) 0,
  .addi rax 32,
  .addi r8 8,
  .addi r9 4,
  .addi r10 2,
  .cmp rax rcx,
  .jcc .b .gs_r2s_loop0,
  .mov rax rdi,
  .load .dqu 0 (.at rax 0),
  .load .dqu 1 (.at rax 32),
  .vec (.vpsubd 2 0 1),
  .vec (.vpaddd 0 0 1),
  .store (.at rax 0) 0,
  .store (.at rax 32) 2,
  .addi rax 64,
  .cmp rax rcx,
  .jcc .ae .gs_r2s_done,
  .shr rsi 1,
  .lea r9 (.ix rdx 1 rsi 2)]

/-- src/ntt_asm.S:1424-1461 -/
def gs_r2s_size16_loop : List Instr := [
  .label .gs_r2s_size16_loop,
  .load .bdcstw 5 (.at r9 0),
  .vec (.vpmovsxwq 5 5),
  .load .dqu 0 (.at rax 0),
  .load .dqu 1 (.at rax 32),
  .vec (.vpsubd 2 0 1),
  .vec (.vpaddd 0 0 1),
  .vec (.vpmuldq 1 2 5),
  .vec (.vpshufd 2 2 49),
  .vec (.vpmuldq 3 2 5),
  .vec (.vpslldq 2 3 4),
  .vec (.vpblendd 2 2 1 85),
  .vec (.vpand 2 2 4),
  .vec (.vpsrlq 1 1 12),
  .vec (.vpsrlq 3 3 12),
  .vec (.vpslldq 3 3 4),
  .vec (.vpblendd 1 3 1 85),
  .vec (.vpslld 3 2 1),
  .vec (.vpaddd 2 2 3),
  .vec (.vpsubd 1 2 1),
  .store (.at rax 0) 0,
  .store (.at rax 32) 1,
  .addi rax 64,
  .addi r9 2,
  .cmp rax rcx,
  .jcc .b .gs_r2s_size16_loop,
  .mov r10 rcx,
  .movi r11 64]

/-- src/ntt_asm.S:1463-1468 -/
def gs_r2s_size32_loop : List Instr := [
  .label .gs_r2s_size32_loop,
  .mov rax rdi,
  .lea rcx (.ix rax 1 r11 0),
  .mov r8 rcx,
  .shr rsi 1,
  .lea r9 (.ix rdx 1 rsi 0)]

/-- src/ntt_asm.S:1470-1485 -/
def gs_r2s_size32_first_blocks : List Instr := [
  .label .gs_r2s_size32_first_blocks,
  .load .dqu 0 (.at rax 0),
  .load .dqu 1 (.at rcx 0),
  .vec (.vpsubd 2 0 1),
  .vec (.vpaddd 0 0 1),
  .store (.at rax 0) 0,
  .store (.at rcx 0) 2,
  .addi rax 32,
  .addi rcx 32,
  .cmp rax r8,
  .jcc .b .gs_r2s_size32_first_blocks,
  .cmp rcx r10,
  .jcc .ae .gs_r2s_done]

/-- src/ntt_asm.S:1487-1494 -/
def gs_r2s_size32_other_blocks : List Instr := [
  .label .gs_r2s_size32_other_blocks,
  .addi r9 2,
  .load .bdcstw 5 (.at r9 0),
  .vec (.vpmovsxwq 5 5),
  .mov rax rcx,
  .add rcx r11,
  .mov r8 rcx]

/-- src/ntt_asm.S:1495-1529 -/
def gs_r2s_size32_inner_loop : List Instr := [
  .label .gs_r2s_size32_inner_loop,
  .load .dqu 0 (.at rax 0),
  .load .dqu 1 (.at rcx 0),
  .vec (.vpsubd 2 0 1),
  .vec (.vpaddd 0 0 1),
  .vec (.vpmuldq 1 2 5),
  .vec (.vpshufd 2 2 49),
  .vec (.vpmuldq 3 2 5),
  .vec (.vpslldq 2 3 4),
  .vec (.vpblendd 2 2 1 85),
  .vec (.vpand 2 2 4),
  .vec (.vpsrlq 1 1 12),
  .vec (.vpsrlq 3 3 12),
  .vec (.vpslldq 3 3 4),
  .vec (.vpblendd 1 3 1 85),
  .vec (.vpslld 3 2 1),
  .vec (.vpaddd 2 2 3),
  .vec (.vpsubd 1 2 1),
  .store (.at rax 0) 0,
  .store (.at rcx 0) 1,
  .addi rax 32,
  .addi rcx 32,
  .cmp rax r8,
  .jcc .b .gs_r2s_size32_inner_loop,
  .cmp rcx r10,
  .jcc .b .gs_r2s_size32_other_blocks,
  .shl r11 1,
  .jmp .gs_r2s_size32_loop]

/-- src/ntt_asm.S:1531-1532 -/
def gs_r2s_done : List Instr := [
  .label .gs_r2s_done,
  .ret]

/-- src/ntt_asm.S:1551-1561 -/
def nttmul_red_gs_rev2std_asm : List Instr := [
  .label .nttmul_red_gs_rev2std_asm,
  .lea rcx (.ix rdi 4 rsi 0),
  .lea r8 (.ix rdx 1 rsi 0),
  .shr rsi 1,
  .lea r9 (.ix rdx 1 rsi 0),
  .shr rsi 1,
  .lea r10 (.ix rdx 1 rsi 0),
  .mov rax rdi,
  .const 4 .mask,
  .const 6 .perm2020]

/-- src/ntt_asm.S:1568-1638 -/
def mgs_r2s_loop0 : List Instr := [
  .label .mgs_r2s_loop0,
  .load .sxwq 5 (.at r8 0),
  .load .dqu 0 (.at rax 0),
  .vec (.vpsrldq 1 0 4),
  .vec (.vpsubd 2 0 1),
  .vec (.vpaddd 0 0 1),
  .vec (.vpmuldq 2 2 5),
  .vec (.vpand 3 2 4),
  .vec (.vpsrlq 2 2 12),
  .vec (.vpslld 1 3 1),
  .vec (.vpaddd 3 3 1),
  .vec (.vpsubd 1 3 2),
  .load .sxwq128 5 (.at r9 0),
  .vec (.vpermd 5 6 5),
  .vec (.vshufps 2 0 1 68),
  .vec (.vshufps 3 0 1 238),
  .vec (.vpsubd 1 2 3),
  .vec (.vpaddd 0 2 3),
  .vec (.vpmuldq 1 1 5),
  .vec (.vpand 3 1 4),
  .vec (.vpsrlq 2 1 12),
  .vec (.vpslld 1 3 1),
  .vec (.vpaddd 3 3 1),
  .vec (.vpsubd 1 3 2),
  .load .bdcstw 5 (.at r10 0),
  .vec (.vpmovsxwq 5 5),
  .vec (.vperm2i128 2 0 1 32),
  .vec (.vperm2i128 3 0 1 49),
  .vec (.vpsubd 1 2 3),
  .vec (.vpaddd 0 2 3),
  .vec (.vpmuldq 1 1 5),
  .vec (.vpand 3 1 4),
  .vec (.vpsrlq 2 1 12),
  .vec (.vpslld 1 3 1),
  .vec (.vpaddd 3 3 1),
  .vec (.vpsubd 1 3 2),
  .vec (.vperm2i128 2 0 1 32),
  .vec (.vperm2i128 3 0 1 49),
  .vec (.vshufps 0 2 3 136),
  .store (.at rax 0) 0,
  .addi rax 32,
  .addi r8 8,
  .addi r9 4,
  .addi r10 2,
  .cmp rax rcx,
  .jcc .b .mgs_r2s_loop0,
  .mov rax rdi,
  .shr rsi 1,
  .lea r9 (.ix rdx 1 rsi 0)]

/-- src/ntt_asm.S:1639-1678 -/
def mgs_r2s_size16_loop : List Instr := [
  .label .mgs_r2s_size16_loop,
  .load .bdcstw 5 (.at r9 0),
  .vec (.vpmovsxwq 5 5),
  .load .dqu 0 (.at rax 0),
  .load .dqu 1 (.at rax 32),
  .vec (.vpsubd 2 0 1),
  .vec (.vpaddd 0 0 1),
  .vec (.vpmuldq 1 2 5),
  .vec (.vpshufd 2 2 49),
  .vec (.vpmuldq 3 2 5),
  .vec (.vpslldq 2 3 4),
  .vec (.vpblendd 2 2 1 85),
  .vec (.vpand 2 2 4),
  .vec (.vpsrlq 1 1 12),
  .vec (.vpsrlq 3 3 12),
  .vec (.vpslldq 3 3 4),
  .vec (.vpblendd 1 3 1 85),
  .vec (.vpslld 3 2 1),
  .vec (.vpaddd 2 2 3),
  .vec (.vpsubd 1 2 1),
  .store (.at rax 0) 0,
  .store (.at rax 32) 1,
  .addi rax 64,
  .addi r9 2,
  .cmp rax rcx,
  .jcc .b .mgs_r2s_size16_loop,
  .cmpi rsi 2,
  .jcc .e .mgs_r2s_done,
  .mov r10 rcx,
  .movi r11 64]

/-- src/ntt_asm.S:1680-1685 -/
def mgs_r2s_size32_loop : List Instr := [
  .label .mgs_r2s_size32_loop,
  .mov rax rdi,
  .lea rcx (.ix rax 1 r11 0),
  .mov r8 rcx,
  .shr rsi 1,
  .lea r9 (.ix rdx 1 rsi 0)]

/-- src/ntt_asm.S:1687-1689 -/
def mgs_r2s_size32_blocks : List Instr := [
  .label .mgs_r2s_size32_blocks,
  .load .bdcstw 5 (.at r9 0),
  .vec (.vpmovsxwq 5 5)]

/-- src/ntt_asm.S:1691-1730 -/
def mgs_r2s_size32_inner_loop : List Instr := [
  .label .mgs_r2s_size32_inner_loop,
  .load .dqu 0 (.at rax 0),
  .load .dqu 1 (.at rcx 0),
  .vec (.vpsubd 2 0 1),
  .vec (.vpaddd 0 0 1),
  .vec (.vpmuldq 1 2 5),
  .vec (.vpshufd 2 2 49),
  .vec (.vpmuldq 3 2 5),
  .vec (.vpslldq 2 3 4),
  .vec (.vpblendd 2 2 1 85),
  .vec (.vpand 2 2 4),
  .vec (.vpsrlq 1 1 12),
  .vec (.vpsrlq 3 3 12),
  .vec (.vpslldq 3 3 4),
  .vec (.vpblendd 1 3 1 85),
  .vec (.vpslld 3 2 1),
  .vec (.vpaddd 2 2 3),
  .vec (.vpsubd 1 2 1),
  .store (.at rax 0) 0,
  .store (.at rcx 0) 1,
  .addi rax 32,
  .addi rcx 32,
  .cmp rax r8,
  .jcc .b .mgs_r2s_size32_inner_loop,
  .mov rax rcx,
  .add rcx r11,
  .mov r8 rcx,
  .addi r9 2,
  .cmp rax r10,
  .jcc .b .mgs_r2s_size32_blocks,
  .shl r11 1,
  .cmpi rsi 2,
  .jcc .ne .mgs_r2s_size32_loop]

/-- src/ntt_asm.S:1732-1733 -/
def mgs_r2s_done : List Instr := [
  .label .mgs_r2s_done,
  .ret]

/-- src/ntt_asm.S:1751-1753 -/
def ntt_red_gs_std2rev_asm : List Instr := [
  .label .ntt_red_gs_std2rev_asm,
  .lea r11 (.ix rdi 4 rsi 0),
  .const 4 .mask]

/-- src/ntt_asm.S:1763-1766 -/
def gs_s2r_main : List Instr := [
  .label .gs_s2r_main,
  .mov r8 rdi,
  .lea r9 (.ix rdx 1 rsi 0),
  .lea r10 (.ix r8 2 rsi 0)]

/-- src/ntt_asm.S:1767-1771 -/
def gs_s2r_loop : List Instr := [
  .label .gs_s2r_loop,
  .load .sxwd 5 (.at r9 0),
  .vec (.vpshufd 6 5 49),
  .mov rax r8,
  .lea rcx (.ix r8 2 rsi 0)]

/-- src/ntt_asm.S:1772-1841 -/
def gs_s2r_inner_loop : List Instr := [
  .label .gs_s2r_inner_loop,
  .load .dqu 0 (.at rax 0),
  .load .dqu 1 (.at rcx 0),
  .vec (.vpaddd 2 0 1),
  .vec (.vpsubd 0 0 1),
  .vec (.vpmuldq 1 0 5),
  .vec (.vpshufd 0 0 49),
  .vec (.vpmuldq 3 0 6),
  .vec (.vpslldq 0 3 4),
  .vec (.vpblendd 0 0 1 85),
  .vec (.vpand 0 0 4),
  .vec (.vpsrlq 3 3 12),
  .vec (.vpsrlq 1 1 12),
  .vec (.vpslldq 3 3 4),
  .vec (.vpblendd 1 3 1 85),
  .vec (.vpslld 3 0 1),
  .vec (.vpaddd 0 0 3),
  .vec (.vpsubd 0 0 1),
  .store (.at rax 0) 2,
  .store (.at rcx 0) 0,
  .lea rax (.ix rax 4 rsi 0),
  .lea rcx (.ix rcx 4 rsi 0),
  .cmp rax r11,
  .jcc .b .gs_s2r_inner_loop,
  .addi r8 32,
  .addi r9 16,
  .cmp r8 r10,
  .jcc .b .gs_s2r_loop,
  .shr rsi 1,
  .cmpi rsi 16,
  .jcc .ae .gs_s2r_main,
  .load .sxwd 5 (.at rdx 0),
  .vec (.vpsrldq 7 5 12),
  .vec (.vpbroadcastq 7 7),
  .vec (.vperm2i128 5 5 5 17),
  .vec (.vpshufd 6 5 49),
  .mov rax rdi,
  .const 9 .perm04152637]

/-- src/ntt_asm.S:1843-1924 -/
def gs_s2r_finish_loop : List Instr := [
  .label .gs_s2r_finish_loop,
  .load .dqu 0 (.at rax 0),
  .load .dqu 1 (.at rax 32),
  .vec (.vperm2i128 2 0 1 32),
  .vec (.vperm2i128 3 0 1 49),
  .vec (.vpaddd 0 2 3),
  .vec (.vpsubd 1 2 3),
  .vec (.vpmuldq 2 1 5),
  .vec (.vpshufd 1 1 49),
  .vec (.vpmuldq 3 1 6),
  .vec (.vpslldq 1 3 4),
  .vec (.vpblendd 1 1 2 85),
  .vec (.vpand 1 1 4),
  .vec (.vpsrlq 3 3 12),
  .vec (.vpsrlq 2 2 12),
  .vec (.vpslldq 3 3 4),
  .vec (.vpblendd 2 3 2 85),
  .vec (.vpslld 3 1 1),
  .vec (.vpaddd 1 1 3),
  .vec (.vpsubd 1 1 2),
  .vec (.vshufpd 2 0 1 0),
  .vec (.vshufpd 3 0 1 15),
  .vec (.vpaddd 0 2 3),
  .vec (.vpsubd 1 2 3),
  .vec (.vpshufd 2 1 49),
  .vec (.vpmuldq 2 2 7),
  .vec (.vpand 3 2 4),
  .vec (.vpsrlq 2 2 12),
  .vec (.vpslld 8 3 1),
  .vec (.vpaddd 3 3 8),
  .vec (.vpsubd 3 3 2),
  .vec (.vpslldq 3 3 4),
  .vec (.vpblendd 1 3 1 85),
  .vec (.vpslldq 2 1 4),
  .vec (.vpblendd 2 2 0 85),
  .vec (.vpsrldq 3 0 4),
  .vec (.vpblendd 3 1 3 85),
  .vec (.vpaddd 0 2 3),
  .vec (.vpsubd 1 2 3),
  .vec (.vperm2i128 2 0 1 32),
  .vec (.vperm2i128 3 0 1 49),
  .vec (.vpermd 0 9 2),
  .vec (.vpermd 1 9 3),
  .store (.at rax 0) 0,
  .store (.at rax 32) 1,
  .addi rax 64,
  .cmp rax r11,
  .jcc .b .gs_s2r_finish_loop,
  .ret]

/-- src/ntt_asm.S:1943-1945 -/
def nttmul_red_gs_std2rev_asm : List Instr := [
  .label .nttmul_red_gs_std2rev_asm,
  .lea r11 (.ix rdi 4 rsi 0),
  .const 4 .mask]

/-- src/ntt_asm.S:1949-1952 -/
def mgs_s2r_main : List Instr := [
  .label .mgs_s2r_main,
  .mov r8 rdi,
  .lea r9 (.ix rdx 1 rsi 0),
  .lea r10 (.ix r8 2 rsi 0)]

/-- src/ntt_asm.S:1953-1957 -/
def mgs_s2r_loop : List Instr := [
  .label .mgs_s2r_loop,
  .load .sxwd 5 (.at r9 0),
  .vec (.vpshufd 6 5 49),
  .mov rax r8,
  .lea rcx (.ix r8 2 rsi 0)]

/-- src/ntt_asm.S:1958-2036 -/
def mgs_s2r_inner_loop : List Instr := [
  .label .mgs_s2r_inner_loop,
  .load .dqu 0 (.at rax 0),
  .load .dqu 1 (.at rcx 0),
  .vec (.vpaddd 2 0 1),
  .vec (.vpsubd 0 0 1),
  .vec (.vpmuldq 1 0 5),
  .vec (.vpshufd 0 0 49),
  .vec (.vpmuldq 3 0 6),
  .vec (.vpslldq 0 3 4),
  .vec (.vpblendd 0 0 1 85),
  .vec (.vpand 0 0 4),
  .vec (.vpsrlq 3 3 12),
  .vec (.vpsrlq 1 1 12),
  .vec (.vpslldq 3 3 4),
  .vec (.vpblendd 1 3 1 85),
  .vec (.vpslld 3 0 1),
  .vec (.vpaddd 0 0 3),
  .vec (.vpsubd 0 0 1),
  .store (.at rax 0) 2,
  .store (.at rcx 0) 0,
  .lea rax (.ix rax 4 rsi 0),
  .lea rcx (.ix rcx 4 rsi 0),
  .cmp rax r11,
  .jcc .b .mgs_s2r_inner_loop,
  .addi r8 32,
  .addi r9 16,
  .cmp r8 r10,
  .jcc .b .mgs_s2r_loop,
  .shr rsi 1,
  .cmpi rsi 16,
  .jcc .ae .mgs_s2r_main,
  .load .sxwd 0 (.at rdx 0),
  .const 9 .perm_bdcst1,
  .vec (.vpermd 9 9 0),
  .const 8 .perm_bdcst3,
  .vec (.vpermd 8 8 0),
  .const 7 .perm_bdcst2,
  .vec (.vpermd 7 7 0),
  .const 6 .perm5070,
  .vec (.vpermd 6 6 0),
  .const 5 .perm4060,
  .vec (.vpermd 5 5 0),
  .mov rax rdi,
  .const 10 .perm04152637]

/-- src/ntt_asm.S:2038-2142 -/
def mgs_s2r_finish_loop : List Instr := [
  .label .mgs_s2r_finish_loop,
  .load .dqu 0 (.at rax 0),
  .load .dqu 1 (.at rax 32),
  .vec (.vperm2i128 2 0 1 32),
  .vec (.vperm2i128 3 0 1 49),
  .vec (.vpaddd 0 2 3),
  .vec (.vpsubd 1 2 3),
  .vec (.vpmuldq 2 1 5),
  .vec (.vpshufd 1 1 49),
  .vec (.vpmuldq 3 1 6),
  .vec (.vpslldq 1 3 4),
  .vec (.vpblendd 1 1 2 85),
  .vec (.vpand 1 1 4),
  .vec (.vpsrlq 3 3 12),
  .vec (.vpsrlq 2 2 12),
  .vec (.vpslldq 3 3 4),
  .vec (.vpblendd 2 3 2 85),
  .vec (.vpslld 3 1 1),
  .vec (.vpaddd 1 1 3),
  .vec (.vpsubd 1 1 2),
  .vec (.vshufpd 2 0 1 0),
  .vec (.vshufpd 3 0 1 15),
  .vec (.vpaddd 0 2 3),
  .vec (.vpsubd 1 2 3),
  .vec (.vpmuldq 2 1 7),
  .vec (.vpshufd 1 1 49),
  .vec (.vpmuldq 3 1 8),
  .vec (.vpslldq 1 3 4),
  .vec (.vpblendd 1 1 2 85),
  .vec (.vpand 1 1 4),
  .vec (.vpsrlq 3 3 12),
  .vec (.vpsrlq 2 2 12),
  .vec (.vpslldq 3 3 4),
  .vec (.vpblendd 2 3 2 85),
  .vec (.vpslld 3 1 1),
  .vec (.vpaddd 1 1 3),
  .vec (.vpsubd 1 1 2),
  .vec (.vpslldq 2 1 4),
  .vec (.vpblendd 2 2 0 85),
  .vec (.vpsrldq 3 0 4),
  .vec (.vpblendd 3 1 3 85),
  .vec (.vpaddd 0 2 3),
  .vec (.vpsubd 1 2 3),
  .vec (.vpmuldq 2 1 9),
  .vec (.vpshufd 1 1 49),
  .vec (.vpmuldq 3 1 9),
  .vec (.vpslldq 1 3 4),
  .vec (.vpblendd 1 1 2 85),
  .vec (.vpand 1 1 4),
  .vec (.vpsrlq 3 3 12),
  .vec (.vpsrlq 2 2 12),
  .vec (.vpslldq 3 3 4),
  .vec (.vpblendd 2 3 2 85),
  .vec (.vpslld 3 1 1),
  .vec (.vpaddd 1 1 3),
  .vec (.vpsubd 1 1 2),
  .vec (.vperm2i128 2 0 1 32),
  .vec (.vperm2i128 3 0 1 49),
  .vec (.vpermd 0 10 2),
  .vec (.vpermd 1 10 3),
  .store (.at rax 0) 0,
  .store (.at rax 32) 1,
  .addi rax 64,
  .cmp rax r11,
  .jcc .b .mgs_s2r_finish_loop,
  .ret]

/-- The program. -/
def prog : List Instr :=
  avx2_supported ++ (
  not_supported ++ (
  reduce_array_asm ++ (
  loop0 ++ (
  reduce_array_asm2 ++ (
  loop0b ++ (
  reduce_array_twice_asm ++ (
  loop1 ++ (
  reduce_array_twice_asm2 ++ (
  loop1b ++ (
  correct_asm ++ (
  loop2 ++ (
  shift_array_asm ++ (
  loop_shift ++ (
  mul_reduce_array16_asm ++ (
  loop3 ++ (
  mul_reduce_array16_asm2 ++ (
  loop4 ++ (
  mul_reduce_array_asm ++ (
  loop5 ++ (
  scalar_mul_reduce_array_asm ++ (
  loop6 ++ (
  ntt_red_ct_rev2std_asm ++ (
  ct_r2s_size8_loop ++ (
  ct_r2s_size16_loop ++ (
  ct_r2s_size32_loop ++ (
  ct_r2s_loop_aux1 ++ (
  ct_r2s_inner_loop ++ (
  ct_r2s_done ++ (
  mulntt_red_ct_rev2std_asm ++ (
  mct_r2s_size8_loop2 ++ (
  ntt_red_ct_std2rev_asm ++ (
  ct_s2r_loop1 ++ (
  ct_s2r_loop2 ++ (
  ct_s2r_loop2_inner1 ++ (
  ct_s2r_loop2_aux ++ (
  ct_s2r_loop2_inner2 ++ (
  ct_s2r_finish ++ (
  ct_s2r_finish_size4 ++ (
  ct_s2r_finish_size2 ++ (
  ct_s2r_finish_size1 ++ (
  mulntt_red_ct_std2rev_asm ++ (
  mct_s2r_loop ++ (
  mct_s2r_loop_aux ++ (
  mct_s2r_loop_inner ++ (
  ntt_red_gs_rev2std_asm ++ (
  gs_r2s_loop0 ++ (
  gs_r2s_size16_loop ++ (
  gs_r2s_size32_loop ++ (
  gs_r2s_size32_first_blocks ++ (
  gs_r2s_size32_other_blocks ++ (
  gs_r2s_size32_inner_loop ++ (
  gs_r2s_done ++ (
  nttmul_red_gs_rev2std_asm ++ (
  mgs_r2s_loop0 ++ (
  mgs_r2s_size16_loop ++ (
  mgs_r2s_size32_loop ++ (
  mgs_r2s_size32_blocks ++ (
  mgs_r2s_size32_inner_loop ++ (
  mgs_r2s_done ++ (
  ntt_red_gs_std2rev_asm ++ (
  gs_s2r_main ++ (
  gs_s2r_loop ++ (
  gs_s2r_inner_loop ++ (
  gs_s2r_finish_loop ++ (
  nttmul_red_gs_std2rev_asm ++ (
  mgs_s2r_main ++ (
  mgs_s2r_loop ++ (
  mgs_s2r_inner_loop ++ (
  mgs_s2r_finish_loop)))))))))))))))))))))))))))))))))))))))))))))))))))))))))))))))))))))

end Code
