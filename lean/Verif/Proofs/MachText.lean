import Verif.Proofs.X86Sim

/-
The text of src/ntt_asm.S from its labels and from behind its loops on.  Generated by tools/genmach.py.
-/

namespace X86

namespace Text

def mgs_s2r_finish_loop_exit : Text :=
  .ret :: []

def mgs_s2r_finish_loop : Text :=
  .load .dqu 0 (.at rax 0) ::
  .load .dqu 1 (.at rax 32) ::
  .vec (.vperm2i128 2 0 1 32) ::
  .vec (.vperm2i128 3 0 1 49) ::
  .vec (.vpaddd 0 2 3) ::
  .vec (.vpsubd 1 2 3) ::
  .vec (.vpmuldq 2 1 5) ::
  .vec (.vpshufd 1 1 49) ::
  .vec (.vpmuldq 3 1 6) ::
  .vec (.vpslldq 1 3 4) ::
  .vec (.vpblendd 1 1 2 85) ::
  .vec (.vpand 1 1 4) ::
  .vec (.vpsrlq 3 3 12) ::
  .vec (.vpsrlq 2 2 12) ::
  .vec (.vpslldq 3 3 4) ::
  .vec (.vpblendd 2 3 2 85) ::
  .vec (.vpslld 3 1 1) ::
  .vec (.vpaddd 1 1 3) ::
  .vec (.vpsubd 1 1 2) ::
  .vec (.vshufpd 2 0 1 0) ::
  .vec (.vshufpd 3 0 1 15) ::
  .vec (.vpaddd 0 2 3) ::
  .vec (.vpsubd 1 2 3) ::
  .vec (.vpmuldq 2 1 7) ::
  .vec (.vpshufd 1 1 49) ::
  .vec (.vpmuldq 3 1 8) ::
  .vec (.vpslldq 1 3 4) ::
  .vec (.vpblendd 1 1 2 85) ::
  .vec (.vpand 1 1 4) ::
  .vec (.vpsrlq 3 3 12) ::
  .vec (.vpsrlq 2 2 12) ::
  .vec (.vpslldq 3 3 4) ::
  .vec (.vpblendd 2 3 2 85) ::
  .vec (.vpslld 3 1 1) ::
  .vec (.vpaddd 1 1 3) ::
  .vec (.vpsubd 1 1 2) ::
  .vec (.vpslldq 2 1 4) ::
  .vec (.vpblendd 2 2 0 85) ::
  .vec (.vpsrldq 3 0 4) ::
  .vec (.vpblendd 3 1 3 85) ::
  .vec (.vpaddd 0 2 3) ::
  .vec (.vpsubd 1 2 3) ::
  .vec (.vpmuldq 2 1 9) ::
  .vec (.vpshufd 1 1 49) ::
  .vec (.vpmuldq 3 1 9) ::
  .vec (.vpslldq 1 3 4) ::
  .vec (.vpblendd 1 1 2 85) ::
  .vec (.vpand 1 1 4) ::
  .vec (.vpsrlq 3 3 12) ::
  .vec (.vpsrlq 2 2 12) ::
  .vec (.vpslldq 3 3 4) ::
  .vec (.vpblendd 2 3 2 85) ::
  .vec (.vpslld 3 1 1) ::
  .vec (.vpaddd 1 1 3) ::
  .vec (.vpsubd 1 1 2) ::
  .vec (.vperm2i128 2 0 1 32) ::
  .vec (.vperm2i128 3 0 1 49) ::
  .vec (.vpermd 0 10 2) ::
  .vec (.vpermd 1 10 3) ::
  .store (.at rax 0) 0 ::
  .store (.at rax 32) 1 ::
  .addi rax 64 ::
  .cmp rax r11 ::
  .jcc .b .mgs_s2r_finish_loop ::
  mgs_s2r_finish_loop_exit

def at_mgs_s2r_finish_loop : Text :=
  .label .mgs_s2r_finish_loop ::
  mgs_s2r_finish_loop

def mgs_s2r_main_exit : Text :=
  .load .sxwd 0 (.at rdx 0) ::
  .const 9 .perm_bdcst1 ::
  .vec (.vpermd 9 9 0) ::
  .const 8 .perm_bdcst3 ::
  .vec (.vpermd 8 8 0) ::
  .const 7 .perm_bdcst2 ::
  .vec (.vpermd 7 7 0) ::
  .const 6 .perm5070 ::
  .vec (.vpermd 6 6 0) ::
  .const 5 .perm4060 ::
  .vec (.vpermd 5 5 0) ::
  .mov rax rdi ::
  .const 10 .perm04152637 ::
  at_mgs_s2r_finish_loop

def mgs_s2r_loop_exit : Text :=
  .shr rsi 1 ::
  .cmpi rsi 16 ::
  .jcc .ae .mgs_s2r_main ::
  mgs_s2r_main_exit

def mgs_s2r_inner_loop_exit : Text :=
  .addi r8 32 ::
  .addi r9 16 ::
  .cmp r8 r10 ::
  .jcc .b .mgs_s2r_loop ::
  mgs_s2r_loop_exit

def mgs_s2r_inner_loop : Text :=
  .load .dqu 0 (.at rax 0) ::
  .load .dqu 1 (.at rcx 0) ::
  .vec (.vpaddd 2 0 1) ::
  .vec (.vpsubd 0 0 1) ::
  .vec (.vpmuldq 1 0 5) ::
  .vec (.vpshufd 0 0 49) ::
  .vec (.vpmuldq 3 0 6) ::
  .vec (.vpslldq 0 3 4) ::
  .vec (.vpblendd 0 0 1 85) ::
  .vec (.vpand 0 0 4) ::
  .vec (.vpsrlq 3 3 12) ::
  .vec (.vpsrlq 1 1 12) ::
  .vec (.vpslldq 3 3 4) ::
  .vec (.vpblendd 1 3 1 85) ::
  .vec (.vpslld 3 0 1) ::
  .vec (.vpaddd 0 0 3) ::
  .vec (.vpsubd 0 0 1) ::
  .store (.at rax 0) 2 ::
  .store (.at rcx 0) 0 ::
  .lea rax (.ix rax 4 rsi 0) ::
  .lea rcx (.ix rcx 4 rsi 0) ::
  .cmp rax r11 ::
  .jcc .b .mgs_s2r_inner_loop ::
  mgs_s2r_inner_loop_exit

def at_mgs_s2r_inner_loop : Text :=
  .label .mgs_s2r_inner_loop ::
  mgs_s2r_inner_loop

def mgs_s2r_loop : Text :=
  .load .sxwd 5 (.at r9 0) ::
  .vec (.vpshufd 6 5 49) ::
  .mov rax r8 ::
  .lea rcx (.ix r8 2 rsi 0) ::
  at_mgs_s2r_inner_loop

def at_mgs_s2r_loop : Text :=
  .label .mgs_s2r_loop ::
  mgs_s2r_loop

def mgs_s2r_main : Text :=
  .mov r8 rdi ::
  .lea r9 (.ix rdx 1 rsi 0) ::
  .lea r10 (.ix r8 2 rsi 0) ::
  at_mgs_s2r_loop

def at_mgs_s2r_main : Text :=
  .label .mgs_s2r_main ::
  mgs_s2r_main

def nttmul_red_gs_std2rev_asm : Text :=
  .lea r11 (.ix rdi 4 rsi 0) ::
  .const 4 .mask ::
  at_mgs_s2r_main

def at_nttmul_red_gs_std2rev_asm : Text :=
  .label .nttmul_red_gs_std2rev_asm ::
  nttmul_red_gs_std2rev_asm

def gs_s2r_finish_loop_exit : Text :=
  .ret ::
  at_nttmul_red_gs_std2rev_asm

def gs_s2r_finish_loop : Text :=
  .load .dqu 0 (.at rax 0) ::
  .load .dqu 1 (.at rax 32) ::
  .vec (.vperm2i128 2 0 1 32) ::
  .vec (.vperm2i128 3 0 1 49) ::
  .vec (.vpaddd 0 2 3) ::
  .vec (.vpsubd 1 2 3) ::
  .vec (.vpmuldq 2 1 5) ::
  .vec (.vpshufd 1 1 49) ::
  .vec (.vpmuldq 3 1 6) ::
  .vec (.vpslldq 1 3 4) ::
  .vec (.vpblendd 1 1 2 85) ::
  .vec (.vpand 1 1 4) ::
  .vec (.vpsrlq 3 3 12) ::
  .vec (.vpsrlq 2 2 12) ::
  .vec (.vpslldq 3 3 4) ::
  .vec (.vpblendd 2 3 2 85) ::
  .vec (.vpslld 3 1 1) ::
  .vec (.vpaddd 1 1 3) ::
  .vec (.vpsubd 1 1 2) ::
  .vec (.vshufpd 2 0 1 0) ::
  .vec (.vshufpd 3 0 1 15) ::
  .vec (.vpaddd 0 2 3) ::
  .vec (.vpsubd 1 2 3) ::
  .vec (.vpshufd 2 1 49) ::
  .vec (.vpmuldq 2 2 7) ::
  .vec (.vpand 3 2 4) ::
  .vec (.vpsrlq 2 2 12) ::
  .vec (.vpslld 8 3 1) ::
  .vec (.vpaddd 3 3 8) ::
  .vec (.vpsubd 3 3 2) ::
  .vec (.vpslldq 3 3 4) ::
  .vec (.vpblendd 1 3 1 85) ::
  .vec (.vpslldq 2 1 4) ::
  .vec (.vpblendd 2 2 0 85) ::
  .vec (.vpsrldq 3 0 4) ::
  .vec (.vpblendd 3 1 3 85) ::
  .vec (.vpaddd 0 2 3) ::
  .vec (.vpsubd 1 2 3) ::
  .vec (.vperm2i128 2 0 1 32) ::
  .vec (.vperm2i128 3 0 1 49) ::
  .vec (.vpermd 0 9 2) ::
  .vec (.vpermd 1 9 3) ::
  .store (.at rax 0) 0 ::
  .store (.at rax 32) 1 ::
  .addi rax 64 ::
  .cmp rax r11 ::
  .jcc .b .gs_s2r_finish_loop ::
  gs_s2r_finish_loop_exit

def at_gs_s2r_finish_loop : Text :=
  .label .gs_s2r_finish_loop ::
  gs_s2r_finish_loop

def gs_s2r_main_exit : Text :=
  .load .sxwd 5 (.at rdx 0) ::
  .vec (.vpsrldq 7 5 12) ::
  .vec (.vpbroadcastq 7 7) ::
  .vec (.vperm2i128 5 5 5 17) ::
  .vec (.vpshufd 6 5 49) ::
  .mov rax rdi ::
  .const 9 .perm04152637 ::
  at_gs_s2r_finish_loop

def gs_s2r_loop_exit : Text :=
  .shr rsi 1 ::
  .cmpi rsi 16 ::
  .jcc .ae .gs_s2r_main ::
  gs_s2r_main_exit

def gs_s2r_inner_loop_exit : Text :=
  .addi r8 32 ::
  .addi r9 16 ::
  .cmp r8 r10 ::
  .jcc .b .gs_s2r_loop ::
  gs_s2r_loop_exit

def gs_s2r_inner_loop : Text :=
  .load .dqu 0 (.at rax 0) ::
  .load .dqu 1 (.at rcx 0) ::
  .vec (.vpaddd 2 0 1) ::
  .vec (.vpsubd 0 0 1) ::
  .vec (.vpmuldq 1 0 5) ::
  .vec (.vpshufd 0 0 49) ::
  .vec (.vpmuldq 3 0 6) ::
  .vec (.vpslldq 0 3 4) ::
  .vec (.vpblendd 0 0 1 85) ::
  .vec (.vpand 0 0 4) ::
  .vec (.vpsrlq 3 3 12) ::
  .vec (.vpsrlq 1 1 12) ::
  .vec (.vpslldq 3 3 4) ::
  .vec (.vpblendd 1 3 1 85) ::
  .vec (.vpslld 3 0 1) ::
  .vec (.vpaddd 0 0 3) ::
  .vec (.vpsubd 0 0 1) ::
  .store (.at rax 0) 2 ::
  .store (.at rcx 0) 0 ::
  .lea rax (.ix rax 4 rsi 0) ::
  .lea rcx (.ix rcx 4 rsi 0) ::
  .cmp rax r11 ::
  .jcc .b .gs_s2r_inner_loop ::
  gs_s2r_inner_loop_exit

def at_gs_s2r_inner_loop : Text :=
  .label .gs_s2r_inner_loop ::
  gs_s2r_inner_loop

def gs_s2r_loop : Text :=
  .load .sxwd 5 (.at r9 0) ::
  .vec (.vpshufd 6 5 49) ::
  .mov rax r8 ::
  .lea rcx (.ix r8 2 rsi 0) ::
  at_gs_s2r_inner_loop

def at_gs_s2r_loop : Text :=
  .label .gs_s2r_loop ::
  gs_s2r_loop

def gs_s2r_main : Text :=
  .mov r8 rdi ::
  .lea r9 (.ix rdx 1 rsi 0) ::
  .lea r10 (.ix r8 2 rsi 0) ::
  at_gs_s2r_loop

def at_gs_s2r_main : Text :=
  .label .gs_s2r_main ::
  gs_s2r_main

def ntt_red_gs_std2rev_asm : Text :=
  .lea r11 (.ix rdi 4 rsi 0) ::
  .const 4 .mask ::
  at_gs_s2r_main

def at_ntt_red_gs_std2rev_asm : Text :=
  .label .ntt_red_gs_std2rev_asm ::
  ntt_red_gs_std2rev_asm

def mgs_r2s_done : Text :=
  .ret ::
  at_ntt_red_gs_std2rev_asm

def at_mgs_r2s_done : Text :=
  .label .mgs_r2s_done ::
  mgs_r2s_done

abbrev mgs_r2s_size32_loop_exit : Text := at_mgs_r2s_done

def mgs_r2s_size32_blocks_exit : Text :=
  .shl r11 1 ::
  .cmpi rsi 2 ::
  .jcc .ne .mgs_r2s_size32_loop ::
  at_mgs_r2s_done

def mgs_r2s_size32_inner_loop_exit : Text :=
  .mov rax rcx ::
  .add rcx r11 ::
  .mov r8 rcx ::
  .addi r9 2 ::
  .cmp rax r10 ::
  .jcc .b .mgs_r2s_size32_blocks ::
  mgs_r2s_size32_blocks_exit

def mgs_r2s_size32_inner_loop : Text :=
  .load .dqu 0 (.at rax 0) ::
  .load .dqu 1 (.at rcx 0) ::
  .vec (.vpsubd 2 0 1) ::
  .vec (.vpaddd 0 0 1) ::
  .vec (.vpmuldq 1 2 5) ::
  .vec (.vpshufd 2 2 49) ::
  .vec (.vpmuldq 3 2 5) ::
  .vec (.vpslldq 2 3 4) ::
  .vec (.vpblendd 2 2 1 85) ::
  .vec (.vpand 2 2 4) ::
  .vec (.vpsrlq 1 1 12) ::
  .vec (.vpsrlq 3 3 12) ::
  .vec (.vpslldq 3 3 4) ::
  .vec (.vpblendd 1 3 1 85) ::
  .vec (.vpslld 3 2 1) ::
  .vec (.vpaddd 2 2 3) ::
  .vec (.vpsubd 1 2 1) ::
  .store (.at rax 0) 0 ::
  .store (.at rcx 0) 1 ::
  .addi rax 32 ::
  .addi rcx 32 ::
  .cmp rax r8 ::
  .jcc .b .mgs_r2s_size32_inner_loop ::
  mgs_r2s_size32_inner_loop_exit

def at_mgs_r2s_size32_inner_loop : Text :=
  .label .mgs_r2s_size32_inner_loop ::
  mgs_r2s_size32_inner_loop

def mgs_r2s_size32_blocks : Text :=
  .load .bdcstw 5 (.at r9 0) ::
  .vec (.vpmovsxwq 5 5) ::
  at_mgs_r2s_size32_inner_loop

def at_mgs_r2s_size32_blocks : Text :=
  .label .mgs_r2s_size32_blocks ::
  mgs_r2s_size32_blocks

def mgs_r2s_size32_loop : Text :=
  .mov rax rdi ::
  .lea rcx (.ix rax 1 r11 0) ::
  .mov r8 rcx ::
  .shr rsi 1 ::
  .lea r9 (.ix rdx 1 rsi 0) ::
  at_mgs_r2s_size32_blocks

def at_mgs_r2s_size32_loop : Text :=
  .label .mgs_r2s_size32_loop ::
  mgs_r2s_size32_loop

def mgs_r2s_size16_loop_exit : Text :=
  .cmpi rsi 2 ::
  .jcc .e .mgs_r2s_done ::
  .mov r10 rcx ::
  .movi r11 64 ::
  at_mgs_r2s_size32_loop

def mgs_r2s_size16_loop : Text :=
  .load .bdcstw 5 (.at r9 0) ::
  .vec (.vpmovsxwq 5 5) ::
  .load .dqu 0 (.at rax 0) ::
  .load .dqu 1 (.at rax 32) ::
  .vec (.vpsubd 2 0 1) ::
  .vec (.vpaddd 0 0 1) ::
  .vec (.vpmuldq 1 2 5) ::
  .vec (.vpshufd 2 2 49) ::
  .vec (.vpmuldq 3 2 5) ::
  .vec (.vpslldq 2 3 4) ::
  .vec (.vpblendd 2 2 1 85) ::
  .vec (.vpand 2 2 4) ::
  .vec (.vpsrlq 1 1 12) ::
  .vec (.vpsrlq 3 3 12) ::
  .vec (.vpslldq 3 3 4) ::
  .vec (.vpblendd 1 3 1 85) ::
  .vec (.vpslld 3 2 1) ::
  .vec (.vpaddd 2 2 3) ::
  .vec (.vpsubd 1 2 1) ::
  .store (.at rax 0) 0 ::
  .store (.at rax 32) 1 ::
  .addi rax 64 ::
  .addi r9 2 ::
  .cmp rax rcx ::
  .jcc .b .mgs_r2s_size16_loop ::
  mgs_r2s_size16_loop_exit

def at_mgs_r2s_size16_loop : Text :=
  .label .mgs_r2s_size16_loop ::
  mgs_r2s_size16_loop

def mgs_r2s_loop0_exit : Text :=
  .mov rax rdi ::
  .shr rsi 1 ::
  .lea r9 (.ix rdx 1 rsi 0) ::
  at_mgs_r2s_size16_loop

def mgs_r2s_loop0 : Text :=
  .load .sxwq 5 (.at r8 0) ::
  .load .dqu 0 (.at rax 0) ::
  .vec (.vpsrldq 1 0 4) ::
  .vec (.vpsubd 2 0 1) ::
  .vec (.vpaddd 0 0 1) ::
  .vec (.vpmuldq 2 2 5) ::
  .vec (.vpand 3 2 4) ::
  .vec (.vpsrlq 2 2 12) ::
  .vec (.vpslld 1 3 1) ::
  .vec (.vpaddd 3 3 1) ::
  .vec (.vpsubd 1 3 2) ::
  .load .sxwq128 5 (.at r9 0) ::
  .vec (.vpermd 5 6 5) ::
  .vec (.vshufps 2 0 1 68) ::
  .vec (.vshufps 3 0 1 238) ::
  .vec (.vpsubd 1 2 3) ::
  .vec (.vpaddd 0 2 3) ::
  .vec (.vpmuldq 1 1 5) ::
  .vec (.vpand 3 1 4) ::
  .vec (.vpsrlq 2 1 12) ::
  .vec (.vpslld 1 3 1) ::
  .vec (.vpaddd 3 3 1) ::
  .vec (.vpsubd 1 3 2) ::
  .load .bdcstw 5 (.at r10 0) ::
  .vec (.vpmovsxwq 5 5) ::
  .vec (.vperm2i128 2 0 1 32) ::
  .vec (.vperm2i128 3 0 1 49) ::
  .vec (.vpsubd 1 2 3) ::
  .vec (.vpaddd 0 2 3) ::
  .vec (.vpmuldq 1 1 5) ::
  .vec (.vpand 3 1 4) ::
  .vec (.vpsrlq 2 1 12) ::
  .vec (.vpslld 1 3 1) ::
  .vec (.vpaddd 3 3 1) ::
  .vec (.vpsubd 1 3 2) ::
  .vec (.vperm2i128 2 0 1 32) ::
  .vec (.vperm2i128 3 0 1 49) ::
  .vec (.vshufps 0 2 3 136) ::
  .store (.at rax 0) 0 ::
  .addi rax 32 ::
  .addi r8 8 ::
  .addi r9 4 ::
  .addi r10 2 ::
  .cmp rax rcx ::
  .jcc .b .mgs_r2s_loop0 ::
  mgs_r2s_loop0_exit

def at_mgs_r2s_loop0 : Text :=
  .label .mgs_r2s_loop0 ::
  mgs_r2s_loop0

def nttmul_red_gs_rev2std_asm : Text :=
  .lea rcx (.ix rdi 4 rsi 0) ::
  .lea r8 (.ix rdx 1 rsi 0) ::
  .shr rsi 1 ::
  .lea r9 (.ix rdx 1 rsi 0) ::
  .shr rsi 1 ::
  .lea r10 (.ix rdx 1 rsi 0) ::
  .mov rax rdi ::
  .const 4 .mask ::
  .const 6 .perm2020 ::
  at_mgs_r2s_loop0

def at_nttmul_red_gs_rev2std_asm : Text :=
  .label .nttmul_red_gs_rev2std_asm ::
  nttmul_red_gs_rev2std_asm

def gs_r2s_done : Text :=
  .ret ::
  at_nttmul_red_gs_rev2std_asm

def at_gs_r2s_done : Text :=
  .label .gs_r2s_done ::
  gs_r2s_done

abbrev gs_r2s_size32_loop_exit : Text := at_gs_r2s_done

def gs_r2s_size32_other_blocks_exit : Text :=
  .shl r11 1 ::
  .jmp .gs_r2s_size32_loop ::
  at_gs_r2s_done

def gs_r2s_size32_inner_loop_exit : Text :=
  .cmp rcx r10 ::
  .jcc .b .gs_r2s_size32_other_blocks ::
  gs_r2s_size32_other_blocks_exit

def gs_r2s_size32_inner_loop : Text :=
  .load .dqu 0 (.at rax 0) ::
  .load .dqu 1 (.at rcx 0) ::
  .vec (.vpsubd 2 0 1) ::
  .vec (.vpaddd 0 0 1) ::
  .vec (.vpmuldq 1 2 5) ::
  .vec (.vpshufd 2 2 49) ::
  .vec (.vpmuldq 3 2 5) ::
  .vec (.vpslldq 2 3 4) ::
  .vec (.vpblendd 2 2 1 85) ::
  .vec (.vpand 2 2 4) ::
  .vec (.vpsrlq 1 1 12) ::
  .vec (.vpsrlq 3 3 12) ::
  .vec (.vpslldq 3 3 4) ::
  .vec (.vpblendd 1 3 1 85) ::
  .vec (.vpslld 3 2 1) ::
  .vec (.vpaddd 2 2 3) ::
  .vec (.vpsubd 1 2 1) ::
  .store (.at rax 0) 0 ::
  .store (.at rcx 0) 1 ::
  .addi rax 32 ::
  .addi rcx 32 ::
  .cmp rax r8 ::
  .jcc .b .gs_r2s_size32_inner_loop ::
  gs_r2s_size32_inner_loop_exit

def at_gs_r2s_size32_inner_loop : Text :=
  .label .gs_r2s_size32_inner_loop ::
  gs_r2s_size32_inner_loop

def gs_r2s_size32_other_blocks : Text :=
  .addi r9 2 ::
  .load .bdcstw 5 (.at r9 0) ::
  .vec (.vpmovsxwq 5 5) ::
  .mov rax rcx ::
  .add rcx r11 ::
  .mov r8 rcx ::
  at_gs_r2s_size32_inner_loop

def at_gs_r2s_size32_other_blocks : Text :=
  .label .gs_r2s_size32_other_blocks ::
  gs_r2s_size32_other_blocks

def gs_r2s_size32_first_blocks_exit : Text :=
  .cmp rcx r10 ::
  .jcc .ae .gs_r2s_done ::
  at_gs_r2s_size32_other_blocks

def gs_r2s_size32_first_blocks : Text :=
  .load .dqu 0 (.at rax 0) ::
  .load .dqu 1 (.at rcx 0) ::
  .vec (.vpsubd 2 0 1) ::
  .vec (.vpaddd 0 0 1) ::
  .store (.at rax 0) 0 ::
  .store (.at rcx 0) 2 ::
  .addi rax 32 ::
  .addi rcx 32 ::
  .cmp rax r8 ::
  .jcc .b .gs_r2s_size32_first_blocks ::
  gs_r2s_size32_first_blocks_exit

def at_gs_r2s_size32_first_blocks : Text :=
  .label .gs_r2s_size32_first_blocks ::
  gs_r2s_size32_first_blocks

def gs_r2s_size32_loop : Text :=
  .mov rax rdi ::
  .lea rcx (.ix rax 1 r11 0) ::
  .mov r8 rcx ::
  .shr rsi 1 ::
  .lea r9 (.ix rdx 1 rsi 0) ::
  at_gs_r2s_size32_first_blocks

def at_gs_r2s_size32_loop : Text :=
  .label .gs_r2s_size32_loop ::
  gs_r2s_size32_loop

def gs_r2s_size16_loop_exit : Text :=
  .mov r10 rcx ::
  .movi r11 64 ::
  at_gs_r2s_size32_loop

def gs_r2s_size16_loop : Text :=
  .load .bdcstw 5 (.at r9 0) ::
  .vec (.vpmovsxwq 5 5) ::
  .load .dqu 0 (.at rax 0) ::
  .load .dqu 1 (.at rax 32) ::
  .vec (.vpsubd 2 0 1) ::
  .vec (.vpaddd 0 0 1) ::
  .vec (.vpmuldq 1 2 5) ::
  .vec (.vpshufd 2 2 49) ::
  .vec (.vpmuldq 3 2 5) ::
  .vec (.vpslldq 2 3 4) ::
  .vec (.vpblendd 2 2 1 85) ::
  .vec (.vpand 2 2 4) ::
  .vec (.vpsrlq 1 1 12) ::
  .vec (.vpsrlq 3 3 12) ::
  .vec (.vpslldq 3 3 4) ::
  .vec (.vpblendd 1 3 1 85) ::
  .vec (.vpslld 3 2 1) ::
  .vec (.vpaddd 2 2 3) ::
  .vec (.vpsubd 1 2 1) ::
  .store (.at rax 0) 0 ::
  .store (.at rax 32) 1 ::
  .addi rax 64 ::
  .addi r9 2 ::
  .cmp rax rcx ::
  .jcc .b .gs_r2s_size16_loop ::
  gs_r2s_size16_loop_exit

def at_gs_r2s_size16_loop : Text :=
  .label .gs_r2s_size16_loop ::
  gs_r2s_size16_loop

def gs_r2s_loop0_exit : Text :=
  .mov rax rdi ::
  .load .dqu 0 (.at rax 0) ::
  .load .dqu 1 (.at rax 32) ::
  .vec (.vpsubd 2 0 1) ::
  .vec (.vpaddd 0 0 1) ::
  .store (.at rax 0) 0 ::
  .store (.at rax 32) 2 ::
  .addi rax 64 ::
  .cmp rax rcx ::
  .jcc .ae .gs_r2s_done ::
  .shr rsi 1 ::
  .lea r9 (.ix rdx 1 rsi 2) ::
  at_gs_r2s_size16_loop

def gs_r2s_loop0 : Text :=
  .load .sxwq 5 (.at r8 0) ::
  .load .dqu 0 (.at rax 0) ::
  .vec (.vpsrldq 1 0 4) ::
  .vec (.vpsubd 2 0 1) ::
  .vec (.vpaddd 0 0 1) ::
  .vec (.vpmuldq 2 2 5) ::
  .vec (.vpand 3 2 4) ::
  .vec (.vpsrlq 2 2 12) ::
  .vec (.vpslld 1 3 1) ::
  .vec (.vpaddd 3 3 1) ::
  .vec (.vpsubd 1 3 2) ::
  .load .sxwq128 5 (.at r9 0) ::
  .vec (.vpermd 5 6 5) ::
  .vec (.vshufps 2 0 1 68) ::
  .vec (.vshufps 3 0 1 238) ::
  .vec (.vpsubd 1 2 3) ::
  .vec (.vpaddd 0 2 3) ::
  .vec (.vpmuldq 1 1 5) ::
  .vec (.vpand 3 1 4) ::
  .vec (.vpsrlq 2 1 12) ::
  .vec (.vpslld 1 3 1) ::
  .vec (.vpaddd 3 3 1) ::
  .vec (.vpsubd 1 3 2) ::
  .load .bdcstw 5 (.at r10 0) ::
  .vec (.vpmovsxwq 5 5) ::
  .vec (.vperm2i128 2 0 1 32) ::
  .vec (.vperm2i128 3 0 1 49) ::
  .vec (.vpsubd 1 2 3) ::
  .vec (.vpaddd 0 2 3) ::
  .vec (.vpmuldq 1 1 5) ::
  .vec (.vpand 3 1 4) ::
  .vec (.vpsrlq 2 1 12) ::
  .vec (.vpslld 1 3 1) ::
  .vec (.vpaddd 3 3 1) ::
  .vec (.vpsubd 1 3 2) ::
  .vec (.vperm2i128 2 0 1 32) ::
  .vec (.vperm2i128 3 0 1 49) ::
  .vec (.vshufps 0 2 3 136) ::
  .store (.at rax 0) 0 ::
  .addi rax 32 ::
  .addi r8 8 ::
  .addi r9 4 ::
  .addi r10 2 ::
  .cmp rax rcx ::
  .jcc .b .gs_r2s_loop0 ::
  gs_r2s_loop0_exit

def at_gs_r2s_loop0 : Text :=
  .label .gs_r2s_loop0 ::
  gs_r2s_loop0

def ntt_red_gs_rev2std_asm : Text :=
  .lea rcx (.ix rdi 4 rsi 0) ::
  .lea r8 (.ix rdx 1 rsi 0) ::
  .shr rsi 1 ::
  .lea r9 (.ix rdx 1 rsi 0) ::
  .shr rsi 1 ::
  .lea r10 (.ix rdx 1 rsi 0) ::
  .mov rax rdi ::
  .const 4 .mask ::
  .const 6 .perm2020 ::
  at_gs_r2s_loop0

def at_ntt_red_gs_rev2std_asm : Text :=
  .label .ntt_red_gs_rev2std_asm ::
  ntt_red_gs_rev2std_asm

def mct_s2r_loop_exit : Text :=
  .addi rdx 2 ::
  .jmp .ct_s2r_finish ::
  at_ntt_red_gs_rev2std_asm

def mct_s2r_loop_aux_exit : Text :=
  .shr rsi 1 ::
  .cmpi rsi 8 ::
  .jcc .a .mct_s2r_loop ::
  mct_s2r_loop_exit

def mct_s2r_loop_inner_exit : Text :=
  .mov rax rcx ::
  .lea rcx (.ix rax 2 rsi 0) ::
  .mov r9 rcx ::
  .cmp rax r8 ::
  .jcc .b .mct_s2r_loop_aux ::
  mct_s2r_loop_aux_exit

def mct_s2r_loop_inner : Text :=
  .load .dqu 0 (.at rax 0) ::
  .load .dqu 1 (.at rcx 0) ::
  .vec (.vpmuldq 2 1 5) ::
  .vec (.vpshufd 1 1 49) ::
  .vec (.vpmuldq 3 1 5) ::
  .vec (.vpslldq 1 3 4) ::
  .vec (.vpblendd 1 1 2 85) ::
  .vec (.vpand 1 1 4) ::
  .vec (.vpsrlq 3 3 12) ::
  .vec (.vpsrlq 2 2 12) ::
  .vec (.vpslldq 3 3 4) ::
  .vec (.vpblendd 3 3 2 85) ::
  .vec (.vpslld 2 1 1) ::
  .vec (.vpaddd 1 1 2) ::
  .vec (.vpsubd 1 1 3) ::
  .vec (.vpaddd 2 0 1) ::
  .vec (.vpsubd 3 0 1) ::
  .store (.at rax 0) 2 ::
  .store (.at rcx 0) 3 ::
  .addi rax 32 ::
  .addi rcx 32 ::
  .cmp rax r9 ::
  .jcc .b .mct_s2r_loop_inner ::
  mct_s2r_loop_inner_exit

def at_mct_s2r_loop_inner : Text :=
  .label .mct_s2r_loop_inner ::
  mct_s2r_loop_inner

def mct_s2r_loop_aux : Text :=
  .addi rdx 2 ::
  .load .bdcstw 5 (.at rdx 0) ::
  .vec (.vpmovsxwq 5 5) ::
  at_mct_s2r_loop_inner

def at_mct_s2r_loop_aux : Text :=
  .label .mct_s2r_loop_aux ::
  mct_s2r_loop_aux

def mct_s2r_loop : Text :=
  .mov rax rdi ::
  .lea rcx (.ix rdi 2 rsi 0) ::
  .mov r9 rcx ::
  at_mct_s2r_loop_aux

def at_mct_s2r_loop : Text :=
  .label .mct_s2r_loop ::
  mct_s2r_loop

def mulntt_red_ct_std2rev_asm : Text :=
  .lea r8 (.ix rdi 4 rsi 0) ::
  .const 4 .mask ::
  at_mct_s2r_loop

def at_mulntt_red_ct_std2rev_asm : Text :=
  .label .mulntt_red_ct_std2rev_asm ::
  mulntt_red_ct_std2rev_asm

def ct_s2r_finish_size1_exit : Text :=
  .ret ::
  at_mulntt_red_ct_std2rev_asm

def ct_s2r_finish_size1 : Text :=
  .load .sxwq 5 (.at rdx 0) ::
  .load .sxwq 6 (.at rdx 8) ::
  .load .dqu 0 (.at rax 0) ::
  .load .dqu 1 (.at rax 32) ::
  .vec (.vpslldq 2 1 4) ::
  .vec (.vpblendd 2 0 2 170) ::
  .vec (.vpsrldq 0 0 4) ::
  .vec (.vpmuldq 0 0 5) ::
  .vec (.vpsrldq 1 1 4) ::
  .vec (.vpmuldq 1 1 6) ::
  .vec (.vpslldq 3 1 4) ::
  .vec (.vpblendd 3 3 0 85) ::
  .vec (.vpand 3 3 4) ::
  .vec (.vpsrlq 1 1 12) ::
  .vec (.vpsrlq 0 0 12) ::
  .vec (.vpslldq 1 1 4) ::
  .vec (.vpblendd 1 1 0 85) ::
  .vec (.vpslld 0 3 1) ::
  .vec (.vpaddd 3 3 0) ::
  .vec (.vpsubd 3 3 1) ::
  .vec (.vpaddd 0 2 3) ::
  .vec (.vpsubd 1 2 3) ::
  .vec (.vpslldq 2 1 4) ::
  .vec (.vpblendd 2 0 2 170) ::
  .vec (.vpsrldq 0 0 4) ::
  .vec (.vpblendd 3 0 1 170) ::
  .store (.at rax 0) 2 ::
  .store (.at rax 32) 3 ::
  .addi rax 64 ::
  .addi rdx 16 ::
  .cmp rax r8 ::
  .jcc .b .ct_s2r_finish_size1 ::
  ct_s2r_finish_size1_exit

def at_ct_s2r_finish_size1 : Text :=
  .label .ct_s2r_finish_size1 ::
  ct_s2r_finish_size1

def ct_s2r_finish_size2_exit : Text :=
  .mov rax rdi ::
  at_ct_s2r_finish_size1

def ct_s2r_finish_size2 : Text :=
  .load .sxwq 5 (.at rdx 0) ::
  .vec (.vpermd 5 6 5) ::
  .load .dqu 0 (.at rax 0) ::
  .load .dqu 1 (.at rax 32) ::
  .vec (.vshufpd 2 0 1 0) ::
  .vec (.vshufpd 3 0 1 15) ::
  .vec (.vpmuldq 0 3 5) ::
  .vec (.vpshufd 3 3 49) ::
  .vec (.vpmuldq 1 3 5) ::
  .vec (.vpslldq 3 1 4) ::
  .vec (.vpblendd 3 3 0 85) ::
  .vec (.vpand 3 3 4) ::
  .vec (.vpsrlq 1 1 12) ::
  .vec (.vpsrlq 0 0 12) ::
  .vec (.vpslldq 1 1 4) ::
  .vec (.vpblendd 1 1 0 85) ::
  .vec (.vpslld 0 3 1) ::
  .vec (.vpaddd 3 3 0) ::
  .vec (.vpsubd 3 3 1) ::
  .vec (.vpaddd 0 2 3) ::
  .vec (.vpsubd 1 2 3) ::
  .vec (.vshufpd 2 0 1 0) ::
  .vec (.vshufpd 3 0 1 15) ::
  .store (.at rax 0) 2 ::
  .store (.at rax 32) 3 ::
  .addi rax 64 ::
  .addi rdx 8 ::
  .cmp rax r8 ::
  .jcc .b .ct_s2r_finish_size2 ::
  ct_s2r_finish_size2_exit

def at_ct_s2r_finish_size2 : Text :=
  .label .ct_s2r_finish_size2 ::
  ct_s2r_finish_size2

def ct_s2r_finish_size4_exit : Text :=
  .mov rax rdi ::
  .const 6 .perm0426 ::
  at_ct_s2r_finish_size2

def ct_s2r_finish_size4 : Text :=
  .load .sxwq128 5 (.at rdx 0) ::
  .vec (.vpermd 5 6 5) ::
  .load .dqu 0 (.at rax 0) ::
  .load .dqu 1 (.at rax 32) ::
  .vec (.vperm2i128 2 0 1 32) ::
  .vec (.vperm2i128 3 0 1 49) ::
  .vec (.vpmuldq 0 3 5) ::
  .vec (.vpshufd 3 3 49) ::
  .vec (.vpmuldq 1 3 5) ::
  .vec (.vpslldq 3 1 4) ::
  .vec (.vpblendd 3 3 0 85) ::
  .vec (.vpand 3 3 4) ::
  .vec (.vpsrlq 1 1 12) ::
  .vec (.vpsrlq 0 0 12) ::
  .vec (.vpslldq 1 1 4) ::
  .vec (.vpblendd 1 1 0 85) ::
  .vec (.vpslld 0 3 1) ::
  .vec (.vpaddd 3 3 0) ::
  .vec (.vpsubd 3 3 1) ::
  .vec (.vpaddd 0 2 3) ::
  .vec (.vpsubd 1 2 3) ::
  .vec (.vperm2i128 2 0 1 32) ::
  .vec (.vperm2i128 3 0 1 49) ::
  .store (.at rax 0) 2 ::
  .store (.at rax 32) 3 ::
  .addi rax 64 ::
  .addi rdx 4 ::
  .cmp rax r8 ::
  .jcc .b .ct_s2r_finish_size4 ::
  ct_s2r_finish_size4_exit

def at_ct_s2r_finish_size4 : Text :=
  .label .ct_s2r_finish_size4 ::
  ct_s2r_finish_size4

def ct_s2r_finish : Text :=
  .mov rax rdi ::
  .const 6 .perm2020 ::
  at_ct_s2r_finish_size4

def at_ct_s2r_finish : Text :=
  .label .ct_s2r_finish ::
  ct_s2r_finish

abbrev ct_s2r_loop2_exit : Text := at_ct_s2r_finish

def ct_s2r_loop2_aux_exit : Text :=
  .addi rdx 2 ::
  .shr rsi 1 ::
  .cmpi rsi 8 ::
  .jcc .a .ct_s2r_loop2 ::
  at_ct_s2r_finish

def ct_s2r_loop2_inner2_exit : Text :=
  .cmp rcx r8 ::
  .jcc .b .ct_s2r_loop2_aux ::
  ct_s2r_loop2_aux_exit

def ct_s2r_loop2_inner2 : Text :=
  .load .dqu 0 (.at rax 0) ::
  .load .dqu 1 (.at rcx 0) ::
  .vec (.vpmuldq 2 1 5) ::
  .vec (.vpshufd 1 1 49) ::
  .vec (.vpmuldq 3 1 5) ::
  .vec (.vpslldq 1 3 4) ::
  .vec (.vpblendd 1 1 2 85) ::
  .vec (.vpand 1 1 4) ::
  .vec (.vpsrlq 3 3 12) ::
  .vec (.vpsrlq 2 2 12) ::
  .vec (.vpslldq 3 3 4) ::
  .vec (.vpblendd 3 3 2 85) ::
  .vec (.vpslld 2 1 1) ::
  .vec (.vpaddd 1 1 2) ::
  .vec (.vpsubd 1 1 3) ::
  .vec (.vpaddd 2 0 1) ::
  .vec (.vpsubd 3 0 1) ::
  .store (.at rax 0) 2 ::
  .store (.at rcx 0) 3 ::
  .addi rax 32 ::
  .addi rcx 32 ::
  .cmp rax r9 ::
  .jcc .b .ct_s2r_loop2_inner2 ::
  ct_s2r_loop2_inner2_exit

def at_ct_s2r_loop2_inner2 : Text :=
  .label .ct_s2r_loop2_inner2 ::
  ct_s2r_loop2_inner2

def ct_s2r_loop2_aux : Text :=
  .addi rdx 2 ::
  .load .bdcstw 5 (.at rdx 0) ::
  .vec (.vpmovsxwq 5 5) ::
  .mov rax rcx ::
  .lea rcx (.ix rax 2 rsi 0) ::
  .mov r9 rcx ::
  at_ct_s2r_loop2_inner2

def at_ct_s2r_loop2_aux : Text :=
  .label .ct_s2r_loop2_aux ::
  ct_s2r_loop2_aux

abbrev ct_s2r_loop2_inner1_exit : Text := at_ct_s2r_loop2_aux

def ct_s2r_loop2_inner1 : Text :=
  .load .dqu 0 (.at rax 0) ::
  .load .dqu 1 (.at rcx 0) ::
  .vec (.vpaddd 2 0 1) ::
  .vec (.vpsubd 3 0 1) ::
  .store (.at rax 0) 2 ::
  .store (.at rcx 0) 3 ::
  .addi rax 32 ::
  .addi rcx 32 ::
  .cmp rax r9 ::
  .jcc .b .ct_s2r_loop2_inner1 ::
  at_ct_s2r_loop2_aux

def at_ct_s2r_loop2_inner1 : Text :=
  .label .ct_s2r_loop2_inner1 ::
  ct_s2r_loop2_inner1

def ct_s2r_loop2 : Text :=
  .mov rax rdi ::
  .lea rcx (.ix rdi 2 rsi 0) ::
  .mov r9 rcx ::
  at_ct_s2r_loop2_inner1

def at_ct_s2r_loop2 : Text :=
  .label .ct_s2r_loop2 ::
  ct_s2r_loop2

def ct_s2r_loop1_exit : Text :=
  .addi rdx 4 ::
  .shr rsi 1 ::
  .cmpi rsi 8 ::
  .jcc .be .ct_s2r_finish ::
  at_ct_s2r_loop2

def ct_s2r_loop1 : Text :=
  .load .dqu 0 (.at rax 0) ::
  .load .dqu 1 (.at rcx 0) ::
  .vec (.vpaddd 2 0 1) ::
  .vec (.vpsubd 3 0 1) ::
  .store (.at rax 0) 2 ::
  .store (.at rcx 0) 3 ::
  .addi rcx 32 ::
  .addi rax 32 ::
  .cmp rcx r8 ::
  .jcc .b .ct_s2r_loop1 ::
  ct_s2r_loop1_exit

def at_ct_s2r_loop1 : Text :=
  .label .ct_s2r_loop1 ::
  ct_s2r_loop1

def ntt_red_ct_std2rev_asm : Text :=
  .lea r8 (.ix rdi 4 rsi 0) ::
  .const 4 .mask ::
  .mov rax rdi ::
  .lea rcx (.ix rdi 2 rsi 0) ::
  at_ct_s2r_loop1

def at_ntt_red_ct_std2rev_asm : Text :=
  .label .ntt_red_ct_std2rev_asm ::
  ntt_red_ct_std2rev_asm

def mct_r2s_size8_loop2_exit : Text :=
  .mov rax rdi ::
  .load .sxwd 6 (.at rdx 16) ::
  .vec (.vpshufd 5 6 49) ::
  .jmp .ct_r2s_size16_loop ::
  at_ntt_red_ct_std2rev_asm

def mct_r2s_size8_loop2 : Text :=
  .load .dqu 0 (.at rax 0) ::
  .vec (.vpsrldq 1 0 4) ::
  .vec (.vpmuldq 1 1 7) ::
  .vec (.vpand 2 1 4) ::
  .vec (.vpsrlq 1 1 12) ::
  .vec (.vpslld 3 2 1) ::
  .vec (.vpaddd 2 2 3) ::
  .vec (.vpsubd 1 2 1) ::
  .vec (.vpaddd 2 0 1) ::
  .vec (.vpsubd 3 0 1) ::
  .vec (.vshufps 0 2 3 68) ::
  .vec (.vshufps 1 2 3 238) ::
  .vec (.vpmuldq 1 1 6) ::
  .vec (.vpand 2 1 4) ::
  .vec (.vpsrlq 1 1 12) ::
  .vec (.vpslld 3 2 1) ::
  .vec (.vpaddd 2 2 3) ::
  .vec (.vpsubd 1 2 1) ::
  .vec (.vpaddd 2 0 1) ::
  .vec (.vpsubd 3 0 1) ::
  .vec (.vperm2i128 0 2 3 32) ::
  .vec (.vperm2i128 1 2 3 49) ::
  .vec (.vpmuldq 1 1 5) ::
  .vec (.vpand 2 1 4) ::
  .vec (.vpsrlq 1 1 12) ::
  .vec (.vpslld 3 2 1) ::
  .vec (.vpaddd 2 2 3) ::
  .vec (.vpsubd 1 2 1) ::
  .vec (.vpaddd 2 0 1) ::
  .vec (.vpsubd 3 0 1) ::
  .vec (.vperm2i128 0 2 3 32) ::
  .vec (.vperm2i128 1 2 3 49) ::
  .vec (.vshufps 0 0 1 136) ::
  .store (.at rax 0) 0 ::
  .addi rax 32 ::
  .cmp rax rsi ::
  .jcc .b .mct_r2s_size8_loop2 ::
  mct_r2s_size8_loop2_exit

def at_mct_r2s_size8_loop2 : Text :=
  .label .mct_r2s_size8_loop2 ::
  mct_r2s_size8_loop2

def mulntt_red_ct_rev2std_asm : Text :=
  .mov rax rdi ::
  .mov r9 rsi ::
  .lea rsi (.ix rdi 4 rsi 0) ::
  .load .sxwd 4 (.at rdx 0) ::
  .const 5 .perm5 ::
  .vec (.vpermd 5 5 4) ::
  .const 6 .perm4 ::
  .vec (.vpermd 6 6 4) ::
  .const 7 .perm3 ::
  .vec (.vpermd 7 7 4) ::
  .const 4 .mask ::
  at_mct_r2s_size8_loop2

def at_mulntt_red_ct_rev2std_asm : Text :=
  .label .mulntt_red_ct_rev2std_asm ::
  mulntt_red_ct_rev2std_asm

def ct_r2s_done : Text :=
  .ret ::
  at_mulntt_red_ct_rev2std_asm

def at_ct_r2s_done : Text :=
  .label .ct_r2s_done ::
  ct_r2s_done

abbrev ct_r2s_size32_loop_exit : Text := at_ct_r2s_done

def ct_r2s_loop_aux1_exit : Text :=
  .add r11 r10 ::
  .shl r10 1 ::
  .cmp r10 r9 ::
  .jcc .be .ct_r2s_size32_loop ::
  at_ct_r2s_done

def ct_r2s_inner_loop_exit : Text :=
  .mov rax r8 ::
  .cmp rax rsi ::
  .jcc .b .ct_r2s_loop_aux1 ::
  ct_r2s_loop_aux1_exit

def ct_r2s_inner_loop : Text :=
  .load .dqu 0 (.at rax 0) ::
  .load .dqu 1 (.at rcx 0) ::
  .load .sxwd 6 (.at rdx 0) ::
  .vec (.vpmuldq 2 1 6) ::
  .vec (.vpshufd 1 1 49) ::
  .vec (.vpshufd 6 6 49) ::
  .vec (.vpmuldq 3 1 6) ::
  .vec (.vpslldq 1 3 4) ::
  .vec (.vpblendd 1 1 2 85) ::
  .vec (.vpand 1 1 4) ::
  .vec (.vpsrlq 3 3 12) ::
  .vec (.vpsrlq 2 2 12) ::
  .vec (.vpslldq 3 3 4) ::
  .vec (.vpblendd 2 3 2 85) ::
  .vec (.vpslld 3 1 1) ::
  .vec (.vpaddd 1 1 3) ::
  .vec (.vpsubd 1 1 2) ::
  .vec (.vpaddd 2 0 1) ::
  .vec (.vpsubd 3 0 1) ::
  .store (.at rax 0) 2 ::
  .store (.at rcx 0) 3 ::
  .addi rdx 16 ::
  .addi rax 32 ::
  .addi rcx 32 ::
  .cmp rcx r8 ::
  .jcc .b .ct_r2s_inner_loop ::
  ct_r2s_inner_loop_exit

def at_ct_r2s_inner_loop : Text :=
  .label .ct_r2s_inner_loop ::
  ct_r2s_inner_loop

def ct_r2s_loop_aux1 : Text :=
  .lea rcx (.ix rax 2 r10 0) ::
  .lea r8 (.ix rax 4 r10 0) ::
  .mov rdx r11 ::
  at_ct_r2s_inner_loop

def at_ct_r2s_loop_aux1 : Text :=
  .label .ct_r2s_loop_aux1 ::
  ct_r2s_loop_aux1

def ct_r2s_size32_loop : Text :=
  .mov rax rdi ::
  at_ct_r2s_loop_aux1

def at_ct_r2s_size32_loop : Text :=
  .label .ct_r2s_size32_loop ::
  ct_r2s_size32_loop

def ct_r2s_size16_loop_exit : Text :=
  .cmpi r9 16 ::
  .jcc .be .ct_r2s_done ::
  .movi r10 32 ::
  .lea r11 (.at rdx 32) ::
  at_ct_r2s_size32_loop

def ct_r2s_size16_loop : Text :=
  .load .dqu 0 (.at rax 0) ::
  .load .dqu 1 (.at rax 32) ::
  .vec (.vpmuldq 2 1 6) ::
  .vec (.vpshufd 1 1 49) ::
  .vec (.vpmuldq 3 1 5) ::
  .vec (.vpslldq 1 3 4) ::
  .vec (.vpblendd 1 1 2 85) ::
  .vec (.vpand 1 1 4) ::
  .vec (.vpsrlq 3 3 12) ::
  .vec (.vpsrlq 2 2 12) ::
  .vec (.vpslldq 3 3 4) ::
  .vec (.vpblendd 2 3 2 85) ::
  .vec (.vpslld 3 1 1) ::
  .vec (.vpaddd 1 1 3) ::
  .vec (.vpsubd 1 1 2) ::
  .vec (.vpaddd 2 0 1) ::
  .vec (.vpsubd 3 0 1) ::
  .store (.at rax 0) 2 ::
  .store (.at rax 32) 3 ::
  .addi rax 64 ::
  .cmp rax rsi ::
  .jcc .b .ct_r2s_size16_loop ::
  ct_r2s_size16_loop_exit

def at_ct_r2s_size16_loop : Text :=
  .label .ct_r2s_size16_loop ::
  ct_r2s_size16_loop

def ct_r2s_size8_loop_exit : Text :=
  .mov rax rdi ::
  .load .sxwd 6 (.at rdx 16) ::
  .vec (.vpshufd 5 6 49) ::
  at_ct_r2s_size16_loop

def ct_r2s_size8_loop : Text :=
  .load .dqu 0 (.at rax 0) ::
  .vec (.vpsrldq 1 0 4) ::
  .vec (.vpaddd 2 0 1) ::
  .vec (.vpsubd 3 0 1) ::
  .vec (.vshufps 0 2 3 68) ::
  .vec (.vshufps 1 2 3 238) ::
  .vec (.vpmuldq 1 1 6) ::
  .vec (.vpand 2 1 4) ::
  .vec (.vpsrlq 1 1 12) ::
  .vec (.vpslld 3 2 1) ::
  .vec (.vpaddd 2 2 3) ::
  .vec (.vpsubd 1 2 1) ::
  .vec (.vpaddd 2 0 1) ::
  .vec (.vpsubd 3 0 1) ::
  .vec (.vperm2i128 0 2 3 32) ::
  .vec (.vperm2i128 1 2 3 49) ::
  .vec (.vpmuldq 1 1 5) ::
  .vec (.vpand 2 1 4) ::
  .vec (.vpsrlq 1 1 12) ::
  .vec (.vpslld 3 2 1) ::
  .vec (.vpaddd 2 2 3) ::
  .vec (.vpsubd 1 2 1) ::
  .vec (.vpaddd 2 0 1) ::
  .vec (.vpsubd 3 0 1) ::
  .vec (.vperm2i128 0 2 3 32) ::
  .vec (.vperm2i128 1 2 3 49) ::
  .vec (.vshufps 0 0 1 136) ::
  .store (.at rax 0) 0 ::
  .addi rax 32 ::
  .cmp rax rsi ::
  .jcc .b .ct_r2s_size8_loop ::
  ct_r2s_size8_loop_exit

def at_ct_r2s_size8_loop : Text :=
  .label .ct_r2s_size8_loop ::
  ct_r2s_size8_loop

def ntt_red_ct_rev2std_asm : Text :=
  .mov rax rdi ::
  .mov r9 rsi ::
  .lea rsi (.ix rdi 4 rsi 0) ::
  .load .sxwd 4 (.at rdx 0) ::
  .const 5 .perm5 ::
  .vec (.vpermd 5 5 4) ::
  .const 6 .perm4 ::
  .vec (.vpermd 6 6 4) ::
  .const 4 .mask ::
  at_ct_r2s_size8_loop

def at_ntt_red_ct_rev2std_asm : Text :=
  .label .ntt_red_ct_rev2std_asm ::
  ntt_red_ct_rev2std_asm

def loop6_exit : Text :=
  .ret ::
  at_ntt_red_ct_rev2std_asm

def loop6 : Text :=
  .load .dqu 0 (.at rax 0) ::
  .vec (.vpmuldq 2 0 1) ::
  .vec (.vpshufd 0 0 49) ::
  .vec (.vpmuldq 3 0 1) ::
  .vec (.vpslldq 0 3 4) ::
  .vec (.vpblendd 0 0 2 85) ::
  .vec (.vpand 0 0 4) ::
  .vec (.vpsrlq 3 3 12) ::
  .vec (.vpsrlq 2 2 12) ::
  .vec (.vpslldq 3 3 4) ::
  .vec (.vpblendd 3 3 2 85) ::
  .vec (.vpslld 2 0 1) ::
  .vec (.vpaddd 0 0 2) ::
  .vec (.vpsubd 0 0 3) ::
  .store (.at rax 0) 0 ::
  .addi rax 32 ::
  .cmp rax rsi ::
  .jcc .b .loop6 ::
  loop6_exit

def at_loop6 : Text :=
  .label .loop6 ::
  loop6

def scalar_mul_reduce_array_asm : Text :=
  .const 4 .mask ::
  .mov rax rdi ::
  .lea rsi (.ix rdi 4 rsi 0) ::
  .vmovd 0 rdx ::
  .vec (.vpbroadcastd 1 0) ::
  at_loop6

def at_scalar_mul_reduce_array_asm : Text :=
  .label .scalar_mul_reduce_array_asm ::
  scalar_mul_reduce_array_asm

def loop5_exit : Text :=
  .ret ::
  at_scalar_mul_reduce_array_asm

def loop5 : Text :=
  .load .dqu 0 (.at rdx 0) ::
  .load .dqu 1 (.at rcx 0) ::
  .vec (.vpmuldq 2 0 1) ::
  .vec (.vpshufd 0 0 49) ::
  .vec (.vpshufd 1 1 49) ::
  .vec (.vpmuldq 3 0 1) ::
  .vec (.vpslldq 0 3 4) ::
  .vec (.vpblendd 0 0 2 85) ::
  .vec (.vpand 0 0 4) ::
  .vec (.vpsrlq 3 3 12) ::
  .vec (.vpsrlq 2 2 12) ::
  .vec (.vpslldq 3 3 4) ::
  .vec (.vpblendd 1 3 2 85) ::
  .vec (.vpslld 2 0 1) ::
  .vec (.vpaddd 0 0 2) ::
  .vec (.vpsubd 0 0 1) ::
  .store (.at rax 0) 0 ::
  .addi rax 32 ::
  .addi rdx 32 ::
  .addi rcx 32 ::
  .cmp rax rsi ::
  .jcc .b .loop5 ::
  loop5_exit

def at_loop5 : Text :=
  .label .loop5 ::
  loop5

def mul_reduce_array_asm : Text :=
  .const 4 .mask ::
  .mov rax rdi ::
  .lea rsi (.ix rdi 4 rsi 0) ::
  at_loop5

def at_mul_reduce_array_asm : Text :=
  .label .mul_reduce_array_asm ::
  mul_reduce_array_asm

def loop4_exit : Text :=
  .ret ::
  at_mul_reduce_array_asm

def loop4 : Text :=
  .load .sxdq 0 (.at rax 0) ::
  .load .sxwq 1 (.at rdx 0) ::
  .vec (.vpmuldq 0 1 0) ::
  .vec (.vmovdqu 3 0) ::
  .vec (.vpand 0 6 0) ::
  .vec (.vpsrlq 3 3 12) ::
  .vec (.vpslld 4 0 1) ::
  .vec (.vpsubd 3 0 3) ::
  .vec (.vpaddd 0 3 4) ::
  .vec (.vpermd 0 5 0) ::
  .store128 (.at rax 0) 0 ::
  .addi rax 16 ::
  .addi rdx 8 ::
  .cmp rax rsi ::
  .jcc .b .loop4 ::
  loop4_exit

def at_loop4 : Text :=
  .label .loop4 ::
  loop4

def mul_reduce_array16_asm2 : Text :=
  .const 5 .perm0246 ::
  .const 6 .mask ::
  .mov rax rdi ::
  .lea rsi (.ix rdi 4 rsi 0) ::
  at_loop4

def at_mul_reduce_array16_asm2 : Text :=
  .label .mul_reduce_array16_asm2 ::
  mul_reduce_array16_asm2

def loop3_exit : Text :=
  .ret ::
  at_mul_reduce_array16_asm2

def loop3 : Text :=
  .load .dqu 0 (.at rax 0) ::
  .load .sxwd 1 (.at rdx 0) ::
  .vec (.vpmuldq 2 0 1) ::
  .vec (.vpshufd 0 0 49) ::
  .vec (.vpshufd 1 1 49) ::
  .vec (.vpmuldq 3 0 1) ::
  .vec (.vpslldq 0 3 4) ::
  .vec (.vpblendd 0 0 2 85) ::
  .vec (.vpand 0 0 4) ::
  .vec (.vpsrlq 3 3 12) ::
  .vec (.vpsrlq 2 2 12) ::
  .vec (.vpslldq 3 3 4) ::
  .vec (.vpblendd 1 3 2 85) ::
  .vec (.vpslld 2 0 1) ::
  .vec (.vpaddd 0 0 2) ::
  .vec (.vpsubd 0 0 1) ::
  .store (.at rax 0) 0 ::
  .addi rax 32 ::
  .addi rdx 16 ::
  .cmp rax rsi ::
  .jcc .b .loop3 ::
  loop3_exit

def at_loop3 : Text :=
  .label .loop3 ::
  loop3

def mul_reduce_array16_asm : Text :=
  .const 4 .mask ::
  .mov rax rdi ::
  .lea rsi (.ix rdi 4 rsi 0) ::
  at_loop3

def at_mul_reduce_array16_asm : Text :=
  .label .mul_reduce_array16_asm ::
  mul_reduce_array16_asm

def loop_shift_exit : Text :=
  .ret ::
  at_mul_reduce_array16_asm

def loop_shift : Text :=
  .load .dqu 0 (.at rax 0) ::
  .load .dqu 1 (.at rax 32) ::
  .vec (.vpcmpgtd 2 0 4) ::
  .vec (.vpand 2 2 3) ::
  .vec (.vpsubd 0 0 2) ::
  .store (.at rax 0) 0 ::
  .vec (.vpcmpgtd 2 1 4) ::
  .vec (.vpand 2 2 3) ::
  .vec (.vpsubd 1 1 2) ::
  .store (.at rax 32) 1 ::
  .addi rax 64 ::
  .cmp rax rsi ::
  .jcc .b .loop_shift ::
  loop_shift_exit

def at_loop_shift : Text :=
  .label .loop_shift ::
  loop_shift

def shift_array_asm : Text :=
  .const 3 .q_x8 ::
  .const 4 .half_q_x8 ::
  .mov rax rdi ::
  .lea rsi (.ix rdi 4 rsi 0) ::
  at_loop_shift

def at_shift_array_asm : Text :=
  .label .shift_array_asm ::
  shift_array_asm

def loop2_exit : Text :=
  .ret ::
  at_shift_array_asm

def loop2 : Text :=
  .load .dqu 0 (.at rax 0) ::
  .load .dqu 1 (.at rax 32) ::
  .vec (.vpsrad 2 0 31) ::
  .vec (.vpcmpgtd 5 0 4) ::
  .vec (.vpand 2 2 3) ::
  .vec (.vpand 5 5 3) ::
  .vec (.vpaddd 0 0 2) ::
  .vec (.vpsubd 0 0 5) ::
  .store (.at rax 0) 0 ::
  .vec (.vpsrad 2 1 31) ::
  .vec (.vpcmpgtd 5 1 4) ::
  .vec (.vpand 2 2 3) ::
  .vec (.vpand 5 5 3) ::
  .vec (.vpaddd 1 1 2) ::
  .vec (.vpsubd 1 1 5) ::
  .store (.at rax 32) 1 ::
  .addi rax 64 ::
  .cmp rax rsi ::
  .jcc .b .loop2 ::
  loop2_exit

def at_loop2 : Text :=
  .label .loop2 ::
  loop2

def correct_asm : Text :=
  .const 3 .q_x8 ::
  .const 4 .q_minus1_x8 ::
  .mov rax rdi ::
  .lea rsi (.ix rdi 4 rsi 0) ::
  at_loop2

def at_correct_asm : Text :=
  .label .correct_asm ::
  correct_asm

def loop1b_exit : Text :=
  .ret ::
  at_correct_asm

def loop1b : Text :=
  .load .dqu 0 (.at rax 0) ::
  .vec (.vpsrad 2 0 12) ::
  .vec (.vpand 0 0 3) ::
  .vec (.vpslld 4 0 1) ::
  .vec (.vpaddd 0 0 4) ::
  .vec (.vpsubd 0 0 2) ::
  .vec (.vpsrad 2 0 12) ::
  .vec (.vpand 0 0 3) ::
  .vec (.vpslld 4 0 1) ::
  .vec (.vpaddd 0 0 4) ::
  .vec (.vpsubd 0 0 2) ::
  .store (.at rax 0) 0 ::
  .addi rax 32 ::
  .cmp rax rsi ::
  .jcc .b .loop1b ::
  loop1b_exit

def at_loop1b : Text :=
  .label .loop1b ::
  loop1b

def reduce_array_twice_asm2 : Text :=
  .const 3 .mask ::
  .mov rax rdi ::
  .lea rsi (.ix rdi 4 rsi 0) ::
  at_loop1b

def at_reduce_array_twice_asm2 : Text :=
  .label .reduce_array_twice_asm2 ::
  reduce_array_twice_asm2

def loop1_exit : Text :=
  .ret ::
  at_reduce_array_twice_asm2

def loop1 : Text :=
  .load .dqu 0 (.at rax 0) ::
  .load .dqu 1 (.at rax 32) ::
  .vec (.vpsrad 2 0 12) ::
  .vec (.vpand 0 0 3) ::
  .vec (.vpslld 4 0 1) ::
  .vec (.vpaddd 0 0 4) ::
  .vec (.vpsubd 0 0 2) ::
  .vec (.vpsrad 2 0 12) ::
  .vec (.vpand 0 0 3) ::
  .vec (.vpslld 4 0 1) ::
  .vec (.vpaddd 0 0 4) ::
  .vec (.vpsubd 0 0 2) ::
  .store (.at rax 0) 0 ::
  .vec (.vpsrad 2 1 12) ::
  .vec (.vpand 1 1 3) ::
  .vec (.vpslld 4 1 1) ::
  .vec (.vpaddd 1 1 4) ::
  .vec (.vpsubd 1 1 2) ::
  .vec (.vpsrad 2 1 12) ::
  .vec (.vpand 1 1 3) ::
  .vec (.vpslld 4 1 1) ::
  .vec (.vpaddd 1 1 4) ::
  .vec (.vpsubd 1 1 2) ::
  .store (.at rax 32) 1 ::
  .addi rax 64 ::
  .cmp rax rsi ::
  .jcc .b .loop1 ::
  loop1_exit

def at_loop1 : Text :=
  .label .loop1 ::
  loop1

def reduce_array_twice_asm : Text :=
  .const 3 .mask ::
  .mov rax rdi ::
  .lea rsi (.ix rdi 4 rsi 0) ::
  at_loop1

def at_reduce_array_twice_asm : Text :=
  .label .reduce_array_twice_asm ::
  reduce_array_twice_asm

def loop0b_exit : Text :=
  .ret ::
  at_reduce_array_twice_asm

def loop0b : Text :=
  .load .dqu 0 (.at rax 0) ::
  .vec (.vpsrad 2 0 12) ::
  .vec (.vpand 0 0 3) ::
  .vec (.vpslld 4 0 1) ::
  .vec (.vpaddd 0 0 4) ::
  .vec (.vpsubd 0 0 2) ::
  .store (.at rax 0) 0 ::
  .addi rax 32 ::
  .cmp rax rsi ::
  .jcc .b .loop0b ::
  loop0b_exit

def at_loop0b : Text :=
  .label .loop0b ::
  loop0b

def reduce_array_asm2 : Text :=
  .const 3 .mask ::
  .mov rax rdi ::
  .lea rsi (.ix rdi 4 rsi 0) ::
  at_loop0b

def at_reduce_array_asm2 : Text :=
  .label .reduce_array_asm2 ::
  reduce_array_asm2

def loop0_exit : Text :=
  .ret ::
  at_reduce_array_asm2

def loop0 : Text :=
  .load .dqu 0 (.at rax 0) ::
  .load .dqu 1 (.at rax 32) ::
  .vec (.vpsrad 2 0 12) ::
  .vec (.vpand 0 0 3) ::
  .vec (.vpslld 4 0 1) ::
  .vec (.vpaddd 0 0 4) ::
  .vec (.vpsubd 0 0 2) ::
  .store (.at rax 0) 0 ::
  .vec (.vpsrad 2 1 12) ::
  .vec (.vpand 1 1 3) ::
  .vec (.vpslld 4 1 1) ::
  .vec (.vpaddd 1 1 4) ::
  .vec (.vpsubd 1 1 2) ::
  .store (.at rax 32) 1 ::
  .addi rax 64 ::
  .cmp rax rsi ::
  .jcc .b .loop0 ::
  loop0_exit

def at_loop0 : Text :=
  .label .loop0 ::
  loop0

def reduce_array_asm : Text :=
  .const 3 .mask ::
  .mov rax rdi ::
  .lea rsi (.ix rdi 4 rsi 0) ::
  at_loop0

def at_reduce_array_asm : Text :=
  .label .reduce_array_asm ::
  reduce_array_asm

def not_supported : Text :=
  .xor32 rax rax ::
  .pop rbx ::
  .ret ::
  at_reduce_array_asm

def at_not_supported : Text :=
  .label .not_supported ::
  not_supported

def avx2_supported : Text :=
  .push rbx ::
  .movi32 rax 1 ::
  .cpuid ::
  .andi32 rcx 402653184 ::
  .cmpi32 rcx 402653184 ::
  .jcc .ne .not_supported ::
  .movi32 rax 7 ::
  .xor32 rcx rcx ::
  .cpuid ::
  .andi32 rbx 32 ::
  .cmpi32 rbx 32 ::
  .jcc .ne .not_supported ::
  .xor32 rcx rcx ::
  .xgetbv ::
  .andi32 rax 6 ::
  .cmpi32 rax 6 ::
  .jcc .ne .not_supported ::
  .movi32 rax 1 ::
  .pop rbx ::
  .ret ::
  at_not_supported

def at_avx2_supported : Text :=
  .label .avx2_supported ::
  avx2_supported

end Text

theorem codeAt_avx2_supported : codeAt .avx2_supported Code.prog = Text.avx2_supported := by krfl

theorem codeAt_not_supported : codeAt .not_supported Code.prog = Text.not_supported := by krfl

theorem codeAt_reduce_array_asm : codeAt .reduce_array_asm Code.prog = Text.reduce_array_asm := by krfl

theorem codeAt_loop0 : codeAt .loop0 Code.prog = Text.loop0 := by krfl

theorem codeAt_reduce_array_asm2 : codeAt .reduce_array_asm2 Code.prog = Text.reduce_array_asm2 := by krfl

theorem codeAt_loop0b : codeAt .loop0b Code.prog = Text.loop0b := by krfl

theorem codeAt_reduce_array_twice_asm : codeAt .reduce_array_twice_asm Code.prog = Text.reduce_array_twice_asm := by krfl

theorem codeAt_loop1 : codeAt .loop1 Code.prog = Text.loop1 := by krfl

theorem codeAt_reduce_array_twice_asm2 : codeAt .reduce_array_twice_asm2 Code.prog = Text.reduce_array_twice_asm2 := by krfl

theorem codeAt_loop1b : codeAt .loop1b Code.prog = Text.loop1b := by krfl

theorem codeAt_correct_asm : codeAt .correct_asm Code.prog = Text.correct_asm := by krfl

theorem codeAt_loop2 : codeAt .loop2 Code.prog = Text.loop2 := by krfl

theorem codeAt_shift_array_asm : codeAt .shift_array_asm Code.prog = Text.shift_array_asm := by krfl

theorem codeAt_loop_shift : codeAt .loop_shift Code.prog = Text.loop_shift := by krfl

theorem codeAt_mul_reduce_array16_asm : codeAt .mul_reduce_array16_asm Code.prog = Text.mul_reduce_array16_asm := by krfl

theorem codeAt_loop3 : codeAt .loop3 Code.prog = Text.loop3 := by krfl

theorem codeAt_mul_reduce_array16_asm2 : codeAt .mul_reduce_array16_asm2 Code.prog = Text.mul_reduce_array16_asm2 := by krfl

theorem codeAt_loop4 : codeAt .loop4 Code.prog = Text.loop4 := by krfl

theorem codeAt_mul_reduce_array_asm : codeAt .mul_reduce_array_asm Code.prog = Text.mul_reduce_array_asm := by krfl

theorem codeAt_loop5 : codeAt .loop5 Code.prog = Text.loop5 := by krfl

theorem codeAt_scalar_mul_reduce_array_asm : codeAt .scalar_mul_reduce_array_asm Code.prog = Text.scalar_mul_reduce_array_asm := by krfl

theorem codeAt_loop6 : codeAt .loop6 Code.prog = Text.loop6 := by krfl

theorem codeAt_ntt_red_ct_rev2std_asm : codeAt .ntt_red_ct_rev2std_asm Code.prog = Text.ntt_red_ct_rev2std_asm := by krfl

theorem codeAt_ct_r2s_size8_loop : codeAt .ct_r2s_size8_loop Code.prog = Text.ct_r2s_size8_loop := by krfl

theorem codeAt_ct_r2s_size16_loop : codeAt .ct_r2s_size16_loop Code.prog = Text.ct_r2s_size16_loop := by krfl

theorem codeAt_ct_r2s_size32_loop : codeAt .ct_r2s_size32_loop Code.prog = Text.ct_r2s_size32_loop := by krfl

theorem codeAt_ct_r2s_loop_aux1 : codeAt .ct_r2s_loop_aux1 Code.prog = Text.ct_r2s_loop_aux1 := by krfl

theorem codeAt_ct_r2s_inner_loop : codeAt .ct_r2s_inner_loop Code.prog = Text.ct_r2s_inner_loop := by krfl

theorem codeAt_ct_r2s_done : codeAt .ct_r2s_done Code.prog = Text.ct_r2s_done := by krfl

theorem codeAt_mulntt_red_ct_rev2std_asm : codeAt .mulntt_red_ct_rev2std_asm Code.prog = Text.mulntt_red_ct_rev2std_asm := by krfl

theorem codeAt_mct_r2s_size8_loop2 : codeAt .mct_r2s_size8_loop2 Code.prog = Text.mct_r2s_size8_loop2 := by krfl

theorem codeAt_ntt_red_ct_std2rev_asm : codeAt .ntt_red_ct_std2rev_asm Code.prog = Text.ntt_red_ct_std2rev_asm := by krfl

theorem codeAt_ct_s2r_loop1 : codeAt .ct_s2r_loop1 Code.prog = Text.ct_s2r_loop1 := by krfl

theorem codeAt_ct_s2r_loop2 : codeAt .ct_s2r_loop2 Code.prog = Text.ct_s2r_loop2 := by krfl

theorem codeAt_ct_s2r_loop2_inner1 : codeAt .ct_s2r_loop2_inner1 Code.prog = Text.ct_s2r_loop2_inner1 := by krfl

theorem codeAt_ct_s2r_loop2_aux : codeAt .ct_s2r_loop2_aux Code.prog = Text.ct_s2r_loop2_aux := by krfl

theorem codeAt_ct_s2r_loop2_inner2 : codeAt .ct_s2r_loop2_inner2 Code.prog = Text.ct_s2r_loop2_inner2 := by krfl

theorem codeAt_ct_s2r_finish : codeAt .ct_s2r_finish Code.prog = Text.ct_s2r_finish := by krfl

theorem codeAt_ct_s2r_finish_size4 : codeAt .ct_s2r_finish_size4 Code.prog = Text.ct_s2r_finish_size4 := by krfl

theorem codeAt_ct_s2r_finish_size2 : codeAt .ct_s2r_finish_size2 Code.prog = Text.ct_s2r_finish_size2 := by krfl

theorem codeAt_ct_s2r_finish_size1 : codeAt .ct_s2r_finish_size1 Code.prog = Text.ct_s2r_finish_size1 := by krfl

theorem codeAt_mulntt_red_ct_std2rev_asm : codeAt .mulntt_red_ct_std2rev_asm Code.prog = Text.mulntt_red_ct_std2rev_asm := by krfl

theorem codeAt_mct_s2r_loop : codeAt .mct_s2r_loop Code.prog = Text.mct_s2r_loop := by krfl

theorem codeAt_mct_s2r_loop_aux : codeAt .mct_s2r_loop_aux Code.prog = Text.mct_s2r_loop_aux := by krfl

theorem codeAt_mct_s2r_loop_inner : codeAt .mct_s2r_loop_inner Code.prog = Text.mct_s2r_loop_inner := by krfl

theorem codeAt_ntt_red_gs_rev2std_asm : codeAt .ntt_red_gs_rev2std_asm Code.prog = Text.ntt_red_gs_rev2std_asm := by krfl

theorem codeAt_gs_r2s_loop0 : codeAt .gs_r2s_loop0 Code.prog = Text.gs_r2s_loop0 := by krfl

theorem codeAt_gs_r2s_size16_loop : codeAt .gs_r2s_size16_loop Code.prog = Text.gs_r2s_size16_loop := by krfl

theorem codeAt_gs_r2s_size32_loop : codeAt .gs_r2s_size32_loop Code.prog = Text.gs_r2s_size32_loop := by krfl

theorem codeAt_gs_r2s_size32_first_blocks : codeAt .gs_r2s_size32_first_blocks Code.prog = Text.gs_r2s_size32_first_blocks := by krfl

theorem codeAt_gs_r2s_size32_other_blocks : codeAt .gs_r2s_size32_other_blocks Code.prog = Text.gs_r2s_size32_other_blocks := by krfl

theorem codeAt_gs_r2s_size32_inner_loop : codeAt .gs_r2s_size32_inner_loop Code.prog = Text.gs_r2s_size32_inner_loop := by krfl

theorem codeAt_gs_r2s_done : codeAt .gs_r2s_done Code.prog = Text.gs_r2s_done := by krfl

theorem codeAt_nttmul_red_gs_rev2std_asm : codeAt .nttmul_red_gs_rev2std_asm Code.prog = Text.nttmul_red_gs_rev2std_asm := by krfl

theorem codeAt_mgs_r2s_loop0 : codeAt .mgs_r2s_loop0 Code.prog = Text.mgs_r2s_loop0 := by krfl

theorem codeAt_mgs_r2s_size16_loop : codeAt .mgs_r2s_size16_loop Code.prog = Text.mgs_r2s_size16_loop := by krfl

theorem codeAt_mgs_r2s_size32_loop : codeAt .mgs_r2s_size32_loop Code.prog = Text.mgs_r2s_size32_loop := by krfl

theorem codeAt_mgs_r2s_size32_blocks : codeAt .mgs_r2s_size32_blocks Code.prog = Text.mgs_r2s_size32_blocks := by krfl

theorem codeAt_mgs_r2s_size32_inner_loop : codeAt .mgs_r2s_size32_inner_loop Code.prog = Text.mgs_r2s_size32_inner_loop := by krfl

theorem codeAt_mgs_r2s_done : codeAt .mgs_r2s_done Code.prog = Text.mgs_r2s_done := by krfl

theorem codeAt_ntt_red_gs_std2rev_asm : codeAt .ntt_red_gs_std2rev_asm Code.prog = Text.ntt_red_gs_std2rev_asm := by krfl

theorem codeAt_gs_s2r_main : codeAt .gs_s2r_main Code.prog = Text.gs_s2r_main := by krfl

theorem codeAt_gs_s2r_loop : codeAt .gs_s2r_loop Code.prog = Text.gs_s2r_loop := by krfl

theorem codeAt_gs_s2r_inner_loop : codeAt .gs_s2r_inner_loop Code.prog = Text.gs_s2r_inner_loop := by krfl

theorem codeAt_gs_s2r_finish_loop : codeAt .gs_s2r_finish_loop Code.prog = Text.gs_s2r_finish_loop := by krfl

theorem codeAt_nttmul_red_gs_std2rev_asm : codeAt .nttmul_red_gs_std2rev_asm Code.prog = Text.nttmul_red_gs_std2rev_asm := by krfl

theorem codeAt_mgs_s2r_main : codeAt .mgs_s2r_main Code.prog = Text.mgs_s2r_main := by krfl

theorem codeAt_mgs_s2r_loop : codeAt .mgs_s2r_loop Code.prog = Text.mgs_s2r_loop := by krfl

theorem codeAt_mgs_s2r_inner_loop : codeAt .mgs_s2r_inner_loop Code.prog = Text.mgs_s2r_inner_loop := by krfl

theorem codeAt_mgs_s2r_finish_loop : codeAt .mgs_s2r_finish_loop Code.prog = Text.mgs_s2r_finish_loop := by krfl

end X86
