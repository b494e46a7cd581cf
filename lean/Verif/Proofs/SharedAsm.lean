import Verif.Proofs.SharedAsmRules

/-
Generated by tools/genasmshared.py.  For every function `f` of `Verif/Model/AsmPoly.lean` and
`Verif/Model/AsmPolyProducts.lean`: `f_sim` says that the function on references does what the function on array
values does (see `Verif/Proofs/SharedRules.lean`).  `mul_reduce_array_asm` is in `Verif/Proofs/SharedAsmRules.lean`.
-/

namespace Shared.Asm
open C Avx TraceAsm AsmPoly Tables

variable {S W : Ref → Prop} {μ : Mem} {h : Ref}

theorem loop0_sim (hW : W h) {rsi : Nat} {ymm3 : V8} {v : Array Int} {g : Nat} :
    Sim S W (upd μ h v) (PostSB μ h) (loop0 plain rsi ymm3 (v, g))
      (loop0 shared rsi ymm3 (h, g)) := by
  unfold loop0
  refine Sim.next (Sim.pure ⟨rfl, rfl⟩) fun a => ?_
  refine Sim.val (Sim.pure ⟨rfl, rfl⟩) fun rax => ?_
  refine Sim.val (Sim.aload hW _) fun ymm0 => ?_
  refine Sim.val (Sim.aload hW _) fun ymm1 => ?_
  refine Sim.val (Sim.pure ⟨rfl, rfl⟩) fun ymm0 => ?_
  refine Sim.next (Sim.astore hW _ _) fun a => ?_
  refine Sim.val (Sim.pure ⟨rfl, rfl⟩) fun ymm1 => ?_
  refine Sim.next (Sim.astore hW _ _) fun a => ?_
  refine Sim.val (Sim.pure ⟨rfl, rfl⟩) fun rax => ?_
  exact Sim.pure ⟨rfl, rfl⟩

theorem reduce_array_asm_sim (hW : W h) {v : Array Int} {n : Nat} :
    Sim S W (upd μ h v) (Post μ h) (reduce_array_asm plain v n)
      (reduce_array_asm shared h n) := by
  unfold reduce_array_asm
  refine Sim.val (Sim.pure ⟨rfl, rfl⟩) fun rdi => ?_
  refine Sim.val (Sim.pure ⟨rfl, rfl⟩) fun rsi => ?_
  refine Sim.val (Sim.pure ⟨rfl, rfl⟩) fun ymm3 => ?_
  refine Sim.val (Sim.pure ⟨rfl, rfl⟩) fun rax => ?_
  refine Sim.val (Sim.pure ⟨rfl, rfl⟩) fun rsi => ?_
  refine Sim.nextS (Sim.jloop fun v g => loop0_sim hW) fun a st => ?_
  exact Sim.pure ⟨rfl, rfl⟩

theorem loop0b_sim (hW : W h) {rsi : Nat} {ymm3 : V8} {v : Array Int} {g : Nat} :
    Sim S W (upd μ h v) (PostSB μ h) (loop0b plain rsi ymm3 (v, g))
      (loop0b shared rsi ymm3 (h, g)) := by
  unfold loop0b
  refine Sim.next (Sim.pure ⟨rfl, rfl⟩) fun a => ?_
  refine Sim.val (Sim.pure ⟨rfl, rfl⟩) fun rax => ?_
  refine Sim.val (Sim.aload hW _) fun ymm0 => ?_
  refine Sim.val (Sim.pure ⟨rfl, rfl⟩) fun ymm0 => ?_
  refine Sim.next (Sim.astore hW _ _) fun a => ?_
  refine Sim.val (Sim.pure ⟨rfl, rfl⟩) fun rax => ?_
  exact Sim.pure ⟨rfl, rfl⟩

theorem reduce_array_asm2_sim (hW : W h) {v : Array Int} {n : Nat} :
    Sim S W (upd μ h v) (Post μ h) (reduce_array_asm2 plain v n)
      (reduce_array_asm2 shared h n) := by
  unfold reduce_array_asm2
  refine Sim.val (Sim.pure ⟨rfl, rfl⟩) fun rdi => ?_
  refine Sim.val (Sim.pure ⟨rfl, rfl⟩) fun rsi => ?_
  refine Sim.val (Sim.pure ⟨rfl, rfl⟩) fun ymm3 => ?_
  refine Sim.val (Sim.pure ⟨rfl, rfl⟩) fun rax => ?_
  refine Sim.val (Sim.pure ⟨rfl, rfl⟩) fun rsi => ?_
  refine Sim.nextS (Sim.jloop fun v g => loop0b_sim hW) fun a st => ?_
  exact Sim.pure ⟨rfl, rfl⟩

theorem loop1_sim (hW : W h) {rsi : Nat} {ymm3 : V8} {v : Array Int} {g : Nat} :
    Sim S W (upd μ h v) (PostSB μ h) (loop1 plain rsi ymm3 (v, g))
      (loop1 shared rsi ymm3 (h, g)) := by
  unfold loop1
  refine Sim.next (Sim.pure ⟨rfl, rfl⟩) fun a => ?_
  refine Sim.val (Sim.pure ⟨rfl, rfl⟩) fun rax => ?_
  refine Sim.val (Sim.aload hW _) fun ymm0 => ?_
  refine Sim.val (Sim.aload hW _) fun ymm1 => ?_
  refine Sim.val (Sim.pure ⟨rfl, rfl⟩) fun ymm0 => ?_
  refine Sim.next (Sim.astore hW _ _) fun a => ?_
  refine Sim.val (Sim.pure ⟨rfl, rfl⟩) fun ymm1 => ?_
  refine Sim.next (Sim.astore hW _ _) fun a => ?_
  refine Sim.val (Sim.pure ⟨rfl, rfl⟩) fun rax => ?_
  exact Sim.pure ⟨rfl, rfl⟩

theorem reduce_array_twice_asm_sim (hW : W h) {v : Array Int} {n : Nat} :
    Sim S W (upd μ h v) (Post μ h) (reduce_array_twice_asm plain v n)
      (reduce_array_twice_asm shared h n) := by
  unfold reduce_array_twice_asm
  refine Sim.val (Sim.pure ⟨rfl, rfl⟩) fun rdi => ?_
  refine Sim.val (Sim.pure ⟨rfl, rfl⟩) fun rsi => ?_
  refine Sim.val (Sim.pure ⟨rfl, rfl⟩) fun ymm3 => ?_
  refine Sim.val (Sim.pure ⟨rfl, rfl⟩) fun rax => ?_
  refine Sim.val (Sim.pure ⟨rfl, rfl⟩) fun rsi => ?_
  refine Sim.nextS (Sim.jloop fun v g => loop1_sim hW) fun a st => ?_
  exact Sim.pure ⟨rfl, rfl⟩

theorem loop1b_sim (hW : W h) {rsi : Nat} {ymm3 : V8} {v : Array Int} {g : Nat} :
    Sim S W (upd μ h v) (PostSB μ h) (loop1b plain rsi ymm3 (v, g))
      (loop1b shared rsi ymm3 (h, g)) := by
  unfold loop1b
  refine Sim.next (Sim.pure ⟨rfl, rfl⟩) fun a => ?_
  refine Sim.val (Sim.pure ⟨rfl, rfl⟩) fun rax => ?_
  refine Sim.val (Sim.aload hW _) fun ymm0 => ?_
  refine Sim.val (Sim.pure ⟨rfl, rfl⟩) fun ymm0 => ?_
  refine Sim.next (Sim.astore hW _ _) fun a => ?_
  refine Sim.val (Sim.pure ⟨rfl, rfl⟩) fun rax => ?_
  exact Sim.pure ⟨rfl, rfl⟩

theorem reduce_array_twice_asm2_sim (hW : W h) {v : Array Int} {n : Nat} :
    Sim S W (upd μ h v) (Post μ h) (reduce_array_twice_asm2 plain v n)
      (reduce_array_twice_asm2 shared h n) := by
  unfold reduce_array_twice_asm2
  refine Sim.val (Sim.pure ⟨rfl, rfl⟩) fun rdi => ?_
  refine Sim.val (Sim.pure ⟨rfl, rfl⟩) fun rsi => ?_
  refine Sim.val (Sim.pure ⟨rfl, rfl⟩) fun ymm3 => ?_
  refine Sim.val (Sim.pure ⟨rfl, rfl⟩) fun rax => ?_
  refine Sim.val (Sim.pure ⟨rfl, rfl⟩) fun rsi => ?_
  refine Sim.nextS (Sim.jloop fun v g => loop1b_sim hW) fun a st => ?_
  exact Sim.pure ⟨rfl, rfl⟩

theorem loop2_sim (hW : W h) {rsi : Nat} {ymm3 : V8} {ymm4 : V8} {v : Array Int} {g : Nat} :
    Sim S W (upd μ h v) (PostSB μ h) (loop2 plain rsi ymm3 ymm4 (v, g))
      (loop2 shared rsi ymm3 ymm4 (h, g)) := by
  unfold loop2
  refine Sim.next (Sim.pure ⟨rfl, rfl⟩) fun a => ?_
  refine Sim.val (Sim.pure ⟨rfl, rfl⟩) fun rax => ?_
  refine Sim.val (Sim.aload hW _) fun ymm0 => ?_
  refine Sim.val (Sim.aload hW _) fun ymm1 => ?_
  refine Sim.val (Sim.pure ⟨rfl, rfl⟩) fun ymm0 => ?_
  refine Sim.next (Sim.astore hW _ _) fun a => ?_
  refine Sim.val (Sim.pure ⟨rfl, rfl⟩) fun ymm1 => ?_
  refine Sim.next (Sim.astore hW _ _) fun a => ?_
  refine Sim.val (Sim.pure ⟨rfl, rfl⟩) fun rax => ?_
  exact Sim.pure ⟨rfl, rfl⟩

theorem correct_asm_sim (hW : W h) {v : Array Int} {n : Nat} :
    Sim S W (upd μ h v) (Post μ h) (correct_asm plain v n)
      (correct_asm shared h n) := by
  unfold correct_asm
  refine Sim.val (Sim.pure ⟨rfl, rfl⟩) fun rdi => ?_
  refine Sim.val (Sim.pure ⟨rfl, rfl⟩) fun rsi => ?_
  refine Sim.val (Sim.pure ⟨rfl, rfl⟩) fun ymm3 => ?_
  refine Sim.val (Sim.pure ⟨rfl, rfl⟩) fun ymm4 => ?_
  refine Sim.val (Sim.pure ⟨rfl, rfl⟩) fun rax => ?_
  refine Sim.val (Sim.pure ⟨rfl, rfl⟩) fun rsi => ?_
  refine Sim.nextS (Sim.jloop fun v g => loop2_sim hW) fun a st => ?_
  exact Sim.pure ⟨rfl, rfl⟩

theorem loop_shift_sim (hW : W h) {rsi : Nat} {ymm3 : V8} {ymm4 : V8} {v : Array Int} {g : Nat} :
    Sim S W (upd μ h v) (PostSB μ h) (loop_shift plain rsi ymm3 ymm4 (v, g))
      (loop_shift shared rsi ymm3 ymm4 (h, g)) := by
  unfold loop_shift
  refine Sim.next (Sim.pure ⟨rfl, rfl⟩) fun a => ?_
  refine Sim.val (Sim.pure ⟨rfl, rfl⟩) fun rax => ?_
  refine Sim.val (Sim.aload hW _) fun ymm0 => ?_
  refine Sim.val (Sim.aload hW _) fun ymm1 => ?_
  refine Sim.val (Sim.pure ⟨rfl, rfl⟩) fun ymm0 => ?_
  refine Sim.next (Sim.astore hW _ _) fun a => ?_
  refine Sim.val (Sim.pure ⟨rfl, rfl⟩) fun ymm1 => ?_
  refine Sim.next (Sim.astore hW _ _) fun a => ?_
  refine Sim.val (Sim.pure ⟨rfl, rfl⟩) fun rax => ?_
  exact Sim.pure ⟨rfl, rfl⟩

theorem shift_array_asm_sim (hW : W h) {v : Array Int} {n : Nat} :
    Sim S W (upd μ h v) (Post μ h) (shift_array_asm plain v n)
      (shift_array_asm shared h n) := by
  unfold shift_array_asm
  refine Sim.val (Sim.pure ⟨rfl, rfl⟩) fun rdi => ?_
  refine Sim.val (Sim.pure ⟨rfl, rfl⟩) fun rsi => ?_
  refine Sim.val (Sim.pure ⟨rfl, rfl⟩) fun ymm3 => ?_
  refine Sim.val (Sim.pure ⟨rfl, rfl⟩) fun ymm4 => ?_
  refine Sim.val (Sim.pure ⟨rfl, rfl⟩) fun rax => ?_
  refine Sim.val (Sim.pure ⟨rfl, rfl⟩) fun rsi => ?_
  refine Sim.nextS (Sim.jloop fun v g => loop_shift_sim hW) fun a st => ?_
  exact Sim.pure ⟨rfl, rfl⟩

theorem loop3_sim (hW : W h) {p : Ref} (hp : S p) (hne : p ≠ h) {rsi : Nat} {ymm4 : V8} {v : Array Int} {g : Nat × Nat} :
    Sim S W (upd μ h v) (PostSB μ h) (loop3 plain (μ p) rsi ymm4 (v, g))
      (loop3 shared p rsi ymm4 (h, g)) := by
  unfold loop3
  refine Sim.next (Sim.pure ⟨rfl, rfl⟩) fun a => ?_
  refine Sim.val (Sim.pure ⟨rfl, rfl⟩) fun rax => ?_
  refine Sim.val (Sim.pure ⟨rfl, rfl⟩) fun rdx => ?_
  refine Sim.val (Sim.aload hW _) fun ymm0 => ?_
  refine Sim.val (Sim.pload_sxwd hp hne _) fun ymm1 => ?_
  refine Sim.val (Sim.pure ⟨rfl, rfl⟩) fun ymm0 => ?_
  refine Sim.next (Sim.astore hW _ _) fun a => ?_
  refine Sim.val (Sim.pure ⟨rfl, rfl⟩) fun rax => ?_
  refine Sim.val (Sim.pure ⟨rfl, rfl⟩) fun rdx => ?_
  exact Sim.pure ⟨rfl, rfl⟩

theorem mul_reduce_array16_asm_sim (hW : W h) {p : Ref} (hp : S p) (hne : p ≠ h) {v : Array Int} {n : Nat} :
    Sim S W (upd μ h v) (Post μ h) (mul_reduce_array16_asm plain v n (μ p))
      (mul_reduce_array16_asm shared h n p) := by
  unfold mul_reduce_array16_asm
  refine Sim.val (Sim.pure ⟨rfl, rfl⟩) fun rdi => ?_
  refine Sim.val (Sim.pure ⟨rfl, rfl⟩) fun rsi => ?_
  refine Sim.val (Sim.pure ⟨rfl, rfl⟩) fun rdx => ?_
  refine Sim.val (Sim.pure ⟨rfl, rfl⟩) fun ymm4 => ?_
  refine Sim.val (Sim.pure ⟨rfl, rfl⟩) fun rax => ?_
  refine Sim.val (Sim.pure ⟨rfl, rfl⟩) fun rsi => ?_
  refine Sim.nextS (Sim.jloop fun v g => loop3_sim hW hp hne) fun a st => ?_
  exact Sim.pure ⟨rfl, rfl⟩

theorem loop4_sim (hW : W h) {p : Ref} (hp : S p) (hne : p ≠ h) {rsi : Nat} {ymm5 : V8} {ymm6 : V8} {v : Array Int} {g : Nat × Nat} :
    Sim S W (upd μ h v) (PostSB μ h) (loop4 plain (μ p) rsi ymm5 ymm6 (v, g))
      (loop4 shared p rsi ymm5 ymm6 (h, g)) := by
  unfold loop4
  refine Sim.next (Sim.pure ⟨rfl, rfl⟩) fun a => ?_
  refine Sim.val (Sim.pure ⟨rfl, rfl⟩) fun rax => ?_
  refine Sim.val (Sim.pure ⟨rfl, rfl⟩) fun rdx => ?_
  refine Sim.val (Sim.aload_sxdq hW _) fun ymm0 => ?_
  refine Sim.val (Sim.pload_sxwq hp hne _) fun ymm1 => ?_
  refine Sim.val (Sim.pure ⟨rfl, rfl⟩) fun ymm0 => ?_
  refine Sim.next (Sim.astore128 hW _ _) fun a => ?_
  refine Sim.val (Sim.pure ⟨rfl, rfl⟩) fun rax => ?_
  refine Sim.val (Sim.pure ⟨rfl, rfl⟩) fun rdx => ?_
  exact Sim.pure ⟨rfl, rfl⟩

theorem mul_reduce_array16_asm2_sim (hW : W h) {p : Ref} (hp : S p) (hne : p ≠ h) {v : Array Int} {n : Nat} :
    Sim S W (upd μ h v) (Post μ h) (mul_reduce_array16_asm2 plain v n (μ p))
      (mul_reduce_array16_asm2 shared h n p) := by
  unfold mul_reduce_array16_asm2
  refine Sim.val (Sim.pure ⟨rfl, rfl⟩) fun rdi => ?_
  refine Sim.val (Sim.pure ⟨rfl, rfl⟩) fun rsi => ?_
  refine Sim.val (Sim.pure ⟨rfl, rfl⟩) fun rdx => ?_
  refine Sim.val (Sim.pure ⟨rfl, rfl⟩) fun ymm5 => ?_
  refine Sim.val (Sim.pure ⟨rfl, rfl⟩) fun ymm6 => ?_
  refine Sim.val (Sim.pure ⟨rfl, rfl⟩) fun rax => ?_
  refine Sim.val (Sim.pure ⟨rfl, rfl⟩) fun rsi => ?_
  refine Sim.nextS (Sim.jloop fun v g => loop4_sim hW hp hne) fun a st => ?_
  exact Sim.pure ⟨rfl, rfl⟩

theorem loop6_sim (hW : W h) {rsi : Nat} {ymm1 : V8} {ymm4 : V8} {v : Array Int} {g : Nat} :
    Sim S W (upd μ h v) (PostSB μ h) (loop6 plain rsi ymm1 ymm4 (v, g))
      (loop6 shared rsi ymm1 ymm4 (h, g)) := by
  unfold loop6
  refine Sim.next (Sim.pure ⟨rfl, rfl⟩) fun a => ?_
  refine Sim.val (Sim.pure ⟨rfl, rfl⟩) fun rax => ?_
  refine Sim.val (Sim.aload hW _) fun ymm0 => ?_
  refine Sim.val (Sim.pure ⟨rfl, rfl⟩) fun ymm0 => ?_
  refine Sim.next (Sim.astore hW _ _) fun a => ?_
  refine Sim.val (Sim.pure ⟨rfl, rfl⟩) fun rax => ?_
  exact Sim.pure ⟨rfl, rfl⟩

theorem scalar_mul_reduce_array_asm_sim (hW : W h) {v : Array Int} {n : Nat} {rdx : Int} :
    Sim S W (upd μ h v) (Post μ h) (scalar_mul_reduce_array_asm plain v n rdx)
      (scalar_mul_reduce_array_asm shared h n rdx) := by
  unfold scalar_mul_reduce_array_asm
  refine Sim.val (Sim.pure ⟨rfl, rfl⟩) fun rdi => ?_
  refine Sim.val (Sim.pure ⟨rfl, rfl⟩) fun rsi => ?_
  refine Sim.val (Sim.pure ⟨rfl, rfl⟩) fun ymm4 => ?_
  refine Sim.val (Sim.pure ⟨rfl, rfl⟩) fun rax => ?_
  refine Sim.val (Sim.pure ⟨rfl, rfl⟩) fun rsi => ?_
  refine Sim.val (Sim.pure ⟨rfl, rfl⟩) fun ymm0 => ?_
  refine Sim.val (Sim.pure ⟨rfl, rfl⟩) fun ymm1 => ?_
  refine Sim.nextS (Sim.jloop fun v g => loop6_sim hW) fun a st => ?_
  exact Sim.pure ⟨rfl, rfl⟩

theorem ct_r2s_size8_loop_sim (hW : W h) {rsi : Nat} {ymm4 : V8} {ymm5 : V8} {ymm6 : V8} {v : Array Int} {g : Nat} :
    Sim S W (upd μ h v) (PostSB μ h) (ct_r2s_size8_loop plain rsi ymm4 ymm5 ymm6 (v, g))
      (ct_r2s_size8_loop shared rsi ymm4 ymm5 ymm6 (h, g)) := by
  unfold ct_r2s_size8_loop
  refine Sim.next (Sim.pure ⟨rfl, rfl⟩) fun a => ?_
  refine Sim.val (Sim.pure ⟨rfl, rfl⟩) fun rax => ?_
  refine Sim.val (Sim.aload hW _) fun ymm0 => ?_
  refine Sim.val (Sim.pure ⟨rfl, rfl⟩) fun ymm0 => ?_
  refine Sim.next (Sim.astore hW _ _) fun a => ?_
  refine Sim.val (Sim.pure ⟨rfl, rfl⟩) fun rax => ?_
  exact Sim.pure ⟨rfl, rfl⟩

theorem ct_r2s_size16_loop_sim (hW : W h) {rsi : Nat} {ymm4 : V8} {ymm5 : V8} {ymm6 : V8} {v : Array Int} {g : Nat} :
    Sim S W (upd μ h v) (PostSB μ h) (ct_r2s_size16_loop plain rsi ymm4 ymm5 ymm6 (v, g))
      (ct_r2s_size16_loop shared rsi ymm4 ymm5 ymm6 (h, g)) := by
  unfold ct_r2s_size16_loop
  refine Sim.next (Sim.pure ⟨rfl, rfl⟩) fun a => ?_
  refine Sim.val (Sim.pure ⟨rfl, rfl⟩) fun rax => ?_
  refine Sim.val (Sim.aload hW _) fun ymm0 => ?_
  refine Sim.val (Sim.aload hW _) fun ymm1 => ?_
  refine Sim.val (Sim.pure ⟨rfl, rfl⟩) fun t => ?_
  refine Sim.val (Sim.pure ⟨rfl, rfl⟩) fun ymm2 => ?_
  refine Sim.val (Sim.pure ⟨rfl, rfl⟩) fun ymm3 => ?_
  refine Sim.next (Sim.astore hW _ _) fun a => ?_
  refine Sim.next (Sim.astore hW _ _) fun a => ?_
  refine Sim.val (Sim.pure ⟨rfl, rfl⟩) fun rax => ?_
  exact Sim.pure ⟨rfl, rfl⟩

theorem ct_r2s_inner_loop_sim (hW : W h) {p : Ref} (hp : S p) (hne : p ≠ h) {r8 : Nat} {ymm4 : V8} {v : Array Int} {g : Nat × Nat × Nat} :
    Sim S W (upd μ h v) (PostSB μ h) (ct_r2s_inner_loop plain (μ p) r8 ymm4 (v, g))
      (ct_r2s_inner_loop shared p r8 ymm4 (h, g)) := by
  unfold ct_r2s_inner_loop
  refine Sim.next (Sim.pure ⟨rfl, rfl⟩) fun a => ?_
  refine Sim.val (Sim.pure ⟨rfl, rfl⟩) fun rax => ?_
  refine Sim.val (Sim.pure ⟨rfl, rfl⟩) fun rcx => ?_
  refine Sim.val (Sim.pure ⟨rfl, rfl⟩) fun rdx => ?_
  refine Sim.val (Sim.aload hW _) fun ymm0 => ?_
  refine Sim.val (Sim.aload hW _) fun ymm1 => ?_
  refine Sim.val (Sim.pload_sxwd hp hne _) fun ymm6 => ?_
  refine Sim.val (Sim.pure ⟨rfl, rfl⟩) fun t => ?_
  refine Sim.val (Sim.pure ⟨rfl, rfl⟩) fun ymm2 => ?_
  refine Sim.val (Sim.pure ⟨rfl, rfl⟩) fun ymm3 => ?_
  refine Sim.next (Sim.astore hW _ _) fun a => ?_
  refine Sim.next (Sim.astore hW _ _) fun a => ?_
  refine Sim.val (Sim.pure ⟨rfl, rfl⟩) fun rdx => ?_
  refine Sim.val (Sim.pure ⟨rfl, rfl⟩) fun rax => ?_
  refine Sim.val (Sim.pure ⟨rfl, rfl⟩) fun rcx => ?_
  exact Sim.pure ⟨rfl, rfl⟩

theorem ct_r2s_loop_aux1_sim (hW : W h) {p : Ref} (hp : S p) (hne : p ≠ h) {n : Nat} {rsi : Nat} {r10 : Nat} {r11 : Nat} {ymm4 : V8} {v : Array Int} {g : Nat} :
    Sim S W (upd μ h v) (PostSB μ h) (ct_r2s_loop_aux1 plain (μ p) n rsi r10 r11 ymm4 (v, g))
      (ct_r2s_loop_aux1 shared p n rsi r10 r11 ymm4 (h, g)) := by
  unfold ct_r2s_loop_aux1
  refine Sim.next (Sim.pure ⟨rfl, rfl⟩) fun a => ?_
  refine Sim.val (Sim.pure ⟨rfl, rfl⟩) fun rax => ?_
  refine Sim.val (Sim.pure ⟨rfl, rfl⟩) fun rcx => ?_
  refine Sim.val (Sim.pure ⟨rfl, rfl⟩) fun r8 => ?_
  refine Sim.val (Sim.pure ⟨rfl, rfl⟩) fun rdx => ?_
  refine Sim.nextS (Sim.jloop fun v g => ct_r2s_inner_loop_sim hW hp hne) fun a st => ?_
  refine Sim.next (Sim.pure ⟨rfl, rfl⟩) fun a => ?_
  refine Sim.val (Sim.pure ⟨rfl, rfl⟩) fun rax => ?_
  exact Sim.pure ⟨rfl, rfl⟩

theorem ct_r2s_size32_loop_sim (hW : W h) {p : Ref} (hp : S p) (hne : p ≠ h) {n : Nat} {rdi : Nat} {rsi : Nat} {r9 : Nat} {ymm4 : V8} {v : Array Int} {g : Nat × Nat} :
    Sim S W (upd μ h v) (PostSB μ h) (ct_r2s_size32_loop plain (μ p) n rdi rsi r9 ymm4 (v, g))
      (ct_r2s_size32_loop shared p n rdi rsi r9 ymm4 (h, g)) := by
  unfold ct_r2s_size32_loop
  refine Sim.next (Sim.pure ⟨rfl, rfl⟩) fun a => ?_
  refine Sim.val (Sim.pure ⟨rfl, rfl⟩) fun r10 => ?_
  refine Sim.val (Sim.pure ⟨rfl, rfl⟩) fun r11 => ?_
  refine Sim.val (Sim.pure ⟨rfl, rfl⟩) fun rax => ?_
  refine Sim.nextS (Sim.jloop fun v g => ct_r2s_loop_aux1_sim hW hp hne) fun a st => ?_
  refine Sim.next (Sim.pure ⟨rfl, rfl⟩) fun a => ?_
  refine Sim.val (Sim.pure ⟨rfl, rfl⟩) fun r11 => ?_
  refine Sim.val (Sim.pure ⟨rfl, rfl⟩) fun r10 => ?_
  exact Sim.pure ⟨rfl, rfl⟩

theorem ct_r2s_tail_sim (hW : W h) {p : Ref} (hp : S p) (hne : p ≠ h) {n : Nat} {rdi : Nat} {rsi : Nat} {rdx : Nat} {r9 : Nat} {ymm4 : V8} {ymm5 : V8} {ymm6 : V8} {v : Array Int} {rax : Nat} :
    Sim S W (upd μ h v) (Post μ h) (ct_r2s_tail plain (μ p) n rdi rsi rdx r9 ymm4 ymm5 ymm6 v rax)
      (ct_r2s_tail shared p n rdi rsi rdx r9 ymm4 ymm5 ymm6 h rax) := by
  unfold ct_r2s_tail
  refine Sim.nextS (Sim.jloop fun v g => ct_r2s_size16_loop_sim hW) fun a st => ?_
  refine Sim.next (Sim.pure ⟨rfl, rfl⟩) fun a => ?_
  refine Sim.branch _ ?_ ?_
  · exact Sim.pure ⟨rfl, rfl⟩
  · refine Sim.val (Sim.pure ⟨rfl, rfl⟩) fun r10 => ?_
    refine Sim.val (Sim.pure ⟨rfl, rfl⟩) fun r11 => ?_
    refine Sim.nextS (Sim.jloop fun v g => ct_r2s_size32_loop_sim hW hp hne) fun a st => ?_
    exact Sim.pure ⟨rfl, rfl⟩

theorem ntt_red_ct_rev2std_asm_sim (hW : W h) {p : Ref} (hp : S p) (hne : p ≠ h) {v : Array Int} {n : Nat} :
    Sim S W (upd μ h v) (Post μ h) (ntt_red_ct_rev2std_asm plain v n (μ p))
      (ntt_red_ct_rev2std_asm shared h n p) := by
  unfold ntt_red_ct_rev2std_asm
  refine Sim.val (Sim.pure ⟨rfl, rfl⟩) fun rdi => ?_
  refine Sim.val (Sim.pure ⟨rfl, rfl⟩) fun rsi => ?_
  refine Sim.val (Sim.pure ⟨rfl, rfl⟩) fun rdx => ?_
  refine Sim.val (Sim.pure ⟨rfl, rfl⟩) fun rax => ?_
  refine Sim.val (Sim.pure ⟨rfl, rfl⟩) fun r9 => ?_
  refine Sim.val (Sim.pure ⟨rfl, rfl⟩) fun rsi => ?_
  refine Sim.val (Sim.pload_sxwd hp hne _) fun ymm4 => ?_
  refine Sim.val (Sim.pure ⟨rfl, rfl⟩) fun ymm5 => ?_
  refine Sim.val (Sim.pure ⟨rfl, rfl⟩) fun ymm5 => ?_
  refine Sim.val (Sim.pure ⟨rfl, rfl⟩) fun ymm6 => ?_
  refine Sim.val (Sim.pure ⟨rfl, rfl⟩) fun ymm6 => ?_
  refine Sim.val (Sim.pure ⟨rfl, rfl⟩) fun ymm4 => ?_
  refine Sim.nextS (Sim.jloop fun v g => ct_r2s_size8_loop_sim hW) fun a st => ?_
  refine Sim.next (Sim.pure ⟨rfl, rfl⟩) fun a => ?_
  refine Sim.val (Sim.pure ⟨rfl, rfl⟩) fun rax => ?_
  refine Sim.val (Sim.pload_sxwd hp hne _) fun ymm6 => ?_
  refine Sim.val (Sim.pure ⟨rfl, rfl⟩) fun ymm5 => ?_
  exact ct_r2s_tail_sim hW hp hne

theorem mct_r2s_size8_loop2_sim (hW : W h) {rsi : Nat} {ymm4 : V8} {ymm5 : V8} {ymm6 : V8} {ymm7 : V8} {v : Array Int} {g : Nat} :
    Sim S W (upd μ h v) (PostSB μ h) (mct_r2s_size8_loop2 plain rsi ymm4 ymm5 ymm6 ymm7 (v, g))
      (mct_r2s_size8_loop2 shared rsi ymm4 ymm5 ymm6 ymm7 (h, g)) := by
  unfold mct_r2s_size8_loop2
  refine Sim.next (Sim.pure ⟨rfl, rfl⟩) fun a => ?_
  refine Sim.val (Sim.pure ⟨rfl, rfl⟩) fun rax => ?_
  refine Sim.val (Sim.aload hW _) fun ymm0 => ?_
  refine Sim.val (Sim.pure ⟨rfl, rfl⟩) fun ymm0 => ?_
  refine Sim.next (Sim.astore hW _ _) fun a => ?_
  refine Sim.val (Sim.pure ⟨rfl, rfl⟩) fun rax => ?_
  exact Sim.pure ⟨rfl, rfl⟩

theorem mulntt_red_ct_rev2std_asm_sim (hW : W h) {p : Ref} (hp : S p) (hne : p ≠ h) {v : Array Int} {n : Nat} :
    Sim S W (upd μ h v) (Post μ h) (mulntt_red_ct_rev2std_asm plain v n (μ p))
      (mulntt_red_ct_rev2std_asm shared h n p) := by
  unfold mulntt_red_ct_rev2std_asm
  refine Sim.val (Sim.pure ⟨rfl, rfl⟩) fun rdi => ?_
  refine Sim.val (Sim.pure ⟨rfl, rfl⟩) fun rsi => ?_
  refine Sim.val (Sim.pure ⟨rfl, rfl⟩) fun rdx => ?_
  refine Sim.val (Sim.pure ⟨rfl, rfl⟩) fun rax => ?_
  refine Sim.val (Sim.pure ⟨rfl, rfl⟩) fun r9 => ?_
  refine Sim.val (Sim.pure ⟨rfl, rfl⟩) fun rsi => ?_
  refine Sim.val (Sim.pload_sxwd hp hne _) fun ymm4 => ?_
  refine Sim.val (Sim.pure ⟨rfl, rfl⟩) fun ymm5 => ?_
  refine Sim.val (Sim.pure ⟨rfl, rfl⟩) fun ymm5 => ?_
  refine Sim.val (Sim.pure ⟨rfl, rfl⟩) fun ymm6 => ?_
  refine Sim.val (Sim.pure ⟨rfl, rfl⟩) fun ymm6 => ?_
  refine Sim.val (Sim.pure ⟨rfl, rfl⟩) fun ymm7 => ?_
  refine Sim.val (Sim.pure ⟨rfl, rfl⟩) fun ymm7 => ?_
  refine Sim.val (Sim.pure ⟨rfl, rfl⟩) fun ymm4 => ?_
  refine Sim.nextS (Sim.jloop fun v g => mct_r2s_size8_loop2_sim hW) fun a st => ?_
  refine Sim.next (Sim.pure ⟨rfl, rfl⟩) fun a => ?_
  refine Sim.val (Sim.pure ⟨rfl, rfl⟩) fun rax => ?_
  refine Sim.val (Sim.pload_sxwd hp hne _) fun ymm6 => ?_
  refine Sim.val (Sim.pure ⟨rfl, rfl⟩) fun ymm5 => ?_
  exact ct_r2s_tail_sim hW hp hne

theorem ct_s2r_loop1_sim (hW : W h) {r8 : Nat} {v : Array Int} {g : Nat × Nat} :
    Sim S W (upd μ h v) (PostSB μ h) (ct_s2r_loop1 plain r8 (v, g))
      (ct_s2r_loop1 shared r8 (h, g)) := by
  unfold ct_s2r_loop1
  refine Sim.next (Sim.pure ⟨rfl, rfl⟩) fun a => ?_
  refine Sim.val (Sim.pure ⟨rfl, rfl⟩) fun rax => ?_
  refine Sim.val (Sim.pure ⟨rfl, rfl⟩) fun rcx => ?_
  refine Sim.val (Sim.aload hW _) fun ymm0 => ?_
  refine Sim.val (Sim.aload hW _) fun ymm1 => ?_
  refine Sim.val (Sim.pure ⟨rfl, rfl⟩) fun t => ?_
  refine Sim.val (Sim.pure ⟨rfl, rfl⟩) fun ymm2 => ?_
  refine Sim.val (Sim.pure ⟨rfl, rfl⟩) fun ymm3 => ?_
  refine Sim.next (Sim.astore hW _ _) fun a => ?_
  refine Sim.next (Sim.astore hW _ _) fun a => ?_
  refine Sim.val (Sim.pure ⟨rfl, rfl⟩) fun rcx => ?_
  refine Sim.val (Sim.pure ⟨rfl, rfl⟩) fun rax => ?_
  exact Sim.pure ⟨rfl, rfl⟩

theorem ct_s2r_loop2_inner1_sim (hW : W h) {r9 : Nat} {v : Array Int} {g : Nat × Nat} :
    Sim S W (upd μ h v) (PostSB μ h) (ct_s2r_loop2_inner1 plain r9 (v, g))
      (ct_s2r_loop2_inner1 shared r9 (h, g)) := by
  unfold ct_s2r_loop2_inner1
  refine Sim.next (Sim.pure ⟨rfl, rfl⟩) fun a => ?_
  refine Sim.val (Sim.pure ⟨rfl, rfl⟩) fun rax => ?_
  refine Sim.val (Sim.pure ⟨rfl, rfl⟩) fun rcx => ?_
  refine Sim.val (Sim.aload hW _) fun ymm0 => ?_
  refine Sim.val (Sim.aload hW _) fun ymm1 => ?_
  refine Sim.val (Sim.pure ⟨rfl, rfl⟩) fun t => ?_
  refine Sim.val (Sim.pure ⟨rfl, rfl⟩) fun ymm2 => ?_
  refine Sim.val (Sim.pure ⟨rfl, rfl⟩) fun ymm3 => ?_
  refine Sim.next (Sim.astore hW _ _) fun a => ?_
  refine Sim.next (Sim.astore hW _ _) fun a => ?_
  refine Sim.val (Sim.pure ⟨rfl, rfl⟩) fun rax => ?_
  refine Sim.val (Sim.pure ⟨rfl, rfl⟩) fun rcx => ?_
  exact Sim.pure ⟨rfl, rfl⟩

theorem ct_s2r_loop2_inner2_sim (hW : W h) {r9 : Nat} {ymm4 : V8} {ymm5 : V8} {v : Array Int} {g : Nat × Nat} :
    Sim S W (upd μ h v) (PostSB μ h) (ct_s2r_loop2_inner2 plain r9 ymm4 ymm5 (v, g))
      (ct_s2r_loop2_inner2 shared r9 ymm4 ymm5 (h, g)) := by
  unfold ct_s2r_loop2_inner2
  refine Sim.next (Sim.pure ⟨rfl, rfl⟩) fun a => ?_
  refine Sim.val (Sim.pure ⟨rfl, rfl⟩) fun rax => ?_
  refine Sim.val (Sim.pure ⟨rfl, rfl⟩) fun rcx => ?_
  refine Sim.val (Sim.aload hW _) fun ymm0 => ?_
  refine Sim.val (Sim.aload hW _) fun ymm1 => ?_
  refine Sim.val (Sim.pure ⟨rfl, rfl⟩) fun t => ?_
  refine Sim.val (Sim.pure ⟨rfl, rfl⟩) fun ymm2 => ?_
  refine Sim.val (Sim.pure ⟨rfl, rfl⟩) fun ymm3 => ?_
  refine Sim.next (Sim.astore hW _ _) fun a => ?_
  refine Sim.next (Sim.astore hW _ _) fun a => ?_
  refine Sim.val (Sim.pure ⟨rfl, rfl⟩) fun rax => ?_
  refine Sim.val (Sim.pure ⟨rfl, rfl⟩) fun rcx => ?_
  exact Sim.pure ⟨rfl, rfl⟩

theorem ct_s2r_loop2_aux_sim (hW : W h) {p : Ref} (hp : S p) (hne : p ≠ h) {n : Nat} {rsi : Nat} {r8 : Nat} {ymm4 : V8} {v : Array Int} {g : Nat × Nat} :
    Sim S W (upd μ h v) (PostSB μ h) (ct_s2r_loop2_aux plain (μ p) n rsi r8 ymm4 (v, g))
      (ct_s2r_loop2_aux shared p n rsi r8 ymm4 (h, g)) := by
  unfold ct_s2r_loop2_aux
  refine Sim.next (Sim.pure ⟨rfl, rfl⟩) fun a => ?_
  refine Sim.val (Sim.pure ⟨rfl, rfl⟩) fun rcx => ?_
  refine Sim.val (Sim.pure ⟨rfl, rfl⟩) fun rdx => ?_
  refine Sim.val (Sim.pure ⟨rfl, rfl⟩) fun rdx => ?_
  refine Sim.val (Sim.pload_bdcstw hp hne _) fun ymm5 => ?_
  refine Sim.val (Sim.pure ⟨rfl, rfl⟩) fun ymm5 => ?_
  refine Sim.val (Sim.pure ⟨rfl, rfl⟩) fun rax => ?_
  refine Sim.val (Sim.pure ⟨rfl, rfl⟩) fun rcx => ?_
  refine Sim.val (Sim.pure ⟨rfl, rfl⟩) fun r9 => ?_
  refine Sim.nextS (Sim.jloop fun v g => ct_s2r_loop2_inner2_sim hW) fun a st => ?_
  refine Sim.next (Sim.pure ⟨rfl, rfl⟩) fun a => ?_
  refine Sim.val (Sim.pure ⟨rfl, rfl⟩) fun rcx => ?_
  exact Sim.pure ⟨rfl, rfl⟩

theorem ct_s2r_loop2_sim (hW : W h) {p : Ref} (hp : S p) (hne : p ≠ h) {n : Nat} {rdi : Nat} {r8 : Nat} {ymm4 : V8} {v : Array Int} {g : Nat × Nat} :
    Sim S W (upd μ h v) (PostSB μ h) (ct_s2r_loop2 plain (μ p) n rdi r8 ymm4 (v, g))
      (ct_s2r_loop2 shared p n rdi r8 ymm4 (h, g)) := by
  unfold ct_s2r_loop2
  refine Sim.next (Sim.pure ⟨rfl, rfl⟩) fun a => ?_
  refine Sim.val (Sim.pure ⟨rfl, rfl⟩) fun rsi => ?_
  refine Sim.val (Sim.pure ⟨rfl, rfl⟩) fun rdx => ?_
  refine Sim.val (Sim.pure ⟨rfl, rfl⟩) fun rax => ?_
  refine Sim.val (Sim.pure ⟨rfl, rfl⟩) fun rcx => ?_
  refine Sim.val (Sim.pure ⟨rfl, rfl⟩) fun r9 => ?_
  refine Sim.nextS (Sim.jloop fun v g => ct_s2r_loop2_inner1_sim hW) fun a st => ?_
  refine Sim.next (Sim.pure ⟨rfl, rfl⟩) fun a => ?_
  refine Sim.val (Sim.pure ⟨rfl, rfl⟩) fun rcx => ?_
  refine Sim.nextS (Sim.jloop fun v g => ct_s2r_loop2_aux_sim hW hp hne) fun a st => ?_
  refine Sim.next (Sim.pure ⟨rfl, rfl⟩) fun a => ?_
  refine Sim.val (Sim.pure ⟨rfl, rfl⟩) fun rdx => ?_
  refine Sim.val (Sim.pure ⟨rfl, rfl⟩) fun rdx => ?_
  refine Sim.val (Sim.pure ⟨rfl, rfl⟩) fun rsi => ?_
  exact Sim.pure ⟨rfl, rfl⟩

theorem ct_s2r_finish_size4_sim (hW : W h) {p : Ref} (hp : S p) (hne : p ≠ h) {r8 : Nat} {ymm4 : V8} {ymm6 : V8} {v : Array Int} {g : Nat × Nat} :
    Sim S W (upd μ h v) (PostSB μ h) (ct_s2r_finish_size4 plain (μ p) r8 ymm4 ymm6 (v, g))
      (ct_s2r_finish_size4 shared p r8 ymm4 ymm6 (h, g)) := by
  unfold ct_s2r_finish_size4
  refine Sim.next (Sim.pure ⟨rfl, rfl⟩) fun a => ?_
  refine Sim.val (Sim.pure ⟨rfl, rfl⟩) fun rax => ?_
  refine Sim.val (Sim.pure ⟨rfl, rfl⟩) fun rdx => ?_
  refine Sim.val (Sim.pload_sxwq128 hp hne _) fun ymm5 => ?_
  refine Sim.val (Sim.pure ⟨rfl, rfl⟩) fun ymm5 => ?_
  refine Sim.val (Sim.aload hW _) fun ymm0 => ?_
  refine Sim.val (Sim.aload hW _) fun ymm1 => ?_
  refine Sim.val (Sim.pure ⟨rfl, rfl⟩) fun t => ?_
  refine Sim.val (Sim.pure ⟨rfl, rfl⟩) fun ymm2 => ?_
  refine Sim.val (Sim.pure ⟨rfl, rfl⟩) fun ymm3 => ?_
  refine Sim.next (Sim.astore hW _ _) fun a => ?_
  refine Sim.next (Sim.astore hW _ _) fun a => ?_
  refine Sim.val (Sim.pure ⟨rfl, rfl⟩) fun rax => ?_
  refine Sim.val (Sim.pure ⟨rfl, rfl⟩) fun rdx => ?_
  exact Sim.pure ⟨rfl, rfl⟩

theorem ct_s2r_finish_size2_sim (hW : W h) {p : Ref} (hp : S p) (hne : p ≠ h) {r8 : Nat} {ymm4 : V8} {ymm6 : V8} {v : Array Int} {g : Nat × Nat} :
    Sim S W (upd μ h v) (PostSB μ h) (ct_s2r_finish_size2 plain (μ p) r8 ymm4 ymm6 (v, g))
      (ct_s2r_finish_size2 shared p r8 ymm4 ymm6 (h, g)) := by
  unfold ct_s2r_finish_size2
  refine Sim.next (Sim.pure ⟨rfl, rfl⟩) fun a => ?_
  refine Sim.val (Sim.pure ⟨rfl, rfl⟩) fun rax => ?_
  refine Sim.val (Sim.pure ⟨rfl, rfl⟩) fun rdx => ?_
  refine Sim.val (Sim.pload_sxwq hp hne _) fun ymm5 => ?_
  refine Sim.val (Sim.pure ⟨rfl, rfl⟩) fun ymm5 => ?_
  refine Sim.val (Sim.aload hW _) fun ymm0 => ?_
  refine Sim.val (Sim.aload hW _) fun ymm1 => ?_
  refine Sim.val (Sim.pure ⟨rfl, rfl⟩) fun t => ?_
  refine Sim.val (Sim.pure ⟨rfl, rfl⟩) fun ymm2 => ?_
  refine Sim.val (Sim.pure ⟨rfl, rfl⟩) fun ymm3 => ?_
  refine Sim.next (Sim.astore hW _ _) fun a => ?_
  refine Sim.next (Sim.astore hW _ _) fun a => ?_
  refine Sim.val (Sim.pure ⟨rfl, rfl⟩) fun rax => ?_
  refine Sim.val (Sim.pure ⟨rfl, rfl⟩) fun rdx => ?_
  exact Sim.pure ⟨rfl, rfl⟩

theorem ct_s2r_finish_size1_sim (hW : W h) {p : Ref} (hp : S p) (hne : p ≠ h) {r8 : Nat} {ymm4 : V8} {v : Array Int} {g : Nat × Nat} :
    Sim S W (upd μ h v) (PostSB μ h) (ct_s2r_finish_size1 plain (μ p) r8 ymm4 (v, g))
      (ct_s2r_finish_size1 shared p r8 ymm4 (h, g)) := by
  unfold ct_s2r_finish_size1
  refine Sim.next (Sim.pure ⟨rfl, rfl⟩) fun a => ?_
  refine Sim.val (Sim.pure ⟨rfl, rfl⟩) fun rax => ?_
  refine Sim.val (Sim.pure ⟨rfl, rfl⟩) fun rdx => ?_
  refine Sim.val (Sim.pload_sxwq hp hne _) fun ymm5 => ?_
  refine Sim.val (Sim.pload_sxwq hp hne _) fun ymm6 => ?_
  refine Sim.val (Sim.aload hW _) fun ymm0 => ?_
  refine Sim.val (Sim.aload hW _) fun ymm1 => ?_
  refine Sim.val (Sim.pure ⟨rfl, rfl⟩) fun t => ?_
  refine Sim.val (Sim.pure ⟨rfl, rfl⟩) fun ymm2 => ?_
  refine Sim.val (Sim.pure ⟨rfl, rfl⟩) fun ymm3 => ?_
  refine Sim.next (Sim.astore hW _ _) fun a => ?_
  refine Sim.next (Sim.astore hW _ _) fun a => ?_
  refine Sim.val (Sim.pure ⟨rfl, rfl⟩) fun rax => ?_
  refine Sim.val (Sim.pure ⟨rfl, rfl⟩) fun rdx => ?_
  exact Sim.pure ⟨rfl, rfl⟩

theorem ct_s2r_finish_sim (hW : W h) {p : Ref} (hp : S p) (hne : p ≠ h) {n : Nat} {rdi : Nat} {r8 : Nat} {ymm4 : V8} {v : Array Int} {rdx : Nat} :
    Sim S W (upd μ h v) (Post μ h) (ct_s2r_finish plain (μ p) n rdi r8 ymm4 v rdx)
      (ct_s2r_finish shared p n rdi r8 ymm4 h rdx) := by
  unfold ct_s2r_finish
  refine Sim.val (Sim.pure ⟨rfl, rfl⟩) fun rax => ?_
  refine Sim.val (Sim.pure ⟨rfl, rfl⟩) fun ymm6 => ?_
  refine Sim.nextS (Sim.jloop fun v g => ct_s2r_finish_size4_sim hW hp hne) fun a st => ?_
  refine Sim.next (Sim.pure ⟨rfl, rfl⟩) fun a => ?_
  refine Sim.val (Sim.pure ⟨rfl, rfl⟩) fun rdx => ?_
  refine Sim.val (Sim.pure ⟨rfl, rfl⟩) fun rax => ?_
  refine Sim.val (Sim.pure ⟨rfl, rfl⟩) fun ymm6 => ?_
  refine Sim.nextS (Sim.jloop fun v g => ct_s2r_finish_size2_sim hW hp hne) fun a st => ?_
  refine Sim.next (Sim.pure ⟨rfl, rfl⟩) fun a => ?_
  refine Sim.val (Sim.pure ⟨rfl, rfl⟩) fun rdx => ?_
  refine Sim.val (Sim.pure ⟨rfl, rfl⟩) fun rax => ?_
  refine Sim.nextS (Sim.jloop fun v g => ct_s2r_finish_size1_sim hW hp hne) fun a st => ?_
  exact Sim.pure ⟨rfl, rfl⟩

theorem ntt_red_ct_std2rev_asm_sim (hW : W h) {p : Ref} (hp : S p) (hne : p ≠ h) {v : Array Int} {n : Nat} :
    Sim S W (upd μ h v) (Post μ h) (ntt_red_ct_std2rev_asm plain v n (μ p))
      (ntt_red_ct_std2rev_asm shared h n p) := by
  unfold ntt_red_ct_std2rev_asm
  refine Sim.val (Sim.pure ⟨rfl, rfl⟩) fun rdi => ?_
  refine Sim.val (Sim.pure ⟨rfl, rfl⟩) fun rsi => ?_
  refine Sim.val (Sim.pure ⟨rfl, rfl⟩) fun rdx => ?_
  refine Sim.val (Sim.pure ⟨rfl, rfl⟩) fun r8 => ?_
  refine Sim.val (Sim.pure ⟨rfl, rfl⟩) fun ymm4 => ?_
  refine Sim.val (Sim.pure ⟨rfl, rfl⟩) fun rax => ?_
  refine Sim.val (Sim.pure ⟨rfl, rfl⟩) fun rcx => ?_
  refine Sim.nextS (Sim.jloop fun v g => ct_s2r_loop1_sim hW) fun a st => ?_
  refine Sim.next (Sim.pure ⟨rfl, rfl⟩) fun a => ?_
  refine Sim.val (Sim.pure ⟨rfl, rfl⟩) fun rdx => ?_
  refine Sim.val (Sim.pure ⟨rfl, rfl⟩) fun rsi => ?_
  refine Sim.branch _ ?_ ?_
  · exact ct_s2r_finish_sim hW hp hne
  · refine Sim.nextS (Sim.jloop fun v g => ct_s2r_loop2_sim hW hp hne) fun a st => ?_
    refine Sim.next (Sim.pure ⟨rfl, rfl⟩) fun a => ?_
    refine Sim.val (Sim.pure ⟨rfl, rfl⟩) fun rdx => ?_
    exact ct_s2r_finish_sim hW hp hne

theorem mct_s2r_loop_inner_sim (hW : W h) {r9 : Nat} {ymm4 : V8} {ymm5 : V8} {v : Array Int} {g : Nat × Nat} :
    Sim S W (upd μ h v) (PostSB μ h) (mct_s2r_loop_inner plain r9 ymm4 ymm5 (v, g))
      (mct_s2r_loop_inner shared r9 ymm4 ymm5 (h, g)) := by
  unfold mct_s2r_loop_inner
  refine Sim.next (Sim.pure ⟨rfl, rfl⟩) fun a => ?_
  refine Sim.val (Sim.pure ⟨rfl, rfl⟩) fun rax => ?_
  refine Sim.val (Sim.pure ⟨rfl, rfl⟩) fun rcx => ?_
  refine Sim.val (Sim.aload hW _) fun ymm0 => ?_
  refine Sim.val (Sim.aload hW _) fun ymm1 => ?_
  refine Sim.val (Sim.pure ⟨rfl, rfl⟩) fun t => ?_
  refine Sim.val (Sim.pure ⟨rfl, rfl⟩) fun ymm2 => ?_
  refine Sim.val (Sim.pure ⟨rfl, rfl⟩) fun ymm3 => ?_
  refine Sim.next (Sim.astore hW _ _) fun a => ?_
  refine Sim.next (Sim.astore hW _ _) fun a => ?_
  refine Sim.val (Sim.pure ⟨rfl, rfl⟩) fun rax => ?_
  refine Sim.val (Sim.pure ⟨rfl, rfl⟩) fun rcx => ?_
  exact Sim.pure ⟨rfl, rfl⟩

theorem mct_s2r_loop_aux_sim (hW : W h) {p : Ref} (hp : S p) (hne : p ≠ h) {n : Nat} {rsi : Nat} {r8 : Nat} {ymm4 : V8} {v : Array Int} {g : Nat × Nat × Nat × Nat} :
    Sim S W (upd μ h v) (PostSB μ h) (mct_s2r_loop_aux plain (μ p) n rsi r8 ymm4 (v, g))
      (mct_s2r_loop_aux shared p n rsi r8 ymm4 (h, g)) := by
  unfold mct_s2r_loop_aux
  refine Sim.next (Sim.pure ⟨rfl, rfl⟩) fun a => ?_
  refine Sim.val (Sim.pure ⟨rfl, rfl⟩) fun rax => ?_
  refine Sim.val (Sim.pure ⟨rfl, rfl⟩) fun rcx => ?_
  refine Sim.val (Sim.pure ⟨rfl, rfl⟩) fun r9 => ?_
  refine Sim.val (Sim.pure ⟨rfl, rfl⟩) fun rdx => ?_
  refine Sim.val (Sim.pure ⟨rfl, rfl⟩) fun rdx => ?_
  refine Sim.val (Sim.pload_bdcstw hp hne _) fun ymm5 => ?_
  refine Sim.val (Sim.pure ⟨rfl, rfl⟩) fun ymm5 => ?_
  refine Sim.nextS (Sim.jloop fun v g => mct_s2r_loop_inner_sim hW) fun a st => ?_
  refine Sim.next (Sim.pure ⟨rfl, rfl⟩) fun a => ?_
  refine Sim.val (Sim.pure ⟨rfl, rfl⟩) fun rcx => ?_
  refine Sim.val (Sim.pure ⟨rfl, rfl⟩) fun rax => ?_
  refine Sim.val (Sim.pure ⟨rfl, rfl⟩) fun rcx => ?_
  refine Sim.val (Sim.pure ⟨rfl, rfl⟩) fun r9 => ?_
  exact Sim.pure ⟨rfl, rfl⟩

theorem mct_s2r_loop_sim (hW : W h) {p : Ref} (hp : S p) (hne : p ≠ h) {n : Nat} {rdi : Nat} {r8 : Nat} {ymm4 : V8} {v : Array Int} {g : Nat × Nat} :
    Sim S W (upd μ h v) (PostSB μ h) (mct_s2r_loop plain (μ p) n rdi r8 ymm4 (v, g))
      (mct_s2r_loop shared p n rdi r8 ymm4 (h, g)) := by
  unfold mct_s2r_loop
  refine Sim.next (Sim.pure ⟨rfl, rfl⟩) fun a => ?_
  refine Sim.val (Sim.pure ⟨rfl, rfl⟩) fun rsi => ?_
  refine Sim.val (Sim.pure ⟨rfl, rfl⟩) fun rdx => ?_
  refine Sim.val (Sim.pure ⟨rfl, rfl⟩) fun rax => ?_
  refine Sim.val (Sim.pure ⟨rfl, rfl⟩) fun rcx => ?_
  refine Sim.val (Sim.pure ⟨rfl, rfl⟩) fun r9 => ?_
  refine Sim.nextS (Sim.jloop fun v g => mct_s2r_loop_aux_sim hW hp hne) fun a st => ?_
  refine Sim.next (Sim.pure ⟨rfl, rfl⟩) fun a => ?_
  refine Sim.val (Sim.pure ⟨rfl, rfl⟩) fun rdx => ?_
  refine Sim.val (Sim.pure ⟨rfl, rfl⟩) fun rsi => ?_
  exact Sim.pure ⟨rfl, rfl⟩

theorem mulntt_red_ct_std2rev_asm_sim (hW : W h) {p : Ref} (hp : S p) (hne : p ≠ h) {v : Array Int} {n : Nat} :
    Sim S W (upd μ h v) (Post μ h) (mulntt_red_ct_std2rev_asm plain v n (μ p))
      (mulntt_red_ct_std2rev_asm shared h n p) := by
  unfold mulntt_red_ct_std2rev_asm
  refine Sim.val (Sim.pure ⟨rfl, rfl⟩) fun rdi => ?_
  refine Sim.val (Sim.pure ⟨rfl, rfl⟩) fun rsi => ?_
  refine Sim.val (Sim.pure ⟨rfl, rfl⟩) fun rdx => ?_
  refine Sim.val (Sim.pure ⟨rfl, rfl⟩) fun r8 => ?_
  refine Sim.val (Sim.pure ⟨rfl, rfl⟩) fun ymm4 => ?_
  refine Sim.nextS (Sim.jloop fun v g => mct_s2r_loop_sim hW hp hne) fun a st => ?_
  refine Sim.next (Sim.pure ⟨rfl, rfl⟩) fun a => ?_
  refine Sim.val (Sim.pure ⟨rfl, rfl⟩) fun rdx => ?_
  refine Sim.val (Sim.pure ⟨rfl, rfl⟩) fun rdx => ?_
  exact ct_s2r_finish_sim hW hp hne

theorem gs_r2s_loop0_sim (hW : W h) {p : Ref} (hp : S p) (hne : p ≠ h) {rcx : Nat} {ymm4 : V8} {ymm6 : V8} {v : Array Int} {g : Nat × Nat × Nat × Nat} :
    Sim S W (upd μ h v) (PostSB μ h) (gs_r2s_loop0 plain (μ p) rcx ymm4 ymm6 (v, g))
      (gs_r2s_loop0 shared p rcx ymm4 ymm6 (h, g)) := by
  unfold gs_r2s_loop0
  refine Sim.next (Sim.pure ⟨rfl, rfl⟩) fun a => ?_
  refine Sim.val (Sim.pure ⟨rfl, rfl⟩) fun rax => ?_
  refine Sim.val (Sim.pure ⟨rfl, rfl⟩) fun r8 => ?_
  refine Sim.val (Sim.pure ⟨rfl, rfl⟩) fun r9 => ?_
  refine Sim.val (Sim.pure ⟨rfl, rfl⟩) fun r10 => ?_
  refine Sim.val (Sim.pload_sxwq hp hne _) fun ymm5 => ?_
  refine Sim.val (Sim.aload hW _) fun ymm0 => ?_
  refine Sim.val (Sim.pure ⟨rfl, rfl⟩) fun t => ?_
  refine Sim.val (Sim.pure ⟨rfl, rfl⟩) fun ymm0 => ?_
  refine Sim.val (Sim.pure ⟨rfl, rfl⟩) fun ymm1 => ?_
  refine Sim.val (Sim.pload_sxwq128 hp hne _) fun ymm5 => ?_
  refine Sim.val (Sim.pure ⟨rfl, rfl⟩) fun t => ?_
  refine Sim.val (Sim.pure ⟨rfl, rfl⟩) fun ymm0 => ?_
  refine Sim.val (Sim.pure ⟨rfl, rfl⟩) fun ymm1 => ?_
  refine Sim.val (Sim.pload_bdcstw hp hne _) fun ymm5 => ?_
  refine Sim.val (Sim.pure ⟨rfl, rfl⟩) fun ymm0 => ?_
  refine Sim.next (Sim.astore hW _ _) fun a => ?_
  refine Sim.val (Sim.pure ⟨rfl, rfl⟩) fun rax => ?_
  refine Sim.val (Sim.pure ⟨rfl, rfl⟩) fun r8 => ?_
  refine Sim.val (Sim.pure ⟨rfl, rfl⟩) fun r9 => ?_
  refine Sim.val (Sim.pure ⟨rfl, rfl⟩) fun r10 => ?_
  exact Sim.pure ⟨rfl, rfl⟩

theorem gs_r2s_size16_loop_sim (hW : W h) {p : Ref} (hp : S p) (hne : p ≠ h) {rcx : Nat} {ymm4 : V8} {v : Array Int} {g : Nat × Nat} :
    Sim S W (upd μ h v) (PostSB μ h) (gs_r2s_size16_loop plain (μ p) rcx ymm4 (v, g))
      (gs_r2s_size16_loop shared p rcx ymm4 (h, g)) := by
  unfold gs_r2s_size16_loop
  refine Sim.next (Sim.pure ⟨rfl, rfl⟩) fun a => ?_
  refine Sim.val (Sim.pure ⟨rfl, rfl⟩) fun rax => ?_
  refine Sim.val (Sim.pure ⟨rfl, rfl⟩) fun r9 => ?_
  refine Sim.val (Sim.pload_bdcstw hp hne _) fun ymm5 => ?_
  refine Sim.val (Sim.pure ⟨rfl, rfl⟩) fun ymm5 => ?_
  refine Sim.val (Sim.aload hW _) fun ymm0 => ?_
  refine Sim.val (Sim.aload hW _) fun ymm1 => ?_
  refine Sim.val (Sim.pure ⟨rfl, rfl⟩) fun t => ?_
  refine Sim.val (Sim.pure ⟨rfl, rfl⟩) fun ymm0 => ?_
  refine Sim.val (Sim.pure ⟨rfl, rfl⟩) fun ymm1 => ?_
  refine Sim.next (Sim.astore hW _ _) fun a => ?_
  refine Sim.next (Sim.astore hW _ _) fun a => ?_
  refine Sim.val (Sim.pure ⟨rfl, rfl⟩) fun rax => ?_
  refine Sim.val (Sim.pure ⟨rfl, rfl⟩) fun r9 => ?_
  exact Sim.pure ⟨rfl, rfl⟩

theorem gs_r2s_size32_first_blocks_sim (hW : W h) {r8 : Nat} {v : Array Int} {g : Nat × Nat} :
    Sim S W (upd μ h v) (PostSB μ h) (gs_r2s_size32_first_blocks plain r8 (v, g))
      (gs_r2s_size32_first_blocks shared r8 (h, g)) := by
  unfold gs_r2s_size32_first_blocks
  refine Sim.next (Sim.pure ⟨rfl, rfl⟩) fun a => ?_
  refine Sim.val (Sim.pure ⟨rfl, rfl⟩) fun rax => ?_
  refine Sim.val (Sim.pure ⟨rfl, rfl⟩) fun rcx => ?_
  refine Sim.val (Sim.aload hW _) fun ymm0 => ?_
  refine Sim.val (Sim.aload hW _) fun ymm1 => ?_
  refine Sim.val (Sim.pure ⟨rfl, rfl⟩) fun t => ?_
  refine Sim.val (Sim.pure ⟨rfl, rfl⟩) fun ymm0 => ?_
  refine Sim.val (Sim.pure ⟨rfl, rfl⟩) fun ymm2 => ?_
  refine Sim.next (Sim.astore hW _ _) fun a => ?_
  refine Sim.next (Sim.astore hW _ _) fun a => ?_
  refine Sim.val (Sim.pure ⟨rfl, rfl⟩) fun rax => ?_
  refine Sim.val (Sim.pure ⟨rfl, rfl⟩) fun rcx => ?_
  exact Sim.pure ⟨rfl, rfl⟩

theorem gs_r2s_size32_inner_loop_sim (hW : W h) {r8 : Nat} {ymm4 : V8} {ymm5 : V8} {v : Array Int} {g : Nat × Nat} :
    Sim S W (upd μ h v) (PostSB μ h) (gs_r2s_size32_inner_loop plain r8 ymm4 ymm5 (v, g))
      (gs_r2s_size32_inner_loop shared r8 ymm4 ymm5 (h, g)) := by
  unfold gs_r2s_size32_inner_loop
  refine Sim.next (Sim.pure ⟨rfl, rfl⟩) fun a => ?_
  refine Sim.val (Sim.pure ⟨rfl, rfl⟩) fun rax => ?_
  refine Sim.val (Sim.pure ⟨rfl, rfl⟩) fun rcx => ?_
  refine Sim.val (Sim.aload hW _) fun ymm0 => ?_
  refine Sim.val (Sim.aload hW _) fun ymm1 => ?_
  refine Sim.val (Sim.pure ⟨rfl, rfl⟩) fun t => ?_
  refine Sim.val (Sim.pure ⟨rfl, rfl⟩) fun ymm0 => ?_
  refine Sim.val (Sim.pure ⟨rfl, rfl⟩) fun ymm1 => ?_
  refine Sim.next (Sim.astore hW _ _) fun a => ?_
  refine Sim.next (Sim.astore hW _ _) fun a => ?_
  refine Sim.val (Sim.pure ⟨rfl, rfl⟩) fun rax => ?_
  refine Sim.val (Sim.pure ⟨rfl, rfl⟩) fun rcx => ?_
  exact Sim.pure ⟨rfl, rfl⟩

theorem gs_r2s_size32_other_blocks_sim (hW : W h) {p : Ref} (hp : S p) (hne : p ≠ h) {n : Nat} {r10 : Nat} {r11 : Nat} {ymm4 : V8} {v : Array Int} {g : Nat × Nat} :
    Sim S W (upd μ h v) (PostSB μ h) (gs_r2s_size32_other_blocks plain (μ p) n r10 r11 ymm4 (v, g))
      (gs_r2s_size32_other_blocks shared p n r10 r11 ymm4 (h, g)) := by
  unfold gs_r2s_size32_other_blocks
  refine Sim.next (Sim.pure ⟨rfl, rfl⟩) fun a => ?_
  refine Sim.val (Sim.pure ⟨rfl, rfl⟩) fun rcx => ?_
  refine Sim.val (Sim.pure ⟨rfl, rfl⟩) fun r9 => ?_
  refine Sim.val (Sim.pure ⟨rfl, rfl⟩) fun r9 => ?_
  refine Sim.val (Sim.pload_bdcstw hp hne _) fun ymm5 => ?_
  refine Sim.val (Sim.pure ⟨rfl, rfl⟩) fun ymm5 => ?_
  refine Sim.val (Sim.pure ⟨rfl, rfl⟩) fun rax => ?_
  refine Sim.val (Sim.pure ⟨rfl, rfl⟩) fun rcx => ?_
  refine Sim.val (Sim.pure ⟨rfl, rfl⟩) fun r8 => ?_
  refine Sim.nextS (Sim.jloop fun v g => gs_r2s_size32_inner_loop_sim hW) fun a st => ?_
  refine Sim.next (Sim.pure ⟨rfl, rfl⟩) fun a => ?_
  refine Sim.val (Sim.pure ⟨rfl, rfl⟩) fun rcx => ?_
  exact Sim.pure ⟨rfl, rfl⟩

theorem gs_r2s_size32_loop_sim (hW : W h) {p : Ref} (hp : S p) (hne : p ≠ h) {n : Nat} {rdi : Nat} {rdx : Nat} {r10 : Nat} {ymm4 : V8} {v : Array Int} {g : Nat × Nat} :
    Sim S W (upd μ h v) (PostSB μ h) (gs_r2s_size32_loop plain (μ p) n rdi rdx r10 ymm4 (v, g))
      (gs_r2s_size32_loop shared p n rdi rdx r10 ymm4 (h, g)) := by
  unfold gs_r2s_size32_loop
  refine Sim.next (Sim.pure ⟨rfl, rfl⟩) fun a => ?_
  refine Sim.val (Sim.pure ⟨rfl, rfl⟩) fun rsi => ?_
  refine Sim.val (Sim.pure ⟨rfl, rfl⟩) fun r11 => ?_
  refine Sim.val (Sim.pure ⟨rfl, rfl⟩) fun rax => ?_
  refine Sim.val (Sim.pure ⟨rfl, rfl⟩) fun rcx => ?_
  refine Sim.val (Sim.pure ⟨rfl, rfl⟩) fun r8 => ?_
  refine Sim.val (Sim.pure ⟨rfl, rfl⟩) fun rsi => ?_
  refine Sim.val (Sim.pure ⟨rfl, rfl⟩) fun r9 => ?_
  refine Sim.nextS (Sim.jloop fun v g => gs_r2s_size32_first_blocks_sim hW) fun a st => ?_
  refine Sim.next (Sim.pure ⟨rfl, rfl⟩) fun a => ?_
  refine Sim.val (Sim.pure ⟨rfl, rfl⟩) fun rcx => ?_
  refine Sim.branch _ ?_ ?_
  · exact Sim.pure ⟨rfl, rfl⟩
  · refine Sim.nextS (Sim.jloop fun v g => gs_r2s_size32_other_blocks_sim hW hp hne) fun a st => ?_
    refine Sim.next (Sim.pure ⟨rfl, rfl⟩) fun a => ?_
    refine Sim.val (Sim.pure ⟨rfl, rfl⟩) fun r11 => ?_
    exact Sim.pure ⟨rfl, rfl⟩

theorem ntt_red_gs_rev2std_asm_sim (hW : W h) {p : Ref} (hp : S p) (hne : p ≠ h) {v : Array Int} {n : Nat} :
    Sim S W (upd μ h v) (Post μ h) (ntt_red_gs_rev2std_asm plain v n (μ p))
      (ntt_red_gs_rev2std_asm shared h n p) := by
  unfold ntt_red_gs_rev2std_asm
  refine Sim.val (Sim.pure ⟨rfl, rfl⟩) fun rdi => ?_
  refine Sim.val (Sim.pure ⟨rfl, rfl⟩) fun rsi => ?_
  refine Sim.val (Sim.pure ⟨rfl, rfl⟩) fun rdx => ?_
  refine Sim.val (Sim.pure ⟨rfl, rfl⟩) fun rcx => ?_
  refine Sim.val (Sim.pure ⟨rfl, rfl⟩) fun r8 => ?_
  refine Sim.val (Sim.pure ⟨rfl, rfl⟩) fun rsi => ?_
  refine Sim.val (Sim.pure ⟨rfl, rfl⟩) fun r9 => ?_
  refine Sim.val (Sim.pure ⟨rfl, rfl⟩) fun rsi => ?_
  refine Sim.val (Sim.pure ⟨rfl, rfl⟩) fun r10 => ?_
  refine Sim.val (Sim.pure ⟨rfl, rfl⟩) fun rax => ?_
  refine Sim.val (Sim.pure ⟨rfl, rfl⟩) fun ymm4 => ?_
  refine Sim.val (Sim.pure ⟨rfl, rfl⟩) fun ymm6 => ?_
  refine Sim.nextS (Sim.jloop fun v g => gs_r2s_loop0_sim hW hp hne) fun a st => ?_
  refine Sim.next (Sim.pure ⟨rfl, rfl⟩) fun a => ?_
  refine Sim.val (Sim.pure ⟨rfl, rfl⟩) fun rax => ?_
  refine Sim.val (Sim.aload hW _) fun ymm0 => ?_
  refine Sim.val (Sim.aload hW _) fun ymm1 => ?_
  refine Sim.val (Sim.pure ⟨rfl, rfl⟩) fun t => ?_
  refine Sim.val (Sim.pure ⟨rfl, rfl⟩) fun ymm0 => ?_
  refine Sim.val (Sim.pure ⟨rfl, rfl⟩) fun ymm2 => ?_
  refine Sim.next (Sim.astore hW _ _) fun a => ?_
  refine Sim.next (Sim.astore hW _ _) fun a => ?_
  refine Sim.val (Sim.pure ⟨rfl, rfl⟩) fun rax => ?_
  refine Sim.branch _ ?_ ?_
  · exact Sim.pure ⟨rfl, rfl⟩
  · refine Sim.val (Sim.pure ⟨rfl, rfl⟩) fun rsi => ?_
    refine Sim.val (Sim.pure ⟨rfl, rfl⟩) fun r9 => ?_
    refine Sim.nextS (Sim.jloop fun v g => gs_r2s_size16_loop_sim hW hp hne) fun a st => ?_
    refine Sim.next (Sim.pure ⟨rfl, rfl⟩) fun a => ?_
    refine Sim.val (Sim.pure ⟨rfl, rfl⟩) fun r10 => ?_
    refine Sim.val (Sim.pure ⟨rfl, rfl⟩) fun r11 => ?_
    refine Sim.nextS (Sim.jloop fun v g => gs_r2s_size32_loop_sim hW hp hne) fun a st => ?_
    exact Sim.pure ⟨rfl, rfl⟩

theorem mgs_r2s_loop0_sim (hW : W h) {p : Ref} (hp : S p) (hne : p ≠ h) {rcx : Nat} {ymm4 : V8} {ymm6 : V8} {v : Array Int} {g : Nat × Nat × Nat × Nat} :
    Sim S W (upd μ h v) (PostSB μ h) (mgs_r2s_loop0 plain (μ p) rcx ymm4 ymm6 (v, g))
      (mgs_r2s_loop0 shared p rcx ymm4 ymm6 (h, g)) := by
  unfold mgs_r2s_loop0
  refine Sim.next (Sim.pure ⟨rfl, rfl⟩) fun a => ?_
  refine Sim.val (Sim.pure ⟨rfl, rfl⟩) fun rax => ?_
  refine Sim.val (Sim.pure ⟨rfl, rfl⟩) fun r8 => ?_
  refine Sim.val (Sim.pure ⟨rfl, rfl⟩) fun r9 => ?_
  refine Sim.val (Sim.pure ⟨rfl, rfl⟩) fun r10 => ?_
  refine Sim.val (Sim.pload_sxwq hp hne _) fun ymm5 => ?_
  refine Sim.val (Sim.aload hW _) fun ymm0 => ?_
  refine Sim.val (Sim.pure ⟨rfl, rfl⟩) fun t => ?_
  refine Sim.val (Sim.pure ⟨rfl, rfl⟩) fun ymm0 => ?_
  refine Sim.val (Sim.pure ⟨rfl, rfl⟩) fun ymm1 => ?_
  refine Sim.val (Sim.pload_sxwq128 hp hne _) fun ymm5 => ?_
  refine Sim.val (Sim.pure ⟨rfl, rfl⟩) fun t => ?_
  refine Sim.val (Sim.pure ⟨rfl, rfl⟩) fun ymm0 => ?_
  refine Sim.val (Sim.pure ⟨rfl, rfl⟩) fun ymm1 => ?_
  refine Sim.val (Sim.pload_bdcstw hp hne _) fun ymm5 => ?_
  refine Sim.val (Sim.pure ⟨rfl, rfl⟩) fun ymm0 => ?_
  refine Sim.next (Sim.astore hW _ _) fun a => ?_
  refine Sim.val (Sim.pure ⟨rfl, rfl⟩) fun rax => ?_
  refine Sim.val (Sim.pure ⟨rfl, rfl⟩) fun r8 => ?_
  refine Sim.val (Sim.pure ⟨rfl, rfl⟩) fun r9 => ?_
  refine Sim.val (Sim.pure ⟨rfl, rfl⟩) fun r10 => ?_
  exact Sim.pure ⟨rfl, rfl⟩

theorem mgs_r2s_size16_loop_sim (hW : W h) {p : Ref} (hp : S p) (hne : p ≠ h) {rcx : Nat} {ymm4 : V8} {v : Array Int} {g : Nat × Nat} :
    Sim S W (upd μ h v) (PostSB μ h) (mgs_r2s_size16_loop plain (μ p) rcx ymm4 (v, g))
      (mgs_r2s_size16_loop shared p rcx ymm4 (h, g)) := by
  unfold mgs_r2s_size16_loop
  refine Sim.next (Sim.pure ⟨rfl, rfl⟩) fun a => ?_
  refine Sim.val (Sim.pure ⟨rfl, rfl⟩) fun rax => ?_
  refine Sim.val (Sim.pure ⟨rfl, rfl⟩) fun r9 => ?_
  refine Sim.val (Sim.pload_bdcstw hp hne _) fun ymm5 => ?_
  refine Sim.val (Sim.pure ⟨rfl, rfl⟩) fun ymm5 => ?_
  refine Sim.val (Sim.aload hW _) fun ymm0 => ?_
  refine Sim.val (Sim.aload hW _) fun ymm1 => ?_
  refine Sim.val (Sim.pure ⟨rfl, rfl⟩) fun t => ?_
  refine Sim.val (Sim.pure ⟨rfl, rfl⟩) fun ymm0 => ?_
  refine Sim.val (Sim.pure ⟨rfl, rfl⟩) fun ymm1 => ?_
  refine Sim.next (Sim.astore hW _ _) fun a => ?_
  refine Sim.next (Sim.astore hW _ _) fun a => ?_
  refine Sim.val (Sim.pure ⟨rfl, rfl⟩) fun rax => ?_
  refine Sim.val (Sim.pure ⟨rfl, rfl⟩) fun r9 => ?_
  exact Sim.pure ⟨rfl, rfl⟩

theorem mgs_r2s_size32_inner_loop_sim (hW : W h) {r8 : Nat} {ymm4 : V8} {ymm5 : V8} {v : Array Int} {g : Nat × Nat} :
    Sim S W (upd μ h v) (PostSB μ h) (mgs_r2s_size32_inner_loop plain r8 ymm4 ymm5 (v, g))
      (mgs_r2s_size32_inner_loop shared r8 ymm4 ymm5 (h, g)) := by
  unfold mgs_r2s_size32_inner_loop
  refine Sim.next (Sim.pure ⟨rfl, rfl⟩) fun a => ?_
  refine Sim.val (Sim.pure ⟨rfl, rfl⟩) fun rax => ?_
  refine Sim.val (Sim.pure ⟨rfl, rfl⟩) fun rcx => ?_
  refine Sim.val (Sim.aload hW _) fun ymm0 => ?_
  refine Sim.val (Sim.aload hW _) fun ymm1 => ?_
  refine Sim.val (Sim.pure ⟨rfl, rfl⟩) fun t => ?_
  refine Sim.val (Sim.pure ⟨rfl, rfl⟩) fun ymm0 => ?_
  refine Sim.val (Sim.pure ⟨rfl, rfl⟩) fun ymm1 => ?_
  refine Sim.next (Sim.astore hW _ _) fun a => ?_
  refine Sim.next (Sim.astore hW _ _) fun a => ?_
  refine Sim.val (Sim.pure ⟨rfl, rfl⟩) fun rax => ?_
  refine Sim.val (Sim.pure ⟨rfl, rfl⟩) fun rcx => ?_
  exact Sim.pure ⟨rfl, rfl⟩

theorem mgs_r2s_size32_blocks_sim (hW : W h) {p : Ref} (hp : S p) (hne : p ≠ h) {n : Nat} {r10 : Nat} {r11 : Nat} {ymm4 : V8} {v : Array Int} {g : Nat × Nat × Nat × Nat} :
    Sim S W (upd μ h v) (PostSB μ h) (mgs_r2s_size32_blocks plain (μ p) n r10 r11 ymm4 (v, g))
      (mgs_r2s_size32_blocks shared p n r10 r11 ymm4 (h, g)) := by
  unfold mgs_r2s_size32_blocks
  refine Sim.next (Sim.pure ⟨rfl, rfl⟩) fun a => ?_
  refine Sim.val (Sim.pure ⟨rfl, rfl⟩) fun rax => ?_
  refine Sim.val (Sim.pure ⟨rfl, rfl⟩) fun rcx => ?_
  refine Sim.val (Sim.pure ⟨rfl, rfl⟩) fun r8 => ?_
  refine Sim.val (Sim.pure ⟨rfl, rfl⟩) fun r9 => ?_
  refine Sim.val (Sim.pload_bdcstw hp hne _) fun ymm5 => ?_
  refine Sim.val (Sim.pure ⟨rfl, rfl⟩) fun ymm5 => ?_
  refine Sim.nextS (Sim.jloop fun v g => mgs_r2s_size32_inner_loop_sim hW) fun a st => ?_
  refine Sim.next (Sim.pure ⟨rfl, rfl⟩) fun a => ?_
  refine Sim.val (Sim.pure ⟨rfl, rfl⟩) fun rcx => ?_
  refine Sim.val (Sim.pure ⟨rfl, rfl⟩) fun rax => ?_
  refine Sim.val (Sim.pure ⟨rfl, rfl⟩) fun rcx => ?_
  refine Sim.val (Sim.pure ⟨rfl, rfl⟩) fun r8 => ?_
  refine Sim.val (Sim.pure ⟨rfl, rfl⟩) fun r9 => ?_
  exact Sim.pure ⟨rfl, rfl⟩

theorem mgs_r2s_size32_loop_sim (hW : W h) {p : Ref} (hp : S p) (hne : p ≠ h) {n : Nat} {rdi : Nat} {rdx : Nat} {r10 : Nat} {ymm4 : V8} {v : Array Int} {g : Nat × Nat} :
    Sim S W (upd μ h v) (PostSB μ h) (mgs_r2s_size32_loop plain (μ p) n rdi rdx r10 ymm4 (v, g))
      (mgs_r2s_size32_loop shared p n rdi rdx r10 ymm4 (h, g)) := by
  unfold mgs_r2s_size32_loop
  refine Sim.next (Sim.pure ⟨rfl, rfl⟩) fun a => ?_
  refine Sim.val (Sim.pure ⟨rfl, rfl⟩) fun rsi => ?_
  refine Sim.val (Sim.pure ⟨rfl, rfl⟩) fun r11 => ?_
  refine Sim.val (Sim.pure ⟨rfl, rfl⟩) fun rax => ?_
  refine Sim.val (Sim.pure ⟨rfl, rfl⟩) fun rcx => ?_
  refine Sim.val (Sim.pure ⟨rfl, rfl⟩) fun r8 => ?_
  refine Sim.val (Sim.pure ⟨rfl, rfl⟩) fun rsi => ?_
  refine Sim.val (Sim.pure ⟨rfl, rfl⟩) fun r9 => ?_
  refine Sim.nextS (Sim.jloop fun v g => mgs_r2s_size32_blocks_sim hW hp hne) fun a st => ?_
  refine Sim.next (Sim.pure ⟨rfl, rfl⟩) fun a => ?_
  refine Sim.val (Sim.pure ⟨rfl, rfl⟩) fun r11 => ?_
  exact Sim.pure ⟨rfl, rfl⟩

theorem nttmul_red_gs_rev2std_asm_sim (hW : W h) {p : Ref} (hp : S p) (hne : p ≠ h) {v : Array Int} {n : Nat} :
    Sim S W (upd μ h v) (Post μ h) (nttmul_red_gs_rev2std_asm plain v n (μ p))
      (nttmul_red_gs_rev2std_asm shared h n p) := by
  unfold nttmul_red_gs_rev2std_asm
  refine Sim.val (Sim.pure ⟨rfl, rfl⟩) fun rdi => ?_
  refine Sim.val (Sim.pure ⟨rfl, rfl⟩) fun rsi => ?_
  refine Sim.val (Sim.pure ⟨rfl, rfl⟩) fun rdx => ?_
  refine Sim.val (Sim.pure ⟨rfl, rfl⟩) fun rcx => ?_
  refine Sim.val (Sim.pure ⟨rfl, rfl⟩) fun r8 => ?_
  refine Sim.val (Sim.pure ⟨rfl, rfl⟩) fun rsi => ?_
  refine Sim.val (Sim.pure ⟨rfl, rfl⟩) fun r9 => ?_
  refine Sim.val (Sim.pure ⟨rfl, rfl⟩) fun rsi => ?_
  refine Sim.val (Sim.pure ⟨rfl, rfl⟩) fun r10 => ?_
  refine Sim.val (Sim.pure ⟨rfl, rfl⟩) fun rax => ?_
  refine Sim.val (Sim.pure ⟨rfl, rfl⟩) fun ymm4 => ?_
  refine Sim.val (Sim.pure ⟨rfl, rfl⟩) fun ymm6 => ?_
  refine Sim.nextS (Sim.jloop fun v g => mgs_r2s_loop0_sim hW hp hne) fun a st => ?_
  refine Sim.next (Sim.pure ⟨rfl, rfl⟩) fun a => ?_
  refine Sim.val (Sim.pure ⟨rfl, rfl⟩) fun rax => ?_
  refine Sim.val (Sim.pure ⟨rfl, rfl⟩) fun rsi => ?_
  refine Sim.val (Sim.pure ⟨rfl, rfl⟩) fun r9 => ?_
  refine Sim.nextS (Sim.jloop fun v g => mgs_r2s_size16_loop_sim hW hp hne) fun a st => ?_
  refine Sim.next (Sim.pure ⟨rfl, rfl⟩) fun a => ?_
  refine Sim.branch _ ?_ ?_
  · exact Sim.pure ⟨rfl, rfl⟩
  · refine Sim.val (Sim.pure ⟨rfl, rfl⟩) fun r10 => ?_
    refine Sim.val (Sim.pure ⟨rfl, rfl⟩) fun r11 => ?_
    refine Sim.nextS (Sim.jloop fun v g => mgs_r2s_size32_loop_sim hW hp hne) fun a st => ?_
    exact Sim.pure ⟨rfl, rfl⟩

theorem gs_s2r_inner_loop_sim (hW : W h) {rsi : Nat} {r11 : Nat} {ymm4 : V8} {ymm5 : V8} {ymm6 : V8} {v : Array Int} {g : Nat × Nat} :
    Sim S W (upd μ h v) (PostSB μ h) (gs_s2r_inner_loop plain rsi r11 ymm4 ymm5 ymm6 (v, g))
      (gs_s2r_inner_loop shared rsi r11 ymm4 ymm5 ymm6 (h, g)) := by
  unfold gs_s2r_inner_loop
  refine Sim.next (Sim.pure ⟨rfl, rfl⟩) fun a => ?_
  refine Sim.val (Sim.pure ⟨rfl, rfl⟩) fun rax => ?_
  refine Sim.val (Sim.pure ⟨rfl, rfl⟩) fun rcx => ?_
  refine Sim.val (Sim.aload hW _) fun ymm0 => ?_
  refine Sim.val (Sim.aload hW _) fun ymm1 => ?_
  refine Sim.val (Sim.pure ⟨rfl, rfl⟩) fun t => ?_
  refine Sim.val (Sim.pure ⟨rfl, rfl⟩) fun ymm0 => ?_
  refine Sim.val (Sim.pure ⟨rfl, rfl⟩) fun ymm2 => ?_
  refine Sim.next (Sim.astore hW _ _) fun a => ?_
  refine Sim.next (Sim.astore hW _ _) fun a => ?_
  refine Sim.val (Sim.pure ⟨rfl, rfl⟩) fun rax => ?_
  refine Sim.val (Sim.pure ⟨rfl, rfl⟩) fun rcx => ?_
  exact Sim.pure ⟨rfl, rfl⟩

theorem gs_s2r_loop_sim (hW : W h) {p : Ref} (hp : S p) (hne : p ≠ h) {n : Nat} {rsi : Nat} {r10 : Nat} {r11 : Nat} {ymm4 : V8} {v : Array Int} {g : Nat × Nat} :
    Sim S W (upd μ h v) (PostSB μ h) (gs_s2r_loop plain (μ p) n rsi r10 r11 ymm4 (v, g))
      (gs_s2r_loop shared p n rsi r10 r11 ymm4 (h, g)) := by
  unfold gs_s2r_loop
  refine Sim.next (Sim.pure ⟨rfl, rfl⟩) fun a => ?_
  refine Sim.val (Sim.pure ⟨rfl, rfl⟩) fun r8 => ?_
  refine Sim.val (Sim.pure ⟨rfl, rfl⟩) fun r9 => ?_
  refine Sim.val (Sim.pload_sxwd hp hne _) fun ymm5 => ?_
  refine Sim.val (Sim.pure ⟨rfl, rfl⟩) fun ymm6 => ?_
  refine Sim.val (Sim.pure ⟨rfl, rfl⟩) fun rax => ?_
  refine Sim.val (Sim.pure ⟨rfl, rfl⟩) fun rcx => ?_
  refine Sim.nextS (Sim.jloop fun v g => gs_s2r_inner_loop_sim hW) fun a st => ?_
  refine Sim.next (Sim.pure ⟨rfl, rfl⟩) fun a => ?_
  refine Sim.val (Sim.pure ⟨rfl, rfl⟩) fun r8 => ?_
  refine Sim.val (Sim.pure ⟨rfl, rfl⟩) fun r9 => ?_
  exact Sim.pure ⟨rfl, rfl⟩

theorem gs_s2r_main_sim (hW : W h) {p : Ref} (hp : S p) (hne : p ≠ h) {n : Nat} {rdi : Nat} {rdx : Nat} {r11 : Nat} {ymm4 : V8} {v : Array Int} {g : Nat} :
    Sim S W (upd μ h v) (PostSB μ h) (gs_s2r_main plain (μ p) n rdi rdx r11 ymm4 (v, g))
      (gs_s2r_main shared p n rdi rdx r11 ymm4 (h, g)) := by
  unfold gs_s2r_main
  refine Sim.next (Sim.pure ⟨rfl, rfl⟩) fun a => ?_
  refine Sim.val (Sim.pure ⟨rfl, rfl⟩) fun rsi => ?_
  refine Sim.val (Sim.pure ⟨rfl, rfl⟩) fun r8 => ?_
  refine Sim.val (Sim.pure ⟨rfl, rfl⟩) fun r9 => ?_
  refine Sim.val (Sim.pure ⟨rfl, rfl⟩) fun r10 => ?_
  refine Sim.nextS (Sim.jloop fun v g => gs_s2r_loop_sim hW hp hne) fun a st => ?_
  refine Sim.next (Sim.pure ⟨rfl, rfl⟩) fun a => ?_
  refine Sim.val (Sim.pure ⟨rfl, rfl⟩) fun rsi => ?_
  exact Sim.pure ⟨rfl, rfl⟩

theorem gs_s2r_finish_loop_sim (hW : W h) {r11 : Nat} {ymm4 : V8} {ymm5 : V8} {ymm6 : V8} {ymm7 : V8} {ymm9 : V8} {v : Array Int} {g : Nat} :
    Sim S W (upd μ h v) (PostSB μ h) (gs_s2r_finish_loop plain r11 ymm4 ymm5 ymm6 ymm7 ymm9 (v, g))
      (gs_s2r_finish_loop shared r11 ymm4 ymm5 ymm6 ymm7 ymm9 (h, g)) := by
  unfold gs_s2r_finish_loop
  refine Sim.next (Sim.pure ⟨rfl, rfl⟩) fun a => ?_
  refine Sim.val (Sim.pure ⟨rfl, rfl⟩) fun rax => ?_
  refine Sim.val (Sim.aload hW _) fun ymm0 => ?_
  refine Sim.val (Sim.aload hW _) fun ymm1 => ?_
  refine Sim.val (Sim.pure ⟨rfl, rfl⟩) fun t => ?_
  refine Sim.val (Sim.pure ⟨rfl, rfl⟩) fun ymm0 => ?_
  refine Sim.val (Sim.pure ⟨rfl, rfl⟩) fun ymm1 => ?_
  refine Sim.next (Sim.astore hW _ _) fun a => ?_
  refine Sim.next (Sim.astore hW _ _) fun a => ?_
  refine Sim.val (Sim.pure ⟨rfl, rfl⟩) fun rax => ?_
  exact Sim.pure ⟨rfl, rfl⟩

theorem ntt_red_gs_std2rev_asm_sim (hW : W h) {p : Ref} (hp : S p) (hne : p ≠ h) {v : Array Int} {n : Nat} :
    Sim S W (upd μ h v) (Post μ h) (ntt_red_gs_std2rev_asm plain v n (μ p))
      (ntt_red_gs_std2rev_asm shared h n p) := by
  unfold ntt_red_gs_std2rev_asm
  refine Sim.val (Sim.pure ⟨rfl, rfl⟩) fun rdi => ?_
  refine Sim.val (Sim.pure ⟨rfl, rfl⟩) fun rsi => ?_
  refine Sim.val (Sim.pure ⟨rfl, rfl⟩) fun rdx => ?_
  refine Sim.val (Sim.pure ⟨rfl, rfl⟩) fun r11 => ?_
  refine Sim.val (Sim.pure ⟨rfl, rfl⟩) fun ymm4 => ?_
  refine Sim.nextS (Sim.jloop fun v g => gs_s2r_main_sim hW hp hne) fun a st => ?_
  refine Sim.next (Sim.pure ⟨rfl, rfl⟩) fun a => ?_
  refine Sim.val (Sim.pload_sxwd hp hne _) fun ymm5 => ?_
  refine Sim.val (Sim.pure ⟨rfl, rfl⟩) fun t => ?_
  refine Sim.val (Sim.pure ⟨rfl, rfl⟩) fun ymm5 => ?_
  refine Sim.val (Sim.pure ⟨rfl, rfl⟩) fun ymm6 => ?_
  refine Sim.val (Sim.pure ⟨rfl, rfl⟩) fun ymm7 => ?_
  refine Sim.val (Sim.pure ⟨rfl, rfl⟩) fun rax => ?_
  refine Sim.val (Sim.pure ⟨rfl, rfl⟩) fun ymm9 => ?_
  refine Sim.nextS (Sim.jloop fun v g => gs_s2r_finish_loop_sim hW) fun a st => ?_
  exact Sim.pure ⟨rfl, rfl⟩

theorem mgs_s2r_inner_loop_sim (hW : W h) {rsi : Nat} {r11 : Nat} {ymm4 : V8} {ymm5 : V8} {ymm6 : V8} {v : Array Int} {g : Nat × Nat} :
    Sim S W (upd μ h v) (PostSB μ h) (mgs_s2r_inner_loop plain rsi r11 ymm4 ymm5 ymm6 (v, g))
      (mgs_s2r_inner_loop shared rsi r11 ymm4 ymm5 ymm6 (h, g)) := by
  unfold mgs_s2r_inner_loop
  refine Sim.next (Sim.pure ⟨rfl, rfl⟩) fun a => ?_
  refine Sim.val (Sim.pure ⟨rfl, rfl⟩) fun rax => ?_
  refine Sim.val (Sim.pure ⟨rfl, rfl⟩) fun rcx => ?_
  refine Sim.val (Sim.aload hW _) fun ymm0 => ?_
  refine Sim.val (Sim.aload hW _) fun ymm1 => ?_
  refine Sim.val (Sim.pure ⟨rfl, rfl⟩) fun t => ?_
  refine Sim.val (Sim.pure ⟨rfl, rfl⟩) fun ymm0 => ?_
  refine Sim.val (Sim.pure ⟨rfl, rfl⟩) fun ymm2 => ?_
  refine Sim.next (Sim.astore hW _ _) fun a => ?_
  refine Sim.next (Sim.astore hW _ _) fun a => ?_
  refine Sim.val (Sim.pure ⟨rfl, rfl⟩) fun rax => ?_
  refine Sim.val (Sim.pure ⟨rfl, rfl⟩) fun rcx => ?_
  exact Sim.pure ⟨rfl, rfl⟩

theorem mgs_s2r_loop_sim (hW : W h) {p : Ref} (hp : S p) (hne : p ≠ h) {n : Nat} {rsi : Nat} {r10 : Nat} {r11 : Nat} {ymm4 : V8} {v : Array Int} {g : Nat × Nat} :
    Sim S W (upd μ h v) (PostSB μ h) (mgs_s2r_loop plain (μ p) n rsi r10 r11 ymm4 (v, g))
      (mgs_s2r_loop shared p n rsi r10 r11 ymm4 (h, g)) := by
  unfold mgs_s2r_loop
  refine Sim.next (Sim.pure ⟨rfl, rfl⟩) fun a => ?_
  refine Sim.val (Sim.pure ⟨rfl, rfl⟩) fun r8 => ?_
  refine Sim.val (Sim.pure ⟨rfl, rfl⟩) fun r9 => ?_
  refine Sim.val (Sim.pload_sxwd hp hne _) fun ymm5 => ?_
  refine Sim.val (Sim.pure ⟨rfl, rfl⟩) fun ymm6 => ?_
  refine Sim.val (Sim.pure ⟨rfl, rfl⟩) fun rax => ?_
  refine Sim.val (Sim.pure ⟨rfl, rfl⟩) fun rcx => ?_
  refine Sim.nextS (Sim.jloop fun v g => mgs_s2r_inner_loop_sim hW) fun a st => ?_
  refine Sim.next (Sim.pure ⟨rfl, rfl⟩) fun a => ?_
  refine Sim.val (Sim.pure ⟨rfl, rfl⟩) fun r8 => ?_
  refine Sim.val (Sim.pure ⟨rfl, rfl⟩) fun r9 => ?_
  exact Sim.pure ⟨rfl, rfl⟩

theorem mgs_s2r_main_sim (hW : W h) {p : Ref} (hp : S p) (hne : p ≠ h) {n : Nat} {rdi : Nat} {rdx : Nat} {r11 : Nat} {ymm4 : V8} {v : Array Int} {g : Nat} :
    Sim S W (upd μ h v) (PostSB μ h) (mgs_s2r_main plain (μ p) n rdi rdx r11 ymm4 (v, g))
      (mgs_s2r_main shared p n rdi rdx r11 ymm4 (h, g)) := by
  unfold mgs_s2r_main
  refine Sim.next (Sim.pure ⟨rfl, rfl⟩) fun a => ?_
  refine Sim.val (Sim.pure ⟨rfl, rfl⟩) fun rsi => ?_
  refine Sim.val (Sim.pure ⟨rfl, rfl⟩) fun r8 => ?_
  refine Sim.val (Sim.pure ⟨rfl, rfl⟩) fun r9 => ?_
  refine Sim.val (Sim.pure ⟨rfl, rfl⟩) fun r10 => ?_
  refine Sim.nextS (Sim.jloop fun v g => mgs_s2r_loop_sim hW hp hne) fun a st => ?_
  refine Sim.next (Sim.pure ⟨rfl, rfl⟩) fun a => ?_
  refine Sim.val (Sim.pure ⟨rfl, rfl⟩) fun rsi => ?_
  exact Sim.pure ⟨rfl, rfl⟩

theorem mgs_s2r_finish_loop_sim (hW : W h) {r11 : Nat} {ymm4 : V8} {ymm5 : V8} {ymm6 : V8} {ymm7 : V8} {ymm8 : V8} {ymm9 : V8} {ymm10 : V8} {v : Array Int} {g : Nat} :
    Sim S W (upd μ h v) (PostSB μ h) (mgs_s2r_finish_loop plain r11 ymm4 ymm5 ymm6 ymm7 ymm8 ymm9 ymm10 (v, g))
      (mgs_s2r_finish_loop shared r11 ymm4 ymm5 ymm6 ymm7 ymm8 ymm9 ymm10 (h, g)) := by
  unfold mgs_s2r_finish_loop
  refine Sim.next (Sim.pure ⟨rfl, rfl⟩) fun a => ?_
  refine Sim.val (Sim.pure ⟨rfl, rfl⟩) fun rax => ?_
  refine Sim.val (Sim.aload hW _) fun ymm0 => ?_
  refine Sim.val (Sim.aload hW _) fun ymm1 => ?_
  refine Sim.val (Sim.pure ⟨rfl, rfl⟩) fun t => ?_
  refine Sim.val (Sim.pure ⟨rfl, rfl⟩) fun ymm0 => ?_
  refine Sim.val (Sim.pure ⟨rfl, rfl⟩) fun ymm1 => ?_
  refine Sim.next (Sim.astore hW _ _) fun a => ?_
  refine Sim.next (Sim.astore hW _ _) fun a => ?_
  refine Sim.val (Sim.pure ⟨rfl, rfl⟩) fun rax => ?_
  exact Sim.pure ⟨rfl, rfl⟩

theorem nttmul_red_gs_std2rev_asm_sim (hW : W h) {p : Ref} (hp : S p) (hne : p ≠ h) {v : Array Int} {n : Nat} :
    Sim S W (upd μ h v) (Post μ h) (nttmul_red_gs_std2rev_asm plain v n (μ p))
      (nttmul_red_gs_std2rev_asm shared h n p) := by
  unfold nttmul_red_gs_std2rev_asm
  refine Sim.val (Sim.pure ⟨rfl, rfl⟩) fun rdi => ?_
  refine Sim.val (Sim.pure ⟨rfl, rfl⟩) fun rsi => ?_
  refine Sim.val (Sim.pure ⟨rfl, rfl⟩) fun rdx => ?_
  refine Sim.val (Sim.pure ⟨rfl, rfl⟩) fun r11 => ?_
  refine Sim.val (Sim.pure ⟨rfl, rfl⟩) fun ymm4 => ?_
  refine Sim.nextS (Sim.jloop fun v g => mgs_s2r_main_sim hW hp hne) fun a st => ?_
  refine Sim.next (Sim.pure ⟨rfl, rfl⟩) fun a => ?_
  refine Sim.val (Sim.pload_sxwd hp hne _) fun ymm0 => ?_
  refine Sim.val (Sim.pure ⟨rfl, rfl⟩) fun ymm9 => ?_
  refine Sim.val (Sim.pure ⟨rfl, rfl⟩) fun ymm9 => ?_
  refine Sim.val (Sim.pure ⟨rfl, rfl⟩) fun ymm8 => ?_
  refine Sim.val (Sim.pure ⟨rfl, rfl⟩) fun ymm8 => ?_
  refine Sim.val (Sim.pure ⟨rfl, rfl⟩) fun ymm7 => ?_
  refine Sim.val (Sim.pure ⟨rfl, rfl⟩) fun ymm7 => ?_
  refine Sim.val (Sim.pure ⟨rfl, rfl⟩) fun ymm6 => ?_
  refine Sim.val (Sim.pure ⟨rfl, rfl⟩) fun ymm6 => ?_
  refine Sim.val (Sim.pure ⟨rfl, rfl⟩) fun ymm5 => ?_
  refine Sim.val (Sim.pure ⟨rfl, rfl⟩) fun ymm5 => ?_
  refine Sim.val (Sim.pure ⟨rfl, rfl⟩) fun rax => ?_
  refine Sim.val (Sim.pure ⟨rfl, rfl⟩) fun ymm10 => ?_
  refine Sim.nextS (Sim.jloop fun v g => mgs_s2r_finish_loop_sim hW) fun a st => ?_
  exact Sim.pure ⟨rfl, rfl⟩

/-- The tables of a function on references. -/
abbrev refTab (tb : String → Ref) (x : String) (_ : Array Int) : Ref := tb x

/-- The tables of a function on array values. -/
abbrev valTab (_ : String) (p : Array Int) : Array Int := p

theorem fwd_ct_rev2std_sim {t : RedTables} {tb : String → Ref} (hW : W h) (hS : ∀ x ∈ tableNames, S (tb x))
    (hT : Fresh tb h) (htb : RedTablesAt μ tb t) (n : Nat) (v : Array Int) :
    Sim S W (upd μ h v) (Post μ h) (fwd_ct_rev2std plain valTab t n v) (fwd_ct_rev2std shared (refTab tb) t n h) := by
  unfold fwd_ct_rev2std valTab refTab
  rw [← htb.omega_powers]
  exact ntt_red_ct_rev2std_asm_sim hW (hS _ (by decide)) (hT _ (by decide))

theorem fwd_gs_rev2std_sim {t : RedTables} {tb : String → Ref} (hW : W h) (hS : ∀ x ∈ tableNames, S (tb x))
    (hT : Fresh tb h) (htb : RedTablesAt μ tb t) (n : Nat) (v : Array Int) :
    Sim S W (upd μ h v) (Post μ h) (fwd_gs_rev2std plain valTab t n v) (fwd_gs_rev2std shared (refTab tb) t n h) := by
  unfold fwd_gs_rev2std valTab refTab
  rw [← htb.omega_powers_rev]
  exact ntt_red_gs_rev2std_asm_sim hW (hS _ (by decide)) (hT _ (by decide))

theorem fwd_ct_std2rev_sim {t : RedTables} {tb : String → Ref} (hW : W h) (hS : ∀ x ∈ tableNames, S (tb x))
    (hT : Fresh tb h) (htb : RedTablesAt μ tb t) (n : Nat) (v : Array Int) :
    Sim S W (upd μ h v) (Post μ h) (fwd_ct_std2rev plain valTab t n v) (fwd_ct_std2rev shared (refTab tb) t n h) := by
  unfold fwd_ct_std2rev valTab refTab
  rw [← htb.omega_powers_rev]
  exact ntt_red_ct_std2rev_asm_sim hW (hS _ (by decide)) (hT _ (by decide))

theorem fwd_gs_std2rev_sim {t : RedTables} {tb : String → Ref} (hW : W h) (hS : ∀ x ∈ tableNames, S (tb x))
    (hT : Fresh tb h) (htb : RedTablesAt μ tb t) (n : Nat) (v : Array Int) :
    Sim S W (upd μ h v) (Post μ h) (fwd_gs_std2rev plain valTab t n v) (fwd_gs_std2rev shared (refTab tb) t n h) := by
  unfold fwd_gs_std2rev valTab refTab
  rw [← htb.omega_powers]
  exact ntt_red_gs_std2rev_asm_sim hW (hS _ (by decide)) (hT _ (by decide))

theorem intt_ct_rev2std_sim {t : RedTables} {tb : String → Ref} (hW : W h) (hS : ∀ x ∈ tableNames, S (tb x))
    (hT : Fresh tb h) (htb : RedTablesAt μ tb t) (n : Nat) (v : Array Int) :
    Sim S W (upd μ h v) (Post μ h) (intt_ct_rev2std plain valTab t n v) (intt_ct_rev2std shared (refTab tb) t n h) := by
  unfold intt_ct_rev2std valTab refTab
  rw [← htb.inv_omega_powers]
  exact ntt_red_ct_rev2std_asm_sim hW (hS _ (by decide)) (hT _ (by decide))

theorem intt_gs_rev2std_sim {t : RedTables} {tb : String → Ref} (hW : W h) (hS : ∀ x ∈ tableNames, S (tb x))
    (hT : Fresh tb h) (htb : RedTablesAt μ tb t) (n : Nat) (v : Array Int) :
    Sim S W (upd μ h v) (Post μ h) (intt_gs_rev2std plain valTab t n v) (intt_gs_rev2std shared (refTab tb) t n h) := by
  unfold intt_gs_rev2std valTab refTab
  rw [← htb.inv_omega_powers_rev]
  exact ntt_red_gs_rev2std_asm_sim hW (hS _ (by decide)) (hT _ (by decide))

theorem intt_ct_std2rev_sim {t : RedTables} {tb : String → Ref} (hW : W h) (hS : ∀ x ∈ tableNames, S (tb x))
    (hT : Fresh tb h) (htb : RedTablesAt μ tb t) (n : Nat) (v : Array Int) :
    Sim S W (upd μ h v) (Post μ h) (intt_ct_std2rev plain valTab t n v) (intt_ct_std2rev shared (refTab tb) t n h) := by
  unfold intt_ct_std2rev valTab refTab
  rw [← htb.inv_omega_powers_rev]
  exact ntt_red_ct_std2rev_asm_sim hW (hS _ (by decide)) (hT _ (by decide))

theorem intt_gs_std2rev_sim {t : RedTables} {tb : String → Ref} (hW : W h) (hS : ∀ x ∈ tableNames, S (tb x))
    (hT : Fresh tb h) (htb : RedTablesAt μ tb t) (n : Nat) (v : Array Int) :
    Sim S W (upd μ h v) (Post μ h) (intt_gs_std2rev plain valTab t n v) (intt_gs_std2rev shared (refTab tb) t n h) := by
  unfold intt_gs_std2rev valTab refTab
  rw [← htb.inv_omega_powers]
  exact ntt_red_gs_std2rev_asm_sim hW (hS _ (by decide)) (hT _ (by decide))

theorem fwdmul_ct_rev2std_sim {t : RedTables} {tb : String → Ref} (hW : W h) (hS : ∀ x ∈ tableNames, S (tb x))
    (hT : Fresh tb h) (htb : RedTablesAt μ tb t) (n : Nat) (v : Array Int) :
    Sim S W (upd μ h v) (Post μ h) (fwdmul_ct_rev2std plain valTab t n v) (fwdmul_ct_rev2std shared (refTab tb) t n h) := by
  unfold fwdmul_ct_rev2std valTab refTab
  rw [← htb.mixed_powers]
  exact mulntt_red_ct_rev2std_asm_sim hW (hS _ (by decide)) (hT _ (by decide))

theorem fwdmul_ct_std2rev_sim {t : RedTables} {tb : String → Ref} (hW : W h) (hS : ∀ x ∈ tableNames, S (tb x))
    (hT : Fresh tb h) (htb : RedTablesAt μ tb t) (n : Nat) (v : Array Int) :
    Sim S W (upd μ h v) (Post μ h) (fwdmul_ct_std2rev plain valTab t n v) (fwdmul_ct_std2rev shared (refTab tb) t n h) := by
  unfold fwdmul_ct_std2rev valTab refTab
  rw [← htb.mixed_powers_rev]
  exact mulntt_red_ct_std2rev_asm_sim hW (hS _ (by decide)) (hT _ (by decide))

theorem inttmul_gs_rev2std_sim {t : RedTables} {tb : String → Ref} (hW : W h) (hS : ∀ x ∈ tableNames, S (tb x))
    (hT : Fresh tb h) (htb : RedTablesAt μ tb t) (n : Nat) (v : Array Int) :
    Sim S W (upd μ h v) (Post μ h) (inttmul_gs_rev2std plain valTab t n v) (inttmul_gs_rev2std shared (refTab tb) t n h) := by
  unfold inttmul_gs_rev2std valTab refTab
  rw [← htb.inv_mixed_powers_rev]
  exact nttmul_red_gs_rev2std_asm_sim hW (hS _ (by decide)) (hT _ (by decide))

theorem inttmul_gs_std2rev_sim {t : RedTables} {tb : String → Ref} (hW : W h) (hS : ∀ x ∈ tableNames, S (tb x))
    (hT : Fresh tb h) (htb : RedTablesAt μ tb t) (n : Nat) (v : Array Int) :
    Sim S W (upd μ h v) (Post μ h) (inttmul_gs_std2rev plain valTab t n v) (inttmul_gs_std2rev shared (refTab tb) t n h) := by
  unfold inttmul_gs_std2rev valTab refTab
  rw [← htb.inv_mixed_powers]
  exact nttmul_red_gs_std2rev_asm_sim hW (hS _ (by decide)) (hT _ (by decide))

theorem shiftInput_sim (hW : W h) (n : Nat) (sh : Bool) (v : Array Int) :
    Sim S W (upd μ h v) (Post μ h) (shiftInput plain n sh v) (shiftInput shared n sh h) := by
  unfold shiftInput
  cases sh with
  | false => exact Sim.pure ⟨rfl, rfl⟩
  | true => exact shift_array_asm_sim hW

theorem product1_sim {t : RedTables} {tb : String → Ref} {a b c : Ref} (hWa : W a) (hWb : W b) (hWc : W c)
    (hS : ∀ x ∈ tableNames, S (tb x)) (hTa : Fresh tb a) (hTb : Fresh tb b) (hTc : Fresh tb c) (hab : a ≠ b)
    {n : Nat} {sh : Bool} (hn : 8 ∣ n) (h0 : 0 < n) {va vb vc : Array Int} (htb : RedTablesAt μ tb t) (ea : μ a = va)
    (eb : μ b = vb) (hvc : vc.size = n) (hc : (μ c).size = n) :
    Sim S W μ (ProductPost μ c a b) (product1 plain valTab t n sh vc va vb)
      (product1 shared (refTab tb) t n sh c a b) := by
  unfold product1
  have fr0 : ∀ k, k ≠ c → k ≠ a → k ≠ b → μ k = μ k := fun _ _ _ _ => rfl
  refine Sim.step ea (shiftInput_sim hWa _ _ _) fun va m1 ea ne sz => ?_
  have htb := htb.frame hTa ne
  have eb := (ne b hab.symm).trans eb
  have hc := (sz c).trans hc
  have fr1 : ∀ k, k ≠ c → k ≠ a → k ≠ b → m1 k = μ k := fun k h1 h2 h3 => (ne k h2).trans (fr0 k h1 h2 h3)
  refine Sim.step ea (by unfold valTab refTab; rw [← htb.psi_powers]; exact mul_reduce_array16_asm_sim hWa (hS _ (by decide)) (hTa _ (by decide))) fun va m2 ea ne sz => ?_
  have htb := htb.frame hTa ne
  have eb := (ne b hab.symm).trans eb
  have hc := (sz c).trans hc
  have fr2 : ∀ k, k ≠ c → k ≠ a → k ≠ b → m2 k = μ k := fun k h1 h2 h3 => (ne k h2).trans (fr1 k h1 h2 h3)
  refine Sim.step ea (fwd_ct_std2rev_sim hWa hS hTa htb _ _) fun va m3 ea ne sz => ?_
  have htb := htb.frame hTa ne
  have eb := (ne b hab.symm).trans eb
  have hc := (sz c).trans hc
  have fr3 : ∀ k, k ≠ c → k ≠ a → k ≠ b → m3 k = μ k := fun k h1 h2 h3 => (ne k h2).trans (fr2 k h1 h2 h3)
  refine Sim.step ea (reduce_array_asm_sim hWa) fun va m4 ea ne sz => ?_
  have htb := htb.frame hTa ne
  have eb := (ne b hab.symm).trans eb
  have hc := (sz c).trans hc
  have fr4 : ∀ k, k ≠ c → k ≠ a → k ≠ b → m4 k = μ k := fun k h1 h2 h3 => (ne k h2).trans (fr3 k h1 h2 h3)
  refine Sim.step eb (shiftInput_sim hWb _ _ _) fun vb m5 eb ne sz => ?_
  have htb := htb.frame hTb ne
  have ea := (ne a hab).trans ea
  have hc := (sz c).trans hc
  have fr5 : ∀ k, k ≠ c → k ≠ a → k ≠ b → m5 k = μ k := fun k h1 h2 h3 => (ne k h3).trans (fr4 k h1 h2 h3)
  refine Sim.step eb (by unfold valTab refTab; rw [← htb.psi_powers]; exact mul_reduce_array16_asm_sim hWb (hS _ (by decide)) (hTb _ (by decide))) fun vb m6 eb ne sz => ?_
  have htb := htb.frame hTb ne
  have ea := (ne a hab).trans ea
  have hc := (sz c).trans hc
  have fr6 : ∀ k, k ≠ c → k ≠ a → k ≠ b → m6 k = μ k := fun k h1 h2 h3 => (ne k h3).trans (fr5 k h1 h2 h3)
  refine Sim.step eb (fwd_ct_std2rev_sim hWb hS hTb htb _ _) fun vb m7 eb ne sz => ?_
  have htb := htb.frame hTb ne
  have ea := (ne a hab).trans ea
  have hc := (sz c).trans hc
  have fr7 : ∀ k, k ≠ c → k ≠ a → k ≠ b → m7 k = μ k := fun k h1 h2 h3 => (ne k h3).trans (fr6 k h1 h2 h3)
  refine Sim.step eb (reduce_array_asm_sim hWb) fun vb m8 eb ne sz => ?_
  have htb := htb.frame hTb ne
  have ea := (ne a hab).trans ea
  have hc := (sz c).trans hc
  have fr8 : ∀ k, k ≠ c → k ≠ a → k ≠ b → m8 k = μ k := fun k h1 h2 h3 => (ne k h3).trans (fr7 k h1 h2 h3)
  refine Sim.stepMul (mul_reduce_array_asm_sim hWa hWb hWc hn h0 ea eb hvc hc) fun vc m9 ec ne sz => ?_
  have htb := htb.frame hTc ne
  have ea : a ≠ c → m9 a = _ := fun h => (ne a h).trans ea
  have eb : b ≠ c → m9 b = _ := fun h => (ne b h).trans eb
  have fr9 : ∀ k, k ≠ c → k ≠ a → k ≠ b → m9 k = μ k := fun k h1 h2 h3 => (ne k h1).trans (fr8 k h1 h2 h3)
  refine Sim.step ec (reduce_array_twice_asm_sim hWc) fun vc m10 ec ne sz => ?_
  have htb := htb.frame hTc ne
  have ea : a ≠ c → m10 a = _ := fun h => (ne a h).trans (ea h)
  have eb : b ≠ c → m10 b = _ := fun h => (ne b h).trans (eb h)
  have fr10 : ∀ k, k ≠ c → k ≠ a → k ≠ b → m10 k = μ k := fun k h1 h2 h3 => (ne k h1).trans (fr9 k h1 h2 h3)
  refine Sim.step ec (intt_ct_rev2std_sim hWc hS hTc htb _ _) fun vc m11 ec ne sz => ?_
  have htb := htb.frame hTc ne
  have ea : a ≠ c → m11 a = _ := fun h => (ne a h).trans (ea h)
  have eb : b ≠ c → m11 b = _ := fun h => (ne b h).trans (eb h)
  have fr11 : ∀ k, k ≠ c → k ≠ a → k ≠ b → m11 k = μ k := fun k h1 h2 h3 => (ne k h1).trans (fr10 k h1 h2 h3)
  refine Sim.step ec (by unfold valTab refTab; rw [← htb.scaled_inv_psi_powers]; exact mul_reduce_array16_asm_sim hWc (hS _ (by decide)) (hTc _ (by decide))) fun vc m12 ec ne sz => ?_
  have htb := htb.frame hTc ne
  have ea : a ≠ c → m12 a = _ := fun h => (ne a h).trans (ea h)
  have eb : b ≠ c → m12 b = _ := fun h => (ne b h).trans (eb h)
  have fr12 : ∀ k, k ≠ c → k ≠ a → k ≠ b → m12 k = μ k := fun k h1 h2 h3 => (ne k h1).trans (fr11 k h1 h2 h3)
  refine Sim.step ec (reduce_array_twice_asm_sim hWc) fun vc m13 ec ne sz => ?_
  have htb := htb.frame hTc ne
  have ea : a ≠ c → m13 a = _ := fun h => (ne a h).trans (ea h)
  have eb : b ≠ c → m13 b = _ := fun h => (ne b h).trans (eb h)
  have fr13 : ∀ k, k ≠ c → k ≠ a → k ≠ b → m13 k = μ k := fun k h1 h2 h3 => (ne k h1).trans (fr12 k h1 h2 h3)
  refine Sim.step ec (correct_asm_sim hWc) fun vc m14 ec ne sz => ?_
  have htb := htb.frame hTc ne
  have ea : a ≠ c → m14 a = _ := fun h => (ne a h).trans (ea h)
  have eb : b ≠ c → m14 b = _ := fun h => (ne b h).trans (eb h)
  have fr14 : ∀ k, k ≠ c → k ≠ a → k ≠ b → m14 k = μ k := fun k h1 h2 h3 => (ne k h1).trans (fr13 k h1 h2 h3)
  exact Sim.pure ⟨rfl, ec, ea, eb, fr14⟩

theorem product1_1024_sim {t : RedTables} {tb : String → Ref} {a b c : Ref} (hWa : W a) (hWb : W b) (hWc : W c)
    (hS : ∀ x ∈ tableNames, S (tb x)) (hTa : Fresh tb a) (hTb : Fresh tb b) (hTc : Fresh tb c) (hab : a ≠ b)
    {n : Nat} (hn : 8 ∣ n) (h0 : 0 < n) {va vb vc : Array Int} (htb : RedTablesAt μ tb t) (ea : μ a = va)
    (eb : μ b = vb) (hvc : vc.size = n) (hc : (μ c).size = n) :
    Sim S W μ (ProductPost μ c a b) (product1_1024 plain valTab t n vc va vb)
      (product1_1024 shared (refTab tb) t n c a b) := by
  unfold product1_1024
  have fr0 : ∀ k, k ≠ c → k ≠ a → k ≠ b → μ k = μ k := fun _ _ _ _ => rfl
  refine Sim.step ea (by unfold valTab refTab; rw [← htb.psi_powers]; exact mul_reduce_array16_asm_sim hWa (hS _ (by decide)) (hTa _ (by decide))) fun va m1 ea ne sz => ?_
  have htb := htb.frame hTa ne
  have eb := (ne b hab.symm).trans eb
  have hc := (sz c).trans hc
  have fr1 : ∀ k, k ≠ c → k ≠ a → k ≠ b → m1 k = μ k := fun k h1 h2 h3 => (ne k h2).trans (fr0 k h1 h2 h3)
  refine Sim.step ea (fwd_ct_std2rev_sim hWa hS hTa htb _ _) fun va m2 ea ne sz => ?_
  have htb := htb.frame hTa ne
  have eb := (ne b hab.symm).trans eb
  have hc := (sz c).trans hc
  have fr2 : ∀ k, k ≠ c → k ≠ a → k ≠ b → m2 k = μ k := fun k h1 h2 h3 => (ne k h2).trans (fr1 k h1 h2 h3)
  refine Sim.step ea (reduce_array_asm_sim hWa) fun va m3 ea ne sz => ?_
  have htb := htb.frame hTa ne
  have eb := (ne b hab.symm).trans eb
  have hc := (sz c).trans hc
  have fr3 : ∀ k, k ≠ c → k ≠ a → k ≠ b → m3 k = μ k := fun k h1 h2 h3 => (ne k h2).trans (fr2 k h1 h2 h3)
  refine Sim.step eb (by unfold valTab refTab; rw [← htb.psi_powers]; exact mul_reduce_array16_asm_sim hWb (hS _ (by decide)) (hTb _ (by decide))) fun vb m4 eb ne sz => ?_
  have htb := htb.frame hTb ne
  have ea := (ne a hab).trans ea
  have hc := (sz c).trans hc
  have fr4 : ∀ k, k ≠ c → k ≠ a → k ≠ b → m4 k = μ k := fun k h1 h2 h3 => (ne k h3).trans (fr3 k h1 h2 h3)
  refine Sim.step eb (fwd_ct_std2rev_sim hWb hS hTb htb _ _) fun vb m5 eb ne sz => ?_
  have htb := htb.frame hTb ne
  have ea := (ne a hab).trans ea
  have hc := (sz c).trans hc
  have fr5 : ∀ k, k ≠ c → k ≠ a → k ≠ b → m5 k = μ k := fun k h1 h2 h3 => (ne k h3).trans (fr4 k h1 h2 h3)
  refine Sim.step eb (reduce_array_asm_sim hWb) fun vb m6 eb ne sz => ?_
  have htb := htb.frame hTb ne
  have ea := (ne a hab).trans ea
  have hc := (sz c).trans hc
  have fr6 : ∀ k, k ≠ c → k ≠ a → k ≠ b → m6 k = μ k := fun k h1 h2 h3 => (ne k h3).trans (fr5 k h1 h2 h3)
  refine Sim.stepMul (mul_reduce_array_asm_sim hWa hWb hWc hn h0 ea eb hvc hc) fun vc m7 ec ne sz => ?_
  have htb := htb.frame hTc ne
  have ea : a ≠ c → m7 a = _ := fun h => (ne a h).trans ea
  have eb : b ≠ c → m7 b = _ := fun h => (ne b h).trans eb
  have fr7 : ∀ k, k ≠ c → k ≠ a → k ≠ b → m7 k = μ k := fun k h1 h2 h3 => (ne k h1).trans (fr6 k h1 h2 h3)
  refine Sim.step ec (intt_ct_rev2std_sim hWc hS hTc htb _ _) fun vc m8 ec ne sz => ?_
  have htb := htb.frame hTc ne
  have ea : a ≠ c → m8 a = _ := fun h => (ne a h).trans (ea h)
  have eb : b ≠ c → m8 b = _ := fun h => (ne b h).trans (eb h)
  have fr8 : ∀ k, k ≠ c → k ≠ a → k ≠ b → m8 k = μ k := fun k h1 h2 h3 => (ne k h1).trans (fr7 k h1 h2 h3)
  refine Sim.step ec (by unfold valTab refTab; rw [← htb.scaled_inv_psi_powers_var]; exact mul_reduce_array16_asm_sim hWc (hS _ (by decide)) (hTc _ (by decide))) fun vc m9 ec ne sz => ?_
  have htb := htb.frame hTc ne
  have ea : a ≠ c → m9 a = _ := fun h => (ne a h).trans (ea h)
  have eb : b ≠ c → m9 b = _ := fun h => (ne b h).trans (eb h)
  have fr9 : ∀ k, k ≠ c → k ≠ a → k ≠ b → m9 k = μ k := fun k h1 h2 h3 => (ne k h1).trans (fr8 k h1 h2 h3)
  refine Sim.step ec (reduce_array_twice_asm_sim hWc) fun vc m10 ec ne sz => ?_
  have htb := htb.frame hTc ne
  have ea : a ≠ c → m10 a = _ := fun h => (ne a h).trans (ea h)
  have eb : b ≠ c → m10 b = _ := fun h => (ne b h).trans (eb h)
  have fr10 : ∀ k, k ≠ c → k ≠ a → k ≠ b → m10 k = μ k := fun k h1 h2 h3 => (ne k h1).trans (fr9 k h1 h2 h3)
  refine Sim.step ec (correct_asm_sim hWc) fun vc m11 ec ne sz => ?_
  have htb := htb.frame hTc ne
  have ea : a ≠ c → m11 a = _ := fun h => (ne a h).trans (ea h)
  have eb : b ≠ c → m11 b = _ := fun h => (ne b h).trans (eb h)
  have fr11 : ∀ k, k ≠ c → k ≠ a → k ≠ b → m11 k = μ k := fun k h1 h2 h3 => (ne k h1).trans (fr10 k h1 h2 h3)
  exact Sim.pure ⟨rfl, ec, ea, eb, fr11⟩

theorem product2_sim {t : RedTables} {tb : String → Ref} {a b c : Ref} (hWa : W a) (hWb : W b) (hWc : W c)
    (hS : ∀ x ∈ tableNames, S (tb x)) (hTa : Fresh tb a) (hTb : Fresh tb b) (hTc : Fresh tb c) (hab : a ≠ b)
    {n : Nat} {sh : Bool} (hn : 8 ∣ n) (h0 : 0 < n) {va vb vc : Array Int} (htb : RedTablesAt μ tb t) (ea : μ a = va)
    (eb : μ b = vb) (hvc : vc.size = n) (hc : (μ c).size = n) :
    Sim S W μ (ProductPost μ c a b) (product2 plain valTab t n sh vc va vb)
      (product2 shared (refTab tb) t n sh c a b) := by
  unfold product2
  have fr0 : ∀ k, k ≠ c → k ≠ a → k ≠ b → μ k = μ k := fun _ _ _ _ => rfl
  refine Sim.step ea (shiftInput_sim hWa _ _ _) fun va m1 ea ne sz => ?_
  have htb := htb.frame hTa ne
  have eb := (ne b hab.symm).trans eb
  have hc := (sz c).trans hc
  have fr1 : ∀ k, k ≠ c → k ≠ a → k ≠ b → m1 k = μ k := fun k h1 h2 h3 => (ne k h2).trans (fr0 k h1 h2 h3)
  refine Sim.step ea (by unfold valTab refTab; rw [← htb.psi_powers]; exact mul_reduce_array16_asm_sim hWa (hS _ (by decide)) (hTa _ (by decide))) fun va m2 ea ne sz => ?_
  have htb := htb.frame hTa ne
  have eb := (ne b hab.symm).trans eb
  have hc := (sz c).trans hc
  have fr2 : ∀ k, k ≠ c → k ≠ a → k ≠ b → m2 k = μ k := fun k h1 h2 h3 => (ne k h2).trans (fr1 k h1 h2 h3)
  refine Sim.step ea (fwd_gs_std2rev_sim hWa hS hTa htb _ _) fun va m3 ea ne sz => ?_
  have htb := htb.frame hTa ne
  have eb := (ne b hab.symm).trans eb
  have hc := (sz c).trans hc
  have fr3 : ∀ k, k ≠ c → k ≠ a → k ≠ b → m3 k = μ k := fun k h1 h2 h3 => (ne k h2).trans (fr2 k h1 h2 h3)
  refine Sim.step ea (reduce_array_asm_sim hWa) fun va m4 ea ne sz => ?_
  have htb := htb.frame hTa ne
  have eb := (ne b hab.symm).trans eb
  have hc := (sz c).trans hc
  have fr4 : ∀ k, k ≠ c → k ≠ a → k ≠ b → m4 k = μ k := fun k h1 h2 h3 => (ne k h2).trans (fr3 k h1 h2 h3)
  refine Sim.step eb (shiftInput_sim hWb _ _ _) fun vb m5 eb ne sz => ?_
  have htb := htb.frame hTb ne
  have ea := (ne a hab).trans ea
  have hc := (sz c).trans hc
  have fr5 : ∀ k, k ≠ c → k ≠ a → k ≠ b → m5 k = μ k := fun k h1 h2 h3 => (ne k h3).trans (fr4 k h1 h2 h3)
  refine Sim.step eb (by unfold valTab refTab; rw [← htb.psi_powers]; exact mul_reduce_array16_asm_sim hWb (hS _ (by decide)) (hTb _ (by decide))) fun vb m6 eb ne sz => ?_
  have htb := htb.frame hTb ne
  have ea := (ne a hab).trans ea
  have hc := (sz c).trans hc
  have fr6 : ∀ k, k ≠ c → k ≠ a → k ≠ b → m6 k = μ k := fun k h1 h2 h3 => (ne k h3).trans (fr5 k h1 h2 h3)
  refine Sim.step eb (fwd_gs_std2rev_sim hWb hS hTb htb _ _) fun vb m7 eb ne sz => ?_
  have htb := htb.frame hTb ne
  have ea := (ne a hab).trans ea
  have hc := (sz c).trans hc
  have fr7 : ∀ k, k ≠ c → k ≠ a → k ≠ b → m7 k = μ k := fun k h1 h2 h3 => (ne k h3).trans (fr6 k h1 h2 h3)
  refine Sim.step eb (reduce_array_asm_sim hWb) fun vb m8 eb ne sz => ?_
  have htb := htb.frame hTb ne
  have ea := (ne a hab).trans ea
  have hc := (sz c).trans hc
  have fr8 : ∀ k, k ≠ c → k ≠ a → k ≠ b → m8 k = μ k := fun k h1 h2 h3 => (ne k h3).trans (fr7 k h1 h2 h3)
  refine Sim.stepMul (mul_reduce_array_asm_sim hWa hWb hWc hn h0 ea eb hvc hc) fun vc m9 ec ne sz => ?_
  have htb := htb.frame hTc ne
  have ea : a ≠ c → m9 a = _ := fun h => (ne a h).trans ea
  have eb : b ≠ c → m9 b = _ := fun h => (ne b h).trans eb
  have fr9 : ∀ k, k ≠ c → k ≠ a → k ≠ b → m9 k = μ k := fun k h1 h2 h3 => (ne k h1).trans (fr8 k h1 h2 h3)
  refine Sim.step ec (reduce_array_twice_asm_sim hWc) fun vc m10 ec ne sz => ?_
  have htb := htb.frame hTc ne
  have ea : a ≠ c → m10 a = _ := fun h => (ne a h).trans (ea h)
  have eb : b ≠ c → m10 b = _ := fun h => (ne b h).trans (eb h)
  have fr10 : ∀ k, k ≠ c → k ≠ a → k ≠ b → m10 k = μ k := fun k h1 h2 h3 => (ne k h1).trans (fr9 k h1 h2 h3)
  refine Sim.step ec (intt_ct_rev2std_sim hWc hS hTc htb _ _) fun vc m11 ec ne sz => ?_
  have htb := htb.frame hTc ne
  have ea : a ≠ c → m11 a = _ := fun h => (ne a h).trans (ea h)
  have eb : b ≠ c → m11 b = _ := fun h => (ne b h).trans (eb h)
  have fr11 : ∀ k, k ≠ c → k ≠ a → k ≠ b → m11 k = μ k := fun k h1 h2 h3 => (ne k h1).trans (fr10 k h1 h2 h3)
  refine Sim.step ec (by unfold valTab refTab; rw [← htb.scaled_inv_psi_powers]; exact mul_reduce_array16_asm_sim hWc (hS _ (by decide)) (hTc _ (by decide))) fun vc m12 ec ne sz => ?_
  have htb := htb.frame hTc ne
  have ea : a ≠ c → m12 a = _ := fun h => (ne a h).trans (ea h)
  have eb : b ≠ c → m12 b = _ := fun h => (ne b h).trans (eb h)
  have fr12 : ∀ k, k ≠ c → k ≠ a → k ≠ b → m12 k = μ k := fun k h1 h2 h3 => (ne k h1).trans (fr11 k h1 h2 h3)
  refine Sim.step ec (reduce_array_twice_asm_sim hWc) fun vc m13 ec ne sz => ?_
  have htb := htb.frame hTc ne
  have ea : a ≠ c → m13 a = _ := fun h => (ne a h).trans (ea h)
  have eb : b ≠ c → m13 b = _ := fun h => (ne b h).trans (eb h)
  have fr13 : ∀ k, k ≠ c → k ≠ a → k ≠ b → m13 k = μ k := fun k h1 h2 h3 => (ne k h1).trans (fr12 k h1 h2 h3)
  refine Sim.step ec (correct_asm_sim hWc) fun vc m14 ec ne sz => ?_
  have htb := htb.frame hTc ne
  have ea : a ≠ c → m14 a = _ := fun h => (ne a h).trans (ea h)
  have eb : b ≠ c → m14 b = _ := fun h => (ne b h).trans (eb h)
  have fr14 : ∀ k, k ≠ c → k ≠ a → k ≠ b → m14 k = μ k := fun k h1 h2 h3 => (ne k h1).trans (fr13 k h1 h2 h3)
  exact Sim.pure ⟨rfl, ec, ea, eb, fr14⟩

theorem product3_sim {t : RedTables} {tb : String → Ref} {a b c : Ref} (hWa : W a) (hWb : W b) (hWc : W c)
    (hS : ∀ x ∈ tableNames, S (tb x)) (hTa : Fresh tb a) (hTb : Fresh tb b) (hTc : Fresh tb c) (hab : a ≠ b)
    {n : Nat} {sh : Bool} (hn : 8 ∣ n) (h0 : 0 < n) {va vb vc : Array Int} (htb : RedTablesAt μ tb t) (ea : μ a = va)
    (eb : μ b = vb) (hvc : vc.size = n) (hc : (μ c).size = n) :
    Sim S W μ (ProductPost μ c a b) (product3 plain valTab t n sh vc va vb)
      (product3 shared (refTab tb) t n sh c a b) := by
  unfold product3
  have fr0 : ∀ k, k ≠ c → k ≠ a → k ≠ b → μ k = μ k := fun _ _ _ _ => rfl
  refine Sim.step ea (shiftInput_sim hWa _ _ _) fun va m1 ea ne sz => ?_
  have htb := htb.frame hTa ne
  have eb := (ne b hab.symm).trans eb
  have hc := (sz c).trans hc
  have fr1 : ∀ k, k ≠ c → k ≠ a → k ≠ b → m1 k = μ k := fun k h1 h2 h3 => (ne k h2).trans (fr0 k h1 h2 h3)
  refine Sim.step ea (by unfold valTab refTab; rw [← htb.psi_powers]; exact mul_reduce_array16_asm_sim hWa (hS _ (by decide)) (hTa _ (by decide))) fun va m2 ea ne sz => ?_
  have htb := htb.frame hTa ne
  have eb := (ne b hab.symm).trans eb
  have hc := (sz c).trans hc
  have fr2 : ∀ k, k ≠ c → k ≠ a → k ≠ b → m2 k = μ k := fun k h1 h2 h3 => (ne k h2).trans (fr1 k h1 h2 h3)
  refine Sim.step ea (fwd_ct_std2rev_sim hWa hS hTa htb _ _) fun va m3 ea ne sz => ?_
  have htb := htb.frame hTa ne
  have eb := (ne b hab.symm).trans eb
  have hc := (sz c).trans hc
  have fr3 : ∀ k, k ≠ c → k ≠ a → k ≠ b → m3 k = μ k := fun k h1 h2 h3 => (ne k h2).trans (fr2 k h1 h2 h3)
  refine Sim.step ea (reduce_array_asm_sim hWa) fun va m4 ea ne sz => ?_
  have htb := htb.frame hTa ne
  have eb := (ne b hab.symm).trans eb
  have hc := (sz c).trans hc
  have fr4 : ∀ k, k ≠ c → k ≠ a → k ≠ b → m4 k = μ k := fun k h1 h2 h3 => (ne k h2).trans (fr3 k h1 h2 h3)
  refine Sim.step eb (shiftInput_sim hWb _ _ _) fun vb m5 eb ne sz => ?_
  have htb := htb.frame hTb ne
  have ea := (ne a hab).trans ea
  have hc := (sz c).trans hc
  have fr5 : ∀ k, k ≠ c → k ≠ a → k ≠ b → m5 k = μ k := fun k h1 h2 h3 => (ne k h3).trans (fr4 k h1 h2 h3)
  refine Sim.step eb (by unfold valTab refTab; rw [← htb.psi_powers]; exact mul_reduce_array16_asm_sim hWb (hS _ (by decide)) (hTb _ (by decide))) fun vb m6 eb ne sz => ?_
  have htb := htb.frame hTb ne
  have ea := (ne a hab).trans ea
  have hc := (sz c).trans hc
  have fr6 : ∀ k, k ≠ c → k ≠ a → k ≠ b → m6 k = μ k := fun k h1 h2 h3 => (ne k h3).trans (fr5 k h1 h2 h3)
  refine Sim.step eb (fwd_ct_std2rev_sim hWb hS hTb htb _ _) fun vb m7 eb ne sz => ?_
  have htb := htb.frame hTb ne
  have ea := (ne a hab).trans ea
  have hc := (sz c).trans hc
  have fr7 : ∀ k, k ≠ c → k ≠ a → k ≠ b → m7 k = μ k := fun k h1 h2 h3 => (ne k h3).trans (fr6 k h1 h2 h3)
  refine Sim.step eb (reduce_array_asm_sim hWb) fun vb m8 eb ne sz => ?_
  have htb := htb.frame hTb ne
  have ea := (ne a hab).trans ea
  have hc := (sz c).trans hc
  have fr8 : ∀ k, k ≠ c → k ≠ a → k ≠ b → m8 k = μ k := fun k h1 h2 h3 => (ne k h3).trans (fr7 k h1 h2 h3)
  refine Sim.stepMul (mul_reduce_array_asm_sim hWa hWb hWc hn h0 ea eb hvc hc) fun vc m9 ec ne sz => ?_
  have htb := htb.frame hTc ne
  have ea : a ≠ c → m9 a = _ := fun h => (ne a h).trans ea
  have eb : b ≠ c → m9 b = _ := fun h => (ne b h).trans eb
  have fr9 : ∀ k, k ≠ c → k ≠ a → k ≠ b → m9 k = μ k := fun k h1 h2 h3 => (ne k h1).trans (fr8 k h1 h2 h3)
  refine Sim.step ec (reduce_array_twice_asm_sim hWc) fun vc m10 ec ne sz => ?_
  have htb := htb.frame hTc ne
  have ea : a ≠ c → m10 a = _ := fun h => (ne a h).trans (ea h)
  have eb : b ≠ c → m10 b = _ := fun h => (ne b h).trans (eb h)
  have fr10 : ∀ k, k ≠ c → k ≠ a → k ≠ b → m10 k = μ k := fun k h1 h2 h3 => (ne k h1).trans (fr9 k h1 h2 h3)
  refine Sim.step ec (intt_gs_rev2std_sim hWc hS hTc htb _ _) fun vc m11 ec ne sz => ?_
  have htb := htb.frame hTc ne
  have ea : a ≠ c → m11 a = _ := fun h => (ne a h).trans (ea h)
  have eb : b ≠ c → m11 b = _ := fun h => (ne b h).trans (eb h)
  have fr11 : ∀ k, k ≠ c → k ≠ a → k ≠ b → m11 k = μ k := fun k h1 h2 h3 => (ne k h1).trans (fr10 k h1 h2 h3)
  refine Sim.step ec (by unfold valTab refTab; rw [← htb.scaled_inv_psi_powers]; exact mul_reduce_array16_asm_sim hWc (hS _ (by decide)) (hTc _ (by decide))) fun vc m12 ec ne sz => ?_
  have htb := htb.frame hTc ne
  have ea : a ≠ c → m12 a = _ := fun h => (ne a h).trans (ea h)
  have eb : b ≠ c → m12 b = _ := fun h => (ne b h).trans (eb h)
  have fr12 : ∀ k, k ≠ c → k ≠ a → k ≠ b → m12 k = μ k := fun k h1 h2 h3 => (ne k h1).trans (fr11 k h1 h2 h3)
  refine Sim.step ec (reduce_array_twice_asm_sim hWc) fun vc m13 ec ne sz => ?_
  have htb := htb.frame hTc ne
  have ea : a ≠ c → m13 a = _ := fun h => (ne a h).trans (ea h)
  have eb : b ≠ c → m13 b = _ := fun h => (ne b h).trans (eb h)
  have fr13 : ∀ k, k ≠ c → k ≠ a → k ≠ b → m13 k = μ k := fun k h1 h2 h3 => (ne k h1).trans (fr12 k h1 h2 h3)
  refine Sim.step ec (correct_asm_sim hWc) fun vc m14 ec ne sz => ?_
  have htb := htb.frame hTc ne
  have ea : a ≠ c → m14 a = _ := fun h => (ne a h).trans (ea h)
  have eb : b ≠ c → m14 b = _ := fun h => (ne b h).trans (eb h)
  have fr14 : ∀ k, k ≠ c → k ≠ a → k ≠ b → m14 k = μ k := fun k h1 h2 h3 => (ne k h1).trans (fr13 k h1 h2 h3)
  exact Sim.pure ⟨rfl, ec, ea, eb, fr14⟩

theorem product4_sim {t : RedTables} {tb : String → Ref} {a b c : Ref} (hWa : W a) (hWb : W b) (hWc : W c)
    (hS : ∀ x ∈ tableNames, S (tb x)) (hTa : Fresh tb a) (hTb : Fresh tb b) (hTc : Fresh tb c) (hab : a ≠ b)
    {n : Nat} {sh : Bool} (hn : 8 ∣ n) (h0 : 0 < n) {va vb vc : Array Int} (htb : RedTablesAt μ tb t) (ea : μ a = va)
    (eb : μ b = vb) (hvc : vc.size = n) (hc : (μ c).size = n) :
    Sim S W μ (ProductPost μ c a b) (product4 plain valTab t n sh vc va vb)
      (product4 shared (refTab tb) t n sh c a b) := by
  unfold product4
  have fr0 : ∀ k, k ≠ c → k ≠ a → k ≠ b → μ k = μ k := fun _ _ _ _ => rfl
  refine Sim.step ea (shiftInput_sim hWa _ _ _) fun va m1 ea ne sz => ?_
  have htb := htb.frame hTa ne
  have eb := (ne b hab.symm).trans eb
  have hc := (sz c).trans hc
  have fr1 : ∀ k, k ≠ c → k ≠ a → k ≠ b → m1 k = μ k := fun k h1 h2 h3 => (ne k h2).trans (fr0 k h1 h2 h3)
  refine Sim.step ea (by unfold valTab refTab; rw [← htb.psi_powers]; exact mul_reduce_array16_asm_sim hWa (hS _ (by decide)) (hTa _ (by decide))) fun va m2 ea ne sz => ?_
  have htb := htb.frame hTa ne
  have eb := (ne b hab.symm).trans eb
  have hc := (sz c).trans hc
  have fr2 : ∀ k, k ≠ c → k ≠ a → k ≠ b → m2 k = μ k := fun k h1 h2 h3 => (ne k h2).trans (fr1 k h1 h2 h3)
  refine Sim.step ea (fwd_gs_std2rev_sim hWa hS hTa htb _ _) fun va m3 ea ne sz => ?_
  have htb := htb.frame hTa ne
  have eb := (ne b hab.symm).trans eb
  have hc := (sz c).trans hc
  have fr3 : ∀ k, k ≠ c → k ≠ a → k ≠ b → m3 k = μ k := fun k h1 h2 h3 => (ne k h2).trans (fr2 k h1 h2 h3)
  refine Sim.step ea (reduce_array_asm_sim hWa) fun va m4 ea ne sz => ?_
  have htb := htb.frame hTa ne
  have eb := (ne b hab.symm).trans eb
  have hc := (sz c).trans hc
  have fr4 : ∀ k, k ≠ c → k ≠ a → k ≠ b → m4 k = μ k := fun k h1 h2 h3 => (ne k h2).trans (fr3 k h1 h2 h3)
  refine Sim.step eb (shiftInput_sim hWb _ _ _) fun vb m5 eb ne sz => ?_
  have htb := htb.frame hTb ne
  have ea := (ne a hab).trans ea
  have hc := (sz c).trans hc
  have fr5 : ∀ k, k ≠ c → k ≠ a → k ≠ b → m5 k = μ k := fun k h1 h2 h3 => (ne k h3).trans (fr4 k h1 h2 h3)
  refine Sim.step eb (by unfold valTab refTab; rw [← htb.psi_powers]; exact mul_reduce_array16_asm_sim hWb (hS _ (by decide)) (hTb _ (by decide))) fun vb m6 eb ne sz => ?_
  have htb := htb.frame hTb ne
  have ea := (ne a hab).trans ea
  have hc := (sz c).trans hc
  have fr6 : ∀ k, k ≠ c → k ≠ a → k ≠ b → m6 k = μ k := fun k h1 h2 h3 => (ne k h3).trans (fr5 k h1 h2 h3)
  refine Sim.step eb (fwd_gs_std2rev_sim hWb hS hTb htb _ _) fun vb m7 eb ne sz => ?_
  have htb := htb.frame hTb ne
  have ea := (ne a hab).trans ea
  have hc := (sz c).trans hc
  have fr7 : ∀ k, k ≠ c → k ≠ a → k ≠ b → m7 k = μ k := fun k h1 h2 h3 => (ne k h3).trans (fr6 k h1 h2 h3)
  refine Sim.step eb (reduce_array_asm_sim hWb) fun vb m8 eb ne sz => ?_
  have htb := htb.frame hTb ne
  have ea := (ne a hab).trans ea
  have hc := (sz c).trans hc
  have fr8 : ∀ k, k ≠ c → k ≠ a → k ≠ b → m8 k = μ k := fun k h1 h2 h3 => (ne k h3).trans (fr7 k h1 h2 h3)
  refine Sim.stepMul (mul_reduce_array_asm_sim hWa hWb hWc hn h0 ea eb hvc hc) fun vc m9 ec ne sz => ?_
  have htb := htb.frame hTc ne
  have ea : a ≠ c → m9 a = _ := fun h => (ne a h).trans ea
  have eb : b ≠ c → m9 b = _ := fun h => (ne b h).trans eb
  have fr9 : ∀ k, k ≠ c → k ≠ a → k ≠ b → m9 k = μ k := fun k h1 h2 h3 => (ne k h1).trans (fr8 k h1 h2 h3)
  refine Sim.step ec (reduce_array_twice_asm_sim hWc) fun vc m10 ec ne sz => ?_
  have htb := htb.frame hTc ne
  have ea : a ≠ c → m10 a = _ := fun h => (ne a h).trans (ea h)
  have eb : b ≠ c → m10 b = _ := fun h => (ne b h).trans (eb h)
  have fr10 : ∀ k, k ≠ c → k ≠ a → k ≠ b → m10 k = μ k := fun k h1 h2 h3 => (ne k h1).trans (fr9 k h1 h2 h3)
  refine Sim.step ec (intt_gs_rev2std_sim hWc hS hTc htb _ _) fun vc m11 ec ne sz => ?_
  have htb := htb.frame hTc ne
  have ea : a ≠ c → m11 a = _ := fun h => (ne a h).trans (ea h)
  have eb : b ≠ c → m11 b = _ := fun h => (ne b h).trans (eb h)
  have fr11 : ∀ k, k ≠ c → k ≠ a → k ≠ b → m11 k = μ k := fun k h1 h2 h3 => (ne k h1).trans (fr10 k h1 h2 h3)
  refine Sim.step ec (by unfold valTab refTab; rw [← htb.scaled_inv_psi_powers]; exact mul_reduce_array16_asm_sim hWc (hS _ (by decide)) (hTc _ (by decide))) fun vc m12 ec ne sz => ?_
  have htb := htb.frame hTc ne
  have ea : a ≠ c → m12 a = _ := fun h => (ne a h).trans (ea h)
  have eb : b ≠ c → m12 b = _ := fun h => (ne b h).trans (eb h)
  have fr12 : ∀ k, k ≠ c → k ≠ a → k ≠ b → m12 k = μ k := fun k h1 h2 h3 => (ne k h1).trans (fr11 k h1 h2 h3)
  refine Sim.step ec (reduce_array_twice_asm_sim hWc) fun vc m13 ec ne sz => ?_
  have htb := htb.frame hTc ne
  have ea : a ≠ c → m13 a = _ := fun h => (ne a h).trans (ea h)
  have eb : b ≠ c → m13 b = _ := fun h => (ne b h).trans (eb h)
  have fr13 : ∀ k, k ≠ c → k ≠ a → k ≠ b → m13 k = μ k := fun k h1 h2 h3 => (ne k h1).trans (fr12 k h1 h2 h3)
  refine Sim.step ec (correct_asm_sim hWc) fun vc m14 ec ne sz => ?_
  have htb := htb.frame hTc ne
  have ea : a ≠ c → m14 a = _ := fun h => (ne a h).trans (ea h)
  have eb : b ≠ c → m14 b = _ := fun h => (ne b h).trans (eb h)
  have fr14 : ∀ k, k ≠ c → k ≠ a → k ≠ b → m14 k = μ k := fun k h1 h2 h3 => (ne k h1).trans (fr13 k h1 h2 h3)
  exact Sim.pure ⟨rfl, ec, ea, eb, fr14⟩

theorem product5_sim {t : RedTables} {tb : String → Ref} {a b c : Ref} (hWa : W a) (hWb : W b) (hWc : W c)
    (hS : ∀ x ∈ tableNames, S (tb x)) (hTa : Fresh tb a) (hTb : Fresh tb b) (hTc : Fresh tb c) (hab : a ≠ b)
    {n : Nat} {up : Int} {sh : Bool} (hn : 8 ∣ n) (h0 : 0 < n) {va vb vc : Array Int} (htb : RedTablesAt μ tb t) (ea : μ a = va)
    (eb : μ b = vb) (hvc : vc.size = n) (hc : (μ c).size = n) :
    Sim S W μ (ProductPost μ c a b) (product5 plain valTab t n up sh vc va vb)
      (product5 shared (refTab tb) t n up sh c a b) := by
  unfold product5
  have fr0 : ∀ k, k ≠ c → k ≠ a → k ≠ b → μ k = μ k := fun _ _ _ _ => rfl
  refine Sim.step ea (shiftInput_sim hWa _ _ _) fun va m1 ea ne sz => ?_
  have htb := htb.frame hTa ne
  have eb := (ne b hab.symm).trans eb
  have hc := (sz c).trans hc
  have fr1 : ∀ k, k ≠ c → k ≠ a → k ≠ b → m1 k = μ k := fun k h1 h2 h3 => (ne k h2).trans (fr0 k h1 h2 h3)
  refine Sim.step ea (fwdmul_ct_std2rev_sim hWa hS hTa htb _ _) fun va m2 ea ne sz => ?_
  have htb := htb.frame hTa ne
  have eb := (ne b hab.symm).trans eb
  have hc := (sz c).trans hc
  have fr2 : ∀ k, k ≠ c → k ≠ a → k ≠ b → m2 k = μ k := fun k h1 h2 h3 => (ne k h2).trans (fr1 k h1 h2 h3)
  refine Sim.step ea (reduce_array_asm_sim hWa) fun va m3 ea ne sz => ?_
  have htb := htb.frame hTa ne
  have eb := (ne b hab.symm).trans eb
  have hc := (sz c).trans hc
  have fr3 : ∀ k, k ≠ c → k ≠ a → k ≠ b → m3 k = μ k := fun k h1 h2 h3 => (ne k h2).trans (fr2 k h1 h2 h3)
  refine Sim.step eb (shiftInput_sim hWb _ _ _) fun vb m4 eb ne sz => ?_
  have htb := htb.frame hTb ne
  have ea := (ne a hab).trans ea
  have hc := (sz c).trans hc
  have fr4 : ∀ k, k ≠ c → k ≠ a → k ≠ b → m4 k = μ k := fun k h1 h2 h3 => (ne k h3).trans (fr3 k h1 h2 h3)
  refine Sim.step eb (fwdmul_ct_std2rev_sim hWb hS hTb htb _ _) fun vb m5 eb ne sz => ?_
  have htb := htb.frame hTb ne
  have ea := (ne a hab).trans ea
  have hc := (sz c).trans hc
  have fr5 : ∀ k, k ≠ c → k ≠ a → k ≠ b → m5 k = μ k := fun k h1 h2 h3 => (ne k h3).trans (fr4 k h1 h2 h3)
  refine Sim.step eb (reduce_array_asm_sim hWb) fun vb m6 eb ne sz => ?_
  have htb := htb.frame hTb ne
  have ea := (ne a hab).trans ea
  have hc := (sz c).trans hc
  have fr6 : ∀ k, k ≠ c → k ≠ a → k ≠ b → m6 k = μ k := fun k h1 h2 h3 => (ne k h3).trans (fr5 k h1 h2 h3)
  refine Sim.stepMul (mul_reduce_array_asm_sim hWa hWb hWc hn h0 ea eb hvc hc) fun vc m7 ec ne sz => ?_
  have htb := htb.frame hTc ne
  have ea : a ≠ c → m7 a = _ := fun h => (ne a h).trans ea
  have eb : b ≠ c → m7 b = _ := fun h => (ne b h).trans eb
  have fr7 : ∀ k, k ≠ c → k ≠ a → k ≠ b → m7 k = μ k := fun k h1 h2 h3 => (ne k h1).trans (fr6 k h1 h2 h3)
  refine Sim.step ec (reduce_array_twice_asm_sim hWc) fun vc m8 ec ne sz => ?_
  have htb := htb.frame hTc ne
  have ea : a ≠ c → m8 a = _ := fun h => (ne a h).trans (ea h)
  have eb : b ≠ c → m8 b = _ := fun h => (ne b h).trans (eb h)
  have fr8 : ∀ k, k ≠ c → k ≠ a → k ≠ b → m8 k = μ k := fun k h1 h2 h3 => (ne k h1).trans (fr7 k h1 h2 h3)
  refine Sim.step ec (inttmul_gs_rev2std_sim hWc hS hTc htb _ _) fun vc m9 ec ne sz => ?_
  have htb := htb.frame hTc ne
  have ea : a ≠ c → m9 a = _ := fun h => (ne a h).trans (ea h)
  have eb : b ≠ c → m9 b = _ := fun h => (ne b h).trans (eb h)
  have fr9 : ∀ k, k ≠ c → k ≠ a → k ≠ b → m9 k = μ k := fun k h1 h2 h3 => (ne k h1).trans (fr8 k h1 h2 h3)
  refine Sim.step ec (scalar_mul_reduce_array_asm_sim hWc) fun vc m10 ec ne sz => ?_
  have htb := htb.frame hTc ne
  have ea : a ≠ c → m10 a = _ := fun h => (ne a h).trans (ea h)
  have eb : b ≠ c → m10 b = _ := fun h => (ne b h).trans (eb h)
  have fr10 : ∀ k, k ≠ c → k ≠ a → k ≠ b → m10 k = μ k := fun k h1 h2 h3 => (ne k h1).trans (fr9 k h1 h2 h3)
  refine Sim.step ec (reduce_array_twice_asm_sim hWc) fun vc m11 ec ne sz => ?_
  have htb := htb.frame hTc ne
  have ea : a ≠ c → m11 a = _ := fun h => (ne a h).trans (ea h)
  have eb : b ≠ c → m11 b = _ := fun h => (ne b h).trans (eb h)
  have fr11 : ∀ k, k ≠ c → k ≠ a → k ≠ b → m11 k = μ k := fun k h1 h2 h3 => (ne k h1).trans (fr10 k h1 h2 h3)
  refine Sim.step ec (correct_asm_sim hWc) fun vc m12 ec ne sz => ?_
  have htb := htb.frame hTc ne
  have ea : a ≠ c → m12 a = _ := fun h => (ne a h).trans (ea h)
  have eb : b ≠ c → m12 b = _ := fun h => (ne b h).trans (eb h)
  have fr12 : ∀ k, k ≠ c → k ≠ a → k ≠ b → m12 k = μ k := fun k h1 h2 h3 => (ne k h1).trans (fr11 k h1 h2 h3)
  exact Sim.pure ⟨rfl, ec, ea, eb, fr12⟩

end Shared.Asm
