import Verif.Proofs.AsmBasic

/-
The effect of each AVX2 instruction on explicit lanes, and the tactic `lanes`, which computes the
lanes of a sequence of instructions.  Written by tools/genlanes.py.
-/

namespace Asm
open Avx C

theorem fold_mr (x w : Int) :
    sub32 (add32 (land32 (mulLo x w) 4095) (sll32 (land32 (mulLo x w) 4095) 1))
      (srlLo (mulLo x w) (mulHi x w) 12) = mr x w := mrRaw_eq x w

theorem L_ofFn (f : Nat → Int) : V8.ofFn f = ⟨f 0, f 1, f 2, f 3, f 4, f 5, f 6, f 7⟩ :=
  Eq.trans rfl rfl

theorem L_splat (x : Int) : V8.splat x = ⟨x, x, x, x, x, x, x, x⟩ := Eq.trans rfl rfl

theorem L_mask : mask = ⟨4095, 4095, 4095, 4095, 4095, 4095, 4095, 4095⟩ := Eq.trans rfl rfl

theorem L_wide (f : Nat → Int) : wide f =
    ⟨f 0, sxHi (f 0), f 1, sxHi (f 1), f 2, sxHi (f 2), f 3, sxHi (f 3)⟩ := Eq.trans rfl rfl

theorem L_vpaddd (a0 a1 a2 a3 a4 a5 a6 a7 b0 b1 b2 b3 b4 b5 b6 b7 : Int) :
    vpaddd ⟨a0, a1, a2, a3, a4, a5, a6, a7⟩ ⟨b0, b1, b2, b3, b4, b5, b6, b7⟩ =
      ⟨add32 a0 b0, add32 a1 b1, add32 a2 b2, add32 a3 b3, add32 a4 b4, add32 a5 b5, add32 a6 b6, add32 a7 b7⟩ := Eq.trans rfl rfl

theorem L_vpsubd (a0 a1 a2 a3 a4 a5 a6 a7 b0 b1 b2 b3 b4 b5 b6 b7 : Int) :
    vpsubd ⟨a0, a1, a2, a3, a4, a5, a6, a7⟩ ⟨b0, b1, b2, b3, b4, b5, b6, b7⟩ =
      ⟨sub32 a0 b0, sub32 a1 b1, sub32 a2 b2, sub32 a3 b3, sub32 a4 b4, sub32 a5 b5, sub32 a6 b6, sub32 a7 b7⟩ := Eq.trans rfl rfl

theorem L_vpand (a0 a1 a2 a3 a4 a5 a6 a7 b0 b1 b2 b3 b4 b5 b6 b7 : Int) :
    vpand ⟨a0, a1, a2, a3, a4, a5, a6, a7⟩ ⟨b0, b1, b2, b3, b4, b5, b6, b7⟩ =
      ⟨land32 a0 b0, land32 a1 b1, land32 a2 b2, land32 a3 b3, land32 a4 b4, land32 a5 b5, land32 a6 b6, land32 a7 b7⟩ := Eq.trans rfl rfl

theorem L_vpcmpgtd (a0 a1 a2 a3 a4 a5 a6 a7 b0 b1 b2 b3 b4 b5 b6 b7 : Int) :
    vpcmpgtd ⟨a0, a1, a2, a3, a4, a5, a6, a7⟩ ⟨b0, b1, b2, b3, b4, b5, b6, b7⟩ =
      ⟨if a0 > b0 then -1 else 0, if a1 > b1 then -1 else 0, if a2 > b2 then -1 else 0, if a3 > b3 then -1 else 0, if a4 > b4 then -1 else 0, if a5 > b5 then -1 else 0, if a6 > b6 then -1 else 0, if a7 > b7 then -1 else 0⟩ := Eq.trans rfl rfl

theorem L_vpslld (a0 a1 a2 a3 a4 a5 a6 a7 : Int) (k : Nat) :
    vpslld ⟨a0, a1, a2, a3, a4, a5, a6, a7⟩ k =
      ⟨sll32 a0 k, sll32 a1 k, sll32 a2 k, sll32 a3 k, sll32 a4 k, sll32 a5 k, sll32 a6 k, sll32 a7 k⟩ := Eq.trans rfl rfl

theorem L_vpsrad (a0 a1 a2 a3 a4 a5 a6 a7 : Int) (k : Nat) :
    vpsrad ⟨a0, a1, a2, a3, a4, a5, a6, a7⟩ k =
      ⟨sar a0 k, sar a1 k, sar a2 k, sar a3 k, sar a4 k, sar a5 k, sar a6 k, sar a7 k⟩ := Eq.trans rfl rfl

theorem L_vpmuldq (a0 a1 a2 a3 a4 a5 a6 a7 b0 b1 b2 b3 b4 b5 b6 b7 : Int) :
    vpmuldq ⟨a0, a1, a2, a3, a4, a5, a6, a7⟩ ⟨b0, b1, b2, b3, b4, b5, b6, b7⟩ =
      ⟨mulLo a0 b0, mulHi a0 b0, mulLo a2 b2, mulHi a2 b2, mulLo a4 b4, mulHi a4 b4, mulLo a6 b6, mulHi a6 b6⟩ := Eq.trans rfl rfl

theorem L_vpsrlq (a0 a1 a2 a3 a4 a5 a6 a7 : Int) (k : Nat) :
    vpsrlq ⟨a0, a1, a2, a3, a4, a5, a6, a7⟩ k =
      ⟨srlLo a0 a1 k, srlHi a0 a1 k, srlLo a2 a3 k, srlHi a2 a3 k, srlLo a4 a5 k, srlHi a4 a5 k, srlLo a6 a7 k, srlHi a6 a7 k⟩ := by simp [vpsrlq, V8.ofFn, V8.get]

theorem L_vpslldq_4 (a0 a1 a2 a3 a4 a5 a6 a7 : Int) :
    vpslldq ⟨a0, a1, a2, a3, a4, a5, a6, a7⟩ 4 =
      ⟨0, a0, a1, a2, 0, a4, a5, a6⟩ := Eq.trans rfl rfl

theorem L_vpsrldq_4 (a0 a1 a2 a3 a4 a5 a6 a7 : Int) :
    vpsrldq ⟨a0, a1, a2, a3, a4, a5, a6, a7⟩ 4 =
      ⟨a1, a2, a3, 0, a5, a6, a7, 0⟩ := Eq.trans rfl rfl

theorem L_vpsrldq_12 (a0 a1 a2 a3 a4 a5 a6 a7 : Int) :
    vpsrldq ⟨a0, a1, a2, a3, a4, a5, a6, a7⟩ 12 =
      ⟨a3, 0, 0, 0, a7, 0, 0, 0⟩ := Eq.trans rfl rfl

theorem L_vpshufd_31 (a0 a1 a2 a3 a4 a5 a6 a7 : Int) :
    vpshufd ⟨a0, a1, a2, a3, a4, a5, a6, a7⟩ 0x31 =
      ⟨a1, a0, a3, a0, a5, a4, a7, a4⟩ := Eq.trans rfl rfl

theorem L_vpblendd_55 (a0 a1 a2 a3 a4 a5 a6 a7 b0 b1 b2 b3 b4 b5 b6 b7 : Int) :
    vpblendd ⟨a0, a1, a2, a3, a4, a5, a6, a7⟩ ⟨b0, b1, b2, b3, b4, b5, b6, b7⟩ 0x55 =
      ⟨b0, a1, b2, a3, b4, a5, b6, a7⟩ := Eq.trans rfl rfl

theorem L_vpblendd_aa (a0 a1 a2 a3 a4 a5 a6 a7 b0 b1 b2 b3 b4 b5 b6 b7 : Int) :
    vpblendd ⟨a0, a1, a2, a3, a4, a5, a6, a7⟩ ⟨b0, b1, b2, b3, b4, b5, b6, b7⟩ 0xaa =
      ⟨a0, b1, a2, b3, a4, b5, a6, b7⟩ := Eq.trans rfl rfl

theorem L_vshufps_44 (a0 a1 a2 a3 a4 a5 a6 a7 b0 b1 b2 b3 b4 b5 b6 b7 : Int) :
    vshufps ⟨a0, a1, a2, a3, a4, a5, a6, a7⟩ ⟨b0, b1, b2, b3, b4, b5, b6, b7⟩ 0x44 =
      ⟨a0, a1, b0, b1, a4, a5, b4, b5⟩ := Eq.trans rfl rfl

theorem L_vshufps_88 (a0 a1 a2 a3 a4 a5 a6 a7 b0 b1 b2 b3 b4 b5 b6 b7 : Int) :
    vshufps ⟨a0, a1, a2, a3, a4, a5, a6, a7⟩ ⟨b0, b1, b2, b3, b4, b5, b6, b7⟩ 0x88 =
      ⟨a0, a2, b0, b2, a4, a6, b4, b6⟩ := Eq.trans rfl rfl

theorem L_vshufps_ee (a0 a1 a2 a3 a4 a5 a6 a7 b0 b1 b2 b3 b4 b5 b6 b7 : Int) :
    vshufps ⟨a0, a1, a2, a3, a4, a5, a6, a7⟩ ⟨b0, b1, b2, b3, b4, b5, b6, b7⟩ 0xee =
      ⟨a2, a3, b2, b3, a6, a7, b6, b7⟩ := Eq.trans rfl rfl

theorem L_vshufpd_0 (a0 a1 a2 a3 a4 a5 a6 a7 b0 b1 b2 b3 b4 b5 b6 b7 : Int) :
    vshufpd ⟨a0, a1, a2, a3, a4, a5, a6, a7⟩ ⟨b0, b1, b2, b3, b4, b5, b6, b7⟩ 0x00 =
      ⟨a0, a1, b0, b1, a4, a5, b4, b5⟩ := Eq.trans rfl rfl

theorem L_vshufpd_f (a0 a1 a2 a3 a4 a5 a6 a7 b0 b1 b2 b3 b4 b5 b6 b7 : Int) :
    vshufpd ⟨a0, a1, a2, a3, a4, a5, a6, a7⟩ ⟨b0, b1, b2, b3, b4, b5, b6, b7⟩ 0x0f =
      ⟨a2, a3, b2, b3, a6, a7, b6, b7⟩ := Eq.trans rfl rfl

theorem L_vperm2i128_11 (a0 a1 a2 a3 a4 a5 a6 a7 b0 b1 b2 b3 b4 b5 b6 b7 : Int) :
    vperm2i128 ⟨a0, a1, a2, a3, a4, a5, a6, a7⟩ ⟨b0, b1, b2, b3, b4, b5, b6, b7⟩ 0x11 =
      ⟨a4, a5, a6, a7, a4, a5, a6, a7⟩ := Eq.trans rfl rfl

theorem L_vperm2i128_20 (a0 a1 a2 a3 a4 a5 a6 a7 b0 b1 b2 b3 b4 b5 b6 b7 : Int) :
    vperm2i128 ⟨a0, a1, a2, a3, a4, a5, a6, a7⟩ ⟨b0, b1, b2, b3, b4, b5, b6, b7⟩ 0x20 =
      ⟨a0, a1, a2, a3, b0, b1, b2, b3⟩ := Eq.trans rfl rfl

theorem L_vperm2i128_31 (a0 a1 a2 a3 a4 a5 a6 a7 b0 b1 b2 b3 b4 b5 b6 b7 : Int) :
    vperm2i128 ⟨a0, a1, a2, a3, a4, a5, a6, a7⟩ ⟨b0, b1, b2, b3, b4, b5, b6, b7⟩ 0x31 =
      ⟨a4, a5, a6, a7, b4, b5, b6, b7⟩ := Eq.trans rfl rfl

theorem L_perm0246 (a0 a1 a2 a3 a4 a5 a6 a7 : Int) :
    vpermd perm0246 ⟨a0, a1, a2, a3, a4, a5, a6, a7⟩ =
      ⟨a0, a2, a4, a6, a0, a0, a0, a0⟩ := Eq.trans rfl rfl

theorem L_perm5 (a0 a1 a2 a3 a4 a5 a6 a7 : Int) :
    vpermd perm5 ⟨a0, a1, a2, a3, a4, a5, a6, a7⟩ =
      ⟨a4, a0, a5, a0, a6, a0, a7, a0⟩ := Eq.trans rfl rfl

theorem L_perm4 (a0 a1 a2 a3 a4 a5 a6 a7 : Int) :
    vpermd perm4 ⟨a0, a1, a2, a3, a4, a5, a6, a7⟩ =
      ⟨a2, a0, a3, a0, a2, a0, a3, a0⟩ := Eq.trans rfl rfl

theorem L_perm3 (a0 a1 a2 a3 a4 a5 a6 a7 : Int) :
    vpermd perm3 ⟨a0, a1, a2, a3, a4, a5, a6, a7⟩ =
      ⟨a1, a0, a1, a0, a1, a0, a1, a0⟩ := Eq.trans rfl rfl

theorem L_perm2020 (a0 a1 a2 a3 a4 a5 a6 a7 : Int) :
    vpermd perm2020 ⟨a0, a1, a2, a3, a4, a5, a6, a7⟩ =
      ⟨a0, a0, a0, a0, a2, a0, a2, a0⟩ := Eq.trans rfl rfl

theorem L_perm0426 (a0 a1 a2 a3 a4 a5 a6 a7 : Int) :
    vpermd perm0426 ⟨a0, a1, a2, a3, a4, a5, a6, a7⟩ =
      ⟨a0, a0, a4, a0, a2, a0, a6, a0⟩ := Eq.trans rfl rfl

theorem L_perm04152637 (a0 a1 a2 a3 a4 a5 a6 a7 : Int) :
    vpermd perm04152637 ⟨a0, a1, a2, a3, a4, a5, a6, a7⟩ =
      ⟨a0, a4, a1, a5, a2, a6, a3, a7⟩ := Eq.trans rfl rfl

theorem L_perm5070 (a0 a1 a2 a3 a4 a5 a6 a7 : Int) :
    vpermd perm5070 ⟨a0, a1, a2, a3, a4, a5, a6, a7⟩ =
      ⟨a5, a0, a7, a0, a5, a0, a7, a0⟩ := Eq.trans rfl rfl

theorem L_perm4060 (a0 a1 a2 a3 a4 a5 a6 a7 : Int) :
    vpermd perm4060 ⟨a0, a1, a2, a3, a4, a5, a6, a7⟩ =
      ⟨a4, a0, a6, a0, a4, a0, a6, a0⟩ := Eq.trans rfl rfl

theorem L_perm_bdcst1 (a0 a1 a2 a3 a4 a5 a6 a7 : Int) :
    vpermd perm_bdcst1 ⟨a0, a1, a2, a3, a4, a5, a6, a7⟩ =
      ⟨a1, a0, a1, a0, a1, a0, a1, a0⟩ := Eq.trans rfl rfl

theorem L_perm_bdcst2 (a0 a1 a2 a3 a4 a5 a6 a7 : Int) :
    vpermd perm_bdcst2 ⟨a0, a1, a2, a3, a4, a5, a6, a7⟩ =
      ⟨a2, a0, a2, a0, a2, a0, a2, a0⟩ := Eq.trans rfl rfl

theorem L_perm_bdcst3 (a0 a1 a2 a3 a4 a5 a6 a7 : Int) :
    vpermd perm_bdcst3 ⟨a0, a1, a2, a3, a4, a5, a6, a7⟩ =
      ⟨a3, a0, a3, a0, a3, a0, a3, a0⟩ := Eq.trans rfl rfl

theorem L_vpbroadcastq (a0 a1 a2 a3 a4 a5 a6 a7 : Int) :
    vpbroadcastq ⟨a0, a1, a2, a3, a4, a5, a6, a7⟩ =
      ⟨a0, a1, a0, a1, a0, a1, a0, a1⟩ := Eq.trans rfl rfl

/-- Compute lanes. -/
syntax "lanes" "[" Lean.Parser.Tactic.simpLemma,* "]" : tactic

macro_rules
  | `(tactic| lanes [$ls,*]) => `(tactic| simp only [fold_mr,
    Nat.reduceMod, Nat.reduceDiv, Nat.reduceAdd, Nat.reduceSub, Nat.reduceMul, OfNat.ofNat_ne_zero,
    OfNat.zero_ne_ofNat, OfNat.one_ne_ofNat, OfNat.ofNat_ne_one, one_ne_zero, zero_ne_one,
    Nat.zero_mod, Nat.zero_div, Nat.add_zero, Nat.zero_add, if_true, if_false, reduceIte,
    L_ofFn, L_splat, L_mask, L_wide, L_vpaddd,
    L_vpsubd, L_vpand, L_vpcmpgtd, L_vpslld, L_vpsrad,
    L_vpmuldq, L_vpsrlq, L_vpslldq_4, L_vpsrldq_4, L_vpsrldq_12,
    L_vpshufd_31, L_vpblendd_55, L_vpblendd_aa, L_vshufps_44, L_vshufps_88,
    L_vshufps_ee, L_vshufpd_0, L_vshufpd_f, L_vperm2i128_11, L_vperm2i128_20,
    L_vperm2i128_31, L_perm0246, L_perm5, L_perm4, L_perm3,
    L_perm2020, L_perm0426, L_perm04152637, L_perm5070, L_perm4060,
    L_perm_bdcst1, L_perm_bdcst2, L_perm_bdcst3, L_vpbroadcastq, $ls,*])

end Asm
