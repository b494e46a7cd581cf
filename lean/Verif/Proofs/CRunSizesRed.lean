import Verif.Proofs.CRunProdRed
import Verif.SpecSourceNames
import Verif.Model.Src.NttRed16
import Verif.Model.Src.NttRed256
import Verif.Model.Src.NttRed512
import Verif.Model.Src.NttRed1024

/-
The functions of src/ntt_red<n>.{h,c} for the four sizes: the texts contain the functions of the headers and the products.
-/

namespace CLang.RedProd

abbrev sig : List (Name × PTy) := [(n!"c", .ptr 1), (n!"a", .ptr 1), (n!"b", .ptr 1)]

/-- The program made of src/ntt_red.c, src/ntt_red16.h and src/ntt_red16.c. -/
def prog16 : Prog := Src.ntt_red ++ (Src.ntt_red16_h ++ (Src.ntt_red16_c ++ []))

theorem prog16_read : readAll [Src.ntt_red_text, Src.ntt_red16_h_text, Src.ntt_red16_c_text] = some prog16 := by
  simp only [readAll, Src.ntt_red_read, Src.ntt_red16_h_read, Src.ntt_red16_c_read, Option.bind_eq_bind, Option.bind_some]
  rfl

def wraps16 : Wraps :=
  ⟨n!"ntt_red16_ct_rev2std",
   n!"ntt_red16_gs_rev2std",
   n!"ntt_red16_ct_std2rev",
   n!"ntt_red16_gs_std2rev",
   n!"intt_red16_ct_rev2std",
   n!"intt_red16_gs_rev2std",
   n!"intt_red16_ct_std2rev",
   n!"intt_red16_gs_std2rev",
   n!"mulntt_red16_ct_rev2std",
   n!"mulntt_red16_ct_std2rev",
   n!"inttmul_red16_gs_rev2std",
   n!"inttmul_red16_gs_std2rev"⟩

theorem ctx16 : Ctx prog16 redNames16 wraps16 16 where
  has := Has.of_all (by decide +kernel)
  le := by decide
  fresh_psi_powers := by decide
  fresh_scaled_inv_psi_powers := by decide
  fresh_omega_powers := by decide
  fresh_omega_powers_rev := by decide
  fresh_inv_omega_powers := by decide
  fresh_inv_omega_powers_rev := by decide
  fresh_mixed_powers := by decide
  fresh_mixed_powers_rev := by decide
  fresh_inv_mixed_powers := by decide
  fresh_inv_mixed_powers_rev := by decide
  fresh_scalar := by decide
  fwd_ct_rev2std := by decide +kernel
  fwd_gs_rev2std := by decide +kernel
  fwd_ct_std2rev := by decide +kernel
  fwd_gs_std2rev := by decide +kernel
  intt_ct_rev2std := by decide +kernel
  intt_gs_rev2std := by decide +kernel
  intt_ct_std2rev := by decide +kernel
  intt_gs_std2rev := by decide +kernel
  fwdmul_ct_rev2std := by decide +kernel
  fwdmul_ct_std2rev := by decide +kernel
  inttmul_gs_rev2std := by decide +kernel
  inttmul_gs_std2rev := by decide +kernel

theorem product1_16 : prog16.lookup n!"ntt_red16_product1" = some ⟨none, sig, body1 redNames16 wraps16 16 true⟩ := by
  decide +kernel
theorem product2_16 : prog16.lookup n!"ntt_red16_product2" = some ⟨none, sig, body2 redNames16 wraps16 16 true⟩ := by
  decide +kernel
theorem product3_16 : prog16.lookup n!"ntt_red16_product3" = some ⟨none, sig, body3 redNames16 wraps16 16 true⟩ := by
  decide +kernel
theorem product4_16 : prog16.lookup n!"ntt_red16_product4" = some ⟨none, sig, body4 redNames16 wraps16 16 true⟩ := by
  decide +kernel
theorem product5_16 : prog16.lookup n!"ntt_red16_product5" = some ⟨none, sig, body5 redNames16 wraps16 16 true⟩ := by
  decide +kernel

/-- The program made of src/ntt_red.c, src/ntt_red256.h and src/ntt_red256.c. -/
def prog256 : Prog := Src.ntt_red ++ (Src.ntt_red256_h ++ (Src.ntt_red256_c ++ []))

theorem prog256_read : readAll [Src.ntt_red_text, Src.ntt_red256_h_text, Src.ntt_red256_c_text] = some prog256 := by
  simp only [readAll, Src.ntt_red_read, Src.ntt_red256_h_read, Src.ntt_red256_c_read, Option.bind_eq_bind, Option.bind_some]
  rfl

def wraps256 : Wraps :=
  ⟨n!"ntt_red256_ct_rev2std",
   n!"ntt_red256_gs_rev2std",
   n!"ntt_red256_ct_std2rev",
   n!"ntt_red256_gs_std2rev",
   n!"intt_red256_ct_rev2std",
   n!"intt_red256_gs_rev2std",
   n!"intt_red256_ct_std2rev",
   n!"intt_red256_gs_std2rev",
   n!"mulntt_red256_ct_rev2std",
   n!"mulntt_red256_ct_std2rev",
   n!"inttmul_red256_gs_rev2std",
   n!"inttmul_red256_gs_std2rev"⟩

theorem ctx256 : Ctx prog256 redNames256 wraps256 256 where
  has := Has.of_all (by decide +kernel)
  le := by decide
  fresh_psi_powers := by decide
  fresh_scaled_inv_psi_powers := by decide
  fresh_omega_powers := by decide
  fresh_omega_powers_rev := by decide
  fresh_inv_omega_powers := by decide
  fresh_inv_omega_powers_rev := by decide
  fresh_mixed_powers := by decide
  fresh_mixed_powers_rev := by decide
  fresh_inv_mixed_powers := by decide
  fresh_inv_mixed_powers_rev := by decide
  fresh_scalar := by decide
  fwd_ct_rev2std := by decide +kernel
  fwd_gs_rev2std := by decide +kernel
  fwd_ct_std2rev := by decide +kernel
  fwd_gs_std2rev := by decide +kernel
  intt_ct_rev2std := by decide +kernel
  intt_gs_rev2std := by decide +kernel
  intt_ct_std2rev := by decide +kernel
  intt_gs_std2rev := by decide +kernel
  fwdmul_ct_rev2std := by decide +kernel
  fwdmul_ct_std2rev := by decide +kernel
  inttmul_gs_rev2std := by decide +kernel
  inttmul_gs_std2rev := by decide +kernel

theorem product1_256 : prog256.lookup n!"ntt_red256_product1" = some ⟨none, sig, body1 redNames256 wraps256 256 true⟩ := by
  decide +kernel
theorem product2_256 : prog256.lookup n!"ntt_red256_product2" = some ⟨none, sig, body2 redNames256 wraps256 256 true⟩ := by
  decide +kernel
theorem product3_256 : prog256.lookup n!"ntt_red256_product3" = some ⟨none, sig, body3 redNames256 wraps256 256 true⟩ := by
  decide +kernel
theorem product4_256 : prog256.lookup n!"ntt_red256_product4" = some ⟨none, sig, body4 redNames256 wraps256 256 true⟩ := by
  decide +kernel
theorem product5_256 : prog256.lookup n!"ntt_red256_product5" = some ⟨none, sig, body5 redNames256 wraps256 256 true⟩ := by
  decide +kernel

/-- The program made of src/ntt_red.c, src/ntt_red512.h and src/ntt_red512.c. -/
def prog512 : Prog := Src.ntt_red ++ (Src.ntt_red512_h ++ (Src.ntt_red512_c ++ []))

theorem prog512_read : readAll [Src.ntt_red_text, Src.ntt_red512_h_text, Src.ntt_red512_c_text] = some prog512 := by
  simp only [readAll, Src.ntt_red_read, Src.ntt_red512_h_read, Src.ntt_red512_c_read, Option.bind_eq_bind, Option.bind_some]
  rfl

def wraps512 : Wraps :=
  ⟨n!"ntt_red512_ct_rev2std",
   n!"ntt_red512_gs_rev2std",
   n!"ntt_red512_ct_std2rev",
   n!"ntt_red512_gs_std2rev",
   n!"intt_red512_ct_rev2std",
   n!"intt_red512_gs_rev2std",
   n!"intt_red512_ct_std2rev",
   n!"intt_red512_gs_std2rev",
   n!"mulntt_red512_ct_rev2std",
   n!"mulntt_red512_ct_std2rev",
   n!"inttmul_red512_gs_rev2std",
   n!"inttmul_red512_gs_std2rev"⟩

theorem ctx512 : Ctx prog512 redNames512 wraps512 512 where
  has := Has.of_all (by decide +kernel)
  le := by decide
  fresh_psi_powers := by decide
  fresh_scaled_inv_psi_powers := by decide
  fresh_omega_powers := by decide
  fresh_omega_powers_rev := by decide
  fresh_inv_omega_powers := by decide
  fresh_inv_omega_powers_rev := by decide
  fresh_mixed_powers := by decide
  fresh_mixed_powers_rev := by decide
  fresh_inv_mixed_powers := by decide
  fresh_inv_mixed_powers_rev := by decide
  fresh_scalar := by decide
  fwd_ct_rev2std := by decide +kernel
  fwd_gs_rev2std := by decide +kernel
  fwd_ct_std2rev := by decide +kernel
  fwd_gs_std2rev := by decide +kernel
  intt_ct_rev2std := by decide +kernel
  intt_gs_rev2std := by decide +kernel
  intt_ct_std2rev := by decide +kernel
  intt_gs_std2rev := by decide +kernel
  fwdmul_ct_rev2std := by decide +kernel
  fwdmul_ct_std2rev := by decide +kernel
  inttmul_gs_rev2std := by decide +kernel
  inttmul_gs_std2rev := by decide +kernel

theorem product1_512 : prog512.lookup n!"ntt_red512_product1" = some ⟨none, sig, body1 redNames512 wraps512 512 true⟩ := by
  decide +kernel
theorem product2_512 : prog512.lookup n!"ntt_red512_product2" = some ⟨none, sig, body2 redNames512 wraps512 512 true⟩ := by
  decide +kernel
theorem product3_512 : prog512.lookup n!"ntt_red512_product3" = some ⟨none, sig, body3 redNames512 wraps512 512 true⟩ := by
  decide +kernel
theorem product4_512 : prog512.lookup n!"ntt_red512_product4" = some ⟨none, sig, body4 redNames512 wraps512 512 true⟩ := by
  decide +kernel
theorem product5_512 : prog512.lookup n!"ntt_red512_product5" = some ⟨none, sig, body5 redNames512 wraps512 512 true⟩ := by
  decide +kernel

/-- The program made of src/ntt_red.c, src/ntt_red1024.h and src/ntt_red1024.c. -/
def prog1024 : Prog := Src.ntt_red ++ (Src.ntt_red1024_h ++ (Src.ntt_red1024_c ++ []))

theorem prog1024_read : readAll [Src.ntt_red_text, Src.ntt_red1024_h_text, Src.ntt_red1024_c_text] = some prog1024 := by
  simp only [readAll, Src.ntt_red_read, Src.ntt_red1024_h_read, Src.ntt_red1024_c_read, Option.bind_eq_bind, Option.bind_some]
  rfl

def wraps1024 : Wraps :=
  ⟨n!"ntt_red1024_ct_rev2std",
   n!"ntt_red1024_gs_rev2std",
   n!"ntt_red1024_ct_std2rev",
   n!"ntt_red1024_gs_std2rev",
   n!"intt_red1024_ct_rev2std",
   n!"intt_red1024_gs_rev2std",
   n!"intt_red1024_ct_std2rev",
   n!"intt_red1024_gs_std2rev",
   n!"mulntt_red1024_ct_rev2std",
   n!"mulntt_red1024_ct_std2rev",
   n!"inttmul_red1024_gs_rev2std",
   n!"inttmul_red1024_gs_std2rev"⟩

theorem ctx1024 : Ctx prog1024 redNames1024 wraps1024 1024 where
  has := Has.of_all (by decide +kernel)
  le := by decide
  fresh_psi_powers := by decide
  fresh_scaled_inv_psi_powers := by decide
  fresh_omega_powers := by decide
  fresh_omega_powers_rev := by decide
  fresh_inv_omega_powers := by decide
  fresh_inv_omega_powers_rev := by decide
  fresh_mixed_powers := by decide
  fresh_mixed_powers_rev := by decide
  fresh_inv_mixed_powers := by decide
  fresh_inv_mixed_powers_rev := by decide
  fresh_scalar := by decide
  fwd_ct_rev2std := by decide +kernel
  fwd_gs_rev2std := by decide +kernel
  fwd_ct_std2rev := by decide +kernel
  fwd_gs_std2rev := by decide +kernel
  intt_ct_rev2std := by decide +kernel
  intt_gs_rev2std := by decide +kernel
  intt_ct_std2rev := by decide +kernel
  intt_gs_std2rev := by decide +kernel
  fwdmul_ct_rev2std := by decide +kernel
  fwdmul_ct_std2rev := by decide +kernel
  inttmul_gs_rev2std := by decide +kernel
  inttmul_gs_std2rev := by decide +kernel

theorem product1_1024 : prog1024.lookup n!"ntt_red1024_product1" = some ⟨none, sig, body1 redNames1024 wraps1024 1024 false⟩ := by
  decide +kernel
theorem product2_1024 : prog1024.lookup n!"ntt_red1024_product2" = some ⟨none, sig, body2 redNames1024 wraps1024 1024 false⟩ := by
  decide +kernel
theorem product3_1024 : prog1024.lookup n!"ntt_red1024_product3" = some ⟨none, sig, body3 redNames1024 wraps1024 1024 false⟩ := by
  decide +kernel
theorem product4_1024 : prog1024.lookup n!"ntt_red1024_product4" = some ⟨none, sig, body4 redNames1024 wraps1024 1024 false⟩ := by
  decide +kernel
theorem product5_1024 : prog1024.lookup n!"ntt_red1024_product5" = some ⟨none, sig, body5 redNames1024 wraps1024 1024 false⟩ := by
  decide +kernel

end CLang.RedProd
