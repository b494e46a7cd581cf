import Verif.Proofs.CRunProdNtt
import Verif.SpecSourceNames
import Verif.Model.Src.Ntt16
import Verif.Model.Src.Ntt256
import Verif.Model.Src.Ntt512
import Verif.Model.Src.Ntt1024

/-
The functions of src/ntt<n>.{h,c} for the four sizes: the texts contain the functions of the headers and the products.
-/

namespace CLang.NttProd

abbrev sig : List (Name × PTy) := [(n!"c", .ptr 1), (n!"a", .ptr 1), (n!"b", .ptr 1)]

/-- The program made of src/ntt.c, src/ntt16.h and src/ntt16.c. -/
def prog16 : Prog := Src.ntt ++ (Src.ntt16_h ++ (Src.ntt16_c ++ []))

theorem prog16_read : readAll [Src.ntt_text, Src.ntt16_h_text, Src.ntt16_c_text] = some prog16 := by
  simp only [readAll, Src.ntt_read, Src.ntt16_h_read, Src.ntt16_c_read, Option.bind_eq_bind, Option.bind_some]
  rfl

def wraps16 : Wraps :=
  ⟨n!"ntt16_ct_rev2std",
   n!"ntt16_gs_rev2std",
   n!"ntt16_ct_std2rev",
   n!"ntt16_gs_std2rev",
   n!"intt16_ct_rev2std",
   n!"intt16_gs_rev2std",
   n!"intt16_ct_std2rev",
   n!"intt16_gs_std2rev",
   n!"mulntt16_ct_rev2std",
   n!"mulntt16_ct_std2rev",
   n!"inttmul16_gs_rev2std",
   n!"inttmul16_gs_std2rev"⟩

theorem ctx16 : Ctx prog16 nttNames16 wraps16 16 where
  has := Has.of_all (by decide +kernel)
  le := by decide
  fresh_psi_powers := by decide
  fresh_scaled_inv_psi_powers := by decide
  fresh_omega_powers := by decide
  fresh_omega_powers_rev := by decide
  fresh_inv_omega_powers := by decide
  fresh_inv_omega_powers_rev := by decide
  fresh_mixed_powers := by decide
  fresh_mixed_powers_rev := by decide
  fresh_inv_mixed_powers := by decide
  fresh_inv_mixed_powers_rev := by decide
  fresh_scalar := by decide
  fwd_ct_rev2std := by decide +kernel
  fwd_gs_rev2std := by decide +kernel
  fwd_ct_std2rev := by decide +kernel
  fwd_gs_std2rev := by decide +kernel
  intt_ct_rev2std := by decide +kernel
  intt_gs_rev2std := by decide +kernel
  intt_ct_std2rev := by decide +kernel
  intt_gs_std2rev := by decide +kernel
  fwdmul_ct_rev2std := by decide +kernel
  fwdmul_ct_std2rev := by decide +kernel
  inttmul_gs_rev2std := by decide +kernel
  inttmul_gs_std2rev := by decide +kernel

theorem product1_16 : prog16.lookup n!"ntt16_product1" = some ⟨none, sig, body1 nttNames16 wraps16 16⟩ := by
  decide +kernel
theorem product2_16 : prog16.lookup n!"ntt16_product2" = some ⟨none, sig, body2 nttNames16 wraps16 16⟩ := by
  decide +kernel
theorem product3_16 : prog16.lookup n!"ntt16_product3" = some ⟨none, sig, body3 nttNames16 wraps16 16⟩ := by
  decide +kernel
theorem product4_16 : prog16.lookup n!"ntt16_product4" = some ⟨none, sig, body4 nttNames16 wraps16 16⟩ := by
  decide +kernel
theorem product5_16 : prog16.lookup n!"ntt16_product5" = some ⟨none, sig, body5 nttNames16 wraps16 16⟩ := by
  decide +kernel

/-- The program made of src/ntt.c, src/ntt256.h and src/ntt256.c. -/
def prog256 : Prog := Src.ntt ++ (Src.ntt256_h ++ (Src.ntt256_c ++ []))

theorem prog256_read : readAll [Src.ntt_text, Src.ntt256_h_text, Src.ntt256_c_text] = some prog256 := by
  simp only [readAll, Src.ntt_read, Src.ntt256_h_read, Src.ntt256_c_read, Option.bind_eq_bind, Option.bind_some]
  rfl

def wraps256 : Wraps :=
  ⟨n!"ntt256_ct_rev2std",
   n!"ntt256_gs_rev2std",
   n!"ntt256_ct_std2rev",
   n!"ntt256_gs_std2rev",
   n!"intt256_ct_rev2std",
   n!"intt256_gs_rev2std",
   n!"intt256_ct_std2rev",
   n!"intt256_gs_std2rev",
   n!"mulntt256_ct_rev2std",
   n!"mulntt256_ct_std2rev",
   n!"inttmul256_gs_rev2std",
   n!"inttmul256_gs_std2rev"⟩

theorem ctx256 : Ctx prog256 nttNames256 wraps256 256 where
  has := Has.of_all (by decide +kernel)
  le := by decide
  fresh_psi_powers := by decide
  fresh_scaled_inv_psi_powers := by decide
  fresh_omega_powers := by decide
  fresh_omega_powers_rev := by decide
  fresh_inv_omega_powers := by decide
  fresh_inv_omega_powers_rev := by decide
  fresh_mixed_powers := by decide
  fresh_mixed_powers_rev := by decide
  fresh_inv_mixed_powers := by decide
  fresh_inv_mixed_powers_rev := by decide
  fresh_scalar := by decide
  fwd_ct_rev2std := by decide +kernel
  fwd_gs_rev2std := by decide +kernel
  fwd_ct_std2rev := by decide +kernel
  fwd_gs_std2rev := by decide +kernel
  intt_ct_rev2std := by decide +kernel
  intt_gs_rev2std := by decide +kernel
  intt_ct_std2rev := by decide +kernel
  intt_gs_std2rev := by decide +kernel
  fwdmul_ct_rev2std := by decide +kernel
  fwdmul_ct_std2rev := by decide +kernel
  inttmul_gs_rev2std := by decide +kernel
  inttmul_gs_std2rev := by decide +kernel

theorem product1_256 : prog256.lookup n!"ntt256_product1" = some ⟨none, sig, body1 nttNames256 wraps256 256⟩ := by
  decide +kernel
theorem product2_256 : prog256.lookup n!"ntt256_product2" = some ⟨none, sig, body2 nttNames256 wraps256 256⟩ := by
  decide +kernel
theorem product3_256 : prog256.lookup n!"ntt256_product3" = some ⟨none, sig, body3 nttNames256 wraps256 256⟩ := by
  decide +kernel
theorem product4_256 : prog256.lookup n!"ntt256_product4" = some ⟨none, sig, body4 nttNames256 wraps256 256⟩ := by
  decide +kernel
theorem product5_256 : prog256.lookup n!"ntt256_product5" = some ⟨none, sig, body5 nttNames256 wraps256 256⟩ := by
  decide +kernel

/-- The program made of src/ntt.c, src/ntt512.h and src/ntt512.c. -/
def prog512 : Prog := Src.ntt ++ (Src.ntt512_h ++ (Src.ntt512_c ++ []))

theorem prog512_read : readAll [Src.ntt_text, Src.ntt512_h_text, Src.ntt512_c_text] = some prog512 := by
  simp only [readAll, Src.ntt_read, Src.ntt512_h_read, Src.ntt512_c_read, Option.bind_eq_bind, Option.bind_some]
  rfl

def wraps512 : Wraps :=
  ⟨n!"ntt512_ct_rev2std",
   n!"ntt512_gs_rev2std",
   n!"ntt512_ct_std2rev",
   n!"ntt512_gs_std2rev",
   n!"intt512_ct_rev2std",
   n!"intt512_gs_rev2std",
   n!"intt512_ct_std2rev",
   n!"intt512_gs_std2rev",
   n!"mulntt512_ct_rev2std",
   n!"mulntt512_ct_std2rev",
   n!"inttmul512_gs_rev2std",
   n!"inttmul512_gs_std2rev"⟩

theorem ctx512 : Ctx prog512 nttNames512 wraps512 512 where
  has := Has.of_all (by decide +kernel)
  le := by decide
  fresh_psi_powers := by decide
  fresh_scaled_inv_psi_powers := by decide
  fresh_omega_powers := by decide
  fresh_omega_powers_rev := by decide
  fresh_inv_omega_powers := by decide
  fresh_inv_omega_powers_rev := by decide
  fresh_mixed_powers := by decide
  fresh_mixed_powers_rev := by decide
  fresh_inv_mixed_powers := by decide
  fresh_inv_mixed_powers_rev := by decide
  fresh_scalar := by decide
  fwd_ct_rev2std := by decide +kernel
  fwd_gs_rev2std := by decide +kernel
  fwd_ct_std2rev := by decide +kernel
  fwd_gs_std2rev := by decide +kernel
  intt_ct_rev2std := by decide +kernel
  intt_gs_rev2std := by decide +kernel
  intt_ct_std2rev := by decide +kernel
  intt_gs_std2rev := by decide +kernel
  fwdmul_ct_rev2std := by decide +kernel
  fwdmul_ct_std2rev := by decide +kernel
  inttmul_gs_rev2std := by decide +kernel
  inttmul_gs_std2rev := by decide +kernel

theorem product1_512 : prog512.lookup n!"ntt512_product1" = some ⟨none, sig, body1 nttNames512 wraps512 512⟩ := by
  decide +kernel
theorem product2_512 : prog512.lookup n!"ntt512_product2" = some ⟨none, sig, body2 nttNames512 wraps512 512⟩ := by
  decide +kernel
theorem product3_512 : prog512.lookup n!"ntt512_product3" = some ⟨none, sig, body3 nttNames512 wraps512 512⟩ := by
  decide +kernel
theorem product4_512 : prog512.lookup n!"ntt512_product4" = some ⟨none, sig, body4 nttNames512 wraps512 512⟩ := by
  decide +kernel
theorem product5_512 : prog512.lookup n!"ntt512_product5" = some ⟨none, sig, body5 nttNames512 wraps512 512⟩ := by
  decide +kernel

/-- The program made of src/ntt.c, src/ntt1024.h and src/ntt1024.c. -/
def prog1024 : Prog := Src.ntt ++ (Src.ntt1024_h ++ (Src.ntt1024_c ++ []))

theorem prog1024_read : readAll [Src.ntt_text, Src.ntt1024_h_text, Src.ntt1024_c_text] = some prog1024 := by
  simp only [readAll, Src.ntt_read, Src.ntt1024_h_read, Src.ntt1024_c_read, Option.bind_eq_bind, Option.bind_some]
  rfl

def wraps1024 : Wraps :=
  ⟨n!"ntt1024_ct_rev2std",
   n!"ntt1024_gs_rev2std",
   n!"ntt1024_ct_std2rev",
   n!"ntt1024_gs_std2rev",
   n!"intt1024_ct_rev2std",
   n!"intt1024_gs_rev2std",
   n!"intt1024_ct_std2rev",
   n!"intt1024_gs_std2rev",
   n!"mulntt1024_ct_rev2std",
   n!"mulntt1024_ct_std2rev",
   n!"inttmul1024_gs_rev2std",
   n!"inttmul1024_gs_std2rev"⟩

theorem ctx1024 : Ctx prog1024 nttNames1024 wraps1024 1024 where
  has := Has.of_all (by decide +kernel)
  le := by decide
  fresh_psi_powers := by decide
  fresh_scaled_inv_psi_powers := by decide
  fresh_omega_powers := by decide
  fresh_omega_powers_rev := by decide
  fresh_inv_omega_powers := by decide
  fresh_inv_omega_powers_rev := by decide
  fresh_mixed_powers := by decide
  fresh_mixed_powers_rev := by decide
  fresh_inv_mixed_powers := by decide
  fresh_inv_mixed_powers_rev := by decide
  fresh_scalar := by decide
  fwd_ct_rev2std := by decide +kernel
  fwd_gs_rev2std := by decide +kernel
  fwd_ct_std2rev := by decide +kernel
  fwd_gs_std2rev := by decide +kernel
  intt_ct_rev2std := by decide +kernel
  intt_gs_rev2std := by decide +kernel
  intt_ct_std2rev := by decide +kernel
  intt_gs_std2rev := by decide +kernel
  fwdmul_ct_rev2std := by decide +kernel
  fwdmul_ct_std2rev := by decide +kernel
  inttmul_gs_rev2std := by decide +kernel
  inttmul_gs_std2rev := by decide +kernel

theorem product1_1024 : prog1024.lookup n!"ntt1024_product1" = some ⟨none, sig, body1 nttNames1024 wraps1024 1024⟩ := by
  decide +kernel
theorem product2_1024 : prog1024.lookup n!"ntt1024_product2" = some ⟨none, sig, body2 nttNames1024 wraps1024 1024⟩ := by
  decide +kernel
theorem product3_1024 : prog1024.lookup n!"ntt1024_product3" = some ⟨none, sig, body3 nttNames1024 wraps1024 1024⟩ := by
  decide +kernel
theorem product4_1024 : prog1024.lookup n!"ntt1024_product4" = some ⟨none, sig, body4 nttNames1024 wraps1024 1024⟩ := by
  decide +kernel
theorem product5_1024 : prog1024.lookup n!"ntt1024_product5" = some ⟨none, sig, body5 nttNames1024 wraps1024 1024⟩ := by
  decide +kernel

end CLang.NttProd
