import Verif.SpecSource

/-
The names of the constants used by the functions for the four sizes.
-/

namespace CLang

/-- src/ntt16_tables.h, printed by src/make_tables.c -/
def nttNames16 : ConstNames :=
  ⟨n!"ntt16_psi_powers",
   n!"ntt16_scaled_inv_psi_powers",
   n!"ntt16_omega_powers",
   n!"ntt16_omega_powers_rev",
   n!"ntt16_inv_omega_powers",
   n!"ntt16_inv_omega_powers_rev",
   n!"ntt16_mixed_powers",
   n!"ntt16_mixed_powers_rev",
   n!"ntt16_inv_mixed_powers",
   n!"ntt16_inv_mixed_powers_rev",
   n!"ntt16_inv_n"⟩

/-- src/ntt256_tables.h, printed by src/make_tables.c -/
def nttNames256 : ConstNames :=
  ⟨n!"ntt256_psi_powers",
   n!"ntt256_scaled_inv_psi_powers",
   n!"ntt256_omega_powers",
   n!"ntt256_omega_powers_rev",
   n!"ntt256_inv_omega_powers",
   n!"ntt256_inv_omega_powers_rev",
   n!"ntt256_mixed_powers",
   n!"ntt256_mixed_powers_rev",
   n!"ntt256_inv_mixed_powers",
   n!"ntt256_inv_mixed_powers_rev",
   n!"ntt256_inv_n"⟩

/-- src/ntt512_tables.h, printed by src/make_tables.c -/
def nttNames512 : ConstNames :=
  ⟨n!"ntt512_psi_powers",
   n!"ntt512_scaled_inv_psi_powers",
   n!"ntt512_omega_powers",
   n!"ntt512_omega_powers_rev",
   n!"ntt512_inv_omega_powers",
   n!"ntt512_inv_omega_powers_rev",
   n!"ntt512_mixed_powers",
   n!"ntt512_mixed_powers_rev",
   n!"ntt512_inv_mixed_powers",
   n!"ntt512_inv_mixed_powers_rev",
   n!"ntt512_inv_n"⟩

/-- src/ntt1024_tables.h, printed by src/make_tables.c -/
def nttNames1024 : ConstNames :=
  ⟨n!"ntt1024_psi_powers",
   n!"ntt1024_scaled_inv_psi_powers",
   n!"ntt1024_omega_powers",
   n!"ntt1024_omega_powers_rev",
   n!"ntt1024_inv_omega_powers",
   n!"ntt1024_inv_omega_powers_rev",
   n!"ntt1024_mixed_powers",
   n!"ntt1024_mixed_powers_rev",
   n!"ntt1024_inv_mixed_powers",
   n!"ntt1024_inv_mixed_powers_rev",
   n!"ntt1024_inv_n"⟩

/-- src/ntt_red16_tables.h, printed by src/make_red_tables.c -/
def redNames16 : ConstNames :=
  ⟨n!"ntt_red16_psi_powers",
   n!"ntt_red16_scaled_inv_psi_powers",
   n!"ntt_red16_omega_powers",
   n!"ntt_red16_omega_powers_rev",
   n!"ntt_red16_inv_omega_powers",
   n!"ntt_red16_inv_omega_powers_rev",
   n!"ntt_red16_mixed_powers",
   n!"ntt_red16_mixed_powers_rev",
   n!"ntt_red16_inv_mixed_powers",
   n!"ntt_red16_inv_mixed_powers_rev",
   n!"ntt_red16_rescale8"⟩

/-- src/ntt_red256_tables.h, printed by src/make_red_tables.c -/
def redNames256 : ConstNames :=
  ⟨n!"ntt_red256_psi_powers",
   n!"ntt_red256_scaled_inv_psi_powers",
   n!"ntt_red256_omega_powers",
   n!"ntt_red256_omega_powers_rev",
   n!"ntt_red256_inv_omega_powers",
   n!"ntt_red256_inv_omega_powers_rev",
   n!"ntt_red256_mixed_powers",
   n!"ntt_red256_mixed_powers_rev",
   n!"ntt_red256_inv_mixed_powers",
   n!"ntt_red256_inv_mixed_powers_rev",
   n!"ntt_red256_rescale8"⟩

/-- src/ntt_red512_tables.h, printed by src/make_red_tables.c -/
def redNames512 : ConstNames :=
  ⟨n!"ntt_red512_psi_powers",
   n!"ntt_red512_scaled_inv_psi_powers",
   n!"ntt_red512_omega_powers",
   n!"ntt_red512_omega_powers_rev",
   n!"ntt_red512_inv_omega_powers",
   n!"ntt_red512_inv_omega_powers_rev",
   n!"ntt_red512_mixed_powers",
   n!"ntt_red512_mixed_powers_rev",
   n!"ntt_red512_inv_mixed_powers",
   n!"ntt_red512_inv_mixed_powers_rev",
   n!"ntt_red512_rescale8"⟩

/-- src/ntt_red1024_tables.h, printed by src/make_red_tables.c -/
def redNames1024 : ConstNames :=
  ⟨n!"ntt_red1024_psi_powers",
   n!"ntt_red1024_scaled_inv_psi_powers",
   n!"ntt_red1024_omega_powers",
   n!"ntt_red1024_omega_powers_rev",
   n!"ntt_red1024_inv_omega_powers",
   n!"ntt_red1024_inv_omega_powers_rev",
   n!"ntt_red1024_mixed_powers",
   n!"ntt_red1024_mixed_powers_rev",
   n!"ntt_red1024_inv_mixed_powers",
   n!"ntt_red1024_inv_mixed_powers_rev",
   n!"ntt_red1024_rescale8"⟩

end CLang
