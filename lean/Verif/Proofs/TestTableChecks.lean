import Verif.Proofs.TestTables

/-
Every checked-in test table meets its specification.  Written by tools/gentesttablechecks.py.
-/

namespace TestTables
open Spec Tables

theorem psi_powers_ntt16_12289_packed : Packed 0 12288 (2 ^ 4) Data.psi_powers_ntt16_12289 psi_powers_ntt16_12289 := packed_u (by decide +kernel : rangeU Data.psi_powers_ntt16_12289 (2 ^ 4) = true)
theorem psi_powers_ntt16_12289_ok : PowTable 1 1 1212 0 12288 (2 ^ 4) psi_powers_ntt16_12289 := by
  have := pow_table (κ := 1) (s := 1212) (v := 1) psi_powers_ntt16_12289_packed (by decide +kernel)
  exact_mod_cast this

theorem shoup_ntt16_12289_chk : stdCheck Data.shoup_ntt16_12289 1 1 6553 4 = true := by decide +kernel
theorem shoup_ntt16_12289_packed : Packed 0 12288 (2 ^ 4) Data.shoup_ntt16_12289 shoup_ntt16_12289 := packed_u (by decide +kernel : rangeU Data.shoup_ntt16_12289 (2 ^ 4) = true)
theorem shoup_ntt16_12289_ok : StdTable 1 1 6553 0 12288 4 shoup_ntt16_12289 := by
  have := std_table shoup_ntt16_12289_packed shoup_ntt16_12289_chk
  exact_mod_cast this

theorem rev_shoup_ntt16_12289_packed : Packed 0 12288 (2 ^ 4) Data.rev_shoup_ntt16_12289 rev_shoup_ntt16_12289 := packed_u (by decide +kernel : rangeU Data.rev_shoup_ntt16_12289 (2 ^ 4) = true)
theorem rev_shoup_ntt16_12289_ok : RevTable 1 1 6553 0 12288 4 rev_shoup_ntt16_12289 := by
  have := rev_table rev_shoup_ntt16_12289_packed shoup_ntt16_12289_chk (by decide +kernel : revCheck Data.rev_shoup_ntt16_12289 Data.shoup_ntt16_12289 4 = true)
  exact_mod_cast this

theorem shoup_scaled_ntt16_12289_chk : stdCheck Data.shoup_scaled_ntt16_12289 1 1212 6553 4 = true := by decide +kernel
theorem shoup_scaled_ntt16_12289_packed : Packed 0 12288 (2 ^ 4) Data.shoup_scaled_ntt16_12289 shoup_scaled_ntt16_12289 := packed_u (by decide +kernel : rangeU Data.shoup_scaled_ntt16_12289 (2 ^ 4) = true)
theorem shoup_scaled_ntt16_12289_ok : StdTable 1 1212 6553 0 12288 4 shoup_scaled_ntt16_12289 := by
  have := std_table shoup_scaled_ntt16_12289_packed shoup_scaled_ntt16_12289_chk
  exact_mod_cast this

theorem rev_shoup_scaled_ntt16_12289_packed : Packed 0 12288 (2 ^ 4) Data.rev_shoup_scaled_ntt16_12289 rev_shoup_scaled_ntt16_12289 := packed_u (by decide +kernel : rangeU Data.rev_shoup_scaled_ntt16_12289 (2 ^ 4) = true)
theorem rev_shoup_scaled_ntt16_12289_ok : RevTable 1 1212 6553 0 12288 4 rev_shoup_scaled_ntt16_12289 := by
  have := rev_table rev_shoup_scaled_ntt16_12289_packed shoup_scaled_ntt16_12289_chk (by decide +kernel : revCheck Data.rev_shoup_scaled_ntt16_12289 Data.shoup_scaled_ntt16_12289 4 = true)
  exact_mod_cast this

theorem psi_powers_ntt256_12289_packed : Packed 0 12288 (2 ^ 8) Data.psi_powers_ntt256_12289 psi_powers_ntt256_12289 := packed_u (by decide +kernel : rangeU Data.psi_powers_ntt256_12289 (2 ^ 8) = true)
theorem psi_powers_ntt256_12289_ok : PowTable 1 1 1002 0 12288 (2 ^ 8) psi_powers_ntt256_12289 := by
  have := pow_table (κ := 1) (s := 1002) (v := 1) psi_powers_ntt256_12289_packed (by decide +kernel)
  exact_mod_cast this

theorem shoup_ntt256_12289_chk : stdCheck Data.shoup_ntt256_12289 1 1 8595 8 = true := by decide +kernel
theorem shoup_ntt256_12289_packed : Packed 0 12288 (2 ^ 8) Data.shoup_ntt256_12289 shoup_ntt256_12289 := packed_u (by decide +kernel : rangeU Data.shoup_ntt256_12289 (2 ^ 8) = true)
theorem shoup_ntt256_12289_ok : StdTable 1 1 8595 0 12288 8 shoup_ntt256_12289 := by
  have := std_table shoup_ntt256_12289_packed shoup_ntt256_12289_chk
  exact_mod_cast this

theorem rev_shoup_ntt256_12289_packed : Packed 0 12288 (2 ^ 8) Data.rev_shoup_ntt256_12289 rev_shoup_ntt256_12289 := packed_u (by decide +kernel : rangeU Data.rev_shoup_ntt256_12289 (2 ^ 8) = true)
theorem rev_shoup_ntt256_12289_ok : RevTable 1 1 8595 0 12288 8 rev_shoup_ntt256_12289 := by
  have := rev_table rev_shoup_ntt256_12289_packed shoup_ntt256_12289_chk (by decide +kernel : revCheck Data.rev_shoup_ntt256_12289 Data.shoup_ntt256_12289 8 = true)
  exact_mod_cast this

theorem shoup_scaled_ntt256_12289_chk : stdCheck Data.shoup_scaled_ntt256_12289 1 1002 8595 8 = true := by decide +kernel
theorem shoup_scaled_ntt256_12289_packed : Packed 0 12288 (2 ^ 8) Data.shoup_scaled_ntt256_12289 shoup_scaled_ntt256_12289 := packed_u (by decide +kernel : rangeU Data.shoup_scaled_ntt256_12289 (2 ^ 8) = true)
theorem shoup_scaled_ntt256_12289_ok : StdTable 1 1002 8595 0 12288 8 shoup_scaled_ntt256_12289 := by
  have := std_table shoup_scaled_ntt256_12289_packed shoup_scaled_ntt256_12289_chk
  exact_mod_cast this

theorem rev_shoup_scaled_ntt256_12289_packed : Packed 0 12288 (2 ^ 8) Data.rev_shoup_scaled_ntt256_12289 rev_shoup_scaled_ntt256_12289 := packed_u (by decide +kernel : rangeU Data.rev_shoup_scaled_ntt256_12289 (2 ^ 8) = true)
theorem rev_shoup_scaled_ntt256_12289_ok : RevTable 1 1002 8595 0 12288 8 rev_shoup_scaled_ntt256_12289 := by
  have := rev_table rev_shoup_scaled_ntt256_12289_packed shoup_scaled_ntt256_12289_chk (by decide +kernel : revCheck Data.rev_shoup_scaled_ntt256_12289 Data.shoup_scaled_ntt256_12289 8 = true)
  exact_mod_cast this

theorem psi_powers_ntt512_12289_packed : Packed 0 12288 (2 ^ 9) Data.psi_powers_ntt512_12289 psi_powers_ntt512_12289 := packed_u (by decide +kernel : rangeU Data.psi_powers_ntt512_12289 (2 ^ 9) = true)
theorem psi_powers_ntt512_12289_ok : PowTable 1 1 1003 0 12288 (2 ^ 9) psi_powers_ntt512_12289 := by
  have := pow_table (κ := 1) (s := 1003) (v := 1) psi_powers_ntt512_12289_packed (by decide +kernel)
  exact_mod_cast this

theorem shoup_ntt512_12289_chk : stdCheck Data.shoup_ntt512_12289 1 1 10600 9 = true := by decide +kernel
theorem shoup_ntt512_12289_packed : Packed 0 12288 (2 ^ 9) Data.shoup_ntt512_12289 shoup_ntt512_12289 := packed_u (by decide +kernel : rangeU Data.shoup_ntt512_12289 (2 ^ 9) = true)
theorem shoup_ntt512_12289_ok : StdTable 1 1 10600 0 12288 9 shoup_ntt512_12289 := by
  have := std_table shoup_ntt512_12289_packed shoup_ntt512_12289_chk
  exact_mod_cast this

theorem rev_shoup_ntt512_12289_packed : Packed 0 12288 (2 ^ 9) Data.rev_shoup_ntt512_12289 rev_shoup_ntt512_12289 := packed_u (by decide +kernel : rangeU Data.rev_shoup_ntt512_12289 (2 ^ 9) = true)
theorem rev_shoup_ntt512_12289_ok : RevTable 1 1 10600 0 12288 9 rev_shoup_ntt512_12289 := by
  have := rev_table rev_shoup_ntt512_12289_packed shoup_ntt512_12289_chk (by decide +kernel : revCheck Data.rev_shoup_ntt512_12289 Data.shoup_ntt512_12289 9 = true)
  exact_mod_cast this

theorem shoup_scaled_ntt512_12289_chk : stdCheck Data.shoup_scaled_ntt512_12289 1 1003 10600 9 = true := by decide +kernel
theorem shoup_scaled_ntt512_12289_packed : Packed 0 12288 (2 ^ 9) Data.shoup_scaled_ntt512_12289 shoup_scaled_ntt512_12289 := packed_u (by decide +kernel : rangeU Data.shoup_scaled_ntt512_12289 (2 ^ 9) = true)
theorem shoup_scaled_ntt512_12289_ok : StdTable 1 1003 10600 0 12288 9 shoup_scaled_ntt512_12289 := by
  have := std_table shoup_scaled_ntt512_12289_packed shoup_scaled_ntt512_12289_chk
  exact_mod_cast this

theorem rev_shoup_scaled_ntt512_12289_packed : Packed 0 12288 (2 ^ 9) Data.rev_shoup_scaled_ntt512_12289 rev_shoup_scaled_ntt512_12289 := packed_u (by decide +kernel : rangeU Data.rev_shoup_scaled_ntt512_12289 (2 ^ 9) = true)
theorem rev_shoup_scaled_ntt512_12289_ok : RevTable 1 1003 10600 0 12288 9 rev_shoup_scaled_ntt512_12289 := by
  have := rev_table rev_shoup_scaled_ntt512_12289_packed shoup_scaled_ntt512_12289_chk (by decide +kernel : revCheck Data.rev_shoup_scaled_ntt512_12289 Data.shoup_scaled_ntt512_12289 9 = true)
  exact_mod_cast this

theorem psi_powers_ntt1024_12289_packed : Packed 0 12288 (2 ^ 10) Data.psi_powers_ntt1024_12289 psi_powers_ntt1024_12289 := packed_u (by decide +kernel : rangeU Data.psi_powers_ntt1024_12289 (2 ^ 10) = true)
theorem psi_powers_ntt1024_12289_ok : PowTable 1 1 1014 0 12288 (2 ^ 10) psi_powers_ntt1024_12289 := by
  have := pow_table (κ := 1) (s := 1014) (v := 1) psi_powers_ntt1024_12289_packed (by decide +kernel)
  exact_mod_cast this

theorem shoup_ntt1024_12289_chk : stdCheck Data.shoup_ntt1024_12289 1 1 8209 10 = true := by decide +kernel
theorem shoup_ntt1024_12289_packed : Packed 0 12288 (2 ^ 10) Data.shoup_ntt1024_12289 shoup_ntt1024_12289 := packed_u (by decide +kernel : rangeU Data.shoup_ntt1024_12289 (2 ^ 10) = true)
theorem shoup_ntt1024_12289_ok : StdTable 1 1 8209 0 12288 10 shoup_ntt1024_12289 := by
  have := std_table shoup_ntt1024_12289_packed shoup_ntt1024_12289_chk
  exact_mod_cast this

theorem rev_shoup_ntt1024_12289_packed : Packed 0 12288 (2 ^ 10) Data.rev_shoup_ntt1024_12289 rev_shoup_ntt1024_12289 := packed_u (by decide +kernel : rangeU Data.rev_shoup_ntt1024_12289 (2 ^ 10) = true)
theorem rev_shoup_ntt1024_12289_ok : RevTable 1 1 8209 0 12288 10 rev_shoup_ntt1024_12289 := by
  have := rev_table rev_shoup_ntt1024_12289_packed shoup_ntt1024_12289_chk (by decide +kernel : revCheck Data.rev_shoup_ntt1024_12289 Data.shoup_ntt1024_12289 10 = true)
  exact_mod_cast this

theorem shoup_scaled_ntt1024_12289_chk : stdCheck Data.shoup_scaled_ntt1024_12289 1 1014 8209 10 = true := by decide +kernel
theorem shoup_scaled_ntt1024_12289_packed : Packed 0 12288 (2 ^ 10) Data.shoup_scaled_ntt1024_12289 shoup_scaled_ntt1024_12289 := packed_u (by decide +kernel : rangeU Data.shoup_scaled_ntt1024_12289 (2 ^ 10) = true)
theorem shoup_scaled_ntt1024_12289_ok : StdTable 1 1014 8209 0 12288 10 shoup_scaled_ntt1024_12289 := by
  have := std_table shoup_scaled_ntt1024_12289_packed shoup_scaled_ntt1024_12289_chk
  exact_mod_cast this

theorem rev_shoup_scaled_ntt1024_12289_packed : Packed 0 12288 (2 ^ 10) Data.rev_shoup_scaled_ntt1024_12289 rev_shoup_scaled_ntt1024_12289 := packed_u (by decide +kernel : rangeU Data.rev_shoup_scaled_ntt1024_12289 (2 ^ 10) = true)
theorem rev_shoup_scaled_ntt1024_12289_ok : RevTable 1 1014 8209 0 12288 10 rev_shoup_scaled_ntt1024_12289 := by
  have := rev_table rev_shoup_scaled_ntt1024_12289_packed shoup_scaled_ntt1024_12289_chk (by decide +kernel : revCheck Data.rev_shoup_scaled_ntt1024_12289 Data.shoup_scaled_ntt1024_12289 10 = true)
  exact_mod_cast this

theorem shoup_red_ntt16_12289_chk : stdCheck Data.shoup_red_ntt16_12289 3 1 6553 4 = true := by decide +kernel
theorem shoup_red_ntt16_12289_packed : Packed 0 12288 (2 ^ 4) Data.shoup_red_ntt16_12289 shoup_red_ntt16_12289 := packed_su (by decide +kernel : rangeU Data.shoup_red_ntt16_12289 (2 ^ 4) = true)
theorem shoup_red_ntt16_12289_ok : StdTable 3 1 6553 0 12288 4 shoup_red_ntt16_12289 := by
  have := std_table shoup_red_ntt16_12289_packed shoup_red_ntt16_12289_chk
  exact_mod_cast this

theorem rev_shoup_red_ntt16_12289_packed : Packed 0 12288 (2 ^ 4) Data.rev_shoup_red_ntt16_12289 rev_shoup_red_ntt16_12289 := packed_su (by decide +kernel : rangeU Data.rev_shoup_red_ntt16_12289 (2 ^ 4) = true)
theorem rev_shoup_red_ntt16_12289_ok : RevTable 3 1 6553 0 12288 4 rev_shoup_red_ntt16_12289 := by
  have := rev_table rev_shoup_red_ntt16_12289_packed shoup_red_ntt16_12289_chk (by decide +kernel : revCheck Data.rev_shoup_red_ntt16_12289 Data.shoup_red_ntt16_12289 4 = true)
  exact_mod_cast this

theorem shoup_red_scaled_ntt16_12289_chk : stdCheck Data.shoup_red_scaled_ntt16_12289 3 1212 6553 4 = true := by decide +kernel
theorem shoup_red_scaled_ntt16_12289_packed : Packed 0 12288 (2 ^ 4) Data.shoup_red_scaled_ntt16_12289 shoup_red_scaled_ntt16_12289 := packed_su (by decide +kernel : rangeU Data.shoup_red_scaled_ntt16_12289 (2 ^ 4) = true)
theorem shoup_red_scaled_ntt16_12289_ok : StdTable 3 1212 6553 0 12288 4 shoup_red_scaled_ntt16_12289 := by
  have := std_table shoup_red_scaled_ntt16_12289_packed shoup_red_scaled_ntt16_12289_chk
  exact_mod_cast this

theorem rev_shoup_red_scaled_ntt16_12289_packed : Packed 0 12288 (2 ^ 4) Data.rev_shoup_red_scaled_ntt16_12289 rev_shoup_red_scaled_ntt16_12289 := packed_su (by decide +kernel : rangeU Data.rev_shoup_red_scaled_ntt16_12289 (2 ^ 4) = true)
theorem rev_shoup_red_scaled_ntt16_12289_ok : RevTable 3 1212 6553 0 12288 4 rev_shoup_red_scaled_ntt16_12289 := by
  have := rev_table rev_shoup_red_scaled_ntt16_12289_packed shoup_red_scaled_ntt16_12289_chk (by decide +kernel : revCheck Data.rev_shoup_red_scaled_ntt16_12289 Data.shoup_red_scaled_ntt16_12289 4 = true)
  exact_mod_cast this

theorem shoup_sred_ntt16_12289_chk : stdCheck Data.shoup_sred_ntt16_12289 3 1 6553 4 = true := by decide +kernel
theorem shoup_sred_ntt16_12289_packed : Packed (-6144) 6144 (2 ^ 4) Data.shoup_sred_ntt16_12289 shoup_sred_ntt16_12289 := packed_s (by decide +kernel : rangeS Data.shoup_sred_ntt16_12289 (2 ^ 4) = true)
theorem shoup_sred_ntt16_12289_ok : StdTable 3 1 6553 (-6144) 6144 4 shoup_sred_ntt16_12289 := by
  have := std_table shoup_sred_ntt16_12289_packed shoup_sred_ntt16_12289_chk
  exact_mod_cast this

theorem rev_shoup_sred_ntt16_12289_packed : Packed (-6144) 6144 (2 ^ 4) Data.rev_shoup_sred_ntt16_12289 rev_shoup_sred_ntt16_12289 := packed_s (by decide +kernel : rangeS Data.rev_shoup_sred_ntt16_12289 (2 ^ 4) = true)
theorem rev_shoup_sred_ntt16_12289_ok : RevTable 3 1 6553 (-6144) 6144 4 rev_shoup_sred_ntt16_12289 := by
  have := rev_table rev_shoup_sred_ntt16_12289_packed shoup_sred_ntt16_12289_chk (by decide +kernel : revCheck Data.rev_shoup_sred_ntt16_12289 Data.shoup_sred_ntt16_12289 4 = true)
  exact_mod_cast this

theorem shoup_sred_scaled_ntt16_12289_chk : stdCheck Data.shoup_sred_scaled_ntt16_12289 3 1212 6553 4 = true := by decide +kernel
theorem shoup_sred_scaled_ntt16_12289_packed : Packed (-6144) 6144 (2 ^ 4) Data.shoup_sred_scaled_ntt16_12289 shoup_sred_scaled_ntt16_12289 := packed_s (by decide +kernel : rangeS Data.shoup_sred_scaled_ntt16_12289 (2 ^ 4) = true)
theorem shoup_sred_scaled_ntt16_12289_ok : StdTable 3 1212 6553 (-6144) 6144 4 shoup_sred_scaled_ntt16_12289 := by
  have := std_table shoup_sred_scaled_ntt16_12289_packed shoup_sred_scaled_ntt16_12289_chk
  exact_mod_cast this

theorem rev_shoup_sred_scaled_ntt16_12289_packed : Packed (-6144) 6144 (2 ^ 4) Data.rev_shoup_sred_scaled_ntt16_12289 rev_shoup_sred_scaled_ntt16_12289 := packed_s (by decide +kernel : rangeS Data.rev_shoup_sred_scaled_ntt16_12289 (2 ^ 4) = true)
theorem rev_shoup_sred_scaled_ntt16_12289_ok : RevTable 3 1212 6553 (-6144) 6144 4 rev_shoup_sred_scaled_ntt16_12289 := by
  have := rev_table rev_shoup_sred_scaled_ntt16_12289_packed shoup_sred_scaled_ntt16_12289_chk (by decide +kernel : revCheck Data.rev_shoup_sred_scaled_ntt16_12289 Data.shoup_sred_scaled_ntt16_12289 4 = true)
  exact_mod_cast this

theorem shoup_red_ntt128_12289_chk : stdCheck Data.shoup_red_ntt128_12289 3 1 12208 7 = true := by decide +kernel
theorem shoup_red_ntt128_12289_packed : Packed 0 12288 (2 ^ 7) Data.shoup_red_ntt128_12289 shoup_red_ntt128_12289 := packed_su (by decide +kernel : rangeU Data.shoup_red_ntt128_12289 (2 ^ 7) = true)
theorem shoup_red_ntt128_12289_ok : StdTable 3 1 12208 0 12288 7 shoup_red_ntt128_12289 := by
  have := std_table shoup_red_ntt128_12289_packed shoup_red_ntt128_12289_chk
  exact_mod_cast this

theorem rev_shoup_red_ntt128_12289_packed : Packed 0 12288 (2 ^ 7) Data.rev_shoup_red_ntt128_12289 rev_shoup_red_ntt128_12289 := packed_su (by decide +kernel : rangeU Data.rev_shoup_red_ntt128_12289 (2 ^ 7) = true)
theorem rev_shoup_red_ntt128_12289_ok : RevTable 3 1 12208 0 12288 7 rev_shoup_red_ntt128_12289 := by
  have := rev_table rev_shoup_red_ntt128_12289_packed shoup_red_ntt128_12289_chk (by decide +kernel : revCheck Data.rev_shoup_red_ntt128_12289 Data.shoup_red_ntt128_12289 7 = true)
  exact_mod_cast this

theorem shoup_red_scaled_ntt128_12289_chk : stdCheck Data.shoup_red_scaled_ntt128_12289 3 1022 12208 7 = true := by decide +kernel
theorem shoup_red_scaled_ntt128_12289_packed : Packed 0 12288 (2 ^ 7) Data.shoup_red_scaled_ntt128_12289 shoup_red_scaled_ntt128_12289 := packed_su (by decide +kernel : rangeU Data.shoup_red_scaled_ntt128_12289 (2 ^ 7) = true)
theorem shoup_red_scaled_ntt128_12289_ok : StdTable 3 1022 12208 0 12288 7 shoup_red_scaled_ntt128_12289 := by
  have := std_table shoup_red_scaled_ntt128_12289_packed shoup_red_scaled_ntt128_12289_chk
  exact_mod_cast this

theorem rev_shoup_red_scaled_ntt128_12289_packed : Packed 0 12288 (2 ^ 7) Data.rev_shoup_red_scaled_ntt128_12289 rev_shoup_red_scaled_ntt128_12289 := packed_su (by decide +kernel : rangeU Data.rev_shoup_red_scaled_ntt128_12289 (2 ^ 7) = true)
theorem rev_shoup_red_scaled_ntt128_12289_ok : RevTable 3 1022 12208 0 12288 7 rev_shoup_red_scaled_ntt128_12289 := by
  have := rev_table rev_shoup_red_scaled_ntt128_12289_packed shoup_red_scaled_ntt128_12289_chk (by decide +kernel : revCheck Data.rev_shoup_red_scaled_ntt128_12289 Data.shoup_red_scaled_ntt128_12289 7 = true)
  exact_mod_cast this

theorem shoup_sred_ntt128_12289_chk : stdCheck Data.shoup_sred_ntt128_12289 3 1 12208 7 = true := by decide +kernel
theorem shoup_sred_ntt128_12289_packed : Packed (-6144) 6144 (2 ^ 7) Data.shoup_sred_ntt128_12289 shoup_sred_ntt128_12289 := packed_s (by decide +kernel : rangeS Data.shoup_sred_ntt128_12289 (2 ^ 7) = true)
theorem shoup_sred_ntt128_12289_ok : StdTable 3 1 12208 (-6144) 6144 7 shoup_sred_ntt128_12289 := by
  have := std_table shoup_sred_ntt128_12289_packed shoup_sred_ntt128_12289_chk
  exact_mod_cast this

theorem rev_shoup_sred_ntt128_12289_packed : Packed (-6144) 6144 (2 ^ 7) Data.rev_shoup_sred_ntt128_12289 rev_shoup_sred_ntt128_12289 := packed_s (by decide +kernel : rangeS Data.rev_shoup_sred_ntt128_12289 (2 ^ 7) = true)
theorem rev_shoup_sred_ntt128_12289_ok : RevTable 3 1 12208 (-6144) 6144 7 rev_shoup_sred_ntt128_12289 := by
  have := rev_table rev_shoup_sred_ntt128_12289_packed shoup_sred_ntt128_12289_chk (by decide +kernel : revCheck Data.rev_shoup_sred_ntt128_12289 Data.shoup_sred_ntt128_12289 7 = true)
  exact_mod_cast this

theorem shoup_sred_scaled_ntt128_12289_chk : stdCheck Data.shoup_sred_scaled_ntt128_12289 3 1022 12208 7 = true := by decide +kernel
theorem shoup_sred_scaled_ntt128_12289_packed : Packed (-6144) 6144 (2 ^ 7) Data.shoup_sred_scaled_ntt128_12289 shoup_sred_scaled_ntt128_12289 := packed_s (by decide +kernel : rangeS Data.shoup_sred_scaled_ntt128_12289 (2 ^ 7) = true)
theorem shoup_sred_scaled_ntt128_12289_ok : StdTable 3 1022 12208 (-6144) 6144 7 shoup_sred_scaled_ntt128_12289 := by
  have := std_table shoup_sred_scaled_ntt128_12289_packed shoup_sred_scaled_ntt128_12289_chk
  exact_mod_cast this

theorem rev_shoup_sred_scaled_ntt128_12289_packed : Packed (-6144) 6144 (2 ^ 7) Data.rev_shoup_sred_scaled_ntt128_12289 rev_shoup_sred_scaled_ntt128_12289 := packed_s (by decide +kernel : rangeS Data.rev_shoup_sred_scaled_ntt128_12289 (2 ^ 7) = true)
theorem rev_shoup_sred_scaled_ntt128_12289_ok : RevTable 3 1022 12208 (-6144) 6144 7 rev_shoup_sred_scaled_ntt128_12289 := by
  have := rev_table rev_shoup_sred_scaled_ntt128_12289_packed shoup_sred_scaled_ntt128_12289_chk (by decide +kernel : revCheck Data.rev_shoup_sred_scaled_ntt128_12289 Data.shoup_sred_scaled_ntt128_12289 7 = true)
  exact_mod_cast this

theorem shoup_red_ntt256_12289_chk : stdCheck Data.shoup_red_ntt256_12289 3 1 8595 8 = true := by decide +kernel
theorem shoup_red_ntt256_12289_packed : Packed 0 12288 (2 ^ 8) Data.shoup_red_ntt256_12289 shoup_red_ntt256_12289 := packed_su (by decide +kernel : rangeU Data.shoup_red_ntt256_12289 (2 ^ 8) = true)
theorem shoup_red_ntt256_12289_ok : StdTable 3 1 8595 0 12288 8 shoup_red_ntt256_12289 := by
  have := std_table shoup_red_ntt256_12289_packed shoup_red_ntt256_12289_chk
  exact_mod_cast this

theorem rev_shoup_red_ntt256_12289_packed : Packed 0 12288 (2 ^ 8) Data.rev_shoup_red_ntt256_12289 rev_shoup_red_ntt256_12289 := packed_su (by decide +kernel : rangeU Data.rev_shoup_red_ntt256_12289 (2 ^ 8) = true)
theorem rev_shoup_red_ntt256_12289_ok : RevTable 3 1 8595 0 12288 8 rev_shoup_red_ntt256_12289 := by
  have := rev_table rev_shoup_red_ntt256_12289_packed shoup_red_ntt256_12289_chk (by decide +kernel : revCheck Data.rev_shoup_red_ntt256_12289 Data.shoup_red_ntt256_12289 8 = true)
  exact_mod_cast this

theorem shoup_red_scaled_ntt256_12289_chk : stdCheck Data.shoup_red_scaled_ntt256_12289 3 1002 8595 8 = true := by decide +kernel
theorem shoup_red_scaled_ntt256_12289_packed : Packed 0 12288 (2 ^ 8) Data.shoup_red_scaled_ntt256_12289 shoup_red_scaled_ntt256_12289 := packed_su (by decide +kernel : rangeU Data.shoup_red_scaled_ntt256_12289 (2 ^ 8) = true)
theorem shoup_red_scaled_ntt256_12289_ok : StdTable 3 1002 8595 0 12288 8 shoup_red_scaled_ntt256_12289 := by
  have := std_table shoup_red_scaled_ntt256_12289_packed shoup_red_scaled_ntt256_12289_chk
  exact_mod_cast this

theorem rev_shoup_red_scaled_ntt256_12289_packed : Packed 0 12288 (2 ^ 8) Data.rev_shoup_red_scaled_ntt256_12289 rev_shoup_red_scaled_ntt256_12289 := packed_su (by decide +kernel : rangeU Data.rev_shoup_red_scaled_ntt256_12289 (2 ^ 8) = true)
theorem rev_shoup_red_scaled_ntt256_12289_ok : RevTable 3 1002 8595 0 12288 8 rev_shoup_red_scaled_ntt256_12289 := by
  have := rev_table rev_shoup_red_scaled_ntt256_12289_packed shoup_red_scaled_ntt256_12289_chk (by decide +kernel : revCheck Data.rev_shoup_red_scaled_ntt256_12289 Data.shoup_red_scaled_ntt256_12289 8 = true)
  exact_mod_cast this

theorem shoup_sred_ntt256_12289_chk : stdCheck Data.shoup_sred_ntt256_12289 3 1 8595 8 = true := by decide +kernel
theorem shoup_sred_ntt256_12289_packed : Packed (-6144) 6144 (2 ^ 8) Data.shoup_sred_ntt256_12289 shoup_sred_ntt256_12289 := packed_s (by decide +kernel : rangeS Data.shoup_sred_ntt256_12289 (2 ^ 8) = true)
theorem shoup_sred_ntt256_12289_ok : StdTable 3 1 8595 (-6144) 6144 8 shoup_sred_ntt256_12289 := by
  have := std_table shoup_sred_ntt256_12289_packed shoup_sred_ntt256_12289_chk
  exact_mod_cast this

theorem rev_shoup_sred_ntt256_12289_packed : Packed (-6144) 6144 (2 ^ 8) Data.rev_shoup_sred_ntt256_12289 rev_shoup_sred_ntt256_12289 := packed_s (by decide +kernel : rangeS Data.rev_shoup_sred_ntt256_12289 (2 ^ 8) = true)
theorem rev_shoup_sred_ntt256_12289_ok : RevTable 3 1 8595 (-6144) 6144 8 rev_shoup_sred_ntt256_12289 := by
  have := rev_table rev_shoup_sred_ntt256_12289_packed shoup_sred_ntt256_12289_chk (by decide +kernel : revCheck Data.rev_shoup_sred_ntt256_12289 Data.shoup_sred_ntt256_12289 8 = true)
  exact_mod_cast this

theorem shoup_sred_scaled_ntt256_12289_chk : stdCheck Data.shoup_sred_scaled_ntt256_12289 3 1002 8595 8 = true := by decide +kernel
theorem shoup_sred_scaled_ntt256_12289_packed : Packed (-6144) 6144 (2 ^ 8) Data.shoup_sred_scaled_ntt256_12289 shoup_sred_scaled_ntt256_12289 := packed_s (by decide +kernel : rangeS Data.shoup_sred_scaled_ntt256_12289 (2 ^ 8) = true)
theorem shoup_sred_scaled_ntt256_12289_ok : StdTable 3 1002 8595 (-6144) 6144 8 shoup_sred_scaled_ntt256_12289 := by
  have := std_table shoup_sred_scaled_ntt256_12289_packed shoup_sred_scaled_ntt256_12289_chk
  exact_mod_cast this

theorem rev_shoup_sred_scaled_ntt256_12289_packed : Packed (-6144) 6144 (2 ^ 8) Data.rev_shoup_sred_scaled_ntt256_12289 rev_shoup_sred_scaled_ntt256_12289 := packed_s (by decide +kernel : rangeS Data.rev_shoup_sred_scaled_ntt256_12289 (2 ^ 8) = true)
theorem rev_shoup_sred_scaled_ntt256_12289_ok : RevTable 3 1002 8595 (-6144) 6144 8 rev_shoup_sred_scaled_ntt256_12289 := by
  have := rev_table rev_shoup_sred_scaled_ntt256_12289_packed shoup_sred_scaled_ntt256_12289_chk (by decide +kernel : revCheck Data.rev_shoup_sred_scaled_ntt256_12289 Data.shoup_sred_scaled_ntt256_12289 8 = true)
  exact_mod_cast this

theorem shoup_red_ntt512_12289_chk : stdCheck Data.shoup_red_ntt512_12289 3 1 10600 9 = true := by decide +kernel
theorem shoup_red_ntt512_12289_packed : Packed 0 12288 (2 ^ 9) Data.shoup_red_ntt512_12289 shoup_red_ntt512_12289 := packed_su (by decide +kernel : rangeU Data.shoup_red_ntt512_12289 (2 ^ 9) = true)
theorem shoup_red_ntt512_12289_ok : StdTable 3 1 10600 0 12288 9 shoup_red_ntt512_12289 := by
  have := std_table shoup_red_ntt512_12289_packed shoup_red_ntt512_12289_chk
  exact_mod_cast this

theorem rev_shoup_red_ntt512_12289_packed : Packed 0 12288 (2 ^ 9) Data.rev_shoup_red_ntt512_12289 rev_shoup_red_ntt512_12289 := packed_su (by decide +kernel : rangeU Data.rev_shoup_red_ntt512_12289 (2 ^ 9) = true)
theorem rev_shoup_red_ntt512_12289_ok : RevTable 3 1 10600 0 12288 9 rev_shoup_red_ntt512_12289 := by
  have := rev_table rev_shoup_red_ntt512_12289_packed shoup_red_ntt512_12289_chk (by decide +kernel : revCheck Data.rev_shoup_red_ntt512_12289 Data.shoup_red_ntt512_12289 9 = true)
  exact_mod_cast this

theorem shoup_red_scaled_ntt512_12289_chk : stdCheck Data.shoup_red_scaled_ntt512_12289 3 1003 10600 9 = true := by decide +kernel
theorem shoup_red_scaled_ntt512_12289_packed : Packed 0 12288 (2 ^ 9) Data.shoup_red_scaled_ntt512_12289 shoup_red_scaled_ntt512_12289 := packed_su (by decide +kernel : rangeU Data.shoup_red_scaled_ntt512_12289 (2 ^ 9) = true)
theorem shoup_red_scaled_ntt512_12289_ok : StdTable 3 1003 10600 0 12288 9 shoup_red_scaled_ntt512_12289 := by
  have := std_table shoup_red_scaled_ntt512_12289_packed shoup_red_scaled_ntt512_12289_chk
  exact_mod_cast this

theorem rev_shoup_red_scaled_ntt512_12289_packed : Packed 0 12288 (2 ^ 9) Data.rev_shoup_red_scaled_ntt512_12289 rev_shoup_red_scaled_ntt512_12289 := packed_su (by decide +kernel : rangeU Data.rev_shoup_red_scaled_ntt512_12289 (2 ^ 9) = true)
theorem rev_shoup_red_scaled_ntt512_12289_ok : RevTable 3 1003 10600 0 12288 9 rev_shoup_red_scaled_ntt512_12289 := by
  have := rev_table rev_shoup_red_scaled_ntt512_12289_packed shoup_red_scaled_ntt512_12289_chk (by decide +kernel : revCheck Data.rev_shoup_red_scaled_ntt512_12289 Data.shoup_red_scaled_ntt512_12289 9 = true)
  exact_mod_cast this

theorem shoup_sred_ntt512_12289_chk : stdCheck Data.shoup_sred_ntt512_12289 3 1 10600 9 = true := by decide +kernel
theorem shoup_sred_ntt512_12289_packed : Packed (-6144) 6144 (2 ^ 9) Data.shoup_sred_ntt512_12289 shoup_sred_ntt512_12289 := packed_s (by decide +kernel : rangeS Data.shoup_sred_ntt512_12289 (2 ^ 9) = true)
theorem shoup_sred_ntt512_12289_ok : StdTable 3 1 10600 (-6144) 6144 9 shoup_sred_ntt512_12289 := by
  have := std_table shoup_sred_ntt512_12289_packed shoup_sred_ntt512_12289_chk
  exact_mod_cast this

theorem rev_shoup_sred_ntt512_12289_packed : Packed (-6144) 6144 (2 ^ 9) Data.rev_shoup_sred_ntt512_12289 rev_shoup_sred_ntt512_12289 := packed_s (by decide +kernel : rangeS Data.rev_shoup_sred_ntt512_12289 (2 ^ 9) = true)
theorem rev_shoup_sred_ntt512_12289_ok : RevTable 3 1 10600 (-6144) 6144 9 rev_shoup_sred_ntt512_12289 := by
  have := rev_table rev_shoup_sred_ntt512_12289_packed shoup_sred_ntt512_12289_chk (by decide +kernel : revCheck Data.rev_shoup_sred_ntt512_12289 Data.shoup_sred_ntt512_12289 9 = true)
  exact_mod_cast this

theorem shoup_sred_scaled_ntt512_12289_chk : stdCheck Data.shoup_sred_scaled_ntt512_12289 3 1003 10600 9 = true := by decide +kernel
theorem shoup_sred_scaled_ntt512_12289_packed : Packed (-6144) 6144 (2 ^ 9) Data.shoup_sred_scaled_ntt512_12289 shoup_sred_scaled_ntt512_12289 := packed_s (by decide +kernel : rangeS Data.shoup_sred_scaled_ntt512_12289 (2 ^ 9) = true)
theorem shoup_sred_scaled_ntt512_12289_ok : StdTable 3 1003 10600 (-6144) 6144 9 shoup_sred_scaled_ntt512_12289 := by
  have := std_table shoup_sred_scaled_ntt512_12289_packed shoup_sred_scaled_ntt512_12289_chk
  exact_mod_cast this

theorem rev_shoup_sred_scaled_ntt512_12289_packed : Packed (-6144) 6144 (2 ^ 9) Data.rev_shoup_sred_scaled_ntt512_12289 rev_shoup_sred_scaled_ntt512_12289 := packed_s (by decide +kernel : rangeS Data.rev_shoup_sred_scaled_ntt512_12289 (2 ^ 9) = true)
theorem rev_shoup_sred_scaled_ntt512_12289_ok : RevTable 3 1003 10600 (-6144) 6144 9 rev_shoup_sred_scaled_ntt512_12289 := by
  have := rev_table rev_shoup_sred_scaled_ntt512_12289_packed shoup_sred_scaled_ntt512_12289_chk (by decide +kernel : revCheck Data.rev_shoup_sred_scaled_ntt512_12289 Data.shoup_sred_scaled_ntt512_12289 9 = true)
  exact_mod_cast this

theorem shoup_red_ntt1024_12289_chk : stdCheck Data.shoup_red_ntt1024_12289 3 1 8209 10 = true := by decide +kernel
theorem shoup_red_ntt1024_12289_packed : Packed 0 12288 (2 ^ 10) Data.shoup_red_ntt1024_12289 shoup_red_ntt1024_12289 := packed_su (by decide +kernel : rangeU Data.shoup_red_ntt1024_12289 (2 ^ 10) = true)
theorem shoup_red_ntt1024_12289_ok : StdTable 3 1 8209 0 12288 10 shoup_red_ntt1024_12289 := by
  have := std_table shoup_red_ntt1024_12289_packed shoup_red_ntt1024_12289_chk
  exact_mod_cast this

theorem rev_shoup_red_ntt1024_12289_packed : Packed 0 12288 (2 ^ 10) Data.rev_shoup_red_ntt1024_12289 rev_shoup_red_ntt1024_12289 := packed_su (by decide +kernel : rangeU Data.rev_shoup_red_ntt1024_12289 (2 ^ 10) = true)
theorem rev_shoup_red_ntt1024_12289_ok : RevTable 3 1 8209 0 12288 10 rev_shoup_red_ntt1024_12289 := by
  have := rev_table rev_shoup_red_ntt1024_12289_packed shoup_red_ntt1024_12289_chk (by decide +kernel : revCheck Data.rev_shoup_red_ntt1024_12289 Data.shoup_red_ntt1024_12289 10 = true)
  exact_mod_cast this

theorem shoup_red_scaled_ntt1024_12289_chk : stdCheck Data.shoup_red_scaled_ntt1024_12289 3 1014 8209 10 = true := by decide +kernel
theorem shoup_red_scaled_ntt1024_12289_packed : Packed 0 12288 (2 ^ 10) Data.shoup_red_scaled_ntt1024_12289 shoup_red_scaled_ntt1024_12289 := packed_su (by decide +kernel : rangeU Data.shoup_red_scaled_ntt1024_12289 (2 ^ 10) = true)
theorem shoup_red_scaled_ntt1024_12289_ok : StdTable 3 1014 8209 0 12288 10 shoup_red_scaled_ntt1024_12289 := by
  have := std_table shoup_red_scaled_ntt1024_12289_packed shoup_red_scaled_ntt1024_12289_chk
  exact_mod_cast this

theorem rev_shoup_red_scaled_ntt1024_12289_packed : Packed 0 12288 (2 ^ 10) Data.rev_shoup_red_scaled_ntt1024_12289 rev_shoup_red_scaled_ntt1024_12289 := packed_su (by decide +kernel : rangeU Data.rev_shoup_red_scaled_ntt1024_12289 (2 ^ 10) = true)
theorem rev_shoup_red_scaled_ntt1024_12289_ok : RevTable 3 1014 8209 0 12288 10 rev_shoup_red_scaled_ntt1024_12289 := by
  have := rev_table rev_shoup_red_scaled_ntt1024_12289_packed shoup_red_scaled_ntt1024_12289_chk (by decide +kernel : revCheck Data.rev_shoup_red_scaled_ntt1024_12289 Data.shoup_red_scaled_ntt1024_12289 10 = true)
  exact_mod_cast this

theorem shoup_sred_ntt1024_12289_chk : stdCheck Data.shoup_sred_ntt1024_12289 3 1 8209 10 = true := by decide +kernel
theorem shoup_sred_ntt1024_12289_packed : Packed (-6144) 6144 (2 ^ 10) Data.shoup_sred_ntt1024_12289 shoup_sred_ntt1024_12289 := packed_s (by decide +kernel : rangeS Data.shoup_sred_ntt1024_12289 (2 ^ 10) = true)
theorem shoup_sred_ntt1024_12289_ok : StdTable 3 1 8209 (-6144) 6144 10 shoup_sred_ntt1024_12289 := by
  have := std_table shoup_sred_ntt1024_12289_packed shoup_sred_ntt1024_12289_chk
  exact_mod_cast this

theorem rev_shoup_sred_ntt1024_12289_packed : Packed (-6144) 6144 (2 ^ 10) Data.rev_shoup_sred_ntt1024_12289 rev_shoup_sred_ntt1024_12289 := packed_s (by decide +kernel : rangeS Data.rev_shoup_sred_ntt1024_12289 (2 ^ 10) = true)
theorem rev_shoup_sred_ntt1024_12289_ok : RevTable 3 1 8209 (-6144) 6144 10 rev_shoup_sred_ntt1024_12289 := by
  have := rev_table rev_shoup_sred_ntt1024_12289_packed shoup_sred_ntt1024_12289_chk (by decide +kernel : revCheck Data.rev_shoup_sred_ntt1024_12289 Data.shoup_sred_ntt1024_12289 10 = true)
  exact_mod_cast this

theorem shoup_sred_scaled_ntt1024_12289_chk : stdCheck Data.shoup_sred_scaled_ntt1024_12289 3 1014 8209 10 = true := by decide +kernel
theorem shoup_sred_scaled_ntt1024_12289_packed : Packed (-6144) 6144 (2 ^ 10) Data.shoup_sred_scaled_ntt1024_12289 shoup_sred_scaled_ntt1024_12289 := packed_s (by decide +kernel : rangeS Data.shoup_sred_scaled_ntt1024_12289 (2 ^ 10) = true)
theorem shoup_sred_scaled_ntt1024_12289_ok : StdTable 3 1014 8209 (-6144) 6144 10 shoup_sred_scaled_ntt1024_12289 := by
  have := std_table shoup_sred_scaled_ntt1024_12289_packed shoup_sred_scaled_ntt1024_12289_chk
  exact_mod_cast this

theorem rev_shoup_sred_scaled_ntt1024_12289_packed : Packed (-6144) 6144 (2 ^ 10) Data.rev_shoup_sred_scaled_ntt1024_12289 rev_shoup_sred_scaled_ntt1024_12289 := packed_s (by decide +kernel : rangeS Data.rev_shoup_sred_scaled_ntt1024_12289 (2 ^ 10) = true)
theorem rev_shoup_sred_scaled_ntt1024_12289_ok : RevTable 3 1014 8209 (-6144) 6144 10 rev_shoup_sred_scaled_ntt1024_12289 := by
  have := rev_table rev_shoup_sred_scaled_ntt1024_12289_packed shoup_sred_scaled_ntt1024_12289_chk (by decide +kernel : revCheck Data.rev_shoup_sred_scaled_ntt1024_12289 Data.shoup_sred_scaled_ntt1024_12289 10 = true)
  exact_mod_cast this

theorem shoup_red_ntt2048_12289_chk : stdCheck Data.shoup_red_ntt2048_12289 3 1 12269 11 = true := by decide +kernel
theorem shoup_red_ntt2048_12289_packed : Packed 0 12288 (2 ^ 11) Data.shoup_red_ntt2048_12289 shoup_red_ntt2048_12289 := packed_su (by decide +kernel : rangeU Data.shoup_red_ntt2048_12289 (2 ^ 11) = true)
theorem shoup_red_ntt2048_12289_ok : StdTable 3 1 12269 0 12288 11 shoup_red_ntt2048_12289 := by
  have := std_table shoup_red_ntt2048_12289_packed shoup_red_ntt2048_12289_chk
  exact_mod_cast this

theorem rev_shoup_red_ntt2048_12289_packed : Packed 0 12288 (2 ^ 11) Data.rev_shoup_red_ntt2048_12289 rev_shoup_red_ntt2048_12289 := packed_su (by decide +kernel : rangeU Data.rev_shoup_red_ntt2048_12289 (2 ^ 11) = true)
theorem rev_shoup_red_ntt2048_12289_ok : RevTable 3 1 12269 0 12288 11 rev_shoup_red_ntt2048_12289 := by
  have := rev_table rev_shoup_red_ntt2048_12289_packed shoup_red_ntt2048_12289_chk (by decide +kernel : revCheck Data.rev_shoup_red_ntt2048_12289 Data.shoup_red_ntt2048_12289 11 = true)
  exact_mod_cast this

theorem shoup_red_scaled_ntt2048_12289_chk : stdCheck Data.shoup_red_scaled_ntt2048_12289 3 1016 12269 11 = true := by decide +kernel
theorem shoup_red_scaled_ntt2048_12289_packed : Packed 0 12288 (2 ^ 11) Data.shoup_red_scaled_ntt2048_12289 shoup_red_scaled_ntt2048_12289 := packed_su (by decide +kernel : rangeU Data.shoup_red_scaled_ntt2048_12289 (2 ^ 11) = true)
theorem shoup_red_scaled_ntt2048_12289_ok : StdTable 3 1016 12269 0 12288 11 shoup_red_scaled_ntt2048_12289 := by
  have := std_table shoup_red_scaled_ntt2048_12289_packed shoup_red_scaled_ntt2048_12289_chk
  exact_mod_cast this

theorem rev_shoup_red_scaled_ntt2048_12289_packed : Packed 0 12288 (2 ^ 11) Data.rev_shoup_red_scaled_ntt2048_12289 rev_shoup_red_scaled_ntt2048_12289 := packed_su (by decide +kernel : rangeU Data.rev_shoup_red_scaled_ntt2048_12289 (2 ^ 11) = true)
theorem rev_shoup_red_scaled_ntt2048_12289_ok : RevTable 3 1016 12269 0 12288 11 rev_shoup_red_scaled_ntt2048_12289 := by
  have := rev_table rev_shoup_red_scaled_ntt2048_12289_packed shoup_red_scaled_ntt2048_12289_chk (by decide +kernel : revCheck Data.rev_shoup_red_scaled_ntt2048_12289 Data.shoup_red_scaled_ntt2048_12289 11 = true)
  exact_mod_cast this

theorem shoup_sred_ntt2048_12289_chk : stdCheck Data.shoup_sred_ntt2048_12289 3 1 12269 11 = true := by decide +kernel
theorem shoup_sred_ntt2048_12289_packed : Packed (-6144) 6144 (2 ^ 11) Data.shoup_sred_ntt2048_12289 shoup_sred_ntt2048_12289 := packed_s (by decide +kernel : rangeS Data.shoup_sred_ntt2048_12289 (2 ^ 11) = true)
theorem shoup_sred_ntt2048_12289_ok : StdTable 3 1 12269 (-6144) 6144 11 shoup_sred_ntt2048_12289 := by
  have := std_table shoup_sred_ntt2048_12289_packed shoup_sred_ntt2048_12289_chk
  exact_mod_cast this

theorem rev_shoup_sred_ntt2048_12289_packed : Packed (-6144) 6144 (2 ^ 11) Data.rev_shoup_sred_ntt2048_12289 rev_shoup_sred_ntt2048_12289 := packed_s (by decide +kernel : rangeS Data.rev_shoup_sred_ntt2048_12289 (2 ^ 11) = true)
theorem rev_shoup_sred_ntt2048_12289_ok : RevTable 3 1 12269 (-6144) 6144 11 rev_shoup_sred_ntt2048_12289 := by
  have := rev_table rev_shoup_sred_ntt2048_12289_packed shoup_sred_ntt2048_12289_chk (by decide +kernel : revCheck Data.rev_shoup_sred_ntt2048_12289 Data.shoup_sred_ntt2048_12289 11 = true)
  exact_mod_cast this

theorem shoup_sred_scaled_ntt2048_12289_chk : stdCheck Data.shoup_sred_scaled_ntt2048_12289 3 1016 12269 11 = true := by decide +kernel
theorem shoup_sred_scaled_ntt2048_12289_packed : Packed (-6144) 6144 (2 ^ 11) Data.shoup_sred_scaled_ntt2048_12289 shoup_sred_scaled_ntt2048_12289 := packed_s (by decide +kernel : rangeS Data.shoup_sred_scaled_ntt2048_12289 (2 ^ 11) = true)
theorem shoup_sred_scaled_ntt2048_12289_ok : StdTable 3 1016 12269 (-6144) 6144 11 shoup_sred_scaled_ntt2048_12289 := by
  have := std_table shoup_sred_scaled_ntt2048_12289_packed shoup_sred_scaled_ntt2048_12289_chk
  exact_mod_cast this

theorem rev_shoup_sred_scaled_ntt2048_12289_packed : Packed (-6144) 6144 (2 ^ 11) Data.rev_shoup_sred_scaled_ntt2048_12289 rev_shoup_sred_scaled_ntt2048_12289 := packed_s (by decide +kernel : rangeS Data.rev_shoup_sred_scaled_ntt2048_12289 (2 ^ 11) = true)
theorem rev_shoup_sred_scaled_ntt2048_12289_ok : RevTable 3 1016 12269 (-6144) 6144 11 rev_shoup_sred_scaled_ntt2048_12289 := by
  have := rev_table rev_shoup_sred_scaled_ntt2048_12289_packed shoup_sred_scaled_ntt2048_12289_chk (by decide +kernel : revCheck Data.rev_shoup_sred_scaled_ntt2048_12289 Data.shoup_sred_scaled_ntt2048_12289 11 = true)
  exact_mod_cast this

theorem bitrev128_pair_ok : PairTable 7 TestTables.BITREV128_NPAIRS bitrev128_pair :=
  pair_table (by decide +kernel) (by decide +kernel)

theorem bitrev256_pair_ok : PairTable 8 TestTables.BITREV256_NPAIRS bitrev256_pair :=
  pair_table (by decide +kernel) (by decide +kernel)

theorem bitrev512_pair_ok : PairTable 9 TestTables.BITREV512_NPAIRS bitrev512_pair :=
  pair_table (by decide +kernel) (by decide +kernel)

theorem bitrev1024_pair_ok : PairTable 10 TestTables.BITREV1024_NPAIRS bitrev1024_pair :=
  pair_table (by decide +kernel) (by decide +kernel)

theorem bitrev2048_pair_ok : PairTable 11 TestTables.BITREV2048_NPAIRS bitrev2048_pair :=
  pair_table (by decide +kernel) (by decide +kernel)

end TestTables
