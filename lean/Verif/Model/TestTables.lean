import Verif.Model.TestTablesData

/-
The tables checked in to the repository for the test programs: src/test_ntt_tables.c, src/test_ntt_red_tables.c,
src/test_bitrev_tables.c, and src/ntt32_tables.c (except `ntt32_bitrev`, which is in Model/BitrevTables.lean).
Written by tools/gentesttables.py.
-/

namespace TestTables

/-- The array of `n` unsigned 16-bit integers represented by `x` (Model/TestTablesData.lean). -/
def u16 (n x : Nat) : Array Int :=
  Array.ofFn (n := n) fun i => (((x >>> (16 * i.val)) % 65536 : Nat) : Int)

/-- The array of `n` signed 16-bit integers represented by `x` (Model/TestTablesData.lean). -/
def s16 (n x : Nat) : Array Int :=
  Array.ofFn (n := n) fun i =>
    if (x >>> (16 * i.val)) % 65536 < 32768 then (((x >>> (16 * i.val)) % 65536 : Nat) : Int)
    else (((x >>> (16 * i.val)) % 65536 : Nat) : Int) - 65536

/-- `psi_powers_ntt16_12289` (src/test_ntt_tables.c:18-21). -/
def psi_powers_ntt16_12289 : Array Int := u16 16 Data.psi_powers_ntt16_12289

/-- `shoup_ntt16_12289` (src/test_ntt_tables.c:24-27). -/
def shoup_ntt16_12289 : Array Int := u16 16 Data.shoup_ntt16_12289

/-- `rev_shoup_ntt16_12289` (src/test_ntt_tables.c:31-34). -/
def rev_shoup_ntt16_12289 : Array Int := u16 16 Data.rev_shoup_ntt16_12289

/-- `shoup_scaled_ntt16_12289` (src/test_ntt_tables.c:38-41). -/
def shoup_scaled_ntt16_12289 : Array Int := u16 16 Data.shoup_scaled_ntt16_12289

/-- `rev_shoup_scaled_ntt16_12289` (src/test_ntt_tables.c:46-49). -/
def rev_shoup_scaled_ntt16_12289 : Array Int := u16 16 Data.rev_shoup_scaled_ntt16_12289

/-- `psi_powers_ntt256_12289` (src/test_ntt_tables.c:60-93). -/
def psi_powers_ntt256_12289 : Array Int := u16 256 Data.psi_powers_ntt256_12289

/-- `shoup_ntt256_12289` (src/test_ntt_tables.c:95-128). -/
def shoup_ntt256_12289 : Array Int := u16 256 Data.shoup_ntt256_12289

/-- `rev_shoup_ntt256_12289` (src/test_ntt_tables.c:130-163). -/
def rev_shoup_ntt256_12289 : Array Int := u16 256 Data.rev_shoup_ntt256_12289

/-- `shoup_scaled_ntt256_12289` (src/test_ntt_tables.c:165-198). -/
def shoup_scaled_ntt256_12289 : Array Int := u16 256 Data.shoup_scaled_ntt256_12289

/-- `rev_shoup_scaled_ntt256_12289` (src/test_ntt_tables.c:200-233). -/
def rev_shoup_scaled_ntt256_12289 : Array Int := u16 256 Data.rev_shoup_scaled_ntt256_12289

/-- `psi_powers_ntt512_12289` (src/test_ntt_tables.c:244-309). -/
def psi_powers_ntt512_12289 : Array Int := u16 512 Data.psi_powers_ntt512_12289

/-- `shoup_ntt512_12289` (src/test_ntt_tables.c:311-376). -/
def shoup_ntt512_12289 : Array Int := u16 512 Data.shoup_ntt512_12289

/-- `rev_shoup_ntt512_12289` (src/test_ntt_tables.c:378-443). -/
def rev_shoup_ntt512_12289 : Array Int := u16 512 Data.rev_shoup_ntt512_12289

/-- `shoup_scaled_ntt512_12289` (src/test_ntt_tables.c:445-510). -/
def shoup_scaled_ntt512_12289 : Array Int := u16 512 Data.shoup_scaled_ntt512_12289

/-- `rev_shoup_scaled_ntt512_12289` (src/test_ntt_tables.c:512-577). -/
def rev_shoup_scaled_ntt512_12289 : Array Int := u16 512 Data.rev_shoup_scaled_ntt512_12289

/-- `psi_powers_ntt1024_12289` (src/test_ntt_tables.c:588-717). -/
def psi_powers_ntt1024_12289 : Array Int := u16 1024 Data.psi_powers_ntt1024_12289

/-- `shoup_ntt1024_12289` (src/test_ntt_tables.c:719-848). -/
def shoup_ntt1024_12289 : Array Int := u16 1024 Data.shoup_ntt1024_12289

/-- `rev_shoup_ntt1024_12289` (src/test_ntt_tables.c:850-979). -/
def rev_shoup_ntt1024_12289 : Array Int := u16 1024 Data.rev_shoup_ntt1024_12289

/-- `shoup_scaled_ntt1024_12289` (src/test_ntt_tables.c:981-1110). -/
def shoup_scaled_ntt1024_12289 : Array Int := u16 1024 Data.shoup_scaled_ntt1024_12289

/-- `rev_shoup_scaled_ntt1024_12289` (src/test_ntt_tables.c:1112-1241). -/
def rev_shoup_scaled_ntt1024_12289 : Array Int := u16 1024 Data.rev_shoup_scaled_ntt1024_12289

/-- `shoup_red_ntt16_12289` (src/test_ntt_red_tables.c:21-24). -/
def shoup_red_ntt16_12289 : Array Int := s16 16 Data.shoup_red_ntt16_12289

/-- `shoup_sred_ntt16_12289` (src/test_ntt_red_tables.c:27-30). -/
def shoup_sred_ntt16_12289 : Array Int := s16 16 Data.shoup_sred_ntt16_12289

/-- `rev_shoup_red_ntt16_12289` (src/test_ntt_red_tables.c:34-37). -/
def rev_shoup_red_ntt16_12289 : Array Int := s16 16 Data.rev_shoup_red_ntt16_12289

/-- `rev_shoup_sred_ntt16_12289` (src/test_ntt_red_tables.c:40-43). -/
def rev_shoup_sred_ntt16_12289 : Array Int := s16 16 Data.rev_shoup_sred_ntt16_12289

/-- `shoup_red_scaled_ntt16_12289` (src/test_ntt_red_tables.c:47-50). -/
def shoup_red_scaled_ntt16_12289 : Array Int := s16 16 Data.shoup_red_scaled_ntt16_12289

/-- `shoup_sred_scaled_ntt16_12289` (src/test_ntt_red_tables.c:53-56). -/
def shoup_sred_scaled_ntt16_12289 : Array Int := s16 16 Data.shoup_sred_scaled_ntt16_12289

/-- `rev_shoup_red_scaled_ntt16_12289` (src/test_ntt_red_tables.c:61-64). -/
def rev_shoup_red_scaled_ntt16_12289 : Array Int := s16 16 Data.rev_shoup_red_scaled_ntt16_12289

/-- `rev_shoup_sred_scaled_ntt16_12289` (src/test_ntt_red_tables.c:67-70). -/
def rev_shoup_sred_scaled_ntt16_12289 : Array Int := s16 16 Data.rev_shoup_sred_scaled_ntt16_12289

/-- `shoup_red_ntt128_12289` (src/test_ntt_red_tables.c:83-100). -/
def shoup_red_ntt128_12289 : Array Int := s16 128 Data.shoup_red_ntt128_12289

/-- `shoup_sred_ntt128_12289` (src/test_ntt_red_tables.c:102-119). -/
def shoup_sred_ntt128_12289 : Array Int := s16 128 Data.shoup_sred_ntt128_12289

/-- `rev_shoup_red_ntt128_12289` (src/test_ntt_red_tables.c:121-138). -/
def rev_shoup_red_ntt128_12289 : Array Int := s16 128 Data.rev_shoup_red_ntt128_12289

/-- `rev_shoup_sred_ntt128_12289` (src/test_ntt_red_tables.c:140-157). -/
def rev_shoup_sred_ntt128_12289 : Array Int := s16 128 Data.rev_shoup_sred_ntt128_12289

/-- `shoup_red_scaled_ntt128_12289` (src/test_ntt_red_tables.c:159-176). -/
def shoup_red_scaled_ntt128_12289 : Array Int := s16 128 Data.shoup_red_scaled_ntt128_12289

/-- `shoup_sred_scaled_ntt128_12289` (src/test_ntt_red_tables.c:178-195). -/
def shoup_sred_scaled_ntt128_12289 : Array Int := s16 128 Data.shoup_sred_scaled_ntt128_12289

/-- `rev_shoup_red_scaled_ntt128_12289` (src/test_ntt_red_tables.c:197-214). -/
def rev_shoup_red_scaled_ntt128_12289 : Array Int := s16 128 Data.rev_shoup_red_scaled_ntt128_12289

/-- `rev_shoup_sred_scaled_ntt128_12289` (src/test_ntt_red_tables.c:216-233). -/
def rev_shoup_sred_scaled_ntt128_12289 : Array Int := s16 128 Data.rev_shoup_sred_scaled_ntt128_12289

/-- `shoup_red_ntt256_12289` (src/test_ntt_red_tables.c:246-279). -/
def shoup_red_ntt256_12289 : Array Int := s16 256 Data.shoup_red_ntt256_12289

/-- `shoup_sred_ntt256_12289` (src/test_ntt_red_tables.c:281-314). -/
def shoup_sred_ntt256_12289 : Array Int := s16 256 Data.shoup_sred_ntt256_12289

/-- `rev_shoup_red_ntt256_12289` (src/test_ntt_red_tables.c:316-349). -/
def rev_shoup_red_ntt256_12289 : Array Int := s16 256 Data.rev_shoup_red_ntt256_12289

/-- `rev_shoup_sred_ntt256_12289` (src/test_ntt_red_tables.c:351-384). -/
def rev_shoup_sred_ntt256_12289 : Array Int := s16 256 Data.rev_shoup_sred_ntt256_12289

/-- `shoup_red_scaled_ntt256_12289` (src/test_ntt_red_tables.c:386-419). -/
def shoup_red_scaled_ntt256_12289 : Array Int := s16 256 Data.shoup_red_scaled_ntt256_12289

/-- `shoup_sred_scaled_ntt256_12289` (src/test_ntt_red_tables.c:421-454). -/
def shoup_sred_scaled_ntt256_12289 : Array Int := s16 256 Data.shoup_sred_scaled_ntt256_12289

/-- `rev_shoup_red_scaled_ntt256_12289` (src/test_ntt_red_tables.c:456-489). -/
def rev_shoup_red_scaled_ntt256_12289 : Array Int := s16 256 Data.rev_shoup_red_scaled_ntt256_12289

/-- `rev_shoup_sred_scaled_ntt256_12289` (src/test_ntt_red_tables.c:491-524). -/
def rev_shoup_sred_scaled_ntt256_12289 : Array Int := s16 256 Data.rev_shoup_sred_scaled_ntt256_12289

/-- `shoup_red_ntt512_12289` (src/test_ntt_red_tables.c:537-602). -/
def shoup_red_ntt512_12289 : Array Int := s16 512 Data.shoup_red_ntt512_12289

/-- `shoup_sred_ntt512_12289` (src/test_ntt_red_tables.c:604-669). -/
def shoup_sred_ntt512_12289 : Array Int := s16 512 Data.shoup_sred_ntt512_12289

/-- `rev_shoup_red_ntt512_12289` (src/test_ntt_red_tables.c:671-736). -/
def rev_shoup_red_ntt512_12289 : Array Int := s16 512 Data.rev_shoup_red_ntt512_12289

/-- `rev_shoup_sred_ntt512_12289` (src/test_ntt_red_tables.c:738-803). -/
def rev_shoup_sred_ntt512_12289 : Array Int := s16 512 Data.rev_shoup_sred_ntt512_12289

/-- `shoup_red_scaled_ntt512_12289` (src/test_ntt_red_tables.c:805-870). -/
def shoup_red_scaled_ntt512_12289 : Array Int := s16 512 Data.shoup_red_scaled_ntt512_12289

/-- `shoup_sred_scaled_ntt512_12289` (src/test_ntt_red_tables.c:872-937). -/
def shoup_sred_scaled_ntt512_12289 : Array Int := s16 512 Data.shoup_sred_scaled_ntt512_12289

/-- `rev_shoup_red_scaled_ntt512_12289` (src/test_ntt_red_tables.c:939-1004). -/
def rev_shoup_red_scaled_ntt512_12289 : Array Int := s16 512 Data.rev_shoup_red_scaled_ntt512_12289

/-- `rev_shoup_sred_scaled_ntt512_12289` (src/test_ntt_red_tables.c:1006-1071). -/
def rev_shoup_sred_scaled_ntt512_12289 : Array Int := s16 512 Data.rev_shoup_sred_scaled_ntt512_12289

/-- `shoup_red_ntt1024_12289` (src/test_ntt_red_tables.c:1084-1213). -/
def shoup_red_ntt1024_12289 : Array Int := s16 1024 Data.shoup_red_ntt1024_12289

/-- `shoup_sred_ntt1024_12289` (src/test_ntt_red_tables.c:1215-1344). -/
def shoup_sred_ntt1024_12289 : Array Int := s16 1024 Data.shoup_sred_ntt1024_12289

/-- `rev_shoup_red_ntt1024_12289` (src/test_ntt_red_tables.c:1346-1475). -/
def rev_shoup_red_ntt1024_12289 : Array Int := s16 1024 Data.rev_shoup_red_ntt1024_12289

/-- `rev_shoup_sred_ntt1024_12289` (src/test_ntt_red_tables.c:1477-1606). -/
def rev_shoup_sred_ntt1024_12289 : Array Int := s16 1024 Data.rev_shoup_sred_ntt1024_12289

/-- `shoup_red_scaled_ntt1024_12289` (src/test_ntt_red_tables.c:1608-1737). -/
def shoup_red_scaled_ntt1024_12289 : Array Int := s16 1024 Data.shoup_red_scaled_ntt1024_12289

/-- `shoup_sred_scaled_ntt1024_12289` (src/test_ntt_red_tables.c:1739-1868). -/
def shoup_sred_scaled_ntt1024_12289 : Array Int := s16 1024 Data.shoup_sred_scaled_ntt1024_12289

/-- `rev_shoup_red_scaled_ntt1024_12289` (src/test_ntt_red_tables.c:1870-1999). -/
def rev_shoup_red_scaled_ntt1024_12289 : Array Int := s16 1024 Data.rev_shoup_red_scaled_ntt1024_12289

/-- `rev_shoup_sred_scaled_ntt1024_12289` (src/test_ntt_red_tables.c:2001-2130). -/
def rev_shoup_sred_scaled_ntt1024_12289 : Array Int := s16 1024 Data.rev_shoup_sred_scaled_ntt1024_12289

/-- `shoup_red_ntt2048_12289` (src/test_ntt_red_tables.c:2143-2400). -/
def shoup_red_ntt2048_12289 : Array Int := s16 2048 Data.shoup_red_ntt2048_12289

/-- `shoup_sred_ntt2048_12289` (src/test_ntt_red_tables.c:2403-2660). -/
def shoup_sred_ntt2048_12289 : Array Int := s16 2048 Data.shoup_sred_ntt2048_12289

/-- `rev_shoup_red_ntt2048_12289` (src/test_ntt_red_tables.c:2662-2919). -/
def rev_shoup_red_ntt2048_12289 : Array Int := s16 2048 Data.rev_shoup_red_ntt2048_12289

/-- `rev_shoup_sred_ntt2048_12289` (src/test_ntt_red_tables.c:2922-3179). -/
def rev_shoup_sred_ntt2048_12289 : Array Int := s16 2048 Data.rev_shoup_sred_ntt2048_12289

/-- `shoup_red_scaled_ntt2048_12289` (src/test_ntt_red_tables.c:3181-3438). -/
def shoup_red_scaled_ntt2048_12289 : Array Int := s16 2048 Data.shoup_red_scaled_ntt2048_12289

/-- `shoup_sred_scaled_ntt2048_12289` (src/test_ntt_red_tables.c:3441-3698). -/
def shoup_sred_scaled_ntt2048_12289 : Array Int := s16 2048 Data.shoup_sred_scaled_ntt2048_12289

/-- `rev_shoup_red_scaled_ntt2048_12289` (src/test_ntt_red_tables.c:3700-3957). -/
def rev_shoup_red_scaled_ntt2048_12289 : Array Int := s16 2048 Data.rev_shoup_red_scaled_ntt2048_12289

/-- `rev_shoup_sred_scaled_ntt2048_12289` (src/test_ntt_red_tables.c:3960-4217). -/
def rev_shoup_sred_scaled_ntt2048_12289 : Array Int := s16 2048 Data.rev_shoup_sred_scaled_ntt2048_12289

/-- `ntt32_psi_powers` (src/ntt32_tables.c:20-25). -/
def ntt32_psi_powers : Array Int := u16 32 Data.ntt32_psi_powers

/-- `ntt32_inv_psi_powers` (src/ntt32_tables.c:27-32). -/
def ntt32_inv_psi_powers : Array Int := u16 32 Data.ntt32_inv_psi_powers

/-- `ntt32_scaled_inv_psi_powers` (src/ntt32_tables.c:34-39). -/
def ntt32_scaled_inv_psi_powers : Array Int := u16 32 Data.ntt32_scaled_inv_psi_powers

/-- `ntt32_omega_powers` (src/ntt32_tables.c:41-46). -/
def ntt32_omega_powers : Array Int := u16 32 Data.ntt32_omega_powers

/-- `ntt32_omega_powers_rev` (src/ntt32_tables.c:48-53). -/
def ntt32_omega_powers_rev : Array Int := u16 32 Data.ntt32_omega_powers_rev

/-- `ntt32_inv_omega_powers` (src/ntt32_tables.c:55-60). -/
def ntt32_inv_omega_powers : Array Int := u16 32 Data.ntt32_inv_omega_powers

/-- `ntt32_inv_omega_powers_rev` (src/ntt32_tables.c:62-67). -/
def ntt32_inv_omega_powers_rev : Array Int := u16 32 Data.ntt32_inv_omega_powers_rev

/-- `ntt32_mixed_powers` (src/ntt32_tables.c:69-74). -/
def ntt32_mixed_powers : Array Int := u16 32 Data.ntt32_mixed_powers

/-- `ntt32_mixed_powers_rev` (src/ntt32_tables.c:76-81). -/
def ntt32_mixed_powers_rev : Array Int := u16 32 Data.ntt32_mixed_powers_rev

/-- `ntt32_inv_mixed_powers` (src/ntt32_tables.c:83-88). -/
def ntt32_inv_mixed_powers : Array Int := u16 32 Data.ntt32_inv_mixed_powers

/-- `ntt32_inv_mixed_powers_rev` (src/ntt32_tables.c:90-95). -/
def ntt32_inv_mixed_powers_rev : Array Int := u16 32 Data.ntt32_inv_mixed_powers_rev

/-- `BITREV128_NPAIRS` (src/test_bitrev_tables.h:13). -/
def BITREV128_NPAIRS : Nat := 56

/-- `bitrev128_pair` (src/test_bitrev_tables.c:8-23). -/
def bitrev128_pair : Array (Nat × Nat) := #[
  (1, 64), (2, 32), (3, 96), (4, 16), (5, 80), (6, 48), (7, 112), (9, 72),
  (10, 40), (11, 104), (12, 24), (13, 88), (14, 56), (15, 120), (17, 68), (18, 36),
  (19, 100), (21, 84), (22, 52), (23, 116), (25, 76), (26, 44), (27, 108), (29, 92),
  (30, 60), (31, 124), (33, 66), (35, 98), (37, 82), (38, 50), (39, 114), (41, 74),
  (43, 106), (45, 90), (46, 58), (47, 122), (49, 70), (51, 102), (53, 86), (55, 118),
  (57, 78), (59, 110), (61, 94), (63, 126), (67, 97), (69, 81), (71, 113), (75, 105),
  (77, 89), (79, 121), (83, 101), (87, 117), (91, 109), (95, 125), (103, 115), (111, 123)
]

/-- `BITREV256_NPAIRS` (src/test_bitrev_tables.h:14). -/
def BITREV256_NPAIRS : Nat := 120

/-- `bitrev256_pair` (src/test_bitrev_tables.c:27-58). -/
def bitrev256_pair : Array (Nat × Nat) := #[
  (1, 128), (2, 64), (3, 192), (4, 32), (5, 160), (6, 96), (7, 224), (8, 16),
  (9, 144), (10, 80), (11, 208), (12, 48), (13, 176), (14, 112), (15, 240), (17, 136),
  (18, 72), (19, 200), (20, 40), (21, 168), (22, 104), (23, 232), (25, 152), (26, 88),
  (27, 216), (28, 56), (29, 184), (30, 120), (31, 248), (33, 132), (34, 68), (35, 196),
  (37, 164), (38, 100), (39, 228), (41, 148), (42, 84), (43, 212), (44, 52), (45, 180),
  (46, 116), (47, 244), (49, 140), (50, 76), (51, 204), (53, 172), (54, 108), (55, 236),
  (57, 156), (58, 92), (59, 220), (61, 188), (62, 124), (63, 252), (65, 130), (67, 194),
  (69, 162), (70, 98), (71, 226), (73, 146), (74, 82), (75, 210), (77, 178), (78, 114),
  (79, 242), (81, 138), (83, 202), (85, 170), (86, 106), (87, 234), (89, 154), (91, 218),
  (93, 186), (94, 122), (95, 250), (97, 134), (99, 198), (101, 166), (103, 230), (105, 150),
  (107, 214), (109, 182), (110, 118), (111, 246), (113, 142), (115, 206), (117, 174), (119, 238),
  (121, 158), (123, 222), (125, 190), (127, 254), (131, 193), (133, 161), (135, 225), (137, 145),
  (139, 209), (141, 177), (143, 241), (147, 201), (149, 169), (151, 233), (155, 217), (157, 185),
  (159, 249), (163, 197), (167, 229), (171, 213), (173, 181), (175, 245), (179, 205), (183, 237),
  (187, 221), (191, 253), (199, 227), (203, 211), (207, 243), (215, 235), (223, 251), (239, 247)
]

/-- `BITREV512_NPAIRS` (src/test_bitrev_tables.h:15). -/
def BITREV512_NPAIRS : Nat := 240

/-- `bitrev512_pair` (src/test_bitrev_tables.c:61-122). -/
def bitrev512_pair : Array (Nat × Nat) := #[
  (1, 256), (2, 128), (3, 384), (4, 64), (5, 320), (6, 192), (7, 448), (8, 32),
  (9, 288), (10, 160), (11, 416), (12, 96), (13, 352), (14, 224), (15, 480), (17, 272),
  (18, 144), (19, 400), (20, 80), (21, 336), (22, 208), (23, 464), (24, 48), (25, 304),
  (26, 176), (27, 432), (28, 112), (29, 368), (30, 240), (31, 496), (33, 264), (34, 136),
  (35, 392), (36, 72), (37, 328), (38, 200), (39, 456), (41, 296), (42, 168), (43, 424),
  (44, 104), (45, 360), (46, 232), (47, 488), (49, 280), (50, 152), (51, 408), (52, 88),
  (53, 344), (54, 216), (55, 472), (57, 312), (58, 184), (59, 440), (60, 120), (61, 376),
  (62, 248), (63, 504), (65, 260), (66, 132), (67, 388), (69, 324), (70, 196), (71, 452),
  (73, 292), (74, 164), (75, 420), (76, 100), (77, 356), (78, 228), (79, 484), (81, 276),
  (82, 148), (83, 404), (85, 340), (86, 212), (87, 468), (89, 308), (90, 180), (91, 436),
  (92, 116), (93, 372), (94, 244), (95, 500), (97, 268), (98, 140), (99, 396), (101, 332),
  (102, 204), (103, 460), (105, 300), (106, 172), (107, 428), (109, 364), (110, 236), (111, 492),
  (113, 284), (114, 156), (115, 412), (117, 348), (118, 220), (119, 476), (121, 316), (122, 188),
  (123, 444), (125, 380), (126, 252), (127, 508), (129, 258), (131, 386), (133, 322), (134, 194),
  (135, 450), (137, 290), (138, 162), (139, 418), (141, 354), (142, 226), (143, 482), (145, 274),
  (147, 402), (149, 338), (150, 210), (151, 466), (153, 306), (154, 178), (155, 434), (157, 370),
  (158, 242), (159, 498), (161, 266), (163, 394), (165, 330), (166, 202), (167, 458), (169, 298),
  (171, 426), (173, 362), (174, 234), (175, 490), (177, 282), (179, 410), (181, 346), (182, 218),
  (183, 474), (185, 314), (187, 442), (189, 378), (190, 250), (191, 506), (193, 262), (195, 390),
  (197, 326), (199, 454), (201, 294), (203, 422), (205, 358), (206, 230), (207, 486), (209, 278),
  (211, 406), (213, 342), (215, 470), (217, 310), (219, 438), (221, 374), (222, 246), (223, 502),
  (225, 270), (227, 398), (229, 334), (231, 462), (233, 302), (235, 430), (237, 366), (239, 494),
  (241, 286), (243, 414), (245, 350), (247, 478), (249, 318), (251, 446), (253, 382), (255, 510),
  (259, 385), (261, 321), (263, 449), (265, 289), (267, 417), (269, 353), (271, 481), (275, 401),
  (277, 337), (279, 465), (281, 305), (283, 433), (285, 369), (287, 497), (291, 393), (293, 329),
  (295, 457), (299, 425), (301, 361), (303, 489), (307, 409), (309, 345), (311, 473), (315, 441),
  (317, 377), (319, 505), (323, 389), (327, 453), (331, 421), (333, 357), (335, 485), (339, 405),
  (343, 469), (347, 437), (349, 373), (351, 501), (355, 397), (359, 461), (363, 429), (367, 493),
  (371, 413), (375, 477), (379, 445), (383, 509), (391, 451), (395, 419), (399, 483), (407, 467),
  (411, 435), (415, 499), (423, 459), (431, 491), (439, 475), (447, 507), (463, 487), (479, 503)
]

/-- `BITREV1024_NPAIRS` (src/test_bitrev_tables.h:16). -/
def BITREV1024_NPAIRS : Nat := 496

/-- `bitrev1024_pair` (src/test_bitrev_tables.c:125-250). -/
def bitrev1024_pair : Array (Nat × Nat) := #[
  (1, 512), (2, 256), (3, 768), (4, 128), (5, 640), (6, 384), (7, 896), (8, 64),
  (9, 576), (10, 320), (11, 832), (12, 192), (13, 704), (14, 448), (15, 960), (16, 32),
  (17, 544), (18, 288), (19, 800), (20, 160), (21, 672), (22, 416), (23, 928), (24, 96),
  (25, 608), (26, 352), (27, 864), (28, 224), (29, 736), (30, 480), (31, 992), (33, 528),
  (34, 272), (35, 784), (36, 144), (37, 656), (38, 400), (39, 912), (40, 80), (41, 592),
  (42, 336), (43, 848), (44, 208), (45, 720), (46, 464), (47, 976), (49, 560), (50, 304),
  (51, 816), (52, 176), (53, 688), (54, 432), (55, 944), (56, 112), (57, 624), (58, 368),
  (59, 880), (60, 240), (61, 752), (62, 496), (63, 1008), (65, 520), (66, 264), (67, 776),
  (68, 136), (69, 648), (70, 392), (71, 904), (73, 584), (74, 328), (75, 840), (76, 200),
  (77, 712), (78, 456), (79, 968), (81, 552), (82, 296), (83, 808), (84, 168), (85, 680),
  (86, 424), (87, 936), (88, 104), (89, 616), (90, 360), (91, 872), (92, 232), (93, 744),
  (94, 488), (95, 1000), (97, 536), (98, 280), (99, 792), (100, 152), (101, 664), (102, 408),
  (103, 920), (105, 600), (106, 344), (107, 856), (108, 216), (109, 728), (110, 472), (111, 984),
  (113, 568), (114, 312), (115, 824), (116, 184), (117, 696), (118, 440), (119, 952), (121, 632),
  (122, 376), (123, 888), (124, 248), (125, 760), (126, 504), (127, 1016), (129, 516), (130, 260),
  (131, 772), (133, 644), (134, 388), (135, 900), (137, 580), (138, 324), (139, 836), (140, 196),
  (141, 708), (142, 452), (143, 964), (145, 548), (146, 292), (147, 804), (148, 164), (149, 676),
  (150, 420), (151, 932), (153, 612), (154, 356), (155, 868), (156, 228), (157, 740), (158, 484),
  (159, 996), (161, 532), (162, 276), (163, 788), (165, 660), (166, 404), (167, 916), (169, 596),
  (170, 340), (171, 852), (172, 212), (173, 724), (174, 468), (175, 980), (177, 564), (178, 308),
  (179, 820), (181, 692), (182, 436), (183, 948), (185, 628), (186, 372), (187, 884), (188, 244),
  (189, 756), (190, 500), (191, 1012), (193, 524), (194, 268), (195, 780), (197, 652), (198, 396),
  (199, 908), (201, 588), (202, 332), (203, 844), (205, 716), (206, 460), (207, 972), (209, 556),
  (210, 300), (211, 812), (213, 684), (214, 428), (215, 940), (217, 620), (218, 364), (219, 876),
  (220, 236), (221, 748), (222, 492), (223, 1004), (225, 540), (226, 284), (227, 796), (229, 668),
  (230, 412), (231, 924), (233, 604), (234, 348), (235, 860), (237, 732), (238, 476), (239, 988),
  (241, 572), (242, 316), (243, 828), (245, 700), (246, 444), (247, 956), (249, 636), (250, 380),
  (251, 892), (253, 764), (254, 508), (255, 1020), (257, 514), (259, 770), (261, 642), (262, 386),
  (263, 898), (265, 578), (266, 322), (267, 834), (269, 706), (270, 450), (271, 962), (273, 546),
  (274, 290), (275, 802), (277, 674), (278, 418), (279, 930), (281, 610), (282, 354), (283, 866),
  (285, 738), (286, 482), (287, 994), (289, 530), (291, 786), (293, 658), (294, 402), (295, 914),
  (297, 594), (298, 338), (299, 850), (301, 722), (302, 466), (303, 978), (305, 562), (307, 818),
  (309, 690), (310, 434), (311, 946), (313, 626), (314, 370), (315, 882), (317, 754), (318, 498),
  (319, 1010), (321, 522), (323, 778), (325, 650), (326, 394), (327, 906), (329, 586), (331, 842),
  (333, 714), (334, 458), (335, 970), (337, 554), (339, 810), (341, 682), (342, 426), (343, 938),
  (345, 618), (346, 362), (347, 874), (349, 746), (350, 490), (351, 1002), (353, 538), (355, 794),
  (357, 666), (358, 410), (359, 922), (361, 602), (363, 858), (365, 730), (366, 474), (367, 986),
  (369, 570), (371, 826), (373, 698), (374, 442), (375, 954), (377, 634), (379, 890), (381, 762),
  (382, 506), (383, 1018), (385, 518), (387, 774), (389, 646), (391, 902), (393, 582), (395, 838),
  (397, 710), (398, 454), (399, 966), (401, 550), (403, 806), (405, 678), (406, 422), (407, 934),
  (409, 614), (411, 870), (413, 742), (414, 486), (415, 998), (417, 534), (419, 790), (421, 662),
  (423, 918), (425, 598), (427, 854), (429, 726), (430, 470), (431, 982), (433, 566), (435, 822),
  (437, 694), (439, 950), (441, 630), (443, 886), (445, 758), (446, 502), (447, 1014), (449, 526),
  (451, 782), (453, 654), (455, 910), (457, 590), (459, 846), (461, 718), (463, 974), (465, 558),
  (467, 814), (469, 686), (471, 942), (473, 622), (475, 878), (477, 750), (478, 494), (479, 1006),
  (481, 542), (483, 798), (485, 670), (487, 926), (489, 606), (491, 862), (493, 734), (495, 990),
  (497, 574), (499, 830), (501, 702), (503, 958), (505, 638), (507, 894), (509, 766), (511, 1022),
  (515, 769), (517, 641), (519, 897), (521, 577), (523, 833), (525, 705), (527, 961), (529, 545),
  (531, 801), (533, 673), (535, 929), (537, 609), (539, 865), (541, 737), (543, 993), (547, 785),
  (549, 657), (551, 913), (553, 593), (555, 849), (557, 721), (559, 977), (563, 817), (565, 689),
  (567, 945), (569, 625), (571, 881), (573, 753), (575, 1009), (579, 777), (581, 649), (583, 905),
  (587, 841), (589, 713), (591, 969), (595, 809), (597, 681), (599, 937), (601, 617), (603, 873),
  (605, 745), (607, 1001), (611, 793), (613, 665), (615, 921), (619, 857), (621, 729), (623, 985),
  (627, 825), (629, 697), (631, 953), (635, 889), (637, 761), (639, 1017), (643, 773), (647, 901),
  (651, 837), (653, 709), (655, 965), (659, 805), (661, 677), (663, 933), (667, 869), (669, 741),
  (671, 997), (675, 789), (679, 917), (683, 853), (685, 725), (687, 981), (691, 821), (695, 949),
  (699, 885), (701, 757), (703, 1013), (707, 781), (711, 909), (715, 845), (719, 973), (723, 813),
  (727, 941), (731, 877), (733, 749), (735, 1005), (739, 797), (743, 925), (747, 861), (751, 989),
  (755, 829), (759, 957), (763, 893), (767, 1021), (775, 899), (779, 835), (783, 963), (787, 803),
  (791, 931), (795, 867), (799, 995), (807, 915), (811, 851), (815, 979), (823, 947), (827, 883),
  (831, 1011), (839, 907), (847, 971), (855, 939), (859, 875), (863, 1003), (871, 923), (879, 987),
  (887, 955), (895, 1019), (911, 967), (919, 935), (927, 999), (943, 983), (959, 1015), (991, 1007)
]

/-- `BITREV2048_NPAIRS` (src/test_bitrev_tables.h:17). -/
def BITREV2048_NPAIRS : Nat := 992

/-- `bitrev2048_pair` (src/test_bitrev_tables.c:254-503). -/
def bitrev2048_pair : Array (Nat × Nat) := #[
  (1, 1024), (2, 512), (3, 1536), (4, 256), (5, 1280), (6, 768), (7, 1792), (8, 128),
  (9, 1152), (10, 640), (11, 1664), (12, 384), (13, 1408), (14, 896), (15, 1920), (16, 64),
  (17, 1088), (18, 576), (19, 1600), (20, 320), (21, 1344), (22, 832), (23, 1856), (24, 192),
  (25, 1216), (26, 704), (27, 1728), (28, 448), (29, 1472), (30, 960), (31, 1984), (33, 1056),
  (34, 544), (35, 1568), (36, 288), (37, 1312), (38, 800), (39, 1824), (40, 160), (41, 1184),
  (42, 672), (43, 1696), (44, 416), (45, 1440), (46, 928), (47, 1952), (48, 96), (49, 1120),
  (50, 608), (51, 1632), (52, 352), (53, 1376), (54, 864), (55, 1888), (56, 224), (57, 1248),
  (58, 736), (59, 1760), (60, 480), (61, 1504), (62, 992), (63, 2016), (65, 1040), (66, 528),
  (67, 1552), (68, 272), (69, 1296), (70, 784), (71, 1808), (72, 144), (73, 1168), (74, 656),
  (75, 1680), (76, 400), (77, 1424), (78, 912), (79, 1936), (81, 1104), (82, 592), (83, 1616),
  (84, 336), (85, 1360), (86, 848), (87, 1872), (88, 208), (89, 1232), (90, 720), (91, 1744),
  (92, 464), (93, 1488), (94, 976), (95, 2000), (97, 1072), (98, 560), (99, 1584), (100, 304),
  (101, 1328), (102, 816), (103, 1840), (104, 176), (105, 1200), (106, 688), (107, 1712), (108, 432),
  (109, 1456), (110, 944), (111, 1968), (113, 1136), (114, 624), (115, 1648), (116, 368), (117, 1392),
  (118, 880), (119, 1904), (120, 240), (121, 1264), (122, 752), (123, 1776), (124, 496), (125, 1520),
  (126, 1008), (127, 2032), (129, 1032), (130, 520), (131, 1544), (132, 264), (133, 1288), (134, 776),
  (135, 1800), (137, 1160), (138, 648), (139, 1672), (140, 392), (141, 1416), (142, 904), (143, 1928),
  (145, 1096), (146, 584), (147, 1608), (148, 328), (149, 1352), (150, 840), (151, 1864), (152, 200),
  (153, 1224), (154, 712), (155, 1736), (156, 456), (157, 1480), (158, 968), (159, 1992), (161, 1064),
  (162, 552), (163, 1576), (164, 296), (165, 1320), (166, 808), (167, 1832), (169, 1192), (170, 680),
  (171, 1704), (172, 424), (173, 1448), (174, 936), (175, 1960), (177, 1128), (178, 616), (179, 1640),
  (180, 360), (181, 1384), (182, 872), (183, 1896), (184, 232), (185, 1256), (186, 744), (187, 1768),
  (188, 488), (189, 1512), (190, 1000), (191, 2024), (193, 1048), (194, 536), (195, 1560), (196, 280),
  (197, 1304), (198, 792), (199, 1816), (201, 1176), (202, 664), (203, 1688), (204, 408), (205, 1432),
  (206, 920), (207, 1944), (209, 1112), (210, 600), (211, 1624), (212, 344), (213, 1368), (214, 856),
  (215, 1880), (217, 1240), (218, 728), (219, 1752), (220, 472), (221, 1496), (222, 984), (223, 2008),
  (225, 1080), (226, 568), (227, 1592), (228, 312), (229, 1336), (230, 824), (231, 1848), (233, 1208),
  (234, 696), (235, 1720), (236, 440), (237, 1464), (238, 952), (239, 1976), (241, 1144), (242, 632),
  (243, 1656), (244, 376), (245, 1400), (246, 888), (247, 1912), (249, 1272), (250, 760), (251, 1784),
  (252, 504), (253, 1528), (254, 1016), (255, 2040), (257, 1028), (258, 516), (259, 1540), (261, 1284),
  (262, 772), (263, 1796), (265, 1156), (266, 644), (267, 1668), (268, 388), (269, 1412), (270, 900),
  (271, 1924), (273, 1092), (274, 580), (275, 1604), (276, 324), (277, 1348), (278, 836), (279, 1860),
  (281, 1220), (282, 708), (283, 1732), (284, 452), (285, 1476), (286, 964), (287, 1988), (289, 1060),
  (290, 548), (291, 1572), (293, 1316), (294, 804), (295, 1828), (297, 1188), (298, 676), (299, 1700),
  (300, 420), (301, 1444), (302, 932), (303, 1956), (305, 1124), (306, 612), (307, 1636), (308, 356),
  (309, 1380), (310, 868), (311, 1892), (313, 1252), (314, 740), (315, 1764), (316, 484), (317, 1508),
  (318, 996), (319, 2020), (321, 1044), (322, 532), (323, 1556), (325, 1300), (326, 788), (327, 1812),
  (329, 1172), (330, 660), (331, 1684), (332, 404), (333, 1428), (334, 916), (335, 1940), (337, 1108),
  (338, 596), (339, 1620), (341, 1364), (342, 852), (343, 1876), (345, 1236), (346, 724), (347, 1748),
  (348, 468), (349, 1492), (350, 980), (351, 2004), (353, 1076), (354, 564), (355, 1588), (357, 1332),
  (358, 820), (359, 1844), (361, 1204), (362, 692), (363, 1716), (364, 436), (365, 1460), (366, 948),
  (367, 1972), (369, 1140), (370, 628), (371, 1652), (373, 1396), (374, 884), (375, 1908), (377, 1268),
  (378, 756), (379, 1780), (380, 500), (381, 1524), (382, 1012), (383, 2036), (385, 1036), (386, 524),
  (387, 1548), (389, 1292), (390, 780), (391, 1804), (393, 1164), (394, 652), (395, 1676), (397, 1420),
  (398, 908), (399, 1932), (401, 1100), (402, 588), (403, 1612), (405, 1356), (406, 844), (407, 1868),
  (409, 1228), (410, 716), (411, 1740), (412, 460), (413, 1484), (414, 972), (415, 1996), (417, 1068),
  (418, 556), (419, 1580), (421, 1324), (422, 812), (423, 1836), (425, 1196), (426, 684), (427, 1708),
  (429, 1452), (430, 940), (431, 1964), (433, 1132), (434, 620), (435, 1644), (437, 1388), (438, 876),
  (439, 1900), (441, 1260), (442, 748), (443, 1772), (444, 492), (445, 1516), (446, 1004), (447, 2028),
  (449, 1052), (450, 540), (451, 1564), (453, 1308), (454, 796), (455, 1820), (457, 1180), (458, 668),
  (459, 1692), (461, 1436), (462, 924), (463, 1948), (465, 1116), (466, 604), (467, 1628), (469, 1372),
  (470, 860), (471, 1884), (473, 1244), (474, 732), (475, 1756), (477, 1500), (478, 988), (479, 2012),
  (481, 1084), (482, 572), (483, 1596), (485, 1340), (486, 828), (487, 1852), (489, 1212), (490, 700),
  (491, 1724), (493, 1468), (494, 956), (495, 1980), (497, 1148), (498, 636), (499, 1660), (501, 1404),
  (502, 892), (503, 1916), (505, 1276), (506, 764), (507, 1788), (509, 1532), (510, 1020), (511, 2044),
  (513, 1026), (515, 1538), (517, 1282), (518, 770), (519, 1794), (521, 1154), (522, 642), (523, 1666),
  (525, 1410), (526, 898), (527, 1922), (529, 1090), (530, 578), (531, 1602), (533, 1346), (534, 834),
  (535, 1858), (537, 1218), (538, 706), (539, 1730), (541, 1474), (542, 962), (543, 1986), (545, 1058),
  (547, 1570), (549, 1314), (550, 802), (551, 1826), (553, 1186), (554, 674), (555, 1698), (557, 1442),
  (558, 930), (559, 1954), (561, 1122), (562, 610), (563, 1634), (565, 1378), (566, 866), (567, 1890),
  (569, 1250), (570, 738), (571, 1762), (573, 1506), (574, 994), (575, 2018), (577, 1042), (579, 1554),
  (581, 1298), (582, 786), (583, 1810), (585, 1170), (586, 658), (587, 1682), (589, 1426), (590, 914),
  (591, 1938), (593, 1106), (595, 1618), (597, 1362), (598, 850), (599, 1874), (601, 1234), (602, 722),
  (603, 1746), (605, 1490), (606, 978), (607, 2002), (609, 1074), (611, 1586), (613, 1330), (614, 818),
  (615, 1842), (617, 1202), (618, 690), (619, 1714), (621, 1458), (622, 946), (623, 1970), (625, 1138),
  (627, 1650), (629, 1394), (630, 882), (631, 1906), (633, 1266), (634, 754), (635, 1778), (637, 1522),
  (638, 1010), (639, 2034), (641, 1034), (643, 1546), (645, 1290), (646, 778), (647, 1802), (649, 1162),
  (651, 1674), (653, 1418), (654, 906), (655, 1930), (657, 1098), (659, 1610), (661, 1354), (662, 842),
  (663, 1866), (665, 1226), (666, 714), (667, 1738), (669, 1482), (670, 970), (671, 1994), (673, 1066),
  (675, 1578), (677, 1322), (678, 810), (679, 1834), (681, 1194), (683, 1706), (685, 1450), (686, 938),
  (687, 1962), (689, 1130), (691, 1642), (693, 1386), (694, 874), (695, 1898), (697, 1258), (698, 746),
  (699, 1770), (701, 1514), (702, 1002), (703, 2026), (705, 1050), (707, 1562), (709, 1306), (710, 794),
  (711, 1818), (713, 1178), (715, 1690), (717, 1434), (718, 922), (719, 1946), (721, 1114), (723, 1626),
  (725, 1370), (726, 858), (727, 1882), (729, 1242), (731, 1754), (733, 1498), (734, 986), (735, 2010),
  (737, 1082), (739, 1594), (741, 1338), (742, 826), (743, 1850), (745, 1210), (747, 1722), (749, 1466),
  (750, 954), (751, 1978), (753, 1146), (755, 1658), (757, 1402), (758, 890), (759, 1914), (761, 1274),
  (763, 1786), (765, 1530), (766, 1018), (767, 2042), (769, 1030), (771, 1542), (773, 1286), (775, 1798),
  (777, 1158), (779, 1670), (781, 1414), (782, 902), (783, 1926), (785, 1094), (787, 1606), (789, 1350),
  (790, 838), (791, 1862), (793, 1222), (795, 1734), (797, 1478), (798, 966), (799, 1990), (801, 1062),
  (803, 1574), (805, 1318), (807, 1830), (809, 1190), (811, 1702), (813, 1446), (814, 934), (815, 1958),
  (817, 1126), (819, 1638), (821, 1382), (822, 870), (823, 1894), (825, 1254), (827, 1766), (829, 1510),
  (830, 998), (831, 2022), (833, 1046), (835, 1558), (837, 1302), (839, 1814), (841, 1174), (843, 1686),
  (845, 1430), (846, 918), (847, 1942), (849, 1110), (851, 1622), (853, 1366), (855, 1878), (857, 1238),
  (859, 1750), (861, 1494), (862, 982), (863, 2006), (865, 1078), (867, 1590), (869, 1334), (871, 1846),
  (873, 1206), (875, 1718), (877, 1462), (878, 950), (879, 1974), (881, 1142), (883, 1654), (885, 1398),
  (887, 1910), (889, 1270), (891, 1782), (893, 1526), (894, 1014), (895, 2038), (897, 1038), (899, 1550),
  (901, 1294), (903, 1806), (905, 1166), (907, 1678), (909, 1422), (911, 1934), (913, 1102), (915, 1614),
  (917, 1358), (919, 1870), (921, 1230), (923, 1742), (925, 1486), (926, 974), (927, 1998), (929, 1070),
  (931, 1582), (933, 1326), (935, 1838), (937, 1198), (939, 1710), (941, 1454), (943, 1966), (945, 1134),
  (947, 1646), (949, 1390), (951, 1902), (953, 1262), (955, 1774), (957, 1518), (958, 1006), (959, 2030),
  (961, 1054), (963, 1566), (965, 1310), (967, 1822), (969, 1182), (971, 1694), (973, 1438), (975, 1950),
  (977, 1118), (979, 1630), (981, 1374), (983, 1886), (985, 1246), (987, 1758), (989, 1502), (991, 2014),
  (993, 1086), (995, 1598), (997, 1342), (999, 1854), (1001, 1214), (1003, 1726), (1005, 1470), (1007, 1982),
  (1009, 1150), (1011, 1662), (1013, 1406), (1015, 1918), (1017, 1278), (1019, 1790), (1021, 1534), (1023, 2046),
  (1027, 1537), (1029, 1281), (1031, 1793), (1033, 1153), (1035, 1665), (1037, 1409), (1039, 1921), (1041, 1089),
  (1043, 1601), (1045, 1345), (1047, 1857), (1049, 1217), (1051, 1729), (1053, 1473), (1055, 1985), (1059, 1569),
  (1061, 1313), (1063, 1825), (1065, 1185), (1067, 1697), (1069, 1441), (1071, 1953), (1073, 1121), (1075, 1633),
  (1077, 1377), (1079, 1889), (1081, 1249), (1083, 1761), (1085, 1505), (1087, 2017), (1091, 1553), (1093, 1297),
  (1095, 1809), (1097, 1169), (1099, 1681), (1101, 1425), (1103, 1937), (1107, 1617), (1109, 1361), (1111, 1873),
  (1113, 1233), (1115, 1745), (1117, 1489), (1119, 2001), (1123, 1585), (1125, 1329), (1127, 1841), (1129, 1201),
  (1131, 1713), (1133, 1457), (1135, 1969), (1139, 1649), (1141, 1393), (1143, 1905), (1145, 1265), (1147, 1777),
  (1149, 1521), (1151, 2033), (1155, 1545), (1157, 1289), (1159, 1801), (1163, 1673), (1165, 1417), (1167, 1929),
  (1171, 1609), (1173, 1353), (1175, 1865), (1177, 1225), (1179, 1737), (1181, 1481), (1183, 1993), (1187, 1577),
  (1189, 1321), (1191, 1833), (1195, 1705), (1197, 1449), (1199, 1961), (1203, 1641), (1205, 1385), (1207, 1897),
  (1209, 1257), (1211, 1769), (1213, 1513), (1215, 2025), (1219, 1561), (1221, 1305), (1223, 1817), (1227, 1689),
  (1229, 1433), (1231, 1945), (1235, 1625), (1237, 1369), (1239, 1881), (1243, 1753), (1245, 1497), (1247, 2009),
  (1251, 1593), (1253, 1337), (1255, 1849), (1259, 1721), (1261, 1465), (1263, 1977), (1267, 1657), (1269, 1401),
  (1271, 1913), (1275, 1785), (1277, 1529), (1279, 2041), (1283, 1541), (1287, 1797), (1291, 1669), (1293, 1413),
  (1295, 1925), (1299, 1605), (1301, 1349), (1303, 1861), (1307, 1733), (1309, 1477), (1311, 1989), (1315, 1573),
  (1319, 1829), (1323, 1701), (1325, 1445), (1327, 1957), (1331, 1637), (1333, 1381), (1335, 1893), (1339, 1765),
  (1341, 1509), (1343, 2021), (1347, 1557), (1351, 1813), (1355, 1685), (1357, 1429), (1359, 1941), (1363, 1621),
  (1367, 1877), (1371, 1749), (1373, 1493), (1375, 2005), (1379, 1589), (1383, 1845), (1387, 1717), (1389, 1461),
  (1391, 1973), (1395, 1653), (1399, 1909), (1403, 1781), (1405, 1525), (1407, 2037), (1411, 1549), (1415, 1805),
  (1419, 1677), (1423, 1933), (1427, 1613), (1431, 1869), (1435, 1741), (1437, 1485), (1439, 1997), (1443, 1581),
  (1447, 1837), (1451, 1709), (1455, 1965), (1459, 1645), (1463, 1901), (1467, 1773), (1469, 1517), (1471, 2029),
  (1475, 1565), (1479, 1821), (1483, 1693), (1487, 1949), (1491, 1629), (1495, 1885), (1499, 1757), (1503, 2013),
  (1507, 1597), (1511, 1853), (1515, 1725), (1519, 1981), (1523, 1661), (1527, 1917), (1531, 1789), (1535, 2045),
  (1543, 1795), (1547, 1667), (1551, 1923), (1555, 1603), (1559, 1859), (1563, 1731), (1567, 1987), (1575, 1827),
  (1579, 1699), (1583, 1955), (1587, 1635), (1591, 1891), (1595, 1763), (1599, 2019), (1607, 1811), (1611, 1683),
  (1615, 1939), (1623, 1875), (1627, 1747), (1631, 2003), (1639, 1843), (1643, 1715), (1647, 1971), (1655, 1907),
  (1659, 1779), (1663, 2035), (1671, 1803), (1679, 1931), (1687, 1867), (1691, 1739), (1695, 1995), (1703, 1835),
  (1711, 1963), (1719, 1899), (1723, 1771), (1727, 2027), (1735, 1819), (1743, 1947), (1751, 1883), (1759, 2011),
  (1767, 1851), (1775, 1979), (1783, 1915), (1791, 2043), (1807, 1927), (1815, 1863), (1823, 1991), (1839, 1959),
  (1847, 1895), (1855, 2023), (1871, 1943), (1887, 2007), (1903, 1975), (1919, 2039), (1951, 1999), (1983, 2031)
]

end TestTables
