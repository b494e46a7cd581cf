import Verif.Proofs.CRunMul

/-
C82: the text of the C files.

`CLang.Src.<file>_text` is the text of the file, `CLang.read` reads it into the syntax of Verif/Model/CLang.lean and `CLang.call`
executes it.  Specification: Verif/SpecSource.lean, Verif/SpecSourceNames.lean.
-/

namespace Props
open C Spec Tables NTT CLang

/-- src/ntt_red.c, src/ntt_red16.h and src/ntt_red16.c, with the tables printed by `make_red_tables` for size 16 and any acceptable `psi`: the
text of each product, executed, multiplies polynomials, and the text of each function of the header does what the model says. -/
theorem C82_ntt_red16 {xpsi : Int} (h : GoodParams 4 16 xpsi) {buf : Nat → Array Nat} (hbuf : ∀ n, (buf n).size = n) {t : RedTables}
    (ht : make_red_tables buf 16 xpsi = .ok t) :
    ∃ P, readAll [Src.ntt_red_text, Src.ntt_red16_h_text, Src.ntt_red16_c_text] = some P ∧
      (∀ g ∈ [n!"ntt_red16_product1", n!"ntt_red16_product2", n!"ntt_red16_product3", n!"ntt_red16_product4", n!"ntt_red16_product5"],
        Multiplies 4 P redNames16 .i16 (redConsts t) 0 12288 g) ∧
      ∀ z ∈ ([
        (n!"ntt_red16_ct_rev2std", NttRed.fwd_ct_rev2std t 16),
        (n!"ntt_red16_gs_rev2std", NttRed.fwd_gs_rev2std t 16),
        (n!"ntt_red16_ct_std2rev", NttRed.fwd_ct_std2rev t 16),
        (n!"ntt_red16_gs_std2rev", NttRed.fwd_gs_std2rev t 16),
        (n!"intt_red16_ct_rev2std", NttRed.intt_ct_rev2std t 16),
        (n!"intt_red16_gs_rev2std", NttRed.intt_gs_rev2std t 16),
        (n!"intt_red16_ct_std2rev", NttRed.intt_ct_std2rev t 16),
        (n!"intt_red16_gs_std2rev", NttRed.intt_gs_std2rev t 16),
        (n!"mulntt_red16_ct_rev2std", NttRed.fwdmul_ct_rev2std t 16),
        (n!"mulntt_red16_ct_std2rev", NttRed.fwdmul_ct_std2rev t 16),
        (n!"inttmul_red16_gs_rev2std", NttRed.inttmul_gs_rev2std t 16),
        (n!"inttmul_red16_gs_std2rev", NttRed.inttmul_gs_std2rev t 16)] : List (Name × (Array Int → M (Array Int)))),
        Changes P redNames16 .i16 (redConsts t) z.1 z.2 :=
  ⟨_, RedProd.prog16_read, RedProd.multiplies h hbuf ht true (by decide) RedProd.ctx16 RedProd.product1_16 RedProd.product2_16 RedProd.product3_16 RedProd.product4_16 RedProd.product5_16,
    RedProd.changes h hbuf ht RedProd.ctx16⟩

/-- src/ntt_red.c, src/ntt_red256.h and src/ntt_red256.c, with the tables printed by `make_red_tables` for size 256 and any acceptable `psi`: the
text of each product, executed, multiplies polynomials, and the text of each function of the header does what the model says. -/
theorem C82_ntt_red256 {xpsi : Int} (h : GoodParams 8 256 xpsi) {buf : Nat → Array Nat} (hbuf : ∀ n, (buf n).size = n) {t : RedTables}
    (ht : make_red_tables buf 256 xpsi = .ok t) :
    ∃ P, readAll [Src.ntt_red_text, Src.ntt_red256_h_text, Src.ntt_red256_c_text] = some P ∧
      (∀ g ∈ [n!"ntt_red256_product1", n!"ntt_red256_product2", n!"ntt_red256_product3", n!"ntt_red256_product4", n!"ntt_red256_product5"],
        Multiplies 8 P redNames256 .i16 (redConsts t) 0 12288 g) ∧
      ∀ z ∈ ([
        (n!"ntt_red256_ct_rev2std", NttRed.fwd_ct_rev2std t 256),
        (n!"ntt_red256_gs_rev2std", NttRed.fwd_gs_rev2std t 256),
        (n!"ntt_red256_ct_std2rev", NttRed.fwd_ct_std2rev t 256),
        (n!"ntt_red256_gs_std2rev", NttRed.fwd_gs_std2rev t 256),
        (n!"intt_red256_ct_rev2std", NttRed.intt_ct_rev2std t 256),
        (n!"intt_red256_gs_rev2std", NttRed.intt_gs_rev2std t 256),
        (n!"intt_red256_ct_std2rev", NttRed.intt_ct_std2rev t 256),
        (n!"intt_red256_gs_std2rev", NttRed.intt_gs_std2rev t 256),
        (n!"mulntt_red256_ct_rev2std", NttRed.fwdmul_ct_rev2std t 256),
        (n!"mulntt_red256_ct_std2rev", NttRed.fwdmul_ct_std2rev t 256),
        (n!"inttmul_red256_gs_rev2std", NttRed.inttmul_gs_rev2std t 256),
        (n!"inttmul_red256_gs_std2rev", NttRed.inttmul_gs_std2rev t 256)] : List (Name × (Array Int → M (Array Int)))),
        Changes P redNames256 .i16 (redConsts t) z.1 z.2 :=
  ⟨_, RedProd.prog256_read, RedProd.multiplies h hbuf ht true (by decide) RedProd.ctx256 RedProd.product1_256 RedProd.product2_256 RedProd.product3_256 RedProd.product4_256 RedProd.product5_256,
    RedProd.changes h hbuf ht RedProd.ctx256⟩

/-- src/ntt_red.c, src/ntt_red512.h and src/ntt_red512.c, with the tables printed by `make_red_tables` for size 512 and any acceptable `psi`: the
text of each product, executed, multiplies polynomials, and the text of each function of the header does what the model says. -/
theorem C82_ntt_red512 {xpsi : Int} (h : GoodParams 9 512 xpsi) {buf : Nat → Array Nat} (hbuf : ∀ n, (buf n).size = n) {t : RedTables}
    (ht : make_red_tables buf 512 xpsi = .ok t) :
    ∃ P, readAll [Src.ntt_red_text, Src.ntt_red512_h_text, Src.ntt_red512_c_text] = some P ∧
      (∀ g ∈ [n!"ntt_red512_product1", n!"ntt_red512_product2", n!"ntt_red512_product3", n!"ntt_red512_product4", n!"ntt_red512_product5"],
        Multiplies 9 P redNames512 .i16 (redConsts t) 0 12288 g) ∧
      ∀ z ∈ ([
        (n!"ntt_red512_ct_rev2std", NttRed.fwd_ct_rev2std t 512),
        (n!"ntt_red512_gs_rev2std", NttRed.fwd_gs_rev2std t 512),
        (n!"ntt_red512_ct_std2rev", NttRed.fwd_ct_std2rev t 512),
        (n!"ntt_red512_gs_std2rev", NttRed.fwd_gs_std2rev t 512),
        (n!"intt_red512_ct_rev2std", NttRed.intt_ct_rev2std t 512),
        (n!"intt_red512_gs_rev2std", NttRed.intt_gs_rev2std t 512),
        (n!"intt_red512_ct_std2rev", NttRed.intt_ct_std2rev t 512),
        (n!"intt_red512_gs_std2rev", NttRed.intt_gs_std2rev t 512),
        (n!"mulntt_red512_ct_rev2std", NttRed.fwdmul_ct_rev2std t 512),
        (n!"mulntt_red512_ct_std2rev", NttRed.fwdmul_ct_std2rev t 512),
        (n!"inttmul_red512_gs_rev2std", NttRed.inttmul_gs_rev2std t 512),
        (n!"inttmul_red512_gs_std2rev", NttRed.inttmul_gs_std2rev t 512)] : List (Name × (Array Int → M (Array Int)))),
        Changes P redNames512 .i16 (redConsts t) z.1 z.2 :=
  ⟨_, RedProd.prog512_read, RedProd.multiplies h hbuf ht true (by decide) RedProd.ctx512 RedProd.product1_512 RedProd.product2_512 RedProd.product3_512 RedProd.product4_512 RedProd.product5_512,
    RedProd.changes h hbuf ht RedProd.ctx512⟩

/-- src/ntt_red.c, src/ntt_red1024.h and src/ntt_red1024.c, with the tables printed by `make_red_tables` for size 1024 and any acceptable `psi`: the
text of each product, executed, multiplies polynomials, and the text of each function of the header does what the model says. -/
theorem C82_ntt_red1024 {xpsi : Int} (h : GoodParams 10 1024 xpsi) {buf : Nat → Array Nat} (hbuf : ∀ n, (buf n).size = n) {t : RedTables}
    (ht : make_red_tables buf 1024 xpsi = .ok t) :
    ∃ P, readAll [Src.ntt_red_text, Src.ntt_red1024_h_text, Src.ntt_red1024_c_text] = some P ∧
      (∀ g ∈ [n!"ntt_red1024_product1", n!"ntt_red1024_product2", n!"ntt_red1024_product3", n!"ntt_red1024_product4", n!"ntt_red1024_product5"],
        Multiplies 10 P redNames1024 .i16 (redConsts t) 0 12288 g) ∧
      ∀ z ∈ ([
        (n!"ntt_red1024_ct_rev2std", NttRed.fwd_ct_rev2std t 1024),
        (n!"ntt_red1024_gs_rev2std", NttRed.fwd_gs_rev2std t 1024),
        (n!"ntt_red1024_ct_std2rev", NttRed.fwd_ct_std2rev t 1024),
        (n!"ntt_red1024_gs_std2rev", NttRed.fwd_gs_std2rev t 1024),
        (n!"intt_red1024_ct_rev2std", NttRed.intt_ct_rev2std t 1024),
        (n!"intt_red1024_gs_rev2std", NttRed.intt_gs_rev2std t 1024),
        (n!"intt_red1024_ct_std2rev", NttRed.intt_ct_std2rev t 1024),
        (n!"intt_red1024_gs_std2rev", NttRed.intt_gs_std2rev t 1024),
        (n!"mulntt_red1024_ct_rev2std", NttRed.fwdmul_ct_rev2std t 1024),
        (n!"mulntt_red1024_ct_std2rev", NttRed.fwdmul_ct_std2rev t 1024),
        (n!"inttmul_red1024_gs_rev2std", NttRed.inttmul_gs_rev2std t 1024),
        (n!"inttmul_red1024_gs_std2rev", NttRed.inttmul_gs_std2rev t 1024)] : List (Name × (Array Int → M (Array Int)))),
        Changes P redNames1024 .i16 (redConsts t) z.1 z.2 :=
  ⟨_, RedProd.prog1024_read, RedProd.multiplies h hbuf ht false (by decide) RedProd.ctx1024 RedProd.product1_1024 RedProd.product2_1024 RedProd.product3_1024 RedProd.product4_1024 RedProd.product5_1024,
    RedProd.changes h hbuf ht RedProd.ctx1024⟩

/-- src/ntt.c, src/ntt16.h and src/ntt16.c, with the tables printed by `make_tables` for size 16 and any acceptable `psi`: the
text of each product, executed, multiplies polynomials, and the text of each function of the header does what the model says. -/
theorem C82_ntt16 {xpsi : Int} (h : GoodParams 4 16 xpsi) {buf : Nat → Array Nat} (hbuf : ∀ n, (buf n).size = n) {t : Nttables}
    (ht : make_tables buf 16 xpsi = .ok t) :
    ∃ P, readAll [Src.ntt_text, Src.ntt16_h_text, Src.ntt16_c_text] = some P ∧
      (∀ g ∈ [n!"ntt16_product1", n!"ntt16_product2", n!"ntt16_product3", n!"ntt16_product4", n!"ntt16_product5"],
        Multiplies 4 P nttNames16 .u16 (nttConsts t) 0 12288 g) ∧
      ∀ z ∈ ([
        (n!"ntt16_ct_rev2std", Ntt.fwd_ct_rev2std t 16),
        (n!"ntt16_gs_rev2std", Ntt.fwd_gs_rev2std t 16),
        (n!"ntt16_ct_std2rev", Ntt.fwd_ct_std2rev t 16),
        (n!"ntt16_gs_std2rev", Ntt.fwd_gs_std2rev t 16),
        (n!"intt16_ct_rev2std", Ntt.intt_ct_rev2std t 16),
        (n!"intt16_gs_rev2std", Ntt.intt_gs_rev2std t 16),
        (n!"intt16_ct_std2rev", Ntt.intt_ct_std2rev t 16),
        (n!"intt16_gs_std2rev", Ntt.intt_gs_std2rev t 16),
        (n!"mulntt16_ct_rev2std", Ntt.fwdmul_ct_rev2std t 16),
        (n!"mulntt16_ct_std2rev", Ntt.fwdmul_ct_std2rev t 16),
        (n!"inttmul16_gs_rev2std", Ntt.inttmul_gs_rev2std t 16),
        (n!"inttmul16_gs_std2rev", Ntt.inttmul_gs_std2rev t 16)] : List (Name × (Array Int → M (Array Int)))),
        Changes P nttNames16 .u16 (nttConsts t) z.1 z.2 :=
  ⟨_, NttProd.prog16_read, NttProd.multiplies h hbuf ht (by decide) NttProd.ctx16 NttProd.product1_16 NttProd.product2_16 NttProd.product3_16 NttProd.product4_16 NttProd.product5_16,
    NttProd.changes h hbuf ht NttProd.ctx16⟩

/-- src/ntt.c, src/ntt256.h and src/ntt256.c, with the tables printed by `make_tables` for size 256 and any acceptable `psi`: the
text of each product, executed, multiplies polynomials, and the text of each function of the header does what the model says. -/
theorem C82_ntt256 {xpsi : Int} (h : GoodParams 8 256 xpsi) {buf : Nat → Array Nat} (hbuf : ∀ n, (buf n).size = n) {t : Nttables}
    (ht : make_tables buf 256 xpsi = .ok t) :
    ∃ P, readAll [Src.ntt_text, Src.ntt256_h_text, Src.ntt256_c_text] = some P ∧
      (∀ g ∈ [n!"ntt256_product1", n!"ntt256_product2", n!"ntt256_product3", n!"ntt256_product4", n!"ntt256_product5"],
        Multiplies 8 P nttNames256 .u16 (nttConsts t) 0 12288 g) ∧
      ∀ z ∈ ([
        (n!"ntt256_ct_rev2std", Ntt.fwd_ct_rev2std t 256),
        (n!"ntt256_gs_rev2std", Ntt.fwd_gs_rev2std t 256),
        (n!"ntt256_ct_std2rev", Ntt.fwd_ct_std2rev t 256),
        (n!"ntt256_gs_std2rev", Ntt.fwd_gs_std2rev t 256),
        (n!"intt256_ct_rev2std", Ntt.intt_ct_rev2std t 256),
        (n!"intt256_gs_rev2std", Ntt.intt_gs_rev2std t 256),
        (n!"intt256_ct_std2rev", Ntt.intt_ct_std2rev t 256),
        (n!"intt256_gs_std2rev", Ntt.intt_gs_std2rev t 256),
        (n!"mulntt256_ct_rev2std", Ntt.fwdmul_ct_rev2std t 256),
        (n!"mulntt256_ct_std2rev", Ntt.fwdmul_ct_std2rev t 256),
        (n!"inttmul256_gs_rev2std", Ntt.inttmul_gs_rev2std t 256),
        (n!"inttmul256_gs_std2rev", Ntt.inttmul_gs_std2rev t 256)] : List (Name × (Array Int → M (Array Int)))),
        Changes P nttNames256 .u16 (nttConsts t) z.1 z.2 :=
  ⟨_, NttProd.prog256_read, NttProd.multiplies h hbuf ht (by decide) NttProd.ctx256 NttProd.product1_256 NttProd.product2_256 NttProd.product3_256 NttProd.product4_256 NttProd.product5_256,
    NttProd.changes h hbuf ht NttProd.ctx256⟩

/-- src/ntt.c, src/ntt512.h and src/ntt512.c, with the tables printed by `make_tables` for size 512 and any acceptable `psi`: the
text of each product, executed, multiplies polynomials, and the text of each function of the header does what the model says. -/
theorem C82_ntt512 {xpsi : Int} (h : GoodParams 9 512 xpsi) {buf : Nat → Array Nat} (hbuf : ∀ n, (buf n).size = n) {t : Nttables}
    (ht : make_tables buf 512 xpsi = .ok t) :
    ∃ P, readAll [Src.ntt_text, Src.ntt512_h_text, Src.ntt512_c_text] = some P ∧
      (∀ g ∈ [n!"ntt512_product1", n!"ntt512_product2", n!"ntt512_product3", n!"ntt512_product4", n!"ntt512_product5"],
        Multiplies 9 P nttNames512 .u16 (nttConsts t) 0 12288 g) ∧
      ∀ z ∈ ([
        (n!"ntt512_ct_rev2std", Ntt.fwd_ct_rev2std t 512),
        (n!"ntt512_gs_rev2std", Ntt.fwd_gs_rev2std t 512),
        (n!"ntt512_ct_std2rev", Ntt.fwd_ct_std2rev t 512),
        (n!"ntt512_gs_std2rev", Ntt.fwd_gs_std2rev t 512),
        (n!"intt512_ct_rev2std", Ntt.intt_ct_rev2std t 512),
        (n!"intt512_gs_rev2std", Ntt.intt_gs_rev2std t 512),
        (n!"intt512_ct_std2rev", Ntt.intt_ct_std2rev t 512),
        (n!"intt512_gs_std2rev", Ntt.intt_gs_std2rev t 512),
        (n!"mulntt512_ct_rev2std", Ntt.fwdmul_ct_rev2std t 512),
        (n!"mulntt512_ct_std2rev", Ntt.fwdmul_ct_std2rev t 512),
        (n!"inttmul512_gs_rev2std", Ntt.inttmul_gs_rev2std t 512),
        (n!"inttmul512_gs_std2rev", Ntt.inttmul_gs_std2rev t 512)] : List (Name × (Array Int → M (Array Int)))),
        Changes P nttNames512 .u16 (nttConsts t) z.1 z.2 :=
  ⟨_, NttProd.prog512_read, NttProd.multiplies h hbuf ht (by decide) NttProd.ctx512 NttProd.product1_512 NttProd.product2_512 NttProd.product3_512 NttProd.product4_512 NttProd.product5_512,
    NttProd.changes h hbuf ht NttProd.ctx512⟩

/-- src/ntt.c, src/ntt1024.h and src/ntt1024.c, with the tables printed by `make_tables` for size 1024 and any acceptable `psi`: the
text of each product, executed, multiplies polynomials, and the text of each function of the header does what the model says. -/
theorem C82_ntt1024 {xpsi : Int} (h : GoodParams 10 1024 xpsi) {buf : Nat → Array Nat} (hbuf : ∀ n, (buf n).size = n) {t : Nttables}
    (ht : make_tables buf 1024 xpsi = .ok t) :
    ∃ P, readAll [Src.ntt_text, Src.ntt1024_h_text, Src.ntt1024_c_text] = some P ∧
      (∀ g ∈ [n!"ntt1024_product1", n!"ntt1024_product2", n!"ntt1024_product3", n!"ntt1024_product4", n!"ntt1024_product5"],
        Multiplies 10 P nttNames1024 .u16 (nttConsts t) 0 12288 g) ∧
      ∀ z ∈ ([
        (n!"ntt1024_ct_rev2std", Ntt.fwd_ct_rev2std t 1024),
        (n!"ntt1024_gs_rev2std", Ntt.fwd_gs_rev2std t 1024),
        (n!"ntt1024_ct_std2rev", Ntt.fwd_ct_std2rev t 1024),
        (n!"ntt1024_gs_std2rev", Ntt.fwd_gs_std2rev t 1024),
        (n!"intt1024_ct_rev2std", Ntt.intt_ct_rev2std t 1024),
        (n!"intt1024_gs_rev2std", Ntt.intt_gs_rev2std t 1024),
        (n!"intt1024_ct_std2rev", Ntt.intt_ct_std2rev t 1024),
        (n!"intt1024_gs_std2rev", Ntt.intt_gs_std2rev t 1024),
        (n!"mulntt1024_ct_rev2std", Ntt.fwdmul_ct_rev2std t 1024),
        (n!"mulntt1024_ct_std2rev", Ntt.fwdmul_ct_std2rev t 1024),
        (n!"inttmul1024_gs_rev2std", Ntt.inttmul_gs_rev2std t 1024),
        (n!"inttmul1024_gs_std2rev", Ntt.inttmul_gs_std2rev t 1024)] : List (Name × (Array Int → M (Array Int)))),
        Changes P nttNames1024 .u16 (nttConsts t) z.1 z.2 :=
  ⟨_, NttProd.prog1024_read, NttProd.multiplies h hbuf ht (by decide) NttProd.ctx1024 NttProd.product1_1024 NttProd.product2_1024 NttProd.product3_1024 NttProd.product4_1024 NttProd.product5_1024,
    NttProd.changes h hbuf ht NttProd.ctx1024⟩

/-- src/naive_ntt.c, src/naive_ntt16.h and src/naive_ntt16.c, with the tables printed by `make_tables` for size 16 and any acceptable `psi`: the
text of each product, executed, multiplies polynomials, and the text of each function of the header does what the model says. -/
theorem C82_naive_ntt16 {xpsi : Int} (h : GoodParams 4 16 xpsi) {buf : Nat → Array Nat} (hbuf : ∀ n, (buf n).size = n) {t : Nttables}
    (ht : make_tables buf 16 xpsi = .ok t) :
    ∃ P, readAll [Src.naive_ntt_text, Src.naive_ntt16_h_text, Src.naive_ntt16_c_text] = some P ∧
      (∀ g ∈ [n!"naive_ntt16_product1", n!"naive_ntt16_product2", n!"naive_ntt16_product3", n!"naive_ntt16_product4", n!"naive_ntt16_product5"],
        Multiplies 4 P nttNames16 .u16 (nttConsts t) (-12288) 12288 g) ∧
      ∀ z ∈ ([
        (n!"naive_ntt16_ct_rev2std", Naive.fwd_ct_rev2std t 16),
        (n!"naive_ntt16_gs_rev2std", Naive.fwd_gs_rev2std t 16),
        (n!"naive_ntt16_ct_std2rev", Naive.fwd_ct_std2rev t 16),
        (n!"naive_ntt16_gs_std2rev", Naive.fwd_gs_std2rev t 16),
        (n!"naive_intt16_ct_rev2std", Naive.intt_ct_rev2std t 16),
        (n!"naive_intt16_gs_rev2std", Naive.intt_gs_rev2std t 16),
        (n!"naive_intt16_ct_std2rev", Naive.intt_ct_std2rev t 16),
        (n!"naive_intt16_gs_std2rev", Naive.intt_gs_std2rev t 16),
        (n!"naive_mulntt16_ct_rev2std", Naive.fwdmul_ct_rev2std t 16),
        (n!"naive_mulntt16_ct_std2rev", Naive.fwdmul_ct_std2rev t 16),
        (n!"naive_inttmul16_gs_rev2std", Naive.inttmul_gs_rev2std t 16),
        (n!"naive_inttmul16_gs_std2rev", Naive.inttmul_gs_std2rev t 16)] : List (Name × (Array Int → M (Array Int)))),
        Changes P nttNames16 .u16 (nttConsts t) z.1 z.2 :=
  ⟨_, NaiveProd.prog16_read, NaiveProd.multiplies h hbuf ht (by decide) NaiveProd.ctx16 NaiveProd.product1_16 NaiveProd.product2_16 NaiveProd.product3_16 NaiveProd.product4_16 NaiveProd.product5_16,
    NaiveProd.changes h hbuf ht NaiveProd.ctx16⟩

/-- src/naive_ntt.c, src/naive_ntt256.h and src/naive_ntt256.c, with the tables printed by `make_tables` for size 256 and any acceptable `psi`: the
text of each product, executed, multiplies polynomials, and the text of each function of the header does what the model says. -/
theorem C82_naive_ntt256 {xpsi : Int} (h : GoodParams 8 256 xpsi) {buf : Nat → Array Nat} (hbuf : ∀ n, (buf n).size = n) {t : Nttables}
    (ht : make_tables buf 256 xpsi = .ok t) :
    ∃ P, readAll [Src.naive_ntt_text, Src.naive_ntt256_h_text, Src.naive_ntt256_c_text] = some P ∧
      (∀ g ∈ [n!"naive_ntt256_product1", n!"naive_ntt256_product2", n!"naive_ntt256_product3", n!"naive_ntt256_product4", n!"naive_ntt256_product5"],
        Multiplies 8 P nttNames256 .u16 (nttConsts t) (-12288) 12288 g) ∧
      ∀ z ∈ ([
        (n!"naive_ntt256_ct_rev2std", Naive.fwd_ct_rev2std t 256),
        (n!"naive_ntt256_gs_rev2std", Naive.fwd_gs_rev2std t 256),
        (n!"naive_ntt256_ct_std2rev", Naive.fwd_ct_std2rev t 256),
        (n!"naive_ntt256_gs_std2rev", Naive.fwd_gs_std2rev t 256),
        (n!"naive_intt256_ct_rev2std", Naive.intt_ct_rev2std t 256),
        (n!"naive_intt256_gs_rev2std", Naive.intt_gs_rev2std t 256),
        (n!"naive_intt256_ct_std2rev", Naive.intt_ct_std2rev t 256),
        (n!"naive_intt256_gs_std2rev", Naive.intt_gs_std2rev t 256),
        (n!"naive_mulntt256_ct_rev2std", Naive.fwdmul_ct_rev2std t 256),
        (n!"naive_mulntt256_ct_std2rev", Naive.fwdmul_ct_std2rev t 256),
        (n!"naive_inttmul256_gs_rev2std", Naive.inttmul_gs_rev2std t 256),
        (n!"naive_inttmul256_gs_std2rev", Naive.inttmul_gs_std2rev t 256)] : List (Name × (Array Int → M (Array Int)))),
        Changes P nttNames256 .u16 (nttConsts t) z.1 z.2 :=
  ⟨_, NaiveProd.prog256_read, NaiveProd.multiplies h hbuf ht (by decide) NaiveProd.ctx256 NaiveProd.product1_256 NaiveProd.product2_256 NaiveProd.product3_256 NaiveProd.product4_256 NaiveProd.product5_256,
    NaiveProd.changes h hbuf ht NaiveProd.ctx256⟩

/-- src/naive_ntt.c, src/naive_ntt512.h and src/naive_ntt512.c, with the tables printed by `make_tables` for size 512 and any acceptable `psi`: the
text of each product, executed, multiplies polynomials, and the text of each function of the header does what the model says. -/
theorem C82_naive_ntt512 {xpsi : Int} (h : GoodParams 9 512 xpsi) {buf : Nat → Array Nat} (hbuf : ∀ n, (buf n).size = n) {t : Nttables}
    (ht : make_tables buf 512 xpsi = .ok t) :
    ∃ P, readAll [Src.naive_ntt_text, Src.naive_ntt512_h_text, Src.naive_ntt512_c_text] = some P ∧
      (∀ g ∈ [n!"naive_ntt512_product1", n!"naive_ntt512_product2", n!"naive_ntt512_product3", n!"naive_ntt512_product4", n!"naive_ntt512_product5"],
        Multiplies 9 P nttNames512 .u16 (nttConsts t) (-12288) 12288 g) ∧
      ∀ z ∈ ([
        (n!"naive_ntt512_ct_rev2std", Naive.fwd_ct_rev2std t 512),
        (n!"naive_ntt512_gs_rev2std", Naive.fwd_gs_rev2std t 512),
        (n!"naive_ntt512_ct_std2rev", Naive.fwd_ct_std2rev t 512),
        (n!"naive_ntt512_gs_std2rev", Naive.fwd_gs_std2rev t 512),
        (n!"naive_intt512_ct_rev2std", Naive.intt_ct_rev2std t 512),
        (n!"naive_intt512_gs_rev2std", Naive.intt_gs_rev2std t 512),
        (n!"naive_intt512_ct_std2rev", Naive.intt_ct_std2rev t 512),
        (n!"naive_intt512_gs_std2rev", Naive.intt_gs_std2rev t 512),
        (n!"naive_mulntt512_ct_rev2std", Naive.fwdmul_ct_rev2std t 512),
        (n!"naive_mulntt512_ct_std2rev", Naive.fwdmul_ct_std2rev t 512),
        (n!"naive_inttmul512_gs_rev2std", Naive.inttmul_gs_rev2std t 512),
        (n!"naive_inttmul512_gs_std2rev", Naive.inttmul_gs_std2rev t 512)] : List (Name × (Array Int → M (Array Int)))),
        Changes P nttNames512 .u16 (nttConsts t) z.1 z.2 :=
  ⟨_, NaiveProd.prog512_read, NaiveProd.multiplies h hbuf ht (by decide) NaiveProd.ctx512 NaiveProd.product1_512 NaiveProd.product2_512 NaiveProd.product3_512 NaiveProd.product4_512 NaiveProd.product5_512,
    NaiveProd.changes h hbuf ht NaiveProd.ctx512⟩

/-- src/naive_ntt.c, src/naive_ntt1024.h and src/naive_ntt1024.c, with the tables printed by `make_tables` for size 1024 and any acceptable `psi`: the
text of each product, executed, multiplies polynomials, and the text of each function of the header does what the model says. -/
theorem C82_naive_ntt1024 {xpsi : Int} (h : GoodParams 10 1024 xpsi) {buf : Nat → Array Nat} (hbuf : ∀ n, (buf n).size = n) {t : Nttables}
    (ht : make_tables buf 1024 xpsi = .ok t) :
    ∃ P, readAll [Src.naive_ntt_text, Src.naive_ntt1024_h_text, Src.naive_ntt1024_c_text] = some P ∧
      (∀ g ∈ [n!"naive_ntt1024_product1", n!"naive_ntt1024_product2", n!"naive_ntt1024_product3", n!"naive_ntt1024_product4", n!"naive_ntt1024_product5"],
        Multiplies 10 P nttNames1024 .u16 (nttConsts t) (-12288) 12288 g) ∧
      ∀ z ∈ ([
        (n!"naive_ntt1024_ct_rev2std", Naive.fwd_ct_rev2std t 1024),
        (n!"naive_ntt1024_gs_rev2std", Naive.fwd_gs_rev2std t 1024),
        (n!"naive_ntt1024_ct_std2rev", Naive.fwd_ct_std2rev t 1024),
        (n!"naive_ntt1024_gs_std2rev", Naive.fwd_gs_std2rev t 1024),
        (n!"naive_intt1024_ct_rev2std", Naive.intt_ct_rev2std t 1024),
        (n!"naive_intt1024_gs_rev2std", Naive.intt_gs_rev2std t 1024),
        (n!"naive_intt1024_ct_std2rev", Naive.intt_ct_std2rev t 1024),
        (n!"naive_intt1024_gs_std2rev", Naive.intt_gs_std2rev t 1024),
        (n!"naive_mulntt1024_ct_rev2std", Naive.fwdmul_ct_rev2std t 1024),
        (n!"naive_mulntt1024_ct_std2rev", Naive.fwdmul_ct_std2rev t 1024),
        (n!"naive_inttmul1024_gs_rev2std", Naive.inttmul_gs_rev2std t 1024),
        (n!"naive_inttmul1024_gs_std2rev", Naive.inttmul_gs_std2rev t 1024)] : List (Name × (Array Int → M (Array Int)))),
        Changes P nttNames1024 .u16 (nttConsts t) z.1 z.2 :=
  ⟨_, NaiveProd.prog1024_read, NaiveProd.multiplies h hbuf ht (by decide) NaiveProd.ctx1024 NaiveProd.product1_1024 NaiveProd.product2_1024 NaiveProd.product3_1024 NaiveProd.product4_1024 NaiveProd.product5_1024,
    NaiveProd.changes h hbuf ht NaiveProd.ctx1024⟩

/-- The parameters of the library meet the hypotheses on the tables. -/
example : ∀ z ∈ libraryParams, GoodParams z.1 z.2.1 z.2.2 ∧ (∃ t, make_tables someBuf z.2.1 z.2.2 = .ok t) ∧
    ∃ r, make_red_tables someBuf z.2.1 z.2.2 = .ok r := by
  intro z hz
  have hg := libraryParams_good z hz
  obtain ⟨t, e, _⟩ := tables_ok hg someBuf_size
  obtain ⟨r, e', _⟩ := red_tables_ok hg someBuf_size
  exact ⟨hg, ⟨t, e⟩, r, e'⟩

/-- A memory with the tables `T` in the objects 3 to 12 and the arrays in the objects 0, 1 and 2. -/
def someMem (ty : Ty) (T : Consts) (c a b : Array Int) : Nat → Obj
  | 0 => ⟨.i32, c⟩
  | 1 => ⟨.i32, a⟩
  | 2 => ⟨.i32, b⟩
  | 3 => ⟨ty, T.psi_powers⟩
  | 4 => ⟨ty, T.scaled_inv_psi_powers⟩
  | 5 => ⟨ty, T.omega_powers⟩
  | 6 => ⟨ty, T.omega_powers_rev⟩
  | 7 => ⟨ty, T.inv_omega_powers⟩
  | 8 => ⟨ty, T.inv_omega_powers_rev⟩
  | 9 => ⟨ty, T.mixed_powers⟩
  | 10 => ⟨ty, T.mixed_powers_rev⟩
  | 11 => ⟨ty, T.inv_mixed_powers⟩
  | 12 => ⟨ty, T.inv_mixed_powers_rev⟩
  | _ => ⟨.i32, #[]⟩

/-- The addresses of the tables. -/
def someGlobals (N : ConstNames) (T : Consts) (x : Name) : Option Cell :=
  if x = N.psi_powers then some (.ptr 3 0 1) else
  if x = N.scaled_inv_psi_powers then some (.ptr 4 0 1) else
  if x = N.omega_powers then some (.ptr 5 0 1) else
  if x = N.omega_powers_rev then some (.ptr 6 0 1) else
  if x = N.inv_omega_powers then some (.ptr 7 0 1) else
  if x = N.inv_omega_powers_rev then some (.ptr 8 0 1) else
  if x = N.mixed_powers then some (.ptr 9 0 1) else
  if x = N.mixed_powers_rev then some (.ptr 10 0 1) else
  if x = N.inv_mixed_powers then some (.ptr 11 0 1) else
  if x = N.inv_mixed_powers_rev then some (.ptr 12 0 1) else
  if x = N.scalar then some (.int .i32 (some T.scalar)) else none

/-- The hypotheses on the memory hold, for all tables. -/
example (T : Consts) (c a b : Array Int) :
    (∀ N ∈ [nttNames16, nttNames256, nttNames512, nttNames1024], Globals N .u16 T (someGlobals N T) (someMem .u16 T c a b) [0, 1, 2]) ∧
    ∀ N ∈ [redNames16, redNames256, redNames512, redNames1024], Globals N .i16 T (someGlobals N T) (someMem .i16 T c a b) [0, 1, 2] := by
  constructor <;> intro N hN <;> simp only [List.mem_cons, List.not_mem_nil, or_false] at hN <;> rcases hN with rfl | rfl | rfl | rfl <;>
  exact ⟨⟨3, rfl, by decide, rfl⟩, ⟨4, rfl, by decide, rfl⟩, ⟨5, rfl, by decide, rfl⟩, ⟨6, rfl, by decide, rfl⟩, ⟨7, rfl, by decide, rfl⟩, ⟨8, rfl, by decide, rfl⟩, ⟨9, rfl, by decide, rfl⟩, ⟨10, rfl, by decide, rfl⟩, ⟨11, rfl, by decide, rfl⟩, ⟨12, rfl, by decide, rfl⟩, rfl⟩

end Props
