import Verif.Props.Source
import Verif.Proofs.CTraceProd
import Verif.Proofs.CTraceRelease

/-
C93: the accesses to arrays and the outcomes of tests, read from the text of the C files, do not depend on data.

Specification: Verif/SpecSourceTrace.lean.
-/

namespace Props
open C Spec Tables NTT CLang

/-- src/ntt_red.c, src/ntt_red16.h and src/ntt_red16.c, with the tables printed by `make_red_tables` for size 16 and any acceptable `psi`: what the text of each
function of the header shows does not depend on its operand.  (The products call `shift_array`, see `C93_tests`.) -/
theorem C93_ntt_red16 {xpsi : Int} (h : GoodParams 4 16 xpsi) {buf : Nat → Array Nat} (hbuf : ∀ n, (buf n).size = n) {t : RedTables}
    (ht : make_red_tables buf 16 xpsi = .ok t) :
    ∃ P, readAll [Src.ntt_red_text, Src.ntt_red16_h_text, Src.ntt_red16_c_text] = some P ∧
      ∀ z ∈ ([
        (n!"ntt_red16_ct_rev2std", NttRed.fwd_ct_rev2std t 16),
        (n!"ntt_red16_gs_rev2std", NttRed.fwd_gs_rev2std t 16),
        (n!"ntt_red16_ct_std2rev", NttRed.fwd_ct_std2rev t 16),
        (n!"ntt_red16_gs_std2rev", NttRed.fwd_gs_std2rev t 16),
        (n!"intt_red16_ct_rev2std", NttRed.intt_ct_rev2std t 16),
        (n!"intt_red16_gs_rev2std", NttRed.intt_gs_rev2std t 16),
        (n!"intt_red16_ct_std2rev", NttRed.intt_ct_std2rev t 16),
        (n!"intt_red16_gs_std2rev", NttRed.intt_gs_std2rev t 16),
        (n!"mulntt_red16_ct_rev2std", NttRed.fwdmul_ct_rev2std t 16),
        (n!"mulntt_red16_ct_std2rev", NttRed.fwdmul_ct_std2rev t 16),
        (n!"inttmul_red16_gs_rev2std", NttRed.inttmul_gs_rev2std t 16),
        (n!"inttmul_red16_gs_std2rev", NttRed.inttmul_gs_std2rev t 16)] : List (Name × (Array Int → M (Array Int)))),
        SameTraceOn P redNames16 .i16 (redConsts t) z.1 z.2 := by
  obtain ⟨P, hP, h1, h2⟩ := C82_ntt_red16 h hbuf ht
  obtain rfl := Option.some.inj (hP.symm.trans RedProd.prog16_read)
  refine ⟨_, hP, fun z hz => sameTraceOn (h2 z hz) RedProd.transforms16_ok (List.mem_map_of_mem (f := Prod.fst) hz)⟩

/-- src/ntt_red.c, src/ntt_red256.h and src/ntt_red256.c, with the tables printed by `make_red_tables` for size 256 and any acceptable `psi`: what the text of each
function of the header shows does not depend on its operand.  (The products call `shift_array`, see `C93_tests`.) -/
theorem C93_ntt_red256 {xpsi : Int} (h : GoodParams 8 256 xpsi) {buf : Nat → Array Nat} (hbuf : ∀ n, (buf n).size = n) {t : RedTables}
    (ht : make_red_tables buf 256 xpsi = .ok t) :
    ∃ P, readAll [Src.ntt_red_text, Src.ntt_red256_h_text, Src.ntt_red256_c_text] = some P ∧
      ∀ z ∈ ([
        (n!"ntt_red256_ct_rev2std", NttRed.fwd_ct_rev2std t 256),
        (n!"ntt_red256_gs_rev2std", NttRed.fwd_gs_rev2std t 256),
        (n!"ntt_red256_ct_std2rev", NttRed.fwd_ct_std2rev t 256),
        (n!"ntt_red256_gs_std2rev", NttRed.fwd_gs_std2rev t 256),
        (n!"intt_red256_ct_rev2std", NttRed.intt_ct_rev2std t 256),
        (n!"intt_red256_gs_rev2std", NttRed.intt_gs_rev2std t 256),
        (n!"intt_red256_ct_std2rev", NttRed.intt_ct_std2rev t 256),
        (n!"intt_red256_gs_std2rev", NttRed.intt_gs_std2rev t 256),
        (n!"mulntt_red256_ct_rev2std", NttRed.fwdmul_ct_rev2std t 256),
        (n!"mulntt_red256_ct_std2rev", NttRed.fwdmul_ct_std2rev t 256),
        (n!"inttmul_red256_gs_rev2std", NttRed.inttmul_gs_rev2std t 256),
        (n!"inttmul_red256_gs_std2rev", NttRed.inttmul_gs_std2rev t 256)] : List (Name × (Array Int → M (Array Int)))),
        SameTraceOn P redNames256 .i16 (redConsts t) z.1 z.2 := by
  obtain ⟨P, hP, h1, h2⟩ := C82_ntt_red256 h hbuf ht
  obtain rfl := Option.some.inj (hP.symm.trans RedProd.prog256_read)
  refine ⟨_, hP, fun z hz => sameTraceOn (h2 z hz) RedProd.transforms256_ok (List.mem_map_of_mem (f := Prod.fst) hz)⟩

/-- src/ntt_red.c, src/ntt_red512.h and src/ntt_red512.c, with the tables printed by `make_red_tables` for size 512 and any acceptable `psi`: what the text of each
function of the header shows does not depend on its operand.  (The products call `shift_array`, see `C93_tests`.) -/
theorem C93_ntt_red512 {xpsi : Int} (h : GoodParams 9 512 xpsi) {buf : Nat → Array Nat} (hbuf : ∀ n, (buf n).size = n) {t : RedTables}
    (ht : make_red_tables buf 512 xpsi = .ok t) :
    ∃ P, readAll [Src.ntt_red_text, Src.ntt_red512_h_text, Src.ntt_red512_c_text] = some P ∧
      ∀ z ∈ ([
        (n!"ntt_red512_ct_rev2std", NttRed.fwd_ct_rev2std t 512),
        (n!"ntt_red512_gs_rev2std", NttRed.fwd_gs_rev2std t 512),
        (n!"ntt_red512_ct_std2rev", NttRed.fwd_ct_std2rev t 512),
        (n!"ntt_red512_gs_std2rev", NttRed.fwd_gs_std2rev t 512),
        (n!"intt_red512_ct_rev2std", NttRed.intt_ct_rev2std t 512),
        (n!"intt_red512_gs_rev2std", NttRed.intt_gs_rev2std t 512),
        (n!"intt_red512_ct_std2rev", NttRed.intt_ct_std2rev t 512),
        (n!"intt_red512_gs_std2rev", NttRed.intt_gs_std2rev t 512),
        (n!"mulntt_red512_ct_rev2std", NttRed.fwdmul_ct_rev2std t 512),
        (n!"mulntt_red512_ct_std2rev", NttRed.fwdmul_ct_std2rev t 512),
        (n!"inttmul_red512_gs_rev2std", NttRed.inttmul_gs_rev2std t 512),
        (n!"inttmul_red512_gs_std2rev", NttRed.inttmul_gs_std2rev t 512)] : List (Name × (Array Int → M (Array Int)))),
        SameTraceOn P redNames512 .i16 (redConsts t) z.1 z.2 := by
  obtain ⟨P, hP, h1, h2⟩ := C82_ntt_red512 h hbuf ht
  obtain rfl := Option.some.inj (hP.symm.trans RedProd.prog512_read)
  refine ⟨_, hP, fun z hz => sameTraceOn (h2 z hz) RedProd.transforms512_ok (List.mem_map_of_mem (f := Prod.fst) hz)⟩

/-- src/ntt_red.c, src/ntt_red1024.h and src/ntt_red1024.c, with the tables printed by `make_red_tables` for size 1024 and any acceptable `psi`: what the text of each product
and of each function of the header shows does not depend on the operands. -/
theorem C93_ntt_red1024 {xpsi : Int} (h : GoodParams 10 1024 xpsi) {buf : Nat → Array Nat} (hbuf : ∀ n, (buf n).size = n) {t : RedTables}
    (ht : make_red_tables buf 1024 xpsi = .ok t) :
    ∃ P, readAll [Src.ntt_red_text, Src.ntt_red1024_h_text, Src.ntt_red1024_c_text] = some P ∧
      (∀ g ∈ [n!"ntt_red1024_product1", n!"ntt_red1024_product2", n!"ntt_red1024_product3", n!"ntt_red1024_product4", n!"ntt_red1024_product5"],
        SameTrace 10 P redNames1024 .i16 (redConsts t) g) ∧
      ∀ z ∈ ([
        (n!"ntt_red1024_ct_rev2std", NttRed.fwd_ct_rev2std t 1024),
        (n!"ntt_red1024_gs_rev2std", NttRed.fwd_gs_rev2std t 1024),
        (n!"ntt_red1024_ct_std2rev", NttRed.fwd_ct_std2rev t 1024),
        (n!"ntt_red1024_gs_std2rev", NttRed.fwd_gs_std2rev t 1024),
        (n!"intt_red1024_ct_rev2std", NttRed.intt_ct_rev2std t 1024),
        (n!"intt_red1024_gs_rev2std", NttRed.intt_gs_rev2std t 1024),
        (n!"intt_red1024_ct_std2rev", NttRed.intt_ct_std2rev t 1024),
        (n!"intt_red1024_gs_std2rev", NttRed.intt_gs_std2rev t 1024),
        (n!"mulntt_red1024_ct_rev2std", NttRed.fwdmul_ct_rev2std t 1024),
        (n!"mulntt_red1024_ct_std2rev", NttRed.fwdmul_ct_std2rev t 1024),
        (n!"inttmul_red1024_gs_rev2std", NttRed.inttmul_gs_rev2std t 1024),
        (n!"inttmul_red1024_gs_std2rev", NttRed.inttmul_gs_std2rev t 1024)] : List (Name × (Array Int → M (Array Int)))),
        SameTraceOn P redNames1024 .i16 (redConsts t) z.1 z.2 := by
  obtain ⟨P, hP, h1, h2⟩ := C82_ntt_red1024 h hbuf ht
  obtain rfl := Option.some.inj (hP.symm.trans RedProd.prog1024_read)
  refine ⟨_, hP, fun g hg => sameTrace (h1 g hg) RedProd.products1024_ok hg, fun z hz => sameTraceOn (h2 z hz) RedProd.transforms1024_ok (List.mem_map_of_mem (f := Prod.fst) hz)⟩

/-- src/ntt.c, src/ntt16.h and src/ntt16.c, with the tables printed by `make_tables` for size 16 and any acceptable `psi`: what the text of each product
and of each function of the header shows does not depend on the operands. -/
theorem C93_ntt16 {xpsi : Int} (h : GoodParams 4 16 xpsi) {buf : Nat → Array Nat} (hbuf : ∀ n, (buf n).size = n) {t : Nttables}
    (ht : make_tables buf 16 xpsi = .ok t) :
    ∃ P, readAll [Src.ntt_text, Src.ntt16_h_text, Src.ntt16_c_text] = some P ∧
      (∀ g ∈ [n!"ntt16_product1", n!"ntt16_product2", n!"ntt16_product3", n!"ntt16_product4", n!"ntt16_product5"],
        SameTrace 4 P nttNames16 .u16 (nttConsts t) g) ∧
      ∀ z ∈ ([
        (n!"ntt16_ct_rev2std", Ntt.fwd_ct_rev2std t 16),
        (n!"ntt16_gs_rev2std", Ntt.fwd_gs_rev2std t 16),
        (n!"ntt16_ct_std2rev", Ntt.fwd_ct_std2rev t 16),
        (n!"ntt16_gs_std2rev", Ntt.fwd_gs_std2rev t 16),
        (n!"intt16_ct_rev2std", Ntt.intt_ct_rev2std t 16),
        (n!"intt16_gs_rev2std", Ntt.intt_gs_rev2std t 16),
        (n!"intt16_ct_std2rev", Ntt.intt_ct_std2rev t 16),
        (n!"intt16_gs_std2rev", Ntt.intt_gs_std2rev t 16),
        (n!"mulntt16_ct_rev2std", Ntt.fwdmul_ct_rev2std t 16),
        (n!"mulntt16_ct_std2rev", Ntt.fwdmul_ct_std2rev t 16),
        (n!"inttmul16_gs_rev2std", Ntt.inttmul_gs_rev2std t 16),
        (n!"inttmul16_gs_std2rev", Ntt.inttmul_gs_std2rev t 16)] : List (Name × (Array Int → M (Array Int)))),
        SameTraceOn P nttNames16 .u16 (nttConsts t) z.1 z.2 := by
  obtain ⟨P, hP, h1, h2⟩ := C82_ntt16 h hbuf ht
  obtain rfl := Option.some.inj (hP.symm.trans NttProd.prog16_read)
  refine ⟨_, hP, fun g hg => sameTrace (h1 g hg) NttProd.products16_ok hg, fun z hz => sameTraceOn (h2 z hz) NttProd.transforms16_ok (List.mem_map_of_mem (f := Prod.fst) hz)⟩

/-- src/ntt.c, src/ntt256.h and src/ntt256.c, with the tables printed by `make_tables` for size 256 and any acceptable `psi`: what the text of each product
and of each function of the header shows does not depend on the operands. -/
theorem C93_ntt256 {xpsi : Int} (h : GoodParams 8 256 xpsi) {buf : Nat → Array Nat} (hbuf : ∀ n, (buf n).size = n) {t : Nttables}
    (ht : make_tables buf 256 xpsi = .ok t) :
    ∃ P, readAll [Src.ntt_text, Src.ntt256_h_text, Src.ntt256_c_text] = some P ∧
      (∀ g ∈ [n!"ntt256_product1", n!"ntt256_product2", n!"ntt256_product3", n!"ntt256_product4", n!"ntt256_product5"],
        SameTrace 8 P nttNames256 .u16 (nttConsts t) g) ∧
      ∀ z ∈ ([
        (n!"ntt256_ct_rev2std", Ntt.fwd_ct_rev2std t 256),
        (n!"ntt256_gs_rev2std", Ntt.fwd_gs_rev2std t 256),
        (n!"ntt256_ct_std2rev", Ntt.fwd_ct_std2rev t 256),
        (n!"ntt256_gs_std2rev", Ntt.fwd_gs_std2rev t 256),
        (n!"intt256_ct_rev2std", Ntt.intt_ct_rev2std t 256),
        (n!"intt256_gs_rev2std", Ntt.intt_gs_rev2std t 256),
        (n!"intt256_ct_std2rev", Ntt.intt_ct_std2rev t 256),
        (n!"intt256_gs_std2rev", Ntt.intt_gs_std2rev t 256),
        (n!"mulntt256_ct_rev2std", Ntt.fwdmul_ct_rev2std t 256),
        (n!"mulntt256_ct_std2rev", Ntt.fwdmul_ct_std2rev t 256),
        (n!"inttmul256_gs_rev2std", Ntt.inttmul_gs_rev2std t 256),
        (n!"inttmul256_gs_std2rev", Ntt.inttmul_gs_std2rev t 256)] : List (Name × (Array Int → M (Array Int)))),
        SameTraceOn P nttNames256 .u16 (nttConsts t) z.1 z.2 := by
  obtain ⟨P, hP, h1, h2⟩ := C82_ntt256 h hbuf ht
  obtain rfl := Option.some.inj (hP.symm.trans NttProd.prog256_read)
  refine ⟨_, hP, fun g hg => sameTrace (h1 g hg) NttProd.products256_ok hg, fun z hz => sameTraceOn (h2 z hz) NttProd.transforms256_ok (List.mem_map_of_mem (f := Prod.fst) hz)⟩

/-- src/ntt.c, src/ntt512.h and src/ntt512.c, with the tables printed by `make_tables` for size 512 and any acceptable `psi`: what the text of each product
and of each function of the header shows does not depend on the operands. -/
theorem C93_ntt512 {xpsi : Int} (h : GoodParams 9 512 xpsi) {buf : Nat → Array Nat} (hbuf : ∀ n, (buf n).size = n) {t : Nttables}
    (ht : make_tables buf 512 xpsi = .ok t) :
    ∃ P, readAll [Src.ntt_text, Src.ntt512_h_text, Src.ntt512_c_text] = some P ∧
      (∀ g ∈ [n!"ntt512_product1", n!"ntt512_product2", n!"ntt512_product3", n!"ntt512_product4", n!"ntt512_product5"],
        SameTrace 9 P nttNames512 .u16 (nttConsts t) g) ∧
      ∀ z ∈ ([
        (n!"ntt512_ct_rev2std", Ntt.fwd_ct_rev2std t 512),
        (n!"ntt512_gs_rev2std", Ntt.fwd_gs_rev2std t 512),
        (n!"ntt512_ct_std2rev", Ntt.fwd_ct_std2rev t 512),
        (n!"ntt512_gs_std2rev", Ntt.fwd_gs_std2rev t 512),
        (n!"intt512_ct_rev2std", Ntt.intt_ct_rev2std t 512),
        (n!"intt512_gs_rev2std", Ntt.intt_gs_rev2std t 512),
        (n!"intt512_ct_std2rev", Ntt.intt_ct_std2rev t 512),
        (n!"intt512_gs_std2rev", Ntt.intt_gs_std2rev t 512),
        (n!"mulntt512_ct_rev2std", Ntt.fwdmul_ct_rev2std t 512),
        (n!"mulntt512_ct_std2rev", Ntt.fwdmul_ct_std2rev t 512),
        (n!"inttmul512_gs_rev2std", Ntt.inttmul_gs_rev2std t 512),
        (n!"inttmul512_gs_std2rev", Ntt.inttmul_gs_std2rev t 512)] : List (Name × (Array Int → M (Array Int)))),
        SameTraceOn P nttNames512 .u16 (nttConsts t) z.1 z.2 := by
  obtain ⟨P, hP, h1, h2⟩ := C82_ntt512 h hbuf ht
  obtain rfl := Option.some.inj (hP.symm.trans NttProd.prog512_read)
  refine ⟨_, hP, fun g hg => sameTrace (h1 g hg) NttProd.products512_ok hg, fun z hz => sameTraceOn (h2 z hz) NttProd.transforms512_ok (List.mem_map_of_mem (f := Prod.fst) hz)⟩

/-- src/ntt.c, src/ntt1024.h and src/ntt1024.c, with the tables printed by `make_tables` for size 1024 and any acceptable `psi`: what the text of each product
and of each function of the header shows does not depend on the operands. -/
theorem C93_ntt1024 {xpsi : Int} (h : GoodParams 10 1024 xpsi) {buf : Nat → Array Nat} (hbuf : ∀ n, (buf n).size = n) {t : Nttables}
    (ht : make_tables buf 1024 xpsi = .ok t) :
    ∃ P, readAll [Src.ntt_text, Src.ntt1024_h_text, Src.ntt1024_c_text] = some P ∧
      (∀ g ∈ [n!"ntt1024_product1", n!"ntt1024_product2", n!"ntt1024_product3", n!"ntt1024_product4", n!"ntt1024_product5"],
        SameTrace 10 P nttNames1024 .u16 (nttConsts t) g) ∧
      ∀ z ∈ ([
        (n!"ntt1024_ct_rev2std", Ntt.fwd_ct_rev2std t 1024),
        (n!"ntt1024_gs_rev2std", Ntt.fwd_gs_rev2std t 1024),
        (n!"ntt1024_ct_std2rev", Ntt.fwd_ct_std2rev t 1024),
        (n!"ntt1024_gs_std2rev", Ntt.fwd_gs_std2rev t 1024),
        (n!"intt1024_ct_rev2std", Ntt.intt_ct_rev2std t 1024),
        (n!"intt1024_gs_rev2std", Ntt.intt_gs_rev2std t 1024),
        (n!"intt1024_ct_std2rev", Ntt.intt_ct_std2rev t 1024),
        (n!"intt1024_gs_std2rev", Ntt.intt_gs_std2rev t 1024),
        (n!"mulntt1024_ct_rev2std", Ntt.fwdmul_ct_rev2std t 1024),
        (n!"mulntt1024_ct_std2rev", Ntt.fwdmul_ct_std2rev t 1024),
        (n!"inttmul1024_gs_rev2std", Ntt.inttmul_gs_rev2std t 1024),
        (n!"inttmul1024_gs_std2rev", Ntt.inttmul_gs_std2rev t 1024)] : List (Name × (Array Int → M (Array Int)))),
        SameTraceOn P nttNames1024 .u16 (nttConsts t) z.1 z.2 := by
  obtain ⟨P, hP, h1, h2⟩ := C82_ntt1024 h hbuf ht
  obtain rfl := Option.some.inj (hP.symm.trans NttProd.prog1024_read)
  refine ⟨_, hP, fun g hg => sameTrace (h1 g hg) NttProd.products1024_ok hg, fun z hz => sameTraceOn (h2 z hz) NttProd.transforms1024_ok (List.mem_map_of_mem (f := Prod.fst) hz)⟩

/-- src/naive_ntt.c, src/naive_ntt16.h and src/naive_ntt16.c, with the tables printed by `make_tables` for size 16 and any acceptable `psi`: what the text of each product
and of each function of the header shows does not depend on the operands. -/
theorem C93_naive_ntt16 {xpsi : Int} (h : GoodParams 4 16 xpsi) {buf : Nat → Array Nat} (hbuf : ∀ n, (buf n).size = n) {t : Nttables}
    (ht : make_tables buf 16 xpsi = .ok t) :
    ∃ P, readAll [Src.naive_ntt_text, Src.naive_ntt16_h_text, Src.naive_ntt16_c_text] = some P ∧
      (∀ g ∈ [n!"naive_ntt16_product1", n!"naive_ntt16_product2", n!"naive_ntt16_product3", n!"naive_ntt16_product4", n!"naive_ntt16_product5"],
        SameTrace 4 P nttNames16 .u16 (nttConsts t) g) ∧
      ∀ z ∈ ([
        (n!"naive_ntt16_ct_rev2std", Naive.fwd_ct_rev2std t 16),
        (n!"naive_ntt16_gs_rev2std", Naive.fwd_gs_rev2std t 16),
        (n!"naive_ntt16_ct_std2rev", Naive.fwd_ct_std2rev t 16),
        (n!"naive_ntt16_gs_std2rev", Naive.fwd_gs_std2rev t 16),
        (n!"naive_intt16_ct_rev2std", Naive.intt_ct_rev2std t 16),
        (n!"naive_intt16_gs_rev2std", Naive.intt_gs_rev2std t 16),
        (n!"naive_intt16_ct_std2rev", Naive.intt_ct_std2rev t 16),
        (n!"naive_intt16_gs_std2rev", Naive.intt_gs_std2rev t 16),
        (n!"naive_mulntt16_ct_rev2std", Naive.fwdmul_ct_rev2std t 16),
        (n!"naive_mulntt16_ct_std2rev", Naive.fwdmul_ct_std2rev t 16),
        (n!"naive_inttmul16_gs_rev2std", Naive.inttmul_gs_rev2std t 16),
        (n!"naive_inttmul16_gs_std2rev", Naive.inttmul_gs_std2rev t 16)] : List (Name × (Array Int → M (Array Int)))),
        SameTraceOn P nttNames16 .u16 (nttConsts t) z.1 z.2 := by
  obtain ⟨P, hP, h1, h2⟩ := C82_naive_ntt16 h hbuf ht
  obtain rfl := Option.some.inj (hP.symm.trans NaiveProd.prog16_read)
  refine ⟨_, hP, fun g hg => sameTrace (h1 g hg) NaiveProd.products16_ok hg, fun z hz => sameTraceOn (h2 z hz) NaiveProd.transforms16_ok (List.mem_map_of_mem (f := Prod.fst) hz)⟩

/-- src/naive_ntt.c, src/naive_ntt256.h and src/naive_ntt256.c, with the tables printed by `make_tables` for size 256 and any acceptable `psi`: what the text of each product
and of each function of the header shows does not depend on the operands. -/
theorem C93_naive_ntt256 {xpsi : Int} (h : GoodParams 8 256 xpsi) {buf : Nat → Array Nat} (hbuf : ∀ n, (buf n).size = n) {t : Nttables}
    (ht : make_tables buf 256 xpsi = .ok t) :
    ∃ P, readAll [Src.naive_ntt_text, Src.naive_ntt256_h_text, Src.naive_ntt256_c_text] = some P ∧
      (∀ g ∈ [n!"naive_ntt256_product1", n!"naive_ntt256_product2", n!"naive_ntt256_product3", n!"naive_ntt256_product4", n!"naive_ntt256_product5"],
        SameTrace 8 P nttNames256 .u16 (nttConsts t) g) ∧
      ∀ z ∈ ([
        (n!"naive_ntt256_ct_rev2std", Naive.fwd_ct_rev2std t 256),
        (n!"naive_ntt256_gs_rev2std", Naive.fwd_gs_rev2std t 256),
        (n!"naive_ntt256_ct_std2rev", Naive.fwd_ct_std2rev t 256),
        (n!"naive_ntt256_gs_std2rev", Naive.fwd_gs_std2rev t 256),
        (n!"naive_intt256_ct_rev2std", Naive.intt_ct_rev2std t 256),
        (n!"naive_intt256_gs_rev2std", Naive.intt_gs_rev2std t 256),
        (n!"naive_intt256_ct_std2rev", Naive.intt_ct_std2rev t 256),
        (n!"naive_intt256_gs_std2rev", Naive.intt_gs_std2rev t 256),
        (n!"naive_mulntt256_ct_rev2std", Naive.fwdmul_ct_rev2std t 256),
        (n!"naive_mulntt256_ct_std2rev", Naive.fwdmul_ct_std2rev t 256),
        (n!"naive_inttmul256_gs_rev2std", Naive.inttmul_gs_rev2std t 256),
        (n!"naive_inttmul256_gs_std2rev", Naive.inttmul_gs_std2rev t 256)] : List (Name × (Array Int → M (Array Int)))),
        SameTraceOn P nttNames256 .u16 (nttConsts t) z.1 z.2 := by
  obtain ⟨P, hP, h1, h2⟩ := C82_naive_ntt256 h hbuf ht
  obtain rfl := Option.some.inj (hP.symm.trans NaiveProd.prog256_read)
  refine ⟨_, hP, fun g hg => sameTrace (h1 g hg) NaiveProd.products256_ok hg, fun z hz => sameTraceOn (h2 z hz) NaiveProd.transforms256_ok (List.mem_map_of_mem (f := Prod.fst) hz)⟩

/-- src/naive_ntt.c, src/naive_ntt512.h and src/naive_ntt512.c, with the tables printed by `make_tables` for size 512 and any acceptable `psi`: what the text of each product
and of each function of the header shows does not depend on the operands. -/
theorem C93_naive_ntt512 {xpsi : Int} (h : GoodParams 9 512 xpsi) {buf : Nat → Array Nat} (hbuf : ∀ n, (buf n).size = n) {t : Nttables}
    (ht : make_tables buf 512 xpsi = .ok t) :
    ∃ P, readAll [Src.naive_ntt_text, Src.naive_ntt512_h_text, Src.naive_ntt512_c_text] = some P ∧
      (∀ g ∈ [n!"naive_ntt512_product1", n!"naive_ntt512_product2", n!"naive_ntt512_product3", n!"naive_ntt512_product4", n!"naive_ntt512_product5"],
        SameTrace 9 P nttNames512 .u16 (nttConsts t) g) ∧
      ∀ z ∈ ([
        (n!"naive_ntt512_ct_rev2std", Naive.fwd_ct_rev2std t 512),
        (n!"naive_ntt512_gs_rev2std", Naive.fwd_gs_rev2std t 512),
        (n!"naive_ntt512_ct_std2rev", Naive.fwd_ct_std2rev t 512),
        (n!"naive_ntt512_gs_std2rev", Naive.fwd_gs_std2rev t 512),
        (n!"naive_intt512_ct_rev2std", Naive.intt_ct_rev2std t 512),
        (n!"naive_intt512_gs_rev2std", Naive.intt_gs_rev2std t 512),
        (n!"naive_intt512_ct_std2rev", Naive.intt_ct_std2rev t 512),
        (n!"naive_intt512_gs_std2rev", Naive.intt_gs_std2rev t 512),
        (n!"naive_mulntt512_ct_rev2std", Naive.fwdmul_ct_rev2std t 512),
        (n!"naive_mulntt512_ct_std2rev", Naive.fwdmul_ct_std2rev t 512),
        (n!"naive_inttmul512_gs_rev2std", Naive.inttmul_gs_rev2std t 512),
        (n!"naive_inttmul512_gs_std2rev", Naive.inttmul_gs_std2rev t 512)] : List (Name × (Array Int → M (Array Int)))),
        SameTraceOn P nttNames512 .u16 (nttConsts t) z.1 z.2 := by
  obtain ⟨P, hP, h1, h2⟩ := C82_naive_ntt512 h hbuf ht
  obtain rfl := Option.some.inj (hP.symm.trans NaiveProd.prog512_read)
  refine ⟨_, hP, fun g hg => sameTrace (h1 g hg) NaiveProd.products512_ok hg, fun z hz => sameTraceOn (h2 z hz) NaiveProd.transforms512_ok (List.mem_map_of_mem (f := Prod.fst) hz)⟩

/-- src/naive_ntt.c, src/naive_ntt1024.h and src/naive_ntt1024.c, with the tables printed by `make_tables` for size 1024 and any acceptable `psi`: what the text of each product
and of each function of the header shows does not depend on the operands. -/
theorem C93_naive_ntt1024 {xpsi : Int} (h : GoodParams 10 1024 xpsi) {buf : Nat → Array Nat} (hbuf : ∀ n, (buf n).size = n) {t : Nttables}
    (ht : make_tables buf 1024 xpsi = .ok t) :
    ∃ P, readAll [Src.naive_ntt_text, Src.naive_ntt1024_h_text, Src.naive_ntt1024_c_text] = some P ∧
      (∀ g ∈ [n!"naive_ntt1024_product1", n!"naive_ntt1024_product2", n!"naive_ntt1024_product3", n!"naive_ntt1024_product4", n!"naive_ntt1024_product5"],
        SameTrace 10 P nttNames1024 .u16 (nttConsts t) g) ∧
      ∀ z ∈ ([
        (n!"naive_ntt1024_ct_rev2std", Naive.fwd_ct_rev2std t 1024),
        (n!"naive_ntt1024_gs_rev2std", Naive.fwd_gs_rev2std t 1024),
        (n!"naive_ntt1024_ct_std2rev", Naive.fwd_ct_std2rev t 1024),
        (n!"naive_ntt1024_gs_std2rev", Naive.fwd_gs_std2rev t 1024),
        (n!"naive_intt1024_ct_rev2std", Naive.intt_ct_rev2std t 1024),
        (n!"naive_intt1024_gs_rev2std", Naive.intt_gs_rev2std t 1024),
        (n!"naive_intt1024_ct_std2rev", Naive.intt_ct_std2rev t 1024),
        (n!"naive_intt1024_gs_std2rev", Naive.intt_gs_std2rev t 1024),
        (n!"naive_mulntt1024_ct_rev2std", Naive.fwdmul_ct_rev2std t 1024),
        (n!"naive_mulntt1024_ct_std2rev", Naive.fwdmul_ct_std2rev t 1024),
        (n!"naive_inttmul1024_gs_rev2std", Naive.inttmul_gs_rev2std t 1024),
        (n!"naive_inttmul1024_gs_std2rev", Naive.inttmul_gs_std2rev t 1024)] : List (Name × (Array Int → M (Array Int)))),
        SameTraceOn P nttNames1024 .u16 (nttConsts t) z.1 z.2 := by
  obtain ⟨P, hP, h1, h2⟩ := C82_naive_ntt1024 h hbuf ht
  obtain rfl := Option.some.inj (hP.symm.trans NaiveProd.prog1024_read)
  refine ⟨_, hP, fun g hg => sameTrace (h1 g hg) NaiveProd.products1024_ok hg, fun z hz => sameTraceOn (h2 z hz) NaiveProd.transforms1024_ok (List.mem_map_of_mem (f := Prod.fst) hz)⟩

/-- src/ntt.c, for every size and every table: what the text of these functions shows depends only on the size and on where the arrays are, not on what
the arrays contain; for the multiplication by a constant, not on the constant. -/
theorem C93_ntt (n c c' : Int) (oa ka op kp oc kc : Nat) :
    ∃ P, read Src.ntt_text = some P ∧
      (∀ g ∈ [n!"mul_array16", n!"ntt_ct_rev2std_v1", n!"ntt_ct_rev2std", n!"mulntt_ct_rev2std", n!"ntt_ct_std2rev", n!"mulntt_ct_std2rev", n!"ntt_gs_rev2std", n!"nttmul_gs_rev2std", n!"ntt_gs_std2rev", n!"nttmul_gs_std2rev"],
        SameFrom P g [.ptr oa ka 1, .int .u32 n, .ptr op kp 1] [.ptr oa ka 1, .int .u32 n, .ptr op kp 1]) ∧
      (∀ g ∈ [n!"bitrev_shuffle"], SameFrom P g [.ptr oa ka 1, .int .u32 n] [.ptr oa ka 1, .int .u32 n]) ∧
      SameFrom P n!"mul_array" [.ptr oc kc 1, .int .u32 n, .ptr oa ka 1, .ptr op kp 1] [.ptr oc kc 1, .int .u32 n, .ptr oa ka 1, .ptr op kp 1] ∧
      SameFrom P n!"scalar_mul_array" [.ptr oa ka 1, .int .u32 n, .int .i32 c] [.ptr oa ka 1, .int .u32 n, .int .i32 c'] := by
  refine ⟨_, Src.ntt_read, fun g hg => ?_, fun g hg => ?_, ?_, ?_⟩
  · exact sameFrom (show accepted Src.ntt [] secrets [.out, .int, .out] [n!"mul_array16", n!"ntt_ct_rev2std_v1", n!"ntt_ct_rev2std", n!"mulntt_ct_rev2std", n!"ntt_ct_std2rev", n!"mulntt_ct_std2rev", n!"ntt_gs_rev2std", n!"nttmul_gs_rev2std", n!"ntt_gs_std2rev", n!"nttmul_gs_std2rev"] = true by decide +kernel) hg
      (.cons (rv_out _ _) (.cons (rv_int _ _) (.cons (rv_out _ _) .nil)))
  · exact sameFrom (show accepted Src.ntt [] secrets [.out, .int] [n!"bitrev_shuffle"] = true by decide +kernel) hg (.cons (rv_out _ _) (.cons (rv_int _ _) .nil))
  · exact sameFrom (show accepted Src.ntt [] secrets [.out, .int, .out, .out] [n!"mul_array"] = true by decide +kernel) (List.mem_singleton.2 rfl)
      (.cons (rv_out _ _) (.cons (rv_int _ _) (.cons (rv_out _ _) (.cons (rv_out _ _) .nil))))
  · exact sameFrom (show accepted Src.ntt [] secrets [.out, .int, .sec] [n!"scalar_mul_array"] = true by decide +kernel) (List.mem_singleton.2 rfl)
      (.cons (rv_out _ _) (.cons (rv_int _ _) (.cons (rv_sec _ c c') .nil)))

/-- src/ntt_red.c, for every size and every table: what the text of these functions shows depends only on the size and on where the arrays are, not on what
the arrays contain; for the multiplication by a constant, not on the constant. -/
theorem C93_ntt_red (n c c' : Int) (oa ka op kp oc kc : Nat) :
    ∃ P, read Src.ntt_red_text = some P ∧
      (∀ g ∈ [n!"mul_reduce_array16", n!"ntt_red_ct_rev2std", n!"mulntt_red_ct_rev2std", n!"ntt_red_ct_std2rev", n!"mulntt_red_ct_std2rev", n!"ntt_red_gs_rev2std", n!"nttmul_red_gs_rev2std", n!"ntt_red_gs_std2rev", n!"nttmul_red_gs_std2rev"],
        SameFrom P g [.ptr oa ka 1, .int .u32 n, .ptr op kp 1] [.ptr oa ka 1, .int .u32 n, .ptr op kp 1]) ∧
      (∀ g ∈ [n!"reduce_array", n!"reduce_array_twice", n!"correct"], SameFrom P g [.ptr oa ka 1, .int .u32 n] [.ptr oa ka 1, .int .u32 n]) ∧
      SameFrom P n!"mul_reduce_array" [.ptr oc kc 1, .int .u32 n, .ptr oa ka 1, .ptr op kp 1] [.ptr oc kc 1, .int .u32 n, .ptr oa ka 1, .ptr op kp 1] ∧
      SameFrom P n!"scalar_mul_reduce_array" [.ptr oa ka 1, .int .u32 n, .int .i32 c] [.ptr oa ka 1, .int .u32 n, .int .i32 c'] := by
  refine ⟨_, Src.ntt_red_read, fun g hg => ?_, fun g hg => ?_, ?_, ?_⟩
  · exact sameFrom (show accepted Src.ntt_red [] secrets [.out, .int, .out] [n!"mul_reduce_array16", n!"ntt_red_ct_rev2std", n!"mulntt_red_ct_rev2std", n!"ntt_red_ct_std2rev", n!"mulntt_red_ct_std2rev", n!"ntt_red_gs_rev2std", n!"nttmul_red_gs_rev2std", n!"ntt_red_gs_std2rev", n!"nttmul_red_gs_std2rev"] = true by decide +kernel) hg
      (.cons (rv_out _ _) (.cons (rv_int _ _) (.cons (rv_out _ _) .nil)))
  · exact sameFrom (show accepted Src.ntt_red [] secrets [.out, .int] [n!"reduce_array", n!"reduce_array_twice", n!"correct"] = true by decide +kernel) hg (.cons (rv_out _ _) (.cons (rv_int _ _) .nil))
  · exact sameFrom (show accepted Src.ntt_red [] secrets [.out, .int, .out, .out] [n!"mul_reduce_array"] = true by decide +kernel) (List.mem_singleton.2 rfl)
      (.cons (rv_out _ _) (.cons (rv_int _ _) (.cons (rv_out _ _) (.cons (rv_out _ _) .nil))))
  · exact sameFrom (show accepted Src.ntt_red [] secrets [.out, .int, .sec] [n!"scalar_mul_reduce_array"] = true by decide +kernel) (List.mem_singleton.2 rfl)
      (.cons (rv_out _ _) (.cons (rv_int _ _) (.cons (rv_sec _ c c') .nil)))

/-- src/naive_ntt.c, for every size and every table: what the text of these functions shows depends only on the size and on where the arrays are, not on what
the arrays contain, nor on the modulus; for the multiplication by a constant, not on the constant. -/
theorem C93_naive_ntt (n c c' q q' : Int) (oa ka op kp oc kc : Nat) :
    ∃ P, read Src.naive_ntt_text = some P ∧
      (∀ g ∈ [n!"mul_array16_naive", n!"ntt_ct_rev2std_naive", n!"mulntt_ct_rev2std_naive", n!"ntt_ct_std2rev_naive", n!"mulntt_ct_std2rev_naive", n!"ntt_gs_rev2std_naive", n!"nttmul_gs_rev2std_naive", n!"ntt_gs_std2rev_naive", n!"nttmul_gs_std2rev_naive"],
        SameFrom P g [.ptr oa ka 1, .int .u32 n, .ptr op kp 1, .int .i32 q] [.ptr oa ka 1, .int .u32 n, .ptr op kp 1, .int .i32 q']) ∧
      (∀ g ∈ [n!"bitrev_shuffle"], SameFrom P g [.ptr oa ka 1, .int .u32 n] [.ptr oa ka 1, .int .u32 n]) ∧
      SameFrom P n!"mul_array_naive" [.ptr oc kc 1, .int .u32 n, .ptr oa ka 1, .ptr op kp 1, .int .i32 q] [.ptr oc kc 1, .int .u32 n, .ptr oa ka 1, .ptr op kp 1, .int .i32 q'] ∧
      SameFrom P n!"scalar_mul_array_naive" [.ptr oa ka 1, .int .u32 n, .int .i32 c, .int .i32 q] [.ptr oa ka 1, .int .u32 n, .int .i32 c', .int .i32 q'] := by
  refine ⟨_, Src.naive_ntt_read, fun g hg => ?_, fun g hg => ?_, ?_, ?_⟩
  · exact sameFrom (show accepted Src.naive_ntt [] secrets [.out, .int, .out, .sec] [n!"mul_array16_naive", n!"ntt_ct_rev2std_naive", n!"mulntt_ct_rev2std_naive", n!"ntt_ct_std2rev_naive", n!"mulntt_ct_std2rev_naive", n!"ntt_gs_rev2std_naive", n!"nttmul_gs_rev2std_naive", n!"ntt_gs_std2rev_naive", n!"nttmul_gs_std2rev_naive"] = true by decide +kernel) hg
      (.cons (rv_out _ _) (.cons (rv_int _ _) (.cons (rv_out _ _) (.cons (rv_sec _ q q') .nil))))
  · exact sameFrom (show accepted Src.naive_ntt [] secrets [.out, .int] [n!"bitrev_shuffle"] = true by decide +kernel) hg (.cons (rv_out _ _) (.cons (rv_int _ _) .nil))
  · exact sameFrom (show accepted Src.naive_ntt [] secrets [.out, .int, .out, .out, .sec] [n!"mul_array_naive"] = true by decide +kernel) (List.mem_singleton.2 rfl)
      (.cons (rv_out _ _) (.cons (rv_int _ _) (.cons (rv_out _ _) (.cons (rv_out _ _) (.cons (rv_sec _ q q') .nil)))))
  · exact sameFrom (show accepted Src.naive_ntt [] secrets [.out, .int, .sec, .sec] [n!"scalar_mul_array_naive"] = true by decide +kernel) (List.mem_singleton.2 rfl)
      (.cons (rv_out _ _) (.cons (rv_int _ _) (.cons (rv_sec _ c c') (.cons (rv_sec _ q q') .nil))))

/-- `shuffle_with_table` (in src/ntt.c and src/naive_ntt.c): what its text shows depends on the table, which is in another object than the array, not on what
the array contains. -/
theorem C93_shuffle_with_table :
    ∀ text ∈ [Src.ntt_text, Src.naive_ntt_text], ∃ P, read text = some P ∧
      ∀ (G : Name → Option Cell) (oa ka op kp f : Nat) (n : Int) (mem mem' r r' : Nat → Obj), (∀ x o i w, G x ≠ some (.ptr o i w)) → oa ≠ op →
        (mem oa).ty = (mem' oa).ty → mem op = mem' op →
        call P G f n!"shuffle_with_table" [.ptr oa ka 1, .ptr op kp 2, .int .u32 n] mem = .ok r →
        call P G f n!"shuffle_with_table" [.ptr oa ka 1, .ptr op kp 2, .int .u32 n] mem' = .ok r' →
        callTrace P G f n!"shuffle_with_table" [.ptr oa ka 1, .ptr op kp 2, .int .u32 n] mem =
          callTrace P G f n!"shuffle_with_table" [.ptr oa ka 1, .ptr op kp 2, .int .u32 n] mem' := by
  intro text ht
  simp only [List.mem_cons, List.not_mem_nil, or_false] at ht
  rcases ht with rfl | rfl
  · exact ⟨_, Src.ntt_read, fun G oa ka op kp f n mem mem' r r' hG ho h1 h2 h h' =>
      sameShuffle (X := secrets) (by decide +kernel) hG ho h1 h2 h h'⟩
  · exact ⟨_, Src.naive_ntt_read, fun G oa ka op kp f n mem mem' r r' hG ho h1 h2 h h' =>
      sameShuffle (X := secrets) (by decide +kernel) hG ho h1 h2 h h'⟩

/-- A memory with one array. -/
def oneArray (a : Array Int) : Nat → Obj := fun _ => ⟨.i32, a⟩

/-- The other functions of src/ntt_red.c have tests on the elements of the array: with an array of one element, what they show depends on the element. -/
theorem C93_tests : ∃ P, read Src.ntt_red_text = some P ∧
    ∀ z ∈ ([(n!"normalize", 5, -5), (n!"normalize_inv3", 5, -5), (n!"shift_array", 5, 12000)] : List (Name × Int × Int)), ∃ f r r',
      call P (fun _ => none) f z.1 [.ptr 0 0 1, .int .u32 1] (oneArray #[z.2.1]) = .ok r ∧
      call P (fun _ => none) f z.1 [.ptr 0 0 1, .int .u32 1] (oneArray #[z.2.2]) = .ok r' ∧
      callTrace P (fun _ => none) f z.1 [.ptr 0 0 1, .int .u32 1] (oneArray #[z.2.1]) ≠
        callTrace P (fun _ => none) f z.1 [.ptr 0 0 1, .int .u32 1] (oneArray #[z.2.2]) := by
  have ok : ∀ {m : M (Nat → Obj)}, (match m with | .ok _ => true | .error _ => false) = true → ∃ r, m = .ok r := by
    intro m h
    cases m with
    | ok r => exact ⟨r, rfl⟩
    | error e => exact absurd h (by simp)
  refine ⟨_, Src.ntt_red_read, fun z hz => ?_⟩
  simp only [List.mem_cons, List.not_mem_nil, or_false] at hz
  rcases hz with rfl | rfl | rfl
  · obtain ⟨r, h⟩ := ok (m := call Src.ntt_red (fun _ => none) 40 n!"normalize" [.ptr 0 0 1, .int .u32 1] (oneArray #[5])) (by decide +kernel)
    obtain ⟨r', h'⟩ := ok (m := call Src.ntt_red (fun _ => none) 40 n!"normalize" [.ptr 0 0 1, .int .u32 1] (oneArray #[-5])) (by decide +kernel)
    exact ⟨40, r, r', h, h', by decide +kernel⟩
  · obtain ⟨r, h⟩ := ok (m := call Src.ntt_red (fun _ => none) 40 n!"normalize_inv3" [.ptr 0 0 1, .int .u32 1] (oneArray #[5])) (by decide +kernel)
    obtain ⟨r', h'⟩ := ok (m := call Src.ntt_red (fun _ => none) 40 n!"normalize_inv3" [.ptr 0 0 1, .int .u32 1] (oneArray #[-5])) (by decide +kernel)
    exact ⟨40, r, r', h, h', by decide +kernel⟩
  · obtain ⟨r, h⟩ := ok (m := call Src.ntt_red (fun _ => none) 40 n!"shift_array" [.ptr 0 0 1, .int .u32 1] (oneArray #[5])) (by decide +kernel)
    obtain ⟨r', h'⟩ := ok (m := call Src.ntt_red (fun _ => none) 40 n!"shift_array" [.ptr 0 0 1, .int .u32 1] (oneArray #[12000])) (by decide +kernel)
    exact ⟨40, r, r', h, h', by decide +kernel⟩

/-- Compiled with -DNDEBUG, a call that returns when assertions are checked shows the same. -/
theorem C93_release {P : Prog} {G : Name → Option Cell} {g : Name} {vs : List Val} {mem mem' : Nat → Obj} {t : List Obs} (h : Calls P G g vs mem mem')
    (ht : Shows P G g vs mem t) : Shows (release P) G g vs mem t := by
  obtain ⟨n, hn⟩ := h
  obtain ⟨n', hn'⟩ := ht
  refine ⟨n + n', fun f hf => ?_⟩
  rw [callTrace_release (hn f (by omega)), hn' f (by omega)]

/-- So the theorems above also hold for the programs without assertions: the products ... -/
theorem C93_release_products {k : Nat} {P : Prog} {N : ConstNames} {ty : Ty} {T : Consts} {g : Name} (h : SameTrace k P N ty T g) :
    SameTrace k (release P) N ty T g := by
  intro G oc oa ob h1 h2 h3 hN
  obtain ⟨t, ht⟩ := h G oc oa ob h1 h2 h3 hN
  refine ⟨t, fun mem c a b k1 k2 k3 k4 k5 k6 k7 k8 k9 k10 => ?_⟩
  obtain ⟨⟨m, hm⟩, hs⟩ := ht mem c a b k1 k2 k3 k4 k5 k6 k7 k8 k9 k10
  exact ⟨⟨m, hm.release⟩, C93_release hm hs⟩

/-- ... and the transforms. -/
theorem C93_release_transforms {P : Prog} {N : ConstNames} {ty : Ty} {T : Consts} {g : Name} {F : Array Int → M (Array Int)} (h : SameTraceOn P N ty T g F) :
    SameTraceOn (release P) N ty T g F := by
  intro G o hN
  obtain ⟨t, ht⟩ := h G o hN
  refine ⟨t, fun mem a a' k1 k2 k3 k4 => ?_⟩
  obtain ⟨⟨m, hm⟩, hs⟩ := ht mem a a' k1 k2 k3 k4
  exact ⟨⟨m, hm.release⟩, C93_release hm hs⟩

/-! ### The hypotheses can be met -/

/-- The only global arrays of the concrete programs of Verif/Props/Source.lean are the tables. -/
example (T : Consts) (N : ConstNames) : OnlyTables N (someGlobals N T) := by
  intro x o i w h
  by_contra hx
  simp only [ConstNames.arrays, List.mem_cons, List.not_mem_nil, or_false, not_or] at hx
  obtain ⟨h1, h2, h3, h4, h5, h6, h7, h8, h9, h10⟩ := hx
  rw [someGlobals, if_neg h1, if_neg h2, if_neg h3, if_neg h4, if_neg h5, if_neg h6, if_neg h7, if_neg h8, if_neg h9, if_neg h10] at h
  split at h <;> cases h

/-- What a call of `reduce_array` with two elements shows: the tests of the loop, and each element read and written. -/
example : callTrace Src.ntt_red (fun _ => none) 40 n!"reduce_array" [.ptr 0 0 1, .int .u32 2] (oneArray #[7, 100000]) =
    [.test true, .read 0 0, .write 0 0, .test true, .read 0 1, .write 0 1, .test false] := by
  decide +kernel

/-- Calls of `ntt_ct_rev2std` with different elements return, and show more than nothing. -/
example : ∀ a ∈ [#[1, 2, 3, 4], #[4, 12288, 0, 1]],
    (match call Src.ntt (fun _ => none) 60 n!"ntt_ct_rev2std" [.ptr 0 0 1, .int .u32 4, .ptr 1 0 1] (fun o => if o = 0 then ⟨.i32, a⟩ else ⟨.u16, #[0, 1, 1, 1479]⟩) with
      | .ok m => some (m 0).data.size
      | .error _ => none) = some 4 ∧
    (callTrace Src.ntt (fun _ => none) 60 n!"ntt_ct_rev2std" [.ptr 0 0 1, .int .u32 4, .ptr 1 0 1]
      (fun o => if o = 0 then ⟨.i32, a⟩ else ⟨.u16, #[0, 1, 1, 1479]⟩)).length = 34 := by
  decide +kernel

end Props
