import Verif.Proofs.CRunInPlace
import Verif.Props.Source
import Verif.Props.Build
import Verif.Props.SourceRelease

/-
C94: the text of the products, when the destination is one of the operands.  Specification: Verif/SpecSourceInPlace.lean.
-/

namespace Props
open C Spec Spec.CText Tables TableFiles NTT CLang

/-- Removing the asserts does not matter. -/
theorem inPlace_release {k : Nat} {P : Prog} {N : ConstNames} {ty : Ty} {T : Consts} {lo hi : Int} {g : Name} (h : MultipliesInPlace k P N ty T lo hi g) :
    MultipliesInPlace k (release P) N ty T lo hi g := by
  intro G mem oc oa ob a b h1 h2 h3 h4 h5 h6 h7 h8 h9
  obtain ⟨mem', c', e, r⟩ := h G mem oc oa ob a b h1 h2 h3 h4 h5 h6 h7 h8 h9
  exact ⟨mem', c', C88_calls e, r⟩

/-- src/ntt_red.c, src/ntt_red16.h and src/ntt_red16.c, with the tables printed by `make_red_tables` for size 16 and any acceptable `psi`: the text of
each product, executed with its destination in one of its operands, multiplies the initial operands; also when the asserts are removed. -/
theorem C94_ntt_red16 {xpsi : Int} (h : GoodParams 4 16 xpsi) {buf : Nat → Array Nat} (hbuf : ∀ n, (buf n).size = n) {t : RedTables}
    (ht : make_red_tables buf 16 xpsi = .ok t) :
    ∃ P, readAll [Src.ntt_red_text, Src.ntt_red16_h_text, Src.ntt_red16_c_text] = some P ∧
      ∀ g ∈ [n!"ntt_red16_product1", n!"ntt_red16_product2", n!"ntt_red16_product3", n!"ntt_red16_product4", n!"ntt_red16_product5"],
        MultipliesInPlace 4 P redNames16 .i16 (redConsts t) 0 12288 g ∧ MultipliesInPlace 4 (release P) redNames16 .i16 (redConsts t) 0 12288 g :=
  ⟨_, RedProd.prog16_read, fun g hg =>
    have H := RedProd.multipliesInPlace h hbuf ht true (by decide) RedProd.ctx16 RedProd.product1_16 RedProd.product2_16 RedProd.product3_16 RedProd.product4_16 RedProd.product5_16 g hg
    ⟨H, inPlace_release H⟩⟩

/-- src/ntt_red.c, src/ntt_red256.h and src/ntt_red256.c, with the tables printed by `make_red_tables` for size 256 and any acceptable `psi`: the text of
each product, executed with its destination in one of its operands, multiplies the initial operands; also when the asserts are removed. -/
theorem C94_ntt_red256 {xpsi : Int} (h : GoodParams 8 256 xpsi) {buf : Nat → Array Nat} (hbuf : ∀ n, (buf n).size = n) {t : RedTables}
    (ht : make_red_tables buf 256 xpsi = .ok t) :
    ∃ P, readAll [Src.ntt_red_text, Src.ntt_red256_h_text, Src.ntt_red256_c_text] = some P ∧
      ∀ g ∈ [n!"ntt_red256_product1", n!"ntt_red256_product2", n!"ntt_red256_product3", n!"ntt_red256_product4", n!"ntt_red256_product5"],
        MultipliesInPlace 8 P redNames256 .i16 (redConsts t) 0 12288 g ∧ MultipliesInPlace 8 (release P) redNames256 .i16 (redConsts t) 0 12288 g :=
  ⟨_, RedProd.prog256_read, fun g hg =>
    have H := RedProd.multipliesInPlace h hbuf ht true (by decide) RedProd.ctx256 RedProd.product1_256 RedProd.product2_256 RedProd.product3_256 RedProd.product4_256 RedProd.product5_256 g hg
    ⟨H, inPlace_release H⟩⟩

/-- src/ntt_red.c, src/ntt_red512.h and src/ntt_red512.c, with the tables printed by `make_red_tables` for size 512 and any acceptable `psi`: the text of
each product, executed with its destination in one of its operands, multiplies the initial operands; also when the asserts are removed. -/
theorem C94_ntt_red512 {xpsi : Int} (h : GoodParams 9 512 xpsi) {buf : Nat → Array Nat} (hbuf : ∀ n, (buf n).size = n) {t : RedTables}
    (ht : make_red_tables buf 512 xpsi = .ok t) :
    ∃ P, readAll [Src.ntt_red_text, Src.ntt_red512_h_text, Src.ntt_red512_c_text] = some P ∧
      ∀ g ∈ [n!"ntt_red512_product1", n!"ntt_red512_product2", n!"ntt_red512_product3", n!"ntt_red512_product4", n!"ntt_red512_product5"],
        MultipliesInPlace 9 P redNames512 .i16 (redConsts t) 0 12288 g ∧ MultipliesInPlace 9 (release P) redNames512 .i16 (redConsts t) 0 12288 g :=
  ⟨_, RedProd.prog512_read, fun g hg =>
    have H := RedProd.multipliesInPlace h hbuf ht true (by decide) RedProd.ctx512 RedProd.product1_512 RedProd.product2_512 RedProd.product3_512 RedProd.product4_512 RedProd.product5_512 g hg
    ⟨H, inPlace_release H⟩⟩

/-- src/ntt_red.c, src/ntt_red1024.h and src/ntt_red1024.c, with the tables printed by `make_red_tables` for size 1024 and any acceptable `psi`: the text of
each product, executed with its destination in one of its operands, multiplies the initial operands; also when the asserts are removed. -/
theorem C94_ntt_red1024 {xpsi : Int} (h : GoodParams 10 1024 xpsi) {buf : Nat → Array Nat} (hbuf : ∀ n, (buf n).size = n) {t : RedTables}
    (ht : make_red_tables buf 1024 xpsi = .ok t) :
    ∃ P, readAll [Src.ntt_red_text, Src.ntt_red1024_h_text, Src.ntt_red1024_c_text] = some P ∧
      ∀ g ∈ [n!"ntt_red1024_product1", n!"ntt_red1024_product2", n!"ntt_red1024_product3", n!"ntt_red1024_product4", n!"ntt_red1024_product5"],
        MultipliesInPlace 10 P redNames1024 .i16 (redConsts t) 0 12288 g ∧ MultipliesInPlace 10 (release P) redNames1024 .i16 (redConsts t) 0 12288 g :=
  ⟨_, RedProd.prog1024_read, fun g hg =>
    have H := RedProd.multipliesInPlace h hbuf ht false (by decide) RedProd.ctx1024 RedProd.product1_1024 RedProd.product2_1024 RedProd.product3_1024 RedProd.product4_1024 RedProd.product5_1024 g hg
    ⟨H, inPlace_release H⟩⟩

/-- src/ntt.c, src/ntt16.h and src/ntt16.c, with the tables printed by `make_tables` for size 16 and any acceptable `psi`: the text of
each product, executed with its destination in one of its operands, multiplies the initial operands; also when the asserts are removed. -/
theorem C94_ntt16 {xpsi : Int} (h : GoodParams 4 16 xpsi) {buf : Nat → Array Nat} (hbuf : ∀ n, (buf n).size = n) {t : Nttables}
    (ht : make_tables buf 16 xpsi = .ok t) :
    ∃ P, readAll [Src.ntt_text, Src.ntt16_h_text, Src.ntt16_c_text] = some P ∧
      ∀ g ∈ [n!"ntt16_product1", n!"ntt16_product2", n!"ntt16_product3", n!"ntt16_product4", n!"ntt16_product5"],
        MultipliesInPlace 4 P nttNames16 .u16 (nttConsts t) 0 12288 g ∧ MultipliesInPlace 4 (release P) nttNames16 .u16 (nttConsts t) 0 12288 g :=
  ⟨_, NttProd.prog16_read, fun g hg =>
    have H := NttProd.multipliesInPlace h hbuf ht (by decide) NttProd.ctx16 NttProd.product1_16 NttProd.product2_16 NttProd.product3_16 NttProd.product4_16 NttProd.product5_16 g hg
    ⟨H, inPlace_release H⟩⟩

/-- src/ntt.c, src/ntt256.h and src/ntt256.c, with the tables printed by `make_tables` for size 256 and any acceptable `psi`: the text of
each product, executed with its destination in one of its operands, multiplies the initial operands; also when the asserts are removed. -/
theorem C94_ntt256 {xpsi : Int} (h : GoodParams 8 256 xpsi) {buf : Nat → Array Nat} (hbuf : ∀ n, (buf n).size = n) {t : Nttables}
    (ht : make_tables buf 256 xpsi = .ok t) :
    ∃ P, readAll [Src.ntt_text, Src.ntt256_h_text, Src.ntt256_c_text] = some P ∧
      ∀ g ∈ [n!"ntt256_product1", n!"ntt256_product2", n!"ntt256_product3", n!"ntt256_product4", n!"ntt256_product5"],
        MultipliesInPlace 8 P nttNames256 .u16 (nttConsts t) 0 12288 g ∧ MultipliesInPlace 8 (release P) nttNames256 .u16 (nttConsts t) 0 12288 g :=
  ⟨_, NttProd.prog256_read, fun g hg =>
    have H := NttProd.multipliesInPlace h hbuf ht (by decide) NttProd.ctx256 NttProd.product1_256 NttProd.product2_256 NttProd.product3_256 NttProd.product4_256 NttProd.product5_256 g hg
    ⟨H, inPlace_release H⟩⟩

/-- src/ntt.c, src/ntt512.h and src/ntt512.c, with the tables printed by `make_tables` for size 512 and any acceptable `psi`: the text of
each product, executed with its destination in one of its operands, multiplies the initial operands; also when the asserts are removed. -/
theorem C94_ntt512 {xpsi : Int} (h : GoodParams 9 512 xpsi) {buf : Nat → Array Nat} (hbuf : ∀ n, (buf n).size = n) {t : Nttables}
    (ht : make_tables buf 512 xpsi = .ok t) :
    ∃ P, readAll [Src.ntt_text, Src.ntt512_h_text, Src.ntt512_c_text] = some P ∧
      ∀ g ∈ [n!"ntt512_product1", n!"ntt512_product2", n!"ntt512_product3", n!"ntt512_product4", n!"ntt512_product5"],
        MultipliesInPlace 9 P nttNames512 .u16 (nttConsts t) 0 12288 g ∧ MultipliesInPlace 9 (release P) nttNames512 .u16 (nttConsts t) 0 12288 g :=
  ⟨_, NttProd.prog512_read, fun g hg =>
    have H := NttProd.multipliesInPlace h hbuf ht (by decide) NttProd.ctx512 NttProd.product1_512 NttProd.product2_512 NttProd.product3_512 NttProd.product4_512 NttProd.product5_512 g hg
    ⟨H, inPlace_release H⟩⟩

/-- src/ntt.c, src/ntt1024.h and src/ntt1024.c, with the tables printed by `make_tables` for size 1024 and any acceptable `psi`: the text of
each product, executed with its destination in one of its operands, multiplies the initial operands; also when the asserts are removed. -/
theorem C94_ntt1024 {xpsi : Int} (h : GoodParams 10 1024 xpsi) {buf : Nat → Array Nat} (hbuf : ∀ n, (buf n).size = n) {t : Nttables}
    (ht : make_tables buf 1024 xpsi = .ok t) :
    ∃ P, readAll [Src.ntt_text, Src.ntt1024_h_text, Src.ntt1024_c_text] = some P ∧
      ∀ g ∈ [n!"ntt1024_product1", n!"ntt1024_product2", n!"ntt1024_product3", n!"ntt1024_product4", n!"ntt1024_product5"],
        MultipliesInPlace 10 P nttNames1024 .u16 (nttConsts t) 0 12288 g ∧ MultipliesInPlace 10 (release P) nttNames1024 .u16 (nttConsts t) 0 12288 g :=
  ⟨_, NttProd.prog1024_read, fun g hg =>
    have H := NttProd.multipliesInPlace h hbuf ht (by decide) NttProd.ctx1024 NttProd.product1_1024 NttProd.product2_1024 NttProd.product3_1024 NttProd.product4_1024 NttProd.product5_1024 g hg
    ⟨H, inPlace_release H⟩⟩

/-- src/naive_ntt.c, src/naive_ntt16.h and src/naive_ntt16.c, with the tables printed by `make_tables` for size 16 and any acceptable `psi`: the text of
each product, executed with its destination in one of its operands, multiplies the initial operands; also when the asserts are removed. -/
theorem C94_naive_ntt16 {xpsi : Int} (h : GoodParams 4 16 xpsi) {buf : Nat → Array Nat} (hbuf : ∀ n, (buf n).size = n) {t : Nttables}
    (ht : make_tables buf 16 xpsi = .ok t) :
    ∃ P, readAll [Src.naive_ntt_text, Src.naive_ntt16_h_text, Src.naive_ntt16_c_text] = some P ∧
      ∀ g ∈ [n!"naive_ntt16_product1", n!"naive_ntt16_product2", n!"naive_ntt16_product3", n!"naive_ntt16_product4", n!"naive_ntt16_product5"],
        MultipliesInPlace 4 P nttNames16 .u16 (nttConsts t) (-12288) 12288 g ∧ MultipliesInPlace 4 (release P) nttNames16 .u16 (nttConsts t) (-12288) 12288 g :=
  ⟨_, NaiveProd.prog16_read, fun g hg =>
    have H := NaiveProd.multipliesInPlace h hbuf ht (by decide) NaiveProd.ctx16 NaiveProd.product1_16 NaiveProd.product2_16 NaiveProd.product3_16 NaiveProd.product4_16 NaiveProd.product5_16 g hg
    ⟨H, inPlace_release H⟩⟩

/-- src/naive_ntt.c, src/naive_ntt256.h and src/naive_ntt256.c, with the tables printed by `make_tables` for size 256 and any acceptable `psi`: the text of
each product, executed with its destination in one of its operands, multiplies the initial operands; also when the asserts are removed. -/
theorem C94_naive_ntt256 {xpsi : Int} (h : GoodParams 8 256 xpsi) {buf : Nat → Array Nat} (hbuf : ∀ n, (buf n).size = n) {t : Nttables}
    (ht : make_tables buf 256 xpsi = .ok t) :
    ∃ P, readAll [Src.naive_ntt_text, Src.naive_ntt256_h_text, Src.naive_ntt256_c_text] = some P ∧
      ∀ g ∈ [n!"naive_ntt256_product1", n!"naive_ntt256_product2", n!"naive_ntt256_product3", n!"naive_ntt256_product4", n!"naive_ntt256_product5"],
        MultipliesInPlace 8 P nttNames256 .u16 (nttConsts t) (-12288) 12288 g ∧ MultipliesInPlace 8 (release P) nttNames256 .u16 (nttConsts t) (-12288) 12288 g :=
  ⟨_, NaiveProd.prog256_read, fun g hg =>
    have H := NaiveProd.multipliesInPlace h hbuf ht (by decide) NaiveProd.ctx256 NaiveProd.product1_256 NaiveProd.product2_256 NaiveProd.product3_256 NaiveProd.product4_256 NaiveProd.product5_256 g hg
    ⟨H, inPlace_release H⟩⟩

/-- src/naive_ntt.c, src/naive_ntt512.h and src/naive_ntt512.c, with the tables printed by `make_tables` for size 512 and any acceptable `psi`: the text of
each product, executed with its destination in one of its operands, multiplies the initial operands; also when the asserts are removed. -/
theorem C94_naive_ntt512 {xpsi : Int} (h : GoodParams 9 512 xpsi) {buf : Nat → Array Nat} (hbuf : ∀ n, (buf n).size = n) {t : Nttables}
    (ht : make_tables buf 512 xpsi = .ok t) :
    ∃ P, readAll [Src.naive_ntt_text, Src.naive_ntt512_h_text, Src.naive_ntt512_c_text] = some P ∧
      ∀ g ∈ [n!"naive_ntt512_product1", n!"naive_ntt512_product2", n!"naive_ntt512_product3", n!"naive_ntt512_product4", n!"naive_ntt512_product5"],
        MultipliesInPlace 9 P nttNames512 .u16 (nttConsts t) (-12288) 12288 g ∧ MultipliesInPlace 9 (release P) nttNames512 .u16 (nttConsts t) (-12288) 12288 g :=
  ⟨_, NaiveProd.prog512_read, fun g hg =>
    have H := NaiveProd.multipliesInPlace h hbuf ht (by decide) NaiveProd.ctx512 NaiveProd.product1_512 NaiveProd.product2_512 NaiveProd.product3_512 NaiveProd.product4_512 NaiveProd.product5_512 g hg
    ⟨H, inPlace_release H⟩⟩

/-- src/naive_ntt.c, src/naive_ntt1024.h and src/naive_ntt1024.c, with the tables printed by `make_tables` for size 1024 and any acceptable `psi`: the text of
each product, executed with its destination in one of its operands, multiplies the initial operands; also when the asserts are removed. -/
theorem C94_naive_ntt1024 {xpsi : Int} (h : GoodParams 10 1024 xpsi) {buf : Nat → Array Nat} (hbuf : ∀ n, (buf n).size = n) {t : Nttables}
    (ht : make_tables buf 1024 xpsi = .ok t) :
    ∃ P, readAll [Src.naive_ntt_text, Src.naive_ntt1024_h_text, Src.naive_ntt1024_c_text] = some P ∧
      ∀ g ∈ [n!"naive_ntt1024_product1", n!"naive_ntt1024_product2", n!"naive_ntt1024_product3", n!"naive_ntt1024_product4", n!"naive_ntt1024_product5"],
        MultipliesInPlace 10 P nttNames1024 .u16 (nttConsts t) (-12288) 12288 g ∧ MultipliesInPlace 10 (release P) nttNames1024 .u16 (nttConsts t) (-12288) 12288 g :=
  ⟨_, NaiveProd.prog1024_read, fun g hg =>
    have H := NaiveProd.multipliesInPlace h hbuf ht (by decide) NaiveProd.ctx1024 NaiveProd.product1_1024 NaiveProd.product2_1024 NaiveProd.product3_1024 NaiveProd.product4_1024 NaiveProd.product5_1024 g hg
    ⟨H, inPlace_release H⟩⟩

theorem builtAny_of {k : Nat} {texts : List Nat} {hd src : Text} {g : Name} {P P' : Prog} {hs ss : List Item} {N : ConstNames} {ty : Ty} {T : Consts} {lo hi : Int}
    (h1 : readAll texts = some P) (h1' : readAll texts = some P') (h2 : readC hd = some hs) (h3 : readC src = some ss) (hm : Multiplies k P N ty T lo hi g)
    (hm' : MultipliesInPlace k P' N ty T lo hi g) (hG : ∀ G mem X, Linked (hs ++ ss) G mem X → Globals N ty T G mem X) : BuiltAny k texts hd src lo hi g := by
  rw [h1] at h1'
  have hP := Option.some.inj h1'
  subst hP
  refine ⟨P, hs, ss, h1, h2, h3, fun G mem oc oa ob c a b d hl hc ha hb hcs has hbs hcr har hbr => ?_⟩
  by_cases d1 : oc = oa
  · exact hm' G mem oc oa ob a b (Or.inl d1) d (hG G mem _ hl) ha hb has hbs har hbr
  by_cases d2 : oc = ob
  · exact hm' G mem oc oa ob a b (Or.inr d2) d (hG G mem _ hl) ha hb has hbs har hbr
  exact hm G mem oc oa ob c a b (Ne.symm d1) d (Ne.symm d2) (hG G mem _ hl) hc ha hb hcs has hbs hcr har hbr

/-- The C files and products of the naive libraries, by size. -/
def naiveBuilds : List (Nat × List Nat × List Name) := [
  (4, [Src.naive_ntt_text, Src.naive_ntt16_h_text, Src.naive_ntt16_c_text],
    [n!"naive_ntt16_product1", n!"naive_ntt16_product2", n!"naive_ntt16_product3", n!"naive_ntt16_product4", n!"naive_ntt16_product5"]),
  (8, [Src.naive_ntt_text, Src.naive_ntt256_h_text, Src.naive_ntt256_c_text],
    [n!"naive_ntt256_product1", n!"naive_ntt256_product2", n!"naive_ntt256_product3", n!"naive_ntt256_product4", n!"naive_ntt256_product5"]),
  (9, [Src.naive_ntt_text, Src.naive_ntt512_h_text, Src.naive_ntt512_c_text],
    [n!"naive_ntt512_product1", n!"naive_ntt512_product2", n!"naive_ntt512_product3", n!"naive_ntt512_product4", n!"naive_ntt512_product5"]),
  (10, [Src.naive_ntt_text, Src.naive_ntt1024_h_text, Src.naive_ntt1024_c_text],
    [n!"naive_ntt1024_product1", n!"naive_ntt1024_product2", n!"naive_ntt1024_product3", n!"naive_ntt1024_product4", n!"naive_ntt1024_product5"])]

/-- For each size and any arguments that say this size and an acceptable `psi`: `make_tables` writes the two table files, and with them the five
products of src/ntt<n>.c multiply polynomials, the destination being a third array or one of the operands. -/
theorem C94_files_ntt {k : Nat} {texts : List Nat} {gs : List Name} (hz : (k, texts, gs) ∈ nttBuilds) {s1 s2 : Text} {xn xpsi : Int}
    (h : GoodParams k xn xpsi) (h1 : atol s1 = .ok xn) (h2 : atol s2 = .ok xpsi) {buf : Nat → Array Nat} (hb : ∀ n, (buf n).size = n) :
    ∃ hd src, make_tables_main buf [s1, s2] = .ok [(c!"ntt" ++ decimal (2 ^ k) ++ c!"_tables.h", hd),
        (c!"ntt" ++ decimal (2 ^ k) ++ c!"_tables.c", src)] ∧ ∀ g ∈ gs, BuiltAny k texts hd src 0 12288 g := by
  obtain ⟨t, e, ok⟩ := wp_total.1 (wp_make_tables (E := NoErr) h hb)
  obtain ⟨hd, src, g1, g2, g3⟩ := make_tables_files h hb h1 h2 e
  refine ⟨hd, src, g1, ?_⟩
  have hxn : xn = 2 ^ k := h.2.1
  simp only [nttBuilds, List.mem_cons, Prod.mk.injEq, List.not_mem_nil, or_false] at hz
  rcases hz with ⟨rfl, rfl, rfl⟩ | ⟨rfl, rfl, rfl⟩ | ⟨rfl, rfl, rfl⟩ | ⟨rfl, rfl, rfl⟩ <;> subst hxn
  · obtain ⟨P, r, hp, _⟩ := C82_ntt16 h hb e
    obtain ⟨P', r', hp'⟩ := C94_ntt16 h hb e
    exact fun g hg => builtAny_of r r' g2 g3 (hp g hg) (hp' g hg).1 fun G mem X => ntt_globals ok.n (by decide +kernel)
  · obtain ⟨P, r, hp, _⟩ := C82_ntt256 h hb e
    obtain ⟨P', r', hp'⟩ := C94_ntt256 h hb e
    exact fun g hg => builtAny_of r r' g2 g3 (hp g hg) (hp' g hg).1 fun G mem X => ntt_globals ok.n (by decide +kernel)
  · obtain ⟨P, r, hp, _⟩ := C82_ntt512 h hb e
    obtain ⟨P', r', hp'⟩ := C94_ntt512 h hb e
    exact fun g hg => builtAny_of r r' g2 g3 (hp g hg) (hp' g hg).1 fun G mem X => ntt_globals ok.n (by decide +kernel)
  · obtain ⟨P, r, hp, _⟩ := C82_ntt1024 h hb e
    obtain ⟨P', r', hp'⟩ := C94_ntt1024 h hb e
    exact fun g hg => builtAny_of r r' g2 g3 (hp g hg) (hp' g hg).1 fun G mem X => ntt_globals ok.n (by decide +kernel)

/-- The same for the products of src/naive_ntt<n>.c, which use the same table files. -/
theorem C94_files_naive_ntt {k : Nat} {texts : List Nat} {gs : List Name} (hz : (k, texts, gs) ∈ naiveBuilds) {s1 s2 : Text} {xn xpsi : Int}
    (h : GoodParams k xn xpsi) (h1 : atol s1 = .ok xn) (h2 : atol s2 = .ok xpsi) {buf : Nat → Array Nat} (hb : ∀ n, (buf n).size = n) :
    ∃ hd src, make_tables_main buf [s1, s2] = .ok [(c!"ntt" ++ decimal (2 ^ k) ++ c!"_tables.h", hd),
        (c!"ntt" ++ decimal (2 ^ k) ++ c!"_tables.c", src)] ∧ ∀ g ∈ gs, BuiltAny k texts hd src (-12288) 12288 g := by
  obtain ⟨t, e, ok⟩ := wp_total.1 (wp_make_tables (E := NoErr) h hb)
  obtain ⟨hd, src, g1, g2, g3⟩ := make_tables_files h hb h1 h2 e
  refine ⟨hd, src, g1, ?_⟩
  have hxn : xn = 2 ^ k := h.2.1
  simp only [naiveBuilds, List.mem_cons, Prod.mk.injEq, List.not_mem_nil, or_false] at hz
  rcases hz with ⟨rfl, rfl, rfl⟩ | ⟨rfl, rfl, rfl⟩ | ⟨rfl, rfl, rfl⟩ | ⟨rfl, rfl, rfl⟩ <;> subst hxn
  · obtain ⟨P, r, hp, _⟩ := C82_naive_ntt16 h hb e
    obtain ⟨P', r', hp'⟩ := C94_naive_ntt16 h hb e
    exact fun g hg => builtAny_of r r' g2 g3 (hp g hg) (hp' g hg).1 fun G mem X => ntt_globals ok.n (by decide +kernel)
  · obtain ⟨P, r, hp, _⟩ := C82_naive_ntt256 h hb e
    obtain ⟨P', r', hp'⟩ := C94_naive_ntt256 h hb e
    exact fun g hg => builtAny_of r r' g2 g3 (hp g hg) (hp' g hg).1 fun G mem X => ntt_globals ok.n (by decide +kernel)
  · obtain ⟨P, r, hp, _⟩ := C82_naive_ntt512 h hb e
    obtain ⟨P', r', hp'⟩ := C94_naive_ntt512 h hb e
    exact fun g hg => builtAny_of r r' g2 g3 (hp g hg) (hp' g hg).1 fun G mem X => ntt_globals ok.n (by decide +kernel)
  · obtain ⟨P, r, hp, _⟩ := C82_naive_ntt1024 h hb e
    obtain ⟨P', r', hp'⟩ := C94_naive_ntt1024 h hb e
    exact fun g hg => builtAny_of r r' g2 g3 (hp g hg) (hp' g hg).1 fun G mem X => ntt_globals ok.n (by decide +kernel)

/-- The same for `make_red_tables` and the products of src/ntt_red<n>.c. -/
theorem C94_files_ntt_red {k : Nat} {texts : List Nat} {gs : List Name} (hz : (k, texts, gs) ∈ redBuilds) {s1 s2 : Text} {xn xpsi : Int}
    (h : GoodParams k xn xpsi) (h1 : atol s1 = .ok xn) (h2 : atol s2 = .ok xpsi) {buf : Nat → Array Nat} (hb : ∀ n, (buf n).size = n) :
    ∃ hd src, make_red_tables_main buf [s1, s2] = .ok [(c!"ntt_red" ++ decimal (2 ^ k) ++ c!"_tables.h", hd),
        (c!"ntt_red" ++ decimal (2 ^ k) ++ c!"_tables.c", src)] ∧ ∀ g ∈ gs, BuiltAny k texts hd src 0 12288 g := by
  obtain ⟨t, e, ok⟩ := wp_total.1 (wp_make_red_tables (E := NoErr) h hb)
  obtain ⟨hd, src, g1, g2, g3⟩ := make_red_tables_files h hb h1 h2 e
  refine ⟨hd, src, g1, ?_⟩
  have hxn : xn = 2 ^ k := h.2.1
  simp only [redBuilds, List.mem_cons, Prod.mk.injEq, List.not_mem_nil, or_false] at hz
  rcases hz with ⟨rfl, rfl, rfl⟩ | ⟨rfl, rfl, rfl⟩ | ⟨rfl, rfl, rfl⟩ | ⟨rfl, rfl, rfl⟩ <;> subst hxn
  · obtain ⟨P, r, hp, _⟩ := C82_ntt_red16 h hb e
    obtain ⟨P', r', hp'⟩ := C94_ntt_red16 h hb e
    exact fun g hg => builtAny_of r r' g2 g3 (hp g hg) (hp' g hg).1 fun G mem X => red_globals ok.n (by decide +kernel)
  · obtain ⟨P, r, hp, _⟩ := C82_ntt_red256 h hb e
    obtain ⟨P', r', hp'⟩ := C94_ntt_red256 h hb e
    exact fun g hg => builtAny_of r r' g2 g3 (hp g hg) (hp' g hg).1 fun G mem X => red_globals ok.n (by decide +kernel)
  · obtain ⟨P, r, hp, _⟩ := C82_ntt_red512 h hb e
    obtain ⟨P', r', hp'⟩ := C94_ntt_red512 h hb e
    exact fun g hg => builtAny_of r r' g2 g3 (hp g hg) (hp' g hg).1 fun G mem X => red_globals ok.n (by decide +kernel)
  · obtain ⟨P, r, hp, _⟩ := C82_ntt_red1024 h hb e
    obtain ⟨P', r', hp'⟩ := C94_ntt_red1024 h hb e
    exact fun g hg => builtAny_of r r' g2 g3 (hp g hg) (hp' g hg).1 fun G mem X => red_globals ok.n (by decide +kernel)

/-- The hypotheses on the memory hold: the operands in the objects 1 and 2, the destination in one of them, and all tables. -/
example (T : Consts) (a b : Array Int) (oc : Nat) (hoc : oc = 1 ∨ oc = 2) :
    (∀ N ∈ [nttNames16, nttNames256, nttNames512, nttNames1024], Globals N .u16 T (someGlobals N T) (someMem .u16 T #[] a b) [oc, 1, 2]) ∧
    ∀ N ∈ [redNames16, redNames256, redNames512, redNames1024], Globals N .i16 T (someGlobals N T) (someMem .i16 T #[] a b) [oc, 1, 2] := by
  rcases hoc with rfl | rfl <;> constructor <;> intro N hN <;> simp only [List.mem_cons, List.not_mem_nil, or_false] at hN <;> rcases hN with rfl | rfl | rfl | rfl <;>
  exact ⟨⟨3, rfl, by decide, rfl⟩, ⟨4, rfl, by decide, rfl⟩, ⟨5, rfl, by decide, rfl⟩, ⟨6, rfl, by decide, rfl⟩, ⟨7, rfl, by decide, rfl⟩, ⟨8, rfl, by decide, rfl⟩, ⟨9, rfl, by decide, rfl⟩, ⟨10, rfl, by decide, rfl⟩, ⟨11, rfl, by decide, rfl⟩, ⟨12, rfl, by decide, rfl⟩, rfl⟩

/-- The tables of the library exist for size 1024. -/
example : ∃ t t', make_red_tables (fun n => Array.replicate n 0) 1024 1014 = .ok t ∧ make_tables (fun n => Array.replicate n 0) 1024 1014 = .ok t' := by
  have hg : GoodParams 10 1024 1014 := libraryParams_good (10, 1024, 1014) (by simp [libraryParams])
  obtain ⟨t, h, _⟩ := red_tables_ok hg (buf := fun n => Array.replicate n 0) (by intro n; simp)
  obtain ⟨t', h', _⟩ := tables_ok hg (buf := fun n => Array.replicate n 0) (by intro n; simp)
  exact ⟨t, t', h, h'⟩

/-- The arguments used by the Makefile. -/
example : GoodParams 10 1024 1014 ∧ atol c!"1024" = .ok 1024 ∧ atol c!"1014" = .ok 1014 :=
  ⟨libraryParams_good (10, 1024, 1014) (by simp [libraryParams]), by decide +kernel, by decide +kernel⟩

end Props
