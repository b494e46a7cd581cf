import Verif.SpecAsmBuild
import Verif.Props.SourceAsm
import Verif.Props.Build

/-
C90: from the command line of the generator to the AVX2 products.

Specification: Verif/SpecAsmBuild.lean.
-/

namespace Props
open C Spec Spec.CText Tables TableFiles NTT CLang X86 AsmRead AsmCalls

/-- For each size: the logarithm, the names of the tables, the C files and the products. -/
def asmBuilds : List (Nat × TableNames × List Nat × List Name) := [
  (4, tableNames16, [Src.ntt_red_asm16_h_text, Src.ntt_red_asm16_c_text],
    [n!"ntt_red16_product1_asm", n!"ntt_red16_product2_asm", n!"ntt_red16_product3_asm", n!"ntt_red16_product4_asm", n!"ntt_red16_product5_asm"]),
  (8, tableNames256, [Src.ntt_red_asm256_h_text, Src.ntt_red_asm256_c_text],
    [n!"ntt_red256_product1_asm", n!"ntt_red256_product2_asm", n!"ntt_red256_product3_asm", n!"ntt_red256_product4_asm", n!"ntt_red256_product5_asm"]),
  (9, tableNames512, [Src.ntt_red_asm512_h_text, Src.ntt_red_asm512_c_text],
    [n!"ntt_red512_product1_asm", n!"ntt_red512_product2_asm", n!"ntt_red512_product3_asm", n!"ntt_red512_product4_asm", n!"ntt_red512_product5_asm"]),
  (10, tableNames1024, [Src.ntt_red_asm1024_h_text, Src.ntt_red_asm1024_c_text],
    [n!"ntt_red1024_product2_asm", n!"ntt_red1024_product3_asm", n!"ntt_red1024_product4_asm", n!"ntt_red1024_product5_asm"])]

/-- The names of the tables are those that `make_red_tables` prints. -/
def Printed (n : Nat) (N : TableNames) : Prop :=
  (∀ p, N.tab p = nameOf (c!"ntt_red" ++ decimal n ++ c!"_" ++ match p with
    | .psi_powers => c!"psi_powers"
    | .scaled_inv_psi_powers => c!"scaled_inv_psi_powers"
    | .scaled_inv_psi_powers_var => c!"scaled_inv_psi_powers_var"
    | .omega_powers => c!"omega_powers"
    | .omega_powers_rev => c!"omega_powers_rev"
    | .inv_omega_powers => c!"inv_omega_powers"
    | .inv_omega_powers_rev => c!"inv_omega_powers_rev"
    | .mixed_powers => c!"mixed_powers"
    | .mixed_powers_rev => c!"mixed_powers_rev"
    | .inv_mixed_powers => c!"inv_mixed_powers"
    | .inv_mixed_powers_rev => c!"inv_mixed_powers_rev")) ∧
  N.rescale8 = nameOf (c!"ntt_red" ++ decimal n ++ c!"_" ++ c!"rescale8")

theorem printed16 : Printed 16 tableNames16 := ⟨fun p => by cases p <;> decide +kernel, by decide +kernel⟩
theorem printed256 : Printed 256 tableNames256 := ⟨fun p => by cases p <;> decide +kernel, by decide +kernel⟩
theorem printed512 : Printed 512 tableNames512 := ⟨fun p => by cases p <;> decide +kernel, by decide +kernel⟩
theorem printed1024 : Printed 1024 tableNames1024 := ⟨fun p => by cases p <;> decide +kernel, by decide +kernel⟩

theorem asmLinked_tab {items : List CText.Item} {L : Place} {N : TableNames} {v : Int} {m : Memory} (h : AsmLinked items L N v m) {p : Tbl}
    {name : CText.Text} {d : Spec.CText.Tok} {a : Array Int} (hz : CText.Item.array c!"int16_t" name d a.toList ∈ items) (hx : N.tab p = nameOf name) :
    Holds16 m (L.tab p) a := h _ hz p hx.symm rfl

theorem asmLinked_tables {n : Nat} {t : RedTables} {L : Place} {N : TableNames} {v : Int} {m : Memory} (hn : t.n = n) (hN : Printed n N)
    (h : AsmLinked (redHeader t ++ redSource t) L N v m) : (∀ p, Holds16 m (L.tab p) (tableOf t p)) ∧ v = t.rescale8 := by
  subst hn
  refine ⟨fun p => ?_, h (.param c!"int32_t" (c!"ntt_red" ++ decimal t.n ++ c!"_" ++ c!"rescale8") t.rescale8)
    (List.mem_append_left _ (by unfold redHeader; in_list)) hN.2.symm rfl⟩
  have hp := hN.1 p
  cases p
  · exact asmLinked_tab h (name := c!"ntt_red" ++ decimal t.n ++ c!"_" ++ c!"psi_powers") (d := .num t.n)
      (List.mem_append_right _ (by unfold redSource; in_list)) hp
  · exact asmLinked_tab h (name := c!"ntt_red" ++ decimal t.n ++ c!"_" ++ c!"scaled_inv_psi_powers") (d := .num t.n)
      (List.mem_append_right _ (by unfold redSource; in_list)) hp
  · exact asmLinked_tab h (name := c!"ntt_red" ++ decimal t.n ++ c!"_" ++ c!"scaled_inv_psi_powers_var") (d := .num t.n)
      (List.mem_append_right _ (by unfold redSource; in_list)) hp
  · exact asmLinked_tab h (name := c!"ntt_red" ++ decimal t.n ++ c!"_" ++ c!"omega_powers") (d := .num t.n)
      (List.mem_append_right _ (by unfold redSource; in_list)) hp
  · exact asmLinked_tab h (name := c!"ntt_red" ++ decimal t.n ++ c!"_" ++ c!"omega_powers_rev") (d := .num t.n)
      (List.mem_append_right _ (by unfold redSource; in_list)) hp
  · exact asmLinked_tab h (name := c!"ntt_red" ++ decimal t.n ++ c!"_" ++ c!"inv_omega_powers") (d := .num t.n)
      (List.mem_append_right _ (by unfold redSource; in_list)) hp
  · exact asmLinked_tab h (name := c!"ntt_red" ++ decimal t.n ++ c!"_" ++ c!"inv_omega_powers_rev") (d := .num t.n)
      (List.mem_append_right _ (by unfold redSource; in_list)) hp
  · exact asmLinked_tab h (name := c!"ntt_red" ++ decimal t.n ++ c!"_" ++ c!"mixed_powers") (d := .num t.n)
      (List.mem_append_right _ (by unfold redSource; in_list)) hp
  · exact asmLinked_tab h (name := c!"ntt_red" ++ decimal t.n ++ c!"_" ++ c!"mixed_powers_rev") (d := .num t.n)
      (List.mem_append_right _ (by unfold redSource; in_list)) hp
  · exact asmLinked_tab h (name := c!"ntt_red" ++ decimal t.n ++ c!"_" ++ c!"inv_mixed_powers") (d := .num t.n)
      (List.mem_append_right _ (by unfold redSource; in_list)) hp
  · exact asmLinked_tab h (name := c!"ntt_red" ++ decimal t.n ++ c!"_" ++ c!"inv_mixed_powers_rev") (d := .num t.n)
      (List.mem_append_right _ (by unfold redSource; in_list)) hp

theorem asmBuilt_of {n : Nat} {N : TableNames} {asm : List Nat} {texts : List Nat} {hd src : CText.Text} {g : Name} {F : Asm} {P : Prog} {t : RedTables}
    (h1 : readAsm asm = some F) (h2 : readAll texts = some P) (h3 : readC hd = some (redHeader t)) (h4 : readC src = some (redSource t))
    (hn : t.n = n) (hN : Printed n N) (hm : AsmMultiplies F P N n t g) : AsmBuilt n N asm texts hd src g := by
  obtain ⟨l, hl, key⟩ := hm
  refine ⟨F, P, _, _, l, h1, h2, h3, h4, hl, fun K L v m a b hf hld hlk ha hb hha hhb hra hrb => ?_⟩
  obtain ⟨ht, rfl⟩ := asmLinked_tables hn hN hlk
  exact key K L m a b ⟨hf, hld, ht, ha, hb, hha, hhb⟩ hra hrb

/-- For each size of the library and any arguments that say this size and an acceptable `psi`: `make_red_tables` writes the two table files, and
with them the AVX2 products, as written in the C files and in src/ntt_asm.S, multiply polynomials modulo `X^n + 1` (for size 1024 the products
2 to 5). -/
theorem C90_products {k : Nat} {N : TableNames} {texts : List Nat} {gs : List Name} (hz : (k, N, texts, gs) ∈ asmBuilds) {s1 s2 : CText.Text}
    {xn xpsi : Int} (h : GoodParams k xn xpsi) (h1 : atol s1 = .ok xn) (h2 : atol s2 = .ok xpsi) {buf : Nat → Array Nat}
    (hb : ∀ n, (buf n).size = n) :
    ∃ hd src, make_red_tables_main buf [s1, s2] = .ok [(c!"ntt_red" ++ decimal (2 ^ k) ++ c!"_tables.h", hd),
        (c!"ntt_red" ++ decimal (2 ^ k) ++ c!"_tables.c", src)] ∧ ∀ g ∈ gs, AsmBuilt (2 ^ k) N Src.ntt_asm_text texts hd src g := by
  obtain ⟨t, e, ok⟩ := wp_total.1 (wp_make_red_tables (E := NoErr) h hb)
  obtain ⟨hd, src, g1, g2, g3⟩ := make_red_tables_files h hb h1 h2 e
  refine ⟨hd, src, g1, ?_⟩
  have hxn : xn = 2 ^ k := h.2.1
  simp only [asmBuilds, List.mem_cons, Prod.mk.injEq, List.not_mem_nil, or_false] at hz
  rcases hz with ⟨rfl, rfl, rfl, rfl⟩ | ⟨rfl, rfl, rfl, rfl⟩ | ⟨rfl, rfl, rfl, rfl⟩ | ⟨rfl, rfl, rfl, rfl⟩ <;> subst hxn
  · obtain ⟨F, P, r1, r2, hp⟩ := C83_products16
    exact fun g hg => asmBuilt_of r1 r2 g2 g3 ok.n printed16 (hp xpsi buf t h hb e g hg)
  · obtain ⟨F, P, r1, r2, hp⟩ := C83_products256
    exact fun g hg => asmBuilt_of r1 r2 g2 g3 ok.n printed256 (hp xpsi buf t h hb e g hg)
  · obtain ⟨F, P, r1, r2, hp⟩ := C83_products512
    exact fun g hg => asmBuilt_of r1 r2 g2 g3 ok.n printed512 (hp xpsi buf t h hb e g hg)
  · obtain ⟨F, P, r1, r2, hp, _⟩ := C83_products1024
    exact fun g hg => asmBuilt_of r1 r2 g2 g3 ok.n printed1024 (hp xpsi buf t h hb e g hg)

/-- The first AVX2 product of size 1024, with the `psi` of the Makefile. -/
theorem C90_product1_1024 {s1 s2 : CText.Text} (h1 : atol s1 = .ok 1024) (h2 : atol s2 = .ok 1014) {buf : Nat → Array Nat}
    (hb : ∀ n, (buf n).size = n) :
    ∃ hd src, make_red_tables_main buf [s1, s2] = .ok [(c!"ntt_red1024_tables.h", hd), (c!"ntt_red1024_tables.c", src)] ∧
      AsmBuilt 1024 tableNames1024 Src.ntt_asm_text [Src.ntt_red_asm1024_h_text, Src.ntt_red_asm1024_c_text] hd src n!"ntt_red1024_product1_asm" := by
  have h := good1024
  obtain ⟨t, e, ok⟩ := wp_total.1 (wp_make_red_tables (E := NoErr) h hb)
  obtain ⟨hd, src, g1, g2, g3⟩ := make_red_tables_files h hb h1 h2 e
  obtain ⟨F, P, r1, r2, _, hp⟩ := C83_products1024
  exact ⟨hd, src, g1, asmBuilt_of r1 r2 g2 g3 ok.n printed1024 (hp buf t hb e)⟩

/-! ### The hypotheses can be met -/

/-- The arguments used by the Makefile. -/
example : GoodParams 10 1024 1014 ∧ atol c!"1024" = .ok 1024 ∧ atol c!"1014" = .ok 1014 := ⟨good1024, by decide +kernel, by decide +kernel⟩

/-- For any reduced inputs of size 1024 there is a machine whose memory holds them and the contents of the table files, when `c` is the array
`a`. -/
example (a b : Array Int) (ha : a.size = 1024) (hb : b.size = 1024) (hra : Reduced a) (hrb : Reduced b) :
    ∃ t K L m, make_red_tables someBuf 1024 1014 = .ok t ∧ L.arr .c = L.arr .a ∧ Fits K L 1024 ∧ AsmLoaded Src.ntt_asm K m ∧
      AsmLinked (redHeader t ++ redSource t) L tableNames1024 t.rescale8 m ∧ Holds32 m (L.arr .a) a ∧ Holds32 m (L.arr .b) b := by
  have hg : GoodParams 10 1024 1014 := libraryParams_good (10, 1024, 1014) (by simp [libraryParams])
  obtain ⟨t, e, hok⟩ := red_tables_ok hg someBuf_size
  have hI : ∀ {v : Array Int}, Reduced v → ∀ i < v.size, I32 (elt v i) := by
    intro v h i hi
    have := h i hi
    unfold I32
    omega
  have S := Sample.start (t := t) .a (by omega) (by omega) (hI hra) (hI hrb) fun p => by
    rw [ha]
    refine hok.entries (tableOf t p) ?_
    cases p <;> simp [tableOf]
  rw [ha] at S
  have hn : t.n = 1024 := hok.n
  refine ⟨t, _, _, _, e, rfl, S.fits, asmLoaded_of S.loaded, ?_, S.holds_a, S.holds_b⟩
  intro z hz
  simp only [redHeader, redSource, hn, List.cons_append, List.nil_append, List.mem_cons, List.not_mem_nil, or_false] at hz
  rcases hz with rfl | rfl | rfl | rfl | rfl | rfl | rfl | rfl | rfl | rfl | rfl | rfl | rfl | rfl | rfl | rfl | rfl | rfl | rfl | rfl | rfl | rfl | rfl | rfl | rfl | rfl | rfl | rfl | rfl | rfl | rfl | rfl | rfl | rfl | rfl | rfl | rfl | rfl <;> first
    | exact True.intro
    | exact fun _ _ => rfl
    | exact fun h => absurd h (by decide +kernel)
    | (intro p hp _
       cases p <;> first
         | exact S.tables _
         | exact absurd hp (by decide +kernel))

end Props
