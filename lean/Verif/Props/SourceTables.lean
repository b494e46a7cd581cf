import Verif.Proofs.CPrintRedTables
import Verif.Proofs.CPrintTables
import Verif.Proofs.Buffer
import Verif.Props.SourcePrint
import Verif.Props.TableFiles
import Verif.Props.Build
import Verif.Props.BuildAsm

/-
C92: `print_tables` of src/make_tables.c and src/make_red_tables.c, from their text, and the files of the generators.

Specification: Verif/SpecSourcePrint.lean, Verif/SpecTables.lean (contents of the tables), Verif/SpecTableFiles.lean (contents of the files),
Verif/SpecCText.lean (reading of a C file).
-/

namespace Props
open C Spec Spec.CText Tables NTT TableFiles CLang

theorem buildFuns_make_tables : Gen.BuildFuns Src.make_tables := ⟨rfl, rfl, rfl, rfl, rfl⟩

theorem buildFuns_make_red_tables : Gen.RedBuildFuns Src.make_red_tables :=
  ⟨congrArg some GenRed.power_same, congrArg some GenRed.reverse_same, congrArg some (by decide +kernel), rfl, rfl⟩

theorem params_of {k : Nat} {ψ : Zq} {psi phi inv_psi inv_phi inv_n : Nat} (h : ParamsOK k ψ psi phi inv_psi inv_phi inv_n) (hk : k ≤ 16) :
    Params k ψ psi phi inv_psi inv_phi inv_n := ⟨hk, h.psi, h.phi, h.inv_psi, h.inv_phi, h.inv_n⟩

theorem size_lt16 {k : Nat} (hk : k ≤ 16) : 2 ^ k < 4294967296 := size_lt32 (by omega)

/-- `print_tables` of the model, with the array that the call of the text allocates. -/
theorem printsFrom_tables {G mem f p sp} {k log : Nat} {psi phi inv_psi inv_phi inv_n : Nat} {s : Text} {buf : Array Nat} (hk : k ≤ 16)
    (h1 : psi < 12289) (h2 : phi < 12289) (h3 : inv_psi < 12289) (h4 : inv_phi < 12289) (h5 : inv_n < 12289) (hL : Literals G mem f) (hp : p ≠ f)
    (hU : Unused G sp f p) (hm : mem p = nats .u32 #[12289, 2 ^ k, inv_n, log, psi, phi, inv_psi, inv_phi]) (hb : buf.size = 2 ^ k)
    (h : TableFiles.print_tables buf 12289 (2 ^ k) inv_n psi phi inv_psi inv_phi = .ok s) :
    PrintsFrom Src.make_tables G sp mem f n!"print_tables" [.ptr p 0 1] s := by
  intro u hu
  obtain ⟨a, ha, hf⟩ := fresh_u32 (2 ^ k) (mem sp)
  have h' : TableFiles.print_tables a 12289 (2 ^ k) inv_n psi phi inv_psi inv_phi = .ok s := by
    rw [← h]
    unfold TableFiles.print_tables
    rw [build_power_indep (size_lt16 hk) ha hb]
  have key := Gen.print_tables_pr printFuns_make_tables buildFuns_make_tables rfl hU.1 hp hU.2.1 hL hU.2.2 hm (size_lt16 hk) (by decide) (by omega) (by omega)
    (by omega) (by omega) (by omega) hf h' u
  rwa [setMem_eq mem f hu] at key

theorem printsFrom_red_tables {G mem f p sp} {k log : Nat} {psi phi inv_psi inv_phi inv_n inv_k : Nat} {s : Text} {buf : Array Nat} (hk : k ≤ 16)
    (h1 : psi < 12289) (h2 : phi < 12289) (h3 : inv_psi < 12289) (h4 : inv_phi < 12289) (h5 : inv_n < 12289) (h6 : inv_k < 12289) (hL : Literals G mem f)
    (hp : p ≠ f) (hU : Unused G sp f p) (hm : mem p = nats .u32 #[12289, 3, inv_k, 2 ^ k, inv_n, log, psi, phi, inv_psi, inv_phi]) (hb : buf.size = 2 ^ k)
    (h : TableFiles.print_red_tables buf 12289 3 (2 ^ k) inv_n psi phi inv_psi inv_phi inv_k = .ok s) :
    PrintsFrom Src.make_red_tables G sp mem f n!"print_tables" [.ptr p 0 1] s := by
  intro u hu
  obtain ⟨a, ha, hf⟩ := fresh_u32 (2 ^ k) (mem sp)
  have h' : TableFiles.print_red_tables a 12289 3 (2 ^ k) inv_n psi phi inv_psi inv_phi inv_k = .ok s := by
    rw [← h]
    unfold TableFiles.print_red_tables
    rw [build_power_indep (size_lt16 hk) ha hb]
  have key := Gen.print_red_tables_pr printFuns_make_red_tables buildFuns_make_red_tables rfl hU.1 hp hU.2.1 hL hU.2.2 hm (size_lt16 hk) (by decide) (by omega)
    (by omega) (by omega) (by omega) (by omega) (by omega) hf h' u
  rwa [setMem_eq mem f hu] at key

/-- `print_tables(f, p)` writes a source file; read as C it contains the tables for the parameters of `*p`, and these tables are correct. -/
theorem C92_tables : ∃ P, readSome Src.make_tables_text = P ∧
    ∀ (k log psi phi inv_psi inv_phi inv_n : Nat) (ψ : Zq) G mem f p sp, k ≤ 16 → ParamsOK k ψ psi phi inv_psi inv_phi inv_n →
      Literals G mem f → p ≠ f → Unused G sp f p → mem p = nats .u32 #[12289, 2 ^ k, inv_n, log, psi, phi, inv_psi, inv_phi] →
      ∃ t s, TablesOK k ψ t ∧ readC s = some (nttSource t) ∧ PrintsFrom P G sp mem f n!"print_tables" [.ptr p 0 1] s := by
  refine ⟨Src.make_tables, Src.make_tables_read, fun k log psi phi inv_psi inv_phi inv_n ψ G mem f p sp hk hP hL hp hU hm => ?_⟩
  obtain ⟨t, e, ok⟩ := wp_total.1 (wp_print_tables (E := NoErr) (params_of hP hk) (Array.size_replicate (n := 2 ^ k) (v := 0)))
  obtain ⟨s, e', hs, _⟩ := print_tables_text (size_lt16 hk) Array.size_replicate e
  exact ⟨t, s, ok, hs.read, printsFrom_tables hk hP.psi.2 hP.phi.2 hP.inv_psi.2 hP.inv_phi.2 hP.inv_n.2 hL hp hU hm Array.size_replicate e'⟩

/-- The same for make_red_tables. -/
theorem C92_red_tables : ∃ P, readSome Src.make_red_tables_text = P ∧
    ∀ (k log psi phi inv_psi inv_phi inv_n inv_k : Nat) (ψ : Zq) G mem f p sp, k ≤ 16 → ParamsOK k ψ psi phi inv_psi inv_phi inv_n →
      (inv_k : Zq) = (3 : Zq)⁻¹ → inv_k < 12289 → Literals G mem f → p ≠ f → Unused G sp f p →
      mem p = nats .u32 #[12289, 3, inv_k, 2 ^ k, inv_n, log, psi, phi, inv_psi, inv_phi] →
      ∃ t s, RedTablesOK k ψ t ∧ readC s = some (redSource t) ∧ PrintsFrom P G sp mem f n!"print_tables" [.ptr p 0 1] s := by
  refine ⟨Src.make_red_tables, Src.make_red_tables_read, fun k log psi phi inv_psi inv_phi inv_n inv_k ψ G mem f p sp hk hP hk1 hk2 hL hp hU hm => ?_⟩
  obtain ⟨t, e, ok⟩ := wp_total.1 (wp_print_red_tables (E := NoErr) (params_of hP hk) ⟨hk1, hk2⟩ (Array.size_replicate (n := 2 ^ k) (v := 0)))
  obtain ⟨s, e', hs, _⟩ := print_red_tables_text (k := 3) (size_lt16 hk) e
  exact ⟨t, s, ok, hs.read, printsFrom_red_tables hk hP.psi.2 hP.phi.2 hP.inv_psi.2 hP.inv_phi.2 hP.inv_n.2 hk2 hL hp hU hm Array.size_replicate e'⟩

/-- The two files of `make_tables n psi` are what the text of `print_declarations` and of `print_tables` writes for the parameters. -/
theorem C92_files : ∃ P, readSome Src.make_tables_text = P ∧
    ∀ (k : Nat) (xn xpsi : Int) (s1 s2 : Text) (buf : Nat → Array Nat), GoodParams k xn xpsi → atol s1 = .ok xn → atol s2 = .ok xpsi →
      (∀ n, (buf n).size = n) → ∃ (psi phi inv_psi inv_phi inv_n : Nat) (hd src : Text), ParamsOK k (xpsi : Zq) psi phi inv_psi inv_phi inv_n ∧
        make_tables_main buf [s1, s2] = .ok [(c!"ntt" ++ decimal (2 ^ k) ++ c!"_tables.h", hd), (c!"ntt" ++ decimal (2 ^ k) ++ c!"_tables.c", src)] ∧
        ∀ G mem f p sp, Literals G mem f → p ≠ f → Unused G sp f p → mem p = nats .u32 #[12289, 2 ^ k, inv_n, k, psi, phi, inv_psi, inv_phi] →
          Prints P G mem f n!"print_declarations" [.ptr p 0 1] hd ∧ PrintsFrom P G sp mem f n!"print_tables" [.ptr p 0 1] src := by
  refine ⟨Src.make_tables, Src.make_tables_read, fun k xn xpsi s1 s2 buf h h1 h2 hb => ?_⟩
  obtain ⟨t, e, ok⟩ := wp_total.1 (wp_make_tables (E := NoErr) h hb)
  obtain ⟨q, hq⟩ : ∃ q, q = 12289 := ⟨_, rfl⟩
  obtain ⟨n, psi, phi, inv_psi, inv_phi, inv_n, c1, c2, c3, c4, ht⟩ := make_tables_inv hq e
  obtain ⟨hn, hn5⟩ := checkArgs_n h (hq ▸ c1)
  have hk : k ≤ 16 := k_le_16 (by have := h.2.2.1; rw [h.2.1] at this; exact this)
  obtain ⟨src, f1, f2, m1, m2, m3, m4, m5, m6⟩ := print_tables_text (by omega) (hb n) ht
  have hP : ParamsOK k (xpsi : Zq) psi phi inv_psi inv_phi inv_n :=
    ⟨m2 ▸ ok.psi, m3 ▸ ok.omega, m4 ▸ ok.inv_psi, m5 ▸ ok.inv_omega, m6 ▸ ok.inv_n⟩
  have main := make_tables_main_run hq h1 h2 hn5 c1 c2 c3 c4 f1
  rw [hn] at main
  refine ⟨psi, phi, inv_psi, inv_phi, inv_n, _, src, hP, main, fun G mem f p sp hL hp hU hm => ⟨?_, ?_⟩⟩
  · have l1 := hP.psi.2
    have l2 := hP.phi.2
    have l3 := hP.inv_psi.2
    have l4 := hP.inv_phi.2
    have l5 := hP.inv_n.2
    rw [hq]
    exact (Gen.print_declarations_pr printFuns_make_tables hL hp hm (size_lt16 hk) (by omega) (by omega) (by omega) (by omega) (by omega)).prints
  · rw [hq, hn] at f1
    exact printsFrom_tables hk hP.psi.2 hP.phi.2 hP.inv_psi.2 hP.inv_phi.2 hP.inv_n.2 hL hp hU hm (hb _) f1

/-- The same for make_red_tables. -/
theorem C92_red_files : ∃ P, readSome Src.make_red_tables_text = P ∧
    ∀ (k : Nat) (xn xpsi : Int) (s1 s2 : Text) (buf : Nat → Array Nat), GoodParams k xn xpsi → atol s1 = .ok xn → atol s2 = .ok xpsi →
      (∀ n, (buf n).size = n) → ∃ (psi phi inv_psi inv_phi inv_n inv_k : Nat) (hd src : Text), ParamsOK k (xpsi : Zq) psi phi inv_psi inv_phi inv_n ∧
        (inv_k : Zq) = (3 : Zq)⁻¹ ∧ inv_k < 12289 ∧
        make_red_tables_main buf [s1, s2] = .ok [(c!"ntt_red" ++ decimal (2 ^ k) ++ c!"_tables.h", hd), (c!"ntt_red" ++ decimal (2 ^ k) ++ c!"_tables.c", src)] ∧
        ∀ G mem f p sp, Literals G mem f → p ≠ f → Unused G sp f p →
          mem p = nats .u32 #[12289, 3, inv_k, 2 ^ k, inv_n, k, psi, phi, inv_psi, inv_phi] →
          Prints P G mem f n!"print_declarations" [.ptr p 0 1] hd ∧ PrintsFrom P G sp mem f n!"print_tables" [.ptr p 0 1] src := by
  refine ⟨Src.make_red_tables, Src.make_red_tables_read, fun k xn xpsi s1 s2 buf h h1 h2 hb => ?_⟩
  obtain ⟨t, e, ok⟩ := wp_total.1 (wp_make_red_tables (E := NoErr) h hb)
  obtain ⟨q, hq⟩ : ∃ q, q = 12289 := ⟨_, rfl⟩
  obtain ⟨k3, hk3⟩ : ∃ k, k = 3 := ⟨_, rfl⟩
  obtain ⟨n, psi, phi, inv_psi, inv_phi, inv_n, inv_k, c1, c2, c3, c4, c5, ht⟩ := make_red_tables_inv hq hk3 e
  obtain ⟨hn, hn5⟩ := checkArgs_n h (hq ▸ c1)
  have hk : k ≤ 16 := k_le_16 (by have := h.2.2.1; rw [h.2.1] at this; exact this)
  obtain ⟨src, f1, f2, m1, m2, m3, m4, m5, m6, m7, m8, m9⟩ := print_red_tables_text (k := k3) (by omega) ht
  have hP : ParamsOK k (xpsi : Zq) psi phi inv_psi inv_phi inv_n :=
    ⟨m2 ▸ ok.psi, m3 ▸ ok.omega, m4 ▸ ok.inv_psi, m5 ▸ ok.inv_omega, m6 ▸ ok.inv_n⟩
  have hk1 : (inv_k : Zq) = (3 : Zq)⁻¹ ∧ inv_k < 12289 := m7 ▸ ok.inv_k
  obtain ⟨hd, f3, f4⟩ := piece_red_declarations (q := q) (k := k3) ok.psi.2 ok.omega.2 ok.inv_psi.2
    ok.inv_omega.2 ok.inv_n.2 ok.inv_k.2 ok.rescale8.2 ok.rescale6.2 (by rw [m6, m7]; exact m8)
    (by rw [m6, m7]; exact m9)
  rw [m1, m2, m3, m4, m5, m6, m7] at f3
  have main := make_red_tables_main_run hq hk3 h1 h2 hn5 c1 c2 c3 c4 c5 f3 f1
  rw [hn] at main
  refine ⟨psi, phi, inv_psi, inv_phi, inv_n, inv_k, hd, src, hP, hk1.1, hk1.2, main, fun G mem f p sp hL hp hU hm => ⟨?_, ?_⟩⟩
  · have l1 := hP.psi.2
    have l2 := hP.phi.2
    have l3 := hP.inv_psi.2
    have l4 := hP.inv_phi.2
    have l5 := hP.inv_n.2
    have l6 := hk1.2
    rw [hq, hk3, hn] at f3
    exact (Gen.red_declarations_pr printFuns_make_red_tables hL hp hm (by decide) (size_lt16 hk) (by omega) (by omega) (by omega) (by omega) (by omega) (by omega) f3).prints
  · rw [hq, hk3, hn] at f1
    exact printsFrom_red_tables hk hP.psi.2 hP.phi.2 hP.inv_psi.2 hP.inv_phi.2 hP.inv_n.2 hk1.2 hL hp hU hm (hb _) f1

/-! ### From the generators to the products -/

theorem natCast_unique {a b : Nat} {x : Zq} (ha : (a : Zq) = x ∧ a < 12289) (hb : (b : Zq) = x ∧ b < 12289) : a = b := by
  have h := (ZMod.natCast_eq_natCast_iff' a b 12289).1 (ha.1.trans hb.1.symm)
  rwa [Nat.mod_eq_of_lt ha.2, Nat.mod_eq_of_lt hb.2] at h

theorem paramsOK_unique {k : Nat} {ψ : Zq} {psi phi inv_psi inv_phi inv_n psi' phi' inv_psi' inv_phi' inv_n' : Nat}
    (h : ParamsOK k ψ psi phi inv_psi inv_phi inv_n) (h' : ParamsOK k ψ psi' phi' inv_psi' inv_phi' inv_n') :
    psi = psi' ∧ phi = phi' ∧ inv_psi = inv_psi' ∧ inv_phi = inv_phi' ∧ inv_n = inv_n' :=
  ⟨natCast_unique h.psi h'.psi, natCast_unique h.phi h'.phi, natCast_unique h.inv_psi h'.inv_psi, natCast_unique h.inv_phi h'.inv_phi,
    natCast_unique h.inv_n h'.inv_n⟩

theorem good_of_params {k : Nat} (hk1 : 1 ≤ k) (hk : k ≤ 16) {ψ : Zq} {psi phi inv_psi inv_phi inv_n : Nat}
    (h : ParamsOK k ψ psi phi inv_psi inv_phi inv_n) (hψ : ψ ^ 2 ^ k = -1) : GoodParams k (2 ^ k : Nat) (psi : Nat) := by
  have h2 : 2 ^ k ≤ 2 ^ 16 := Nat.pow_le_pow_right (by decide) hk
  have e : (((psi : Nat) : Int) : Zq) = ψ := by rw [Int.cast_natCast]; exact h.psi.1
  have hp := h.psi.2
  refine ⟨hk1, by push_cast; rfl, ?_, ?_, by omega, by rw [e]; exact hψ⟩
  · have : (2 : Nat) ^ 16 = 65536 := by decide
    omega
  · by_contra hc
    have hlt : psi = 0 ∨ psi = 1 := by omega
    have hne : (-1 : Zq) ≠ 0 ∧ (-1 : Zq) ≠ 1 := by constructor <;> decide
    rcases hlt with h0 | h0 <;> rw [← h.psi.1, h0] at hψ
    · rw [Nat.cast_zero, zero_pow (by positivity)] at hψ
      exact hne.1 hψ.symm
    · rw [Nat.cast_one, one_pow] at hψ
      exact hne.2 hψ.symm

theorem atol_decimal {n : Nat} (hn : n < 100000) : atol (decimal n) = .ok (n : Int) := by
  have := C48_argument (ws := []) (rest := []) (n := n) (by simp) (by simp) (by omega)
  simpa using this.1

/-- For each size of the library and every `psi` that is a root of -1: the text of `print_declarations` and `print_tables` of src/make_tables.c writes two
files with which the five products of the library, as written in its C files, multiply polynomials modulo `X^n + 1`. -/
theorem C92_products {k : Nat} {texts : List Nat} {gs : List Name} (hz : (k, texts, gs) ∈ nttBuilds) {ψ : Zq} (hψ : ψ ^ 2 ^ k = -1)
    {psi phi inv_psi inv_phi inv_n : Nat} (hP : ParamsOK k ψ psi phi inv_psi inv_phi inv_n) :
    ∃ hd src, (∀ g ∈ gs, Built k texts hd src g) ∧ ∀ G mem f p sp, Literals G mem f → p ≠ f → Unused G sp f p →
      mem p = nats .u32 #[12289, 2 ^ k, inv_n, k, psi, phi, inv_psi, inv_phi] →
      Prints (readSome Src.make_tables_text) G mem f n!"print_declarations" [.ptr p 0 1] hd ∧
        PrintsFrom (readSome Src.make_tables_text) G sp mem f n!"print_tables" [.ptr p 0 1] src := by
  have hk : 1 ≤ k ∧ k ≤ 16 := by
    simp only [nttBuilds, List.mem_cons, Prod.mk.injEq, List.not_mem_nil, or_false] at hz
    omega
  have hg := good_of_params hk.1 hk.2 hP hψ
  have h2 : 2 ^ k ≤ 2 ^ 16 := Nat.pow_le_pow_right (by decide) hk.2
  have h3 : (2 : Nat) ^ 16 = 65536 := by decide
  have hp := hP.psi.2
  have a1 := atol_decimal (n := 2 ^ k) (by omega)
  have a2 := atol_decimal (n := psi) (by omega)
  obtain ⟨hd, src, e, hB⟩ := C86_ntt hz hg a1 a2 someBuf_size
  obtain ⟨P, rfl, hF⟩ := C92_files
  obtain ⟨psi', phi', inv_psi', inv_phi', inv_n', hd', src', hP', e', h⟩ := hF k _ _ _ _ someBuf hg a1 a2 someBuf_size
  rw [Int.cast_natCast, hP.psi.1] at hP'
  obtain ⟨rfl, rfl, rfl, rfl, rfl⟩ := paramsOK_unique hP hP'
  have := e.symm.trans e'
  simp only [Except.ok.injEq, List.cons.injEq, Prod.mk.injEq, true_and, and_true] at this
  rw [this.1, this.2] at hB
  exact ⟨hd', src', hB, h⟩

/-- The same for src/make_red_tables.c, the products of the ntt_red libraries and the AVX2 products. -/
theorem C92_red_products {k : Nat} {ψ : Zq} (hψ : ψ ^ 2 ^ k = -1) (hk1 : 1 ≤ k) (hk : k ≤ 16)
    {psi phi inv_psi inv_phi inv_n inv_k : Nat} (hP : ParamsOK k ψ psi phi inv_psi inv_phi inv_n) (hi : (inv_k : Zq) = (3 : Zq)⁻¹ ∧ inv_k < 12289) :
    ∃ hd src, (∀ texts gs, (k, texts, gs) ∈ redBuilds → ∀ g ∈ gs, Built k texts hd src g) ∧
      (∀ N texts gs, (k, N, texts, gs) ∈ asmBuilds → ∀ g ∈ gs, X86.AsmBuilt (2 ^ k) N Src.ntt_asm_text texts hd src g) ∧
      ∀ G mem f p sp, Literals G mem f → p ≠ f → Unused G sp f p →
      mem p = nats .u32 #[12289, 3, inv_k, 2 ^ k, inv_n, k, psi, phi, inv_psi, inv_phi] →
      Prints (readSome Src.make_red_tables_text) G mem f n!"print_declarations" [.ptr p 0 1] hd ∧
        PrintsFrom (readSome Src.make_red_tables_text) G sp mem f n!"print_tables" [.ptr p 0 1] src := by
  have hg := good_of_params hk1 hk hP hψ
  have h2 : 2 ^ k ≤ 2 ^ 16 := Nat.pow_le_pow_right (by decide) hk
  have h3 : (2 : Nat) ^ 16 = 65536 := by decide
  have hp := hP.psi.2
  have a1 := atol_decimal (n := 2 ^ k) (by omega)
  have a2 := atol_decimal (n := psi) (by omega)
  obtain ⟨P, rfl, hF⟩ := C92_red_files
  obtain ⟨psi', phi', inv_psi', inv_phi', inv_n', inv_k', hd, src, hP', k1, k2, e', h⟩ := hF k _ _ _ _ someBuf hg a1 a2 someBuf_size
  rw [Int.cast_natCast, hP.psi.1] at hP'
  obtain ⟨rfl, rfl, rfl, rfl, rfl⟩ := paramsOK_unique hP hP'
  obtain rfl := natCast_unique hi ⟨k1, k2⟩
  refine ⟨hd, src, fun texts gs hz => ?_, fun N texts gs hz => ?_, h⟩
  · obtain ⟨hd', src', e, hB⟩ := C86_ntt_red hz hg a1 a2 someBuf_size
    have := e'.symm.trans e
    simp only [Except.ok.injEq, List.cons.injEq, Prod.mk.injEq, true_and, and_true] at this
    rw [this.1, this.2]
    exact hB
  · obtain ⟨hd', src', e, hB⟩ := C90_products hz hg a1 a2 someBuf_size
    have := e'.symm.trans e
    simp only [Except.ok.injEq, List.cons.injEq, Prod.mk.injEq, true_and, and_true] at this
    rw [this.1, this.2]
    exact hB

/-! ### Examples -/

/-- `make_tables 16 1212`, parameters of the library: there is a memory from which the text of `print_tables` writes the file, with correct tables. -/
example : ∃ G mem t s, TablesOK 4 (1212 : Zq) t ∧ readC s = some (nttSource t) ∧ mem 1 = file [] ∧
    CallsFrom (readSome Src.make_tables_text) G 5 n!"print_tables" [.ptr 1 0 1, .ptr 3 0 1] mem (setMem (setMem mem 5 ⟨.u32, #[]⟩) 1 (file s)) := by
  obtain ⟨P, hP, h⟩ := C92_files
  obtain ⟨psi, phi, inv_psi, inv_phi, inv_n, _, _, hp, _, _⟩ := h 4 16 1212 c!"16" c!"1212" someBuf (libraryParams_good (4, 16, 1212) (by decide))
    (by decide +kernel) (by decide +kernel) someBuf_size
  obtain ⟨G, mem, hL, h1, h3, h5⟩ := literals_even (nats .u32 #[12289, 2 ^ 4, inv_n, 4, psi, phi, inv_psi, inv_phi])
  obtain ⟨P', hP', h'⟩ := C92_tables
  obtain ⟨t, s, ok, hs, hpr⟩ := h' 4 4 psi phi inv_psi inv_phi inv_n _ G mem 1 3 5 (by decide) hp hL (by decide) ⟨by decide, by decide, h5⟩ h3
  have e1 : ((1212 : Int) : Zq) = 1212 := by norm_num
  exact ⟨G, mem, t, s, e1 ▸ ok, hs, h1, hP' ▸ hpr [] h1⟩

/-- The same for `make_red_tables 16 1212`, and the files of `main` are those written. -/
example : ∃ G mem t hd s, RedTablesOK 4 (1212 : Zq) t ∧ readC s = some (redSource t) ∧ mem 1 = file [] ∧
    make_red_tables_main someBuf [c!"16", c!"1212"] = .ok [(c!"ntt_red16_tables.h", hd), (c!"ntt_red16_tables.c", s)] ∧
    CallsFrom (readSome Src.make_red_tables_text) G 5 n!"print_tables" [.ptr 1 0 1, .ptr 3 0 1] mem (setMem (setMem mem 5 ⟨.u32, #[]⟩) 1 (file s)) := by
  have a1 : atol c!"16" = .ok 16 := by decide +kernel
  have a2 : atol c!"1212" = .ok 1212 := by decide +kernel
  have hg := libraryParams_good (4, 16, 1212) (by decide)
  obtain ⟨P, hP, h⟩ := C92_red_files
  obtain ⟨psi, phi, inv_psi, inv_phi, inv_n, inv_k, hd, s, hp, k1, k2, hm, h⟩ := h 4 16 1212 c!"16" c!"1212" someBuf hg a1 a2 someBuf_size
  obtain ⟨t, hd', s', e, _, hs, ok⟩ := C48_make_red_tables hg someBuf_size a1 a2
  obtain ⟨G, mem, hL, h1, h3, h5⟩ := literals_even (nats .u32 #[12289, 3, inv_k, 2 ^ 4, inv_n, 4, psi, phi, inv_psi, inv_phi])
  have e1 : ((1212 : Int) : Zq) = 1212 := by norm_num
  have es : s' = s := by
    have := e.symm.trans hm
    simp only [Except.ok.injEq, List.cons.injEq, Prod.mk.injEq] at this
    exact this.2.1.2
  exact ⟨G, mem, t, hd, s, e1 ▸ ok, es ▸ hs, h1, hm, hP ▸ (h G mem 1 3 5 hL (by decide) ⟨by decide, by decide, h5⟩ h3).2 [] h1⟩

/-- Parameters for size 1024 and `psi = 1014`, those of the Makefile. -/
example : ∃ psi phi inv_psi inv_phi inv_n, ParamsOK 10 (1014 : Zq) psi phi inv_psi inv_phi inv_n ∧ (1014 : Zq) ^ 2 ^ 10 = -1 ∧ ∃ texts gs, (10, texts, gs) ∈ nttBuilds := by
  obtain ⟨P, _, h⟩ := C92_files
  obtain ⟨psi, phi, inv_psi, inv_phi, inv_n, _, _, hp, _⟩ := h 10 1024 1014 c!"1024" c!"1014" someBuf good1024 (by decide +kernel) (by decide +kernel) someBuf_size
  have e1 : ((1014 : Int) : Zq) = 1014 := by norm_num
  have h6 := good1024.2.2.2.2.2
  rw [e1] at hp h6
  exact ⟨psi, phi, inv_psi, inv_phi, inv_n, hp, h6, _, _, List.mem_cons_of_mem _ (List.mem_cons_of_mem _ (List.mem_cons_of_mem _ List.mem_cons_self))⟩

end Props
