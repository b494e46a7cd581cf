import Verif.Proofs.CPrintRed
import Verif.Proofs.CPrintBitrev
import Verif.Props.SourceGen

/-
C91: the functions of src/make_tables.c, src/make_red_tables.c and src/make_bitrev_table.c that print, from their text.

Specification: Verif/SpecSourcePrint.lean, Verif/SpecTableFiles.lean (contents of the files), Verif/SpecCText.lean (reading of a C file).
-/

namespace Props
open C Spec Spec.CText Tables NTT TableFiles CLang

theorem printFuns_make_tables : Gen.PrintFuns Src.make_tables := ⟨rfl, rfl, rfl, rfl, rfl, rfl⟩

theorem printFuns_make_red_tables : Gen.RedPrintFuns Src.make_red_tables := ⟨rfl, rfl, rfl, rfl, rfl, rfl, rfl, rfl, rfl, rfl⟩

theorem printFuns_make_bitrev_table : Gen.BitrevPrintFuns Src.make_bitrev_table := ⟨congrArg some GenRed.reverse_same', rfl, rfl, rfl⟩

/-! ### make_tables -/

/-- `print_declarations(f, p)` writes a header file: read as C it contains the directives, the parameters of `*p` and the declarations of the tables. -/
theorem C91_declarations : ∃ P, readSome Src.make_tables_text = P ∧
    ∀ (t : Nttables) (q log : Nat) G mem f p, t.n < 4294967296 → t.psi < 12289 → t.omega < 12289 → t.inv_psi < 12289 → t.inv_omega < 12289 →
      t.inv_n < 12289 → Literals G mem f → p ≠ f → mem p = nats .u32 #[q, t.n, t.inv_n, log, t.psi, t.omega, t.inv_psi, t.inv_omega] →
      ∃ s, readC s = some (nttHeader t) ∧ Prints P G mem f n!"print_declarations" [.ptr p 0 1] s := by
  refine ⟨Src.make_tables, Src.make_tables_read, fun t q log G mem f p hn h1 h2 h3 h4 h5 hL hp hm => ⟨_, (piece_declarations (q := q) h1 h2 h3 h4 h5).read, ?_⟩⟩
  exact (Gen.print_declarations_pr printFuns_make_tables hL hp hm hn (by omega) (by omega) (by omega) (by omega) (by omega)).prints

/-- `print_table(f, name, a, n)` writes the definition of the array `ntt<n>_<name>` with the elements of `a`. -/
theorem C91_table : ∃ P, readSome Src.make_tables_text = P ∧
    ∀ (name : Text) (a : Array Nat) (t : Ty) G mem f oa on, (∀ c ∈ name, wordChar c = true) → a.size < 4294967296 → (∀ x ∈ a, x < 65536) →
      oa ≠ f → on ≠ f → mem oa = nats .u32 a → mem on = str name →
      ∃ s, readC s = some [.array c!"uint16_t" (c!"ntt" ++ decimal a.size ++ c!"_" ++ name) (.num a.size) (a.toList.map fun x : Nat => (x : Int))] ∧
        Prints P G mem f n!"print_table" [.ptr on 0 1, .ptr oa 0 1, .int t (a.size : Nat)] s := by
  refine ⟨Src.make_tables, Src.make_tables_read, fun name a t G mem f oa on hname hn ha h1 h2 hm1 hm2 => ?_⟩
  obtain ⟨s, e, hs⟩ := piece_print_table hn rfl hname
  refine ⟨s, ?_, (Gen.print_table_pr rfl h1 hm1 h2 hm2 (plain_word hname) hn e).prints⟩
  rw [hs.read, printU16, Array.toList_map]
  have : a.toList.map (fun x => ((x % 65536 : Nat) : Int)) = a.toList.map fun x : Nat => (x : Int) :=
    List.map_congr_left fun x hx => by rw [Nat.mod_eq_of_lt (ha x (by simpa using hx))]
  rw [this]

/-- The other functions that print: the comment at the top of a file, a comment, a constant and the declaration of a table. -/
theorem C91_lines : ∃ P, readSome Src.make_tables_text = P ∧ ∀ (name : Text) (n v : Nat) (t : Ty) G mem f on,
    (∀ c ∈ name, wordChar c = true) → n < 4294967296 → on ≠ f → mem on = str name →
      (v < 12289 → ∃ s, readC s = some [.param c!"int32_t" (c!"ntt" ++ decimal n ++ c!"_" ++ name) v] ∧
        Prints P G mem f n!"print_param_def" [.ptr on 0 1, .int t (n : Nat), .int t (v : Nat)] s) ∧
      (∃ s, readC s = some [.extern c!"uint16_t" (c!"ntt" ++ decimal n ++ c!"_" ++ name) [.num n]] ∧
        Prints P G mem f n!"print_table_decl" [.ptr on 0 1, .int t (n : Nat)] s) ∧
      (∃ s, readC s = some [] ∧ Prints P G mem f n!"print_comment" [.ptr on 0 1] s) ∧
      ∀ p a, a.size = 8 → p ≠ f → mem p = nats .u32 a → ∃ s, readC s = some [] ∧ Prints P G mem f n!"print_header" [.ptr p 0 1] s := by
  refine ⟨Src.make_tables, Src.make_tables_read, fun name n v t G mem f on hname hn h1 hm => ⟨fun hv => ⟨_, (piece_ntt_param hname hv).read, ?_⟩, ⟨_, (piece_ntt_decl hname).read, ?_⟩,
    ⟨_, (piece_comment (what := name) ?_).read, ?_⟩, ?_⟩⟩
  · exact (Gen.print_param_pr rfl h1 hm (plain_word hname) hn (by omega)).prints
  · exact (Gen.print_decl_pr rfl h1 hm (plain_word hname) hn).prints
  · rintro c hc rfl
    exact absurd (hname _ hc) (by decide)
  · exact (Gen.print_comment_pr rfl h1 hm (plain_word hname)).prints
  · intro p a ha hp hm
    obtain ⟨l⟩ := a
    obtain ⟨q, n, inv_n, log, psi, phi, inv_psi, inv_phi, rfl⟩ : ∃ q n inv_n log psi phi inv_psi inv_phi, l = [q, n, inv_n, log, psi, phi, inv_psi, inv_phi] := by
      match l, ha with
      | [a1, a2, a3, a4, a5, a6, a7, a8], _ => exact ⟨a1, a2, a3, a4, a5, a6, a7, a8, rfl⟩
    exact ⟨_, piece_header.read, (Gen.print_header_pr rfl hp hm).prints⟩

/-! ### make_red_tables -/

theorem C91_red_declarations : ∃ P, readSome Src.make_red_tables_text = P ∧
    ∀ (t : RedTables) (k log : Nat) G mem f p, t.n < 4294967296 → t.psi < 12289 → t.omega < 12289 → t.inv_psi < 12289 → t.inv_omega < 12289 →
      t.inv_n < 12289 → t.inv_k < 12289 → t.rescale8 = t.inv_k ^ 8 * t.inv_n % 12289 → t.rescale6 = t.inv_k ^ 6 * t.inv_n % 12289 →
      Literals G mem f → p ≠ f → mem p = nats .u32 #[12289, k, t.inv_k, t.n, t.inv_n, log, t.psi, t.omega, t.inv_psi, t.inv_omega] →
      ∃ s, readC s = some (redHeader t) ∧ Prints P G mem f n!"print_declarations" [.ptr p 0 1] s := by
  refine ⟨Src.make_red_tables, Src.make_red_tables_read, fun t k log G mem f p hn h1 h2 h3 h4 h5 h6 h8 h9 hL hp hm => ?_⟩
  have e8 : rescale_factor 8 t.inv_n t.inv_k 12289 = .ok t.rescale8 := by
    rw [h8]; exact rescale_spec (by decide) (by decide) (by decide) (by omega) (by omega)
  have e6 : rescale_factor 6 t.inv_n t.inv_k 12289 = .ok t.rescale6 := by
    rw [h9]; exact rescale_spec (by decide) (by decide) (by decide) (by omega) (by omega)
  obtain ⟨s, e, hs⟩ := piece_red_declarations (q := 12289) (k := k) h1 h2 h3 h4 h5 h6 (h8 ▸ Nat.mod_lt _ (by decide)) (h9 ▸ Nat.mod_lt _ (by decide)) e8 e6
  exact ⟨s, hs.read, (Gen.red_declarations_pr printFuns_make_red_tables hL hp hm (by decide) hn (by omega) (by omega) (by omega) (by omega) (by omega) (by omega) e).prints⟩

theorem printI16_total {a : Array Nat} {q : Nat} (hn : a.size < 4294967296) (hq : q ≤ 65535) (ha : ∀ x ∈ a, x < q) :
    ∃ p, printI16 a a.size q = .ok p ∧ p.size = a.size ∧ ∀ (i v : Nat), a[i]? = some v → p[i]? = some (if v ≤ q / 2 then (v : Int) else (v : Int) - q) := by
  have hrd : ∀ i, i < a.size → rd a i = .ok (a.getD i 0) := fun i hi => by
    rw [rd, Array.getElem?_eq_getElem hi]
    simp [Array.getD, hi]
  have hlt : ∀ i, i < a.size → a.getD i 0 < q := fun i hi => by
    have : a.getD i 0 = a[i] := by simp [Array.getD, hi]
    rw [this]
    exact ha _ (Array.getElem_mem hi)
  have key : Wp NoErr (printI16 a a.size q) (fun _ => True) := by
    unfold printI16
    refine wp_forUp1 (fun _ _ => True) hn (Nat.zero_le _) True.intro (fun i r _ hi _ => ?_) (fun _ _ => True.intro)
    rw [hrd i hi, ok_bind, shift_spec (hlt i hi) (by omega), ok_bind]
    exact wp_total.2 ⟨_, rfl, True.intro⟩
  obtain ⟨p, e, _⟩ := wp_total.1 key
  obtain ⟨hs, hv⟩ := printI16_entries hn e
  refine ⟨p, e, hs, fun i v hi => ?_⟩
  obtain ⟨hi', hg⟩ := Array.getElem?_eq_some_iff.1 hi
  obtain ⟨y, hy, hpi⟩ := hv i hi'
  have hd : a.getD i 0 = v := by simp [Array.getD, hi', hg]
  have hl := hlt i hi'
  rw [hrd i hi', ok_bind, shift_spec hl (by omega), hd] at hy
  rw [hd] at hl
  rw [hpi]
  cases hy
  congr 1
  unfold toI16
  split <;> omega

/-- `print_table(f, name, a, n, q)` writes the definition of the array `ntt_red<n>_<name>` with the elements of `a`, made centred. -/
theorem C91_red_table : ∃ P, readSome Src.make_red_tables_text = P ∧
    ∀ (name : Text) (a : Array Nat) (q : Nat) (t : Ty) G mem f oa on, (∀ c ∈ name, wordChar c = true) → a.size < 4294967296 → q ≤ 65535 → (∀ x ∈ a, x < q) →
      oa ≠ f → on ≠ f → mem oa = nats .u32 a → mem on = str name →
      ∃ s, readC s = some [.array c!"int16_t" (c!"ntt_red" ++ decimal a.size ++ c!"_" ++ name) (.num a.size)
          (a.toList.map fun x : Nat => if x ≤ q / 2 then (x : Int) else (x : Int) - q)] ∧
        Prints P G mem f n!"print_table" [.ptr on 0 1, .ptr oa 0 1, .int t (a.size : Nat), .int t (q : Nat)] s := by
  refine ⟨Src.make_red_tables, Src.make_red_tables_read, fun name a q t G mem f oa on hname hn hq ha h1 h2 hm1 hm2 => ?_⟩
  obtain ⟨p, ep, hps, hp⟩ := printI16_total hn hq ha
  obtain ⟨s, e, hs⟩ := piece_print_red_table hn ep hname
  refine ⟨s, ?_, (Gen.red_table_pr rfl rfl (by omega) h1 hm1 h2 hm2 (plain_word hname) hn e).prints⟩
  rw [hs.read]
  have : p.toList = a.toList.map fun x : Nat => if x ≤ q / 2 then (x : Int) else (x : Int) - q := by
    refine List.ext_getElem? fun i => ?_
    rw [List.getElem?_map, Array.getElem?_toList, Array.getElem?_toList]
    rcases hi : a[i]? with _ | v
    · rw [Array.getElem?_eq_none_iff] at hi
      rw [Array.getElem?_eq_none (by omega)]
      rfl
    · rw [hp i v hi]
      rfl
  rw [this]

/-- The other functions of src/make_red_tables.c that print. -/
theorem C91_red_lines : ∃ P, readSome Src.make_red_tables_text = P ∧ ∀ (name : Text) (n v : Nat) (t : Ty) G mem f on,
    (∀ c ∈ name, wordChar c = true) → n < 4294967296 → on ≠ f → mem on = str name →
      (v < 12289 → ∃ s, readC s = some [.param c!"int32_t" (c!"ntt_red" ++ decimal n ++ c!"_" ++ name) v] ∧
        Prints P G mem f n!"print_param_def" [.ptr on 0 1, .int t (n : Nat), .int t (v : Nat)] s) ∧
      (∃ s, readC s = some [.extern c!"int16_t" (c!"ntt_red" ++ decimal n ++ c!"_" ++ name) [.num n]] ∧
        Prints P G mem f n!"print_table_decl" [.ptr on 0 1, .int t (n : Nat)] s) ∧
      (∃ s, readC s = some [] ∧ Prints P G mem f n!"print_comment" [.ptr on 0 1] s) ∧
      ∀ p a, a.size = 10 → p ≠ f → mem p = nats .u32 a → ∃ s, readC s = some [] ∧ Prints P G mem f n!"print_header" [.ptr p 0 1] s := by
  refine ⟨Src.make_red_tables, Src.make_red_tables_read, fun name n v t G mem f on hname hn h1 hm => ⟨fun hv => ⟨_, (piece_red_param hname hv).read, ?_⟩,
    ⟨_, (piece_red_decl hname).read, ?_⟩, ⟨_, (piece_comment (what := name) ?_).read, ?_⟩, ?_⟩⟩
  · exact (Gen.red_param_pr rfl h1 hm (plain_word hname) hn (by omega)).prints
  · exact (Gen.red_decl_pr rfl h1 hm (plain_word hname) hn).prints
  · rintro c hc rfl
    exact absurd (hname _ hc) (by decide)
  · exact (Gen.print_comment_pr rfl h1 hm (plain_word hname)).prints
  · intro p a ha hp hm
    obtain ⟨l⟩ := a
    obtain ⟨q, k, inv_k, n, inv_n, log, psi, phi, inv_psi, inv_phi, rfl⟩ :
        ∃ q k inv_k n inv_n log psi phi inv_psi inv_phi, l = [q, k, inv_k, n, inv_n, log, psi, phi, inv_psi, inv_phi] := by
      match l, ha with
      | [a1, a2, a3, a4, a5, a6, a7, a8, a9, a10], _ => exact ⟨a1, a2, a3, a4, a5, a6, a7, a8, a9, a10, rfl⟩
    exact ⟨_, piece_red_header.read, (Gen.red_header_pr rfl hp hm).prints⟩

/-! ### make_bitrev_table -/

/-- `print_bitrev_declarations(f, n, k)` and `print_bitrev_table(f, n, k)` write the header file and the source file of the table of pairs `(i, j)`,
`j` the reverse of the `k` bits of `i`, `i < j < n = 2^k`. -/
theorem C91_bitrev : ∃ P, readSome Src.make_bitrev_table_text = P ∧
    ∀ (k : Nat) (t : Ty) (ps : List (Nat × Nat)) G mem f, k ≤ 15 →
      ps = ((List.range (2 ^ k)).filter fun i => decide (i < rev k i)).map (fun i => (i, rev k i)) →
      (∃ s, readC s = some (bitrevHeader (2 ^ k) ps.length) ∧
        Prints P G mem f n!"print_bitrev_declarations" [.int t (2 ^ k : Nat), .int t (k : Nat)] s) ∧
      ∃ s, readC s = some (bitrevSource (2 ^ k) ps.toArray) ∧
        Prints P G mem f n!"print_bitrev_table" [.int t (2 ^ k : Nat), .int t (k : Nat)] s := by
  refine ⟨Src.make_bitrev_table, Src.make_bitrev_table_read, fun k t ps G mem f hk hps => ?_⟩
  have hn := size_lt32 (show k ≤ 31 by omega)
  have hpl : ps = pairList k (2 ^ k) := by
    rw [hps, pairList]
    generalize List.range (2 ^ k) = l
    induction l with
    | nil => rfl
    | cons i l ih =>
      by_cases h : i < rev k i
      · rw [List.filter_cons_of_pos (by simpa using h), List.map_cons, ih]
        simp [h]
      · rw [List.filter_cons_of_neg (by simpa using h), ih]
        simp [h]
  obtain ⟨m, e, hm⟩ := wp_total.1 (wp_npairs (E := NoErr) (k := k) (by omega))
  have hml : m = ps.length := by rw [hm, cnt_eq, hps, List.length_map]
  obtain ⟨s, e1, hs⟩ := piece_bitrev_declarations e
  obtain ⟨s', e2, hs'⟩ := run_bitrev_text hk
  refine ⟨⟨s, hml ▸ hs.read, (Gen.bitrev_declarations_pr printFuns_make_bitrev_table hn (by omega) e1).prints⟩,
    ⟨s', hpl ▸ hs'.read, (Gen.bitrev_table_pr printFuns_make_bitrev_table hn (by omega) e2).prints⟩⟩

/-! ### Examples -/

theorem nameOf_inj : ∀ {s t : Text}, Plain s → Plain t → nameOf s = nameOf t → s = t
  | [], [], _, _, _ => rfl
  | [], d :: ds, _, ht, h => by
    have := ht d (by simp)
    have h : (0 : Nat) = d.toNat + 256 * nameOf ds := h
    omega
  | c :: cs, [], hs, _, h => by
    have := hs c (by simp)
    have h : c.toNat + 256 * nameOf cs = (0 : Nat) := h
    omega
  | c :: cs, d :: ds, hs, ht, h => by
    have h1 := hs c (by simp)
    have h2 := ht d (by simp)
    have h : (c.toNat + 256 * nameOf cs : Nat) = d.toNat + 256 * nameOf ds := h
    have e1 : c = d := by rw [← Char.ofNat_toNat c, ← Char.ofNat_toNat d]; congr 1; omega
    have e2 := nameOf_inj (fun x hx => hs x (by simp [hx])) (fun x hx => ht x (by simp [hx])) (show @Eq Nat (nameOf cs) (nameOf ds) by omega)
    rw [e1, e2]

/-- There are memories with all string literals (objects with even numbers), an empty file (object 1) and any other object (object 3). -/
theorem literals_even (d : Obj) : ∃ G mem, Literals G mem 1 ∧ mem 1 = file [] ∧ mem 3 = d ∧ ∀ x o k w, G x = some (.ptr o k w) → o ≠ 5 := by
  classical
  refine ⟨fun x => some (.ptr (2 * x) 0 1), fun o => if h : ∃ s, Plain s ∧ o = 2 * nameOf ('"' :: s) then str h.choose else if o = 1 then file [] else d,
    fun s hs => ⟨2 * nameOf ('"' :: s), by omega, rfl, ?_⟩, ?_, ?_, ?_⟩
  · have h : ∃ s', Plain s' ∧ 2 * nameOf ('"' :: s) = 2 * nameOf ('"' :: s') := ⟨s, hs, rfl⟩
    refine (dif_pos h).trans ?_
    congr 1
    have e : 2 * ('"'.toNat + 256 * nameOf s : Nat) = 2 * ('"'.toNat + 256 * nameOf h.choose) := h.choose_spec.2
    exact (nameOf_inj hs h.choose_spec.1 (show @Eq Nat (nameOf s) (nameOf h.choose) by omega)).symm
  · exact (dif_neg fun ⟨s, _, h⟩ => by omega).trans (if_pos rfl)
  · exact (dif_neg fun ⟨s, _, h⟩ => by omega).trans (if_neg (by decide))
  · intro x o k w h
    injection h with h
    injection h with h
    have : @Eq Nat (2 * x) o := h
    omega

theorem literals_exist (d : Obj) : ∃ G mem, Literals G mem 1 ∧ mem 1 = file [] ∧ mem 3 = d := by
  obtain ⟨G, mem, h1, h2, h3, _⟩ := literals_even d
  exact ⟨G, mem, h1, h2, h3⟩

/-- For n = 16 and psi = 2: the header file. -/
example : ∃ G mem s, Literals G mem 1 ∧ readC s = some (nttHeader ⟨16, 2, 4, 6145, 9217, 11521, #[], #[], #[], #[], #[], #[], #[], #[], #[], #[], #[], #[]⟩) ∧
    Prints (readSome Src.make_tables_text) G mem 1 n!"print_declarations" [.ptr 3 0 1] s := by
  obtain ⟨G, mem, hL, _, h3⟩ := literals_exist (nats .u32 #[12289, 16, 11521, 4, 2, 4, 6145, 9217])
  obtain ⟨P, hP, h⟩ := C91_declarations
  obtain ⟨s, h1, h2⟩ := h ⟨16, 2, 4, 6145, 9217, 11521, #[], #[], #[], #[], #[], #[], #[], #[], #[], #[], #[], #[]⟩ 12289 4 G mem 1 3
    (by decide) (by decide) (by decide) (by decide) (by decide) (by decide) hL (by decide) h3
  exact ⟨G, mem, s, hL, h1, hP ▸ h2⟩

/-- A table with three elements. -/
example : ∃ s, readC s = some [.array c!"uint16_t" c!"ntt3_xs" (.num 3) [1, 12288, 7]] ∧
    Prints (readSome Src.make_tables_text) (fun _ => none) (fun o => if o = 0 then nats .u32 #[1, 12288, 7] else if o = 1 then str c!"xs" else file []) 2
      n!"print_table" [.ptr 1 0 1, .ptr 0 0 1, .int .u32 3] s := by
  obtain ⟨P, hP, h⟩ := C91_table
  obtain ⟨s, h1, h2⟩ := h c!"xs" #[1, 12288, 7] .u32 (fun _ => none) (fun o => if o = 0 then nats .u32 #[1, 12288, 7] else if o = 1 then str c!"xs" else file []) 2 0 1
    (by decide) (by decide) (by decide) (by decide) (by decide) rfl rfl
  exact ⟨s, h1, hP ▸ h2⟩

/-- The same, centred. -/
example : ∃ s, readC s = some [.array c!"int16_t" c!"ntt_red3_xs" (.num 3) [1, -1, 7]] ∧
    Prints (readSome Src.make_red_tables_text) (fun _ => none) (fun o => if o = 0 then nats .u32 #[1, 12288, 7] else if o = 1 then str c!"xs" else file []) 2
      n!"print_table" [.ptr 1 0 1, .ptr 0 0 1, .int .u32 3, .int .u32 12289] s := by
  obtain ⟨P, hP, h⟩ := C91_red_table
  obtain ⟨s, h1, h2⟩ := h c!"xs" #[1, 12288, 7] 12289 .u32 (fun _ => none) (fun o => if o = 0 then nats .u32 #[1, 12288, 7] else if o = 1 then str c!"xs" else file []) 2 0 1
    (by decide) (by decide) (by decide) (by decide) (by decide) (by decide) rfl rfl
  exact ⟨s, h1, hP ▸ h2⟩

/-- The header file of make_red_tables for n = 16 and psi = 2. -/
example : ∃ G mem s, Literals G mem 1 ∧ readC s = some (redHeader ⟨16, 2, 4, 6145, 9217, 11521, 8193, 8193 ^ 8 * 11521 % 12289, 8193 ^ 6 * 11521 % 12289,
      #[], #[], #[], #[], #[], #[], #[], #[], #[], #[], #[], #[], #[]⟩) ∧
    Prints (readSome Src.make_red_tables_text) G mem 1 n!"print_declarations" [.ptr 3 0 1] s := by
  obtain ⟨G, mem, hL, _, h3⟩ := literals_exist (nats .u32 #[12289, 3, 8193, 16, 11521, 4, 2, 4, 6145, 9217])
  obtain ⟨P, hP, h⟩ := C91_red_declarations
  obtain ⟨s, h1, h2⟩ := h ⟨16, 2, 4, 6145, 9217, 11521, 8193, 8193 ^ 8 * 11521 % 12289, 8193 ^ 6 * 11521 % 12289,
      #[], #[], #[], #[], #[], #[], #[], #[], #[], #[], #[], #[], #[]⟩ 3 4 G mem 1 3
    (by decide) (by decide) (by decide) (by decide) (by decide) (by decide) (by decide) rfl rfl hL (by decide) h3
  exact ⟨G, mem, s, hL, h1, hP ▸ h2⟩

/-- The table of make_bitrev_table for n = 8. -/
example : ∃ s, readC s = some (bitrevSource 8 #[(1, 4), (3, 6)]) ∧
    Prints (readSome Src.make_bitrev_table_text) (fun _ => none) (fun _ => file []) 0 n!"print_bitrev_table" [.int .u32 8, .int .u32 3] s := by
  obtain ⟨P, hP, h⟩ := C91_bitrev
  obtain ⟨s, h1, h2⟩ := (h 3 .u32 [(1, 4), (3, 6)] (fun _ => none) (fun _ => file []) 0 (by decide) (by decide)).2
  exact ⟨s, h1, hP ▸ h2⟩

end Props
