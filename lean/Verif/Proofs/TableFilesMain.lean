import Verif.Proofs.TableFiles
import Verif.Proofs.MakeTables
import Verif.Proofs.MakeBitrev

/-
Proofs about the generators from the command line to the text of the files.
-/

namespace TableFiles
open C Spec Spec.CText Tables NTT

/-! ### make_red_tables -/

theorem print_red_tables_text {buf : Array Nat} {q k n inv_n psi phi inv_psi inv_phi inv_k : Nat}
    {t : RedTables} (hn : n < 4294967296)
    (h : Tables.print_red_tables buf q n inv_n psi phi inv_psi inv_phi inv_k = .ok t) :
    ∃ s, print_red_tables buf q k n inv_n psi phi inv_psi inv_phi inv_k = .ok s ∧ Piece s (redSource t) ∧
      t.n = n ∧ t.psi = psi ∧ t.omega = phi ∧ t.inv_psi = inv_psi ∧ t.inv_omega = inv_phi ∧
      t.inv_n = inv_n ∧ t.inv_k = inv_k ∧ rescale_factor 8 inv_n inv_k q = .ok t.rescale8 ∧
      rescale_factor 6 inv_n inv_k q = .ok t.rescale6 := by
  unfold Tables.print_red_tables at h
  obtain ⟨r8, e8, h⟩ := bind_ok_inv h
  obtain ⟨r6, e6, h⟩ := bind_ok_inv h
  obtain ⟨t1, a1, h⟩ := bind_ok_inv h
  obtain ⟨p1, b1, h⟩ := bind_ok_inv h
  obtain ⟨t2, a2, h⟩ := bind_ok_inv h
  obtain ⟨p2, b2, h⟩ := bind_ok_inv h
  obtain ⟨t3, a3, h⟩ := bind_ok_inv h
  obtain ⟨p3, b3, h⟩ := bind_ok_inv h
  obtain ⟨t4, a4, h⟩ := bind_ok_inv h
  obtain ⟨p4, b4, h⟩ := bind_ok_inv h
  obtain ⟨t5, a5, h⟩ := bind_ok_inv h
  obtain ⟨p5, b5, h⟩ := bind_ok_inv h
  obtain ⟨t6, a6, h⟩ := bind_ok_inv h
  obtain ⟨p6, b6, h⟩ := bind_ok_inv h
  obtain ⟨t7, a7, h⟩ := bind_ok_inv h
  obtain ⟨p7, b7, h⟩ := bind_ok_inv h
  obtain ⟨t8, a8, h⟩ := bind_ok_inv h
  obtain ⟨p8, b8, h⟩ := bind_ok_inv h
  obtain ⟨t9, a9, h⟩ := bind_ok_inv h
  obtain ⟨p9, b9, h⟩ := bind_ok_inv h
  obtain ⟨t10, a10, h⟩ := bind_ok_inv h
  obtain ⟨p10, b10, h⟩ := bind_ok_inv h
  obtain ⟨t11, a11, h⟩ := bind_ok_inv h
  obtain ⟨p11, b11, h⟩ := bind_ok_inv h
  obtain ⟨t12, a12, h⟩ := bind_ok_inv h
  obtain ⟨p12, b12, h⟩ := bind_ok_inv h
  obtain ⟨t13, a13, h⟩ := bind_ok_inv h
  obtain ⟨p13, b13, h⟩ := bind_ok_inv h
  obtain rfl := Except.ok.inj h
  obtain ⟨s1, f1, g1⟩ := piece_print_red_table (name := c!"psi_powers") hn b1 (by decide)
  obtain ⟨s2, f2, g2⟩ := piece_print_red_table (name := c!"psi_powers_rev") hn b2 (by decide)
  obtain ⟨s3, f3, g3⟩ := piece_print_red_table (name := c!"inv_psi_powers") hn b3 (by decide)
  obtain ⟨s4, f4, g4⟩ := piece_print_red_table (name := c!"scaled_inv_psi_powers") hn b4 (by decide)
  obtain ⟨s5, f5, g5⟩ := piece_print_red_table (name := c!"scaled_inv_psi_powers_var") hn b5 (by decide)
  obtain ⟨s6, f6, g6⟩ := piece_print_red_table (name := c!"omega_powers") hn b6 (by decide)
  obtain ⟨s7, f7, g7⟩ := piece_print_red_table (name := c!"omega_powers_rev") hn b7 (by decide)
  obtain ⟨s8, f8, g8⟩ := piece_print_red_table (name := c!"inv_omega_powers") hn b8 (by decide)
  obtain ⟨s9, f9, g9⟩ := piece_print_red_table (name := c!"inv_omega_powers_rev") hn b9 (by decide)
  obtain ⟨s10, f10, g10⟩ := piece_print_red_table (name := c!"mixed_powers") hn b10 (by decide)
  obtain ⟨s11, f11, g11⟩ := piece_print_red_table (name := c!"mixed_powers_rev") hn b11 (by decide)
  obtain ⟨s12, f12, g12⟩ := piece_print_red_table (name := c!"inv_mixed_powers") hn b12 (by decide)
  obtain ⟨s13, f13, g13⟩ := piece_print_red_table (name := c!"inv_mixed_powers_rev") hn b13 (by decide)
  have g0 := piece_red_header (q := q) (k := k) (n := n) (psi := psi) (phi := phi) (inv_psi := inv_psi)
    (inv_phi := inv_phi) (inv_n := inv_n) (inv_k := inv_k)
  have g0' := piece_directive_n (w1 := c!"include \"ntt_red") (w2 := c!"_tables.h\"") (cs := c!"\n") (n := n)
    (by decide) (by decide) (by decide +kernel)
  refine ⟨_, ?_, ((((((((((((((g0.append g0').append g1).append g2).append g3).append g4).append g5).append g6).append g7).append g8).append g9).append g10).append g11).append g12).append g13),
    rfl, rfl, rfl, rfl, rfl, rfl, rfl, e8, e6⟩
  unfold print_red_tables
  simp only [e8, e6, a1, f1, a2, f2, a3, f3, a4, f4, a5, f5, a6, f6, a7, f7, a8, f8, a9, f9, a10, f10, a11, f11, a12, f12, a13, f13, bind, Except.bind, pure, Except.pure]
  simp only [List.append_assoc, List.cons_append, List.nil_append]

/-! ### Main functions -/

theorem checkSize_of {q : Nat} {xn xpsi : Int} {r : Nat × Nat × Nat} (h : checkArgs q xn xpsi = .ok r) :
    ∃ n, checkSize xn = .ok n := by
  unfold checkArgs at h
  unfold checkSize
  split at h
  · simp at h
  · split at h
    · simp at h
    · next h1 h2 =>
      rw [if_neg h1, if_neg h2]
      obtain ⟨l, e, h⟩ := bind_ok_inv h
      rw [e]
      cases l with
      | none => simp at h
      | some l => exact ⟨_, rfl⟩

theorem checkArgs_n {k : Nat} {xn xpsi : Int} (h : GoodParams k xn xpsi) {n psi phi : Nat}
    (c1 : checkArgs 12289 xn xpsi = .ok (n, psi, phi)) : n = 2 ^ k ∧ n < 100000 := by
  obtain ⟨r, e, psi', _, hr⟩ := wp_total.1 (wp_checkArgs (E := NoErr) h)
  rw [c1] at e
  have e := Except.ok.inj e
  rw [← e] at hr
  generalize psi' * psi' % 12289 = w at hr
  simp only [Prod.mk.injEq] at hr
  refine ⟨hr.1, ?_⟩
  have h3 := h.2.2.1
  rw [h.2.1] at h3
  have h4 : ((2 ^ k : Nat) : Int) < 100000 := by push_cast; exact h3
  rw [hr.1]
  omega

theorem open_file_ok {before after : Text} {n : Nat} (hn : n < 100000) (hb : before.length + after.length < 95) :
    open_file before n after = .ok (before ++ decimal n ++ after) := by
  unfold open_file
  have h : (decimal n).length ≤ 5 := (Nat.length_toDigits_le_iff (b := 10) (by norm_num) (by norm_num)).2
    (by norm_num; omega)
  exact if_pos (by
    have : (pu32 n).length ≤ 5 := h
    simp only [List.length_append]
    omega)

theorem make_tables_main_two {buf : Nat → Array Nat} {s1 s2 : Text} :
    make_tables_main buf [s1, s2] = make_tables_run 12289 buf s1 s2 := by
  unfold make_tables_main
  rfl

theorem make_red_tables_main_two {buf : Nat → Array Nat} {s1 s2 : Text} :
    make_red_tables_main buf [s1, s2] = make_red_tables_run 12289 buf s1 s2 := by
  unfold make_red_tables_main
  rfl

theorem eq_of_wp {α : Type} {m : M α} {a : α} (h : Wp NoErr m (fun r => r = a)) : m = .ok a := by
  obtain ⟨_, e, rfl⟩ := wp_total.1 h
  exact e

theorem bind_ok {α β : Type} {a : α} {f : α → M β} : ((Except.ok a : M α) >>= f) = f a := rfl

theorem bind_error {α β : Type} {e : Err} {f : α → M β} : ((Except.error e : M α) >>= f) = .error e := rfl

theorem make_tables_inv {q : Nat} (hq : q = 12289) {buf : Nat → Array Nat} {xn xpsi : Int} {t : Nttables}
    (ht : make_tables buf xn xpsi = .ok t) : ∃ n psi phi inv_psi inv_phi inv_n,
      checkArgs q xn xpsi = .ok (n, psi, phi) ∧ inverseOrExit psi q = .ok inv_psi ∧
      inverseOrExit phi q = .ok inv_phi ∧ inverseOrExit n q = .ok inv_n ∧
      Tables.print_tables (buf n) q n inv_n psi phi inv_psi inv_phi = .ok t := by
  unfold make_tables at ht
  dsimp only at ht
  rw [← hq] at ht
  obtain ⟨⟨n, psi, phi⟩, c1, ht⟩ := bind_ok_inv ht
  obtain ⟨inv_psi, c2, ht⟩ := bind_ok_inv ht
  obtain ⟨inv_phi, c3, ht⟩ := bind_ok_inv ht
  obtain ⟨inv_n, c4, ht⟩ := bind_ok_inv ht
  exact ⟨n, psi, phi, inv_psi, inv_phi, inv_n, c1, c2, c3, c4, ht⟩

theorem make_tables_main_run {q : Nat} (hq : q = 12289) {buf : Nat → Array Nat} {s1 s2 : Text} {xn xpsi : Int}
    (h1 : atol s1 = .ok xn) (h2 : atol s2 = .ok xpsi) {n psi phi inv_psi inv_phi inv_n : Nat} {src : Text}
    (hn5 : n < 100000) (c1 : checkArgs q xn xpsi = .ok (n, psi, phi)) (c2 : inverseOrExit psi q = .ok inv_psi)
    (c3 : inverseOrExit phi q = .ok inv_phi) (c4 : inverseOrExit n q = .ok inv_n)
    (f1 : print_tables (buf n) q n inv_n psi phi inv_psi inv_phi = .ok src) :
    make_tables_main buf [s1, s2] = .ok [(c!"ntt" ++ decimal n ++ c!"_tables.h",
        print_declarations q n psi phi inv_psi inv_phi inv_n), (c!"ntt" ++ decimal n ++ c!"_tables.c", src)] := by
  obtain ⟨_, c0⟩ := checkSize_of c1
  have o1 := open_file_ok (before := c!"ntt") (after := c!"_tables.h") hn5 (by decide)
  have o2 := open_file_ok (before := c!"ntt") (after := c!"_tables.c") hn5 (by decide)
  rw [make_tables_main_two, ← hq]
  refine eq_of_wp ?_
  unfold make_tables_run
  rw [wp_bind, h1, wp_ok, wp_bind, c0, wp_ok, wp_bind, h2, wp_ok, wp_bind, c1, wp_ok]
  dsimp only
  rw [wp_bind, c2, wp_ok, wp_bind, c3, wp_ok, wp_bind, c4, wp_ok, wp_bind, o1, wp_ok, wp_bind, o2, wp_ok,
    wp_bind, f1, wp_ok, wp_pure]

theorem make_tables_files {k : Nat} {xn xpsi : Int} (h : GoodParams k xn xpsi) {buf : Nat → Array Nat}
    (hb : ∀ n, (buf n).size = n) {s1 s2 : Text} (h1 : atol s1 = .ok xn) (h2 : atol s2 = .ok xpsi)
    {t : Nttables} (ht : make_tables buf xn xpsi = .ok t) :
    ∃ hd src, make_tables_main buf [s1, s2] = .ok [(c!"ntt" ++ decimal (2 ^ k) ++ c!"_tables.h", hd),
        (c!"ntt" ++ decimal (2 ^ k) ++ c!"_tables.c", src)] ∧
      readC hd = some (nttHeader t) ∧ readC src = some (nttSource t) := by
  obtain ⟨t', e', ok⟩ := wp_total.1 (wp_make_tables (E := NoErr) h hb)
  obtain rfl : t' = t := by rw [ht] at e'; exact (Except.ok.inj e').symm
  obtain ⟨q, hq⟩ : ∃ q, q = 12289 := ⟨_, rfl⟩
  obtain ⟨n, psi, phi, inv_psi, inv_phi, inv_n, c1, c2, c3, c4, ht⟩ := make_tables_inv hq ht
  obtain ⟨hn, hn5⟩ := checkArgs_n h (hq ▸ c1)
  rw [← hn]
  obtain ⟨src, f1, f2, m1, m2, m3, m4, m5, m6⟩ := print_tables_text (by omega) (hb n) ht
  have hd := piece_declarations (q := q) ok.psi.2 ok.omega.2 ok.inv_psi.2 ok.inv_omega.2 ok.inv_n.2
  rw [m1, m2, m3, m4, m5, m6] at hd
  exact ⟨_, src, make_tables_main_run hq h1 h2 hn5 c1 c2 c3 c4 f1, hd.read, f2.read⟩

theorem make_red_tables_inv {q k : Nat} (hq : q = 12289) (hk : k = 3) {buf : Nat → Array Nat} {xn xpsi : Int}
    {t : RedTables}
    (ht : make_red_tables buf xn xpsi = .ok t) : ∃ n psi phi inv_psi inv_phi inv_n inv_k,
      checkArgs q xn xpsi = .ok (n, psi, phi) ∧ inverseOrExit psi q = .ok inv_psi ∧
      inverseOrExit phi q = .ok inv_phi ∧ inverseOrExit n q = .ok inv_n ∧ inverseOrExit k q = .ok inv_k ∧
      Tables.print_red_tables (buf n) q n inv_n psi phi inv_psi inv_phi inv_k = .ok t := by
  have ek : find_k q = .ok k := by rw [hq, hk]; rfl
  unfold make_red_tables at ht
  dsimp only at ht
  rw [← hq, ek] at ht
  obtain ⟨k3, ck, ht⟩ := bind_ok_inv ht
  obtain rfl := Except.ok.inj ck
  rw [if_neg (by omega)] at ht
  obtain ⟨⟨n, psi, phi⟩, c1, ht⟩ := bind_ok_inv ht
  obtain ⟨inv_psi, c2, ht⟩ := bind_ok_inv ht
  obtain ⟨inv_phi, c3, ht⟩ := bind_ok_inv ht
  obtain ⟨inv_n, c4, ht⟩ := bind_ok_inv ht
  obtain ⟨inv_k, c5, ht⟩ := bind_ok_inv ht
  exact ⟨n, psi, phi, inv_psi, inv_phi, inv_n, inv_k, c1, c2, c3, c4, c5, ht⟩

theorem make_red_tables_main_run {q k : Nat} (hq : q = 12289) (hk : k = 3) {buf : Nat → Array Nat}
    {s1 s2 : Text} {xn xpsi : Int} (h1 : atol s1 = .ok xn) (h2 : atol s2 = .ok xpsi)
    {n psi phi inv_psi inv_phi inv_n inv_k : Nat} {hd src : Text}
    (hn5 : n < 100000) (c1 : checkArgs q xn xpsi = .ok (n, psi, phi)) (c2 : inverseOrExit psi q = .ok inv_psi)
    (c3 : inverseOrExit phi q = .ok inv_phi) (c4 : inverseOrExit n q = .ok inv_n)
    (c5 : inverseOrExit k q = .ok inv_k)
    (f3 : print_red_declarations q k n psi phi inv_psi inv_phi inv_n inv_k = .ok hd)
    (f1 : print_red_tables (buf n) q k n inv_n psi phi inv_psi inv_phi inv_k = .ok src) :
    make_red_tables_main buf [s1, s2] = .ok [(c!"ntt_red" ++ decimal n ++ c!"_tables.h", hd),
      (c!"ntt_red" ++ decimal n ++ c!"_tables.c", src)] := by
  obtain ⟨_, c0⟩ := checkSize_of c1
  have o1 := open_file_ok (before := c!"ntt_red") (after := c!"_tables.h") hn5 (by decide)
  have o2 := open_file_ok (before := c!"ntt_red") (after := c!"_tables.c") hn5 (by decide)
  have ek : find_k q = .ok k := by rw [hq, hk]; rfl
  rw [make_red_tables_main_two, ← hq]
  refine eq_of_wp ?_
  unfold make_red_tables_run
  rw [wp_bind, ek, wp_ok, if_neg (by omega)]
  rw [wp_bind, h1, wp_ok, wp_bind, c0, wp_ok, wp_bind, h2, wp_ok, wp_bind, c1, wp_ok]
  dsimp only
  rw [wp_bind, c2, wp_ok, wp_bind, c5, wp_ok, wp_bind, c3, wp_ok, wp_bind, c4, wp_ok, wp_bind, o1, wp_ok, wp_bind, f3, wp_ok,
    wp_bind, o2, wp_ok, wp_bind, f1, wp_ok, wp_pure]

theorem make_red_tables_files {k : Nat} {xn xpsi : Int} (h : GoodParams k xn xpsi) {buf : Nat → Array Nat}
    (hb : ∀ n, (buf n).size = n) {s1 s2 : Text} (h1 : atol s1 = .ok xn) (h2 : atol s2 = .ok xpsi)
    {t : RedTables} (ht : make_red_tables buf xn xpsi = .ok t) :
    ∃ hd src, make_red_tables_main buf [s1, s2] = .ok [(c!"ntt_red" ++ decimal (2 ^ k) ++ c!"_tables.h", hd),
        (c!"ntt_red" ++ decimal (2 ^ k) ++ c!"_tables.c", src)] ∧
      readC hd = some (redHeader t) ∧ readC src = some (redSource t) := by
  obtain ⟨t', e', ok⟩ := wp_total.1 (wp_make_red_tables (E := NoErr) h hb)
  obtain rfl : t' = t := by rw [ht] at e'; exact (Except.ok.inj e').symm
  obtain ⟨q, hq⟩ : ∃ q, q = 12289 := ⟨_, rfl⟩
  obtain ⟨k3, hk3⟩ : ∃ k, k = 3 := ⟨_, rfl⟩
  obtain ⟨n, psi, phi, inv_psi, inv_phi, inv_n, inv_k, c1, c2, c3, c4, c5, ht⟩ := make_red_tables_inv hq hk3 ht
  obtain ⟨hn, hn5⟩ := checkArgs_n h (hq ▸ c1)
  rw [← hn]
  obtain ⟨src, f1, f2, m1, m2, m3, m4, m5, m6, m7, m8, m9⟩ := print_red_tables_text (k := k3) (by omega) ht
  obtain ⟨hd, f3, f4⟩ := piece_red_declarations (q := q) (k := k3) ok.psi.2 ok.omega.2 ok.inv_psi.2
    ok.inv_omega.2 ok.inv_n.2 ok.inv_k.2 ok.rescale8.2 ok.rescale6.2 (by rw [m6, m7]; exact m8)
    (by rw [m6, m7]; exact m9)
  rw [m1, m2, m3, m4, m5, m6, m7] at f3
  exact ⟨hd, src, make_red_tables_main_run hq hk3 h1 h2 hn5 c1 c2 c3 c4 c5 f3 f1, f4.read, f2.read⟩

/-- The size is not one of the sizes accepted. -/
theorem checkSize_abort {xn : Int} (h : ∀ k : Nat, 1 ≤ k → xn = 2 ^ k → ¬ xn < 100000) :
    checkSize xn = .error .abort := by
  unfold checkSize
  split
  · rfl
  · split
    · rfl
    · next h1 h2 =>
      obtain ⟨n, rfl⟩ := Int.eq_ofNat_of_zero_le (show 0 ≤ xn by omega)
      simp only [Int.toNat_natCast]
      rw [logtwo_none (by omega) (by omega)]
      · rfl
      · rintro k rfl
        refine h k ?_ (by push_cast; rfl) (by omega)
        rcases Nat.eq_zero_or_pos k with rfl | hk
        · simp at h1
        · exact hk

theorem checkSize_cases (xn : Int) : (∃ n, checkSize xn = .ok n) ∨ checkSize xn = .error .abort := by
  unfold checkSize
  split
  · exact .inr rfl
  · split
    · exact .inr rfl
    · next h1 h2 =>
      obtain ⟨n, rfl⟩ := Int.eq_ofNat_of_zero_le (show 0 ≤ xn by omega)
      simp only [Int.toNat_natCast]
      by_cases hk : ∃ k, n = 2 ^ k
      · obtain ⟨k, rfl⟩ := hk
        have hk16 : k ≤ 31 := (k_le_16 (k := k) (by push_cast at h2; omega)).trans (by omega)
        rw [logtwo_pow hk16]
        exact .inl ⟨_, rfl⟩
      · rw [logtwo_none (by omega) (by omega) (fun k hk' => hk ⟨k, hk'⟩)]
        exact .inr rfl

theorem make_tables_main_size {buf : Nat → Array Nat} {s1 s2 : Text} {xn : Int} (h1 : atol s1 = .ok xn)
    (h : ∀ k : Nat, 1 ≤ k → xn = 2 ^ k → ¬ xn < 100000) :
    make_tables_main buf [s1, s2] = .error .abort ∧ make_red_tables_main buf [s1, s2] = .error .abort := by
  rw [make_tables_main_two, make_red_tables_main_two]
  obtain ⟨q, hq⟩ : ∃ q, q = 12289 := ⟨_, rfl⟩
  have ek : find_k q = .ok 3 := by rw [hq]; rfl
  rw [← hq]
  unfold make_tables_run make_red_tables_run
  rw [h1, bind_ok, checkSize_abort h, bind_error, ek, bind_ok, if_neg (by omega), bind_ok, checkSize_abort h,
    bind_error]
  exact ⟨rfl, rfl⟩

theorem make_tables_main_abort {buf : Nat → Array Nat} {s1 s2 : Text} {xn xpsi : Int}
    (h1 : atol s1 = .ok xn) (h2 : atol s2 = .ok xpsi) (h : ∀ k, ¬ GoodParams k xn xpsi) :
    make_tables_main buf [s1, s2] = .error .abort ∧ make_red_tables_main buf [s1, s2] = .error .abort := by
  rcases checkSize_cases xn with ⟨n, e⟩ | e
  · rw [make_tables_main_two, make_red_tables_main_two]
    obtain ⟨q, hq⟩ : ∃ q, q = 12289 := ⟨_, rfl⟩
    have ek : find_k q = .ok 3 := by rw [hq]; rfl
    have h3 := checkArgs_abort h
    rw [← hq] at h3 ⊢
    unfold make_tables_run make_red_tables_run
    rw [h1, bind_ok, e, bind_ok, h2, bind_ok, h3, bind_error, ek, bind_ok, if_neg (by omega), bind_ok, e, bind_ok,
      bind_ok, h3, bind_error]
    exact ⟨rfl, rfl⟩
  · rw [make_tables_main_two, make_red_tables_main_two]
    obtain ⟨q, hq⟩ : ∃ q, q = 12289 := ⟨_, rfl⟩
    have ek : find_k q = .ok 3 := by rw [hq]; rfl
    rw [← hq]
    unfold make_tables_run make_red_tables_run
    rw [h1, bind_ok, e, bind_error, ek, bind_ok, if_neg (by omega), bind_ok, e, bind_error]
    exact ⟨rfl, rfl⟩

/-! ### make_bitrev_table -/

/-- The pairs in the order in which they are written. -/
def pairList (k n : Nat) : List (Nat × Nat) :=
  (List.range n).filterMap (fun i => if i < rev k i then some (i, rev k i) else none)

theorem pairList_succ {k n : Nat} :
    pairList k (n + 1) = pairList k n ++ if n < rev k n then [(n, rev k n)] else [] := by
  unfold pairList
  rw [List.range_succ, List.filterMap_append]
  congr 1
  simp only [List.filterMap_cons, List.filterMap_nil]
  split <;> simp_all

theorem print_bitrev_eq {k : Nat} (hk : k ≤ 31) :
    Tables.print_bitrev_table (2 ^ k) k = .ok (pairList k (2 ^ k)).toArray := by
  have h31 := NTT.pow31 hk
  have key : Wp NoErr (Tables.print_bitrev_table (2 ^ k) k) (fun t => t = (pairList k (2 ^ k)).toArray) := by
    unfold Tables.print_bitrev_table
    refine wp_forUp1 (fun i (t : Array (Nat × Nat)) => t = (pairList k i).toArray) (by omega) (Nat.zero_le _)
      rfl ?_ (fun _ h => h)
    rintro i t _ hi rfl
    rw [wp_bind, reverse_eq (show k ≤ 32 by omega), wp_ok, pairList_succ]
    split
    · rw [wp_pure]; simp
    · rw [wp_pure]; simp
  obtain ⟨t, e, rfl⟩ := wp_total.1 key
  exact e

def pairToks (z : Nat × Nat) : List Tok :=
  [.punct '{', .num z.1, .punct ',', .num z.2, .punct '}', .punct ',']

theorem lexes_pair {i j : Nat} {b : Bool} :
    Lexes (.ready b) (c!" { " ++ pad5 (pu32 i) ++ c!", " ++ pad5 (pu32 j) ++ c!" },") (.ready false)
      (pairToks (i, j)) := by
  have h0 : Lexes (.ready b) c!" { " (.ready false) [.punct '{'] := by cases b <;> decide +kernel
  have h1 := h0.append (lexes_pad (lexes_dec (n := i)))
  have h2 := h1.append (lexes_endnum (n := i) (c := ',') (cs := c!" ") (s := .ready false) (ts := [.punct ','])
    (by decide) (by decide +kernel))
  have h3 := h2.append (lexes_pad (lexes_dec (n := j)))
  exact h3.append (lexes_endnum (n := j) (c := ' ') (cs := c!"},") (s := .ready false)
    (ts := [.punct '}', .punct ',']) (by decide) (by decide +kernel))

theorem readPairs_eq (vs : List (Nat × Nat)) (hv : ∀ z ∈ vs, z.1 < 65536 ∧ z.2 < 65536) (r : List Tok) :
    readPairs c!"uint16_t" (vs.flatMap pairToks ++ .punct '}' :: r) =
      some (vs.map (fun z => ((z.1 : Int), (z.2 : Int))), r) := by
  induction vs with
  | nil => rfl
  | cons v vs ih =>
    rw [List.flatMap_cons, List.append_assoc]
    obtain ⟨h1, h2⟩ := hv v (by simp)
    show (readPairs c!"uint16_t" (vs.flatMap pairToks ++ .punct '}' :: r)).bind _ = _
    rw [ih (fun z hz => hv z (by simp [hz]))]
    have e1 : stored c!"uint16_t" (v.1 : Int) = some (v.1 : Int) :=
      (stored_u16 _).trans (congrArg some (by omega))
    have e2 : stored c!"uint16_t" (v.2 : Int) = some (v.2 : Int) :=
      (stored_u16 _).trans (congrArg some (by omega))
    simp only [Option.bind]
    rw [e1, e2]
    rfl

theorem run_bitrev_text {k : Nat} (hk : k ≤ 15) :
    ∃ s, print_bitrev_table (2 ^ k) k = .ok s ∧ Piece s (bitrevSource (2 ^ k) (pairList k (2 ^ k)).toArray) := by
  have h31 := NTT.pow31 (show k ≤ 31 by omega)
  generalize ht : (c!"#include \"bitrev" ++ pu32 (2 ^ k) ++ c!"_table.h\"\n\n") ++
    (c!"const uint16_t bitrev" ++ pu32 (2 ^ k) ++ c!"[BITREV" ++ pu32 (2 ^ k) ++ c!"_NPAIRS][2] = {\n") = t0
  have key : Wp NoErr (forUp 0 (2 ^ k) 1 (fun i (st : Nat × Text) => do
      let (z, t) := st
      let j ← reverse i k
      if i < j then do
        let t := if z = 0 then t ++ c!"   " else t
        let t := t ++ c!" { " ++ pad5 (pu32 i) ++ c!", " ++ pad5 (pu32 j) ++ c!" },"
        let z := u32 (z + 1)
        if z = 4 then pure (0, t ++ c!"\n") else pure (z, t)
      else pure (z, t)) (0, t0))
      (fun st => ∃ t' b, st.2 = t0 ++ t' ∧ (st.1 = 0 → b = true) ∧
        Lexes (.ready true) t' (.ready b) ((pairList k (2 ^ k)).flatMap pairToks)) := by
    refine wp_forUp1 (fun i st => st.1 < 4 ∧ ∃ t' b, st.2 = t0 ++ t' ∧ (st.1 = 0 → b = true) ∧
        Lexes (.ready true) t' (.ready b) ((pairList k i).flatMap pairToks)) (by omega) (Nat.zero_le _)
      ⟨by simp, [], true, by simp, fun _ => rfl, Lexes.nil⟩ ?_ (fun st h => h.2)
    rintro i ⟨z, u⟩ _ hi ⟨hz, t', b, hu, hb, hl⟩
    simp only at hz hu hb
    subst hu
    simp only [wp_bind]
    rw [reverse_eq (show k ≤ 32 by omega), wp_ok, pairList_succ]
    by_cases hir : i < rev k i
    · rw [if_pos hir, if_pos hir]
      have hl2 : ∃ u', (if z = 0 then (t0 ++ t') ++ c!"   " else t0 ++ t') = t0 ++ u' ∧
          Lexes (.ready true) u' (.ready b) ((pairList k i).flatMap pairToks) := by
        split
        · have h3 : Lexes (.ready b) c!"   " (.ready b) [] := by cases b <;> decide +kernel
          exact ⟨t' ++ c!"   ", by simp, (hl.append h3).eq (by simp)⟩
        · exact ⟨t', rfl, hl⟩
      obtain ⟨u', e1, hl2⟩ := hl2
      have hl3 := (hl2.append (lexes_pair (i := i) (j := rev k i) (b := b))).eq
        (show _ = (pairList k i ++ [(i, rev k i)]).flatMap pairToks by simp)
      simp only [e1]
      have hu : u32 (z + 1) = z + 1 := Nat.mod_eq_of_lt (by omega)
      rw [hu]
      split
      · rw [wp_pure]
        exact ⟨by simp, _, true, by simp only [List.append_assoc], fun _ => rfl,
          (hl3.append (b := c!"\n") (s2 := .ready true) (t2 := []) (by decide +kernel)).eq (by simp)⟩
      · rw [wp_pure]
        exact ⟨by simp only; omega, _, false, by simp only [List.append_assoc], fun h => by simp at h, hl3⟩
    · rw [if_neg hir, if_neg hir, wp_pure]
      exact ⟨hz, t', b, rfl, hb, by simpa using hl⟩
  obtain ⟨⟨z, u⟩, e, t', b, hu, hb, hl⟩ := wp_total.1 key
  simp only at hu hb
  have hl' : ∃ t'', (if z > 0 then u ++ c!"\n" else u) = t0 ++ t'' ∧
      Lexes (.ready true) t'' (.ready true) ((pairList k (2 ^ k)).flatMap pairToks) := by
    rcases Nat.eq_zero_or_pos z with h0 | h0
    · obtain rfl := hb h0
      rw [if_neg (by omega), hu]
      exact ⟨t', rfl, hl⟩
    · rw [if_pos h0, hu]
      refine ⟨t' ++ c!"\n", by simp, (hl.append (s2 := .ready true) (t2 := []) ?_).eq (by simp)⟩
      cases b <;> decide +kernel
  obtain ⟨t'', e1, hl⟩ := hl'
  refine ⟨t0 ++ t'' ++ c!"};\n\n", ?_, ?_⟩
  · unfold print_bitrev_table
    simp only [ht]
    rw [e]
    show Except.ok ((if z > 0 then u ++ c!"\n" else u) ++ c!"};\n\n") = _
    rw [e1]
  · have d := piece_ifndef (n := 2 ^ k) (w := c!"include \"bitrev") (w2 := c!"_table.h\"") (cs := c!"\n")
      (by decide) (by decide) (by decide +kernel)
    have h1 : Lexes (.ready true) c!"const uint16_t bitrev" (.word c!"bitrev") [.ident c!"const", .ident c!"uint16_t"] := by
      decide +kernel
    have h2 := h1.append (lexes_word (a := c!"bitrev") (dec_word (n := 2 ^ k)))
    have h3 := h2.append (lexes_endword (a := c!"bitrev" ++ decimal (2 ^ k)) (c := '[') (cs := c!"BITREV")
      (s := .word c!"BITREV") (ts := [.punct '[']) (by decide) (by decide +kernel))
    have h4 := (h3.append (lexes_word (a := c!"BITREV") (dec_word (n := 2 ^ k)))).append
      (lexes_word (a := c!"BITREV" ++ decimal (2 ^ k)) (w := c!"_NPAIRS") (by decide))
    have h5 := h4.append (lexes_endword (a := c!"BITREV" ++ decimal (2 ^ k) ++ c!"_NPAIRS") (c := ']')
      (cs := c!"[2] = {\n") (s := .ready true) (ts := [.punct ']', .punct '[', .num 2, .punct ']', .punct '=', .punct '{'])
      (by decide) (by decide +kernel))
    have h6 : Lexes (.ready true) c!"};\n\n" (.ready true) [.punct '}', .punct ';'] := by decide +kernel
    have h7 := (h5.append hl).append h6
    have hp := piece_item (i := .pairs c!"uint16_t" (c!"bitrev" ++ decimal (2 ^ k))
      (.ident (c!"BITREV" ++ decimal (2 ^ k) ++ c!"_NPAIRS"))
      ((pairList k (2 ^ k)).map (fun z => ((z.1 : Int), (z.2 : Int))))) h7 (by simp) (fun r => by
        have hr := readPairs_eq (pairList k (2 ^ k)) (fun z hz => by
          have h15 : 2 ^ k ≤ 2 ^ 15 := Nat.pow_le_pow_right (by omega) hk
          norm_num at h15
          unfold pairList at hz
          rw [List.mem_filterMap] at hz
          obtain ⟨i, hi, hz⟩ := hz
          rw [List.mem_range] at hi
          split at hz
          · simp only [Option.some.injEq] at hz
            subst hz
            have := rev_lt k i
            exact ⟨by simp only; omega, by simp only; omega⟩
          · simp at hz) (.punct ';' :: r)
        have e1 : ∀ X : List Tok, readItem ([.ident c!"const", .ident c!"uint16_t",
            .ident (c!"bitrev" ++ decimal (2 ^ k)), .punct '[',
            .ident (c!"BITREV" ++ decimal (2 ^ k) ++ c!"_NPAIRS"), .punct ']', .punct '[', .num 2, .punct ']',
            .punct '=', .punct '{'] ++ X) =
            (do
              let (vs, r) ← readPairs c!"uint16_t" X
              match r with
              | .punct ';' :: r => if isDim (.ident (c!"BITREV" ++ decimal (2 ^ k) ++ c!"_NPAIRS")) then
                  some (.pairs c!"uint16_t" (c!"bitrev" ++ decimal (2 ^ k))
                    (.ident (c!"BITREV" ++ decimal (2 ^ k) ++ c!"_NPAIRS")) vs, r) else none
              | _ => none) := fun X => rfl
        have e2 := e1 ((pairList k (2 ^ k)).flatMap pairToks ++ .punct '}' :: .punct ';' :: r)
        simp only [List.append_assoc, List.cons_append, List.nil_append] at e2 ⊢
        rw [e2, hr]
        simp [isDim])
    refine cast_piece (d.append hp) ?_ ?_
    · rw [← ht]
      simp only [List.append_assoc, List.cons_append, List.nil_append]
      rfl
    · simp only [bitrevSource, List.append_assoc, List.cons_append, List.nil_append]

theorem piece_bitrev_declarations {n m k : Nat} (hm : rev_table_npairs n k = .ok m) :
    ∃ s, print_bitrev_declarations n k = .ok s ∧ Piece s (bitrevHeader n m) := by
  have g1 := piece_ifndef (n := n) (w := c!"ifndef __BITREV") (w2 := c!"_TABLE_H") (cs := []) (by decide)
    (by decide) Lexes.nil
  have g2 := piece_ifndef (n := n) (w := c!"define __BITREV") (w2 := c!"_TABLE_H") (cs := c!"\n") (by decide)
    (by decide) (by decide +kernel)
  have g3 := piece_directive (l := c!"include <stdint.h>") (cs := c!"\n") (by decide) (by decide +kernel)
  have g4 := piece_directive (l := c!"define BITREV" ++ decimal n ++ c!"_NPAIRS " ++ decimal m) (cs := c!"\n")
    (by
      intro c hc
      simp only [List.mem_append] at hc
      rcases hc with ((hc | hc) | hc) | hc
      · revert c; decide
      · exact dec_ne (by decide) c hc
      · revert c; decide
      · exact dec_ne (by decide) c hc) (by decide +kernel)
  have h1 : Lexes (.ready true) c!"extern const uint16_t bitrev" (.word c!"bitrev")
      [.ident c!"extern", .ident c!"const", .ident c!"uint16_t"] := by decide +kernel
  have h2 := h1.append (lexes_word (a := c!"bitrev") (dec_word (n := n)))
  have h3 := h2.append (lexes_endword (a := c!"bitrev" ++ decimal n) (c := '[') (cs := c!"BITREV")
    (s := .word c!"BITREV") (ts := [.punct '[']) (by decide) (by decide +kernel))
  have h4 := (h3.append (lexes_word (a := c!"BITREV") (dec_word (n := n)))).append
    (lexes_word (a := c!"BITREV" ++ decimal n) (w := c!"_NPAIRS") (by decide))
  have h5 := h4.append (lexes_endword (a := c!"BITREV" ++ decimal n ++ c!"_NPAIRS") (c := ']')
    (cs := c!"[2];\n\n") (s := .ready true) (ts := [.punct ']', .punct '[', .num 2, .punct ']', .punct ';'])
    (by decide) (by decide +kernel))
  have g5 := piece_item (i := .extern c!"uint16_t" (c!"bitrev" ++ decimal n)
    [.ident (c!"BITREV" ++ decimal n ++ c!"_NPAIRS"), .num 2]) h5 (by simp) (fun r => rfl)
  have g6 := piece_ifndef (n := n) (w := c!"endif /* __BITREV") (w2 := c!"_TABLE_H */") (cs := []) (by decide)
    (by decide) Lexes.nil
  have g := ((((g1.append g2).append g3).append g4).append g5).append g6
  refine ⟨_, ?_, cast_piece g rfl (by
    simp only [bitrevHeader, List.cons_append, List.nil_append, List.append_nil, List.append_assoc])⟩
  unfold print_bitrev_declarations
  rw [hm]
  simp only [bind, Except.bind, pure, Except.pure, List.cons_append, List.nil_append, List.append_assoc]
  rfl

theorem make_bitrev_files {k : Nat} (hk1 : 1 ≤ k) (hk : k ≤ 15) {s1 : Text} (h1 : atol s1 = .ok (2 ^ k))
    {m : Nat} {t : Array (Nat × Nat)} (ht : make_bitrev_table (2 ^ k) = .ok (m, t)) :
    ∃ hd src, make_bitrev_table_main [s1] = .ok [(c!"bitrev" ++ decimal (2 ^ k) ++ c!"_table.h", hd),
        (c!"bitrev" ++ decimal (2 ^ k) ++ c!"_table.c", src)] ∧
      readC hd = some (bitrevHeader (2 ^ k) m) ∧ readC src = some (bitrevSource (2 ^ k) t) := by
  have hlo : 2 ^ 1 ≤ 2 ^ k := Nat.pow_le_pow_right (by omega) hk1
  have hhi : 2 ^ k ≤ 2 ^ 15 := Nat.pow_le_pow_right (by omega) hk
  norm_num at hlo hhi
  have e : ((2 : Int) ^ k) = ((2 ^ k : Nat) : Int) := by push_cast; rfl
  unfold make_bitrev_table at ht
  rw [e, if_neg (by omega), if_neg (by omega)] at ht
  simp only [Int.toNat_natCast, logtwo_pow (show k ≤ 31 by omega)] at ht
  obtain ⟨l, el, ht⟩ := bind_ok_inv ht
  obtain rfl := Except.ok.inj el
  obtain ⟨m', e1, ht⟩ := bind_ok_inv ht
  obtain ⟨t', e2, ht⟩ := bind_ok_inv ht
  have ht := Except.ok.inj ht
  simp only [Prod.mk.injEq] at ht
  obtain ⟨rfl, rfl⟩ := ht
  rw [print_bitrev_eq (show k ≤ 31 by omega)] at e2
  obtain rfl := Except.ok.inj e2
  obtain ⟨src, f1, f2⟩ := run_bitrev_text hk
  obtain ⟨hd, f3, f4⟩ := piece_bitrev_declarations e1
  refine ⟨hd, src, ?_, f4.read, f2.read⟩
  have o1 := open_file_ok (n := 2 ^ k) (before := c!"bitrev") (after := c!"_table.h") (by omega) (by decide)
  have o2 := open_file_ok (n := 2 ^ k) (before := c!"bitrev") (after := c!"_table.c") (by omega) (by decide)
  unfold make_bitrev_table_main
  simp only [h1, e, bind, Except.bind]
  rw [if_neg (by omega), if_neg (by omega)]
  simp only [Int.toNat_natCast, logtwo_pow (show k ≤ 31 by omega), o1, o2, f1, f3, pure, Except.pure]

theorem make_bitrev_main_abort {s1 : Text} {xn : Int} (h1 : atol s1 = .ok xn)
    (h : ∀ k : Nat, xn = 2 ^ k → k = 0 ∨ 15 < k) : make_bitrev_table_main [s1] = .error .abort := by
  unfold make_bitrev_table_main
  simp only [h1, bind, Except.bind]
  split
  · rfl
  · split
    · rfl
    · next h1 h2 =>
      obtain ⟨n, rfl⟩ := Int.eq_ofNat_of_zero_le (show 0 ≤ xn by omega)
      simp only [Int.toNat_natCast]
      rw [logtwo_none (by omega) (by omega)]
      rintro k rfl
      have := h k (by push_cast; rfl)
      rcases this with rfl | hk
      · simp at h1
      · have : 2 ^ 16 ≤ 2 ^ k := Nat.pow_le_pow_right (by omega) hk
        norm_num at this
        omega

/-! ### atol -/

theorem takeWhile_digits {n : Nat} {r : Text} (hr : ∀ c ∈ r.head?, c.isDigit = false) :
    (decimal n ++ r).takeWhile Char.isDigit = decimal n := by
  rw [List.takeWhile_append_of_pos dec_digit]
  cases r with
  | nil => simp
  | cons c r => rw [List.takeWhile_cons_of_neg (by simp [hr c (by simp)])]; simp

theorem ofDigits_dec (n : Nat) : Nat.ofDigitChars 10 (decimal n) 0 = n := by
  unfold decimal
  simp

theorem dropWhile_blanks {ws r : Text} (h : ∀ c ∈ ws, isSpace c = true) (hr : ∀ c ∈ r.head?, isSpace c = false) :
    (ws ++ r).dropWhile isSpace = r := by
  rw [List.dropWhile_append_of_pos h]
  cases r with
  | nil => rfl
  | cons c r => rw [List.dropWhile_cons_of_neg (by simp [hr c (by simp)])]

theorem dec_head {n : Nat} {r : Text} : ∃ c t, decimal n ++ r = c :: t ∧ c.isDigit = true := by
  cases h : decimal n with
  | nil => exact absurd h dec_ne_nil
  | cons c t => exact ⟨c, t ++ r, rfl, dec_digit c (by rw [h]; simp)⟩

theorem digit_not_space {c : Char} (h : c.isDigit = true) : isSpace c = false ∧ c ≠ '-' ∧ c ≠ '+' := by
  have hne : ∀ d : Char, d.isDigit = false → c ≠ d := by rintro d hd rfl; rw [hd] at h; cases h
  refine ⟨?_, hne _ (by decide), hne _ (by decide)⟩
  unfold isSpace
  simp [hne ' ' (by decide), hne '	' (by decide), hne '
' (by decide), hne '' (by decide),
    hne '' (by decide), hne '' (by decide)]

theorem atol_dec {ws r : Text} {n : Nat} (h : ∀ c ∈ ws, isSpace c = true) (hr : ∀ c ∈ r.head?, c.isDigit = false)
    (hn : n < 9223372036854775808) :
    atol (ws ++ (decimal n ++ r)) = .ok n ∧ atol (ws ++ '+' :: (decimal n ++ r)) = .ok n ∧
      atol (ws ++ '-' :: (decimal n ++ r)) = .ok (-(n : Int)) := by
  have e1 := takeWhile_digits (n := n) hr
  obtain ⟨c, t, e2, hc⟩ := dec_head (n := n) (r := r)
  obtain ⟨hc1, hc2, hc3⟩ := digit_not_space hc
  refine ⟨?_, ?_, ?_⟩
  · unfold atol
    dsimp only
    rw [dropWhile_blanks h (by rw [e2]; simpa using hc1)]
    have e3 : sign (decimal n ++ r) = (false, decimal n ++ r) := by
      rw [e2]
      unfold sign
      split
      · next h => exact absurd (List.cons.inj h).1 hc2
      · next h => exact absurd (List.cons.inj h).1 hc3
      · rfl
    rw [e3]
    dsimp only
    rw [e1, ofDigits_dec, if_neg (by decide)]
    exact if_pos (by unfold I64; omega)
  · unfold atol
    dsimp only
    rw [dropWhile_blanks h (by simp [isSpace])]
    have e3 : sign ('+' :: (decimal n ++ r)) = (false, decimal n ++ r) := rfl
    rw [e3]
    dsimp only
    rw [e1, ofDigits_dec, if_neg (by decide)]
    exact if_pos (by unfold I64; omega)
  · unfold atol
    dsimp only
    rw [dropWhile_blanks h (by simp [isSpace])]
    have e3 : sign ('-' :: (decimal n ++ r)) = (true, decimal n ++ r) := rfl
    rw [e3]
    dsimp only
    rw [e1, ofDigits_dec, if_pos rfl]
    exact if_pos (by unfold I64; omega)

end TableFiles
