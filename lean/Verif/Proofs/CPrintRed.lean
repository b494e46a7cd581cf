import Verif.Proofs.CPrintNtt

/-
The functions of src/make_red_tables.c that print, as read from the text.
-/

namespace CLang.Gen
open C CLang CLang.GenRed Spec Spec.CText Tables TableFiles

set_option linter.unusedSimpArgs false

variable {P : Prog} {G : Name → Option Cell} {mem : Nat → Obj} {f : Nat}

/-- The functions of the file that are called. -/
structure RedPrintFuns (P : Prog) : Prop where
  header : P.lookup n!"print_header" = some Src.make_red_tables.print_header
  comment : P.lookup n!"print_comment" = some Src.make_red_tables.print_comment
  param : P.lookup n!"print_param_def" = some Src.make_red_tables.print_param_def
  decl : P.lookup n!"print_table_decl" = some Src.make_red_tables.print_table_decl
  decls : P.lookup n!"print_declarations" = some Src.make_red_tables.print_declarations
  table : P.lookup n!"print_table" = some Src.make_red_tables.print_table
  shift : P.lookup n!"shift" = some Src.make_red_tables.shift
  power : P.lookup n!"power" = some Src.make_red_tables.power
  rescale8 : P.lookup n!"rescale_factor8" = some Src.make_red_tables.rescale_factor8
  rescale6 : P.lookup n!"rescale_factor6" = some Src.make_red_tables.rescale_factor6

theorem shift_lt {x q : Nat} {r : Int} (hq : q < 4294967296) (h : Tables.shift x q = .ok r) : x < 4294967296 := by
  simp only [Tables.shift, CLang.bind_ok, pure_ok] at h
  obtain ⟨_, h0, h⟩ := h
  rw [cassert_ok] at h0
  have hxq : x < q := by simpa using h0
  omega

theorem rescale_lt {c n k q r : Nat} (h : rescale_factor c n k q = .ok r) : r < 4294967296 := by
  unfold rescale_factor at h
  simp only [CLang.bind_ok] at h
  obtain ⟨x, _, h⟩ := h
  exact urem_lt (u32_lt _) h

theorem red_param_pr {o n v : Nat} {t t' : Ty} {s : Text} (hP : P.lookup n!"print_param_def" = some Src.make_red_tables.print_param_def) (ho : o ≠ f)
    (hm : mem o = str s) (hs : ∀ c ∈ s, c.toNat ≠ 0) (hn : n < 4294967296) (hv : v < 4294967296) :
    Pr P G mem f n!"print_param_def" [.ptr f 0 1, .ptr o 0 1, .int t (n : Int), .int t' (v : Int)] (print_red_param_def s n v) := by
  refine Ap.pr hP (bind_four hn hv (by decide)) (Ap.seq (Ap.print rfl fun t => ⟨_, EvA.cons (Ev.v rfl (cellVal_int _ _)) (EvA.cons (Ev.v rfl (cellVal_ptr o 0 1))
    (EvA.cons (Ev.v rfl (cellVal_int _ _)) (EvA.nil _))), ?_⟩) Ap.skip |>.eq (List.append_nil _))
  have := Fm.lit (t := n!"static const int32_t ntt_red") c!"static const int32_t ntt_red" (by decide +kernel) (Fm.u (n := n)
    (Fm.lit (t := n!"_") c!"_" (by decide +kernel) (Fm.s (other (f := f) (s := t) ho hm) hs
    (Fm.lit (t := n!" = ") c!" = " (by decide +kernel) (Fm.u (n := v)
    (Fm.lit (t := n!";\n") c!";\n" (by decide +kernel) Fm.nil))))))
  rw [print_red_param_def]
  simpa only [List.append_nil, List.append_assoc] using this

theorem red_decl_pr {o n : Nat} {t : Ty} {s : Text} (hP : P.lookup n!"print_table_decl" = some Src.make_red_tables.print_table_decl) (ho : o ≠ f)
    (hm : mem o = str s) (hs : ∀ c ∈ s, c.toNat ≠ 0) (hn : n < 4294967296) :
    Pr P G mem f n!"print_table_decl" [.ptr f 0 1, .ptr o 0 1, .int t (n : Int)] (print_red_table_decl s n) := by
  refine Ap.pr hP (bind_three hn (by decide) (by decide) (by decide)) (Ap.seq (Ap.print rfl fun t => ⟨_, EvA.cons (Ev.v rfl (cellVal_int _ _))
    (EvA.cons (Ev.v rfl (cellVal_ptr o 0 1)) (EvA.cons (Ev.v rfl (cellVal_int _ _)) (EvA.nil _))), ?_⟩) Ap.skip |>.eq (List.append_nil _))
  have := Fm.lit (t := n!"extern const int16_t ntt_red") c!"extern const int16_t ntt_red" (by decide +kernel) (Fm.u (n := n)
    (Fm.lit (t := n!"_") c!"_" (by decide +kernel) (Fm.s (other (f := f) (s := t) ho hm) hs
    (Fm.lit (t := n!"[") c!"[" (by decide +kernel) (Fm.u (n := n)
    (Fm.lit (t := n!"];\n") c!"];\n" (by decide +kernel) Fm.nil))))))
  rw [print_red_table_decl]
  simpa only [List.append_nil, List.append_assoc] using this

theorem red_header_pr {p q k n psi phi inv_psi inv_phi inv_n inv_k log : Nat} (hP : P.lookup n!"print_header" = some Src.make_red_tables.print_header) (hp : p ≠ f)
    (hm : mem p = nats .u32 #[q, k, inv_k, n, inv_n, log, psi, phi, inv_psi, inv_phi]) :
    Pr P G mem f n!"print_header" [.ptr f 0 1, .ptr p 0 1] (print_red_header q k n psi phi inv_psi inv_phi inv_n inv_k) := by
  refine Ap.pr hP (bind_two (by decide)) (Ap.seq (Ap.print rfl fun t => ⟨_,
    EvA.cons (field (x := n!"p") (k := 0) (v := q) rfl hp hm (by decide) (by rfl)) (EvA.cons (field (x := n!"p") (k := 1) (v := k) rfl hp hm (by decide) (by rfl)) (EvA.cons (field (x := n!"p") (k := 3) (v := n) rfl hp hm (by decide) (by rfl)) (EvA.cons (field (x := n!"p") (k := 6) (v := psi) rfl hp hm (by decide) (by rfl)) (EvA.cons (field (x := n!"p") (k := 7) (v := phi) rfl hp hm (by decide) (by rfl)) (EvA.cons (field (x := n!"p") (k := 8) (v := inv_psi) rfl hp hm (by decide) (by rfl)) (EvA.cons (field (x := n!"p") (k := 9) (v := inv_phi) rfl hp hm (by decide) (by rfl)) (EvA.cons (field (x := n!"p") (k := 4) (v := inv_n) rfl hp hm (by decide) (by rfl)) (EvA.cons (field (x := n!"p") (k := 2) (v := inv_k) rfl hp hm (by decide) (by rfl)) (EvA.nil _))))))))), ?_⟩) Ap.skip |>.eq (List.append_nil _))
  have := Fm.lit (mem := setMem mem f (file t)) (t := n!"/*\n * Parameters:\n * - q = ") c!"/*\n * Parameters:\n * - q = " (by decide +kernel)
    (Fm.u (n := q) (Fm.lit (t := n!"\n * - k = ") c!"\n * - k = " (by decide +kernel)
    (Fm.u (n := k) (Fm.lit (t := n!"\n * - n = ") c!"\n * - n = " (by decide +kernel)
    (Fm.u (n := n) (Fm.lit (t := n!"\n * - psi = ") c!"\n * - psi = " (by decide +kernel)
    (Fm.u (n := psi) (Fm.lit (t := n!"\n * - omega = psi^2 = ") c!"\n * - omega = psi^2 = " (by decide +kernel)
    (Fm.u (n := phi) (Fm.lit (t := n!"\n * - inverse of psi = ") c!"\n * - inverse of psi = " (by decide +kernel)
    (Fm.u (n := inv_psi) (Fm.lit (t := n!"\n * - inverse of omega = ") c!"\n * - inverse of omega = " (by decide +kernel)
    (Fm.u (n := inv_phi) (Fm.lit (t := n!"\n * - inverse of n = ") c!"\n * - inverse of n = " (by decide +kernel)
    (Fm.u (n := inv_n) (Fm.lit (t := n!"\n * - inverse of k = ") c!"\n * - inverse of k = " (by decide +kernel)
    (Fm.u (n := inv_k) (Fm.lit (t := n!"\n */\n\n") c!"\n */\n\n" (by decide +kernel) Fm.nil))))))))))))))))))
  rw [print_red_header]
  simpa only [List.append_nil, List.append_assoc] using this

theorem red_decl_ap {n p : Nat} (hL : Literals G mem f) (hP : P.lookup n!"print_table_decl" = some Src.make_red_tables.print_table_decl) (hn : n < 4294967296)
    {x : Name} (s : Text) (hs : Plain s) (hx : nameOf ('"' :: s) = x) (hl : look (dv n p f) x = none) :
    Ap P G mem f (dv n p f) (.expr (.call n!"print_table_decl" (.cons (.var n!"f") (.cons (.var x) (.cons (.var n!"n") .nil))))) (print_red_table_decl s n) := by
  obtain ⟨o, ho, hg, hm⟩ := hL.get x hs hx
  exact Ap.call (red_decl_pr hP ho hm hs.ne hn) fun t => EvA.cons (Ev.v rfl (cellVal_ptr f 0 1)) (EvA.cons (Ev.literal hl hg (cellVal_ptr o 0 1))
    (EvA.cons (Ev.v rfl (cellVal_int _ _)) (EvA.nil _)))

theorem red_param_ap {n p v : Nat} {e : Expr} (hL : Literals G mem f) (hP : P.lookup n!"print_param_def" = some Src.make_red_tables.print_param_def)
    (hn : n < 4294967296) (hv : v < 4294967296)
    {x : Name} (s : Text) (hs : Plain s) (hx : nameOf ('"' :: s) = x) (hl : look (dv n p f) x = none)
    (he : ∀ t, Ev P G e (E (dv n p f) (setMem mem f (file t))) (.int .u32 (v : Nat))) :
    Ap P G mem f (dv n p f) (.expr (.call n!"print_param_def" (.cons (.var n!"f") (.cons (.var x) (.cons (.var n!"n") (.cons e .nil))))))
      (print_red_param_def s n v) := by
  obtain ⟨o, ho, hg, hm⟩ := hL.get x hs hx
  exact Ap.call (red_param_pr hP ho hm hs.ne hn hv) fun t => EvA.cons (Ev.v rfl (cellVal_ptr f 0 1)) (EvA.cons (Ev.literal hl hg (cellVal_ptr o 0 1))
    (EvA.cons (Ev.v rfl (cellVal_int _ _)) (EvA.cons (he t) (EvA.nil _))))

theorem red_declarations_pr {p q k n psi phi inv_psi inv_phi inv_n inv_k log : Nat} {s : Text} (hF : RedPrintFuns P) (hL : Literals G mem f) (hp : p ≠ f)
    (hm : mem p = nats .u32 #[q, k, inv_k, n, inv_n, log, psi, phi, inv_psi, inv_phi]) (h0 : q < 4294967296) (hn : n < 4294967296) (h1 : psi < 4294967296) (h2 : phi < 4294967296)
    (h3 : inv_psi < 4294967296) (h4 : inv_phi < 4294967296) (h5 : inv_n < 4294967296) (h6 : inv_k < 4294967296)
    (h : print_red_declarations q k n psi phi inv_psi inv_phi inv_n inv_k = .ok s) :
    Pr P G mem f n!"print_declarations" [.ptr f 0 1, .ptr p 0 1] s := by
  unfold print_red_declarations at h
  simp only [CLang.bind_ok, pure_ok] at h
  obtain ⟨r8, e8, r6, e6, h⟩ := h
  have l8 := rescale_lt e8
  have l6 := rescale_lt e6
  intro t
  have D := fun {x : Name} (s : Text) => red_decl_ap (P := P) (x := x) (p := p) hL hF.decl hn s
  have C := fun {x : Name} (s : Text) => comment_ap (P := P) (n := n) (x := x) (p := p) hL hF.comment s
  have A := fun {v : Nat} {e : Expr} {x : Name} (hv : v < 4294967296) (s : Text) => red_param_ap (P := P) (x := x) (p := p) (e := e) hL hF.param hn hv s
  have B : Ap P G mem f (dv n p f) (.print (.var n!"f") [.lit n!"\n"] .nil) c!"\n" := Ap.lit c!"\n" rfl (by decide +kernel)
  have key := Ap.seq (num_ap (P := P) (G := G) (mem := mem) (f := f) (l := dv n p f) (a := n!"#ifndef __NTT_RED") (b := n!"_TABLES_H\n") c!"#ifndef __NTT_RED" c!"_TABLES_H\n" rfl rfl (by decide +kernel) (by decide +kernel))
    (Ap.seq (num_ap (a := n!"#define __NTT_RED") (b := n!"_TABLES_H\n\n") c!"#define __NTT_RED" c!"_TABLES_H\n\n" rfl rfl (by decide +kernel) (by decide +kernel))
    (Ap.seq (Ap.lit (x := n!"f") (n := n!"#include <stdint.h>\n\n") c!"#include <stdint.h>\n\n" rfl (by decide +kernel))
    (Ap.seq (C (x := n!"\"PARAMETERS") c!"PARAMETERS" (Plain.dec (by decide)) (by decide +kernel) rfl)
    (Ap.seq (A (x := n!"\"psi") h1 c!"psi" (Plain.dec (by decide)) (by decide +kernel) rfl fun t => field (x := n!"p") (k := 6) rfl hp hm (by decide) (by rfl))
    (Ap.seq (A (x := n!"\"omega") h2 c!"omega" (Plain.dec (by decide)) (by decide +kernel) rfl fun t => field (x := n!"p") (k := 7) rfl hp hm (by decide) (by rfl))
    (Ap.seq (A (x := n!"\"inv_psi") h3 c!"inv_psi" (Plain.dec (by decide)) (by decide +kernel) rfl fun t => field (x := n!"p") (k := 8) rfl hp hm (by decide) (by rfl))
    (Ap.seq (A (x := n!"\"inv_omega") h4 c!"inv_omega" (Plain.dec (by decide)) (by decide +kernel) rfl fun t => field (x := n!"p") (k := 9) rfl hp hm (by decide) (by rfl))
    (Ap.seq (A (x := n!"\"inv_n") h5 c!"inv_n" (Plain.dec (by decide)) (by decide +kernel) rfl fun t => field (x := n!"p") (k := 4) rfl hp hm (by decide) (by rfl))
    (Ap.seq (A (x := n!"\"inv_k") h6 c!"inv_k" (Plain.dec (by decide)) (by decide +kernel) rfl fun t => field (x := n!"p") (k := 2) rfl hp hm (by decide) (by rfl))
    (Ap.seq (A (x := n!"\"rescale8") l8 c!"rescale8" (Plain.dec (by decide)) (by decide +kernel) rfl fun t => rescale8_returns (mem := setMem mem f (file t)) hF.power hF.rescale8 h5 h6 h0 e8 |>.ev
      (EvA.cons (field (x := n!"p") (k := 4) rfl hp hm (by decide) (by rfl)) (EvA.cons (field (x := n!"p") (k := 2) rfl hp hm (by decide) (by rfl)) (EvA.cons (field (x := n!"p") (k := 0) rfl hp hm (by decide) (by rfl)) (EvA.nil _)))) hF.rescale8 (by decide))
    (Ap.seq (A (x := n!"\"rescale6") l6 c!"rescale6" (Plain.dec (by decide)) (by decide +kernel) rfl fun t => rescale6_returns (mem := setMem mem f (file t)) hF.power hF.rescale6 h5 h6 h0 e6 |>.ev
      (EvA.cons (field (x := n!"p") (k := 4) rfl hp hm (by decide) (by rfl)) (EvA.cons (field (x := n!"p") (k := 2) rfl hp hm (by decide) (by rfl)) (EvA.cons (field (x := n!"p") (k := 0) rfl hp hm (by decide) (by rfl)) (EvA.nil _)))) hF.rescale6 (by decide))
    (Ap.seq (B)
    (Ap.seq (C (x := n!"\"POWERS OF PSI") c!"POWERS OF PSI" (Plain.dec (by decide)) (by decide +kernel) rfl)
    (Ap.seq (D (x := n!"\"psi_powers") c!"psi_powers" (Plain.dec (by decide)) (by decide +kernel) rfl)
    (Ap.seq (D (x := n!"\"inv_psi_powers") c!"inv_psi_powers" (Plain.dec (by decide)) (by decide +kernel) rfl)
    (Ap.seq (D (x := n!"\"scaled_inv_psi_powers") c!"scaled_inv_psi_powers" (Plain.dec (by decide)) (by decide +kernel) rfl)
    (Ap.seq (D (x := n!"\"scaled_inv_psi_powers_var") c!"scaled_inv_psi_powers_var" (Plain.dec (by decide)) (by decide +kernel) rfl)
    (Ap.seq (B)
    (Ap.seq (C (x := n!"\"TABLES FOR NTT COMPUTATION") c!"TABLES FOR NTT COMPUTATION" (Plain.dec (by decide)) (by decide +kernel) rfl)
    (Ap.seq (D (x := n!"\"omega_powers") c!"omega_powers" (Plain.dec (by decide)) (by decide +kernel) rfl)
    (Ap.seq (D (x := n!"\"omega_powers_rev") c!"omega_powers_rev" (Plain.dec (by decide)) (by decide +kernel) rfl)
    (Ap.seq (D (x := n!"\"inv_omega_powers") c!"inv_omega_powers" (Plain.dec (by decide)) (by decide +kernel) rfl)
    (Ap.seq (D (x := n!"\"inv_omega_powers_rev") c!"inv_omega_powers_rev" (Plain.dec (by decide)) (by decide +kernel) rfl)
    (Ap.seq (D (x := n!"\"mixed_powers") c!"mixed_powers" (Plain.dec (by decide)) (by decide +kernel) rfl)
    (Ap.seq (D (x := n!"\"mixed_powers_rev") c!"mixed_powers_rev" (Plain.dec (by decide)) (by decide +kernel) rfl)
    (Ap.seq (D (x := n!"\"inv_mixed_powers") c!"inv_mixed_powers" (Plain.dec (by decide)) (by decide +kernel) rfl)
    (Ap.seq (D (x := n!"\"inv_mixed_powers_rev") c!"inv_mixed_powers_rev" (Plain.dec (by decide)) (by decide +kernel) rfl)
    (Ap.seq (B)
    (Ap.seq (num_ap (a := n!"#endif /* __NTT_RED") (b := n!"_TABLES_H */\n") c!"#endif /* __NTT_RED" c!"_TABLES_H */\n" rfl rfl (by decide +kernel) (by decide +kernel))
    (Ap.skip))))))))))))))))))))))))))))))
  refine Calls.mk (st' := E (dv n p f) (setMem mem f (file (t ++ s)))) hF.decls (bind_two (by decide)) ?_
  refine Ex.seq (st₁ := E [(n!"p", .ptr p 0 1), (n!"f", .ptr f 0 1), (n!"n", .int .u32 none)] (setMem mem f (file t))) (Ex.mk 1 fun _ => by crs []) (Ex.seq
    (st₁ := E [(n!"p", .ptr p 0 1), (n!"f", .ptr f 0 1), (n!"n", .int .u32 none)] (setMem mem f (file (t ++ print_red_header q k n psi phi inv_psi inv_phi inv_n inv_k))))
    (Ex.call (EvA.cons (Ev.v rfl (cellVal_ptr f 0 1)) (EvA.cons (Ev.v rfl (cellVal_ptr p 0 1)) (EvA.nil _))) (red_header_pr hF.header hp hm t))
    (Ex.seq (Ex.asgu (field (x := n!"p") (k := 3) rfl hp hm (by decide) (by rfl)) rfl hn) ?_))
  have e := key (t ++ print_red_header q k n psi phi inv_psi inv_phi inv_n inv_k)
  rw [h]
  simp only [List.append_assoc, List.append_nil] at e ⊢
  exact e

/-- Variables of `print_table`. -/
abbrev rtv (q n oa on f : Nat) (i k : Cell) : List (Name × Cell) :=
  [(n!"q", uc q), (n!"n", uc n), (n!"a", .ptr oa 0 1), (n!"name", .ptr on 0 1), (n!"f", .ptr f 0 1), (n!"i", i), (n!"k", k)]

theorem red_table_pr {tn tq : Ty} {oa on n q : Nat} {a : Array Nat} {name s : Text} (hP : P.lookup n!"print_table" = some Src.make_red_tables.print_table)
    (hS : P.lookup n!"shift" = some Src.make_red_tables.shift) (hq : q < 4294967296)
    (ha : oa ≠ f) (hma : mem oa = nats .u32 a) (ho : on ≠ f) (hm : mem on = str name) (hs : ∀ c ∈ name, c.toNat ≠ 0) (hn : n < 4294967296)
    (h : print_red_table name a n q = .ok s) :
    Pr P G mem f n!"print_table" [.ptr f 0 1, .ptr on 0 1, .ptr oa 0 1, .int tn (n : Nat), .int tq (q : Nat)] s := by
  intro t
  unfold print_red_table at h
  simp only [CLang.bind_ok, pure_ok] at h
  obtain ⟨s₁, h1, rfl⟩ := h
  have hd : Ap P G mem f (rtv q n oa on f (.int .u32 none) (uc 0)) (.print (.var n!"f") [.lit n!"const int16_t ntt_red", .u 0, .lit n!"_", .s, .lit n!"[", .u 0, .lit n!"] = {\n"] (.cons (.var n!"n") (.cons (.var n!"name") (.cons (.var n!"n") .nil))))
      (c!"const int16_t ntt_red" ++ pu32 n ++ c!"_" ++ name ++ c!"[" ++ pu32 n ++ c!"] = {\n") := by
    refine Ap.print rfl fun t => ⟨_, EvA.cons (Ev.v rfl (cellVal_int _ _)) (EvA.cons (Ev.v rfl (cellVal_ptr on 0 1)) (EvA.cons (Ev.v rfl (cellVal_int _ _)) (EvA.nil _))), ?_⟩
    have := Fm.lit (t := n!"const int16_t ntt_red") c!"const int16_t ntt_red" (by decide +kernel) (Fm.u (n := n)
      (Fm.lit (t := n!"_") c!"_" (by decide +kernel) (Fm.s (other (f := f) (s := t) ho hm) hs
      (Fm.lit (t := n!"[") c!"[" (by decide +kernel) (Fm.u (n := n)
      (Fm.lit (t := n!"] = {\n") c!"] = {\n" (by decide +kernel) Fm.nil))))))
    simpa only [List.append_nil, List.append_assoc] using this
  obtain ⟨u, h2, h3⟩ := printLoop_append h1 t
  obtain ⟨i, k, hx⟩ := table_loop (P := P) (G := G) (mem := mem) (f := f) (l := rtv q n oa on f) (c := none)
    (pr := .print (.var n!"f") [.lit n!" ", .d 5, .lit n!","] (.cons (.call n!"shift" (.cons (.idx (.var n!"a") (.var n!"i")) (.cons (.var n!"q") .nil))) .nil)) hn
    (fun _ _ => rfl) (fun _ _ => rfl) (fun _ _ => rfl) (fun _ _ => rfl) (fun _ _ _ => rfl) (fun _ _ _ => rfl)
    (fun i k e hi he => by
      simp only [CLang.bind_ok, pure_ok] at he
      obtain ⟨x, hx, y, hy, rfl⟩ := he
      refine Ap.print rfl fun t => ⟨_, EvA.cons (shift_returns (mem := setMem mem f (file t)) hS (shift_lt hq hy) hq hy |>.ev
        (EvA.cons (Ev.natAt (Ev.v rfl (cellVal_ptr oa 0 1)) (Ev.v rfl (cellVal_int _ _)) (other ha hma) hx) (EvA.cons (Ev.v rfl (cellVal_int _ _)) (EvA.nil _))) hS (by decide)) (EvA.nil _), ?_⟩
      have := Fm.lit (mem := setMem mem f (file t)) (t := n!" ") c!" " (by decide +kernel) (Fm.d5 (v := y) (Fm.lit (t := n!",") c!"," (by decide +kernel) Fm.nil))
      simpa only [List.append_nil, List.append_assoc] using this) h2
  refine Calls.mk (st' := E (rtv q n oa on f (uc i) (uc k)) (setMem mem f (file (t ++ (s₁ ++ c!"};\n\n"))))) hP (env := look [(n!"q", uc q), (n!"n", uc n), (n!"a", .ptr oa 0 1), (n!"name", .ptr on 0 1), (n!"f", .ptr f 0 1)]) ?_ ?_
  · show bindParams [(n!"f", (.ptr 1)), (n!"name", (.ptr 1)), (n!"a", (.ptr 1)), (n!"n", (.int .u32)), (n!"q", (.int .u32))] _ = _
    simp only [bindParams, ok_bind, look_nil, setEnv_look, upd, Nat.reduceEqDiff, if_false, if_true, conv_u32_nat, u32_of hn, u32_of hq]
  · refine Ex.seq (st₁ := E (rtv q n oa on f (.int .u32 none) (.int .u32 none)) (setMem mem f (file t))) (Ex.mk 3 fun _ => by crs [])
      (Ex.seq (st₁ := E (rtv q n oa on f (.int .u32 none) (uc 0)) (setMem mem f (file t))) (Ex.mk 3 fun _ => by crs [u32_of (show 0 < 4294967296 by decide)])
      (Ex.seq (hd t) ?_))
    rw [show t ++ (s₁ ++ c!"};\n\n") = u ++ c!"};\n\n" by rw [← List.append_assoc, h3]]
    exact hx

end CLang.Gen
