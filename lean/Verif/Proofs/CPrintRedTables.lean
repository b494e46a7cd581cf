import Verif.Proofs.CPrintTables

/-
`print_tables` of src/make_red_tables.c, as read from the text.
-/

namespace CLang.Gen
open C CLang Spec Spec.CText Tables TableFiles

variable {P : Prog} {G : Name → Option Cell} {mem : Nat → Obj} {f sp p n q : Nat}

/-- The variables of `print_tables`. -/
def rgv (sp p f n q : Nat) (c : Cell) : List (Name × Cell) :=
  [(n!"p", .ptr p 0 1), (n!"f", .ptr f 0 1), (0, .ptr (sp + 1) 0 1), (n!"table", .ptr sp 0 1), (n!"n", uc n), (n!"q", uc q), (n!"s", c)]

variable {c : Cell}

/-- The functions that are called. -/
structure RedBuildFuns (P : Prog) : Prop where
  power : P.lookup n!"power" = some Src.make_tables.power
  reverse : P.lookup n!"reverse" = some Src.make_tables.reverse
  powers : P.lookup n!"build_power_table" = some Src.make_tables.build_power_table
  table : P.lookup n!"build_table" = some Src.make_red_tables.build_table
  rev : P.lookup n!"build_rev_table" = some Src.make_red_tables.build_rev_table

theorem rfield {k v : Nat} {a : Array Nat} {t : Array Nat} {u : Text} (hp : p ≠ f) (hps : p ≠ sp) (hm : mem p = nats .u32 a)
    (hk : k ≤ 2147483647) (h : rd a k = .ok v) : Ev P G (.idx (.var n!"p") (.num k)) (E (rgv sp p f n q c) (tmem mem f sp t u)) (.int .u32 (v : Nat)) :=
  Gen.field rfl hp (by rw [setMem_ne hps]; exact hm) hk h

theorem RGo.powers {ex ey : Expr} {tx ty : Ty} {x y : Nat} {t t' : Array Nat} {s : Text} (hB : RedBuildFuns P) (hf : f ≠ sp)
    (hn : n < 4294967296) (hq : q < 4294967296) (hx : x < 4294967296) (hy : y < 4294967296)
    (hex : ∀ u, Ev P G ex (E (rgv sp p f n q c) (tmem mem f sp t u)) (.int tx (x : Nat)))
    (hey : ∀ u, Ev P G ey (E (rgv sp p f n q c) (tmem mem f sp t u)) (.int ty (y : Nat))) (h : build_power_table t n q x y = .ok t') :
    Go P G mem f sp (rgv sp p f n q c) (.expr (.call n!"build_power_table" (.cons (.var n!"table") (.cons (.var n!"n") (.cons (.var n!"q") (.cons ex (.cons ey .nil))))))) t s t' s :=
  Go.build hf (fun _ => build_power_table_calls hB.powers (tmem_at hf) hn hq hx hy h) fun u =>
    EvA.cons (Ev.v rfl (cellVal_ptr sp 0 1)) (EvA.cons (Ev.v rfl (cellVal_int _ _)) (EvA.cons (Ev.v rfl (cellVal_int _ _)) (EvA.cons (hex u) (EvA.cons (hey u) (EvA.nil _)))))

theorem RGo.table {ex ey ez : Expr} {tx ty tz : Ty} {x y z : Nat} {t t' : Array Nat} {s : Text} (hB : RedBuildFuns P) (hf : f ≠ sp)
    (hn : n < 4294967296) (hq : q < 4294967296) (hx : x < 4294967296) (hy : y < 4294967296) (hz : z < 4294967296)
    (hex : ∀ u, Ev P G ex (E (rgv sp p f n q c) (tmem mem f sp t u)) (.int tx (x : Nat)))
    (hey : ∀ u, Ev P G ey (E (rgv sp p f n q c) (tmem mem f sp t u)) (.int ty (y : Nat)))
    (hez : ∀ u, Ev P G ez (E (rgv sp p f n q c) (tmem mem f sp t u)) (.int tz (z : Nat))) (h : build_table t n q x y (some z) = .ok t') :
    Go P G mem f sp (rgv sp p f n q c) (.expr (.call n!"build_table" (.cons (.var n!"table") (.cons (.var n!"n") (.cons (.var n!"q") (.cons ex (.cons ey (.cons ez .nil)))))))) t s t' s :=
  Go.build hf (fun _ => GenRed.build_table_calls hB.power hB.table (tmem_at hf) hn hq hx hy hz h) fun u =>
    EvA.cons (Ev.v rfl (cellVal_ptr sp 0 1)) (EvA.cons (Ev.v rfl (cellVal_int _ _)) (EvA.cons (Ev.v rfl (cellVal_int _ _)) (EvA.cons (hex u) (EvA.cons (hey u) (EvA.cons (hez u) (EvA.nil _))))))

theorem RGo.rev {ex ey ez : Expr} {tx ty tz : Ty} {x y z : Nat} {t t' : Array Nat} {s : Text} (hB : RedBuildFuns P) (hf : f ≠ sp)
    (hn : n < 4294967296) (hq : q < 4294967296) (hx : x < 4294967296) (hy : y < 4294967296) (hz : z < 4294967296)
    (hex : ∀ u, Ev P G ex (E (rgv sp p f n q c) (tmem mem f sp t u)) (.int tx (x : Nat)))
    (hey : ∀ u, Ev P G ey (E (rgv sp p f n q c) (tmem mem f sp t u)) (.int ty (y : Nat)))
    (hez : ∀ u, Ev P G ez (E (rgv sp p f n q c) (tmem mem f sp t u)) (.int tz (z : Nat))) (h : build_rev_table t n q x y (some z) = .ok t') :
    Go P G mem f sp (rgv sp p f n q c) (.expr (.call n!"build_rev_table" (.cons (.var n!"table") (.cons (.var n!"n") (.cons (.var n!"q") (.cons ex (.cons ey (.cons ez .nil)))))))) t s t' s :=
  Go.build hf (fun _ => GenRed.build_rev_table_calls hB.power hB.reverse hB.rev (tmem_at hf) hn hq hx hy hz h) fun u =>
    EvA.cons (Ev.v rfl (cellVal_ptr sp 0 1)) (EvA.cons (Ev.v rfl (cellVal_int _ _)) (EvA.cons (Ev.v rfl (cellVal_int _ _)) (EvA.cons (hex u) (EvA.cons (hey u) (EvA.cons (hez u) (EvA.nil _))))))

theorem RGo.print {x : Name} {name : Text} {t : Array Nat} {s s' : Text} (hF : RedPrintFuns P) (hf : f ≠ sp)
    (hL : Literals G mem f) (hG : ∀ x o k w, G x = some (.ptr o k w) → o ≠ sp) (hn : n < 4294967296) (hq : q < 4294967296)
    (hx : look (rgv sp p f n q c) x = none) (hnm : nameOf ('"' :: name) = x) (hpl : ∀ c ∈ name, 0 < c.toNat ∧ c.toNat < 256) (h : TableFiles.print_red_table name t n q = .ok s') :
    Go P G mem f sp (rgv sp p f n q c) (.expr (.call n!"print_table" (.cons (.var n!"f") (.cons (.var x) (.cons (.var n!"table") (.cons (.var n!"n") (.cons (.var n!"q") .nil))))))) t s t (s ++ s') := by
  obtain ⟨o, ho, hg, hm⟩ := hL.get x hpl hnm
  have hos := hG _ _ _ _ hg
  exact Go.ap (Ap.call (red_table_pr hF.table hF.shift hq (Ne.symm hf) (setMem_self _ _ _) ho ((setMem_ne hos).trans hm) (Plain.ne hpl) hn h) fun u =>
    EvA.cons (Ev.v rfl (cellVal_ptr f 0 1)) (EvA.cons (Ev.literal hx hg (cellVal_ptr o 0 1)) (EvA.cons (Ev.v rfl (cellVal_ptr sp 0 1)) (EvA.cons (Ev.v rfl (cellVal_int _ _)) (EvA.cons (Ev.v rfl (cellVal_int _ _)) (EvA.nil _))))))

theorem RGo.one {t : Array Nat} {u : Text} : Ev P G (.num 1) (E (rgv sp p f n q c) (tmem mem f sp t u)) (.int .i32 ((1 : Nat) : Int)) := Ev.num (by decide)

theorem print_red_tables_pr {k inv_k inv_n log psi phi inv_psi inv_phi : Nat} {s : Text} (hF : RedPrintFuns P) (hB : RedBuildFuns P)
    (hP : P.lookup n!"print_tables" = some Src.make_red_tables.print_tables) (hf : f ≠ sp) (hp : p ≠ f) (hps : p ≠ sp) (hL : Literals G mem f)
    (hG : ∀ x o k w, G x = some (.ptr o k w) → o ≠ sp) (hm : mem p = nats .u32 #[q, k, inv_k, n, inv_n, log, psi, phi, inv_psi, inv_phi])
    (hn : n < 4294967296) (hq : q < 4294967296) (h1 : inv_n < 4294967296) (h2 : psi < 4294967296) (h3 : phi < 4294967296)
    (h4 : inv_psi < 4294967296) (h5 : inv_phi < 4294967296) (h6 : inv_k < 4294967296) {buf : Array Nat} (hb : fresh .u32 n (mem sp) = nats .u32 buf)
    (h : TableFiles.print_red_tables buf q k n inv_n psi phi inv_psi inv_phi inv_k = .ok s) (u : Text) :
    CallsFrom P G sp n!"print_tables" [.ptr f 0 1, .ptr p 0 1] (setMem mem f (file u)) (setMem (setMem mem sp ⟨.u32, #[]⟩) f (file (u ++ s))) := by
  unfold TableFiles.print_red_tables at h
  rw [CLang.bind_ok] at h
  obtain ⟨t1, e1, h⟩ := h
  rw [CLang.bind_ok] at h
  obtain ⟨p1, f1, h⟩ := h
  rw [CLang.bind_ok] at h
  obtain ⟨t2, e2, h⟩ := h
  rw [CLang.bind_ok] at h
  obtain ⟨p2, f2, h⟩ := h
  rw [CLang.bind_ok] at h
  obtain ⟨t3, e3, h⟩ := h
  rw [CLang.bind_ok] at h
  obtain ⟨p3, f3, h⟩ := h
  rw [CLang.bind_ok] at h
  obtain ⟨s8, hs8, h⟩ := h
  rw [CLang.bind_ok] at h
  obtain ⟨t4, e4, h⟩ := h
  rw [CLang.bind_ok] at h
  obtain ⟨p4, f4, h⟩ := h
  rw [CLang.bind_ok] at h
  obtain ⟨s6, hs6, h⟩ := h
  rw [CLang.bind_ok] at h
  obtain ⟨t5, e5, h⟩ := h
  rw [CLang.bind_ok] at h
  obtain ⟨p5, f5, h⟩ := h
  rw [CLang.bind_ok] at h
  obtain ⟨t6, e6, h⟩ := h
  rw [CLang.bind_ok] at h
  obtain ⟨p6, f6, h⟩ := h
  rw [CLang.bind_ok] at h
  obtain ⟨t7, e7, h⟩ := h
  rw [CLang.bind_ok] at h
  obtain ⟨p7, f7, h⟩ := h
  rw [CLang.bind_ok] at h
  obtain ⟨t8, e8, h⟩ := h
  rw [CLang.bind_ok] at h
  obtain ⟨p8, f8, h⟩ := h
  rw [CLang.bind_ok] at h
  obtain ⟨t9, e9, h⟩ := h
  rw [CLang.bind_ok] at h
  obtain ⟨p9, f9, h⟩ := h
  rw [CLang.bind_ok] at h
  obtain ⟨t10, e10, h⟩ := h
  rw [CLang.bind_ok] at h
  obtain ⟨p10, f10, h⟩ := h
  rw [CLang.bind_ok] at h
  obtain ⟨t11, e11, h⟩ := h
  rw [CLang.bind_ok] at h
  obtain ⟨p11, f11, h⟩ := h
  rw [CLang.bind_ok] at h
  obtain ⟨t12, e12, h⟩ := h
  rw [CLang.bind_ok] at h
  obtain ⟨p12, f12, h⟩ := h
  rw [CLang.bind_ok] at h
  obtain ⟨t13, e13, h⟩ := h
  rw [CLang.bind_ok] at h
  obtain ⟨p13, f13, h⟩ := h
  rw [pure_ok] at h
  have hs := h
  have g0 : Go P G mem f sp (rgv sp p f n q (.int .u32 none)) (.expr (.call n!"print_header" (.cons (.var n!"f") (.cons (.var n!"p") .nil)))) buf [] buf
      (TableFiles.print_red_header q k n psi phi inv_psi inv_phi inv_n inv_k) := by
    have hpr := red_header_pr (P := P) (G := G) (mem := setMem mem sp (nats .u32 buf)) hF.header hp ((setMem_ne hps).trans hm)
    generalize TableFiles.print_red_header q k n psi phi inv_psi inv_phi inv_n inv_k = hd at hpr ⊢
    have g := Go.ap (s := []) (l := rgv sp p f n q (.int .u32 none)) (Ap.call (args := .cons (.var n!"f") (.cons (.var n!"p") .nil)) hpr fun u =>
      EvA.cons (Ev.v rfl (cellVal_ptr f 0 1)) (EvA.cons (Ev.v rfl (cellVal_ptr p 0 1)) (EvA.nil _)))
    rwa [List.nil_append] at g
  have g1 : Go P G mem f sp (rgv sp p f n q (.int .u32 none)) (.print (.var n!"f") [.lit n!"#include \"ntt_red", .u 0, .lit n!"_tables.h\"\n\n"] (.cons (.var n!"n") .nil)) buf
      (TableFiles.print_red_header q k n psi phi inv_psi inv_phi inv_n inv_k) buf (TableFiles.print_red_header q k n psi phi inv_psi inv_phi inv_n inv_k ++
        (c!"#include \"ntt_red" ++ pu32 n ++ c!"_tables.h\"\n\n")) := by
    refine Go.ap (Ap.print rfl fun t => ⟨_, EvA.cons (Ev.v rfl (cellVal_int _ _)) (EvA.nil _), ?_⟩)
    have := Fm.lit (mem := setMem (setMem mem sp (nats .u32 buf)) f (file t)) (t := n!"#include \"ntt_red") c!"#include \"ntt_red" (by decide +kernel) (Fm.u (n := n)
      (Fm.lit (t := n!"_tables.h\"\n\n") c!"_tables.h\"\n\n" (by decide +kernel) Fm.nil))
    simpa only [List.append_nil, List.append_assoc] using this
  have F : ∀ {c : Cell} {j v : Nat} {t : Array Nat}, j ≤ 2147483647 → rd #[q, k, inv_k, n, inv_n, log, psi, phi, inv_psi, inv_phi] j = .ok v → ∀ u : Text,
    Ev P G (.idx (.var n!"p") (.num j)) (E (rgv sp p f n q c) (tmem mem f sp t u)) (.int .u32 (v : Nat)) := fun hk h u => rfield hp hps hm hk h
  have r8 : ∀ w, Ex P G (.assign n!"s" (.call n!"rescale_factor8" (.cons (.idx (.var n!"p") (.num 4)) (.cons (.idx (.var n!"p") (.num 2)) (.cons (.var n!"q") .nil)))))
      (E (rgv sp p f n q (.int .u32 none)) (tmem mem f sp t3 w)) (E (rgv sp p f n q (uc s8)) (tmem mem f sp t3 w)) := fun w =>
    Ex.asgu (l := rgv sp p f n q (.int .u32 none)) (x := n!"s") (v := s8) (o := none)
      ((GenRed.rescale8_returns hF.power hF.rescale8 h1 h6 hq hs8).ev (EvA.cons (F (j := 4) (by decide) rfl w) (EvA.cons (F (j := 2) (by decide) rfl w)
        (EvA.cons (Ev.v rfl (cellVal_int _ _)) (EvA.nil _)))) hF.rescale8 rfl) rfl (rescale_lt hs8)
  have r6 : ∀ w, Ex P G (.assign n!"s" (.call n!"rescale_factor6" (.cons (.idx (.var n!"p") (.num 4)) (.cons (.idx (.var n!"p") (.num 2)) (.cons (.var n!"q") .nil)))))
      (E (rgv sp p f n q (uc s8)) (tmem mem f sp t4 w)) (E (rgv sp p f n q (uc s6)) (tmem mem f sp t4 w)) := fun w =>
    Ex.asgu (l := rgv sp p f n q (uc s8)) (x := n!"s") (v := s6) (o := some s8)
      ((GenRed.rescale6_returns hF.power hF.rescale6 h1 h6 hq hs6).ev (EvA.cons (F (j := 4) (by decide) rfl w) (EvA.cons (F (j := 2) (by decide) rfl w)
        (EvA.cons (Ev.v rfl (cellVal_int _ _)) (EvA.nil _)))) hF.rescale6 rfl) rfl (rescale_lt hs6)
  have S8 : ∀ {t : Array Nat} (w : Text), Ev P G (.var n!"s") (E (rgv sp p f n q (uc s8)) (tmem mem f sp t w)) (.int .u32 (s8 : Nat)) := fun w => Ev.v rfl (cellVal_int _ _)
  have S6 : ∀ {t : Array Nat} (w : Text), Ev P G (.var n!"s") (E (rgv sp p f n q (uc s6)) (tmem mem f sp t w)) (.int .u32 (s6 : Nat)) := fun w => Ev.v rfl (cellVal_int _ _)
  have one : (1 : Nat) < 4294967296 := by decide
  have p1' := fun s => RGo.print (s := s) (p := p) (q := q) (c := .int .u32 none) (x := n!"\"psi_powers") hF hf hL hG hn hq rfl (by rfl) (by decide +kernel) f1
  have p2' := fun s => RGo.print (s := s) (p := p) (q := q) (c := .int .u32 none) (x := n!"\"psi_powers_rev") hF hf hL hG hn hq rfl (by rfl) (by decide +kernel) f2
  have p3' := fun s => RGo.print (s := s) (p := p) (q := q) (c := .int .u32 none) (x := n!"\"inv_psi_powers") hF hf hL hG hn hq rfl (by rfl) (by decide +kernel) f3
  have p4' := fun s => RGo.print (s := s) (p := p) (q := q) (c := uc s8) (x := n!"\"scaled_inv_psi_powers") hF hf hL hG hn hq rfl (by rfl) (by decide +kernel) f4
  have p5' := fun s => RGo.print (s := s) (p := p) (q := q) (c := uc s6) (x := n!"\"scaled_inv_psi_powers_var") hF hf hL hG hn hq rfl (by rfl) (by decide +kernel) f5
  have p6' := fun s => RGo.print (s := s) (p := p) (q := q) (c := uc s6) (x := n!"\"omega_powers") hF hf hL hG hn hq rfl (by rfl) (by decide +kernel) f6
  have p7' := fun s => RGo.print (s := s) (p := p) (q := q) (c := uc s6) (x := n!"\"omega_powers_rev") hF hf hL hG hn hq rfl (by rfl) (by decide +kernel) f7
  have p8' := fun s => RGo.print (s := s) (p := p) (q := q) (c := uc s6) (x := n!"\"inv_omega_powers") hF hf hL hG hn hq rfl (by rfl) (by decide +kernel) f8
  have p9' := fun s => RGo.print (s := s) (p := p) (q := q) (c := uc s6) (x := n!"\"inv_omega_powers_rev") hF hf hL hG hn hq rfl (by rfl) (by decide +kernel) f9
  have p10' := fun s => RGo.print (s := s) (p := p) (q := q) (c := uc s6) (x := n!"\"mixed_powers") hF hf hL hG hn hq rfl (by rfl) (by decide +kernel) f10
  have p11' := fun s => RGo.print (s := s) (p := p) (q := q) (c := uc s6) (x := n!"\"mixed_powers_rev") hF hf hL hG hn hq rfl (by rfl) (by decide +kernel) f11
  have p12' := fun s => RGo.print (s := s) (p := p) (q := q) (c := uc s6) (x := n!"\"inv_mixed_powers") hF hf hL hG hn hq rfl (by rfl) (by decide +kernel) f12
  have p13' := fun s => RGo.print (s := s) (p := p) (q := q) (c := uc s6) (x := n!"\"inv_mixed_powers_rev") hF hf hL hG hn hq rfl (by rfl) (by decide +kernel) f13
  have b1 := fun s => RGo.powers (s := s) (mem := mem) (p := p) (c := .int .u32 none) hB hf hn hq h6 h2 (F (j := 2) (by decide) rfl) (F (j := 6) (by decide) rfl) e1
  have b2 := fun s => RGo.rev (s := s) (mem := mem) (p := p) (c := .int .u32 none) hB hf hn hq one h2 h6 (fun _ => RGo.one) (F (j := 6) (by decide) rfl) (F (j := 2) (by decide) rfl) e2
  have b3 := fun s => RGo.powers (s := s) (mem := mem) (p := p) (c := .int .u32 none) hB hf hn hq h6 h4 (F (j := 2) (by decide) rfl) (F (j := 8) (by decide) rfl) e3
  have b4 := fun s => RGo.powers (s := s) (mem := mem) (p := p) (c := uc s8) hB hf hn hq (rescale_lt hs8) h4 S8 (F (j := 8) (by decide) rfl) e4
  have b5 := fun s => RGo.powers (s := s) (mem := mem) (p := p) (c := uc s6) hB hf hn hq (rescale_lt hs6) h4 S6 (F (j := 8) (by decide) rfl) e5
  have b6 := fun s => RGo.table (s := s) (mem := mem) (p := p) (c := uc s6) hB hf hn hq one h3 h6 (fun _ => RGo.one) (F (j := 7) (by decide) rfl) (F (j := 2) (by decide) rfl) e6
  have b7 := fun s => RGo.rev (s := s) (mem := mem) (p := p) (c := uc s6) hB hf hn hq one h3 h6 (fun _ => RGo.one) (F (j := 7) (by decide) rfl) (F (j := 2) (by decide) rfl) e7
  have b8 := fun s => RGo.table (s := s) (mem := mem) (p := p) (c := uc s6) hB hf hn hq one h5 h6 (fun _ => RGo.one) (F (j := 9) (by decide) rfl) (F (j := 2) (by decide) rfl) e8
  have b9 := fun s => RGo.rev (s := s) (mem := mem) (p := p) (c := uc s6) hB hf hn hq one h5 h6 (fun _ => RGo.one) (F (j := 9) (by decide) rfl) (F (j := 2) (by decide) rfl) e9
  have b10 := fun s => RGo.table (s := s) (mem := mem) (p := p) (c := uc s6) hB hf hn hq h2 h3 h6 (F (j := 6) (by decide) rfl) (F (j := 7) (by decide) rfl) (F (j := 2) (by decide) rfl) e10
  have b11 := fun s => RGo.rev (s := s) (mem := mem) (p := p) (c := uc s6) hB hf hn hq h2 h3 h6 (F (j := 6) (by decide) rfl) (F (j := 7) (by decide) rfl) (F (j := 2) (by decide) rfl) e11
  have b12 := fun s => RGo.table (s := s) (mem := mem) (p := p) (c := uc s6) hB hf hn hq h4 h5 h6 (F (j := 8) (by decide) rfl) (F (j := 9) (by decide) rfl) (F (j := 2) (by decide) rfl) e12
  have b13 := fun s => RGo.rev (s := s) (mem := mem) (p := p) (c := uc s6) hB hf hn hq h4 h5 h6 (F (j := 8) (by decide) rfl) (F (j := 9) (by decide) rfl) (F (j := 2) (by decide) rfl) e13
  have hm' : ∀ u, setMem mem f (file u) p = nats .u32 #[q, k, inv_k, n, inv_n, log, psi, phi, inv_psi, inv_phi] := fun u => (setMem_ne hp).trans hm
  have hend : ∀ w, Ex P G (.seq (.free n!"table") .skip) (E (rgv sp p f n q (uc s6)) (tmem mem f sp t13 w))
      (E (upd (rgv sp p f n q (uc s6)) n!"table" (.int .u32 none)) (setMem (setMem mem sp ⟨.u32, #[]⟩) f (file w))) := fun w => by
    have := Ex.free (P := P) (G := G) (mem := tmem mem f sp t13 w) (l := rgv sp p f n q (uc s6)) (x := n!"table") (o := sp) rfl
    rw [tmem_at hf] at this
    have e : setMem (tmem mem f sp t13 w) sp ⟨.u32, #[]⟩ = setMem (setMem mem sp ⟨.u32, #[]⟩) f (file w) := by
      have := tmem_table (mem := mem) (t := t13) (t' := #[]) (u := w) hf
      unfold tmem at this ⊢
      rwa [show nats .u32 #[] = ⟨.u32, #[]⟩ from by simp [nats]] at this
    exact Ex.seq this (by rw [show setMem (tmem mem f sp t13 w) sp ⟨(nats .u32 t13).ty, #[]⟩ = _ from e]; exact Ex.skip _)
  have hstart : setMem (setMem mem f (file u)) sp (fresh .u32 n (setMem mem f (file u) sp)) = tmem mem f sp buf (u ++ []) := by
    rw [setMem_ne (Ne.symm hf), hb, List.append_nil]
    unfold tmem
    exact setMem_comm mem hf _ _
  rw [hs]
  refine CallsFrom.mk (l' := upd (rgv sp p f n q (uc s6)) n!"table" (.int .u32 none)) hP (bind_two (by decide)) (by rfl) ?_
  refine Ex.seq Ex.declTo (Ex.seq (Ex.seq Ex.declTo (Ex.seq Ex.declTo Ex.declTo)) (Ex.seq (Ex.asgu (v := n) (o := none) (Ev.natAt (k := 3) (Ev.v rfl (cellVal_ptr p 0 1)) (Ev.num (by decide)) (hm' u) rfl) rfl hn)
    (Ex.seq (Ex.asgu (v := q) (o := none) (Ev.natAt (k := 0) (Ev.v rfl (cellVal_ptr p 0 1)) (Ev.num (by decide)) (hm' u) rfl) rfl hq)
    (Ex.seq (Ex.alloc (n := n) (Ev.v rfl (cellVal_int _ _)) rfl) ?_))))
  rw [hstart]
  refine Ex.seq (Ex.ite (v := false) (Ev.null (o := sp) (k := 0) (w := 1) rfl) (Ex.skip _)) (Ex.seq (g0 u) (Ex.seq (g1 u)
    (Ex.seq (b1 _ u) (Ex.seq (p1' _ u) (Ex.seq (b2 _ u) (Ex.seq (p2' _ u) (Ex.seq (b3 _ u) (Ex.seq (p3' _ u) (Ex.seq (r8 _) (Ex.seq (b4 _ u) (Ex.seq (p4' _ u) 
    (Ex.seq (r6 _) (Ex.seq (b5 _ u) (Ex.seq (p5' _ u) (Ex.seq (b6 _ u) (Ex.seq (p6' _ u) (Ex.seq (b7 _ u) (Ex.seq (p7' _ u) (Ex.seq (b8 _ u) (Ex.seq (p8' _ u) 
    (Ex.seq (b9 _ u) (Ex.seq (p9' _ u) (Ex.seq (b10 _ u) (Ex.seq (p10' _ u) (Ex.seq (b11 _ u) (Ex.seq (p11' _ u) (Ex.seq (b12 _ u) (Ex.seq (p12' _ u) 
    (Ex.seq (b13 _ u) (Ex.seq (p13' _ u) (hend _)))))))))))))))))))))))))))))))

end CLang.Gen
