import Verif.Proofs.CPrintRed
import Verif.Proofs.CRunProd

/-
`print_tables` of src/make_tables.c, as read from the text.
-/

namespace CLang
open C Spec Spec.CText TableFiles

variable {P : Prog} {G : Name → Option Cell} {mem : Nat → Obj} {f sp : Nat} {l : List (Name × Cell)}

/-! ### malloc and free -/

theorem fresh_u32 (n : Nat) (o : Obj) : ∃ a : Array Nat, a.size = n ∧ fresh .u32 n o = nats .u32 a := by
  refine ⟨(Array.range n).map fun i => (conv .u32 (o.data.getD i 0)).toNat, by simp, ?_⟩
  unfold fresh nats
  congr 1
  rw [Array.map_map]
  refine Array.map_congr_left fun i _ => ?_
  have : 0 ≤ conv .u32 (o.data.getD i 0) := Int.emod_nonneg _ (by decide)
  simp only [Function.comp_apply]
  omega

theorem Ex.alloc {x : Name} {t : Ty} {e : Expr} {n k w : Nat} (he : Ev P G e (E l mem) (.int .u32 (n : Nat))) (h0 : look l 0 = some (.ptr sp k w)) :
    Ex P G (.alloc x t e) (E l mem) (E (upd (upd l 0 (.ptr (sp + 1) 0 1)) x (.ptr sp 0 1)) (setMem mem sp (fresh t n (mem sp)))) := by
  obtain ⟨N, hN⟩ := he
  refine ⟨N + 1, fun k hk => ?_⟩
  obtain ⟨g, rfl⟩ := Nat.exists_eq_add_of_le' (show 1 ≤ k by omega)
  rw [exec, hN g (by omega), ok_bind]
  show (match Val.int .u32 (n : Int), look l 0 with
    | .int .u32 n, some (.ptr sp _ _) => Except.ok (none, (⟨setEnv (setEnv (look l) 0 (.ptr (sp + 1) 0 1)) x (.ptr sp 0 1), setMem mem sp (fresh t n.toNat (mem sp))⟩ : State))
    | _, _ => (.error .abort : M (Option Val × State))) = _
  rw [h0]
  show Except.ok (none, (⟨setEnv (setEnv (look l) 0 (.ptr (sp + 1) 0 1)) x (.ptr sp 0 1), setMem mem sp (fresh t (n : Int).toNat (mem sp))⟩ : State)) = _
  rw [setEnv_look, setEnv_look, Int.toNat_natCast]

theorem Ex.free {x : Name} {o : Nat} (hx : look l x = some (.ptr o 0 1)) :
    Ex P G (.free x) (E l mem) (E (upd l x (.int (mem o).ty none)) (setMem mem o ⟨(mem o).ty, #[]⟩)) := by
  refine Ex.mk 1 fun g => ?_
  rw [exec]
  show (match look l x with
    | some (.ptr o 0 1) => Except.ok (none, (⟨setEnv (look l) x (.int (mem o).ty none), setMem mem o ⟨(mem o).ty, #[]⟩⟩ : State))
    | _ => (.error .abort : M (Option Val × State))) = _
  rw [hx]
  show Except.ok (none, (⟨setEnv (look l) x (.int (mem o).ty none), setMem mem o ⟨(mem o).ty, #[]⟩⟩ : State)) = _
  rw [setEnv_look]

theorem Ev.null {x : Name} {o k w : Nat} (hx : look l x = some (.ptr o k w)) : Ev P G (.bin .eq (.var x) (.num 0)) (E l mem) (truth false) := by
  refine Ev.mk 2 fun g => ?_
  rw [eval, eval, eval]
  show ((cellVal ((look l x).or (G x)) >>= fun x => (Except.ok (Val.int .i32 0) : M Val) >>= fun y => binopAt mem .eq x y) : M Val) = _
  rw [hx]
  rfl

theorem Ex.declTo {t : Ty} {x : Name} : Ex P G (.decl t x) (E l mem) (E (upd l x (.int t none)) mem) := by
  refine Ex.mk 1 fun g => ?_
  rw [exec]
  show Except.ok (none, (⟨setEnv (look l) x (.int t none), mem⟩ : State)) = _
  rw [setEnv_look]

theorem CallsFrom.mk {g : Name} {vs : List Val} {fn : Fun} {l' : List (Name × Cell)} {mem' : Nat → Obj} (hg : P.lookup g = some fn)
    (hb : bindParams fn.params vs = .ok (look l)) (ha : fn.body.addr = true) (h : Ex P G fn.body (E (upd l 0 (.ptr sp 0 1)) mem) (E l' mem')) :
    CallsFrom P G sp g vs mem mem' := by
  obtain ⟨N, hN⟩ := h
  refine ⟨N, fun k hk => ?_⟩
  have e : withStack fn sp (look l) = look (upd l 0 (.ptr sp 0 1)) := by rw [withStack, if_pos ha, setEnv_look]
  unfold callFrom
  rw [hg]
  simp only [hb, ok_bind]
  rw [e, hN k hk]
  rfl

/-! ### Statements that fill the table or print -/

/-- The memory: the table `sp` contains `t`, the file `f` contains `u`. -/
def tmem (mem : Nat → Obj) (f sp : Nat) (t : Array Nat) (u : Text) : Nat → Obj := setMem (setMem mem sp (nats .u32 t)) f (file u)

/-- From the table `t` and the text `s` to the table `t'` and the text `s'`. -/
def Go (P : Prog) (G : Name → Option Cell) (mem : Nat → Obj) (f sp : Nat) (l : List (Name × Cell)) (a : Stmt) (t : Array Nat) (s : Text)
    (t' : Array Nat) (s' : Text) : Prop :=
  ∀ u, Ex P G a (E l (tmem mem f sp t (u ++ s))) (E l (tmem mem f sp t' (u ++ s')))

theorem Go.seq {a b : Stmt} {t t' t'' : Array Nat} {s s' s'' : Text} (ha : Go P G mem f sp l a t s t' s') (hb : Go P G mem f sp l b t' s' t'' s'') :
    Go P G mem f sp l (.seq a b) t s t'' s'' := fun u => Ex.seq (ha u) (hb u)

theorem tmem_table {t t' : Array Nat} {u : Text} (h : f ≠ sp) : setMem (tmem mem f sp t u) sp (nats .u32 t') = tmem mem f sp t' u := by
  unfold tmem
  funext o
  unfold setMem
  by_cases h1 : o = sp
  · subst h1
    rw [if_pos rfl, if_neg (Ne.symm h), if_pos rfl]
  · rw [if_neg h1]
    by_cases h2 : o = f
    · rw [if_pos h2, if_pos h2]
    · rw [if_neg h2, if_neg h2, if_neg h1, if_neg h1]

theorem tmem_at {t : Array Nat} {u : Text} (h : f ≠ sp) : tmem mem f sp t u sp = nats .u32 t := by
  unfold tmem setMem
  rw [if_neg (Ne.symm h), if_pos rfl]

theorem Go.build {g : Name} {args : Expr} {vs : List Val} {t t' : Array Nat} {s : Text} (h : f ≠ sp)
    (hc : ∀ u, Calls P G g vs (tmem mem f sp t u) (setMem (tmem mem f sp t u) sp (nats .u32 t')))
    (ha : ∀ u, EvA P G args (E l (tmem mem f sp t u)) vs) : Go P G mem f sp l (.expr (.call g args)) t s t' s := fun u => by
  have := hc (u ++ s)
  rw [tmem_table h] at this
  exact Ex.call (ha _) this

theorem Go.ap {a : Stmt} {t : Array Nat} {s s' : Text} (h : Ap P G (setMem mem sp (nats .u32 t)) f l a s') : Go P G mem f sp l a t s t (s ++ s') := fun u => by
  have := h (u ++ s)
  rw [List.append_assoc] at this
  exact this

namespace Gen
open Tables

/-- The variables of `print_tables`. -/
def gv (sp p f n q : Nat) : List (Name × Cell) :=
  [(n!"p", .ptr p 0 1), (n!"f", .ptr f 0 1), (0, .ptr (sp + 1) 0 1), (n!"table", .ptr sp 0 1), (n!"n", uc n), (n!"q", uc q)]

variable {p n q : Nat}

/-- The functions that are called. -/
structure BuildFuns (P : Prog) : Prop where
  power : P.lookup n!"power" = some Src.make_tables.power
  reverse : P.lookup n!"reverse" = some Src.make_tables.reverse
  powers : P.lookup n!"build_power_table" = some Src.make_tables.build_power_table
  table : P.lookup n!"build_table" = some Src.make_tables.build_table
  rev : P.lookup n!"build_rev_table" = some Src.make_tables.build_rev_table

theorem gfield {k v : Nat} {a : Array Nat} {t : Array Nat} {u : Text} (hp : p ≠ f) (hps : p ≠ sp) (hm : mem p = nats .u32 a)
    (hk : k ≤ 2147483647) (h : rd a k = .ok v) : Ev P G (.idx (.var n!"p") (.num k)) (E (gv sp p f n q) (tmem mem f sp t u)) (.int .u32 (v : Nat)) :=
  Gen.field rfl hp (by rw [setMem_ne hps]; exact hm) hk h

theorem Go.powers {ex ey : Expr} {tx ty : Ty} {x y : Nat} {t t' : Array Nat} {s : Text} (hB : BuildFuns P) (hf : f ≠ sp)
    (hn : n < 4294967296) (hq : q < 4294967296) (hx : x < 4294967296) (hy : y < 4294967296)
    (hex : ∀ u, Ev P G ex (E (gv sp p f n q) (tmem mem f sp t u)) (.int tx (x : Nat)))
    (hey : ∀ u, Ev P G ey (E (gv sp p f n q) (tmem mem f sp t u)) (.int ty (y : Nat))) (h : build_power_table t n q x y = .ok t') :
    Go P G mem f sp (gv sp p f n q) (.expr (.call n!"build_power_table" (.cons (.var n!"table") (.cons (.var n!"n") (.cons (.var n!"q") (.cons ex (.cons ey .nil))))))) t s t' s :=
  Go.build hf (fun _ => build_power_table_calls hB.powers (tmem_at hf) hn hq hx hy h) fun u =>
    EvA.cons (Ev.v rfl (cellVal_ptr sp 0 1)) (EvA.cons (Ev.v rfl (cellVal_int _ _)) (EvA.cons (Ev.v rfl (cellVal_int _ _)) (EvA.cons (hex u) (EvA.cons (hey u) (EvA.nil _)))))

theorem Go.table {ex ey : Expr} {tx ty : Ty} {x y : Nat} {t t' : Array Nat} {s : Text} (hB : BuildFuns P) (hf : f ≠ sp)
    (hn : n < 4294967296) (hq : q < 4294967296) (hx : x < 4294967296) (hy : y < 4294967296)
    (hex : ∀ u, Ev P G ex (E (gv sp p f n q) (tmem mem f sp t u)) (.int tx (x : Nat)))
    (hey : ∀ u, Ev P G ey (E (gv sp p f n q) (tmem mem f sp t u)) (.int ty (y : Nat))) (h : build_table t n q x y none = .ok t') :
    Go P G mem f sp (gv sp p f n q) (.expr (.call n!"build_table" (.cons (.var n!"table") (.cons (.var n!"n") (.cons (.var n!"q") (.cons ex (.cons ey .nil))))))) t s t' s :=
  Go.build hf (fun _ => build_table_calls hB.power hB.table (tmem_at hf) hn hq hx hy h) fun u =>
    EvA.cons (Ev.v rfl (cellVal_ptr sp 0 1)) (EvA.cons (Ev.v rfl (cellVal_int _ _)) (EvA.cons (Ev.v rfl (cellVal_int _ _)) (EvA.cons (hex u) (EvA.cons (hey u) (EvA.nil _)))))

theorem Go.rev {ex ey : Expr} {tx ty : Ty} {x y : Nat} {t t' : Array Nat} {s : Text} (hB : BuildFuns P) (hf : f ≠ sp)
    (hn : n < 4294967296) (hq : q < 4294967296) (hx : x < 4294967296) (hy : y < 4294967296)
    (hex : ∀ u, Ev P G ex (E (gv sp p f n q) (tmem mem f sp t u)) (.int tx (x : Nat)))
    (hey : ∀ u, Ev P G ey (E (gv sp p f n q) (tmem mem f sp t u)) (.int ty (y : Nat))) (h : build_rev_table t n q x y none = .ok t') :
    Go P G mem f sp (gv sp p f n q) (.expr (.call n!"build_rev_table" (.cons (.var n!"table") (.cons (.var n!"n") (.cons (.var n!"q") (.cons ex (.cons ey .nil))))))) t s t' s :=
  Go.build hf (fun _ => build_rev_table_calls hB.power hB.reverse hB.rev (tmem_at hf) hn hq hx hy h) fun u =>
    EvA.cons (Ev.v rfl (cellVal_ptr sp 0 1)) (EvA.cons (Ev.v rfl (cellVal_int _ _)) (EvA.cons (Ev.v rfl (cellVal_int _ _)) (EvA.cons (hex u) (EvA.cons (hey u) (EvA.nil _)))))

theorem Go.print {x : Name} {name : Text} {t : Array Nat} {s s' : Text} (hP : P.lookup n!"print_table" = some Src.make_tables.print_table) (hf : f ≠ sp)
    (hL : Literals G mem f) (hG : ∀ x o k w, G x = some (.ptr o k w) → o ≠ sp) (hn : n < 4294967296)
    (hx : look (gv sp p f n q) x = none) (hnm : nameOf ('"' :: name) = x) (hpl : ∀ c ∈ name, 0 < c.toNat ∧ c.toNat < 256) (h : TableFiles.print_table name t n = .ok s') :
    Go P G mem f sp (gv sp p f n q) (.expr (.call n!"print_table" (.cons (.var n!"f") (.cons (.var x) (.cons (.var n!"table") (.cons (.var n!"n") .nil)))))) t s t (s ++ s') := by
  obtain ⟨o, ho, hg, hm⟩ := hL.get x hpl hnm
  have hos := hG _ _ _ _ hg
  exact Go.ap (Ap.call (print_table_pr hP (Ne.symm hf) (setMem_self _ _ _) ho ((setMem_ne hos).trans hm) (Plain.ne hpl) hn h) fun u =>
    EvA.cons (Ev.v rfl (cellVal_ptr f 0 1)) (EvA.cons (Ev.literal hx hg (cellVal_ptr o 0 1)) (EvA.cons (Ev.v rfl (cellVal_ptr sp 0 1)) (EvA.cons (Ev.v rfl (cellVal_int _ _)) (EvA.nil _)))))

theorem Go.one {t : Array Nat} {u : Text} : Ev P G (.num 1) (E (gv sp p f n q) (tmem mem f sp t u)) (.int .i32 ((1 : Nat) : Int)) := Ev.num (by decide)

theorem print_tables_pr {inv_n log psi phi inv_psi inv_phi : Nat} {s : Text} (hF : PrintFuns P) (hB : BuildFuns P)
    (hP : P.lookup n!"print_tables" = some Src.make_tables.print_tables) (hf : f ≠ sp) (hp : p ≠ f) (hps : p ≠ sp) (hL : Literals G mem f)
    (hG : ∀ x o k w, G x = some (.ptr o k w) → o ≠ sp) (hm : mem p = nats .u32 #[q, n, inv_n, log, psi, phi, inv_psi, inv_phi])
    (hn : n < 4294967296) (hq : q < 4294967296) (h1 : inv_n < 4294967296) (h2 : psi < 4294967296) (h3 : phi < 4294967296)
    (h4 : inv_psi < 4294967296) (h5 : inv_phi < 4294967296) {buf : Array Nat} (hb : fresh .u32 n (mem sp) = nats .u32 buf)
    (h : TableFiles.print_tables buf q n inv_n psi phi inv_psi inv_phi = .ok s) (u : Text) :
    CallsFrom P G sp n!"print_tables" [.ptr f 0 1, .ptr p 0 1] (setMem mem f (file u)) (setMem (setMem mem sp ⟨.u32, #[]⟩) f (file (u ++ s))) := by
  unfold TableFiles.print_tables at h
  simp only [CLang.bind_ok, pure_ok] at h
  obtain ⟨t1, e1, p1, f1, t2, e2, p2, f2, t3, e3, p3, f3, t4, e4, p4, f4, t5, e5, p5, f5, t6, e6, p6, f6, t7, e7, p7, f7, t8, e8, p8, f8,
    t9, e9, p9, f9, t10, e10, p10, f10, t11, e11, p11, f11, t12, e12, p12, f12, hs⟩ := h
  have g0 : Go P G mem f sp (gv sp p f n q) (.expr (.call n!"print_header" (.cons (.var n!"f") (.cons (.var n!"p") .nil)))) buf [] buf
      (TableFiles.print_header q n psi phi inv_psi inv_phi inv_n) :=
    Go.ap (s := []) (Ap.call (print_header_pr hF.header hp ((setMem_ne hps).trans hm)) fun u =>
      EvA.cons (Ev.v rfl (cellVal_ptr f 0 1)) (EvA.cons (Ev.v rfl (cellVal_ptr p 0 1)) (EvA.nil _)))
  have g1 : Go P G mem f sp (gv sp p f n q) (.print (.var n!"f") [.lit n!"#include \"ntt", .u 0, .lit n!"_tables.h\"\n\n"] (.cons (.var n!"n") .nil)) buf
      (TableFiles.print_header q n psi phi inv_psi inv_phi inv_n) buf (TableFiles.print_header q n psi phi inv_psi inv_phi inv_n ++
        (c!"#include \"ntt" ++ pu32 n ++ c!"_tables.h\"\n\n")) := by
    refine Go.ap (Ap.print rfl fun t => ⟨_, EvA.cons (Ev.v rfl (cellVal_int _ _)) (EvA.nil _), ?_⟩)
    have := Fm.lit (mem := setMem (setMem mem sp (nats .u32 buf)) f (file t)) (t := n!"#include \"ntt") c!"#include \"ntt" (by decide +kernel) (Fm.u (n := n)
      (Fm.lit (t := n!"_tables.h\"\n\n") c!"_tables.h\"\n\n" (by decide +kernel) Fm.nil))
    simpa only [List.append_nil, List.append_assoc] using this
  have F : ∀ {k v : Nat} {t : Array Nat}, k ≤ 2147483647 → rd #[q, n, inv_n, log, psi, phi, inv_psi, inv_phi] k = .ok v → ∀ u : Text,
    Ev P G (.idx (.var n!"p") (.num k)) (E (gv sp p f n q) (tmem mem f sp t u)) (.int .u32 (v : Nat)) := fun hk h u => gfield hp hps hm hk h
  have p1' := fun s => Go.print (s := s) (p := p) (q := q) (x := n!"\"psi_powers") hF.table hf hL hG hn rfl (by rfl) (by decide +kernel) f1
  have p2' := fun s => Go.print (s := s) (p := p) (q := q) (x := n!"\"inv_psi_powers") hF.table hf hL hG hn rfl (by rfl) (by decide +kernel) f2
  have p3' := fun s => Go.print (s := s) (p := p) (q := q) (x := n!"\"inv_psi_powers_rev") hF.table hf hL hG hn rfl (by rfl) (by decide +kernel) f3
  have p4' := fun s => Go.print (s := s) (p := p) (q := q) (x := n!"\"scaled_inv_psi_powers") hF.table hf hL hG hn rfl (by rfl) (by decide +kernel) f4
  have p5' := fun s => Go.print (s := s) (p := p) (q := q) (x := n!"\"omega_powers") hF.table hf hL hG hn rfl (by rfl) (by decide +kernel) f5
  have p6' := fun s => Go.print (s := s) (p := p) (q := q) (x := n!"\"omega_powers_rev") hF.table hf hL hG hn rfl (by rfl) (by decide +kernel) f6
  have p7' := fun s => Go.print (s := s) (p := p) (q := q) (x := n!"\"inv_omega_powers") hF.table hf hL hG hn rfl (by rfl) (by decide +kernel) f7
  have p8' := fun s => Go.print (s := s) (p := p) (q := q) (x := n!"\"inv_omega_powers_rev") hF.table hf hL hG hn rfl (by rfl) (by decide +kernel) f8
  have p9' := fun s => Go.print (s := s) (p := p) (q := q) (x := n!"\"mixed_powers") hF.table hf hL hG hn rfl (by rfl) (by decide +kernel) f9
  have p10' := fun s => Go.print (s := s) (p := p) (q := q) (x := n!"\"mixed_powers_rev") hF.table hf hL hG hn rfl (by rfl) (by decide +kernel) f10
  have p11' := fun s => Go.print (s := s) (p := p) (q := q) (x := n!"\"inv_mixed_powers") hF.table hf hL hG hn rfl (by rfl) (by decide +kernel) f11
  have p12' := fun s => Go.print (s := s) (p := p) (q := q) (x := n!"\"inv_mixed_powers_rev") hF.table hf hL hG hn rfl (by rfl) (by decide +kernel) f12
  have one : (1 : Nat) < 4294967296 := by decide
  have b1 := fun s => Go.powers (s := s) (mem := mem) (p := p) hB hf hn hq one h2 (fun _ => Go.one) (F (k := 4) (by decide) rfl) e1
  have b2 := fun s => Go.powers (s := s) (mem := mem) (p := p) hB hf hn hq one h4 (fun _ => Go.one) (F (k := 6) (by decide) rfl) e2
  have b3 := fun s => Go.rev (s := s) (mem := mem) (p := p) hB hf hn hq one h4 (fun _ => Go.one) (F (k := 6) (by decide) rfl) e3
  have b4 := fun s => Go.powers (s := s) (mem := mem) (p := p) hB hf hn hq h1 h4 (F (k := 2) (by decide) rfl) (F (k := 6) (by decide) rfl) e4
  have b5 := fun s => Go.table (s := s) (mem := mem) (p := p) hB hf hn hq one h3 (fun _ => Go.one) (F (k := 5) (by decide) rfl) e5
  have b6 := fun s => Go.rev (s := s) (mem := mem) (p := p) hB hf hn hq one h3 (fun _ => Go.one) (F (k := 5) (by decide) rfl) e6
  have b7 := fun s => Go.table (s := s) (mem := mem) (p := p) hB hf hn hq one h5 (fun _ => Go.one) (F (k := 7) (by decide) rfl) e7
  have b8 := fun s => Go.rev (s := s) (mem := mem) (p := p) hB hf hn hq one h5 (fun _ => Go.one) (F (k := 7) (by decide) rfl) e8
  have b9 := fun s => Go.table (s := s) (mem := mem) (p := p) hB hf hn hq h2 h3 (F (k := 4) (by decide) rfl) (F (k := 5) (by decide) rfl) e9
  have b10 := fun s => Go.rev (s := s) (mem := mem) (p := p) hB hf hn hq h2 h3 (F (k := 4) (by decide) rfl) (F (k := 5) (by decide) rfl) e10
  have b11 := fun s => Go.table (s := s) (mem := mem) (p := p) hB hf hn hq h4 h5 (F (k := 6) (by decide) rfl) (F (k := 7) (by decide) rfl) e11
  have b12 := fun s => Go.rev (s := s) (mem := mem) (p := p) hB hf hn hq h4 h5 (F (k := 6) (by decide) rfl) (F (k := 7) (by decide) rfl) e12
  have hm' : ∀ u, setMem mem f (file u) p = nats .u32 #[q, n, inv_n, log, psi, phi, inv_psi, inv_phi] := fun u => (setMem_ne hp).trans hm
  have hend : ∀ w, Ex P G (.seq (.free n!"table") .skip) (E (gv sp p f n q) (tmem mem f sp t12 w))
      (E (upd (gv sp p f n q) n!"table" (.int .u32 none)) (setMem (setMem mem sp ⟨.u32, #[]⟩) f (file w))) := fun w => by
    have := Ex.free (P := P) (G := G) (mem := tmem mem f sp t12 w) (l := gv sp p f n q) (x := n!"table") (o := sp) rfl
    rw [tmem_at hf] at this
    have e : setMem (tmem mem f sp t12 w) sp ⟨.u32, #[]⟩ = setMem (setMem mem sp ⟨.u32, #[]⟩) f (file w) := by
      have := tmem_table (mem := mem) (t := t12) (t' := #[]) (u := w) hf
      unfold tmem at this ⊢
      rwa [show nats .u32 #[] = ⟨.u32, #[]⟩ from by simp [nats]] at this
    exact Ex.seq this (by rw [show setMem (tmem mem f sp t12 w) sp ⟨(nats .u32 t12).ty, #[]⟩ = _ from e]; exact Ex.skip _)
  have hstart : setMem (setMem mem f (file u)) sp (fresh .u32 n (setMem mem f (file u) sp)) = tmem mem f sp buf (u ++ []) := by
    rw [setMem_ne (Ne.symm hf), hb, List.append_nil]
    unfold tmem
    exact setMem_comm mem hf _ _
  rw [hs]
  refine CallsFrom.mk (l' := upd (gv sp p f n q) n!"table" (.int .u32 none)) hP (bind_two (by decide)) (by rfl) ?_
  refine Ex.seq Ex.declTo (Ex.seq (Ex.seq Ex.declTo Ex.declTo) (Ex.seq (Ex.asgu (v := n) (o := none) (Ev.natAt (k := 1) (Ev.v rfl (cellVal_ptr p 0 1)) (Ev.num (by decide)) (hm' u) rfl) rfl hn)
    (Ex.seq (Ex.asgu (v := q) (o := none) (Ev.natAt (k := 0) (Ev.v rfl (cellVal_ptr p 0 1)) (Ev.num (by decide)) (hm' u) rfl) rfl hq)
    (Ex.seq (Ex.alloc (n := n) (Ev.v rfl (cellVal_int _ _)) rfl) ?_))))
  rw [hstart]
  refine Ex.seq (Ex.ite (v := false) (Ev.null (o := sp) (k := 0) (w := 1) rfl) (Ex.skip _)) (Ex.seq (g0 u) (Ex.seq (g1 u)
    (Ex.seq (b1 _ u) (Ex.seq (p1' _ u) (Ex.seq (b2 _ u) (Ex.seq (p2' _ u) (Ex.seq (b3 _ u) (Ex.seq (p3' _ u) (Ex.seq (b4 _ u) (Ex.seq (p4' _ u)
    (Ex.seq (b5 _ u) (Ex.seq (p5' _ u) (Ex.seq (b6 _ u) (Ex.seq (p6' _ u) (Ex.seq (b7 _ u) (Ex.seq (p7' _ u) (Ex.seq (b8 _ u) (Ex.seq (p8' _ u)
    (Ex.seq (b9 _ u) (Ex.seq (p9' _ u) (Ex.seq (b10 _ u) (Ex.seq (p10' _ u) (Ex.seq (b11 _ u) (Ex.seq (p11' _ u) (Ex.seq (b12 _ u) (Ex.seq (p12' _ u) (hend _)))))))))))))))))))))))))))

end Gen
end CLang
