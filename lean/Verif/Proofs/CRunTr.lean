import Verif.Proofs.CRunSkel

/-
Functions made of the loops of `Verif/Proofs/CRunSkel.lean`, and butterflies.
-/

namespace CLang
open C NTT

section
variable {P : Prog} {G : Name → Option Cell}

/-! ### Declarations -/

/-- The statement declares the variables of `D` and does nothing else. -/
def Decls (P : Prog) (G : Name → Option Cell) (s : Stmt) (D : List (Name × Ty)) : Prop :=
  ∀ env mem, ∃ env', Ex P G s ⟨env, mem⟩ ⟨env', mem⟩ ∧ (∀ y, y ∉ D.map Prod.fst → env' y = env y) ∧ ∀ d ∈ D, env' d.1 = some (.int d.2 none)

theorem Decls.one (t : Ty) (x : Name) : Decls P G (.decl t x) [(x, t)] := by
  intro env mem
  refine ⟨setEnv env x (.int t none), Ex.mk 1 fun f => by simp only [crun], fun y hy => setEnv_ne fun e => hy ?_, fun d hd => ?_⟩
  · subst e; exact List.mem_singleton.mpr rfl
  · rw [List.mem_singleton] at hd; subst hd; exact setEnv_self _ _ _

theorem Decls.seq {s s' : Stmt} {D D' : List (Name × Ty)} (h : Decls P G s D) (h' : Decls P G s' D') (hd : ∀ d ∈ D, d.1 ∉ D'.map Prod.fst) :
    Decls P G (.seq s s') (D ++ D') := by
  intro env mem
  obtain ⟨e1, x1, k1, d1⟩ := h env mem
  obtain ⟨e2, x2, k2, d2⟩ := h' e1 mem
  refine ⟨e2, Ex.seq x1 x2, fun y hy => ?_, fun d hd' => ?_⟩
  · rw [List.map_append, List.mem_append, not_or] at hy
    rw [k2 y hy.2, k1 y hy.1]
  · rcases List.mem_append.mp hd' with hd' | hd'
    · rw [k2 _ (hd d hd'), d1 d hd']
    · exact d2 d hd'

/-- A function that declares the variables of `D` and changes object `o`. -/
theorem Calls.tr {g : Name} {fn : Fun} {vs : List Val} {env : Name → Option Cell} {dA dB body : Stmt} {D D₁ D₂ : List (Name × Ty)} {o : Nat}
    {a a' : Array Int} {mem : Nat → Obj} (hg : P.lookup g = some fn) (hfn : fn.body = .seq dA (.seq dB body))
    (henv : bindParams fn.params vs = .ok env) (hdA : Decls P G dA D₁) (hdB : Decls P G dB D₂) (hd : ∀ d ∈ D₁, d.1 ∉ D₂.map Prod.fst)
    (hD : ∀ d ∈ D, d ∈ D₁ ++ D₂) (hD' : ∀ d ∈ D₁ ++ D₂, d.1 ∈ D.map Prod.fst) (hm : mem o = ⟨.i32, a⟩) (ha : Wf a)
    (hsim : ∀ st, st.mem = mem → (∀ y, y ∉ D.map Prod.fst → st.env y = env y) → Inv D st o a st → ∃ st', Ex P G body st st' ∧ Inv D st o a' st') :
    Calls P G g vs mem (setMem mem o ⟨.i32, a'⟩) ∧ Wf a' := by
  obtain ⟨e1, x1, k1, d1⟩ := hdA env mem
  obtain ⟨e2, x2, k2, d2⟩ := hdB e1 mem
  have hk : ∀ y, y ∉ D.map Prod.fst → e2 y = env y := by
    intro y hy
    rw [k2 y fun h => hy ?_, k1 y fun h => hy ?_]
    · obtain ⟨d, h1, rfl⟩ := List.mem_map.mp h
      exact hD' d (List.mem_append_left _ h1)
    · obtain ⟨d, h1, rfl⟩ := List.mem_map.mp h
      exact hD' d (List.mem_append_right _ h1)
  have hI : Inv D ⟨e2, mem⟩ o a ⟨e2, mem⟩ := by
    refine Inv.refl (fun d hd' => ⟨none, ?_⟩) hm ha
    rcases List.mem_append.mp (hD d hd') with h | h
    · exact (k2 _ (hd d h)).trans (d1 d h)
    · exact d2 d h
  obtain ⟨st', x3, hI'⟩ := hsim ⟨e2, mem⟩ rfl hk hI
  have h3 := hI'.mem
  simp only at h3
  rw [← h3]
  refine ⟨Calls.mk hg henv ?_, hI'.wf⟩
  rw [hfn]
  exact Ex.seq x1 (Ex.seq x2 x3)

/-! ### Transforms -/

variable {o op n : Nat} {tp : Ty} {p : Array Int} {kq : Option Cell}

/-- The parameters at the start. -/
structure Par (o op n : Nat) (kq : Option Cell) (env : Name → Option Cell) : Prop where
  ea : env n!"a" = some (.ptr o 0 1)
  en : env n!"n" = cu n
  ep : env n!"p" = some (.ptr op 0 1)
  eq : env n!"q" = kq

theorem Cx.init {D : List (Name × Ty)} {env : Name → Option Cell} {mem : Nat → Obj} {st : State} (hn : n < 4294967296) (hop : op ≠ o)
    (hmp : mem op = ⟨tp, p⟩) (hp : Wf p) (he : Par o op n kq env)
    (hD : n!"a" ∉ D.map Prod.fst ∧ n!"n" ∉ D.map Prod.fst ∧ n!"p" ∉ D.map Prod.fst ∧ n!"q" ∉ D.map Prod.fst)
    (hm : st.mem = mem) (hk : ∀ y, y ∉ D.map Prod.fst → st.env y = env y) : Cx o op n tp p kq st :=
  ⟨(hk _ hD.1).trans he.ea, (hk _ hD.2.1).trans he.en, hn, (hk _ hD.2.2.1).trans he.ep, hop, by rw [hm]; exact hmp, hp, (hk _ hD.2.2.2).trans he.eq⟩

section
variable {g : Name} {fn : Fun} {vs : List Val} {env : Name → Option Cell} {dB : Stmt} {b0 b1 : Stmt}
  {bf0 : Nat → Nat → Array Int → M (Array Int)} {bf : Int → Nat → Nat → Array Int → M (Array Int)} {a a' : Array Int} {mem : Nat → Obj}

/-- `uint32_t j, s, t;` -/
abbrev declA : Stmt := .seq (.decl .u32 n!"j") (.seq (.decl .u32 n!"s") (.decl .u32 n!"t"))
/-- `uint32_t j, s, t, u, d;` -/
abbrev declB : Stmt := .seq (.decl .u32 n!"j") (.seq (.decl .u32 n!"s") (.seq (.decl .u32 n!"t") (.seq (.decl .u32 n!"u") (.decl .u32 n!"d"))))
/-- `uint32_t j, s, t, l;` -/
abbrev declV1 : Stmt := .seq (.decl .u32 n!"j") (.seq (.decl .u32 n!"s") (.seq (.decl .u32 n!"t") (.decl .u32 n!"l")))
/-- `int32_t x, w;` or `int32_t w, x;` -/
abbrev declX (x y : Name) : Stmt := .seq (.decl .i32 x) (.decl .i32 y)

theorem declA_ok : Decls P G declA [(n!"j", .u32), (n!"s", .u32), (n!"t", .u32)] :=
  (Decls.one _ _).seq ((Decls.one _ _).seq (Decls.one _ _) (by decide)) (by decide)
theorem declB_ok : Decls P G declB [(n!"j", .u32), (n!"s", .u32), (n!"t", .u32), (n!"u", .u32), (n!"d", .u32)] :=
  (Decls.one _ _).seq ((Decls.one _ _).seq ((Decls.one _ _).seq ((Decls.one _ _).seq (Decls.one _ _) (by decide)) (by decide)) (by decide)) (by decide)
theorem declV1_ok : Decls P G declV1 [(n!"j", .u32), (n!"s", .u32), (n!"t", .u32), (n!"l", .u32)] :=
  (Decls.one _ _).seq ((Decls.one _ _).seq ((Decls.one _ _).seq (Decls.one _ _) (by decide)) (by decide)) (by decide)
theorem declX_ok {x y : Name} (h : x ≠ y) : Decls P G (declX x y) [(x, .i32), (y, .i32)] :=
  (Decls.one _ _).seq (Decls.one _ _) (by
    intro d hd; rw [List.mem_singleton] at hd; subst hd; simpa using h)

/-- Order of the declarations of `x` and `w`. -/
def XW (dB : Stmt) : Prop := dB = declX n!"x" n!"w" ∨ dB = declX n!"w" n!"x"

theorem callsA {body : Stmt} (hx : XW dB) (hg : P.lookup g = some fn) (hfn : fn.body = .seq declA (.seq dB body))
    (henv : bindParams fn.params vs = .ok env) (hm : mem o = ⟨.i32, a⟩) (ha : Wf a)
    (hsim : ∀ st, st.mem = mem → (∀ y, y ∉ DT.map Prod.fst → st.env y = env y) → Inv DT st o a st → ∃ st', Ex P G body st st' ∧ Inv DT st o a' st') :
    Calls P G g vs mem (setMem mem o ⟨.i32, a'⟩) ∧ Wf a' := by
  rcases hx with rfl | rfl
  · exact Calls.tr hg hfn henv declA_ok (declX_ok (by decide)) (by decide) (by decide) (by decide) hm ha hsim
  · exact Calls.tr hg hfn henv declA_ok (declX_ok (by decide)) (by decide) (by decide) (by decide) hm ha hsim

theorem callsB {body : Stmt} (hx : XW dB) (hg : P.lookup g = some fn) (hfn : fn.body = .seq declB (.seq dB body))
    (henv : bindParams fn.params vs = .ok env) (hm : mem o = ⟨.i32, a⟩) (ha : Wf a)
    (hsim : ∀ st, st.mem = mem → (∀ y, y ∉ DTD.map Prod.fst → st.env y = env y) → Inv DTD st o a st → ∃ st', Ex P G body st st' ∧ Inv DTD st o a' st') :
    Calls P G g vs mem (setMem mem o ⟨.i32, a'⟩) ∧ Wf a' := by
  rcases hx with rfl | rfl
  · exact Calls.tr hg hfn henv declB_ok (declX_ok (by decide)) (by decide) (by decide) (by decide) hm ha hsim
  · exact Calls.tr hg hfn henv declB_ok (declX_ok (by decide)) (by decide) (by decide) (by decide) hm ha hsim

variable (hx : XW dB) (hg : P.lookup g = some fn) (henv : bindParams fn.params vs = .ok env) (hpar : Par o op n kq env) (hn : n < 4294967296)
  (hm : mem o = ⟨.i32, a⟩) (ha : Wf a) (hop : op ≠ o) (hmp : mem op = ⟨tp, p⟩) (hp : Wf p)
include hx hg henv hpar hn hm ha hop hmp hp

theorem ctRev2std_calls (hfn : fn.body = .seq declA (.seq dB (.seq (outerA (rndA b0 b1)) .skip))) (hb0 : SimBf0 P G kq b0 n!"t" bf0)
    (hb1 : SimBf P G kq b1 n!"t" bf) (h : ctRev2std bf0 bf a n p = .ok a') : Calls P G g vs mem (setMem mem o ⟨.i32, a'⟩) ∧ Wf a' := by
  refine callsA hx hg hfn henv hm ha fun st h1 h2 h3 => ?_
  obtain ⟨st', h4, h5⟩ := outerA_sim (P := P) (G := G) (fun st t a a' hC ht ht' hI hr => roundA_sim hb0 hb1 hC ht ht' hI hr)
    (Cx.init hn hop hmp hp hpar (by decide) h1 h2) h3 h
  exact ⟨st', Ex.seq h4 (Ex.skip _), h5⟩

theorem mulCtRev2std_calls (hfn : fn.body = .seq declA (.seq dB (.seq (outerA (rndAMul b1)) .skip)))
    (hb1 : SimBf P G kq b1 n!"t" bf) (h : mulCtRev2std bf a n p = .ok a') : Calls P G g vs mem (setMem mem o ⟨.i32, a'⟩) ∧ Wf a' := by
  refine callsA hx hg hfn henv hm ha fun st h1 h2 h3 => ?_
  obtain ⟨st', h4, h5⟩ := outerA_sim (P := P) (G := G) (fun st t a a' hC ht ht' hI hr => roundAMul_sim hb1 hC ht ht' hI hr)
    (Cx.init hn hop hmp hp hpar (by decide) h1 h2) h3 h
  exact ⟨st', Ex.seq h4 (Ex.skip _), h5⟩

theorem gsStd2rev_calls (hfn : fn.body = .seq declA (.seq dB (.seq (outerG (rndA b0 b1)) .skip))) (hb0 : SimBf0 P G kq b0 n!"t" bf0)
    (hb1 : SimBf P G kq b1 n!"t" bf) (h : gsStd2rev bf0 bf a n p = .ok a') : Calls P G g vs mem (setMem mem o ⟨.i32, a'⟩) ∧ Wf a' := by
  refine callsA hx hg hfn henv hm ha fun st h1 h2 h3 => ?_
  obtain ⟨st', h4, h5⟩ := outerG_sim (P := P) (G := G) (fun st t a a' hC ht ht' hI hr => roundA_sim hb0 hb1 hC ht ht' hI hr)
    (Cx.init hn hop hmp hp hpar (by decide) h1 h2) h3 h
  exact ⟨st', Ex.seq h4 (Ex.skip _), h5⟩

theorem gsMulStd2rev_calls (hfn : fn.body = .seq declA (.seq dB (.seq (outerG (rndAMul b1)) .skip)))
    (hb1 : SimBf P G kq b1 n!"t" bf) (h : gsMulStd2rev bf a n p = .ok a') : Calls P G g vs mem (setMem mem o ⟨.i32, a'⟩) ∧ Wf a' := by
  refine callsA hx hg hfn henv hm ha fun st h1 h2 h3 => ?_
  obtain ⟨st', h4, h5⟩ := outerG_sim (P := P) (G := G) (fun st t a a' hC ht ht' hI hr => roundAMul_sim hb1 hC ht ht' hI hr)
    (Cx.init hn hop hmp hp hpar (by decide) h1 h2) h3 h
  exact ⟨st', Ex.seq h4 (Ex.skip _), h5⟩

theorem ctStd2rev_calls (hfn : fn.body = .seq declB (.seq dB (outerB n!"d" n!"t" (rndBCt b0 b1)))) (hb0 : SimBf0 P G kq b0 n!"d" bf0)
    (hb1 : SimBf P G kq b1 n!"d" bf) (h : ctStd2rev bf0 bf a n p = .ok a') : Calls P G g vs mem (setMem mem o ⟨.i32, a'⟩) ∧ Wf a' := by
  refine callsB hx hg hfn henv hm ha fun st h1 h2 h3 => ?_
  simp only [ctStd2rev, bind_ok, pure_ok] at h
  obtain ⟨r, h, rfl⟩ := h
  exact outerCt_sim (P := P) (G := G) (rnd := roundBCt bf0 bf p) (fun st t d a a' hC ht ht' hd hd' hI hr => roundBCt_sim hb0 hb1 hC ht ht' hd hd' hI hr)
    (Cx.init hn hop hmp hp hpar (by decide) h1 h2) h3 h

theorem mulCtStd2rev_calls (hfn : fn.body = .seq declB (.seq dB (outerB n!"d" n!"t" (rndBMul b1))))
    (hb1 : SimBf P G kq b1 n!"d" bf) (h : mulCtStd2rev bf a n p = .ok a') : Calls P G g vs mem (setMem mem o ⟨.i32, a'⟩) ∧ Wf a' := by
  refine callsB hx hg hfn henv hm ha fun st h1 h2 h3 => ?_
  simp only [mulCtStd2rev, bind_ok, pure_ok] at h
  obtain ⟨r, h, rfl⟩ := h
  exact outerCt_sim (P := P) (G := G) (rnd := roundBMul bf p) (fun st t d a a' hC ht ht' hd hd' hI hr => roundBMul_sim hb1 hC ht ht' hd hd' hI hr)
    (Cx.init hn hop hmp hp hpar (by decide) h1 h2) h3 h

theorem gsRev2std_calls (hfn : fn.body = .seq declB (.seq dB (outerB n!"t" n!"d" (rndBGs b0 b1)))) (hb0 : SimBf0 P G kq b0 n!"d" bf0)
    (hb1 : SimBf P G kq b1 n!"d" bf) (h : gsRev2std bf0 bf a n p = .ok a') : Calls P G g vs mem (setMem mem o ⟨.i32, a'⟩) ∧ Wf a' := by
  refine callsB hx hg hfn henv hm ha fun st h1 h2 h3 => ?_
  simp only [gsRev2std, bind_ok, pure_ok] at h
  obtain ⟨r, h, rfl⟩ := h
  exact outerGs_sim (P := P) (G := G) (rnd := roundBGs bf0 bf p) (fun st t d a a' hC ht ht' hd hd' hI hr => roundBGs_sim hb0 hb1 hC ht ht' hd hd' hI hr)
    (Cx.init hn hop hmp hp hpar (by decide) h1 h2) h3 h

theorem gsMulRev2std_calls (hfn : fn.body = .seq declB (.seq dB (outerB n!"t" n!"d" (rndBMul b1))))
    (hb1 : SimBf P G kq b1 n!"d" bf) (h : gsMulRev2std bf a n p = .ok a') : Calls P G g vs mem (setMem mem o ⟨.i32, a'⟩) ∧ Wf a' := by
  refine callsB hx hg hfn henv hm ha fun st h1 h2 h3 => ?_
  simp only [gsMulRev2std, bind_ok, pure_ok] at h
  obtain ⟨r, h, rfl⟩ := h
  exact outerGs_sim (P := P) (G := G) (rnd := roundBMul bf p) (fun st t d a a' hC ht ht' hd hd' hI hr => roundBMul_sim hb1 hC ht ht' hd hd' hI hr)
    (Cx.init hn hop hmp hp hpar (by decide) h1 h2) h3 h

abbrev DV1 : List (Name × Ty) := [(n!"t", .u32), (n!"l", .u32), (n!"j", .u32), (n!"s", .u32), (n!"w", .i32), (n!"x", .i32)]

theorem ctRev2stdV1_calls (hfn : fn.body = .seq declV1 (.seq dB (.seq (outerV1 (rndV1 b0 b1)) .skip))) (hb0 : SimBf0 P G kq b0 n!"t" bf0)
    (hb1 : SimBf P G kq b1 n!"t" bf) (h : ctRev2stdV1 bf0 bf a n p = .ok a') : Calls P G g vs mem (setMem mem o ⟨.i32, a'⟩) ∧ Wf a' := by
  simp only [ctRev2stdV1, bind_ok, pure_ok] at h
  obtain ⟨r, h, rfl⟩ := h
  have hsim : ∀ st, st.mem = mem → (∀ y, y ∉ DV1.map Prod.fst → st.env y = env y) → Inv DV1 st o a st →
      ∃ st', Ex P G (.seq (outerV1 (rndV1 b0 b1)) .skip) st st' ∧ Inv DV1 st o r.2 st' := by
    intro st h1 h2 hI
    have hC : Cx o op n tp p kq st := Cx.init hn hop hmp hp hpar (by decide) h1 h2
    obtain ⟨st1, x1, hI1, ht1, e1, m1⟩ := hI.setU (P := P) (G := G) (x := n!"t") (by decide) (ev_num _ 1 (by decide)) (by decide)
    obtain ⟨st2, x2, hI2, hl2, e2, m2⟩ := hI1.setU (P := P) (G := G) (x := n!"l") (by decide) (Ev.var (hC.keep hI1 (by decide)).en rfl) hC.hn
    obtain ⟨st3, x3, hI3⟩ := Inv.loop2 (P := P) (G := G) (o := o) (D := DV1) (st₀ := st) (iv := n!"t") (uv := n!"l")
      (c := .bin .lt (.var n!"t") (.var n!"n"))
      (b := .seq (rndV1 b0 b1) (.seq (.assign n!"t" (.bin .shl (.var n!"t") (.num 1))) (.assign n!"l" (.bin .shr (.var n!"l") (.num 1)))))
      (fun i a st' hI hi hi' => by
        exact Ev.bin (Ev.var hi rfl) (Ev.var (hC.keep hI (by decide)).en rfl) (binop_ltU hi' hC.hn))
      (fun t l a u' a' st' hI ht ht' hl hl' hlt hab => by
        simp only [bind_ok, pure_ok] at hab
        obtain ⟨a1, h1, a2, h2, h3⟩ := hab
        simp only [Prod.mk.injEq] at h3
        obtain ⟨rfl, rfl⟩ := h3
        have hC := hC.keep hI (by decide)
        have hI0 : Inv DJ st' o a st' := hI.weaken (by decide)
        obtain ⟨st1, h3, hI1⟩ := sA_sim (P := P) (G := G) (b := b0) (e := .num 0) (t₀ := .i32) (lo := 0)
          (fun a a' s st'' hI' hs hs' hab => by
            refine hb0 o st'' a a' s t (hI'.weaken (by decide)) ?_ ?_ hs ?_ hs' ht' hab
            · exact (hC.keep hI' (by decide)).ea
            · exact (hC.keep hI' (by decide)).eq
            · exact (hI'.keep n!"t" (by decide)).trans ht) hC ht ht' (hI0.weaken (by decide)) (ev_num _ 0 (by decide)) (by decide) h1
        have hI1' := hI0.trans hI1 (by decide)
        have hC1 := hC.keep hI1 (by decide)
        have ht1 := (hI1.keep n!"t" (by decide)).trans ht
        have hl1 := (hI1.keep n!"l" (by decide)).trans hl
        obtain ⟨st2, h4, hI2⟩ := jA_sim (P := P) (G := G) (b := b1) (ei := .bin .mul (.var n!"j") (.var n!"l")) (ix := fun j => u32 (j * l)) hb1
          (fun a j st' hI' hj hj' => Ev.bin (Ev.var hj rfl) (Ev.var ((hI'.keep n!"l" (by decide)).trans hl1) rfl) (binop_mulU hj' hl')) hC1 ht1 ht'
          (hI1'.weaken (by decide)) (by decide) h2
        have hI2' := hI.trans (hI1'.trans hI2 (by decide)) (by decide)
        have ht2 := (hI2.keep n!"t" (by decide)).trans ht1
        have hl2 := (hI2.keep n!"l" (by decide)).trans hl1
        obtain ⟨st3, x3, hI3, ht3, e3, m3⟩ := hI2'.setU (P := P) (G := G) (x := n!"t") (e := .bin .shl (.var n!"t") (.num 1)) (by decide)
          (Ev.bin (Ev.var ht2 rfl) (ev_num _ 1 (by decide)) (binop_shlU ht')) (u32_lt _)
        have hl2' : l / 2 < 4294967296 := lt_of_le_of_lt (Nat.div_le_self _ _) hl'
        obtain ⟨st4, x4, hI4, hl4, e4, m4⟩ := hI3.setU (P := P) (G := G) (x := n!"l") (e := .bin .shr (.var n!"l") (.num 1)) (by decide)
          (Ev.bin (Ev.var ((e3 n!"l" (by decide)).trans hl2) rfl) (ev_num _ 1 (by decide)) (binop_shrU hl')) hl2'
        exact ⟨st4, Ex.seq (Ex.seq h3 (Ex.seq h4 (Ex.skip _))) (Ex.seq x3 x4), hI4, (e4 n!"t" (by decide)).trans ht3, u32_lt _, hl4, hl2'⟩)
      hI2 ((e2 n!"t" (by decide)).trans ht1) (by decide) hl2 hC.hn h
    exact ⟨st3, Ex.seq (Ex.seq (Ex.seq x1 x2) x3) (Ex.skip _), hI3⟩
  rcases hx with rfl | rfl
  · exact Calls.tr hg hfn henv declV1_ok (declX_ok (by decide)) (by decide) (by decide) (by decide) hm ha hsim
  · exact Calls.tr hg hfn henv declV1_ok (declX_ok (by decide)) (by decide) (by decide) (by decide) hm ha hsim

end

/-! ### Butterflies -/

/-- `a[s + t]` -/
abbrev aK (tv : Name) : Expr := .idx (.var n!"a") (.bin .add (.var n!"s") (.var tv))
/-- `a[s]` -/
abbrev aS : Expr := .idx (.var n!"a") (.var n!"s")

/-- `x = ex; a[s + t] = ek; a[s] = es;` -/
abbrev bfly (tv : Name) (ex ek es : Expr) : Stmt :=
  .seq (.assign n!"x" ex) (.seq (.store (.var n!"a") (.bin .add (.var n!"s") (.var tv)) ek) (.seq (.store (.var n!"a") (.var n!"s") es) .skip))

/-- A state within a butterfly. -/
structure Bst (st : State) (o : Nat) (a : Array Int) (x : Int) (st' : State) : Prop where
  env : ∀ y, y ≠ n!"x" → st'.env y = st.env y
  x : st'.env n!"x" = some (.int .i32 (some x))
  mem : st'.mem o = ⟨.i32, a⟩

theorem bfly_sim {tv : Name} {ex ek es : Expr} {st : State} {a a₁ a' : Array Int} {s t : Nat} {x v u : Int} (htv : tv ≠ n!"x")
    (hI : Inv [(n!"x", .i32)] st o a st) (hav : st.env n!"a" = some (.ptr o 0 1)) (hs : st.env n!"s" = cu s) (ht : st.env tv = cu t)
    (hs' : s < 4294967296) (ht' : t < 4294967296) (hex : Ev P G ex st (.int .i32 x)) (hx : I32 x)
    (hek : ∀ st', Bst st o a x st' → Ev P G ek st' (.int .i32 v)) (hv : I32 v) (h1 : wr a (u32 (s + t)) v = .ok a₁)
    (hes : ∀ st', Bst st o a₁ x st' → Ev P G es st' (.int .i32 u)) (hu : I32 u) (h2 : wr a₁ s u = .ok a') :
    ∃ st', Ex P G (bfly tv ex ek es) st st' ∧ Inv [(n!"x", .i32)] st o a' st' := by
  have x1 := hI.set (x := n!"x") (t := .i32) (List.mem_singleton.mpr rfl) hex
  have hI1 := hI.assign (x := n!"x") (t := .i32) (List.mem_singleton.mpr rfl) x
  rw [conv_i32, toI32_of hx] at x1
  have B1 : Bst st o a x ⟨setEnv st.env n!"x" (.int .i32 (some x)), st.mem⟩ :=
    ⟨fun y hy => setEnv_ne hy, by simp only [setEnv_self], hI1.arr⟩
  have hsx := (B1.env n!"s" (by decide)).trans hs
  obtain ⟨x2, hI2⟩ := hI1.put (P := P) (G := G) (x := n!"a") (ei := .bin .add (.var n!"s") (.var tv)) (e := ek) ((B1.env n!"a" (by decide)).trans hav)
    (Ev.bin (Ev.var hsx rfl) (Ev.var ((B1.env tv htv).trans ht) rfl) (binop_addU hs' ht')) (hek _ B1) hv h1
  have B2 : Bst st o a₁ x ⟨setEnv st.env n!"x" (.int .i32 (some x)), setMem st.mem o ⟨.i32, a₁⟩⟩ := ⟨B1.env, B1.x, hI2.arr⟩
  obtain ⟨x3, hI3⟩ := hI2.put (P := P) (G := G) (x := n!"a") (ei := .var n!"s") (e := es) ((B1.env n!"a" (by decide)).trans hav)
    (Ev.var hsx rfl) (hes _ B2) hu h2
  exact ⟨_, Ex.seq x1 (Ex.seq x2 (Ex.seq x3 (Ex.skip _))), hI3⟩

/-- The value of `a[s + t]`. -/
theorem ev_aK {tv : Name} {st : State} {a : Array Int} {s t : Nat} {v : Int} (hI : st.mem o = ⟨.i32, a⟩)
    (hav : st.env n!"a" = some (.ptr o 0 1)) (hs : st.env n!"s" = cu s) (ht : st.env tv = cu t)
    (hs' : s < 4294967296) (ht' : t < 4294967296) (h : rd a (u32 (s + t)) = .ok v) : Ev P G (aK tv) st (.int .i32 v) :=
  Ev.idx (Ev.var hav rfl) (Ev.bin (Ev.var hs rfl) (Ev.var ht rfl) (binop_addU hs' ht')) (by rw [load_nat, hI]; simp only [h, ok_bind])

/-- The value of `a[s]`. -/
theorem ev_aS {st st' : State} {a : Array Int} {s : Nat} {x v : Int} (hB : Bst st o a x st') (hav : st.env n!"a" = some (.ptr o 0 1))
    (hs : st.env n!"s" = cu s) (h : rd a s = .ok v) : Ev P G aS st' (.int .i32 v) :=
  Ev.idx (Ev.var ((hB.env _ (by decide)).trans hav) rfl) (Ev.var ((hB.env _ (by decide)).trans hs) rfl)
    (by rw [load_nat, hB.mem]; simp only [h, ok_bind])

theorem Bst.evx {st st' : State} {a : Array Int} {x : Int} (hB : Bst st o a x st') : Ev P G (.var n!"x") st' (.int .i32 x) := Ev.var hB.x rfl

theorem Ev.bin32 {op : Bin} {e e' : Expr} {st : State} {x y z : Int} {t t' : Ty} (he : Ev P G e st (.int t x)) (he' : Ev P G e' st (.int t' y))
    (h : binop op (.int t x) (.int t' y) = (C.i32 z >>= fun z => .ok (.int .i32 z))) {w : Int} (hz : C.i32 z = .ok w) :
    Ev P G (.bin op e e') st (.int .i32 w) := Ev.bin he he' (by rw [h, hz]; simp only [ok_bind])

/-- The range of a product with an element of a table. -/
theorem binop_mul16 {s : Ty} {x y : Int} (hs : s = .i32 ∨ s = .i16 ∨ s = .u16) (hx : I32 x) (hy : I32 y) :
    binop .mul (.int .i32 x) (.int s y) = (C.i32 (x * y) >>= fun z => .ok (.int .i32 z)) := by
  rcases hs with rfl | rfl | rfl <;> simp only [binop, common, promote, conv_i32, toI32_of hx, toI32_of hy, arith_mul32]

end
end CLang
