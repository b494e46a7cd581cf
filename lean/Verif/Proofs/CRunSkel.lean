import Verif.Proofs.CRunRed
import Verif.Model.Skeleton

/-
The loops of the transforms of src/ntt.c, src/ntt_red.c and src/naive_ntt.c: a program with these loops does what the model says, if its
butterflies do.
-/

namespace CLang
open C NTT

/-! ### The statements -/

section
local notation "va" => (Expr.var n!"a")
local notation "vn" => (Expr.var n!"n")
local notation "vp" => (Expr.var n!"p")
local notation "vj" => (Expr.var n!"j")
local notation "vs" => (Expr.var n!"s")
local notation "vt" => (Expr.var n!"t")
local notation "vu" => (Expr.var n!"u")
local notation "vd" => (Expr.var n!"d")
local notation "vl" => (Expr.var n!"l")

/-- `for (s=e; s<n; s += t + t) b` -/
abbrev sA (e : Expr) (b : Stmt) : Stmt :=
  .seq (.assign n!"s" e) (.while (.bin .lt vs vn) (.seq b (.assign n!"s" (.bin .add vs (.bin .add vt vt)))))

/-- `for (s=e; s<h; s++) b` -/
abbrev sB (e h : Expr) (b : Stmt) : Stmt :=
  .seq (.assign n!"s" e) (.while (.bin .lt vs h) (.seq b (.assign n!"s" (.bin .add vs (.num 1)))))

/-- `for (j=e; j<t; j++) { w = p[i]; for (s=j; s<n; s += t + t) b }` -/
abbrev jA (e i : Expr) (b : Stmt) : Stmt :=
  .seq (.assign n!"j" e) (.while (.bin .lt vj vt)
    (.seq (.seq (.assign n!"w" (.idx vp i)) (.seq (sA vj b) .skip)) (.assign n!"j" (.bin .add vj (.num 1)))))

abbrev rndA (b0 b1 : Stmt) : Stmt := .seq (sA (.num 0) b0) (.seq (jA (.num 1) (.bin .add vt vj) b1) .skip)
abbrev rndAMul (b1 : Stmt) : Stmt := .seq (jA (.num 0) (.bin .add vt vj) b1) .skip
abbrev rndV1 (b0 b1 : Stmt) : Stmt := .seq (sA (.num 0) b0) (.seq (jA (.num 1) (.bin .mul vj vl) b1) .skip)

/-- `for (j=1; j<t; j++) { w = p[t + j]; u += 2*d; for (s=u; s<u+d; s++) b }` -/
abbrev jCt (b : Stmt) : Stmt :=
  .seq (.assign n!"j" (.num 1)) (.while (.bin .lt vj vt)
    (.seq (.seq (.assign n!"w" (.idx vp (.bin .add vt vj))) (.seq (.assign n!"u" (.bin .add vu (.bin .mul (.num 2) vd)))
      (.seq (sB vu (.bin .add vu vd) b) .skip))) (.assign n!"j" (.bin .add vj (.num 1)))))

/-- `for (; j<t; j++, u += 2*d) { w = p[t + j]; for (s=u; s<u+d; s++) b }` -/
abbrev jB (b : Stmt) : Stmt :=
  .while (.bin .lt vj vt)
    (.seq (.seq (.assign n!"w" (.idx vp (.bin .add vt vj))) (.seq (sB vu (.bin .add vu vd) b) .skip))
      (.seq (.assign n!"j" (.bin .add vj (.num 1))) (.assign n!"u" (.bin .add vu (.bin .mul (.num 2) vd)))))

abbrev rndBCt (b0 b1 : Stmt) : Stmt := .seq (sB (.num 0) vd b0) (.seq (.assign n!"u" (.num 0)) (.seq (jCt b1) .skip))
abbrev rndBGs (b0 b1 : Stmt) : Stmt :=
  .seq (sB (.num 0) vd b0) (.seq (.seq (.seq (.assign n!"j" (.num 1)) (.assign n!"u" (.bin .mul (.num 2) vd))) (jB b1)) .skip)
abbrev rndBMul (b1 : Stmt) : Stmt := .seq (.seq (.seq (.assign n!"j" (.num 0)) (.assign n!"u" (.num 0))) (jB b1)) .skip

/-- `for (t=1; t<n; t <<= 1) b` -/
abbrev outerA (b : Stmt) : Stmt :=
  .seq (.assign n!"t" (.num 1)) (.while (.bin .lt vt vn) (.seq b (.assign n!"t" (.bin .shl vt (.num 1)))))
/-- `for (t = n>>1; t > 0; t >>= 1) b` -/
abbrev outerG (b : Stmt) : Stmt :=
  .seq (.assign n!"t" (.bin .shr vn (.num 1))) (.while (.bin .gt vt (.num 0)) (.seq b (.assign n!"t" (.bin .shr vt (.num 1)))))
/-- `x = n; for (y=1; y<n; y <<= 1) { x >>= 1; b }` -/
abbrev outerB (x y : Name) (b : Stmt) : Stmt :=
  .seq (.assign x vn) (.seq (.seq (.assign y (.num 1)) (.while (.bin .lt (.var y) vn)
    (.seq (.seq (.assign x (.bin .shr (.var x) (.num 1))) b) (.assign y (.bin .shl (.var y) (.num 1)))))) .skip)
/-- `for (t=1, l = n; t<n; t <<= 1, l >>= 1) b` -/
abbrev outerV1 (b : Stmt) : Stmt :=
  .seq (.seq (.assign n!"t" (.num 1)) (.assign n!"l" vn)) (.while (.bin .lt vt vn)
    (.seq b (.seq (.assign n!"t" (.bin .shl vt (.num 1))) (.assign n!"l" (.bin .shr vl (.num 1))))))

end

/-! ### Simulation -/

section
variable {P : Prog} {G : Name → Option Cell}

/-- The parameters of a transform: the array is object `o`, of `n` elements, the table is object `op`. -/
structure Cx (o op n : Nat) (tp : Ty) (p : Array Int) (kq : Option Cell) (st : State) : Prop where
  ea : st.env n!"a" = some (.ptr o 0 1)
  en : st.env n!"n" = cu n
  hn : n < 4294967296
  ep : st.env n!"p" = some (.ptr op 0 1)
  hop : op ≠ o
  mem : st.mem op = ⟨tp, p⟩
  wf : Wf p
  eq : st.env n!"q" = kq

theorem Cx.keep {o op n : Nat} {tp : Ty} {p : Array Int} {kq : Option Cell} {st₀ st : State} {D : List (Name × Ty)} {a : Array Int}
    (h : Cx o op n tp p kq st₀) (hI : Inv D st₀ o a st)
    (hD : n!"a" ∉ D.map Prod.fst ∧ n!"n" ∉ D.map Prod.fst ∧ n!"p" ∉ D.map Prod.fst ∧ n!"q" ∉ D.map Prod.fst) : Cx o op n tp p kq st :=
  ⟨(hI.keep _ hD.1).trans h.ea, (hI.keep _ hD.2.1).trans h.en, h.hn, (hI.keep _ hD.2.2.1).trans h.ep, h.hop, (hI.other h.hop).trans h.mem, h.wf,
    (hI.keep _ hD.2.2.2).trans h.eq⟩

/-- A butterfly without factor: the elements are `s` and `s + t`, `t` being variable `tv`. -/
def SimBf0 (P : Prog) (G : Name → Option Cell) (kq : Option Cell) (b : Stmt) (tv : Name) (bf0 : Nat → Nat → Array Int → M (Array Int)) : Prop :=
  ∀ o st a a' s t, Inv [(n!"x", .i32)] st o a st → st.env n!"a" = some (.ptr o 0 1) → st.env n!"q" = kq → st.env n!"s" = cu s → st.env tv = cu t →
    s < 4294967296 → t < 4294967296 → bf0 s (u32 (s + t)) a = .ok a' → ∃ st', Ex P G b st st' ∧ Inv [(n!"x", .i32)] st o a' st'

/-- A butterfly with a factor. -/
def SimBf (P : Prog) (G : Name → Option Cell) (kq : Option Cell) (b : Stmt) (tv : Name) (bf : Int → Nat → Nat → Array Int → M (Array Int)) : Prop :=
  ∀ o st a a' s t w, Inv [(n!"x", .i32)] st o a st → st.env n!"a" = some (.ptr o 0 1) → st.env n!"q" = kq → st.env n!"s" = cu s → st.env tv = cu t →
    st.env n!"w" = some (.int .i32 (some w)) → I32 w →
    s < 4294967296 → t < 4294967296 → bf w s (u32 (s + t)) a = .ok a' → ∃ st', Ex P G b st st' ∧ Inv [(n!"x", .i32)] st o a' st'

variable {o op n : Nat} {tp : Ty} {p : Array Int} {kq : Option Cell}

theorem ev_num (st : State) (k : Nat) (h : k ≤ 2147483647) : Ev P G (.num k) st (.int .i32 k) :=
  Ev.mk 1 fun f => by simp only [crun, h]

/-- The loop over `s` with step `2*t`. -/
theorem sA_sim {bf : Nat → Nat → Array Int → M (Array Int)} {e : Expr} {b : Stmt} {t lo : Nat} {st : State} {a a' : Array Int} {t₀ : Ty}
    (hb : ∀ a a' s st', Inv [(n!"s", .u32), (n!"x", .i32)] st o a st' → st'.env n!"s" = cu s → s < 4294967296 →
      bf s (u32 (s + t)) a = .ok a' → ∃ st'', Ex P G b st' st'' ∧ Inv [(n!"x", .i32)] st' o a' st'')
    (hC : Cx o op n tp p kq st) (ht : st.env n!"t" = cu t) (ht' : t < 4294967296)
    (hI : Inv [(n!"s", .u32), (n!"x", .i32)] st o a st) (he : Ev P G e st (.int t₀ (lo : Nat))) (hlo : lo < 4294967296)
    (h : forUp lo n (u32 (t + t)) (fun s a => bf s (u32 (s + t)) a) a = .ok a') :
    ∃ st', Ex P G (sA e b) st st' ∧ Inv [(n!"s", .u32), (n!"x", .i32)] st o a' st' := by
  refine Inv.loop (by decide) (fun i a st' hI hi hi' => ?_) (fun i a st' hI hi hi' => ⟨?_, u32_lt _⟩) (fun i a a' st' hI hi hi' _ hab => ?_) hI
    he hlo h
  · have hn := (hC.keep hI (by decide)).en
    refine Ev.mk 3 fun f => ?_
    simp only [crun, hi, hn, binop_ltU hi' hC.hn]
  · have ht := (hI.keep n!"t" (by decide)).trans ht
    refine Ev.mk 5 fun f => ?_
    simp only [crun, hi, ht, binop_addU ht' ht', binop_addU hi' (u32_lt (t + t))]
  · obtain ⟨st'', h1, h2⟩ := hb a a' i st' hI hi hi' hab
    exact ⟨st'', h1, hI.trans h2 (by decide), (h2.keep _ (by decide)).trans hi⟩

/-- The loop over `s` with step 1. -/
theorem sB_sim {bf : Nat → Nat → Array Int → M (Array Int)} {e eh : Expr} {b : Stmt} {d lo hi : Nat} {st : State} {a a' : Array Int} {t₀ : Ty}
    (hb : ∀ a a' s st', Inv [(n!"s", .u32), (n!"x", .i32)] st o a st' → st'.env n!"s" = cu s → s < 4294967296 →
      bf s (u32 (s + d)) a = .ok a' → ∃ st'', Ex P G b st' st'' ∧ Inv [(n!"x", .i32)] st' o a' st'')
    (hI : Inv [(n!"s", .u32), (n!"x", .i32)] st o a st) (he : Ev P G e st (.int t₀ (lo : Nat))) (hlo : lo < 4294967296)
    (heh : ∀ a st', Inv [(n!"s", .u32), (n!"x", .i32)] st o a st' → Ev P G eh st' (.int .u32 (hi : Nat))) (hhi : hi < 4294967296)
    (h : forUp lo hi 1 (fun s a => bf s (u32 (s + d)) a) a = .ok a') :
    ∃ st', Ex P G (sB e eh b) st st' ∧ Inv [(n!"s", .u32), (n!"x", .i32)] st o a' st' := by
  refine Inv.loop (by decide) (fun i a st' hI hi hi' => ?_) (fun i a st' hI hi hi' => ⟨?_, u32_lt _⟩) (fun i a a' st' hI hi hi' _ hab => ?_) hI
    he hlo h
  · exact Ev.bin (Ev.var hi rfl) (heh a st' hI) (binop_ltU hi' hhi)
  · refine Ev.mk 5 fun f => ?_
    simp only [crun, hi, Nat.reduceLeDiff, Nat.cast_one, binop_incU hi']
  · obtain ⟨st'', h1, h2⟩ := hb a a' i st' hI hi hi' hab
    exact ⟨st'', h1, hI.trans h2 (by decide), (h2.keep _ (by decide)).trans hi⟩

/-- The variables of the loops over `j`. -/
abbrev DJ : List (Name × Ty) := [(n!"j", .u32), (n!"s", .u32), (n!"w", .i32), (n!"x", .i32)]

/-- The loop over `j` around the loop over `s` with step `2*t`; the factor is read at `ei`, of value `ix j`. -/
theorem jA_sim {bf : Int → Nat → Nat → Array Int → M (Array Int)} {ix : Nat → Nat} {ei : Expr} {b : Stmt} {t lo : Nat} {st : State}
    {a a' : Array Int} (hb : SimBf P G kq b n!"t" bf)
    (hei : ∀ a j st', Inv DJ st o a st' → st'.env n!"j" = cu j → j < 4294967296 → Ev P G ei st' (.int .u32 (ix j : Nat)))
    (hC : Cx o op n tp p kq st) (ht : st.env n!"t" = cu t) (ht' : t < 4294967296) (hI : Inv DJ st o a st) (hlo : lo < 1000)
    (h : forUp lo t 1 (fun j a => do
      let w ← rd p (ix j)
      forUp j n (u32 (t + t)) (fun s a => bf w s (u32 (s + t)) a) a) a = .ok a') :
    ∃ st', Ex P G (jA (.num lo) ei b) st st' ∧ Inv DJ st o a' st' := by
  refine Inv.loop (by decide) (fun i a st' hI hi hi' => ?_) (fun i a st' hI hi hi' => ⟨?_, u32_lt _⟩) (fun i a a' st' hI hi hi' hlt hab => ?_) hI
    (ev_num _ lo (by omega)) (by omega) h
  · have ht := (hI.keep n!"t" (by decide)).trans ht
    exact Ev.bin (Ev.var hi rfl) (Ev.var ht rfl) (binop_ltU hi' ht')
  · refine Ev.mk 5 fun f => ?_
    simp only [crun, hi, Nat.reduceLeDiff, Nat.cast_one, binop_incU hi']
  · rw [bind_ok] at hab
    obtain ⟨w, hw, hab⟩ := hab
    have hC' := hC.keep hI (by decide)
    have hw' := hC.wf _ _ hw
    have h1 := hI.set (x := n!"w") (t := .i32) (by decide) (Ev.idx (v := .int tp w) (Ev.var hC'.ep rfl) (hei a i st' hI hi hi')
      (by rw [load_nat, hC'.mem]; simp only [hw, ok_bind]))
    have hI1 := hI.assign (x := n!"w") (t := .i32) (by decide) (conv .i32 w)
    rw [conv_i32, toI32_of hw'] at h1 hI1
    have hC1 := hC.keep hI1 (by decide)
    have ht1 := (hI1.keep n!"t" (by decide)).trans ht
    obtain ⟨st2, h2, hI2⟩ := sA_sim (P := P) (G := G) (o := o) (op := op) (n := n) (tp := tp) (p := p) (kq := kq) (bf := bf w) (b := b)
      (e := .var n!"j") (t₀ := .u32) (lo := i)
      (fun a a' s st' hI' hs hs' hab => by
        refine hb o st' a a' s t w (hI'.weaken (by decide)) ?_ ?_ hs ?_ ?_ hw' hs' ht' hab
        · exact (hC1.keep hI' (by decide)).ea
        · exact (hC1.keep hI' (by decide)).eq
        · exact (hI'.keep n!"t" (by decide)).trans ht1
        · exact (hI'.keep n!"w" (by decide)).trans (by simp only [setEnv_self])) hC1 ht1 ht' (hI1.weaken (by decide))
        (Ev.var (c := .int .u32 (some (i : Int))) (by simp only [setEnv_apply, hi]; rfl) rfl) hi' hab
    refine ⟨st2, Ex.seq h1 (Ex.seq h2 (Ex.skip _)), hI1.trans hI2 (by decide), ?_⟩
    rw [hI2.keep n!"j" (by decide)]
    simp only [setEnv_apply, hi]
    rfl

theorem roundA_sim {bf0 : Nat → Nat → Array Int → M (Array Int)} {bf : Int → Nat → Nat → Array Int → M (Array Int)} {b0 b1 : Stmt} {t : Nat}
    {st : State} {a a' : Array Int} (hb0 : SimBf0 P G kq b0 n!"t" bf0) (hb1 : SimBf P G kq b1 n!"t" bf)
    (hC : Cx o op n tp p kq st) (ht : st.env n!"t" = cu t) (ht' : t < 4294967296) (hI : Inv DJ st o a st)
    (h : roundA bf0 bf n p t a = .ok a') : ∃ st', Ex P G (rndA b0 b1) st st' ∧ Inv DJ st o a' st' := by
  rw [roundA, bind_ok] at h
  obtain ⟨a1, h1, h2⟩ := h
  obtain ⟨st1, h3, hI1⟩ := sA_sim (P := P) (G := G) (b := b0) (e := .num 0) (t₀ := .i32) (lo := 0)
    (fun a a' s st' hI' hs hs' hab => by
      refine hb0 o st' a a' s t (hI'.weaken (by decide)) ?_ ?_ hs ?_ hs' ht' hab
      · exact (hC.keep hI' (by decide)).ea
      · exact (hC.keep hI' (by decide)).eq
      · exact (hI'.keep n!"t" (by decide)).trans ht) hC ht ht' (hI.weaken (by decide)) (ev_num _ 0 (by decide)) (by decide) h1
  have hI1' := hI.trans hI1 (by decide)
  have hC1 := hC.keep hI1 (by decide)
  have ht1 := (hI1.keep n!"t" (by decide)).trans ht
  obtain ⟨st2, h4, hI2⟩ := jA_sim (P := P) (G := G) (b := b1) (ei := .bin .add (.var n!"t") (.var n!"j")) (ix := fun j => u32 (t + j)) hb1
    (fun a j st' hI' hj hj' => Ev.bin (Ev.var ((hI'.keep n!"t" (by decide)).trans ht1) rfl) (Ev.var hj rfl) (binop_addU ht' hj')) hC1 ht1 ht'
    (hI1'.weaken (by decide)) (by decide) h2
  exact ⟨st2, Ex.seq h3 (Ex.seq h4 (Ex.skip _)), hI1'.trans hI2 (by decide)⟩

theorem roundAMul_sim {bf : Int → Nat → Nat → Array Int → M (Array Int)} {b1 : Stmt} {t : Nat}
    {st : State} {a a' : Array Int} (hb1 : SimBf P G kq b1 n!"t" bf)
    (hC : Cx o op n tp p kq st) (ht : st.env n!"t" = cu t) (ht' : t < 4294967296) (hI : Inv DJ st o a st)
    (h : roundAMul bf n p t a = .ok a') : ∃ st', Ex P G (rndAMul b1) st st' ∧ Inv DJ st o a' st' := by
  obtain ⟨st2, h4, hI2⟩ := jA_sim (P := P) (G := G) (b := b1) (ei := .bin .add (.var n!"t") (.var n!"j")) (ix := fun j => u32 (t + j)) hb1
    (fun a j st' hI' hj hj' => Ev.bin (Ev.var ((hI'.keep n!"t" (by decide)).trans ht) rfl) (Ev.var hj rfl) (binop_addU ht' hj')) hC ht ht'
    hI (by decide) h
  exact ⟨st2, Ex.seq h4 (Ex.skip _), hI2⟩

/-- A loop with two variables. -/
theorem Inv.loop2 {D : List (Name × Ty)} {st₀ : State} {iv uv : Name} {c : Expr} {b : Stmt} {cond : Nat → Bool}
    {next : Nat → Nat} {body : Nat → Nat × Array Int → M (Nat × Array Int)}
    (hc : ∀ i a st, Inv D st₀ o a st → st.env iv = cu i → i < 4294967296 → Ev P G c st (truth (cond i)))
    (hb : ∀ i u a u' a' st, Inv D st₀ o a st → st.env iv = cu i → i < 4294967296 → st.env uv = cu u → u < 4294967296 → cond i = true →
      body i (u, a) = .ok (u', a') → ∃ st', Ex P G b st st' ∧ Inv D st₀ o a' st' ∧ st'.env iv = cu (next i) ∧ next i < 4294967296 ∧
        st'.env uv = cu u' ∧ u' < 4294967296)
    {fuel lo u : Nat} {a : Array Int} {r : Nat × Array Int} {st : State} (hst : Inv D st₀ o a st)
    (hi : st.env iv = cu lo) (hlo : lo < 4294967296) (hu : st.env uv = cu u) (hu' : u < 4294967296)
    (h : cfor cond next body fuel lo (u, a) = .ok r) :
    ∃ st', Ex P G (.while c b) st st' ∧ Inv D st₀ o r.2 st' := by
  obtain ⟨st', j, hw, hI, _⟩ := Ex.while_cfor (P := P) (G := G) (c := c) (s := b)
    (fun i (x : Nat × Array Int) st => Inv D st₀ o x.2 st ∧ st.env iv = cu i ∧ i < 4294967296 ∧ st.env uv = cu x.1 ∧ x.1 < 4294967296)
    (fun i x st hR => hc i x.2 st hR.1 hR.2.1 hR.2.2.1)
    (fun i x x' st hR hi hab => hb i x.1 x.2 x'.1 x'.2 st hR.1 hR.2.1 hR.2.2.1 hR.2.2.2.1 hR.2.2.2.2 hi hab)
    fuel lo (u, a) r st ⟨hst, hi, hlo, hu, hu'⟩ h
  exact ⟨st', hw, hI⟩

/-- Assignment of an `uint32_t` variable. -/
theorem Inv.setU {D : List (Name × Ty)} {st₀ st : State} {a : Array Int} (h : Inv D st₀ o a st) {x : Name} {t' : Ty} {e : Expr} {v : Nat}
    (hx : (x, .u32) ∈ D) (he : Ev P G e st (.int t' (v : Nat))) (hv : v < 4294967296) :
    ∃ st', Ex P G (.assign x e) st st' ∧ Inv D st₀ o a st' ∧ st'.env x = cu v ∧ (∀ y, y ≠ x → st'.env y = st.env y) ∧ st'.mem = st.mem := by
  have h1 := h.set hx he
  rw [conv_u32_nat, u32_of hv] at h1
  exact ⟨_, h1, h.assign hx _, setEnv_self _ _ _, fun y hy => setEnv_ne hy, rfl⟩

/-- Assignment of the factor. -/
theorem Inv.setW {D : List (Name × Ty)} {st₀ st : State} {a : Array Int} (h : Inv D st₀ o a st) {e : Expr} {i : Nat} {w : Int} {t' : Ty}
    (hx : (n!"w", .i32) ∈ D) (hC : Cx o op n tp p kq st) (he : Ev P G e st (.int t' (i : Nat))) (hw : rd p i = .ok w) :
    ∃ st', Ex P G (.assign n!"w" (.idx (.var n!"p") e)) st st' ∧ Inv D st₀ o a st' ∧ st'.env n!"w" = some (.int .i32 (some w)) ∧
      (∀ y, y ≠ n!"w" → st'.env y = st.env y) ∧ st'.mem = st.mem := by
  have h1 := h.set hx (Ev.idx (v := .int tp w) (Ev.var hC.ep rfl) he (by rw [load_nat, hC.mem]; simp only [hw, ok_bind]))
  rw [conv_i32, toI32_of (hC.wf _ _ hw)] at h1
  exact ⟨_, h1, h.assign hx _, by simp only [setEnv_self], fun y hy => setEnv_ne hy, rfl⟩

/-- The variables of the loops over `j` with `u`. -/
abbrev DU : List (Name × Ty) := [(n!"j", .u32), (n!"s", .u32), (n!"u", .u32), (n!"w", .i32), (n!"x", .i32)]

theorem Cx.of_env {st st' : State} (h : Cx o op n tp p kq st) (x : Name) (hx : x ≠ n!"a" ∧ x ≠ n!"n" ∧ x ≠ n!"p" ∧ x ≠ n!"q")
    (he : ∀ y, y ≠ x → st'.env y = st.env y) (hm : st'.mem = st.mem) : Cx o op n tp p kq st' :=
  ⟨(he _ hx.1.symm).trans h.ea, (he _ hx.2.1.symm).trans h.en, h.hn, (he _ hx.2.2.1.symm).trans h.ep, h.hop, by rw [hm]; exact h.mem, h.wf,
    (he _ hx.2.2.2.symm).trans h.eq⟩

/-- The loop over `s` from `u` to `u+d`. -/
theorem sU_sim {bf : Int → Nat → Nat → Array Int → M (Array Int)} {b : Stmt} {d u : Nat} {w : Int} {st : State} {a a' : Array Int}
    (hb : SimBf P G kq b n!"d" bf) (hC : Cx o op n tp p kq st) (hd : st.env n!"d" = cu d) (hd' : d < 4294967296) (hu : st.env n!"u" = cu u)
    (hu' : u < 4294967296) (hw : st.env n!"w" = some (.int .i32 (some w))) (hw' : I32 w) (hI : Inv [(n!"s", .u32), (n!"x", .i32)] st o a st)
    (h : forUp u (u32 (u + d)) 1 (fun s a => bf w s (u32 (s + d)) a) a = .ok a') :
    ∃ st', Ex P G (sB (.var n!"u") (.bin .add (.var n!"u") (.var n!"d")) b) st st' ∧ Inv [(n!"s", .u32), (n!"x", .i32)] st o a' st' := by
  refine sB_sim (bf := bf w) (d := d) (t₀ := .u32) (lo := u) (hi := u32 (u + d)) (fun a a' s st' hI' hs hs' hab => ?_) hI (Ev.var hu rfl) hu'
    (fun a st' hI' => ?_) (u32_lt _) h
  · refine hb o st' a a' s d w (hI'.weaken (by decide)) ?_ ?_ hs ?_ ?_ hw' hs' hd' hab
    · exact (hC.keep hI' (by decide)).ea
    · exact (hC.keep hI' (by decide)).eq
    · exact (hI'.keep n!"d" (by decide)).trans hd
    · exact (hI'.keep n!"w" (by decide)).trans hw
  · exact Ev.bin (Ev.var ((hI'.keep n!"u" (by decide)).trans hu) rfl) (Ev.var ((hI'.keep n!"d" (by decide)).trans hd) rfl) (binop_addU hu' hd')

/-- The loop over `j` of the Gentleman-Sande transforms and of the products. -/
theorem jB_sim {bf : Int → Nat → Nat → Array Int → M (Array Int)} {b : Stmt} {t d lo u : Nat} {st₀ st : State} {a : Array Int} {r : Nat × Array Int}
    (hb : SimBf P G kq b n!"d" bf) (hC : Cx o op n tp p kq st₀) (ht : st₀.env n!"t" = cu t) (ht' : t < 4294967296) (hd : st₀.env n!"d" = cu d)
    (hd' : d < 4294967296) (hI : Inv DU st₀ o a st) (hj : st.env n!"j" = cu lo) (hlo : lo < 4294967296) (hu : st.env n!"u" = cu u)
    (hu' : u < 4294967296)
    (h : forUp lo t 1 (fun j (st : Nat × Array Int) => do
      let w ← rd p (u32 (t + j))
      let a ← forUp st.1 (u32 (st.1 + d)) 1 (fun s a => bf w s (u32 (s + d)) a) st.2
      pure (u32 (st.1 + u32 (2 * d)), a)) (u, a) = .ok r) :
    ∃ st', Ex P G (jB b) st st' ∧ Inv DU st₀ o r.2 st' := by
  refine Inv.loop2 (iv := n!"j") (uv := n!"u") (fun i a st' hI hi hi' => ?_) (fun i u a u' a' st' hI hi hi' hu hu' hlt hab => ?_) hI hj hlo hu hu' h
  · exact Ev.bin (Ev.var hi rfl) (Ev.var ((hI.keep n!"t" (by decide)).trans ht) rfl) (binop_ltU hi' ht')
  · simp only [bind_ok, pure_ok] at hab
    obtain ⟨w, hw, a1, h1, h2⟩ := hab
    simp only [Prod.mk.injEq] at h2
    obtain ⟨rfl, rfl⟩ := h2
    have hC' := hC.keep hI (by decide)
    obtain ⟨st1, x1, hI1, hw1, e1, m1⟩ := hI.setW (P := P) (G := G) (by decide) hC' (Ev.bin (Ev.var ((hI.keep n!"t" (by decide)).trans ht) rfl)
      (Ev.var hi rfl) (binop_addU ht' hi')) hw
    have hC1 := hC.keep hI1 (by decide)
    obtain ⟨st2, x2, hI2⟩ := sU_sim (P := P) (G := G) hb hC1 ((hI1.keep n!"d" (by decide)).trans hd) hd' ((e1 n!"u" (by decide)).trans hu) hu' hw1
      (hC.wf _ _ hw) (hI1.weaken (by decide)) h1
    have hI2' := hI1.trans hI2 (by decide)
    have hj2 : st2.env n!"j" = cu i := (hI2.keep n!"j" (by decide)).trans ((e1 n!"j" (by decide)).trans hi)
    have hu2 : st2.env n!"u" = cu u := (hI2.keep n!"u" (by decide)).trans ((e1 n!"u" (by decide)).trans hu)
    obtain ⟨st3, x3, hI3, hj3, e3, m3⟩ := hI2'.setU (P := P) (G := G) (x := n!"j") (e := .bin .add (.var n!"j") (.num 1)) (by decide)
      (Ev.bin (Ev.var hj2 rfl) (ev_num _ 1 (by decide)) (binop_incU hi')) (u32_lt _)
    obtain ⟨st4, x4, hI4, hu4, e4, m4⟩ := hI3.setU (P := P) (G := G) (x := n!"u") (e := .bin .add (.var n!"u") (.bin .mul (.num 2) (.var n!"d"))) (by decide)
      (Ev.bin (Ev.var ((e3 n!"u" (by decide)).trans hu2) rfl) (Ev.bin (ev_num _ 2 (by decide)) (Ev.var ((hI3.keep n!"d" (by decide)).trans hd) rfl)
        (binop_dblU hd')) (binop_addU hu' (u32_lt _))) (u32_lt _)
    exact ⟨st4, Ex.seq (Ex.seq x1 (Ex.seq x2 (Ex.skip _))) (Ex.seq x3 x4), hI4, (e4 n!"j" (by decide)).trans hj3, u32_lt _, hu4, u32_lt _⟩

/-- The loop over `j` of the Cooley-Tukey transform. -/
theorem jCt_sim {bf : Int → Nat → Nat → Array Int → M (Array Int)} {b : Stmt} {t d u : Nat} {st₀ st : State} {a : Array Int} {r : Nat × Array Int}
    (hb : SimBf P G kq b n!"d" bf) (hC : Cx o op n tp p kq st₀) (ht : st₀.env n!"t" = cu t) (ht' : t < 4294967296) (hd : st₀.env n!"d" = cu d)
    (hd' : d < 4294967296) (hI : Inv DU st₀ o a st) (hu : st.env n!"u" = cu u) (hu' : u < 4294967296)
    (h : forUp 1 t 1 (fun j (st : Nat × Array Int) => do
      let w ← rd p (u32 (t + j))
      let u := u32 (st.1 + u32 (2 * d))
      let a ← forUp u (u32 (u + d)) 1 (fun s a => bf w s (u32 (s + d)) a) st.2
      pure (u, a)) (u, a) = .ok r) :
    ∃ st', Ex P G (jCt b) st st' ∧ Inv DU st₀ o r.2 st' := by
  obtain ⟨st₁, y1, hI, hj, e₀, _⟩ := hI.setU (P := P) (G := G) (x := n!"j") (by decide) (ev_num _ 1 (by decide)) (by decide)
  have hu := (e₀ n!"u" (by decide)).trans hu
  obtain ⟨st', y2, y3⟩ := Inv.loop2 (P := P) (G := G) (o := o) (D := DU) (st₀ := st₀) (iv := n!"j") (uv := n!"u")
    (c := .bin .lt (.var n!"j") (.var n!"t"))
    (b := .seq (.seq (.assign n!"w" (.idx (.var n!"p") (.bin .add (.var n!"t") (.var n!"j")))) (.seq (.assign n!"u" (.bin .add (.var n!"u")
      (.bin .mul (.num 2) (.var n!"d")))) (.seq (sB (.var n!"u") (.bin .add (.var n!"u") (.var n!"d")) b) .skip)))
      (.assign n!"j" (.bin .add (.var n!"j") (.num 1))))
    (fun i a st' hI hi hi' => by
      exact Ev.bin (Ev.var hi rfl) (Ev.var ((hI.keep n!"t" (by decide)).trans ht) rfl) (binop_ltU hi' ht'))
    (fun i u a u' a' st' hI hi hi' hu hu' hlt hab => by
      simp only [bind_ok, pure_ok] at hab
      obtain ⟨w, hw, a1, h1, h2⟩ := hab
      simp only [Prod.mk.injEq] at h2
      obtain ⟨rfl, rfl⟩ := h2
      have hC' := hC.keep hI (by decide)
      obtain ⟨st1, x1, hI1, hw1, e1, m1⟩ := hI.setW (P := P) (G := G) (by decide) hC' (Ev.bin (Ev.var ((hI.keep n!"t" (by decide)).trans ht) rfl)
        (Ev.var hi rfl) (binop_addU ht' hi')) hw
      obtain ⟨st4, x4, hI4, hu4, e4, m4⟩ := hI1.setU (P := P) (G := G) (x := n!"u") (e := .bin .add (.var n!"u") (.bin .mul (.num 2) (.var n!"d")))
        (by decide) (Ev.bin (Ev.var ((e1 n!"u" (by decide)).trans hu) rfl) (Ev.bin (ev_num _ 2 (by decide))
        (Ev.var ((hI1.keep n!"d" (by decide)).trans hd) rfl) (binop_dblU hd')) (binop_addU hu' (u32_lt _))) (u32_lt _)
      have hC1 := hC.keep hI4 (by decide)
      obtain ⟨st2, x2, hI2⟩ := sU_sim (P := P) (G := G) hb hC1 ((hI4.keep n!"d" (by decide)).trans hd) hd' hu4 (u32_lt _)
        ((e4 n!"w" (by decide)).trans hw1) (hC.wf _ _ hw) (hI4.weaken (by decide)) h1
      have hI2' := hI4.trans hI2 (by decide)
      have hj2 : st2.env n!"j" = cu i :=
        (hI2.keep n!"j" (by decide)).trans ((e4 n!"j" (by decide)).trans ((e1 n!"j" (by decide)).trans hi))
      obtain ⟨st3, x3, hI3, hj3, e3, m3⟩ := hI2'.setU (P := P) (G := G) (x := n!"j") (e := .bin .add (.var n!"j") (.num 1)) (by decide)
        (Ev.bin (Ev.var hj2 rfl) (ev_num _ 1 (by decide)) (binop_incU hi')) (u32_lt _)
      exact ⟨st3, Ex.seq (Ex.seq x1 (Ex.seq x4 (Ex.seq x2 (Ex.skip _)))) x3, hI3, hj3, u32_lt _,
        (e3 n!"u" (by decide)).trans ((hI2.keep n!"u" (by decide)).trans hu4), u32_lt _⟩) hI hj (by decide) hu hu' h
  exact ⟨st', Ex.seq y1 y2, y3⟩

theorem s0_sim {bf0 : Nat → Nat → Array Int → M (Array Int)} {b0 : Stmt} {d : Nat} {st : State} {a a' : Array Int}
    (hb0 : SimBf0 P G kq b0 n!"d" bf0) (hC : Cx o op n tp p kq st) (hd : st.env n!"d" = cu d) (hd' : d < 4294967296)
    (hI : Inv [(n!"s", .u32), (n!"x", .i32)] st o a st) (h : forUp 0 d 1 (fun s a => bf0 s (u32 (s + d)) a) a = .ok a') :
    ∃ st', Ex P G (sB (.num 0) (.var n!"d") b0) st st' ∧ Inv [(n!"s", .u32), (n!"x", .i32)] st o a' st' := by
  refine sB_sim (bf := bf0) (d := d) (t₀ := .i32) (lo := 0) (hi := d) (fun a a' s st' hI' hs hs' hab => ?_) hI (ev_num _ 0 (by decide)) (by decide)
    (fun a st' hI' => ?_) hd' h
  · refine hb0 o st' a a' s d (hI'.weaken (by decide)) ?_ ?_ hs ?_ hs' hd' hab
    · exact (hC.keep hI' (by decide)).ea
    · exact (hC.keep hI' (by decide)).eq
    · exact (hI'.keep n!"d" (by decide)).trans hd
  · exact Ev.var ((hI'.keep n!"d" (by decide)).trans hd) rfl

theorem roundBCt_sim {bf0 : Nat → Nat → Array Int → M (Array Int)} {bf : Int → Nat → Nat → Array Int → M (Array Int)} {b0 b1 : Stmt} {t d : Nat}
    {st : State} {a a' : Array Int} (hb0 : SimBf0 P G kq b0 n!"d" bf0) (hb1 : SimBf P G kq b1 n!"d" bf)
    (hC : Cx o op n tp p kq st) (ht : st.env n!"t" = cu t) (ht' : t < 4294967296) (hd : st.env n!"d" = cu d) (hd' : d < 4294967296)
    (hI : Inv DU st o a st) (h : roundBCt bf0 bf p t d a = .ok a') : ∃ st', Ex P G (rndBCt b0 b1) st st' ∧ Inv DU st o a' st' := by
  simp only [roundBCt, bind_ok, pure_ok] at h
  obtain ⟨a1, h1, r, h2, rfl⟩ := h
  obtain ⟨st1, x1, hI1⟩ := s0_sim hb0 hC hd hd' (hI.weaken (by decide)) h1
  have hI1 := hI.trans hI1 (by decide)
  obtain ⟨st2, x2, hI2, hu2, e2, m2⟩ := hI1.setU (P := P) (G := G) (x := n!"u") (by decide) (ev_num _ 0 (by decide)) (by decide)
  obtain ⟨st3, x3, hI3⟩ := jCt_sim (P := P) (G := G) (st₀ := st) hb1 hC ht ht' hd hd' hI2 hu2 (by decide) h2
  exact ⟨st3, Ex.seq x1 (Ex.seq x2 (Ex.seq x3 (Ex.skip _))), hI3⟩

theorem roundBGs_sim {bf0 : Nat → Nat → Array Int → M (Array Int)} {bf : Int → Nat → Nat → Array Int → M (Array Int)} {b0 b1 : Stmt} {t d : Nat}
    {st : State} {a a' : Array Int} (hb0 : SimBf0 P G kq b0 n!"d" bf0) (hb1 : SimBf P G kq b1 n!"d" bf)
    (hC : Cx o op n tp p kq st) (ht : st.env n!"t" = cu t) (ht' : t < 4294967296) (hd : st.env n!"d" = cu d) (hd' : d < 4294967296)
    (hI : Inv DU st o a st) (h : roundBGs bf0 bf p t d a = .ok a') : ∃ st', Ex P G (rndBGs b0 b1) st st' ∧ Inv DU st o a' st' := by
  simp only [roundBGs, bind_ok, pure_ok] at h
  obtain ⟨a1, h1, r, h2, rfl⟩ := h
  obtain ⟨st1, x1, hI1⟩ := s0_sim hb0 hC hd hd' (hI.weaken (by decide)) h1
  have hI1 := hI.trans hI1 (by decide)
  obtain ⟨st2, x2, hI2, hj2, e2, m2⟩ := hI1.setU (P := P) (G := G) (x := n!"j") (by decide) (ev_num _ 1 (by decide)) (by decide)
  obtain ⟨st3, x3, hI3, hu3, e3, m3⟩ := hI2.setU (P := P) (G := G) (x := n!"u") (e := .bin .mul (.num 2) (.var n!"d")) (by decide)
    (Ev.bin (ev_num _ 2 (by decide)) (Ev.var ((hI2.keep n!"d" (by decide)).trans hd) rfl) (binop_dblU hd')) (u32_lt _)
  obtain ⟨st4, x4, hI4⟩ := jB_sim (P := P) (G := G) (st₀ := st) hb1 hC ht ht' hd hd' hI3 ((e3 n!"j" (by decide)).trans hj2) (by decide) hu3 (u32_lt _) h2
  exact ⟨st4, Ex.seq x1 (Ex.seq (Ex.seq (Ex.seq x2 x3) x4) (Ex.skip _)), hI4⟩

theorem roundBMul_sim {bf : Int → Nat → Nat → Array Int → M (Array Int)} {b1 : Stmt} {t d : Nat}
    {st : State} {a a' : Array Int} (hb1 : SimBf P G kq b1 n!"d" bf)
    (hC : Cx o op n tp p kq st) (ht : st.env n!"t" = cu t) (ht' : t < 4294967296) (hd : st.env n!"d" = cu d) (hd' : d < 4294967296)
    (hI : Inv DU st o a st) (h : roundBMul bf p t d a = .ok a') : ∃ st', Ex P G (rndBMul b1) st st' ∧ Inv DU st o a' st' := by
  simp only [roundBMul, bind_ok, pure_ok] at h
  obtain ⟨r, h2, rfl⟩ := h
  obtain ⟨st2, x2, hI2, hj2, e2, m2⟩ := hI.setU (P := P) (G := G) (x := n!"j") (by decide) (ev_num _ 0 (by decide)) (by decide)
  obtain ⟨st3, x3, hI3, hu3, e3, m3⟩ := hI2.setU (P := P) (G := G) (x := n!"u") (by decide) (ev_num _ 0 (by decide)) (by decide)
  obtain ⟨st4, x4, hI4⟩ := jB_sim (P := P) (G := G) (st₀ := st) hb1 hC ht ht' hd hd' hI3 ((e3 n!"j" (by decide)).trans hj2) (by decide) hu3 (by decide) h2
  exact ⟨st4, Ex.seq (Ex.seq (Ex.seq x2 x3) x4) (Ex.skip _), hI4⟩

/-! ### Outer loops -/

abbrev DT : List (Name × Ty) := [(n!"t", .u32), (n!"j", .u32), (n!"s", .u32), (n!"w", .i32), (n!"x", .i32)]
abbrev DTD : List (Name × Ty) := [(n!"t", .u32), (n!"d", .u32), (n!"j", .u32), (n!"s", .u32), (n!"u", .u32), (n!"w", .i32), (n!"x", .i32)]

/-- A round within the loop over `t`. -/
def SimRound (P : Prog) (G : Name → Option Cell) (o op n : Nat) (tp : Ty) (p : Array Int) (kq : Option Cell) (b : Stmt)
    (rnd : Nat → Array Int → M (Array Int)) : Prop :=
  ∀ st t a a', Cx o op n tp p kq st → st.env n!"t" = cu t → t < 4294967296 → Inv DJ st o a st → rnd t a = .ok a' →
    ∃ st', Ex P G b st st' ∧ Inv DJ st o a' st'

theorem outerA_sim {b : Stmt} {rnd : Nat → Array Int → M (Array Int)} {st : State} {a a' : Array Int} (hb : SimRound P G o op n tp p kq b rnd)
    (hC : Cx o op n tp p kq st) (hI : Inv DT st o a st) (h : forShl 1 n rnd a = .ok a') :
    ∃ st', Ex P G (outerA b) st st' ∧ Inv DT st o a' st' := by
  refine Inv.loop (by decide) (fun i a st' hI hi hi' => ?_) (fun i a st' hI hi hi' => ⟨?_, u32_lt _⟩) (fun i a a' st' hI hi hi' _ hab => ?_) hI
    (ev_num _ 1 (by decide)) (by decide) h
  · exact Ev.bin (Ev.var hi rfl) (Ev.var (hC.keep hI (by decide)).en rfl) (binop_ltU hi' hC.hn)
  · exact Ev.bin (Ev.var hi rfl) (ev_num _ 1 (by decide)) (binop_shlU hi')
  · obtain ⟨st2, x2, hI2⟩ := hb st' i a a' (hC.keep hI (by decide)) hi hi' (hI.weaken (by decide)) hab
    exact ⟨st2, x2, hI.trans hI2 (by decide), (hI2.keep _ (by decide)).trans hi⟩

theorem outerG_sim {b : Stmt} {rnd : Nat → Array Int → M (Array Int)} {st : State} {a a' : Array Int} (hb : SimRound P G o op n tp p kq b rnd)
    (hC : Cx o op n tp p kq st) (hI : Inv DT st o a st) (h : forShr (n / 2) rnd a = .ok a') :
    ∃ st', Ex P G (outerG b) st st' ∧ Inv DT st o a' st' := by
  have hn2 : n / 2 < 4294967296 := lt_of_le_of_lt (Nat.div_le_self _ _) hC.hn
  refine Inv.loop (by decide) (fun i a st' hI hi hi' => ?_) (fun i a st' hI hi hi' => ⟨?_, lt_of_le_of_lt (Nat.div_le_self _ _) hi'⟩)
    (fun i a a' st' hI hi hi' _ hab => ?_) hI
    (Ev.bin (Ev.var hC.en rfl) (ev_num _ 1 (by decide)) (binop_shrU hC.hn)) hn2 h
  · exact Ev.bin (Ev.var hi rfl) (ev_num _ 0 (by decide)) (binop_posU hi')
  · exact Ev.bin (Ev.var hi rfl) (ev_num _ 1 (by decide)) (binop_shrU hi')
  · obtain ⟨st2, x2, hI2⟩ := hb st' i a a' (hC.keep hI (by decide)) hi hi' (hI.weaken (by decide)) hab
    exact ⟨st2, x2, hI.trans hI2 (by decide), (hI2.keep _ (by decide)).trans hi⟩

/-- A round within the loops over `t` and `d`. -/
def SimRound2 (P : Prog) (G : Name → Option Cell) (o op n : Nat) (tp : Ty) (p : Array Int) (kq : Option Cell) (b : Stmt)
    (rnd : Nat → Nat → Array Int → M (Array Int)) : Prop :=
  ∀ st t d a a', Cx o op n tp p kq st → st.env n!"t" = cu t → t < 4294967296 → st.env n!"d" = cu d → d < 4294967296 → Inv DU st o a st →
    rnd t d a = .ok a' → ∃ st', Ex P G b st st' ∧ Inv DU st o a' st'

theorem outerCt_sim {b : Stmt} {rnd : Nat → Nat → Array Int → M (Array Int)} {st : State} {a : Array Int} {r : Nat × Array Int}
    (hb : SimRound2 P G o op n tp p kq b rnd) (hC : Cx o op n tp p kq st) (hI : Inv DTD st o a st)
    (h : forShl 1 n (fun t (st : Nat × Array Int) => do
      let d := st.1 / 2
      let a ← rnd t d st.2
      pure (d, a)) (n, a) = .ok r) :
    ∃ st', Ex P G (outerB n!"d" n!"t" b) st st' ∧ Inv DTD st o r.2 st' := by
  obtain ⟨st1, x1, hI1, hd1, e1, m1⟩ := hI.setU (P := P) (G := G) (x := n!"d") (by decide) (Ev.var hC.en rfl) hC.hn
  obtain ⟨st2, x2, hI2, ht2, e2, m2⟩ := hI1.setU (P := P) (G := G) (x := n!"t") (by decide) (ev_num _ 1 (by decide)) (by decide)
  obtain ⟨st3, x3, hI3⟩ := Inv.loop2 (P := P) (G := G) (o := o) (D := DTD) (st₀ := st) (iv := n!"t") (uv := n!"d")
    (c := .bin .lt (.var n!"t") (.var n!"n"))
    (b := .seq (.seq (.assign n!"d" (.bin .shr (.var n!"d") (.num 1))) b) (.assign n!"t" (.bin .shl (.var n!"t") (.num 1))))
    (fun i a st' hI hi hi' => by
      exact Ev.bin (Ev.var hi rfl) (Ev.var (hC.keep hI (by decide)).en rfl) (binop_ltU hi' hC.hn))
    (fun i u a u' a' st' hI hi hi' hu hu' hlt hab => by
      simp only [bind_ok, pure_ok] at hab
      obtain ⟨a1, h1, h2⟩ := hab
      simp only [Prod.mk.injEq] at h2
      obtain ⟨rfl, rfl⟩ := h2
      have hu2 : u / 2 < 4294967296 := lt_of_le_of_lt (Nat.div_le_self _ _) hu'
      obtain ⟨st1, x1, hI1, hd1, e1, m1⟩ := hI.setU (P := P) (G := G) (x := n!"d") (e := .bin .shr (.var n!"d") (.num 1)) (by decide)
        (Ev.bin (Ev.var hu rfl) (ev_num _ 1 (by decide)) (binop_shrU hu')) hu2
      have ht1 := (e1 n!"t" (by decide)).trans hi
      obtain ⟨st2, x2, hI2⟩ := hb st1 i (u / 2) a _ (hC.keep hI1 (by decide)) ht1 hi' hd1 hu2 (hI1.weaken (by decide)) h1
      have hI2' := hI1.trans hI2 (by decide)
      have ht2 := (hI2.keep n!"t" (by decide)).trans ht1
      have hd2 := (hI2.keep n!"d" (by decide)).trans hd1
      obtain ⟨st3, x3, hI3, ht3, e3, m3⟩ := hI2'.setU (P := P) (G := G) (x := n!"t") (e := .bin .shl (.var n!"t") (.num 1)) (by decide)
        (Ev.bin (Ev.var ht2 rfl) (ev_num _ 1 (by decide)) (binop_shlU hi')) (u32_lt _)
      exact ⟨st3, Ex.seq (Ex.seq x1 x2) x3, hI3, ht3, u32_lt _, (e3 n!"d" (by decide)).trans hd2, hu2⟩)
    hI2 ht2 (by decide) ((e2 n!"d" (by decide)).trans hd1) hC.hn h
  exact ⟨st3, Ex.seq x1 (Ex.seq (Ex.seq x2 x3) (Ex.skip _)), hI3⟩

theorem outerGs_sim {b : Stmt} {rnd : Nat → Nat → Array Int → M (Array Int)} {st : State} {a : Array Int} {r : Nat × Array Int}
    (hb : SimRound2 P G o op n tp p kq b rnd) (hC : Cx o op n tp p kq st) (hI : Inv DTD st o a st)
    (h : forShl 1 n (fun d (st : Nat × Array Int) => do
      let t := st.1 / 2
      let a ← rnd t d st.2
      pure (t, a)) (n, a) = .ok r) :
    ∃ st', Ex P G (outerB n!"t" n!"d" b) st st' ∧ Inv DTD st o r.2 st' := by
  obtain ⟨st1, x1, hI1, hd1, e1, m1⟩ := hI.setU (P := P) (G := G) (x := n!"t") (by decide) (Ev.var hC.en rfl) hC.hn
  obtain ⟨st2, x2, hI2, ht2, e2, m2⟩ := hI1.setU (P := P) (G := G) (x := n!"d") (by decide) (ev_num _ 1 (by decide)) (by decide)
  obtain ⟨st3, x3, hI3⟩ := Inv.loop2 (P := P) (G := G) (o := o) (D := DTD) (st₀ := st) (iv := n!"d") (uv := n!"t")
    (c := .bin .lt (.var n!"d") (.var n!"n"))
    (b := .seq (.seq (.assign n!"t" (.bin .shr (.var n!"t") (.num 1))) b) (.assign n!"d" (.bin .shl (.var n!"d") (.num 1))))
    (fun i a st' hI hi hi' => by
      exact Ev.bin (Ev.var hi rfl) (Ev.var (hC.keep hI (by decide)).en rfl) (binop_ltU hi' hC.hn))
    (fun i u a u' a' st' hI hi hi' hu hu' hlt hab => by
      simp only [bind_ok, pure_ok] at hab
      obtain ⟨a1, h1, h2⟩ := hab
      simp only [Prod.mk.injEq] at h2
      obtain ⟨rfl, rfl⟩ := h2
      have hu2 : u / 2 < 4294967296 := lt_of_le_of_lt (Nat.div_le_self _ _) hu'
      obtain ⟨st1, x1, hI1, hd1, e1, m1⟩ := hI.setU (P := P) (G := G) (x := n!"t") (e := .bin .shr (.var n!"t") (.num 1)) (by decide)
        (Ev.bin (Ev.var hu rfl) (ev_num _ 1 (by decide)) (binop_shrU hu')) hu2
      have ht1 := (e1 n!"d" (by decide)).trans hi
      obtain ⟨st2, x2, hI2⟩ := hb st1 (u / 2) i a _ (hC.keep hI1 (by decide)) hd1 hu2 ht1 hi' (hI1.weaken (by decide)) h1
      have hI2' := hI1.trans hI2 (by decide)
      have ht2 := (hI2.keep n!"d" (by decide)).trans ht1
      have hd2 := (hI2.keep n!"t" (by decide)).trans hd1
      obtain ⟨st3, x3, hI3, ht3, e3, m3⟩ := hI2'.setU (P := P) (G := G) (x := n!"d") (e := .bin .shl (.var n!"d") (.num 1)) (by decide)
        (Ev.bin (Ev.var ht2 rfl) (ev_num _ 1 (by decide)) (binop_shlU hi')) (u32_lt _)
      exact ⟨st3, Ex.seq (Ex.seq x1 x2) x3, hI3, ht3, u32_lt _, (e3 n!"t" (by decide)).trans hd2, hu2⟩)
    hI2 ht2 (by decide) ((e2 n!"t" (by decide)).trans hd1) hC.hn h
  exact ⟨st3, Ex.seq x1 (Ex.seq (Ex.seq x2 x3) (Ex.skip _)), hI3⟩

end
end CLang
