import Verif.Proofs.CTrace
import Verif.Proofs.CTraceMore
import Verif.Proofs.CRunSizesRed
import Verif.Proofs.CRunSizesNtt
import Verif.Proofs.CRunSizesNaive

/-
What the products and the transforms show does not depend on data (C93).
-/

namespace CLang
open C

/-- The tables are public. -/
def arrLab (N : List Name) : Name → Lab := fun x => if N.contains x then .tab 1 else .int

/-- The functions `gs` are accepted, with arguments of labels `ls`. -/
def accepted (P : Prog) (N : List Name) (X : List (Name × List Name)) (ls : List Lab) (gs : List Name) : Bool :=
  let A := findAll P (arrLab N) X
  okAll P A (arrLab N) && gs.all fun g => match P.lookup g, A.lookup g with
    | some fn, some s => fits s.vars fn.params ls
    | _, _ => false

theorem accepted_rel {P : Prog} {N : List Name} {X : List (Name × List Name)} {ls : List Lab} {gs : List Name} (h : accepted P N X ls gs = true) {g : Name}
    (hg : g ∈ gs) {Pub : Zone} {G : Name → Option Cell} (hG : RG Pub (arrLab N) G) {vs vs' : List Val} {m m' r r' : Nat → Obj} {f : Nat} (hv : RVs Pub ls vs vs')
    (hm : RM Pub m m') (h1 : call P G f g vs m = .ok r) (h2 : call P G f g vs' m' = .ok r') : callTrace P G f g vs m = callTrace P G f g vs' m' := by
  simp only [accepted, Bool.and_eq_true, List.all_eq_true] at h
  have := h.2 g hg
  split at this
  · rename_i fn s hp ha
    exact callTrace_rel h.1 hG hp ha this hv hm h1 h2
  · exact absurd this (by simp)

theorem Globals.tab {N : ConstNames} {ty : Ty} {T : Consts} {x : Name} (hx : x ∈ N.arrays) :
    ∃ p, ∀ {G : Name → Option Cell} {mem : Nat → Obj} {X : List Nat}, Globals N ty T G mem X → Tab G mem X x ty p := by
  simp only [ConstNames.arrays, List.mem_cons, List.not_mem_nil, or_false] at hx
  rcases hx with rfl | rfl | rfl | rfl | rfl | rfl | rfl | rfl | rfl | rfl
  · exact ⟨_, fun h => h.psi_powers⟩
  · exact ⟨_, fun h => h.scaled_inv_psi_powers⟩
  · exact ⟨_, fun h => h.omega_powers⟩
  · exact ⟨_, fun h => h.omega_powers_rev⟩
  · exact ⟨_, fun h => h.inv_omega_powers⟩
  · exact ⟨_, fun h => h.inv_omega_powers_rev⟩
  · exact ⟨_, fun h => h.mixed_powers⟩
  · exact ⟨_, fun h => h.mixed_powers_rev⟩
  · exact ⟨_, fun h => h.inv_mixed_powers⟩
  · exact ⟨_, fun h => h.inv_mixed_powers_rev⟩

/-- The tables are public, the arrays `X` are not. -/
def zone (G : Name → Option Cell) (X : List Nat) : Zone := ⟨fun o => ∃ x i w, G x = some (.ptr o i w), fun o => o ∈ X⟩

theorem zone_rel {N : ConstNames} {ty : Ty} {T : Consts} {G : Name → Option Cell} {m m' : Nat → Obj} {X : List Nat} (hN : OnlyTables N G) (h : Globals N ty T G m X)
    (h' : Globals N ty T G m' X) (hX : ∀ o ∈ X, (m o).ty = (m' o).ty) :
    RG (zone G X) (arrLab N.arrays) G ∧ RM (zone G X) m m' ∧ ∀ o ∈ X, ¬ (zone G X).pub o := by
  refine ⟨fun x c hx => ?_, fun o => ⟨fun ho => hX o ho, fun ho => ?_⟩, fun o ho hp => ?_⟩
  · by_cases hm : x ∈ N.arrays
    · have e : arrLab N.arrays x = .tab 1 := by unfold arrLab; rw [if_pos]; simpa using hm
      obtain ⟨p, hp⟩ := Globals.tab (ty := ty) (T := T) hm
      obtain ⟨o, ho, _⟩ := hp h
      rw [hx] at ho
      cases ho
      rw [e]
      exact ⟨o, 0, rfl, x, 0, 1, hx⟩
    · have e : arrLab N.arrays x = .int := by unfold arrLab; rw [if_neg]; simpa using hm
      rw [e]
      cases c with
      | int t v => exact ⟨t, v, rfl⟩
      | ptr o i w => exact absurd (hN x o i w hx) hm
  · obtain ⟨x, i, w, hx⟩ := ho
    obtain ⟨p, hp⟩ := Globals.tab (ty := ty) (T := T) (hN x o i w hx)
    obtain ⟨o1, a, _, b⟩ := hp h
    obtain ⟨o2, a', _, b'⟩ := hp h'
    rw [hx] at a a'
    cases a; cases a'
    rw [b, b']
  · obtain ⟨x, i, w, hx⟩ := hp
    obtain ⟨p, hp⟩ := Globals.tab (ty := ty) (T := T) (hN x o i w hx)
    obtain ⟨o1, a, b, _⟩ := hp h
    rw [hx] at a
    cases a
    exact b ho

theorem sameTrace {k : Nat} {P : Prog} {N : ConstNames} {ty : Ty} {T : Consts} {lo hi : Int} {g : Name} (hM : Multiplies k P N ty T lo hi g)
    {X : List (Name × List Name)} {gs : List Name} (hA : accepted P N.arrays X [.out, .out, .out] gs = true) (hg : g ∈ gs) : SameTrace k P N ty T g := by
  intro G oc oa ob h1 h2 h3 hN
  by_cases hex : ∃ (mem : Nat → Obj) (c a b : Array Int), Globals N ty T G mem [oc, oa, ob] ∧ mem oc = ⟨.i32, c⟩ ∧ mem oa = ⟨.i32, a⟩ ∧ mem ob = ⟨.i32, b⟩ ∧
      c.size = 2 ^ k ∧ a.size = 2 ^ k ∧ b.size = 2 ^ k ∧ Spec.InRange (-2147483648) 2147483647 c ∧ Spec.Reduced a ∧ Spec.Reduced b
  · obtain ⟨mem, c, a, b, g1, g2, g3, g4, g5, g6, g7, g8, g9, g10⟩ := hex
    obtain ⟨r, -, ⟨n, hn⟩, -⟩ := hM G mem oc oa ob c a b h1 h2 h3 g1 g2 g3 g4 g5 g6 g7 g8 g9 g10
    refine ⟨callTrace P G n g [.ptr oc 0 1, .ptr oa 0 1, .ptr ob 0 1] mem, fun mem' c' a' b' k1 k2 k3 k4 k5 k6 k7 k8 k9 k10 => ?_⟩
    obtain ⟨r', -, hc, -⟩ := hM G mem' oc oa ob c' a' b' h1 h2 h3 k1 k2 k3 k4 k5 k6 k7 k8 k9 k10
    refine ⟨⟨r', hc⟩, ?_⟩
    obtain ⟨n', hn'⟩ := hc
    refine ⟨n + n', fun f hf => ?_⟩
    obtain ⟨d, rfl⟩ : ∃ d, f = n + d := ⟨f - n, by omega⟩
    obtain ⟨e1, e2⟩ := callTrace_le (hn n (Nat.le_refl _)) d
    obtain ⟨z1, z2, z3⟩ := zone_rel hN g1 k1 (by
      intro o ho
      simp only [List.mem_cons, List.not_mem_nil, or_false] at ho
      rcases ho with rfl | rfl | rfl
      · rw [g2, k2]
      · rw [g3, k3]
      · rw [g4, k4])
    rw [← e2]
    refine (accepted_rel hA hg z1 (.cons ⟨oc, 0, rfl, rfl, z3 _ (by simp), ?_⟩ (.cons ⟨oa, 0, rfl, rfl, z3 _ (by simp), ?_⟩
      (.cons ⟨ob, 0, rfl, rfl, z3 _ (by simp), ?_⟩ .nil))) z2 e1 (hn' _ (by omega))).symm <;> simp [zone]
  · exact ⟨[], fun mem c a b k1 k2 k3 k4 k5 k6 k7 k8 k9 k10 => absurd ⟨mem, c, a, b, k1, k2, k3, k4, k5, k6, k7, k8, k9, k10⟩ hex⟩

theorem sameTraceOn {P : Prog} {N : ConstNames} {ty : Ty} {T : Consts} {g : Name} {F : Array Int → M (Array Int)} (hM : Changes P N ty T g F)
    {X : List (Name × List Name)} {gs : List Name} (hA : accepted P N.arrays X [.out] gs = true) (hg : g ∈ gs) : SameTraceOn P N ty T g F := by
  intro G o hN
  by_cases hex : ∃ (mem : Nat → Obj) (a a' : Array Int), Globals N ty T G mem [o] ∧ mem o = ⟨.i32, a⟩ ∧ Spec.InRange (-2147483648) 2147483647 a ∧ F a = .ok a'
  · obtain ⟨mem, a, b, g1, g2, g3, g4⟩ := hex
    obtain ⟨r, ⟨n, hn⟩, -⟩ := hM G mem o a b g1 g2 g3 g4
    refine ⟨callTrace P G n g [.ptr o 0 1] mem, fun mem' a' b' k1 k2 k3 k4 => ?_⟩
    obtain ⟨r', hc, -⟩ := hM G mem' o a' b' k1 k2 k3 k4
    refine ⟨⟨r', hc⟩, ?_⟩
    obtain ⟨n', hn'⟩ := hc
    refine ⟨n + n', fun f hf => ?_⟩
    obtain ⟨d, rfl⟩ : ∃ d, f = n + d := ⟨f - n, by omega⟩
    obtain ⟨e1, e2⟩ := callTrace_le (hn n (Nat.le_refl _)) d
    obtain ⟨z1, z2, z3⟩ := zone_rel hN g1 k1 (by
      intro o ho
      simp only [List.mem_cons, List.not_mem_nil, or_false] at ho
      subst ho
      rw [g2, k2])
    rw [← e2]
    refine (accepted_rel hA hg z1 (.cons ⟨o, 0, rfl, rfl, z3 _ (by simp), ?_⟩ .nil) z2 e1 (hn' _ (by omega))).symm
    simp [zone]
  · exact ⟨[], fun mem a a' k1 k2 k3 k4 => absurd ⟨mem, a, a', k1, k2, k3, k4⟩ hex⟩

/-- Nothing is public. -/
theorem sameFrom {P : Prog} {X : List (Name × List Name)} {ls : List Lab} {gs : List Name} (hA : accepted P [] X ls gs = true) {g : Name} (hg : g ∈ gs) {vs vs' : List Val}
    (hv : RVs ⟨fun _ => False, fun _ => True⟩ ls vs vs') : SameFrom P g vs vs' := by
  intro G f mem mem' r r' hG hm h h'
  refine accepted_rel hA hg (fun x c hx => ?_) hv (fun o => ⟨fun _ => hm o, fun h => h.elim⟩) h h'
  have e : arrLab [] x = .int := rfl
  rw [e]
  cases c with
  | int t v => exact ⟨t, v, rfl⟩
  | ptr o i w => exact absurd hx (hG x o i w)

theorem rv_out (o k : Nat) : RV ⟨fun _ => False, fun _ => True⟩ .out (.ptr o k 1) (.ptr o k 1) := ⟨o, k, rfl, rfl, fun h => h, trivial⟩
theorem rv_int {Pub : Zone} (t : Ty) (n : Int) : RV Pub .int (.int t n) (.int t n) := ⟨t, n, rfl, rfl⟩
theorem rv_sec {Pub : Zone} (t : Ty) (n m : Int) : RV Pub .sec (.int t n) (.int t m) := ⟨t, n, m, rfl, rfl⟩

/-- The table of pairs is public. -/
theorem sameShuffle {P : Prog} {X : List (Name × List Name)} {g : Name} (hA : accepted P [] X [.out, .tab 2, .int] [g] = true)
    {G : Name → Option Cell} (hG : ∀ x o i w, G x ≠ some (.ptr o i w)) {oa op ka kp f : Nat} {n : Int} (ho : oa ≠ op) {mem mem' r r' : Nat → Obj} (ht : (mem oa).ty = (mem' oa).ty)
    (hp : mem op = mem' op) (h : call P G f g [.ptr oa ka 1, .ptr op kp 2, .int .u32 n] mem = .ok r)
    (h' : call P G f g [.ptr oa ka 1, .ptr op kp 2, .int .u32 n] mem' = .ok r') :
    callTrace P G f g [.ptr oa ka 1, .ptr op kp 2, .int .u32 n] mem = callTrace P G f g [.ptr oa ka 1, .ptr op kp 2, .int .u32 n] mem' := by
  refine accepted_rel (Pub := ⟨fun o => o = op, fun o => o = oa⟩) hA (List.mem_singleton.2 rfl) (fun x c hx => ?_)
    (.cons ⟨oa, ka, rfl, rfl, ho, rfl⟩ (.cons ⟨op, kp, rfl, rfl, rfl⟩ (.cons (rv_int _ _) .nil)))
    (fun o => ⟨fun e => ?_, fun e => ?_⟩) h h'
  · have e : arrLab [] x = .int := rfl
    rw [e]
    cases c with
    | int t v => exact ⟨t, v, rfl⟩
    | ptr o i w => exact absurd hx (hG x o i w)
  · have e : o = oa := e
    rw [e, ht]
  · have e : o = op := e
    rw [e, hp]

/-! ### The programs -/

/-- The result of `divq` is secret. -/
def secrets : List (Name × List Name) := [(n!"divq", [0])]

theorem RedProd.transforms16_ok : accepted RedProd.prog16 redNames16.arrays secrets [.out]
    [n!"ntt_red16_ct_rev2std", n!"ntt_red16_gs_rev2std", n!"ntt_red16_ct_std2rev", n!"ntt_red16_gs_std2rev", n!"intt_red16_ct_rev2std", n!"intt_red16_gs_rev2std", n!"intt_red16_ct_std2rev", n!"intt_red16_gs_std2rev", n!"mulntt_red16_ct_rev2std", n!"mulntt_red16_ct_std2rev", n!"inttmul_red16_gs_rev2std", n!"inttmul_red16_gs_std2rev"] = true := by
  decide +kernel

theorem RedProd.transforms256_ok : accepted RedProd.prog256 redNames256.arrays secrets [.out]
    [n!"ntt_red256_ct_rev2std", n!"ntt_red256_gs_rev2std", n!"ntt_red256_ct_std2rev", n!"ntt_red256_gs_std2rev", n!"intt_red256_ct_rev2std", n!"intt_red256_gs_rev2std", n!"intt_red256_ct_std2rev", n!"intt_red256_gs_std2rev", n!"mulntt_red256_ct_rev2std", n!"mulntt_red256_ct_std2rev", n!"inttmul_red256_gs_rev2std", n!"inttmul_red256_gs_std2rev"] = true := by
  decide +kernel

theorem RedProd.transforms512_ok : accepted RedProd.prog512 redNames512.arrays secrets [.out]
    [n!"ntt_red512_ct_rev2std", n!"ntt_red512_gs_rev2std", n!"ntt_red512_ct_std2rev", n!"ntt_red512_gs_std2rev", n!"intt_red512_ct_rev2std", n!"intt_red512_gs_rev2std", n!"intt_red512_ct_std2rev", n!"intt_red512_gs_std2rev", n!"mulntt_red512_ct_rev2std", n!"mulntt_red512_ct_std2rev", n!"inttmul_red512_gs_rev2std", n!"inttmul_red512_gs_std2rev"] = true := by
  decide +kernel

theorem RedProd.transforms1024_ok : accepted RedProd.prog1024 redNames1024.arrays secrets [.out]
    [n!"ntt_red1024_ct_rev2std", n!"ntt_red1024_gs_rev2std", n!"ntt_red1024_ct_std2rev", n!"ntt_red1024_gs_std2rev", n!"intt_red1024_ct_rev2std", n!"intt_red1024_gs_rev2std", n!"intt_red1024_ct_std2rev", n!"intt_red1024_gs_std2rev", n!"mulntt_red1024_ct_rev2std", n!"mulntt_red1024_ct_std2rev", n!"inttmul_red1024_gs_rev2std", n!"inttmul_red1024_gs_std2rev"] = true := by
  decide +kernel

theorem RedProd.products1024_ok : accepted RedProd.prog1024 redNames1024.arrays secrets [.out, .out, .out]
    [n!"ntt_red1024_product1", n!"ntt_red1024_product2", n!"ntt_red1024_product3", n!"ntt_red1024_product4", n!"ntt_red1024_product5"] = true := by
  decide +kernel

theorem NttProd.transforms16_ok : accepted NttProd.prog16 nttNames16.arrays secrets [.out]
    [n!"ntt16_ct_rev2std", n!"ntt16_gs_rev2std", n!"ntt16_ct_std2rev", n!"ntt16_gs_std2rev", n!"intt16_ct_rev2std", n!"intt16_gs_rev2std", n!"intt16_ct_std2rev", n!"intt16_gs_std2rev", n!"mulntt16_ct_rev2std", n!"mulntt16_ct_std2rev", n!"inttmul16_gs_rev2std", n!"inttmul16_gs_std2rev"] = true := by
  decide +kernel

theorem NttProd.products16_ok : accepted NttProd.prog16 nttNames16.arrays secrets [.out, .out, .out]
    [n!"ntt16_product1", n!"ntt16_product2", n!"ntt16_product3", n!"ntt16_product4", n!"ntt16_product5"] = true := by
  decide +kernel

theorem NttProd.transforms256_ok : accepted NttProd.prog256 nttNames256.arrays secrets [.out]
    [n!"ntt256_ct_rev2std", n!"ntt256_gs_rev2std", n!"ntt256_ct_std2rev", n!"ntt256_gs_std2rev", n!"intt256_ct_rev2std", n!"intt256_gs_rev2std", n!"intt256_ct_std2rev", n!"intt256_gs_std2rev", n!"mulntt256_ct_rev2std", n!"mulntt256_ct_std2rev", n!"inttmul256_gs_rev2std", n!"inttmul256_gs_std2rev"] = true := by
  decide +kernel

theorem NttProd.products256_ok : accepted NttProd.prog256 nttNames256.arrays secrets [.out, .out, .out]
    [n!"ntt256_product1", n!"ntt256_product2", n!"ntt256_product3", n!"ntt256_product4", n!"ntt256_product5"] = true := by
  decide +kernel

theorem NttProd.transforms512_ok : accepted NttProd.prog512 nttNames512.arrays secrets [.out]
    [n!"ntt512_ct_rev2std", n!"ntt512_gs_rev2std", n!"ntt512_ct_std2rev", n!"ntt512_gs_std2rev", n!"intt512_ct_rev2std", n!"intt512_gs_rev2std", n!"intt512_ct_std2rev", n!"intt512_gs_std2rev", n!"mulntt512_ct_rev2std", n!"mulntt512_ct_std2rev", n!"inttmul512_gs_rev2std", n!"inttmul512_gs_std2rev"] = true := by
  decide +kernel

theorem NttProd.products512_ok : accepted NttProd.prog512 nttNames512.arrays secrets [.out, .out, .out]
    [n!"ntt512_product1", n!"ntt512_product2", n!"ntt512_product3", n!"ntt512_product4", n!"ntt512_product5"] = true := by
  decide +kernel

theorem NttProd.transforms1024_ok : accepted NttProd.prog1024 nttNames1024.arrays secrets [.out]
    [n!"ntt1024_ct_rev2std", n!"ntt1024_gs_rev2std", n!"ntt1024_ct_std2rev", n!"ntt1024_gs_std2rev", n!"intt1024_ct_rev2std", n!"intt1024_gs_rev2std", n!"intt1024_ct_std2rev", n!"intt1024_gs_std2rev", n!"mulntt1024_ct_rev2std", n!"mulntt1024_ct_std2rev", n!"inttmul1024_gs_rev2std", n!"inttmul1024_gs_std2rev"] = true := by
  decide +kernel

theorem NttProd.products1024_ok : accepted NttProd.prog1024 nttNames1024.arrays secrets [.out, .out, .out]
    [n!"ntt1024_product1", n!"ntt1024_product2", n!"ntt1024_product3", n!"ntt1024_product4", n!"ntt1024_product5"] = true := by
  decide +kernel

theorem NaiveProd.transforms16_ok : accepted NaiveProd.prog16 nttNames16.arrays secrets [.out]
    [n!"naive_ntt16_ct_rev2std", n!"naive_ntt16_gs_rev2std", n!"naive_ntt16_ct_std2rev", n!"naive_ntt16_gs_std2rev", n!"naive_intt16_ct_rev2std", n!"naive_intt16_gs_rev2std", n!"naive_intt16_ct_std2rev", n!"naive_intt16_gs_std2rev", n!"naive_mulntt16_ct_rev2std", n!"naive_mulntt16_ct_std2rev", n!"naive_inttmul16_gs_rev2std", n!"naive_inttmul16_gs_std2rev"] = true := by
  decide +kernel

theorem NaiveProd.products16_ok : accepted NaiveProd.prog16 nttNames16.arrays secrets [.out, .out, .out]
    [n!"naive_ntt16_product1", n!"naive_ntt16_product2", n!"naive_ntt16_product3", n!"naive_ntt16_product4", n!"naive_ntt16_product5"] = true := by
  decide +kernel

theorem NaiveProd.transforms256_ok : accepted NaiveProd.prog256 nttNames256.arrays secrets [.out]
    [n!"naive_ntt256_ct_rev2std", n!"naive_ntt256_gs_rev2std", n!"naive_ntt256_ct_std2rev", n!"naive_ntt256_gs_std2rev", n!"naive_intt256_ct_rev2std", n!"naive_intt256_gs_rev2std", n!"naive_intt256_ct_std2rev", n!"naive_intt256_gs_std2rev", n!"naive_mulntt256_ct_rev2std", n!"naive_mulntt256_ct_std2rev", n!"naive_inttmul256_gs_rev2std", n!"naive_inttmul256_gs_std2rev"] = true := by
  decide +kernel

theorem NaiveProd.products256_ok : accepted NaiveProd.prog256 nttNames256.arrays secrets [.out, .out, .out]
    [n!"naive_ntt256_product1", n!"naive_ntt256_product2", n!"naive_ntt256_product3", n!"naive_ntt256_product4", n!"naive_ntt256_product5"] = true := by
  decide +kernel

theorem NaiveProd.transforms512_ok : accepted NaiveProd.prog512 nttNames512.arrays secrets [.out]
    [n!"naive_ntt512_ct_rev2std", n!"naive_ntt512_gs_rev2std", n!"naive_ntt512_ct_std2rev", n!"naive_ntt512_gs_std2rev", n!"naive_intt512_ct_rev2std", n!"naive_intt512_gs_rev2std", n!"naive_intt512_ct_std2rev", n!"naive_intt512_gs_std2rev", n!"naive_mulntt512_ct_rev2std", n!"naive_mulntt512_ct_std2rev", n!"naive_inttmul512_gs_rev2std", n!"naive_inttmul512_gs_std2rev"] = true := by
  decide +kernel

theorem NaiveProd.products512_ok : accepted NaiveProd.prog512 nttNames512.arrays secrets [.out, .out, .out]
    [n!"naive_ntt512_product1", n!"naive_ntt512_product2", n!"naive_ntt512_product3", n!"naive_ntt512_product4", n!"naive_ntt512_product5"] = true := by
  decide +kernel

theorem NaiveProd.transforms1024_ok : accepted NaiveProd.prog1024 nttNames1024.arrays secrets [.out]
    [n!"naive_ntt1024_ct_rev2std", n!"naive_ntt1024_gs_rev2std", n!"naive_ntt1024_ct_std2rev", n!"naive_ntt1024_gs_std2rev", n!"naive_intt1024_ct_rev2std", n!"naive_intt1024_gs_rev2std", n!"naive_intt1024_ct_std2rev", n!"naive_intt1024_gs_std2rev", n!"naive_mulntt1024_ct_rev2std", n!"naive_mulntt1024_ct_std2rev", n!"naive_inttmul1024_gs_rev2std", n!"naive_inttmul1024_gs_std2rev"] = true := by
  decide +kernel

theorem NaiveProd.products1024_ok : accepted NaiveProd.prog1024 nttNames1024.arrays secrets [.out, .out, .out]
    [n!"naive_ntt1024_product1", n!"naive_ntt1024_product2", n!"naive_ntt1024_product3", n!"naive_ntt1024_product4", n!"naive_ntt1024_product5"] = true := by
  decide +kernel

end CLang
