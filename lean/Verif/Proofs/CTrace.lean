import Verif.SpecSourceTrace
import Verif.Proofs.CTraceCheck
import Verif.Proofs.CRun

/-
Two runs of a function that is accepted by `okFun`, with the same public data, show the same.
-/

namespace CLang
open C

/-- Objects that are public, and others that are used. -/
structure Zone where
  pub : Nat → Prop
  acc : Nat → Prop

/-- Values with the label in the two runs. -/
def RV (Pub : Zone) : Lab → Val → Val → Prop
  | .int, v, w => ∃ t x, v = .int t x ∧ w = .int t x
  | .sec, v, w => ∃ t x y, v = .int t x ∧ w = .int t y
  | .tab n, v, w => ∃ o k, v = .ptr o k n ∧ w = .ptr o k n ∧ Pub.pub o
  | .out, v, w => ∃ o k, v = .ptr o k 1 ∧ w = .ptr o k 1 ∧ ¬ Pub.pub o ∧ Pub.acc o
  | .arr, v, w => ∃ o k, v = .ptr o k 1 ∧ w = .ptr o k 1 ∧ (Pub.pub o ∨ Pub.acc o)

/-- Contents of variables. -/
def RC (Pub : Zone) : Lab → Option Cell → Option Cell → Prop
  | .int, v, w => ∃ t x, v = some (.int t x) ∧ w = some (.int t x)
  | .sec, v, w => ∃ t x y, v = some (.int t x) ∧ w = some (.int t y)
  | .tab n, v, w => ∃ o k, v = some (.ptr o k n) ∧ w = some (.ptr o k n) ∧ Pub.pub o
  | .out, v, w => ∃ o k, v = some (.ptr o k 1) ∧ w = some (.ptr o k 1) ∧ ¬ Pub.pub o ∧ Pub.acc o
  | .arr, v, w => ∃ o k, v = some (.ptr o k 1) ∧ w = some (.ptr o k 1) ∧ (Pub.pub o ∨ Pub.acc o)

def RE (Pub : Zone) (L : List (Name × Lab)) (e e' : Name → Option Cell) : Prop :=
  ∀ x, match L.lookup x with
    | none => e x = none ∧ e' x = none
    | some l => (l.isInt = true ∧ e x = none ∧ e' x = none) ∨ RC Pub l (e x) (e' x)

/-- Memory: the same objects, with the same contents if they are public. -/
def RM (Pub : Zone) (m m' : Nat → Obj) : Prop :=
  ∀ o, (Pub.acc o → (m o).ty = (m' o).ty) ∧ (Pub.pub o → m o = m' o)

structure RS (Pub : Zone) (L : List (Name × Lab)) (s s' : State) : Prop where
  env : RE Pub L s.env s'.env
  mem : RM Pub s.mem s'.mem

/-- What a statement returns. -/
def RO (Pub : Zone) (r : Lab) : Option Val → Option Val → Prop
  | none, none => True
  | some v, some w => (v = .brk ∧ w = .brk) ∨ RV Pub r v w
  | _, _ => False

/-- The global constants: arrays are public and have the names of tables. -/
def RG (Pub : Zone) (D : Name → Lab) (G : Name → Option Cell) : Prop :=
  ∀ x c, G x = some c → match D x with
    | .tab w => ∃ o k, c = .ptr o k w ∧ Pub.pub o
    | .int => ∃ t v, c = .int t v
    | _ => False

inductive RVs (Pub : Zone) : List Lab → List Val → List Val → Prop
  | nil : RVs Pub [] [] []
  | cons {l ls v vs w ws} : RV Pub l v w → RVs Pub ls vs ws → RVs Pub (l :: ls) (v :: vs) (w :: ws)

section
variable {Pub : Zone}

theorem RV.sub {l l' : Lab} {v w : Val} (h : l.sub l' = true) (hv : RV Pub l v w) : RV Pub l' v w := by
  simp only [Lab.sub, Bool.or_eq_true, decide_eq_true_eq, Bool.and_eq_true] at h
  rcases h with ((h | ⟨h1, h2⟩) | ⟨h1, h2⟩) | ⟨h1, h2⟩
  · subst h; exact hv
  · subst h1; subst h2; obtain ⟨t, x, h, h'⟩ := hv; exact ⟨t, x, x, h, h'⟩
  · subst h1; subst h2; obtain ⟨o, k, h, h', hp⟩ := hv; exact ⟨o, k, h, h', .inl hp⟩
  · subst h1; subst h2; obtain ⟨o, k, h, h', hp⟩ := hv; exact ⟨o, k, h, h', .inr hp.2⟩

theorem RV.isInt {l : Lab} {v w : Val} (h : l.isInt = true) (hv : RV Pub l v w) : ∃ t x y, v = .int t x ∧ w = .int t y ∧ (l = .int → x = y) := by
  cases l with
  | int => obtain ⟨t, x, h, h'⟩ := hv; exact ⟨t, x, x, h, h', fun _ => rfl⟩
  | sec => obtain ⟨t, x, y, h, h'⟩ := hv; exact ⟨t, x, y, h, h', by simp⟩
  | _ => simp [Lab.isInt] at h

theorem RV.mkInt {l : Lab} (h : l.isInt = true) {t : Ty} {x y : Int} (hxy : l = .int → x = y) : RV Pub l (.int t x) (.int t y) := by
  cases l with
  | int => obtain rfl := hxy rfl; exact ⟨t, x, rfl, rfl⟩
  | sec => exact ⟨t, x, y, rfl, rfl⟩
  | _ => simp [Lab.isInt] at h

theorem RV.join {l l' : Lab} (h : l.isInt = true) {v w : Val} (hv : RV Pub l v w) : RV Pub (l.join l') v w ∧ RV Pub (l'.join l) v w := by
  obtain ⟨t, x, y, rfl, rfl, hxy⟩ := hv.isInt h
  have a : (l.join l').isInt = true ∧ (l.join l' = .int → l = .int) := by unfold Lab.join; split <;> simp_all [Lab.isInt]
  have b : (l'.join l).isInt = true ∧ (l'.join l = .int → l = .int) := by unfold Lab.join; split <;> simp_all [Lab.isInt]
  exact ⟨.mkInt a.1 fun e => hxy (a.2 e), .mkInt b.1 fun e => hxy (b.2 e)⟩

/-! ### Operators -/

/-- The type of the result. -/
def resTy (o : Bin) (s t : Ty) : Ty :=
  match o with
  | .shl | .shr => promote s
  | .lt | .gt | .le | .ge | .eq | .ne => .i32
  | _ => common s t

theorem binop_ty {o : Bin} {s t : Ty} {x y : Int} {v : Val} (h : binop o (.int s x) (.int t y) = .ok v) : ∃ z, v = .int (resTy o s t) z := by
  have sh : ∀ {left : Bool} {t : Ty} {x y : Int}, shift left t x y = .ok v → ∃ z, v = .int t z := by
    intro left t x y h
    unfold shift at h
    split at h
    · exact absurd h (by simp)
    · split at h
      · split at h
        · split at h
          · exact absurd h (by simp)
          · rw [bind_ok] at h; obtain ⟨z, _, h⟩ := h; cases h; exact ⟨_, rfl⟩
        · split at h
          · exact absurd h (by simp)
          · rw [bind_ok] at h; obtain ⟨z, _, h⟩ := h; cases h; exact ⟨_, rfl⟩
        · cases h; exact ⟨_, rfl⟩
      · cases h; exact ⟨_, rfl⟩
  cases o <;> simp only [binop, resTy] at h ⊢
  case shl => exact sh h
  case shr => exact sh h
  all_goals simp only [arith, truth] at h
  case add | sub | mul => rw [bind_ok] at h; obtain ⟨z, _, h⟩ := h; cases h; exact ⟨_, rfl⟩
  case div | rem =>
    split at h
    · exact absurd h (by simp)
    · rw [bind_ok] at h; obtain ⟨z, _, h⟩ := h; cases h; exact ⟨_, rfl⟩
  all_goals cases h; exact ⟨_, rfl⟩

theorem binopAt_rel {m m' : Nat → Obj} {o : Bin} {la lb : Lab} {l : Lab}
    (hl : (if la.isInt && lb.isInt then some (la.join lb) else if o = .add && lb = .int && !la.isInt then some la else none) = some l)
    {x x' y y' v v' : Val} (hx : RV Pub la x x') (hy : RV Pub lb y y') (h : binopAt m o x y = .ok v) (h' : binopAt m' o x' y' = .ok v') :
    RV Pub l v v' := by
  split at hl
  · rename_i hc
    rw [Bool.and_eq_true] at hc
    obtain ⟨s, p, p', rfl, rfl, hp⟩ := hx.isInt hc.1
    obtain ⟨t, q, q', rfl, rfl, hq⟩ := hy.isInt hc.2
    injection hl with hl
    subst hl
    simp only [binopAt] at h h'
    by_cases hi : la = .int ∧ lb = .int
    · obtain rfl := hp hi.1
      obtain rfl := hq hi.2
      rw [h] at h'
      cases h'
      obtain ⟨z, rfl⟩ := binop_ty h
      simp only [Lab.join, hi.1, hi.2]
      exact ⟨_, _, rfl, rfl⟩
    · obtain ⟨z, rfl⟩ := binop_ty h
      obtain ⟨z', rfl⟩ := binop_ty h'
      have : la.join lb = .sec := by
        unfold Lab.join; rw [if_neg]; simp only [Bool.and_eq_true, decide_eq_true_eq]; exact hi
      rw [this]
      exact ⟨_, _, _, rfl, rfl⟩
  · split at hl
    · rename_i hc
      simp only [Bool.and_eq_true, decide_eq_true_eq, Bool.not_eq_true'] at hc
      obtain ⟨⟨rfl, rfl⟩, hn⟩ := hc
      injection hl with hl
      subst hl
      obtain ⟨t, i, rfl, rfl⟩ := hy
      have key : ∀ {o k n : Nat} {v v' : Val}, binopAt m .add (.ptr o k n) (.int t i) = .ok v → binopAt m' .add (.ptr o k n) (.int t i) = .ok v' →
          ∃ j, v = .ptr o j n ∧ v' = .ptr o j n := by
        intro o k n v v' h h'
        simp only [binopAt] at h h'
        rw [bind_ok] at h h'
        obtain ⟨j, hj, h⟩ := h
        obtain ⟨j', hj', h'⟩ := h'
        rw [hj] at hj'
        cases hj'
        split at h
        · split at h'
          · cases h; cases h'; exact ⟨_, rfl, rfl⟩
          · exact absurd h' (by simp)
        · exact absurd h (by simp)
      cases la with
      | int => simp [Lab.isInt] at hn
      | sec => simp [Lab.isInt] at hn
      | tab n =>
        obtain ⟨o, k, rfl, rfl, hp⟩ := hx
        obtain ⟨j, rfl, rfl⟩ := key h h'
        exact ⟨_, _, rfl, rfl, hp⟩
      | out =>
        obtain ⟨o, k, rfl, rfl, hp⟩ := hx
        obtain ⟨j, rfl, rfl⟩ := key h h'
        exact ⟨_, _, rfl, rfl, hp⟩
      | arr =>
        obtain ⟨o, k, rfl, rfl, hp⟩ := hx
        obtain ⟨j, rfl, rfl⟩ := key h h'
        exact ⟨_, _, rfl, rfl, hp⟩
    · exact absurd hl (by simp)

theorem load_rel {m m' : Nat → Obj} (hm : RM Pub m m') {la l : Lab}
    (hl : (match la with
      | .tab w => some (if w = 1 then Lab.int else .tab 1)
      | .out => some .sec
      | .arr => some .sec
      | _ => none) = some l)
    {x x' y y' v v' : Val} (hx : RV Pub la x x') (hy : RV Pub .int y y') (h : load m x y = .ok v) (h' : load m' x' y' = .ok v') :
    RV Pub l v v' ∧ access .read x y = access .read x' y' := by
  obtain ⟨t, i, rfl, rfl⟩ := hy
  have one : ∀ {o k : Nat} {v v' : Val}, (m o).ty = (m' o).ty → load m (.ptr o k 1) (.int t i) = .ok v → load m' (.ptr o k 1) (.int t i) = .ok v' →
      ∃ z z', v = .int (m o).ty z ∧ v' = .int (m o).ty z' ∧ (m o = m' o → z = z') := by
    intro o k v v' ht h h'
    simp only [load] at h h'
    rw [bind_ok] at h h'
    obtain ⟨j, hj, h⟩ := h
    obtain ⟨j', hj', h'⟩ := h'
    rw [hj] at hj'
    cases hj'
    rw [if_pos trivial, bind_ok] at h h'
    obtain ⟨z, hz, h⟩ := h
    obtain ⟨z', hz', h'⟩ := h'
    cases h; cases h'
    refine ⟨z, z', rfl, by rw [ht], fun e => ?_⟩
    rw [e, hz'] at hz
    cases hz; rfl
  cases la with
  | int => exact absurd hl (by simp)
  | sec => exact absurd hl (by simp)
  | tab n =>
    obtain ⟨o, k, rfl, rfl, hp⟩ := hx
    refine ⟨?_, rfl⟩
    injection hl with hl
    subst hl
    by_cases hn : n = 1
    · subst hn
      obtain ⟨z, z', rfl, rfl, e⟩ := one (by rw [(hm o).2 hp]) h h'
      obtain rfl := e ((hm o).2 hp)
      rw [if_pos rfl]
      exact ⟨_, _, rfl, rfl⟩
    · rw [if_neg hn]
      simp only [load] at h h'
      rw [bind_ok] at h h'
      obtain ⟨j, hj, h⟩ := h
      obtain ⟨j', hj', h'⟩ := h'
      rw [hj] at hj'
      cases hj'
      rw [if_neg hn] at h h'
      cases h; cases h'
      exact ⟨_, _, rfl, rfl, hp⟩
  | out =>
    obtain ⟨o, k, rfl, rfl, hp⟩ := hx
    injection hl with hl
    subst hl
    obtain ⟨z, z', rfl, rfl, e⟩ := one ((hm o).1 hp.2) h h'
    exact ⟨⟨_, _, _, rfl, rfl⟩, rfl⟩
  | arr =>
    obtain ⟨o, k, rfl, rfl, hp⟩ := hx
    injection hl with hl
    subst hl
    obtain ⟨z, z', rfl, rfl, e⟩ := one (hp.elim (fun hp => by rw [(hm o).2 hp]) (hm o).1) h h'
    exact ⟨⟨_, _, _, rfl, rfl⟩, rfl⟩

theorem test_rel {v v' : Val} (h : RV Pub .int v v') : test v = test v' := by
  obtain ⟨t, x, rfl, rfl⟩ := h
  rfl

theorem truth_rel (b : Bool) : RV Pub .int (truth b) (truth b) := ⟨_, _, rfl, rfl⟩

/-! ### Variables -/

theorem var_rel {D : Name → Lab} {G : Name → Option Cell} (hG : RG Pub D G) {L : List (Name × Lab)} (hL : ∀ x l, L.lookup x = some l → D x = .int)
    {e e' : Name → Option Cell} (he : RE Pub L e e') {x : Name} {v v' : Val} (h : cellVal ((e x).or (G x)) = .ok v) (h' : cellVal ((e' x).or (G x)) = .ok v') :
    RV Pub (match L.lookup x with | some l => l | none => D x) v v' := by
  have cv : ∀ {l : Lab} {c c' : Option Cell} {v v' : Val}, RC Pub l c c' → cellVal (c.or (G x)) = .ok v → cellVal (c'.or (G x)) = .ok v' → RV Pub l v v' := by
    intro l c c' v v' hc h h'
    cases l with
    | int =>
      obtain ⟨t, z, rfl, rfl⟩ := hc
      simp only [Option.some_or] at h h'
      cases z with
      | none => simp [cellVal] at h
      | some z => simp only [cellVal] at h h'; cases h; cases h'; exact ⟨_, _, rfl, rfl⟩
    | sec =>
      obtain ⟨t, z, z', rfl, rfl⟩ := hc
      simp only [Option.some_or] at h h'
      cases z with
      | none => simp [cellVal] at h
      | some z =>
        cases z' with
        | none => simp [cellVal] at h'
        | some z' => simp only [cellVal] at h h'; cases h; cases h'; exact ⟨_, _, _, rfl, rfl⟩
    | tab n =>
      obtain ⟨o, k, rfl, rfl, hp⟩ := hc
      simp only [Option.some_or, cellVal] at h h'; cases h; cases h'; exact ⟨_, _, rfl, rfl, hp⟩
    | out =>
      obtain ⟨o, k, rfl, rfl, hp⟩ := hc
      simp only [Option.some_or, cellVal] at h h'; cases h; cases h'; exact ⟨_, _, rfl, rfl, hp⟩
    | arr =>
      obtain ⟨o, k, rfl, rfl, hp⟩ := hc
      simp only [Option.some_or, cellVal] at h h'; cases h; cases h'; exact ⟨_, _, rfl, rfl, hp⟩
  have glob : ∀ {v v' : Val}, cellVal (G x) = .ok v → cellVal (G x) = .ok v' → RV Pub (D x) v v' := by
    intro v v' h h'
    rw [h] at h'
    cases h'
    cases hg : G x with
    | none => rw [hg] at h; simp [cellVal] at h
    | some c =>
      have := hG x c hg
      rw [hg] at h
      split at this
      · rename_i w hd
        obtain ⟨o, k, rfl, hp⟩ := this
        rw [hd]
        simp only [cellVal] at h; cases h
        exact ⟨_, _, rfl, rfl, hp⟩
      · rename_i hd
        obtain ⟨t, z, rfl⟩ := this
        rw [hd]
        cases z with
        | none => simp [cellVal] at h
        | some z => simp only [cellVal] at h; cases h; exact ⟨_, _, rfl, rfl⟩
      · exact this.elim
  have hx := he x
  cases hl : L.lookup x with
  | none =>
    rw [hl] at hx
    simp only at hx ⊢
    rw [hx.1, Option.none_or] at h
    rw [hx.2, Option.none_or] at h'
    exact glob h h'
  | some l =>
    rw [hl] at hx
    simp only at hx ⊢
    rcases hx with ⟨hi, h1, h2⟩ | hx
    · rw [h1, Option.none_or] at h
      rw [h2, Option.none_or] at h'
      have := glob h h'
      rw [hL x l hl] at this
      obtain ⟨t, z, rfl, rfl⟩ := this
      exact .mkInt hi fun _ => rfl
    · exact cv hx h h'

theorem setEnv_rel {L : List (Name × Lab)} {e e' : Name → Option Cell} (he : RE Pub L e e') {x : Name} {l : Lab} (hl : L.lookup x = some l) {c c' : Cell}
    (hc : RC Pub l (some c) (some c')) : RE Pub L (setEnv e x c) (setEnv e' x c') := by
  intro y
  by_cases hy : y = x
  · subst hy
    simp only [hl, setEnv, if_true]
    exact .inr hc
  · simp only [setEnv, if_neg hy]
    exact he y

theorem RC.mkInt {l : Lab} (h : l.isInt = true) {t : Ty} {x y : Option Int} (hxy : l = .int → x = y) : RC Pub l (some (.int t x)) (some (.int t y)) := by
  cases l with
  | int => obtain rfl := hxy rfl; exact ⟨t, x, rfl, rfl⟩
  | sec => exact ⟨t, x, y, rfl, rfl⟩
  | _ => simp [Lab.isInt] at h

theorem RC.isInt {l : Lab} (h : l.isInt = true) {c c' : Option Cell} (hc : RC Pub l c c') : ∃ t x y, c = some (.int t x) ∧ c' = some (.int t y) := by
  cases l with
  | int => obtain ⟨t, x, h, h'⟩ := hc; exact ⟨t, x, x, h, h'⟩
  | sec => obtain ⟨t, x, y, h, h'⟩ := hc; exact ⟨t, x, y, h, h'⟩
  | _ => simp [Lab.isInt] at h

theorem assign_rel {L : List (Name × Lab)} {s s' : State} (hs : RS Pub L s s') {x : Name} {l l' : Lab} (hl : L.lookup x = some l) (hi : l.isInt = true)
    (hsub : l'.sub l = true) {v v' : Val} (hv : RV Pub l' v v') {r r' : State} (h : assign s x v = .ok r) (h' : assign s' x v' = .ok r') :
    RS Pub L r r' := by
  obtain ⟨t, z, z', rfl, rfl, hz⟩ := (hv.sub hsub).isInt hi
  have hx := hs.env x
  simp only [hl] at hx
  simp only [assign] at h h'
  rcases hx with ⟨_, h1, _⟩ | hx
  · rw [h1] at h; exact absurd h (by simp)
  · obtain ⟨t', c, c', h1, h2⟩ := hx.isInt hi
    rw [h1] at h
    rw [h2] at h'
    simp only at h h'
    cases h; cases h'
    exact ⟨setEnv_rel hs.env hl (.mkInt hi fun e => by rw [hz e]), hs.mem⟩

theorem store_rel {L : List (Name × Lab)} {s s' : State} (hs : RS Pub L s s') {l : Lab} {p p' i i' v v' : Val} (hp : RV Pub .out p p') (hi : RV Pub .int i i')
    (hl : l.isInt = true) (hv : RV Pub l v v') {r r' : State} (h : storeAt s p i v = .ok r) (h' : storeAt s' p' i' v' = .ok r') :
    RS Pub L r r' ∧ access .write p i = access .write p' i' := by
  obtain ⟨o, k, rfl, rfl, hp⟩ := hp
  obtain ⟨t, n, rfl, rfl⟩ := hi
  obtain ⟨t', z, z', rfl, rfl, hz⟩ := hv.isInt hl
  refine ⟨?_, rfl⟩
  simp only [storeAt] at h h'
  rw [bind_ok] at h h'
  obtain ⟨j, hj, h⟩ := h
  obtain ⟨j', hj', h'⟩ := h'
  rw [hj] at hj'
  cases hj'
  rw [bind_ok] at h h'
  obtain ⟨d, hd, h⟩ := h
  obtain ⟨d', hd', h'⟩ := h'
  cases h; cases h'
  refine ⟨hs.env, fun o' => ?_⟩
  by_cases ho : o' = o
  · subst ho
    simp only [setMem, if_true]
    exact ⟨(hs.mem o').1, fun h => absurd h hp.1⟩
  · simp only [setMem, if_neg ho]
    exact hs.mem o'

/-! ### Calls -/

theorem bind_rel {L : List (Name × Lab)} : ∀ {ps : List (Name × PTy)} {ls : List Lab} {vs vs' : List Val} {e e' : Name → Option Cell},
    fits L ps ls = true → RVs Pub ls vs vs' → bindParams ps vs = .ok e → bindParams ps vs' = .ok e' →
    ∀ x, (e x = none ∧ e' x = none ∧ ∀ p ∈ ps, p.1 ≠ x) ∨ ∃ l, L.lookup x = some l ∧ RC Pub l (e x) (e' x)
  | [], ls, vs, vs', e, e', hf, hv, h, h' => by
    cases hv with
    | nil => simp only [bindParams] at h h'; cases h; cases h'; exact fun x => .inl ⟨rfl, rfl, by simp⟩
    | cons _ _ => simp [bindParams] at h
  | (x, p) :: ps, ls, vs, vs', e, e', hf, hv, h, h' => by
    cases hv with
    | nil => simp [bindParams] at h
    | @cons l ls v vs w ws h1 h2 =>
      simp only [fits, Bool.and_eq_true] at hf
      obtain ⟨hf1, hf2⟩ := hf
      split at hf1
      · rename_i l' hl'
        have h3 := h1.sub hf1
        have key : ∃ e1 e1' c c', bindParams ps vs = .ok e1 ∧ bindParams ps ws = .ok e1' ∧ e = setEnv e1 x c ∧ e' = setEnv e1' x c' ∧ RC Pub l' (some c) (some c') := by
          cases v with
          | brk => cases p <;> simp [bindParams] at h
          | int t z =>
            cases p with
            | ptr n => simp [bindParams] at h
            | int t1 =>
              cases w with
              | brk => simp [bindParams] at h'
              | ptr _ _ _ => simp [bindParams] at h'
              | int t' z' =>
                simp only [bindParams] at h h'
                rw [bind_ok] at h h'
                obtain ⟨e1, g1, h⟩ := h
                obtain ⟨e2, g2, h'⟩ := h'
                cases h; cases h'
                refine ⟨e1, e2, _, _, g1, g2, rfl, rfl, ?_⟩
                cases l' with
                | int => obtain ⟨_, _, a, b⟩ := h3; cases a; cases b; exact ⟨_, _, rfl, rfl⟩
                | sec => exact ⟨_, _, _, rfl, rfl⟩
                | tab n => obtain ⟨_, _, a, _⟩ := h3; cases a
                | out => obtain ⟨_, _, a, _⟩ := h3; cases a
                | arr => obtain ⟨_, _, a, _⟩ := h3; cases a
          | ptr o k n =>
            cases p with
            | int t => simp [bindParams] at h
            | ptr n1 =>
              cases w with
              | brk => simp [bindParams] at h'
              | int _ _ => simp [bindParams] at h'
              | ptr o' k' n' =>
                simp only [bindParams] at h h'
                rw [bind_ok] at h h'
                obtain ⟨e1, g1, h⟩ := h
                obtain ⟨e2, g2, h'⟩ := h'
                split at h
                · split at h'
                  · cases h; cases h'
                    refine ⟨e1, e2, _, _, g1, g2, rfl, rfl, ?_⟩
                    cases l' with
                    | int => obtain ⟨_, _, a, b⟩ := h3; cases a
                    | sec => obtain ⟨_, _, _, a, b⟩ := h3; cases a
                    | tab n => obtain ⟨_, _, a, b, c⟩ := h3; cases a; cases b; subst_vars; exact ⟨_, _, rfl, rfl, c⟩
                    | out => obtain ⟨_, _, a, b, c⟩ := h3; cases a; cases b; subst_vars; exact ⟨_, _, rfl, rfl, c⟩
                    | arr => obtain ⟨_, _, a, b, c⟩ := h3; cases a; cases b; subst_vars; exact ⟨_, _, rfl, rfl, c⟩
                  · exact absurd h' (by simp)
                · exact absurd h (by simp)
        obtain ⟨e1, e1', c, c', g1, g2, rfl, rfl, hc⟩ := key
        intro y
        by_cases hy : y = x
        · subst hy
          exact .inr ⟨l', hl', by simpa only [setEnv, if_true] using hc⟩
        · simp only [setEnv, if_neg hy]
          rcases bind_rel hf2 h2 g1 g2 y with ⟨a, b, c⟩ | h
          · refine .inl ⟨a, b, fun p hp => ?_⟩
            rcases List.mem_cons.1 hp with rfl | hp
            · exact fun e => hy e.symm
            · exact c p hp
          · exact .inr h
      · exact absurd hf1 (by simp)

theorem lookup_mem {α β : Type} [BEq α] [LawfulBEq α] : ∀ {l : List (α × β)} {x : α} {b : β}, l.lookup x = some b → (x, b) ∈ l
  | [], _, _, h => by simp at h
  | (y, c) :: l, x, b, h => by
    rw [List.lookup_cons] at h
    split at h
    · rename_i hxy; rw [beq_iff_eq] at hxy; subst hxy; cases h; simp
    · exact List.mem_cons_of_mem _ (lookup_mem h)

theorem okFun_vars {P : Prog} {A : List (Name × Sig)} {D : Name → Lab} {s : Sig} {fn : Fun} (h : okFun P A D s fn = true) :
    (∀ x l, s.vars.lookup x = some l → D x = .int) ∧ (∀ x l, s.vars.lookup x = some l → l.isInt = true ∨ ∃ p ∈ fn.params, p.1 = x) ∧
      s.ret.isInt = true ∧ okS P A D s.vars s.ret fn.body = true := by
  simp only [okFun, Bool.and_eq_true, List.all_eq_true, decide_eq_true_eq, Bool.or_eq_true, List.any_eq_true] at h
  obtain ⟨⟨⟨h1, h2⟩, h3⟩, h4⟩ := h
  exact ⟨fun x l hl => (h3 _ (lookup_mem hl)).1, fun x l hl => (h3 _ (lookup_mem hl)).2, h1, h4⟩

theorem start_rel {P : Prog} {A : List (Name × Sig)} {D : Name → Lab} {s : Sig} {fn : Fun} (h : okFun P A D s fn = true) {ls : List Lab} {vs vs' : List Val}
    {e e' : Name → Option Cell} (hf : fits s.vars fn.params ls = true) (hv : RVs Pub ls vs vs') (h1 : bindParams fn.params vs = .ok e)
    (h2 : bindParams fn.params vs' = .ok e') : RE Pub s.vars e e' := by
  intro x
  have := bind_rel hf hv h1 h2 x
  cases hl : s.vars.lookup x with
  | none =>
    rcases this with ⟨a, b, _⟩ | ⟨l, hl', _⟩
    · exact ⟨a, b⟩
    · rw [hl] at hl'; cases hl'
  | some l =>
    rcases this with ⟨a, b, c⟩ | ⟨l', hl', hc⟩
    · rcases (okFun_vars h).2.1 x l hl with hi | ⟨p, hp, hpx⟩
      · exact .inl ⟨hi, a, b⟩
      · exact absurd hpx (c p hp)
    · rw [hl] at hl'; cases hl'
      exact .inr hc

theorem okAll_fun {P : Prog} {A : List (Name × Sig)} {D : Name → Lab} (h : okAll P A D = true) {g : Name} {fn : Fun} {s : Sig} (h1 : P.lookup g = some fn)
    (h2 : A.lookup g = some s) : okFun P A D s fn = true := by
  have := (List.all_eq_true.1 h) _ (lookup_mem h2)
  simpa only [h1] using this

theorem result_rel {l : Lab} (hl : l.isInt = true) {t : Option Ty} {r r' : Option Val} (hr : RO Pub l r r') {v v' : Val} (h : result t r = .ok v)
    (h' : result t r' = .ok v') : RV Pub l v v' := by
  cases t with
  | none => simp [result] at h
  | some t =>
    cases r with
    | none => simp [result] at h
    | some r =>
      cases r' with
      | none => simp [result] at h'
      | some r' =>
        rcases hr with ⟨rfl, rfl⟩ | hr
        · simp [result] at h
        · obtain ⟨t', x, y, rfl, rfl, hxy⟩ := hr.isInt hl
          simp only [result] at h h'
          cases h; cases h'
          exact .mkInt hl fun e => by rw [hxy e]

/-! ### Execution -/

theorem bindO {α β : Type} {x : Option α} {f : α → Option β} {y : β} (h : (x >>= f) = some y) : ∃ a, x = some a ∧ f a = some y :=
  Option.bind_eq_some_iff.1 h

theorem trace_rel {P : Prog} {A : List (Name × Sig)} {D : Name → Lab} {G : Name → Option Cell} (hA : okAll P A D = true) (hG : RG Pub D G) : ∀ f,
    (∀ (L : List (Name × Lab)) e l st st' v v', (∀ x l, L.lookup x = some l → D x = .int) → labE P A D L e = some l → RS Pub L st st' →
      eval P G f e st = .ok v → eval P G f e st' = .ok v' → RV Pub l v v' ∧ traceE P G f e st = traceE P G f e st') ∧
    (∀ (L : List (Name × Lab)) e ls st st' v v', (∀ x l, L.lookup x = some l → D x = .int) → labA P A D L e = some ls → RS Pub L st st' →
      evalArgs P G f e st = .ok v → evalArgs P G f e st' = .ok v' → RVs Pub ls v v' ∧ traceA P G f e st = traceA P G f e st') ∧
    ∀ (L : List (Name × Lab)) r s st st' q q', (∀ x l, L.lookup x = some l → D x = .int) → r.isInt = true → okS P A D L r s = true → RS Pub L st st' →
      exec P G f s st = .ok q → exec P G f s st' = .ok q' → RO Pub r q.1 q'.1 ∧ RS Pub L q.2 q'.2 ∧ traceS P G f s st = traceS P G f s st' := by
  intro f
  induction f with
  | zero =>
    exact ⟨fun _ _ _ _ _ _ _ _ _ _ h => by simp [eval] at h, fun _ _ _ _ _ _ _ _ _ _ h => by simp [evalArgs] at h,
      fun _ _ _ _ _ _ _ _ _ _ _ h => by simp [exec] at h⟩
  | succ f ih =>
    obtain ⟨ie, ia, ix⟩ := ih
    have call : ∀ {g : Name} {fn : Fun} {s : Sig} {ls vs vs' e e' m m' q q'}, P.lookup g = some fn → A.lookup g = some s → fits s.vars fn.params ls = true →
        RVs Pub ls vs vs' → bindParams fn.params vs = .ok e → bindParams fn.params vs' = .ok e' → RM Pub m m' →
        exec P G f fn.body ⟨e, m⟩ = .ok q → exec P G f fn.body ⟨e', m'⟩ = .ok q' →
        RO Pub s.ret q.1 q'.1 ∧ RM Pub q.2.mem q'.2.mem ∧ traceS P G f fn.body ⟨e, m⟩ = traceS P G f fn.body ⟨e', m'⟩ := by
      intro g fn s ls vs vs' e e' m m' q q' h1 h2 h3 h4 h5 h6 h7 h8 h9
      have ho := okAll_fun hA h1 h2
      obtain ⟨o1, o2, o3, o4⟩ := okFun_vars ho
      obtain ⟨a, b, c⟩ := ix _ _ _ _ _ _ _ o1 o3 o4 (⟨start_rel ho h3 h4 h5 h6, h7⟩ : RS Pub s.vars ⟨e, m⟩ ⟨e', m'⟩) h8 h9
      exact ⟨a, b.mem, c⟩
    refine ⟨fun L e l st st' v v' hL hl hs h h' => ?_, fun L e ls st st' v v' hL hl hs h h' => ?_, fun L r s st st' q q' hL hr hk hs h h' => ?_⟩
    · cases e with
      | num n =>
        simp only [labE] at hl
        simp only [eval] at h h'
        cases hl; cases h; cases h'
        exact ⟨⟨_, _, rfl, rfl⟩, by simp only [traceE]⟩
      | var x =>
        simp only [labE] at hl
        simp only [eval] at h h'
        refine ⟨?_, by simp only [traceE]⟩
        have := var_rel hG hL hs.env h h'
        revert hl this
        cases L.lookup x <;> (intro hl this; cases hl; exact this)
      | nil => simp [eval] at h
      | cons e es => simp [eval] at h
      | idx a i =>
        simp only [labE] at hl
        replace hl := bindO hl
        obtain ⟨la, l1, hl⟩ := hl
        replace hl := bindO hl
        obtain ⟨li, l2, hl⟩ := hl
        split at hl
        · rename_i hi
          subst hi
          rw [eval, bind_ok] at h h'
          obtain ⟨x, h1, h⟩ := h
          obtain ⟨x', h1', h'⟩ := h'
          rw [bind_ok] at h h'
          obtain ⟨y, h2, h⟩ := h
          obtain ⟨y', h2', h'⟩ := h'
          obtain ⟨r1, t1⟩ := ie _ _ _ _ _ _ _ hL l1 hs h1 h1'
          obtain ⟨r2, t2⟩ := ie _ _ _ _ _ _ _ hL l2 hs h2 h2'
          obtain ⟨r3, t3⟩ := load_rel hs.mem hl r1 r2 h h'
          refine ⟨r3, ?_⟩
          simp only [traceE, h1, h1', h2, h2', t1, t2, t3]
        · exact absurd hl (by simp)
      | neg e =>
        simp only [labE] at hl
        replace hl := bindO hl
        obtain ⟨la, l1, hl⟩ := hl
        split at hl
        · rename_i hi
          cases hl
          rw [eval, bind_ok] at h h'
          obtain ⟨x, h1, h⟩ := h
          obtain ⟨x', h1', h'⟩ := h'
          obtain ⟨r1, t1⟩ := ie _ _ _ _ _ _ _ hL l1 hs h1 h1'
          refine ⟨?_, by simp only [traceE, t1]⟩
          obtain ⟨t, z, z', rfl, rfl, hz⟩ := r1.isInt hi
          obtain ⟨w, hw⟩ := binop_ty h
          obtain ⟨w', hw'⟩ := binop_ty h'
          subst hw; subst hw'
          refine .mkInt hi fun e => ?_
          rw [hz e, h'] at h
          cases h; rfl
        · exact absurd hl (by simp)
      | not e =>
        simp only [labE] at hl
        replace hl := bindO hl
        obtain ⟨la, l1, hl⟩ := hl
        split at hl
        · rename_i hi
          cases hl
          rw [eval, bind_ok] at h h'
          obtain ⟨x, h1, h⟩ := h
          obtain ⟨x', h1', h'⟩ := h'
          obtain ⟨r1, t1⟩ := ie _ _ _ _ _ _ _ hL l1 hs h1 h1'
          refine ⟨?_, by simp only [traceE, t1]⟩
          obtain ⟨t, z, z', rfl, rfl, hz⟩ := r1.isInt hi
          simp only [complement] at h h'
          cases h; cases h'
          exact .mkInt hi fun e => by rw [hz e]
        · exact absurd hl (by simp)
      | bin o a b =>
        simp only [labE] at hl
        replace hl := bindO hl
        obtain ⟨la, l1, hl⟩ := hl
        replace hl := bindO hl
        obtain ⟨lb, l2, hl⟩ := hl
        rw [eval, bind_ok] at h h'
        obtain ⟨x, h1, h⟩ := h
        obtain ⟨x', h1', h'⟩ := h'
        rw [bind_ok] at h h'
        obtain ⟨y, h2, h⟩ := h
        obtain ⟨y', h2', h'⟩ := h'
        obtain ⟨r1, t1⟩ := ie _ _ _ _ _ _ _ hL l1 hs h1 h1'
        obtain ⟨r2, t2⟩ := ie _ _ _ _ _ _ _ hL l2 hs h2 h2'
        exact ⟨binopAt_rel hl r1 r2 h h', by simp only [traceE, t1, t2]⟩
      | land a b =>
        simp only [labE] at hl
        replace hl := bindO hl
        obtain ⟨la, l1, hl⟩ := hl
        replace hl := bindO hl
        obtain ⟨lb, l2, hl⟩ := hl
        split at hl
        · rename_i hi
          simp only [Bool.and_eq_true, decide_eq_true_eq] at hi
          obtain ⟨rfl, rfl⟩ := hi
          cases hl
          rw [eval, bind_ok] at h h'
          obtain ⟨x, h1, h⟩ := h
          obtain ⟨x', h1', h'⟩ := h'
          rw [bind_ok] at h h'
          obtain ⟨c, h2, h⟩ := h
          obtain ⟨c', h2', h'⟩ := h'
          obtain ⟨r1, t1⟩ := ie _ _ _ _ _ _ _ hL l1 hs h1 h1'
          rw [test_rel r1, h2'] at h2
          have hd := Except.ok.inj h2
          subst hd
          cases c' with
          | false =>
            simp only [Bool.false_eq_true, if_false] at h h'
            cases h; cases h'
            refine ⟨truth_rel _, ?_⟩
            simp only [traceE, h1, h1', ok_bind, test_rel r1, h2', t1]
          | true =>
            simp only [if_true] at h h'
            rw [bind_ok] at h h'
            obtain ⟨y, h3, h⟩ := h
            obtain ⟨y', h3', h'⟩ := h'
            rw [bind_ok] at h h'
            obtain ⟨d, h4, h⟩ := h
            obtain ⟨d', h4', h'⟩ := h'
            obtain ⟨r2, t2⟩ := ie _ _ _ _ _ _ _ hL l2 hs h3 h3'
            rw [test_rel r2, h4'] at h4
            cases h4
            cases h; cases h'
            refine ⟨truth_rel _, ?_⟩
            simp only [traceE, h1, h1', h3, h3', ok_bind, test_rel r1, test_rel r2, h2', h4', t1, t2]
        · exact absurd hl (by simp)
      | lor a b =>
        simp only [labE] at hl
        replace hl := bindO hl
        obtain ⟨la, l1, hl⟩ := hl
        replace hl := bindO hl
        obtain ⟨lb, l2, hl⟩ := hl
        split at hl
        · rename_i hi
          simp only [Bool.and_eq_true, decide_eq_true_eq] at hi
          obtain ⟨rfl, rfl⟩ := hi
          cases hl
          rw [eval, bind_ok] at h h'
          obtain ⟨x, h1, h⟩ := h
          obtain ⟨x', h1', h'⟩ := h'
          rw [bind_ok] at h h'
          obtain ⟨c, h2, h⟩ := h
          obtain ⟨c', h2', h'⟩ := h'
          obtain ⟨r1, t1⟩ := ie _ _ _ _ _ _ _ hL l1 hs h1 h1'
          rw [test_rel r1, h2'] at h2
          have hd := Except.ok.inj h2
          subst hd
          cases c' with
          | true =>
            simp only [if_true] at h h'
            cases h; cases h'
            refine ⟨truth_rel _, ?_⟩
            simp only [traceE, h1, h1', ok_bind, test_rel r1, h2', t1]
          | false =>
            simp only [Bool.false_eq_true, if_false] at h h'
            rw [bind_ok] at h h'
            obtain ⟨y, h3, h⟩ := h
            obtain ⟨y', h3', h'⟩ := h'
            rw [bind_ok] at h h'
            obtain ⟨d, h4, h⟩ := h
            obtain ⟨d', h4', h'⟩ := h'
            obtain ⟨r2, t2⟩ := ie _ _ _ _ _ _ _ hL l2 hs h3 h3'
            rw [test_rel r2, h4'] at h4
            cases h4
            cases h; cases h'
            refine ⟨truth_rel _, ?_⟩
            simp only [traceE, h1, h1', h3, h3', ok_bind, test_rel r1, test_rel r2, h2', h4', t1, t2]
        · exact absurd hl (by simp)
      | cast t e =>
        simp only [labE] at hl
        replace hl := bindO hl
        obtain ⟨la, l1, hl⟩ := hl
        split at hl
        · rename_i hi
          cases hl
          rw [eval, bind_ok] at h h'
          obtain ⟨x, h1, h⟩ := h
          obtain ⟨x', h1', h'⟩ := h'
          obtain ⟨r1, t1⟩ := ie _ _ _ _ _ _ _ hL l1 hs h1 h1'
          refine ⟨?_, by simp only [traceE, t1]⟩
          obtain ⟨t, z, z', rfl, rfl, hz⟩ := r1.isInt hi
          simp only at h h'
          cases h; cases h'
          exact .mkInt hi fun e => by rw [hz e]
        · exact absurd hl (by simp)
      | cond c a b =>
        simp only [labE] at hl
        replace hl := bindO hl
        obtain ⟨lc, l0, hl⟩ := hl
        replace hl := bindO hl
        obtain ⟨la, l1, hl⟩ := hl
        replace hl := bindO hl
        obtain ⟨lb, l2, hl⟩ := hl
        split at hl
        · rename_i hi
          simp only [Bool.and_eq_true, decide_eq_true_eq] at hi
          obtain ⟨⟨rfl, ja⟩, jb⟩ := hi
          cases hl
          rw [eval, bind_ok] at h h'
          obtain ⟨x, h1, h⟩ := h
          obtain ⟨x', h1', h'⟩ := h'
          rw [bind_ok] at h h'
          obtain ⟨d, h2, h⟩ := h
          obtain ⟨d', h2', h'⟩ := h'
          obtain ⟨r1, t1⟩ := ie _ _ _ _ _ _ _ hL l0 hs h1 h1'
          rw [test_rel r1, h2'] at h2
          have hd := Except.ok.inj h2
          subst hd
          cases d' with
          | true =>
            simp only [if_true] at h h'
            obtain ⟨r2, t2⟩ := ie _ _ _ _ _ _ _ hL l1 hs h h'
            exact ⟨(r2.join ja).1, by simp only [traceE, h1, h1', ok_bind, test_rel r1, h2', t1, t2, if_true]⟩
          | false =>
            simp only [Bool.false_eq_true, if_false] at h h'
            obtain ⟨r2, t2⟩ := ie _ _ _ _ _ _ _ hL l2 hs h h'
            exact ⟨(r2.join jb).2, by simp only [traceE, h1, h1', ok_bind, test_rel r1, h2', t1, t2, Bool.false_eq_true, if_false]⟩
        · exact absurd hl (by simp)
      | call g args =>
        simp only [labE] at hl
        replace hl := bindO hl
        obtain ⟨ls, l1, hl⟩ := hl
        replace hl := bindO hl
        obtain ⟨fn, l2, hl⟩ := hl
        replace hl := bindO hl
        obtain ⟨s, l3, hl⟩ := hl
        split at hl
        · rename_i hi
          rw [Bool.and_eq_true] at hi
          cases hl
          rw [eval, bind_ok] at h h'
          obtain ⟨vs, h1, h⟩ := h
          obtain ⟨vs', h1', h'⟩ := h'
          obtain ⟨r1, t1⟩ := ia _ _ _ _ _ _ _ hL l1 hs h1 h1'
          rw [l2] at h h'
          simp only at h h'
          split at h
          · rename_i hpure
            rw [if_pos hpure] at h'
            rw [bind_ok] at h h'
            obtain ⟨e, h2, h⟩ := h
            obtain ⟨e', h2', h'⟩ := h'
            rw [bind_ok] at h h'
            obtain ⟨q, h3, h⟩ := h
            obtain ⟨q', h3', h'⟩ := h'
            obtain ⟨r2, r3, t2⟩ := call l2 l3 hi.1 r1 h2 h2' hs.mem h3 h3'
            exact ⟨result_rel hi.2 r2 h h', by simp only [traceE, h1, h1', l2, h2, h2', t1, t2]⟩
          · exact absurd h (by simp)
        · exact absurd hl (by simp)
    · cases e with
      | nil =>
        simp only [labA] at hl
        simp only [evalArgs] at h h'
        cases hl; cases h; cases h'
        exact ⟨.nil, by simp only [traceA]⟩
      | cons e es =>
        simp only [labA] at hl
        replace hl := bindO hl
        obtain ⟨la, l1, hl⟩ := hl
        replace hl := bindO hl
        obtain ⟨lb, l2, hl⟩ := hl
        cases hl
        rw [evalArgs, bind_ok] at h h'
        obtain ⟨x, h1, h⟩ := h
        obtain ⟨x', h1', h'⟩ := h'
        rw [bind_ok] at h h'
        obtain ⟨y, h2, h⟩ := h
        obtain ⟨y', h2', h'⟩ := h'
        cases h; cases h'
        obtain ⟨r1, t1⟩ := ie _ _ _ _ _ _ _ hL l1 hs h1 h1'
        obtain ⟨r2, t2⟩ := ia _ _ _ _ _ _ _ hL l2 hs h2 h2'
        exact ⟨.cons r1 r2, by simp only [traceA, t1, t2]⟩
      | _ => simp [labA] at hl
    · cases s with
      | skip =>
        simp only [exec] at h h'
        cases h; cases h'
        exact ⟨trivial, hs, by simp only [traceS]⟩
      | seq a b =>
        simp only [okS, Bool.and_eq_true] at hk
        rw [exec, bind_ok] at h h'
        obtain ⟨⟨x, s1⟩, h1, h⟩ := h
        obtain ⟨⟨x', s1'⟩, h1', h'⟩ := h'
        obtain ⟨r1, r2, t1⟩ := ix _ _ _ _ _ _ _ hL hr hk.1 hs h1 h1'
        cases x with
        | none =>
          cases x' with
          | some _ => exact r1.elim
          | none =>
            obtain ⟨r3, r4, t2⟩ := ix _ _ _ _ _ _ _ hL hr hk.2 r2 h h'
            exact ⟨r3, r4, by simp only [traceS, h1, h1', t1, t2]⟩
        | some y =>
          cases x' with
          | none => exact r1.elim
          | some y' =>
            cases h; cases h'
            exact ⟨r1, r2, by simp only [traceS, h1, h1', t1]⟩
      | decl t x =>
        simp only [okS] at hk
        simp only [exec] at h h'
        cases h; cases h'
        split at hk
        · rename_i l hl
          exact ⟨trivial, ⟨setEnv_rel hs.env hl (.mkInt hk fun _ => rfl), hs.mem⟩, by simp only [traceS]⟩
        · exact absurd hk (by simp)
      | assign x e =>
        simp only [okS] at hk
        split at hk
        · rename_i l l' hl hl'
          simp only [Bool.and_eq_true] at hk
          rw [exec, bind_ok] at h h'
          obtain ⟨v, h1, h⟩ := h
          obtain ⟨v', h1', h'⟩ := h'
          rw [bind_ok] at h h'
          obtain ⟨s1, h2, h⟩ := h
          obtain ⟨s1', h2', h'⟩ := h'
          cases h; cases h'
          obtain ⟨r1, t1⟩ := ie _ _ _ _ _ _ _ hL hl' hs h1 h1'
          exact ⟨trivial, assign_rel hs hl hk.1.1 hk.2 r1 h2 h2', by simp only [traceS, t1]⟩
        · exact absurd hk (by simp)
      | store a i e =>
        simp only [okS] at hk
        split at hk
        · rename_i la li le l1 l2 l3
          simp only [Bool.and_eq_true, decide_eq_true_eq] at hk
          obtain ⟨⟨rfl, rfl⟩, hk⟩ := hk
          rw [exec, bind_ok] at h h'
          obtain ⟨p, h1, h⟩ := h
          obtain ⟨p', h1', h'⟩ := h'
          rw [bind_ok] at h h'
          obtain ⟨k, h2, h⟩ := h
          obtain ⟨k', h2', h'⟩ := h'
          rw [bind_ok] at h h'
          obtain ⟨v, h3, h⟩ := h
          obtain ⟨v', h3', h'⟩ := h'
          rw [bind_ok] at h h'
          obtain ⟨s1, h4, h⟩ := h
          obtain ⟨s1', h4', h'⟩ := h'
          cases h; cases h'
          obtain ⟨r1, t1⟩ := ie _ _ _ _ _ _ _ hL l1 hs h1 h1'
          obtain ⟨r2, t2⟩ := ie _ _ _ _ _ _ _ hL l2 hs h2 h2'
          obtain ⟨r3, t3⟩ := ie _ _ _ _ _ _ _ hL l3 hs h3 h3'
          obtain ⟨r4, t4⟩ := store_rel hs r1 r2 hk r3 h4 h4'
          exact ⟨trivial, r4, by simp only [traceS, h1, h1', h2, h2', t1, t2, t3, t4]⟩
        · exact absurd hk (by simp)
      | ite c a b =>
        simp only [okS, Bool.and_eq_true, decide_eq_true_eq] at hk
        rw [exec, bind_ok] at h h'
        obtain ⟨x, h1, h⟩ := h
        obtain ⟨x', h1', h'⟩ := h'
        rw [bind_ok] at h h'
        obtain ⟨d, h2, h⟩ := h
        obtain ⟨d', h2', h'⟩ := h'
        obtain ⟨r1, t1⟩ := ie _ _ _ _ _ _ _ hL hk.1.1 hs h1 h1'
        rw [test_rel r1, h2'] at h2
        have hd := Except.ok.inj h2
        subst hd
        cases d' with
        | true =>
          simp only [if_true] at h h'
          obtain ⟨r2, r3, t2⟩ := ix _ _ _ _ _ _ _ hL hr hk.1.2 hs h h'
          exact ⟨r2, r3, by simp only [traceS, h1, h1', ok_bind, test_rel r1, h2', t1, t2, if_true]⟩
        | false =>
          simp only [Bool.false_eq_true, if_false] at h h'
          obtain ⟨r2, r3, t2⟩ := ix _ _ _ _ _ _ _ hL hr hk.2 hs h h'
          exact ⟨r2, r3, by simp only [traceS, h1, h1', ok_bind, test_rel r1, h2', t1, t2, Bool.false_eq_true, if_false]⟩
      | «while» c s =>
        have hk0 := hk
        simp only [okS, Bool.and_eq_true, decide_eq_true_eq] at hk
        rw [exec, bind_ok] at h h'
        obtain ⟨x, h1, h⟩ := h
        obtain ⟨x', h1', h'⟩ := h'
        rw [bind_ok] at h h'
        obtain ⟨d, h2, h⟩ := h
        obtain ⟨d', h2', h'⟩ := h'
        obtain ⟨r1, t1⟩ := ie _ _ _ _ _ _ _ hL hk.1 hs h1 h1'
        rw [test_rel r1, h2'] at h2
        have hd := Except.ok.inj h2
        subst hd
        cases d' with
        | false =>
          simp only [Bool.false_eq_true, if_false] at h h'
          cases h; cases h'
          exact ⟨trivial, hs, by simp only [traceS, h1, h1', ok_bind, test_rel r1, h2', t1]⟩
        | true =>
          simp only [if_true] at h h'
          rw [bind_ok] at h h'
          obtain ⟨⟨y, s1⟩, h3, h⟩ := h
          obtain ⟨⟨y', s1'⟩, h3', h'⟩ := h'
          obtain ⟨r2, r3, t2⟩ := ix _ _ _ _ _ _ _ hL hr hk.2 hs h3 h3'
          cases y with
          | none =>
            cases y' with
            | some _ => exact r2.elim
            | none =>
              obtain ⟨r4, r5, t3⟩ := ix _ _ _ _ _ _ _ hL hr hk0 r3 h h'
              exact ⟨r4, r5, by simp only [traceS, h1, h1', ok_bind, test_rel r1, h2', h3, h3', t1, t2, t3]⟩
          | some y =>
            cases y' with
            | none => exact r2.elim
            | some y' =>
              have ht : traceS P G (f + 1) (.while c s) st = traceS P G (f + 1) (.while c s) st' := by
                simp only [traceS, h1, h1', ok_bind, test_rel r1, h2', h3, h3', t1, t2]
              rcases r2 with ⟨hb, hb'⟩ | r2
              · subst hb; subst hb'
                simp only at h h'
                cases h; cases h'
                exact ⟨trivial, r3, ht⟩
              · obtain ⟨t, z, z', rfl, rfl, hz⟩ := r2.isInt hr
                simp only at h h'
                cases h; cases h'
                exact ⟨.inr r2, r3, ht⟩
      | doWhile s c =>
        have hk0 := hk
        simp only [okS, Bool.and_eq_true, decide_eq_true_eq] at hk
        rw [exec, bind_ok] at h h'
        obtain ⟨⟨y, s1⟩, h3, h⟩ := h
        obtain ⟨⟨y', s1'⟩, h3', h'⟩ := h'
        obtain ⟨r2, r3, t2⟩ := ix _ _ _ _ _ _ _ hL hr hk.2 hs h3 h3'
        cases y with
        | none =>
          cases y' with
          | some _ => exact r2.elim
          | none =>
            simp only at h h'
            rw [bind_ok] at h h'
            obtain ⟨x, h1, h⟩ := h
            obtain ⟨x', h1', h'⟩ := h'
            rw [bind_ok] at h h'
            obtain ⟨d, h2, h⟩ := h
            obtain ⟨d', h2', h'⟩ := h'
            obtain ⟨r1, t1⟩ := ie _ _ _ _ _ _ _ hL hk.1 r3 h1 h1'
            rw [test_rel r1, h2'] at h2
            have hd := Except.ok.inj h2
            subst hd
            cases d' with
            | false =>
              simp only [Bool.false_eq_true, if_false] at h h'
              cases h; cases h'
              exact ⟨trivial, r3, by simp only [traceS, h3, h3', h1, h1', ok_bind, test_rel r1, h2', t1, t2]⟩
            | true =>
              simp only [if_true] at h h'
              obtain ⟨r4, r5, t3⟩ := ix _ _ _ _ _ _ _ hL hr hk0 r3 h h'
              exact ⟨r4, r5, by simp only [traceS, h3, h3', h1, h1', ok_bind, test_rel r1, h2', t1, t2, t3]⟩
        | some y =>
          cases y' with
          | none => exact r2.elim
          | some y' =>
            have ht : traceS P G (f + 1) (.doWhile s c) st = traceS P G (f + 1) (.doWhile s c) st' := by
              simp only [traceS, h3, h3', t2]
            rcases r2 with ⟨hb, hb'⟩ | r2
            · subst hb; subst hb'
              simp only at h h'
              cases h; cases h'
              exact ⟨trivial, r3, ht⟩
            · obtain ⟨t, z, z', rfl, rfl, hz⟩ := r2.isInt hr
              simp only at h h'
              cases h; cases h'
              exact ⟨.inr r2, r3, ht⟩
      | ret e =>
        simp only [okS] at hk
        split at hk
        · rename_i l hl
          rw [Bool.and_eq_true] at hk
          rw [exec, bind_ok] at h h'
          obtain ⟨v, h1, h⟩ := h
          obtain ⟨v', h1', h'⟩ := h'
          cases h; cases h'
          obtain ⟨r1, t1⟩ := ie _ _ _ _ _ _ _ hL hl hs h1 h1'
          exact ⟨.inr (r1.sub hk.2), hs, by simp only [traceS, t1]⟩
        · exact absurd hk (by simp)
      | brk =>
        simp only [exec] at h h'
        cases h; cases h'
        exact ⟨.inl ⟨rfl, rfl⟩, hs, by simp only [traceS]⟩
      | expr e =>
        cases e with
        | call g args =>
          simp only [okS] at hk
          split at hk
          · rename_i ls fn s l1 l2 l3
            rw [exec, bind_ok] at h h'
            obtain ⟨vs, h1, h⟩ := h
            obtain ⟨vs', h1', h'⟩ := h'
            obtain ⟨r1, t1⟩ := ia _ _ _ _ _ _ _ hL l1 hs h1 h1'
            rw [l2] at h h'
            simp only at h h'
            rw [bind_ok] at h h'
            obtain ⟨e, h2, h⟩ := h
            obtain ⟨e', h2', h'⟩ := h'
            rw [bind_ok] at h h'
            obtain ⟨q, h3, h⟩ := h
            obtain ⟨q', h3', h'⟩ := h'
            obtain ⟨r2, r3, t2⟩ := call l2 l3 hk r1 h2 h2' hs.mem h3 h3'
            cases h; cases h'
            exact ⟨trivial, ⟨hs.env, r3⟩, by simp only [traceS, h1, h1', l2, h2, h2', t1, t2]⟩
          · exact absurd hk (by simp)
        | _ => simp [okS] at hk
      | assert e =>
        rw [exec, bind_ok] at h h'
        obtain ⟨v, h1, h⟩ := h
        obtain ⟨v', h1', h'⟩ := h'
        rw [bind_ok] at h h'
        obtain ⟨b, h2, h⟩ := h
        obtain ⟨b', h2', h'⟩ := h'
        rw [bind_ok] at h h'
        obtain ⟨u, h3, h⟩ := h
        obtain ⟨u', h3', h'⟩ := h'
        cases h; cases h'
        exact ⟨trivial, hs, by simp only [traceS]⟩
      | callAt x g args outs => simp [okS] at hk
      | print e fmt args => simp [okS] at hk
      | alloc x t e => simp [okS] at hk
      | free x => simp [okS] at hk

/-- Two calls from outside. -/
theorem callTrace_rel {P : Prog} {A : List (Name × Sig)} {D : Name → Lab} {G : Name → Option Cell} (hA : okAll P A D = true) (hG : RG Pub D G) {f : Nat}
    {g : Name} {fn : Fun} {s : Sig} {ls : List Lab} {vs vs' : List Val} {m m' r r' : Nat → Obj} (h1 : P.lookup g = some fn) (h2 : A.lookup g = some s)
    (hf : fits s.vars fn.params ls = true) (hv : RVs Pub ls vs vs') (hm : RM Pub m m') (h : call P G f g vs m = .ok r) (h' : call P G f g vs' m' = .ok r') :
    callTrace P G f g vs m = callTrace P G f g vs' m' := by
  have ho := okAll_fun hA h1 h2
  obtain ⟨o1, o2, o3, o4⟩ := okFun_vars ho
  simp only [CLang.call, h1] at h h'
  rw [bind_ok] at h h'
  obtain ⟨e, h3, h⟩ := h
  obtain ⟨e', h3', h'⟩ := h'
  rw [bind_ok] at h h'
  obtain ⟨q, h4, h⟩ := h
  obtain ⟨q', h4', h'⟩ := h'
  obtain ⟨-, -, t⟩ := (trace_rel hA hG f).2.2 _ _ _ _ _ _ _ o1 o3 o4 (⟨start_rel ho hf hv h3 h3', hm⟩ : RS Pub s.vars ⟨e, m⟩ ⟨e', m'⟩) h4 h4'
  simp only [callTrace, h1, h3, h3', t]

end

end CLang
