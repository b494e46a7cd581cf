import Verif.Proofs.X86Mem
import Lean.Elab.Tactic

/-
Executions of the machine of `Verif/Model/X86.lean` on the text of src/ntt_asm.S that follow the computations of
`Verif/Model/NttAsm.lean`.
-/

namespace X86
open C Avx Spec

/-- Closes an equation by computation in the kernel. -/
elab "krfl" : tactic => do
  let goal ← Lean.Elab.Tactic.getMainGoal
  let ty ← Lean.instantiateMVars (← goal.getType)
  let some (_, lhs, _) := ty.consumeMData.eq? | throwError "not an equation"
  goal.assign (← Lean.Meta.mkEqRefl lhs)
  Lean.Elab.Tactic.replaceMainGoal []

abbrev Text := List Code.Instr

/-! ### Memory with the array at `A` -/

/-- `m` differs from `m0` in the array at most. -/
def Same (A : Word) (n : Nat) (m0 m : Memory) : Prop := ∀ b, (∀ i < 4 * n, b ≠ A + BitVec.ofNat 64 i) → m b = m0 b

/-- The constants as registers. -/
def constV : Code.Const → V8
  | .mask => Asm.mask
  | .q_x8 => Asm.q_x8
  | .q_minus1_x8 => Asm.q_minus1_x8
  | .half_q_x8 => Asm.half_q_x8
  | .perm0246 => Asm.perm0246
  | .perm5 => Asm.perm5
  | .perm4 => Asm.perm4
  | .perm3 => Asm.perm3
  | .perm2020 => Asm.perm2020
  | .perm0426 => Asm.perm0426
  | .perm04152637 => Asm.perm04152637
  | .perm5070 => Asm.perm5070
  | .perm4060 => Asm.perm4060
  | .perm_bdcst1 => Asm.perm_bdcst1
  | .perm_bdcst2 => Asm.perm_bdcst2
  | .perm_bdcst3 => Asm.perm_bdcst3

/-- What does not change during a call: the place of the array, the rights and the data section. -/
structure Host (K : Machine) (A : Word) (n : Nat) (m0 : Memory) : Prop where
  hn : n < 2 ^ 32
  hA : A.toNat < 2 ^ 63
  rd : ∀ i < 4 * n, K.readable (A + BitVec.ofNat 64 i) = true
  wr : ∀ i < 4 * n, K.writable (A + BitVec.ofNat 64 i) = true
  al : ∀ c, (K.data + BitVec.ofNat 64 (Code.addr c)).toNat % 32 = 0
  cst : ∀ c m, Same A n m0 m → Load.dqu.exec K m (K.data + BitVec.ofNat 64 (Code.addr c)) = .ok (constV c)

/-- The array at `A` is `a`, everything else is as in `m0`. -/
structure Env (A : Word) (n : Nat) (m0 m : Memory) (a : Array Int) : Prop where
  size : a.size = n
  val : ∀ i < n, int32At m (A + BitVec.ofNat 64 (4 * i)) = elt a i
  same : Same A n m0 m

/-- A table of `int16_t` apart from the array. -/
def Tab (K : Machine) (A : Word) (n : Nat) (m0 : Memory) (P : Word) (p : Array Int) : Prop :=
  ∀ m, Same A n m0 m → Arr16 K m P p

/-- An array of `int32_t` apart from the array. -/
def Src (K : Machine) (A : Word) (n : Nat) (m0 : Memory) (B : Word) (b : Array Int) : Prop :=
  ∀ m, Same A n m0 m → Arr K m B b

section
variable {K : Machine} {A : Word} {n : Nat} {m0 m : Memory} {a : Array Int}

theorem Env.arr (H : Host K A n m0) (E : Env A n m0 m a) : Arr K m A a := by
  intro i hi
  have hi' : i < n := E.size ▸ hi
  unfold ld32
  rw [if_pos, E.val i hi']
  apply allowed_of
  intro j hj
  rw [BitVec.add_assoc, ← BitVec.ofNat_add]
  exact H.rd _ (by omega)

theorem Env.write (H : Host K A n m0) (E : Env A n m0 m a) {q : Nat} {x : Int} {a' : Array Int} (hx : I32 x)
    (h : C.wr a q x = .ok a') : st32 K m (A + BitVec.ofNat 64 (4 * q)) x = .ok (put m (A + BitVec.ofNat 64 (4 * q)) (toU32 x) 4) ∧
    Env A n m0 (put m (A + BitVec.ofNat 64 (4 * q)) (toU32 x) 4) a' ∧ q < n := by
  have hn := H.hn
  have hq : q < a.size ∧ a' = a.setIfInBounds q x := by
    unfold C.wr at h
    split at h
    · cases h
      exact ⟨‹_›, rfl⟩
    · cases h
  obtain ⟨hq, rfl⟩ := hq
  rw [E.size] at hq
  refine ⟨?_, ⟨?_, ?_, ?_⟩, hq⟩
  · unfold st32
    rw [if_pos]
    apply allowed_of
    intro j hj
    rw [BitVec.add_assoc, ← BitVec.ofNat_add]
    exact H.wr _ (by omega)
  · rw [Array.size_setIfInBounds, E.size]
  · intro i hi
    by_cases hiq : i = q
    · subst hiq
      rw [int32At_put hx]
      unfold elt
      rw [Array.getD_eq_getD_getElem?, Array.getElem?_setIfInBounds_self_of_lt (by rw [E.size]; exact hq)]
      rfl
    · rw [int32At_put_other, E.val i hi]
      · unfold elt
        rw [Array.getD_eq_getD_getElem?, Array.getD_eq_getD_getElem?, Array.getElem?_setIfInBounds_ne (Ne.symm hiq)]
      · intro j hj k hk h
        rw [BitVec.add_assoc, BitVec.add_assoc, ← BitVec.ofNat_add, ← BitVec.ofNat_add] at h
        have := ofNat_inj (by omega) (by omega) h
        omega
  · intro b hb
    rw [put_other, E.same b hb]
    intro j hj
    rw [BitVec.add_assoc, ← BitVec.ofNat_add]
    exact hb _ (by omega)

theorem Env.putList (H : Host K A n m0) : ∀ (l : List Int) (m : Memory) (a : Array Int) (q : Nat) (a' : Array Int), (∀ x ∈ l, I32 x) →
    Env A n m0 m a → Avx.putList l a q = .ok a' → ∃ m', st32s K l m (A + BitVec.ofNat 64 (4 * q)) = .ok m' ∧ Env A n m0 m' a' ∧
    (l ≠ [] → q + l.length ≤ n)
  | [], m, a, q, a', _, E, h => by
    cases h
    exact ⟨m, rfl, E, fun h => absurd rfl h⟩
  | x :: l, m, a, q, a', hl, E, h => by
    obtain ⟨a1, h1, h⟩ := bind_ok' h
    obtain ⟨hs, E1, hq⟩ := E.write H (hl x (List.mem_cons_self)) h1
    obtain ⟨m', h2, E2, h3⟩ := Env.putList H l _ a1 (q + 1) a' (fun y hy => hl y (List.mem_cons_of_mem _ hy)) E1 h
    refine ⟨m', ?_, E2, ?_⟩
    · unfold st32s
      rw [hs]
      show st32s K l _ (A + BitVec.ofNat 64 (4 * q) + BitVec.ofNat 64 4) = .ok m'
      rw [BitVec.add_assoc, ← BitVec.ofNat_add]
      exact h2
    · intro _
      rw [List.length_cons]
      by_cases hl0 : l = []
      · subst hl0
        simp only [List.length_nil]
        omega
      · have := h3 hl0
        omega

theorem Env.store (H : Host K A n m0) (E : Env A n m0 m a) {v : V8} (hv : Lanes v) {r : Nat} {a' : Array Int}
    (h : Avx.store a r v = .ok a') : ∃ m', st32s K [v.x0, v.x1, v.x2, v.x3, v.x4, v.x5, v.x6, v.x7] m (A + BitVec.ofNat 64 r) = .ok m' ∧
    Env A n m0 m' a' ∧ r + 32 ≤ 4 * n := by
  unfold Avx.store at h
  split at h
  · rename_i hr
    obtain ⟨m', h1, h2, h3⟩ := Env.putList H _ m a _ a' (by
      obtain ⟨h0, h1, h2, h3, h4, h5, h6, h7⟩ := hv
      simp only [List.mem_cons, List.not_mem_nil, or_false, forall_eq_or_imp, forall_eq]
      exact ⟨h0, h1, h2, h3, h4, h5, h6, h7⟩) E h
    rw [show 4 * (r / 4) = r by omega] at h1
    have := h3 (List.cons_ne_nil _ _)
    simp only [List.length_cons, List.length_nil] at this
    exact ⟨m', h1, h2, by omega⟩
  · cases h

theorem Env.store128 (H : Host K A n m0) (E : Env A n m0 m a) {v : V8} (hv : Lanes v) {r : Nat} {a' : Array Int}
    (h : Avx.store128 a r v = .ok a') : ∃ m', st32s K [v.x0, v.x1, v.x2, v.x3] m (A + BitVec.ofNat 64 r) = .ok m' ∧
    Env A n m0 m' a' ∧ r + 16 ≤ 4 * n := by
  unfold Avx.store128 at h
  split at h
  · rename_i hr
    obtain ⟨m', h1, h2, h3⟩ := Env.putList H _ m a _ a' (by
      obtain ⟨h0, h1, h2, h3, -⟩ := hv
      simp only [List.mem_cons, List.not_mem_nil, or_false, forall_eq_or_imp, forall_eq]
      exact ⟨h0, h1, h2, h3⟩) E h
    rw [show 4 * (r / 4) = r by omega] at h1
    have := h3 (List.cons_ne_nil _ _)
    simp only [List.length_cons, List.length_nil] at this
    exact ⟨m', h1, h2, by omega⟩
  · cases h

end

/-! ### Executions -/

/-- Execution leads from `c`, `s` to `c'`, `s'`. -/
def Reach (K : Machine) (c : Text) (s : State) (c' : Text) (s' : State) : Prop :=
  ∃ k, ∀ f, run K Code.addr Code.prog (f + k) c s = run K Code.addr Code.prog f c' s'

theorem Reach.refl {K : Machine} {c : Text} {s : State} : Reach K c s c s := ⟨0, fun _ => rfl⟩

theorem Reach.trans {K : Machine} {c c1 c2 : Text} {s s1 s2 : State} (h1 : Reach K c s c1 s1) (h2 : Reach K c1 s1 c2 s2) :
    Reach K c s c2 s2 := by
  obtain ⟨k1, h1⟩ := h1
  obtain ⟨k2, h2⟩ := h2
  exact ⟨k2 + k1, fun f => by rw [← Nat.add_assoc, h1, h2]⟩

/-- If `x` succeeds, execution leads to a state with the postcondition. -/
def Sim {α : Type} (K : Machine) (x : M α) (c : Text) (s : State) (P : α → Text → State → Prop) : Prop :=
  WF s.ymm → ∀ r, x = .ok r → ∃ c' s', Reach K c s c' s' ∧ WF s'.ymm ∧ P r c' s'

section
variable {α β : Type} {K : Machine} {x : M α} {c : Text} {s s1 : State} {P : α → Text → State → Prop} {g : Nat → Word} {y : Nat → V8}
  {cf zf : Bool} {m m0 : Memory} {A : Word} {n : Nat} {a : Array Int}

theorem Sim.stop {r : α} (h : P r c s) : Sim K (pure r) c s P := by
  intro hw r' hr
  cases hr
  exact ⟨c, s, .refl, hw, h⟩

theorem Sim.go {c1 : Text} (hr : Reach K c s c1 s1) (hw : WF s.ymm → WF s1.ymm) (h : Sim K x c1 s1 P) : Sim K x c s P := by
  intro hs r hx
  obtain ⟨c', s', h1, h2, h3⟩ := h (hw hs) r hx
  exact ⟨c', s', hr.trans h1, h2, h3⟩

/-- Name the general purpose registers. -/
theorem Sim.gen (h : ∀ g', g' = g → Sim K x c ⟨g', y, cf, zf, m⟩ P) : Sim K x c ⟨g, y, cf, zf, m⟩ P := h g rfl

/-- Name the vector registers. -/
theorem Sim.geny (h : ∀ y', y' = y → Sim K x c ⟨g, y', cf, zf, m⟩ P) : Sim K x c ⟨g, y, cf, zf, m⟩ P := h y rfl

theorem Sim.label {l : Code.Label} (h : Sim K x c s P) : Sim K x (.label l :: c) s P :=
  .go ⟨1, fun _ => rfl⟩ id h

theorem Sim.jmp {l : Code.Label} {c1 : Text} (hl : codeAt l Code.prog = c1) (h : Sim K x c1 s P) : Sim K x (.jmp l :: c) s P :=
  .go ⟨1, fun _ => by rw [← hl]; rfl⟩ id h

theorem Sim.vec {i : VInstr} (h : Sim K x c ⟨g, i.exec y, cf, zf, m⟩ P) : Sim K x (.vec i :: c) ⟨g, y, cf, zf, m⟩ P :=
  .go ⟨1, fun _ => rfl⟩ (VInstr.exec_WF i) h

theorem Sim.vmovd {d r : Nat} {w : Word} (hr : g r = w) (h : Sim K x c ⟨g, upd y d (Avx.vmovd w.toNat), cf, zf, m⟩ P) :
    Sim K x (.vmovd d r :: c) ⟨g, y, cf, zf, m⟩ P := by
  subst hr
  exact .go ⟨1, fun _ => rfl⟩ (fun hw => hw.upd (lanes_vmovd _)) h

theorem Sim.mov {d r : Nat} (h : Sim K x c ⟨upd g d (g r), y, cf, zf, m⟩ P) : Sim K x (.mov d r :: c) ⟨g, y, cf, zf, m⟩ P :=
  .go ⟨1, fun _ => rfl⟩ id h

theorem Sim.movi {d k : Nat} (h : Sim K x c ⟨upd g d (BitVec.ofNat 64 k), y, cf, zf, m⟩ P) :
    Sim K x (.movi d k :: c) ⟨g, y, cf, zf, m⟩ P :=
  .go ⟨1, fun _ => rfl⟩ id h

theorem Sim.lea {d : Nat} {ad : Addr} (h : Sim K x c ⟨upd g d (ad.ea g), y, cf, zf, m⟩ P) :
    Sim K x (.lea d ad :: c) ⟨g, y, cf, zf, m⟩ P :=
  .go ⟨1, fun _ => rfl⟩ id h

theorem Sim.add {d r : Nat} (h : ∀ cf zf, Sim K x c ⟨upd g d (g d + g r), y, cf, zf, m⟩ P) :
    Sim K x (.add d r :: c) ⟨g, y, cf, zf, m⟩ P :=
  .go ⟨1, fun _ => rfl⟩ id (h _ _)

theorem Sim.addi {d k : Nat} (h : ∀ cf zf, Sim K x c ⟨upd g d (g d + BitVec.ofNat 64 k), y, cf, zf, m⟩ P) :
    Sim K x (.addi d k :: c) ⟨g, y, cf, zf, m⟩ P :=
  .go ⟨1, fun _ => rfl⟩ id (h _ _)

theorem Sim.shl {d k : Nat} (h : ∀ cf zf, Sim K x c ⟨upd g d (g d <<< k), y, cf, zf, m⟩ P) :
    Sim K x (.shl d k :: c) ⟨g, y, cf, zf, m⟩ P :=
  .go ⟨1, fun _ => rfl⟩ id (h _ _)

theorem Sim.shr {d k : Nat} (h : ∀ cf zf, Sim K x c ⟨upd g d (g d >>> k), y, cf, zf, m⟩ P) :
    Sim K x (.shr d k :: c) ⟨g, y, cf, zf, m⟩ P :=
  .go ⟨1, fun _ => rfl⟩ id (h _ _)

theorem Sim.const {d : Nat} {k : Code.Const} (H : Host K A n m0) (E : Env A n m0 m a)
    (h : Sim K x c ⟨g, upd y d (constV k), cf, zf, m⟩ P) : Sim K x (.const d k :: c) ⟨g, y, cf, zf, m⟩ P := by
  have hc := H.cst k m E.same
  refine .go ⟨1, fun f => ?_⟩ (fun hw => hw.upd (Load.exec_lanes hc)) h
  show ((if (K.data + BitVec.ofNat 64 (Code.addr k)).toNat % 32 = 0 then
    (Load.dqu.exec K m (K.data + BitVec.ofNat 64 (Code.addr k)) >>= fun v => _) else _) >>=
    fun s => run K Code.addr Code.prog f c s) = _
  rw [if_pos (H.al k), hc]
  rfl

theorem reach_load {l : Load} {d : Nat} {ad : Addr} {v : V8} (h : l.exec K m (ad.ea g) = .ok v) :
    Reach K (.load l d ad :: c) ⟨g, y, cf, zf, m⟩ c ⟨g, upd y d v, cf, zf, m⟩ := by
  refine ⟨1, fun f => ?_⟩
  show ((l.exec K m (ad.ea g) >>= fun v => _) >>= fun s => run K Code.addr Code.prog f c s) = _
  rw [h]
  rfl

/-- A load of which both sides are known. -/
theorem Sim.load_gen {xl : M V8} {k : V8 → M α} {l : Load} {d : Nat} {ad : Addr} {B : Prop}
    (hl : ∀ v, xl = .ok v → l.exec K m (ad.ea g) = .ok v ∧ B)
    (h : ∀ v, B → Sim K (k v) c ⟨g, upd y d v, cf, zf, m⟩ P) :
    Sim K (xl >>= k) (.load l d ad :: c) ⟨g, y, cf, zf, m⟩ P := by
  intro hw r hr
  obtain ⟨v, hv, hr⟩ := bind_ok' hr
  obtain ⟨h1, h2⟩ := hl v hv
  obtain ⟨c', s', h3, h4, h5⟩ := h v h2 (hw.upd (Load.exec_lanes h1)) r hr
  exact ⟨c', s', (reach_load h1).trans h3, h4, h5⟩

theorem Sim.load {k : V8 → M α} {d : Nat} {ad : Addr} {r : Nat} (H : Host K A n m0) (E : Env A n m0 m a)
    (hx : ad.ea g = A + BitVec.ofNat 64 r) (h : ∀ v, r + 32 ≤ 4 * n → Sim K (k v) c ⟨g, upd y d v, cf, zf, m⟩ P) :
    Sim K (Avx.load a r >>= k) (.load .dqu d ad :: c) ⟨g, y, cf, zf, m⟩ P :=
  .load_gen (fun v hv => by rw [hx, ← E.size]; exact (E.arr H).load hv) h

theorem Sim.load_sxdq {k : V8 → M α} {d : Nat} {ad : Addr} {r : Nat} (H : Host K A n m0) (E : Env A n m0 m a)
    (hx : ad.ea g = A + BitVec.ofNat 64 r) (h : ∀ v, r + 16 ≤ 4 * n → Sim K (k v) c ⟨g, upd y d v, cf, zf, m⟩ P) :
    Sim K (Avx.load_sxdq a r >>= k) (.load .sxdq d ad :: c) ⟨g, y, cf, zf, m⟩ P :=
  .load_gen (fun v hv => by rw [hx, ← E.size]; exact (E.arr H).load_sxdq hv) h

section
variable {B : Word} {b : Array Int}

theorem Sim.loadS {k : V8 → M α} {d : Nat} {ad : Addr} {r : Nat} (T : Src K A n m0 B b) (E : Env A n m0 m a)
    (hx : ad.ea g = B + BitVec.ofNat 64 r) (h : ∀ v, r + 32 ≤ 4 * b.size → Sim K (k v) c ⟨g, upd y d v, cf, zf, m⟩ P) :
    Sim K (Avx.load b r >>= k) (.load .dqu d ad :: c) ⟨g, y, cf, zf, m⟩ P :=
  .load_gen (fun v hv => by rw [hx]; exact (T m E.same).load hv) h

theorem Sim.load_sxwd {k : V8 → M α} {d : Nat} {ad : Addr} {r : Nat} (T : Tab K A n m0 B b) (E : Env A n m0 m a)
    (hx : ad.ea g = B + BitVec.ofNat 64 r) (h : ∀ v, True → Sim K (k v) c ⟨g, upd y d v, cf, zf, m⟩ P) :
    Sim K (Avx.load_sxwd b r >>= k) (.load .sxwd d ad :: c) ⟨g, y, cf, zf, m⟩ P :=
  .load_gen (fun v hv => by rw [hx]; exact ⟨(T m E.same).load_sxwd hv, trivial⟩) h

theorem Sim.load_sxwq {k : V8 → M α} {d : Nat} {ad : Addr} {r : Nat} (T : Tab K A n m0 B b) (E : Env A n m0 m a)
    (hx : ad.ea g = B + BitVec.ofNat 64 r) (h : ∀ v, True → Sim K (k v) c ⟨g, upd y d v, cf, zf, m⟩ P) :
    Sim K (Avx.load_sxwq b r >>= k) (.load .sxwq d ad :: c) ⟨g, y, cf, zf, m⟩ P :=
  .load_gen (fun v hv => by rw [hx]; exact ⟨(T m E.same).load_sxwq hv, trivial⟩) h

theorem Sim.load_sxwq128 {k : V8 → M α} {d : Nat} {ad : Addr} {r : Nat} (T : Tab K A n m0 B b) (E : Env A n m0 m a)
    (hx : ad.ea g = B + BitVec.ofNat 64 r) (h : ∀ v, True → Sim K (k v) c ⟨g, upd y d v, cf, zf, m⟩ P) :
    Sim K (Avx.load_sxwq128 b r >>= k) (.load .sxwq128 d ad :: c) ⟨g, y, cf, zf, m⟩ P :=
  .load_gen (fun v hv => by rw [hx]; exact ⟨(T m E.same).load_sxwq128 hv, trivial⟩) h

theorem Sim.load_bdcstw {k : V8 → M α} {d : Nat} {ad : Addr} {r : Nat} (T : Tab K A n m0 B b) (E : Env A n m0 m a)
    (hx : ad.ea g = B + BitVec.ofNat 64 r) (h : ∀ v, True → Sim K (k v) c ⟨g, upd y d v, cf, zf, m⟩ P) :
    Sim K (Avx.load_bdcstw b r >>= k) (.load .bdcstw d ad :: c) ⟨g, y, cf, zf, m⟩ P :=
  .load_gen (fun v hv => by rw [hx]; exact ⟨(T m E.same).load_bdcstw hv, trivial⟩) h

end

theorem Sim.store {k : Array Int → M α} {d : Nat} {ad : Addr} {r : Nat} {v : V8} (H : Host K A n m0) (E : Env A n m0 m a)
    (hx : ad.ea g = A + BitVec.ofNat 64 r) (hv : y d = v)
    (h : ∀ a' m', Env A n m0 m' a' → r + 32 ≤ 4 * n → Sim K (k a') c ⟨g, y, cf, zf, m'⟩ P) :
    Sim K (Avx.store a r v >>= k) (.store ad d :: c) ⟨g, y, cf, zf, m⟩ P := by
  intro hw r' hr
  obtain ⟨a', ha, hr⟩ := bind_ok' hr
  rw [← hv] at ha
  obtain ⟨m', h1, h2, h3⟩ := E.store H (hw d) ha
  obtain ⟨c', s', h4, h5, h6⟩ := h a' m' h2 h3 hw r' hr
  refine ⟨c', s', Reach.trans ⟨1, fun f => ?_⟩ h4, h5, h6⟩
  show ((st32s K _ m (ad.ea g) >>= fun v => _) >>= fun s => run K Code.addr Code.prog f c s) = _
  rw [hx, h1]
  rfl

theorem Sim.store128 {k : Array Int → M α} {d : Nat} {ad : Addr} {r : Nat} {v : V8} (H : Host K A n m0) (E : Env A n m0 m a)
    (hx : ad.ea g = A + BitVec.ofNat 64 r) (hv : y d = v)
    (h : ∀ a' m', Env A n m0 m' a' → r + 16 ≤ 4 * n → Sim K (k a') c ⟨g, y, cf, zf, m'⟩ P) :
    Sim K (Avx.store128 a r v >>= k) (.store128 ad d :: c) ⟨g, y, cf, zf, m⟩ P := by
  intro hw r' hr
  obtain ⟨a', ha, hr⟩ := bind_ok' hr
  rw [← hv] at ha
  obtain ⟨m', h1, h2, h3⟩ := E.store128 H (hw d) ha
  obtain ⟨c', s', h4, h5, h6⟩ := h a' m' h2 h3 hw r' hr
  refine ⟨c', s', Reach.trans ⟨1, fun f => ?_⟩ h4, h5, h6⟩
  show ((st32s K _ m (ad.ea g) >>= fun v => _) >>= fun s => run K Code.addr Code.prog f c s) = _
  rw [hx, h1]
  rfl

/-! ### Jumps -/

/-- The comparison of two registers is that of two numbers. -/
def Cmp (u v : Word) (i j : Nat) : Prop := (u.toNat < v.toNat ↔ i < j) ∧ (u = v ↔ i = j)

/-- The relation of a condition. -/
def Cond.rel (cc : Cond) (i j : Nat) : Prop :=
  match cc with
  | .b => i < j
  | .ae => i ≥ j
  | .be => i ≤ j
  | .a => i > j
  | .e => i = j
  | .ne => i ≠ j

theorem Cmp.holds {u v : Word} {i j : Nat} (h : Cmp u v i j) (cc : Cond) :
    cc.holds (decide (u.toNat < v.toNat)) (u == v) = true ↔ cc.rel i j := by
  obtain ⟨h1, h2⟩ := h
  cases cc <;> simp only [Cond.holds, Cond.rel, Bool.not_eq_true', Bool.or_eq_true, Bool.or_eq_false_iff, decide_eq_true_eq,
    decide_eq_false_iff_not, beq_iff_eq, beq_eq_false_iff_ne, h1, h2, ne_eq] <;> omega

theorem Cmp.ptr {i j : Nat} (hA : A.toNat < 2 ^ 63) (hi : i < 2 ^ 40) (hj : j < 2 ^ 40) {u v : Word}
    (hu : u = A + BitVec.ofNat 64 i) (hv : v = A + BitVec.ofNat 64 j) : Cmp u v i j := by
  subst hu hv
  have h : ∀ k, k < 2 ^ 40 → (A + BitVec.ofNat 64 k).toNat = A.toNat + k := by
    intro k hk
    rw [BitVec.toNat_add, BitVec.toNat_ofNat]
    omega
  refine ⟨by rw [h i hi, h j hj]; omega, fun he => ?_, fun he => by rw [he]⟩
  have := congrArg BitVec.toNat he
  rw [h i hi, h j hj] at this
  omega

theorem Cmp.cnt {i j : Nat} (hi : i < 2 ^ 40) (hj : j < 2 ^ 40) {u v : Word}
    (hu : u = BitVec.ofNat 64 i) (hv : v = BitVec.ofNat 64 j) : Cmp u v i j := by
  subst hu hv
  have h : ∀ k, k < 2 ^ 40 → (BitVec.ofNat 64 k).toNat = k := by
    intro k hk
    rw [BitVec.toNat_ofNat]
    omega
  refine ⟨by rw [h i hi, h j hj], fun he => ?_, fun he => by rw [he]⟩
  have := congrArg BitVec.toNat he
  rwa [h i hi, h j hj] at this

theorem Sim.cmp_jcc {r r' i j : Nat} {cc : Cond} {l : Code.Label} {c1 : Text} (hl : codeAt l Code.prog = c1) (hc : Cmp (g r) (g r') i j)
    (ht : cc.rel i j → ∀ cf zf, Sim K x c1 ⟨g, y, cf, zf, m⟩ P) (hf : ¬ cc.rel i j → ∀ cf zf, Sim K x c ⟨g, y, cf, zf, m⟩ P) :
    Sim K x (.cmp r r' :: .jcc cc l :: c) ⟨g, y, cf, zf, m⟩ P := by
  have hh := hc.holds cc
  by_cases h : cc.rel i j
  · refine .go (s1 := ⟨g, y, decide ((g r).toNat < (g r').toNat), g r == g r', m⟩) ⟨2, fun f => ?_⟩ id (ht h _ _)
    show run K Code.addr Code.prog f (if cc.holds _ _ then codeAt l Code.prog else c) _ = _
    rw [if_pos (hh.mpr h), hl]
  · refine .go (s1 := ⟨g, y, decide ((g r).toNat < (g r').toNat), g r == g r', m⟩) ⟨2, fun f => ?_⟩ id (hf h _ _)
    show run K Code.addr Code.prog f (if cc.holds _ _ then codeAt l Code.prog else c) _ = _
    rw [if_neg (fun h' => h (hh.mp h'))]

theorem Sim.cmpi_jcc {r i j : Nat} {cc : Cond} {l : Code.Label} {c1 : Text} (hl : codeAt l Code.prog = c1)
    (hc : Cmp (g r) (BitVec.ofNat 64 j) i j)
    (ht : cc.rel i j → ∀ cf zf, Sim K x c1 ⟨g, y, cf, zf, m⟩ P) (hf : ¬ cc.rel i j → ∀ cf zf, Sim K x c ⟨g, y, cf, zf, m⟩ P) :
    Sim K x (.cmpi r j :: .jcc cc l :: c) ⟨g, y, cf, zf, m⟩ P := by
  have hh := hc.holds cc
  by_cases h : cc.rel i j
  · refine .go
      (s1 := ⟨g, y, decide ((g r).toNat < (BitVec.ofNat 64 j).toNat), g r == BitVec.ofNat 64 j, m⟩) ⟨2, fun f => ?_⟩ id (ht h _ _)
    show run K Code.addr Code.prog f (if cc.holds _ _ then codeAt l Code.prog else c) _ = _
    rw [if_pos (hh.mpr h), hl]
  · refine .go
      (s1 := ⟨g, y, decide ((g r).toNat < (BitVec.ofNat 64 j).toNat), g r == BitVec.ofNat 64 j, m⟩) ⟨2, fun f => ?_⟩ id (hf h _ _)
    show run K Code.addr Code.prog f (if cc.holds _ _ then codeAt l Code.prog else c) _ = _
    rw [if_neg (fun h' => h (hh.mp h'))]

theorem Sim.if_pos {p : Prop} [Decidable p] {x' : M α} (h : p) (hx : Sim K x c s P) : Sim K (if p then x else x') c s P := by
  rwa [_root_.if_pos h]

theorem Sim.if_neg {p : Prop} [Decidable p] {x' : M α} (h : ¬ p) (hx : Sim K x' c s P) : Sim K (if p then x else x') c s P := by
  rwa [_root_.if_neg h]

/-! ### Loops -/

/-- After the body of a loop: `I` at its label, or `J` behind it. -/
def LoopPost {σ : Type} (I J : σ → State → Prop) (cL cE : Text) (r : σ × Bool) (c : Text) (s : State) : Prop :=
  (r.2 = true → c = cL ∧ I r.1 s) ∧ (r.2 = false → c = cE ∧ J r.1 s)

/-- Taken. -/
theorem Sim.again {σ : Type} {I J : σ → State → Prop} {cE : Text} {st : σ} {b : Bool} (hb : b = true) (h : I st s) :
    Sim K (pure (st, b)) c s (LoopPost I J c cE) :=
  .stop ⟨fun _ => ⟨rfl, h⟩, fun h' => by rw [hb] at h'; cases h'⟩

/-- Not taken. -/
theorem Sim.done {σ : Type} {I J : σ → State → Prop} {cL : Text} {st : σ} {b : Bool} (hb : b = false) (h : J st s) :
    Sim K (pure (st, b)) c s (LoopPost I J cL c) :=
  .stop ⟨fun h' => (by rw [hb] at h'; cases h'), fun _ => ⟨rfl, h⟩⟩

theorem Sim.jloop {σ : Type} {I J : σ → State → Prop} {body : σ → M (σ × Bool)} {cL cE : Text}
    (hb : ∀ st s, I st s → Sim K (body st) cL s (LoopPost I J cL cE)) : ∀ (fuel : Nat) (st : σ) (s : State), I st s →
    Sim K (jloop body fuel st) cL s (fun st c s => c = cE ∧ J st s)
  | 0, _, _, _ => by intro _ r hr; cases hr
  | fuel + 1, st, s, hI => by
    intro hw r hr
    obtain ⟨⟨st1, t⟩, h1, h2⟩ := bind_ok' hr
    obtain ⟨c', s', h3, h4, h5, h6⟩ := hb st s hI hw _ h1
    cases t with
    | true =>
      obtain ⟨rfl, hI'⟩ := h5 rfl
      obtain ⟨c2, s2, h7, h8, h9⟩ := Sim.jloop hb fuel st1 s' hI' h4 r h2
      exact ⟨c2, s2, h3.trans h7, h8, h9⟩
    | false =>
      cases h2
      exact ⟨c', s', h3, h4, h6 rfl⟩

theorem Sim.bind {x : M β} {k : β → M α} {Q : β → Text → State → Prop} (h : Sim K x c s Q)
    (hk : ∀ b c' s', Q b c' s' → Sim K (k b) c' s' P) : Sim K (x >>= k) c s P := by
  intro hw r hr
  obtain ⟨b, h1, h2⟩ := bind_ok' hr
  obtain ⟨c1, s1, h3, h4, h5⟩ := h hw b h1
  obtain ⟨c2, s2, h6, h7, h8⟩ := hk b c1 s1 h5 h4 r h2
  exact ⟨c2, s2, h3.trans h6, h7, h8⟩

theorem Sim.loop {σ : Type} {I J : σ → State → Prop} {body : σ → M (σ × Bool)} {cL cE : Text} {fuel : Nat} {st : σ} {k : σ → M α}
    (hb : ∀ st s, I st s → Sim K (body st) cL s (LoopPost I J cL cE)) (hI : I st s)
    (hk : ∀ st s, J st s → Sim K (k st) cE s P) : Sim K (Avx.jloop body fuel st >>= k) cL s P :=
  .bind (.jloop hb fuel st s hI) (fun st c s ⟨hc, hJ⟩ => hc ▸ hk st s hJ)

end

/-! ### Registers that do not change -/

/-- `f` and `f0` agree outside a list. -/
def Agree {α : Type} (L : List Nat) (f0 f : Nat → α) : Prop := ∀ k, L.contains k = false → f k = f0 k

section
variable {α : Type} {L : List Nat} {f0 f f1 : Nat → α}

theorem Agree.refl : Agree L f f := fun _ _ => rfl

theorem Agree.upd {d : Nat} {v : α} (hd : L.contains d = true) (h : Agree L f0 f) : Agree L f0 (upd f d v) := by
  intro k hk
  unfold X86.upd
  cases hkd : Nat.beq k d with
  | false => exact h k hk
  | true =>
    rw [Nat.eq_of_beq_eq_true hkd, hd] at hk
    cases hk

theorem Agree.of_eq (he : f1 = f) (h : Agree L f0 f) : Agree L f0 f1 := he ▸ h

theorem Agree.trans {L' : List Nat} (hL : L'.all L.contains = true) (h : Agree L f0 f) (h' : Agree L' f f1) : Agree L f0 f1 := by
  intro k hk
  rw [h' k, h k hk]
  rw [List.all_eq_true] at hL
  cases hc : L'.contains k with
  | false => rfl
  | true =>
    rw [hL k (List.contains_iff_mem.mp hc)] at hk
    cases hk

end

/-- At `ret`: the array is the result; the registers that a function has to preserve are as before. -/
def RetPost (A : Word) (n : Nat) (m0 : Memory) (g0 : Nat → Word) (a : Array Int) (c : Text) (s : State) : Prop :=
  (∃ c', c = .ret :: c') ∧ Env A n m0 s.mem a ∧ Agree [rax, rcx, rdx, rsi, rdi, r8, r9, r10, r11] g0 s.gpr

/-- The register an instruction writes. -/
def VInstr.dest : VInstr → Nat
  | .vpaddd d _ _ | .vpsubd d _ _ | .vpand d _ _ | .vpcmpgtd d _ _ | .vpmuldq d _ _ | .vpslld d _ _ | .vpsrad d _ _ | .vpsrlq d _ _
  | .vpslldq d _ _ | .vpsrldq d _ _ | .vpshufd d _ _ | .vpblendd d _ _ _ | .vshufps d _ _ _ | .vshufpd d _ _ _
  | .vperm2i128 d _ _ _ | .vpermd d _ _ | .vpmovsxwq d _ | .vpbroadcastd d _ | .vpbroadcastq d _ | .vmovdqu d _ => d

theorem Agree.vec {L : List Nat} {y0 y : Nat → V8} {i : VInstr} (hd : L.contains i.dest = true) (h : Agree L y0 y) :
    Agree L y0 (i.exec y) := by
  cases i <;> exact h.upd hd

macro "agree" h:term : tactic =>
  `(tactic| (repeat (first | with_reducible exact $h | with_reducible refine Agree.vec rfl ?_ | with_reducible refine Agree.upd rfl ?_)))

/-! ### Addresses -/

section
variable {g : Nat → Word} {A : Word} {b i x z k : Nat}

theorem ea_at (h : g b = A + BitVec.ofNat 64 x) : Addr.ea (.at b k) g = A + BitVec.ofNat 64 (x + k) := by
  show g b + BitVec.ofNat 64 k = _
  rw [h, BitVec.add_assoc, ← BitVec.ofNat_add]

theorem ea_ix (h : g b = A + BitVec.ofNat 64 x) (hi : g i = BitVec.ofNat 64 z) {c : Nat} :
    Addr.ea (.ix b k i c) g = A + BitVec.ofNat 64 (x + k * z + c) := by
  show g b + BitVec.ofNat 64 k * g i + BitVec.ofNat 64 c = _
  rw [h, hi, BitVec.add_assoc, BitVec.add_assoc, ← BitVec.ofNat_mul, ← BitVec.ofNat_add, ← BitVec.ofNat_add, ← Nat.add_assoc]

/-- Scale 1. -/
theorem ea_ix1 (h : g b = A + BitVec.ofNat 64 x) (hi : g i = BitVec.ofNat 64 z) {c : Nat} :
    Addr.ea (.ix b 1 i c) g = A + BitVec.ofNat 64 (x + z + c) := by
  rw [ea_ix h hi, Nat.one_mul]

theorem ptr_addi (h : g b = A + BitVec.ofNat 64 x) : g b + BitVec.ofNat 64 k = A + BitVec.ofNat 64 (x + k) := by
  rw [h, BitVec.add_assoc, ← BitVec.ofNat_add]

theorem ptr_add (h : g b = A + BitVec.ofNat 64 x) (hi : g i = BitVec.ofNat 64 z) : g b + g i = A + BitVec.ofNat 64 (x + z) := by
  rw [h, hi, BitVec.add_assoc, ← BitVec.ofNat_add]

theorem cnt_shl1 (h : g b = BitVec.ofNat 64 x) : g b <<< 1 = BitVec.ofNat 64 (2 * x) := by
  rw [h]
  apply BitVec.eq_of_toNat_eq
  rw [BitVec.toNat_shiftLeft, BitVec.toNat_ofNat, BitVec.toNat_ofNat, Nat.shiftLeft_eq]
  omega

theorem cnt_shr1 (h : g b = BitVec.ofNat 64 x) (hx : x < 2 ^ 40) : g b >>> 1 = BitVec.ofNat 64 (x / 2) := by
  rw [h]
  apply BitVec.eq_of_toNat_eq
  rw [BitVec.toNat_ushiftRight, BitVec.toNat_ofNat, BitVec.toNat_ofNat, Nat.shiftRight_eq_div_pow]
  omega

end

end X86
