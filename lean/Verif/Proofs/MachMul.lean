import Verif.Proofs.MachElem

/-
`mul_reduce_array_asm` when the destination is one of the operands, or both: each block is read before it is written.
-/

namespace X86
open C Avx Spec

/-! ### Arrays that agree from or up to a position -/

theorem putList_other : ∀ (l : List Int) (a : Array Int) (s : Nat) (a' : Array Int), putList l a s = .ok a' →
    a'.size = a.size ∧ ∀ i, i < s ∨ s + l.length ≤ i → a'[i]? = a[i]?
  | [], a, s, a', h => by
    cases h
    exact ⟨rfl, fun _ _ => rfl⟩
  | x :: l, a, s, a', h => by
    obtain ⟨a1, h1, h⟩ := bind_ok' h
    unfold C.wr at h1
    split at h1
    · cases h1
      obtain ⟨h2, h3⟩ := putList_other l _ _ _ h
      refine ⟨by rw [h2, Array.size_setIfInBounds], fun i hi => ?_⟩
      rw [List.length_cons] at hi
      rw [h3 i (by omega), Array.getElem?_setIfInBounds_ne (by omega)]
    · cases h1

theorem putList_same : ∀ (l : List Int) (a b : Array Int) (s : Nat) (a' : Array Int), a.size = b.size → putList l a s = .ok a' →
    ∃ b', putList l b s = .ok b' ∧ ∀ i, (a[i]? = b[i]? ∨ s ≤ i ∧ i < s + l.length) → a'[i]? = b'[i]?
  | [], a, b, s, a', hs, h => by
    cases h
    exact ⟨b, rfl, fun i hi => hi.elim id fun h => absurd h (by simp only [List.length_nil]; omega)⟩
  | x :: l, a, b, s, a', hs, h => by
    obtain ⟨a1, h1, h⟩ := bind_ok' h
    unfold C.wr at h1
    split at h1
    · next hlt =>
      cases h1
      obtain ⟨b', h2, h3⟩ := putList_same l _ (b.setIfInBounds s x) _ _ (by rw [Array.size_setIfInBounds, Array.size_setIfInBounds, hs]) h
      refine ⟨b', ?_, fun i hi => h3 i ?_⟩
      · show (C.wr b s x >>= fun b => putList l b (s + 1)) = _
        unfold C.wr
        rw [if_pos (hs ▸ hlt)]
        exact h2
      · rw [List.length_cons] at hi
        by_cases e : s = i
        · subst e
          exact .inl (by rw [Array.getElem?_setIfInBounds_self_of_lt hlt, Array.getElem?_setIfInBounds_self_of_lt (hs ▸ hlt)])
        · rw [Array.getElem?_setIfInBounds_ne e, Array.getElem?_setIfInBounds_ne e]
          rcases hi with hi | hi
          · exact .inl hi
          · exact .inr (by omega)
    · cases h1

/-- From byte `r` on the arrays agree. -/
def Tail (a0 a : Array Int) (r : Nat) : Prop := ∀ i, r ≤ 4 * i → a[i]? = a0[i]?

/-- Up to byte `r` the arrays agree. -/
def Upto (a b : Array Int) (r : Nat) : Prop := a.size = b.size ∧ ∀ i, 4 * i < r → a[i]? = b[i]?

theorem Tail.load {a0 a : Array Int} {r : Nat} (h : Tail a0 a r) : Avx.load a0 r = Avx.load a r := by
  have e : ∀ j, mem32 a0 r j = mem32 a r j := by
    intro j
    unfold mem32
    split
    · unfold rd
      rw [h (r / 4 + j) (by omega)]
    · rfl
  unfold Avx.load
  simp only [e]

theorem Tail.store {a0 a a' : Array Int} {r : Nat} {v : V8} (h : Tail a0 a r) (hs : Avx.store a r v = .ok a') : Tail a0 a' (r + 32) := by
  unfold Avx.store at hs
  split at hs
  · intro i hi
    rw [(putList_other _ _ _ _ hs).2 i (.inr (by simp only [List.length_cons, List.length_nil]; omega))]
    exact h i (by omega)
  · cases hs

theorem Upto.store {a b a' : Array Int} {r : Nat} {v : V8} (h : Upto a b r) (hs : Avx.store a r v = .ok a') :
    ∃ b', Avx.store b r v = .ok b' ∧ Upto a' b' (r + 32) := by
  unfold Avx.store at hs ⊢
  split at hs
  · next hr =>
    rw [if_pos hr]
    obtain ⟨b', h1, h2⟩ := putList_same _ _ b _ _ h.1 hs
    refine ⟨b', h1, ?_, fun i hi => h2 i ?_⟩
    · rw [(putList_other _ _ _ _ hs).1, (putList_other _ _ _ _ h1).1, h.1]
    · by_cases hi' : 4 * i < r
      · exact .inl (h.2 i hi')
      · exact .inr ⟨by omega, by simp only [List.length_cons, List.length_nil]; omega⟩
  · cases hs

/-! ### The result does not depend on the contents of the destination -/

theorem loop5_same {b c : Array Int} {rsi : Nat} {v : V8} : ∀ (fuel : Nat) (x y : Array Int) (r d e : Nat) (st : Array Int × Nat × Nat × Nat),
    Upto x y r → jloop (Asm.loop5 b c rsi v) fuel (x, r, d, e) = .ok st →
    ∃ y', jloop (Asm.loop5 b c rsi v) fuel (y, r, d, e) = .ok (y', st.2) ∧ Upto st.1 y' rsi
  | 0, x, y, r, d, e, st, _, h => by cases h
  | fuel + 1, x, y, r, d, e, st, hu, h => by
    obtain ⟨⟨st1, tk⟩, h1, h⟩ := bind_ok' h
    have h1 : (load b d >>= fun y0 => load c e >>= fun y1 => store x r (Asm.loop5_blk_1 y0 y1 v) >>= fun a =>
      (pure ((a, r + 32, d + 32, e + 32), decide (r + 32 < rsi)) : M _)) = .ok (st1, tk) := h1
    obtain ⟨v0, hv0, h1⟩ := bind_ok' h1
    obtain ⟨v1, hv1, h1⟩ := bind_ok' h1
    obtain ⟨x1, hx1, h1⟩ := bind_ok' h1
    cases h1
    obtain ⟨y1, hy1, hu1⟩ := hu.store hx1
    have hb : Asm.loop5 b c rsi v (y, r, d, e) = .ok ((y1, r + 32, d + 32, e + 32), decide (r + 32 < rsi)) := by
      show (load b d >>= fun y0 => load c e >>= fun y1 => store y r (Asm.loop5_blk_1 y0 y1 v) >>= fun a =>
        (pure ((a, r + 32, d + 32, e + 32), decide (r + 32 < rsi)) : M _)) = _
      rw [hv0, hv1]
      show (store y r (Asm.loop5_blk_1 v0 v1 v) >>= fun a => _) = _
      rw [hy1]
      rfl
    have hj : jloop (Asm.loop5 b c rsi v) (fuel + 1) (y, r, d, e) =
        (if decide (r + 32 < rsi) = true then jloop (Asm.loop5 b c rsi v) fuel (y1, r + 32, d + 32, e + 32)
          else pure (y1, r + 32, d + 32, e + 32)) := by
      show (Asm.loop5 b c rsi v (y, r, d, e) >>= fun p => if p.2 = true then _ else _) = _
      rw [hb]
      rfl
    rw [hj]
    have h : (if decide (r + 32 < rsi) = true then jloop (Asm.loop5 b c rsi v) fuel (x1, r + 32, d + 32, e + 32)
          else pure (x1, r + 32, d + 32, e + 32)) = .ok st := h
    split at h
    · next hc =>
      rw [if_pos hc]
      exact loop5_same fuel x1 y1 _ _ _ st hu1 h
    · next hc =>
      rw [if_neg hc]
      cases h
      have hc : ¬ r + 32 < rsi := fun h => hc (decide_eq_true h)
      exact ⟨y1, rfl, hu1.1, fun i hi => hu1.2 i (by omega)⟩

theorem mul_same {x y b c x' : Array Int} {n : Nat} (hx : x.size = n) (hy : y.size = n)
    (h : Asm.mul_reduce_array_asm x n b c = .ok x') : Asm.mul_reduce_array_asm y n b c = .ok x' := by
  unfold Asm.mul_reduce_array_asm at h ⊢
  simp only [] at h ⊢
  obtain ⟨⟨x1, st⟩, h1, h⟩ := bind_ok' h
  have h : (.ok x1 : M _) = .ok x' := h
  cases h
  obtain ⟨y1, h2, h3⟩ := loop5_same n x y 0 0 0 _ ⟨by rw [hx, hy], fun i hi => absurd hi (by omega)⟩ h1
  rw [h2]
  show (.ok y1 : M _) = .ok x'
  have hs : x'.size = n := by
    have : ∀ (fuel : Nat) (s : Array Int × Nat × Nat × Nat) (s' : Array Int × Nat × Nat × Nat),
        jloop (Asm.loop5 b c (0 + 4 * n) Asm.mask) fuel s = .ok s' → s'.1.size = s.1.size := by
      intro fuel
      induction fuel with
      | zero => intro s s' h; cases h
      | succ fuel ih =>
        rintro ⟨x, r, d, e⟩ s' h
        obtain ⟨⟨st1, tk⟩, h1, h⟩ := bind_ok' h
        have h1 : (load b d >>= fun y0 => load c e >>= fun y1 => store x r (Asm.loop5_blk_1 y0 y1 Asm.mask) >>= fun a =>
          (pure ((a, r + 32, d + 32, e + 32), decide (r + 32 < 0 + 4 * n)) : M _)) = .ok (st1, tk) := h1
        obtain ⟨v0, hv0, h1⟩ := bind_ok' h1
        obtain ⟨v1, hv1, h1⟩ := bind_ok' h1
        obtain ⟨x1, hx1, h1⟩ := bind_ok' h1
        cases h1
        have hs1 : x1.size = x.size := by
          unfold Avx.store at hx1
          split at hx1
          · exact (putList_other _ _ _ _ hx1).1
          · cases hx1
        have h : (if decide (r + 32 < 0 + 4 * n) = true then jloop (Asm.loop5 b c (0 + 4 * n) Asm.mask) fuel (x1, r + 32, d + 32, e + 32)
          else pure (x1, r + 32, d + 32, e + 32)) = .ok s' := h
        split at h
        · rw [ih _ _ h]; exact hs1
        · cases h; exact hs1
    rw [this _ _ _ h1, hx]
  congr 1
  apply Array.ext_getElem?
  intro i
  by_cases hi : 4 * i < 0 + 4 * n
  · exact (h3.2 i hi).symm
  · have h3 : x'.size = y1.size := h3.1
    rw [Array.getElem?_eq_none (by omega), Array.getElem?_eq_none (by omega)]

/-! ### Execution -/

section
variable {K : Machine} {A B C : Word} {n : Nat} {m0 m : Memory} {a0 a b c' : Array Int} {α : Type} {P : α → Text → State → Prop} {c : Text}
  {g : Nat → Word} {y : Nat → V8} {cf zf : Bool}

/-- An operand is apart from the destination or it is the destination. -/
def Opnd (K : Machine) (A : Word) (n : Nat) (m0 : Memory) (a0 : Array Int) (B : Word) (b : Array Int) : Prop :=
  Src K A n m0 B b ∨ B = A ∧ b = a0

theorem Sim.loadO {k : V8 → M α} {d : Nat} {ad : Addr} {r : Nat} (H : Host K A n m0) (T : Opnd K A n m0 a0 B b) (E : Env A n m0 m a)
    (ht : Tail a0 a r) (hx : ad.ea g = B + BitVec.ofNat 64 r) (h : ∀ v, Sim K (k v) c ⟨g, upd y d v, cf, zf, m⟩ P) :
    Sim K (Avx.load b r >>= k) (.load .dqu d ad :: c) ⟨g, y, cf, zf, m⟩ P := by
  rcases T with T | ⟨rfl, rfl⟩
  · exact .loadS T E hx fun v _ => h v
  · rw [ht.load]
    exact .load H E hx fun v _ => h v

theorem Sim.storeT {k : Array Int → M α} {d : Nat} {ad : Addr} {r : Nat} {v : V8} (H : Host K A n m0) (E : Env A n m0 m a)
    (ht : Tail a0 a r) (hx : ad.ea g = A + BitVec.ofNat 64 r) (hv : y d = v)
    (h : ∀ a' m', Env A n m0 m' a' → Tail a0 a' (r + 32) → r + 32 ≤ 4 * n → Sim K (k a') c ⟨g, y, cf, zf, m'⟩ P) :
    Sim K (Avx.store a r v >>= k) (.store ad d :: c) ⟨g, y, cf, zf, m⟩ P := by
  intro hw r' hr
  obtain ⟨a', ha, hr⟩ := bind_ok' hr
  have ht' := ht.store ha
  rw [← hv] at ha
  obtain ⟨m', h1, h2, h3⟩ := E.store H (hw d) ha
  obtain ⟨c', s', h4, h5, h6⟩ := h a' m' h2 ht' h3 hw r' hr
  refine ⟨c', s', Reach.trans ⟨1, fun f => ?_⟩ h4, h5, h6⟩
  show ((st32s K _ m (ad.ea g) >>= fun v => _) >>= fun s => run K Code.addr Code.prog f c s) = _
  rw [hx, h1]
  rfl

end

def loop5a_I (A : Word) (n : Nat) (m0 : Memory) (a0 : Array Int) (g0 : Nat → Word) (y0 : Nat → V8) (B : Word) (C : Word) :
    Array Int × Nat × Nat × Nat → State → Prop
  | (a, xrax, xrdx, xrcx), s =>
    Agree [rax, rcx, rdx] g0 s.gpr ∧ Agree [0, 1, 2, 3] y0 s.ymm ∧ Env A n m0 s.mem a ∧ Tail a0 a xrax ∧ xrdx = xrax ∧ xrcx = xrax ∧
    s.gpr rax = A + BitVec.ofNat 64 xrax ∧ s.gpr rdx = B + BitVec.ofNat 64 xrdx ∧ s.gpr rcx = C + BitVec.ofNat 64 xrcx

theorem loop5a_sim {K : Machine} {A : Word} {n : Nat} {m0 : Memory} {a0 : Array Int} {g0 : Nat → Word} {y0 : Nat → V8}
    (H : Host K A n m0) {B : Word} {b : Array Int} (TB : Opnd K A n m0 a0 B b) {C : Word} {c : Array Int} (TC : Opnd K A n m0 a0 C c)
    {xrsi : Nat} (h_rsi : g0 rsi = A + BitVec.ofNat 64 xrsi) (b_rsi : xrsi < 2 ^ 37) {v4 : V8} (hv4 : y0 4 = v4) :
    ∀ st s, loop5a_I A n m0 a0 g0 y0 B C st s →
      Sim K (Asm.loop5 b c xrsi v4 st) Text.loop5 s
        (LoopPost (loop5a_I A n m0 a0 g0 y0 B C) (loop5a_I A n m0 a0 g0 y0 B C) Text.loop5 Text.loop5_exit) := by
  have hn := H.hn
  rintro ⟨a, xrax, xrdx, xrcx⟩ ⟨g, y, cf, zf, m⟩ ⟨hg, hy, E, ht, rfl, rfl, h_rax, h_rdx, h_rcx⟩
  replace h_rsi := (hg rsi rfl).trans h_rsi
  obtain rfl := (hy 4 rfl).trans hv4
  unfold Asm.loop5
  refine Sim.loadO H TB E ht (ea_at h_rdx) fun v => ?_
  refine Sim.loadO H TC E ht (ea_at h_rcx) fun v => ?_
  refine Sim.vec ?_
  refine Sim.vec ?_
  refine Sim.vec ?_
  refine Sim.vec ?_
  refine Sim.vec ?_
  refine Sim.vec ?_
  refine Sim.vec ?_
  refine Sim.vec ?_
  refine Sim.vec ?_
  refine Sim.vec ?_
  refine Sim.vec ?_
  refine Sim.vec ?_
  refine Sim.vec ?_
  refine Sim.vec ?_
  refine Sim.storeT H E ht (ea_at h_rax) (by krfl) fun a m E ht b_234 => ?_
  refine Sim.addi fun cf zf => ?_
  have h_rax := ptr_addi (k := 32) h_rax
  refine Sim.gen fun g hgg => ?_
  replace h_rax := (congrFun hgg rax).trans h_rax
  replace h_rdx := (congrFun hgg rdx).trans h_rdx
  replace h_rcx := (congrFun hgg rcx).trans h_rcx
  replace h_rsi := (congrFun hgg rsi).trans h_rsi
  replace hg : Agree [rax, rcx, rdx] g0 g := Agree.of_eq hgg (by agree hg)
  clear hgg
  refine Sim.addi fun cf zf => ?_
  have h_rdx := ptr_addi (k := 32) h_rdx
  refine Sim.gen fun g hgg => ?_
  replace h_rax := (congrFun hgg rax).trans h_rax
  replace h_rdx := (congrFun hgg rdx).trans h_rdx
  replace h_rcx := (congrFun hgg rcx).trans h_rcx
  replace h_rsi := (congrFun hgg rsi).trans h_rsi
  replace hg : Agree [rax, rcx, rdx] g0 g := Agree.of_eq hgg (by agree hg)
  clear hgg
  refine Sim.addi fun cf zf => ?_
  have h_rcx := ptr_addi (k := 32) h_rcx
  refine Sim.gen fun g hgg => ?_
  replace h_rax := (congrFun hgg rax).trans h_rax
  replace h_rdx := (congrFun hgg rdx).trans h_rdx
  replace h_rcx := (congrFun hgg rcx).trans h_rcx
  replace h_rsi := (congrFun hgg rsi).trans h_rsi
  replace hg : Agree [rax, rcx, rdx] g0 g := Agree.of_eq hgg (by agree hg)
  clear hgg
  refine Sim.cmp_jcc codeAt_loop5 (Cmp.ptr H.hA (by omega) (by omega) h_rax h_rsi) (fun hc cf zf => ?_) (fun hc cf zf => ?_)
  · have hc' : _ < _ := hc
    exact Sim.again (decide_eq_true hc) ⟨by agree hg, by agree hy, E, ht, rfl, rfl, h_rax, h_rdx, h_rcx⟩
  · have hc' : ¬ (_ < _) := hc
    exact Sim.done (decide_eq_false hc) ⟨by agree hg, by agree hy, E, ht, rfl, rfl, h_rax, h_rdx, h_rcx⟩

theorem mul_reduce_array_asm_simO {K : Machine} {A : Word} {n : Nat} {m0 : Memory} {g : Nat → Word} {y : Nat → V8} (H : Host K A n
    m0) (h_rdi : g rdi = A + BitVec.ofNat 64 0) (h_rsi : g rsi = BitVec.ofNat 64 n) {a : Array Int} {B : Word} {b : Array Int}
    (TB : Opnd K A n m0 a B b) (h_rdx : g rdx = B + BitVec.ofNat 64 0) {C : Word} {c : Array Int} (TC : Opnd K A n m0 a C c)
    (h_rcx : g rcx = C + BitVec.ofNat 64 0) {g0 : Nat → Word} {cf zf : Bool} {m : Memory}
    (hg : Agree [rax, rcx, rdx, rsi, rdi, r8, r9, r10, r11] g0 g) (E : Env A n m0 m a) :
    Sim K (Asm.mul_reduce_array_asm a n b c) Text.mul_reduce_array_asm ⟨g, y, cf, zf, m⟩ (RetPost A n m0 g0) := by
  have hn := H.hn
  unfold Asm.mul_reduce_array_asm
  refine Sim.const H E ?_
  refine Sim.mov ?_
  have h_rax := h_rdi
  refine Sim.gen fun g hgg => ?_
  replace h_rdi := (congrFun hgg rdi).trans h_rdi
  replace h_rsi := (congrFun hgg rsi).trans h_rsi
  replace h_rdx := (congrFun hgg rdx).trans h_rdx
  replace h_rcx := (congrFun hgg rcx).trans h_rcx
  replace h_rax := (congrFun hgg rax).trans h_rax
  replace hg : Agree [rax, rcx, rdx, rsi, rdi, r8, r9, r10, r11] g0 g := Agree.of_eq hgg (by agree hg)
  clear hgg
  refine Sim.lea ?_
  have h_rsi := ea_ix (k := 4) (c := 0) h_rdi h_rsi
  refine Sim.gen fun g hgg => ?_
  replace h_rdi := (congrFun hgg rdi).trans h_rdi
  replace h_rsi := (congrFun hgg rsi).trans h_rsi
  replace h_rdx := (congrFun hgg rdx).trans h_rdx
  replace h_rcx := (congrFun hgg rcx).trans h_rcx
  replace h_rax := (congrFun hgg rax).trans h_rax
  replace hg : Agree [rax, rcx, rdx, rsi, rdi, r8, r9, r10, r11] g0 g := Agree.of_eq hgg (by agree hg)
  clear hgg
  refine Sim.label ?_
  refine Sim.geny fun y hyy => ?_
  have hv4 := congrFun hyy 4
  clear hyy
  refine Sim.loop (loop5a_sim H TB TC h_rsi (by omega) (hv4.trans (by krfl)))
    ⟨.refl, .refl, E, fun _ _ => rfl, rfl, rfl, h_rax, h_rdx, h_rcx⟩ ?_
  rintro ⟨a, xrax1, xrdx1, xrcx1⟩ ⟨g1, y1, cf, zf, m⟩ ⟨hg1, hy1, E, -, -, -, h_rax, h_rdx, h_rcx⟩
  replace hg : Agree [rax, rcx, rdx, rsi, rdi, r8, r9, r10, r11] g0 g1 := Agree.trans rfl (by agree hg) hg1
  clear hg1 hy1
  exact Sim.stop ⟨⟨_, rfl⟩, E, by agree hg⟩

end X86
