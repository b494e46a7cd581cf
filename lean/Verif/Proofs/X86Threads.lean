import Verif.Model.X86Threads
import Verif.Proofs.X86Mem
import Verif.Proofs.MachCalls

/-
Threads on the machine: a thread computes what it computes alone.
-/

namespace X86
open C Avx AsmCalls

/-! ### One instruction depends on and changes only what it has the right to -/

section
variable {K K' : Machine} {F : Word → Prop} {m μ : Memory}

/-- `K'` has the rights of `K` on a part of `F`, and is otherwise the same. -/
structure Sub (K' K : Machine) (F : Word → Prop) : Prop where
  read : ∀ x, K'.readable x = true → K.readable x = true ∧ F x
  write : ∀ x, K'.writable x = true → K.writable x = true ∧ F x
  data : K'.data = K.data
  cpuid : K'.cpuid = K.cpuid
  xcr0 : K'.xcr0 = K.xcr0

def AgreeOn (F : Word → Prop) (m μ : Memory) : Prop := ∀ x, F x → μ x = m x

theorem allowed_inv {r : Word → Bool} : ∀ (k : Nat) (a : Word), allowed r a k = true → ∀ j < k, r (a + BitVec.ofNat 64 j) = true
  | 0, _, _, j, hj => absurd hj (Nat.not_lt_zero _)
  | k + 1, a, h, j, hj => by
    unfold allowed at h
    rw [Bool.and_eq_true] at h
    cases j with
    | zero => rw [show BitVec.ofNat 64 0 = 0#64 from rfl, BitVec.add_zero]; exact h.1
    | succ j => rw [addr_succ]; exact allowed_inv k _ h.2 j (by omega)

theorem allowed_sub {r r' : Word → Bool} (h : ∀ x, r' x = true → r x = true) {k : Nat} {a : Word} (ha : allowed r' a k = true) :
    allowed r a k = true := allowed_of k a fun j hj => h _ (allowed_inv k a ha j hj)

/-- What the smaller machine gives, the larger gives too. -/
def Le {α : Type} (x y : M α) : Prop := ∀ v, x = .ok v → y = .ok v

theorem Le.bind {α β : Type} {x y : M α} {f g : α → M β} (h : Le x y) (hf : ∀ a, Le (f a) (g a)) : Le (x >>= f) (y >>= g) := by
  intro v hv
  obtain ⟨a, ha, hv⟩ := bind_ok' hv
  rw [ok_bind (h a ha)]
  exact hf a v hv

theorem Le.refl {α : Type} (x : M α) : Le x x := fun _ h => h

theorem val_agree (S : Sub K' K F) (A : AgreeOn F m μ) {k : Nat} {a : Word} (h : allowed K'.readable a k = true) :
    val μ a k = val m a k :=
  val_congr k a fun j hj => A _ (S.read _ (allowed_inv k a h j hj)).2

theorem ld32_le (S : Sub K' K F) (A : AgreeOn F m μ) (a : Word) : Le (ld32 K' m a) (ld32 K μ a) := by
  intro v h
  unfold ld32 at h ⊢
  split at h
  · next ha =>
    rw [if_pos (allowed_sub (fun x hx => (S.read x hx).1) ha), ← h]
    unfold int32At
    rw [val_agree S A ha]
  · cases h

theorem ld16_le (S : Sub K' K F) (A : AgreeOn F m μ) (a : Word) : Le (ld16 K' m a) (ld16 K μ a) := by
  intro v h
  unfold ld16 at h ⊢
  split at h
  · next ha =>
    rw [if_pos (allowed_sub (fun x hx => (S.read x hx).1) ha), ← h]
    unfold int16At
    rw [val_agree S A ha]
  · cases h

theorem ld64_le (S : Sub K' K F) (A : AgreeOn F m μ) (a : Word) : Le (ld64 K' m a) (ld64 K μ a) := by
  intro v h
  unfold ld64 at h ⊢
  split at h
  · next ha =>
    rw [if_pos (allowed_sub (fun x hx => (S.read x hx).1) ha), ← h, val_agree S A ha]
  · cases h

theorem load_le (S : Sub K' K F) (A : AgreeOn F m μ) (l : Load) (a : Word) : Le (l.exec K' m a) (l.exec K μ a) := by
  cases l <;>
    simp only [Load.exec] <;>
    repeat' (first | exact Le.refl _ | refine Le.bind (ld32_le S A _) fun _ => ?_ | refine Le.bind (ld16_le S A _) fun _ => ?_)

theorem put_agree : ∀ (k : Nat) (m μ : Memory) (a : Word) (x : Nat), AgreeOn F m μ → AgreeOn F (put m a x k) (put μ a x k)
  | 0, _, _, _, _, h => h
  | k + 1, m, μ, a, x, h => by
    unfold put
    apply put_agree
    intro y hy
    dsimp only
    split
    · rfl
    · exact h y hy

/-- The result of a store: the same change, and only where the smaller machine may write. -/
def StLe (F : Word → Prop) (W : Word → Bool) (μ : Memory) (x y : M Memory) : Prop :=
  ∀ m', x = .ok m' → ∃ μ', y = .ok μ' ∧ AgreeOn F m' μ' ∧ ∀ z, W z = false → μ' z = μ z

theorem st32_le (S : Sub K' K F) (A : AgreeOn F m μ) (a : Word) (x : Int) : StLe F K'.writable μ (st32 K' m a x) (st32 K μ a x) := by
  intro m' h
  unfold st32 at h ⊢
  split at h
  · next ha =>
    rw [if_pos (allowed_sub (fun x hx => (S.write x hx).1) ha)]
    injection h with h
    subst h
    refine ⟨_, rfl, put_agree _ _ _ _ _ A, fun z hz => put_other _ _ _ _ fun j hj e => ?_⟩
    have := allowed_inv _ _ ha j hj
    rw [← e, hz] at this
    cases this
  · cases h

theorem st64_le (S : Sub K' K F) (A : AgreeOn F m μ) (a x : Word) : StLe F K'.writable μ (st64 K' m a x) (st64 K μ a x) := by
  intro m' h
  unfold st64 at h ⊢
  split at h
  · next ha =>
    rw [if_pos (allowed_sub (fun x hx => (S.write x hx).1) ha)]
    injection h with h
    subst h
    refine ⟨_, rfl, put_agree _ _ _ _ _ A, fun z hz => put_other _ _ _ _ fun j hj e => ?_⟩
    have := allowed_inv _ _ ha j hj
    rw [← e, hz] at this
    cases this
  · cases h

theorem st32s_le (S : Sub K' K F) : ∀ (l : List Int) (m μ : Memory) (a : Word), AgreeOn F m μ →
    StLe F K'.writable μ (st32s K' l m a) (st32s K l μ a)
  | [], m, μ, _, A => fun m' h => ⟨μ, rfl, by injection h with h; subst h; exact A, fun _ _ => rfl⟩
  | x :: l, m, μ, a, A => by
    intro m' h
    obtain ⟨m1, h1, h⟩ := bind_ok' h
    obtain ⟨μ1, e1, A1, o1⟩ := st32_le S A a x m1 h1
    obtain ⟨μ2, e2, A2, o2⟩ := st32s_le S l m1 μ1 (a + 4) A1 m' h
    refine ⟨μ2, ?_, A2, fun z hz => (o2 z hz).trans (o1 z hz)⟩
    show (st32 K μ a x >>= fun m => st32s K l m (a + 4)) = _
    rw [ok_bind e1, e2]

/-- A step in the other memory: the same registers, the same change of memory. -/
def StepLe (F : Word → Prop) (W : Word → Bool) (μ : Memory) (x y : M State) : Prop :=
  ∀ s', x = .ok s' → ∃ μ', y = .ok { s' with mem := μ' } ∧ AgreeOn F s'.mem μ' ∧ ∀ z, W z = false → μ' z = μ z

variable {L T : Type}

theorem step_le (S : Sub K' K F) (addr : T → Nat) (i : Instr L T) (s : State) (A : AgreeOn F s.mem μ) :
    StepLe F K'.writable μ (step K' addr i s) (step K addr i { s with mem := μ }) := by
  have pureC : ∀ {g y cf zf}, StepLe F K'.writable μ (.ok ⟨g, y, cf, zf, s.mem⟩) (.ok ⟨g, y, cf, zf, μ⟩) := by
    intro g y cf zf s' h
    injection h with h
    subst h
    exact ⟨μ, rfl, A, fun _ _ => rfl⟩
  have stC : ∀ {x y : M Memory} {g : Nat → Word}, StLe F K'.writable μ x y →
      StepLe F K'.writable μ (x >>= fun m => .ok { s with gpr := g, mem := m }) (y >>= fun m => .ok { s with gpr := g, mem := m }) := by
    intro x y g h s' hs
    obtain ⟨m', hm, hs⟩ := bind_ok' hs
    injection hs with hs
    subst hs
    obtain ⟨μ', e, A', o⟩ := h m' hm
    exact ⟨μ', by rw [ok_bind e], A', o⟩
  have ldC : ∀ {α : Type} {x y : M α} {g : α → Nat → Word} {v : α → Nat → V8}, Le x y →
      StepLe F K'.writable μ (x >>= fun a => .ok ⟨g a, v a, s.cf, s.zf, s.mem⟩) (y >>= fun a => .ok ⟨g a, v a, s.cf, s.zf, μ⟩) := by
    intro α x y g v h s' hs
    obtain ⟨a, ha, hs⟩ := bind_ok' hs
    rw [ok_bind (h a ha)]
    exact pureC s' hs
  cases i with
  | load l d a => exact ldC (load_le S A l _)
  | const d c =>
    simp only [step]
    rw [S.data]
    split
    · exact ldC (load_le S A .dqu _)
    · intro s' h; cases h
  | store a r => exact stC (st32s_le S _ _ _ _ A)
  | store128 a r => exact stC (st32s_le S _ _ _ _ A)
  | push r => exact stC (st64_le S A _ _)
  | pop d => exact ldC (ld64_le S A _)
  | cpuid => simp only [step]; rw [S.cpuid]; exact pureC
  | xgetbv =>
    simp only [step]
    rw [S.cpuid, S.xcr0]
    split
    · exact pureC
    · intro s' h; cases h
  | _ => exact pureC

variable [DecidableEq L]

theorem next_le (S : Sub K' K F) (addr : T → Nat) (prog c : List (Instr L T)) (s : State) (A : AgreeOn F s.mem μ)
    {o : Option Word} {c' : List (Instr L T)} {s' : State} (h : next K' addr prog c s = .ok (o, c', s')) :
    ∃ μ', next K addr prog c { s with mem := μ } = .ok (o, c', { s' with mem := μ' }) ∧ AgreeOn F s'.mem μ' ∧
      ∀ z, K'.writable z = false → μ' z = μ z := by
  cases c with
  | nil => cases h
  | cons i c =>
    have gen : ∀ {x y : M State}, StepLe F K'.writable μ x y → (x >>= fun s => .ok (none, c, s)) = .ok (o, c', s') →
        ∃ μ', (y >>= fun s => (.ok (none, c, s) : M (Option Word × List (Instr L T) × State))) = .ok (o, c', { s' with mem := μ' }) ∧
          AgreeOn F s'.mem μ' ∧ ∀ z, K'.writable z = false → μ' z = μ z := by
      intro x y hxy h
      obtain ⟨s1, h1, h⟩ := bind_ok' h
      obtain ⟨μ', e, A', w⟩ := hxy s1 h1
      injection h with h
      injection h with ho h
      injection h with hc hs
      subst ho hc hs
      exact ⟨μ', by rw [ok_bind e], A', w⟩
    have triv : ∀ {d : List (Instr L T)}, (.ok (none, d, s) : M _) = .ok (o, c', s') →
        ∃ μ', (.ok (none, d, { s with mem := μ }) : M (Option Word × List (Instr L T) × State)) = .ok (o, c', { s' with mem := μ' }) ∧
          AgreeOn F s'.mem μ' ∧ ∀ z, K'.writable z = false → μ' z = μ z := by
      intro d h
      injection h with h
      injection h with ho h
      injection h with hc hs
      subst ho hc hs
      exact ⟨μ, rfl, A, fun _ _ => rfl⟩
    cases i with
    | label l => exact triv h
    | jmp l => exact triv h
    | jcc cc l => exact triv h
    | ret =>
      obtain ⟨a, ha, h⟩ := bind_ok' h
      injection h with h
      injection h with ho h
      injection h with hc hs
      subst ho hc hs
      refine ⟨μ, ?_, A, fun _ _ => rfl⟩
      show (ld64 K μ (s.gpr rsp) >>= _) = _
      rw [ok_bind (ld64_le S A _ a ha)]
    | _ => exact gen (step_le S addr _ s A) h

/-- `run` is a sequence of `next`. -/
theorem run_next {addr : T → Nat} {prog c : List (Instr L T)} {f : Nat} {s : State} {r : Word × State}
    (h : run K' addr prog f c s = .ok r) : ∃ f' o c' s', f = f' + 1 ∧ next K' addr prog c s = .ok (o, c', s') ∧
      (∀ a, o = some a → r = (a, s')) ∧ (o = none → run K' addr prog f' c' s' = .ok r) := by
  cases f with
  | zero => cases h
  | succ f =>
    cases c with
    | nil => cases h
    | cons i c =>
      have gen : ∀ {x : M State}, (x >>= fun s => run K' addr prog f c s) = .ok r → ∃ f' o c' s', f + 1 = f' + 1 ∧
          (x >>= fun s => (.ok (none, c, s) : M (Option Word × List (Instr L T) × State))) = .ok (o, c', s') ∧
          (∀ a, o = some a → r = (a, s')) ∧ (o = none → run K' addr prog f' c' s' = .ok r) := by
        intro x h
        obtain ⟨s1, h1, h⟩ := bind_ok' h
        exact ⟨f, none, c, s1, rfl, by rw [ok_bind h1], (And.intro (fun a ha => by cases ha) fun _ => h)⟩
      cases i with
      | label l => exact ⟨f, none, _, _, rfl, rfl, (And.intro (fun a ha => by cases ha) fun _ => h)⟩
      | jmp l => exact ⟨f, none, _, _, rfl, rfl, (And.intro (fun a ha => by cases ha) fun _ => h)⟩
      | jcc cc l => exact ⟨f, none, _, _, rfl, rfl, (And.intro (fun a ha => by cases ha) fun _ => h)⟩
      | ret =>
        obtain ⟨a, ha, h⟩ := bind_ok' h
        injection h with h
        subst h
        refine ⟨f, some a, c, { s with gpr := upd s.gpr rsp (s.gpr rsp + 8) }, rfl, ?_, fun b hb => ?_, fun hn => by cases hn⟩
        · show (ld64 K' s.mem (s.gpr rsp) >>= _) = _
          rw [ok_bind ha]
        · injection hb with hb
          rw [hb]
      | _ => exact gen h

end

/-! ### Threads -/

section
variable {ι : Type} {K : Machine} {P : Process ι}

open Classical in
/-- The machine with the rights a call of thread `i` needs. -/
noncomputable def view (K : Machine) (P : Process ι) (i : ι) : Machine :=
  { K with readable := fun x => decide (P.Reads K i x), writable := fun x => decide (P.Writes i x) }

/-- The process has the rights on all that its threads access. -/
structure Rights (K : Machine) (P : Process ι) : Prop where
  read : ∀ i x, P.Reads K i x → K.readable x = true
  write : ∀ i x, P.Writes i x → K.writable x = true

open Classical in
theorem Rights.sub (R : Rights K P) (i : ι) : Sub (view K P i) K (P.Reads K i) where
  read := fun x hx => by
    have h : P.Reads K i x := of_decide_eq_true hx
    exact ⟨R.read i x h, h⟩
  write := fun x hx => by
    have h : P.Writes i x := of_decide_eq_true hx
    exact ⟨R.write i x h, .inl h⟩
  data := rfl
  cpuid := rfl
  xcr0 := rfl

/-- Thread `i`, in the phase `p`, will make its remaining calls as it would alone; the call it is in ends after at most `f`
instructions. -/
def Inv (K : Machine) (P : Process ι) (i : ι) (Q : Memory → Prop) (f : Nat) (μ : Memory) : Phase → Prop
  | .outside l => ∃ m, Calls (view K P i) (P.place i) (P.size i) l m Q ∧ Kept K (P.place i) (P.size i) m μ
  | .inside s0 c s l => ∃ sa r, run (view K P i) Code.addr Code.prog f c sa = .ok r ∧ { sa with mem := s.mem } = s ∧
    AgreeOn (P.Reads K i) sa.mem μ ∧ Proper s0 r.1 r.2 ∧ Calls (view K P i) (P.place i) (P.size i) l r.2.mem Q
  | .crashed => False

theorem kept_of {i : ι} {m μ : Memory} (h : AgreeOn (P.Reads K i) m μ) : Kept K (P.place i) (P.size i) m μ where
  arr := fun x j hj => h _ (.inl ⟨x, j, hj, rfl⟩)
  tab := fun t j hj => h _ (.inr (.inl ⟨t, j, hj, rfl⟩))
  data := fun j hj => h _ (.inr (.inr (.inl ⟨j, hj, rfl⟩)))

theorem Kept.trans {L : Place} {n : Nat} {m1 m2 m3 : Memory} (h : Kept K L n m1 m2) (h' : Kept K L n m2 m3) : Kept K L n m1 m3 where
  arr := fun x j hj => (h'.arr x j hj).trans (h.arr x j hj)
  tab := fun x j hj => (h'.tab x j hj).trans (h.tab x j hj)
  data := fun j hj => (h'.data j hj).trans (h.data j hj)

/-- Changes elsewhere do not matter. -/
theorem Inv.frame {i : ι} {Q : Memory → Prop} {f : Nat} {μ μ' : Memory} {p : Phase} (h : Inv K P i Q f μ p)
    (hm : AgreeOn (P.Reads K i) μ μ') : Inv K P i Q f μ' p := by
  cases p with
  | outside l =>
    obtain ⟨m, hc, hk⟩ := h
    exact ⟨m, hc, hk.trans (kept_of hm)⟩
  | inside s0 c s l =>
    obtain ⟨sa, r, h1, h2, h3, h4⟩ := h
    exact ⟨sa, r, h1, h2, fun x hx => (hm x hx).trans (h3 x hx), h4⟩
  | crashed => exact h

open Classical in
/-- A call begins. -/
theorem Inv.call (hsep : Separated K P) {i : ι} {Q : Memory → Prop} {f : Nat} {μ : Memory} {op : Op} {l : List Op} {s : State}
    (h : Inv K P i Q f μ (.outside (op :: l)))
    (hm : ∀ x, ¬ P.stack i x → s.mem x = μ x) (h1 : s.gpr rdi = (P.place i).arr (dest op))
    (h2 : s.gpr rsi = BitVec.ofNat 64 (P.size i)) (h3 : Args (P.place i) s op)
    (hs : ∀ j < 8, P.stack i (s.gpr rsp + BitVec.ofNat 64 j)) (hl : LanesOk s) :
    ∃ f', Inv K P i Q f' s.mem (.inside s (codeAt (label op) Code.prog) s l) := by
  obtain ⟨m, hc, hk⟩ := h
  have hk' : Kept K (P.place i) (P.size i) m s.mem := hk.trans
    { arr := fun x j hj => hm _ fun h => hsep.own_arr i _ h ⟨x, j, hj, rfl⟩
      tab := fun t j hj => hm _ fun h => hsep.own_tab i _ t h ⟨j, hj, rfl⟩
      data := fun j hj => hm _ fun h => hsep.own_data i _ h ⟨j, hj, rfl⟩ }
  have hr : Ready (view K P i) (P.place i) (P.size i) op m s :=
    { kept := ⟨hk'.arr, hk'.tab, hk'.data⟩
      arg1 := h1
      arg2 := h2
      args := h3
      stack := fun j hj => decide_eq_true (.inr (.inr (.inr (hs j hj))))
      stack_apart := fun x j hj k hk e => hsep.own_arr i _ (hs k hk) ⟨x, j, hj, e.symm⟩
      lanes := hl }
  obtain ⟨N, s', e, e1, e2, -, -, hc'⟩ := hc s hr
  exact ⟨N, s, _, e N (le_refl _), rfl, fun _ _ => rfl, ⟨rfl, e1, e2⟩, hc'⟩

open Classical in
/-- An instruction of the call. -/
theorem Inv.instr (R : Rights K P) {i : ι} {Q : Memory → Prop} {f : Nat} {μ : Memory} {s0 s : State}
    {c : List (Instr Code.Label Code.Const)} {l : List Op} (h : Inv K P i Q f μ (.inside s0 c s l)) :
    ∃ f', f = f' + 1 ∧
      Inv K P i Q f' (memAfter μ (next K Code.addr Code.prog c { s with mem := μ }))
        (after s0 l (next K Code.addr Code.prog c { s with mem := μ })) ∧
      ∀ x, ¬ P.Writes i x → memAfter μ (next K Code.addr Code.prog c { s with mem := μ }) x = μ x := by
  obtain ⟨sa, r, h1, h2, h3, h4, h5⟩ := h
  obtain ⟨f', o, c', s', rfl, hn, hsome, hnone⟩ := run_next h1
  obtain ⟨μ', e, A', w⟩ := next_le (R.sub i) _ _ _ _ h3 hn
  have es : ({ s with mem := μ } : State) = { sa with mem := μ } := by rw [← h2]
  rw [es, e]
  refine ⟨f', rfl, ?_, fun x hx => w x (decide_eq_false hx)⟩
  cases o with
  | none => exact ⟨s', r, hnone rfl, rfl, A', h4, h5⟩
  | some a =>
    have hr := hsome a rfl
    subst hr
    show Inv K P i Q f' μ' (if Proper s0 a { s' with mem := μ' } then .outside l else .crashed)
    rw [if_pos (show Proper s0 a { s' with mem := μ' } from h4)]
    exact ⟨s'.mem, h5, kept_of A'⟩

variable [DecidableEq ι]

/-- One step, for all threads. -/
theorem Inv.step (R : Rights K P) (hsep : Separated K P) {Q : ι → Memory → Prop} {σ σ' : System ι} {e : Event ι}
    (h : ∀ i, ∃ f, Inv K P i (Q i) f σ.mem (σ.phase i)) (hst : Step K P e σ σ') (i : ι) {f : Nat}
    (hi : Inv K P i (Q i) f σ.mem (σ.phase i)) :
    ∃ f', Inv K P i (Q i) f' σ'.mem (σ'.phase i) ∧ (e ≠ .call i → f' + (if e = .instr i then 1 else 0) ≤ f) := by
  cases hst with
  | call _ k op l s hp hm h1 h2 h3 hs hl =>
    by_cases hk : i = k
    · subst hk
      rw [hp] at hi
      obtain ⟨f', hf⟩ := Inv.call hsep hi hm h1 h2 h3 hs hl
      refine ⟨f', ?_, fun h => absurd rfl h⟩
      dsimp only
      rw [Function.update_self]
      exact hf
    · refine ⟨f, ?_, fun _ => by rw [if_neg (by simp)]; omega⟩
      dsimp only
      rw [Function.update_of_ne hk]
      exact hi.frame fun x hx => hm x fun hx' => hsep.frames k i (Ne.symm hk) x hx' hx
  | instr _ k s0 c s l hp =>
    by_cases hk : i = k
    · subst hk
      rw [hp] at hi
      obtain ⟨f', rfl, hf, -⟩ := Inv.instr R hi
      refine ⟨f', ?_, fun _ => by rw [if_pos rfl]⟩
      dsimp only
      rw [Function.update_self]
      exact hf
    · obtain ⟨g, hg⟩ := h k
      rw [hp] at hg
      obtain ⟨-, -, -, hw⟩ := Inv.instr R hg
      refine ⟨f, ?_, fun _ => by rw [if_neg (by simp; exact fun h => hk h.symm)]; omega⟩
      dsimp only
      rw [Function.update_of_ne hk]
      exact hi.frame fun x hx => hw x fun hx' => hsep.writes k i (Ne.symm hk) x hx' hx
  | other _ m hm => exact ⟨f, hi.frame fun x hx => hm i x hx, fun _ => by rw [if_neg (by simp)]; omega⟩

theorem Inv.steps (R : Rights K P) (hsep : Separated K P) {Q : ι → Memory → Prop} {σ σ' : System ι} {l : List (Event ι)}
    (hst : Steps K P l σ σ') : (∀ i, ∃ f, Inv K P i (Q i) f σ.mem (σ.phase i)) →
    (∀ i, ∃ f, Inv K P i (Q i) f σ'.mem (σ'.phase i)) ∧
    ∀ i f, Inv K P i (Q i) f σ.mem (σ.phase i) → .call i ∉ l → l.count (.instr i) ≤ f := by
  induction hst with
  | nil σ => exact fun h => ⟨h, fun i f _ _ => by simp⟩
  | cons h1 _ ih =>
    intro h
    have hn : ∀ i, ∃ f, Inv K P i (Q i) f _ _ := fun i => by
      obtain ⟨f, hf⟩ := h i
      obtain ⟨f', hf', -⟩ := Inv.step R hsep h h1 i hf
      exact ⟨f', hf'⟩
    obtain ⟨g1, g2⟩ := ih hn
    refine ⟨g1, fun i f hf hc => ?_⟩
    obtain ⟨f', hf', hle⟩ := Inv.step R hsep h h1 i hf
    have hc' := hc
    rw [List.mem_cons, not_or] at hc'
    have := g2 i f' hf' hc'.2
    have := hle (Ne.symm hc'.1)
    rw [List.count_cons]
    split at this <;> rename_i hh
    · rw [hh]; simp only [BEq.rfl, if_true]; omega
    · rw [if_neg (by simpa using hh)]; omega

theorem Steps.append {σ σ' σ'' : System ι} {l l' : List (Event ι)} (h : Steps K P l σ σ') (h' : Steps K P l' σ' σ'') :
    Steps K P (l ++ l') σ σ'' := by
  induction h with
  | nil σ => exact h'
  | cons h1 _ ih => exact .cons h1 (ih h')

/-- All threads are as they would be alone. -/
def AllInv (K : Machine) (P : Process ι) (Q : ι → Memory → Prop) (σ : System ι) : Prop :=
  ∀ i, ∃ f, Inv K P i (Q i) f σ.mem (σ.phase i)

theorem AllInv.step (R : Rights K P) (hsep : Separated K P) {Q : ι → Memory → Prop} {σ σ' : System ι} {e : Event ι}
    (h : AllInv K P Q σ) (hst : Step K P e σ σ') : AllInv K P Q σ' := fun i => by
  obtain ⟨f, hf⟩ := h i
  obtain ⟨f', hf', -⟩ := Inv.step R hsep h hst i hf
  exact ⟨f', hf'⟩

/-- A thread in a call can return from it without the others. -/
theorem finish_call (R : Rights K P) (hsep : Separated K P) {Q : ι → Memory → Prop} (i : ι) (l : List Op) :
    ∀ (f : Nat) (σ : System ι) (s0 : State) (c : List (Instr Code.Label Code.Const)) (s : State), AllInv K P Q σ →
    σ.phase i = .inside s0 c s l → Inv K P i (Q i) f σ.mem (σ.phase i) →
    ∃ ls σ', Steps K P ls σ σ' ∧ (∀ e ∈ ls, e = .instr i) ∧ AllInv K P Q σ' ∧ σ'.phase i = .outside l := by
  intro f
  induction f with
  | zero =>
    intro σ s0 c s _ hp hi
    rw [hp] at hi
    obtain ⟨f', h, -⟩ := Inv.instr R hi
    omega
  | succ f ih =>
    intro σ s0 c s hA hp hi
    rw [hp] at hi
    obtain ⟨f', hf, hi', -⟩ := Inv.instr R hi
    obtain rfl : f = f' := by omega
    have hst := Step.instr (K := K) (P := P) σ i s0 c s l hp
    have hA' := hA.step R hsep hst
    generalize hr : next K Code.addr Code.prog c { s with mem := σ.mem } = r at hi' hst hA'
    have hph : (Function.update σ.phase i (after s0 l r)) i = after s0 l r := Function.update_self ..
    generalize hq : after s0 l r = q at hi' hst hA' hph
    cases q with
    | outside l' =>
      have : l' = l := by
        unfold after at hq
        split at hq
        · cases hq
        · cases hq
        · split at hq
          · injection hq with hq; exact hq.symm
          · cases hq
      subst this
      exact ⟨[.instr i], _, .cons hst (.nil _), by simp, hA', hph⟩
    | crashed => exact hi'.elim
    | inside s1 c1 s2 l' =>
      have : l' = l := by
        unfold after at hq
        split at hq
        · cases hq
        · injection hq with _ _ _ hq; exact hq.symm
        · split at hq <;> cases hq
      subst this
      obtain ⟨ls, σ', h1, h2, h3⟩ := ih _ s1 c1 s2 hA' hph (by dsimp only; rw [Function.update_self]; exact hi')
      exact ⟨.instr i :: ls, σ', .cons hst h1, by simpa using h2, h3⟩

end

end X86
