import Verif.Model.X86Trace

/-
What an observer sees of an execution depends only on some of the registers: a dataflow analysis of the program, proved sound, and
its result on the text of src/ntt_asm.S.
-/

namespace X86
open C Avx

section
variable {L S : Type} [DecidableEq L]

/-! ### Observed execution is execution -/

/-- Neither label nor jump. -/
def Instr.plain : Instr L S → Bool
  | .label _ | .jmp _ | .jcc _ _ | .ret => false
  | _ => true

theorem observe_plain {K : Machine} {addr : S → Nat} {prog : List (Instr L S)} {f : Nat} {c : List (Instr L S)} {s : State} {i : Instr L S}
    (h : i.plain = true) : observe K addr prog (f + 1) (i :: c) s = (match step K addr i s with
      | .error e => ([(i, access K addr i s)], .error e)
      | .ok s' => ((i, access K addr i s) :: (observe K addr prog f c s').1, (observe K addr prog f c s').2)) := by
  cases i <;> first | rfl | cases h

theorem run_plain {K : Machine} {addr : S → Nat} {prog : List (Instr L S)} {f : Nat} {c : List (Instr L S)} {s : State} {i : Instr L S}
    (h : i.plain = true) : run K addr prog (f + 1) (i :: c) s = (step K addr i s >>= fun s => run K addr prog f c s) := by
  cases i <;> first | rfl | cases h

theorem observe_run (K : Machine) (addr : S → Nat) (prog : List (Instr L S)) : ∀ (f : Nat) (c : List (Instr L S)) (s : State),
    (observe K addr prog f c s).2 = run K addr prog f c s
  | 0, _, _ => rfl
  | _ + 1, [], _ => rfl
  | f + 1, i :: c, s => by
    cases h : i.plain with
    | true =>
      rw [observe_plain h, run_plain h]
      cases step K addr i s with
      | error e => rfl
      | ok s' => exact observe_run K addr prog f c s'
    | false =>
      cases i with
      | label l => exact observe_run K addr prog f c s
      | jmp l => exact observe_run K addr prog f _ s
      | jcc cc l => exact observe_run K addr prog f _ s
      | ret => rfl
      | _ => cases h

/-! ### Faults do not depend on the contents -/

/-- Both fail in the same way or both succeed. -/
def Alike {α β : Type} (x : M α) (y : M β) : Prop := (∃ e, x = .error e ∧ y = .error e) ∨ ∃ u v, x = .ok u ∧ y = .ok v

theorem Alike.bind {α β γ δ : Type} {x : M α} {y : M β} {f : α → M γ} {g : β → M δ} (h : Alike x y) (hf : ∀ u v, Alike (f u) (g v)) :
    Alike (x >>= f) (y >>= g) := by
  rcases h with ⟨e, rfl, rfl⟩ | ⟨u, v, rfl, rfl⟩
  · exact .inl ⟨e, rfl, rfl⟩
  · exact hf u v

theorem Alike.pure {α β : Type} (u : α) (v : β) : Alike (Pure.pure u : M α) (Pure.pure v : M β) := .inr ⟨u, v, rfl, rfl⟩

variable {K : Machine} {m m' : Memory}

theorem ld32_alike (a : Word) : Alike (ld32 K m a) (ld32 K m' a) := by
  unfold ld32
  split
  · exact .pure _ _
  · exact .inl ⟨_, rfl, rfl⟩

theorem ld16_alike (a : Word) : Alike (ld16 K m a) (ld16 K m' a) := by
  unfold ld16
  split
  · exact .pure _ _
  · exact .inl ⟨_, rfl, rfl⟩

theorem ld64_alike (a : Word) : Alike (ld64 K m a) (ld64 K m' a) := by
  unfold ld64
  split
  · exact .pure _ _
  · exact .inl ⟨_, rfl, rfl⟩

theorem st64_alike (a x x' : Word) : Alike (st64 K m a x) (st64 K m' a x') := by
  unfold st64
  split
  · exact .pure _ _
  · exact .inl ⟨_, rfl, rfl⟩

theorem st32_alike (a : Word) (x x' : Int) : Alike (st32 K m a x) (st32 K m' a x') := by
  unfold st32
  split
  · exact .pure _ _
  · exact .inl ⟨_, rfl, rfl⟩

theorem st32s_alike : ∀ (l l' : List Int), l.length = l'.length → ∀ (m m' : Memory) (a : Word), Alike (st32s K l m a) (st32s K l' m' a)
  | [], [], _, m, m', a => .pure m m'
  | [], _ :: _, h, _, _, _ => by cases h
  | _ :: _, [], h, _, _, _ => by cases h
  | _ :: l, _ :: l', h, m, m', a => by
    have h : l.length = l'.length := Nat.succ.inj h
    exact .bind (st32_alike a _ _) fun u v => st32s_alike l l' h u v _

theorem Load.alike (l : Load) (a : Word) : Alike (l.exec K m a) (l.exec K m' a) := by
  cases l with
  | dqu =>
    exact .bind (ld32_alike _) fun _ _ => .bind (ld32_alike _) fun _ _ => .bind (ld32_alike _) fun _ _ => .bind (ld32_alike _) fun _ _ =>
      .bind (ld32_alike _) fun _ _ => .bind (ld32_alike _) fun _ _ => .bind (ld32_alike _) fun _ _ => .bind (ld32_alike _) fun _ _ => .pure _ _
  | sxdq =>
    exact .bind (ld32_alike _) fun _ _ => .bind (ld32_alike _) fun _ _ => .bind (ld32_alike _) fun _ _ => .bind (ld32_alike _) fun _ _ => .pure _ _
  | sxwd =>
    exact .bind (ld16_alike _) fun _ _ => .bind (ld16_alike _) fun _ _ => .bind (ld16_alike _) fun _ _ => .bind (ld16_alike _) fun _ _ =>
      .bind (ld16_alike _) fun _ _ => .bind (ld16_alike _) fun _ _ => .bind (ld16_alike _) fun _ _ => .bind (ld16_alike _) fun _ _ => .pure _ _
  | sxwq =>
    exact .bind (ld16_alike _) fun _ _ => .bind (ld16_alike _) fun _ _ => .bind (ld16_alike _) fun _ _ => .bind (ld16_alike _) fun _ _ => .pure _ _
  | sxwq128 => exact .bind (ld16_alike _) fun _ _ => .bind (ld16_alike _) fun _ _ => .pure _ _
  | bdcstw => exact .bind (ld16_alike _) fun _ _ => .pure _ _

/-! ### The analysis -/

/-- The flags, as a register. -/
abbrev flags : Nat := 16

def Addr.uses : Addr → List Nat
  | .at b _ => [b]
  | .ix b _ i _ => [b, i]

/-- The registers (and flags) known to be equal after an instruction that is not a jump, `none` if its access is not. -/
def flow (R : List Nat) (i : Instr L S) : Option (List Nat) :=
  let dep (u : List Nat) (d : List Nat) : List Nat := if u.all R.contains then d ++ R else R.filter fun r => !d.contains r
  match i with
  | .vec _ | .const _ _ | .vmovd _ _ | .label _ | .jmp _ | .jcc _ _ | .ret => some R
  | .load _ _ a | .store a _ | .store128 a _ => if a.uses.all R.contains then some R else none
  | .mov d r => some (dep [r] [d])
  | .movi d _ => some (dep [] [d])
  | .lea d a => some (dep a.uses [d])
  | .add d r => some (dep [d, r] [d, flags])
  | .addi d _ => some (dep [d] [d, flags])
  | .shl d _ => some (dep [d] [d, flags])
  | .shr d _ => some (dep [d] [d, flags])
  | .cmp r r' => some (dep [r, r'] [flags])
  | .cmpi r _ => some (dep [r] [flags])
  | .movi32 d _ => some (dep [] [d])
  | .andi32 d _ => some (dep [d] [d, flags])
  | .xor32 d r => some (if d = r then dep [] [d, flags] else dep [d, r] [d, flags])
  | .cmpi32 r _ => some (dep [r] [flags])
  | .push _ => if R.contains rsp then some R else none
  | .pop d => if R.contains rsp then some (R.filter fun r => !([d] : List Nat).contains r) else none
  | .cpuid => some (dep [rax, rcx] [rax, rbx, rcx, rdx])
  | .xgetbv => if R.contains rcx then some (dep [] [rax, rdx]) else none

/-- All registers of an instruction are general registers. -/
def Addr.wf : Addr → Bool
  | .at b _ => b < 16
  | .ix b _ i _ => b < 16 && i < 16

def Instr.wf : Instr L S → Bool
  | .load _ _ a | .store a _ | .store128 a _ => a.wf
  | .mov d r => d < 16 && r < 16
  | .movi d _ | .addi d _ | .shl d _ | .shr d _ | .cmpi d _ | .movi32 d _ | .andi32 d _ | .cmpi32 d _ | .pop d => d < 16
  | .lea d a => d < 16 && a.wf
  | .add d r | .cmp d r | .xor32 d r => d < 16 && r < 16
  | _ => true

/-- The analysis of a part of the program; `ann` are the registers known to be equal at a label. -/
def flows (ann : L → List Nat) : List Nat → List (Instr L S) → Bool
  | _, [] => true
  | R, i :: c =>
    match i with
    | .label l => (ann l).all R.contains && flows ann (ann l) c
    | .jmp l => (ann l).all R.contains
    | .jcc _ l => R.contains flags && (ann l).all R.contains && flows ann R c
    | .ret => R.contains rsp
    | i =>
      i.wf && match flow R i with
      | none => false
      | some R' => flows ann R' c

/-- The states agree on the registers of a list. -/
def EqOn (R : List Nat) (s s' : State) : Prop :=
  (∀ r ∈ R, r < 16 → s.gpr r = s'.gpr r) ∧ (flags ∈ R → s.cf = s'.cf ∧ s.zf = s'.zf)

variable {R : List Nat} {s s' : State}

theorem EqOn.mono {R' : List Nat} (h : EqOn R s s') (hs : R'.all R.contains = true) : EqOn R' s s' := by
  have hs : ∀ r ∈ R', r ∈ R := fun r hr => by simpa using List.all_eq_true.mp hs r hr
  exact ⟨fun r hr => h.1 r (hs r hr), fun hr => h.2 (hs _ hr)⟩

theorem flows_plain {ann : L → List Nat} {i : Instr L S} {c : List (Instr L S)} (h : i.plain = true) :
    flows ann R (i :: c) = (i.wf && match flow R i with
      | none => false
      | some R' => flows ann R' c) := by
  cases i <;> first | rfl | cases h

/-- What an instruction does to two states that agree. -/
def Both (R' : List Nat) (x y : M State) : Prop := (∃ e, x = .error e ∧ y = .error e) ∨ ∃ u v, x = .ok u ∧ y = .ok v ∧ EqOn R' u v

theorem mem_of {u : List Nat} (h : u.all R.contains = true) : ∀ r ∈ u, r ∈ R := fun r hr => by
  simpa using List.all_eq_true.mp h r hr

theorem EqOn.reg (h : EqOn R s s') {r : Nat} (hr : r ∈ R) (hl : r < 16) : s.gpr r = s'.gpr r := h.1 r hr hl

theorem EqOn.ea (h : EqOn R s s') {a : Addr} (hw : a.wf = true) (hu : a.uses.all R.contains = true) : a.ea s.gpr = a.ea s'.gpr := by
  have hm := mem_of hu
  cases a with
  | «at» b d =>
    have hw : b < 16 := by simpa [Addr.wf] using hw
    show s.gpr b + _ = s'.gpr b + _
    rw [h.reg (hm b (by simp [Addr.uses])) hw]
  | ix b k i d =>
    have hw : b < 16 ∧ i < 16 := by simpa [Addr.wf] using hw
    show s.gpr b + _ * s.gpr i + _ = s'.gpr b + _ * s'.gpr i + _
    rw [h.reg (hm b (by simp [Addr.uses])) hw.1, h.reg (hm i (by simp [Addr.uses])) hw.2]

/-- The registers `d` are written with values that only depend on the registers `u`. -/
theorem EqOn.dep (h : EqOn R s s') {u d : List Nat} {t t' : State} (hu : (∀ r ∈ u, r ∈ R) → ∀ r ∈ d, r < 16 → t.gpr r = t'.gpr r)
    (hf : (∀ r ∈ u, r ∈ R) → flags ∈ d → t.cf = t'.cf ∧ t.zf = t'.zf)
    (ho : ∀ r, r < 16 → r ∉ d → t.gpr r = s.gpr r ∧ t'.gpr r = s'.gpr r)
    (hof : flags ∉ d → (t.cf = s.cf ∧ t.zf = s.zf) ∧ (t'.cf = s'.cf ∧ t'.zf = s'.zf)) :
    EqOn (if u.all R.contains then d ++ R else R.filter fun r => !d.contains r) t t' := by
  have other : ∀ r ∈ R, r < 16 → r ∉ d → t.gpr r = t'.gpr r := by
    intro r hr hl hd
    obtain ⟨h1, h2⟩ := ho r hl hd
    rw [h1, h2, h.reg hr hl]
  have otherf : flags ∈ R → flags ∉ d → t.cf = t'.cf ∧ t.zf = t'.zf := by
    intro hr hd
    obtain ⟨⟨h1, h2⟩, h3, h4⟩ := hof hd
    rw [h1, h2, h3, h4]
    exact h.2 hr
  split
  · next hc =>
    have hc := mem_of hc
    refine ⟨fun r hr hl => ?_, fun hr => ?_⟩
    · by_cases hd : r ∈ d
      · exact hu hc r hd hl
      · exact other r ((List.mem_append.mp hr).resolve_left hd) hl hd
    · by_cases hd : flags ∈ d
      · exact hf hc hd
      · exact otherf ((List.mem_append.mp hr).resolve_left hd) hd
  · refine ⟨fun r hr hl => ?_, fun hr => ?_⟩
    · have := List.mem_filter.mp hr
      exact other r this.1 hl (by simpa using this.2)
    · have := List.mem_filter.mp hr
      exact otherf this.1 (by simpa using this.2)

theorem upd_other {α : Type} {f : Nat → α} {k i : Nat} {v : α} (h : i ≠ k) : upd f k v i = f i := by
  unfold upd
  rw [show (i.beq k) = false from by cases hb : i.beq k with
    | false => rfl
    | true => exact absurd (Nat.eq_of_beq_eq_true hb) h]
  rfl

theorem upd_same {α : Type} {f : Nat → α} {k : Nat} {v : α} : upd f k v k = v := by
  unfold upd
  rw [Nat.beq_refl]
  rfl

theorem step_flow {K : Machine} {addr : S → Nat} {i : Instr L S} {R' : List Nat} (hw : i.wf = true) (hp : i.plain = true)
    (hf : flow R i = some R') (h : EqOn R s s') :
    access K addr i s = access K addr i s' ∧ Both R' (step K addr i s) (step K addr i s') := by
  -- one register written
  have one : ∀ (u : List Nat) (d : Nat) (x x' : Word), d < 16 → ((∀ r ∈ u, r ∈ R) → x = x') →
      EqOn (if u.all R.contains then [d] ++ R else R.filter fun r => !([d] : List Nat).contains r)
        { s with gpr := upd s.gpr d x } { s' with gpr := upd s'.gpr d x' } := by
    intro u d x x' hd hx
    refine h.dep (fun hu r hr _ => ?_) (fun _ hr => ?_) (fun r _ hr => ?_) (fun _ => ⟨⟨rfl, rfl⟩, rfl, rfl⟩)
    · cases List.mem_singleton.mp hr
      show upd _ _ _ _ = upd _ _ _ _
      rw [upd_same, upd_same, hx hu]
    · have : d = 16 := (List.mem_singleton.mp hr).symm
      omega
    · have := fun e => hr (List.mem_singleton.mpr e)
      exact ⟨upd_other this, upd_other this⟩
  -- one register and the flags
  have two : ∀ (u : List Nat) (d : Nat) (x x' : Word) (cf zf cf' zf' : Bool), d < 16 →
      ((∀ r ∈ u, r ∈ R) → x = x' ∧ cf = cf' ∧ zf = zf') →
      EqOn (if u.all R.contains then [d, flags] ++ R else R.filter fun r => !([d, flags] : List Nat).contains r)
        { s with gpr := upd s.gpr d x, cf := cf, zf := zf } { s' with gpr := upd s'.gpr d x', cf := cf', zf := zf' } := by
    intro u d x x' cf zf cf' zf' hd hx
    refine h.dep (fun hu r hr hl => ?_) (fun hu _ => (hx hu).2) (fun r hl hr => ?_) (fun hr => absurd ?_ hr)
    · have hr : r = d := by
        rcases List.mem_cons.mp hr with e | e
        · exact e
        · have : r = 16 := List.mem_singleton.mp e
          omega
      cases hr
      show upd _ _ _ _ = upd _ _ _ _
      rw [upd_same, upd_same, (hx hu).1]
    · have : r ≠ d := fun e => hr (by rw [e]; exact List.mem_cons_self)
      exact ⟨upd_other this, upd_other this⟩
    · exact List.mem_cons_of_mem _ (List.mem_singleton.mpr rfl)
  -- the flags
  have fl : ∀ (u : List Nat) (cf zf cf' zf' : Bool), ((∀ r ∈ u, r ∈ R) → cf = cf' ∧ zf = zf') →
      EqOn (if u.all R.contains then [flags] ++ R else R.filter fun r => !([flags] : List Nat).contains r)
        { s with cf := cf, zf := zf } { s' with cf := cf', zf := zf' } := by
    intro u cf zf cf' zf' hx
    refine h.dep (fun hu r hr hl => ?_) (fun hu _ => hx hu) (fun r hl hr => ⟨rfl, rfl⟩) (fun hr => absurd (List.mem_singleton.mpr rfl) hr)
    have : r = 16 := List.mem_singleton.mp hr
    omega
  -- the registers are as before
  have vecs : ∀ {α β : Type} {x : M α} {y : M β} {f : α → State} {g : β → State}, Alike x y →
      (∀ u, (f u).gpr = s.gpr ∧ (f u).cf = s.cf ∧ (f u).zf = s.zf) → (∀ u, (g u).gpr = s'.gpr ∧ (g u).cf = s'.cf ∧ (g u).zf = s'.zf) →
      Both R (x >>= fun u => .ok (f u)) (y >>= fun u => .ok (g u)) := by
    intro α β x y f g ha h1 h2
    rcases ha with ⟨e, rfl, rfl⟩ | ⟨u, v, rfl, rfl⟩
    · exact .inl ⟨e, rfl, rfl⟩
    · refine .inr ⟨f u, g v, rfl, rfl, fun r hr hl => ?_, fun hr => ?_⟩
      · rw [(h1 u).1, (h2 v).1, h.reg hr hl]
      · rw [(h1 u).2.1, (h1 u).2.2, (h2 v).2.1, (h2 v).2.2]
        exact h.2 hr
  have ok : ∀ {R' : List Nat} {u v : State}, EqOn R' u v → Both R' (.ok u) (.ok v) := fun he => .inr ⟨_, _, rfl, rfl, he⟩
  have guard : ∀ {p : Bool} {x : List Nat}, (if p then some x else none) = some R' → p = true ∧ x = R' := by
    intro p x hx
    cases p with
    | false => cases hx
    | true => exact ⟨rfl, Option.some.inj hx⟩
  cases i with
  | label _ | jmp _ | jcc _ _ | ret => cases hp
  | vec i =>
    cases hf
    exact ⟨rfl, ok ⟨h.1, h.2⟩⟩
  | vmovd d r =>
    cases hf
    exact ⟨rfl, ok ⟨h.1, h.2⟩⟩
  | const d c =>
    cases hf
    refine ⟨rfl, ?_⟩
    show Both R (if _ then _ else _) (if _ then _ else _)
    split
    · exact vecs (Load.alike _ _) (fun _ => ⟨rfl, rfl, rfl⟩) fun _ => ⟨rfl, rfl, rfl⟩
    · exact .inl ⟨_, rfl, rfl⟩
  | load l d a =>
    obtain ⟨hu, rfl⟩ := guard hf
    have he := h.ea hw hu
    refine ⟨by show some _ = some _; rw [he], ?_⟩
    show Both R (Load.exec _ _ _ _ >>= _) (Load.exec _ _ _ _ >>= _)
    rw [he]
    exact vecs (Load.alike _ _) (fun _ => ⟨rfl, rfl, rfl⟩) fun _ => ⟨rfl, rfl, rfl⟩
  | store a r =>
    obtain ⟨hu, rfl⟩ := guard hf
    have he := h.ea hw hu
    refine ⟨by show some _ = some _; rw [he], ?_⟩
    show Both R (st32s _ _ _ _ >>= _) (st32s _ _ _ _ >>= _)
    rw [he]
    exact vecs (st32s_alike _ _ (by rfl) _ _ _) (fun _ => ⟨rfl, rfl, rfl⟩) fun _ => ⟨rfl, rfl, rfl⟩
  | store128 a r =>
    obtain ⟨hu, rfl⟩ := guard hf
    have he := h.ea hw hu
    refine ⟨by show some _ = some _; rw [he], ?_⟩
    show Both R (st32s _ _ _ _ >>= _) (st32s _ _ _ _ >>= _)
    rw [he]
    exact vecs (st32s_alike _ _ (by rfl) _ _ _) (fun _ => ⟨rfl, rfl, rfl⟩) fun _ => ⟨rfl, rfl, rfl⟩
  | mov d r =>
    cases hf
    have hw : d < 16 ∧ r < 16 := by simpa [Instr.wf] using hw
    exact ⟨rfl, ok (one [r] d _ _ hw.1 fun hu => h.reg (hu r (by simp)) hw.2)⟩
  | movi d imm =>
    cases hf
    have hw : d < 16 := by simpa [Instr.wf] using hw
    exact ⟨rfl, ok (one [] d _ _ hw fun _ => rfl)⟩
  | movi32 d imm =>
    cases hf
    have hw : d < 16 := by simpa [Instr.wf] using hw
    exact ⟨rfl, ok (one [] d _ _ hw fun _ => rfl)⟩
  | lea d a =>
    cases hf
    have hw : d < 16 ∧ a.wf = true := by simpa [Instr.wf] using hw
    exact ⟨rfl, ok (one a.uses d _ _ hw.1 fun hu => h.ea hw.2 (List.all_eq_true.mpr fun r hr => by simpa using hu r hr))⟩
  | add d r =>
    cases hf
    have hw : d < 16 ∧ r < 16 := by simpa [Instr.wf] using hw
    refine ⟨rfl, ok (two [d, r] d _ _ _ _ _ _ hw.1 fun hu => ?_)⟩
    rw [h.reg (hu d (by simp)) hw.1, h.reg (hu r (by simp)) hw.2]
    exact ⟨rfl, rfl, rfl⟩
  | addi d imm =>
    cases hf
    have hw : d < 16 := by simpa [Instr.wf] using hw
    refine ⟨rfl, ok (two [d] d _ _ _ _ _ _ hw fun hu => ?_)⟩
    rw [h.reg (hu d (by simp)) hw]
    exact ⟨rfl, rfl, rfl⟩
  | shl d k =>
    cases hf
    have hw : d < 16 := by simpa [Instr.wf] using hw
    refine ⟨rfl, ok (two [d] d _ _ _ _ _ _ hw fun hu => ?_)⟩
    rw [h.reg (hu d (by simp)) hw]
    exact ⟨rfl, rfl, rfl⟩
  | shr d k =>
    cases hf
    have hw : d < 16 := by simpa [Instr.wf] using hw
    refine ⟨rfl, ok (two [d] d _ _ _ _ _ _ hw fun hu => ?_)⟩
    rw [h.reg (hu d (by simp)) hw]
    exact ⟨rfl, rfl, rfl⟩
  | andi32 d imm =>
    cases hf
    have hw : d < 16 := by simpa [Instr.wf] using hw
    refine ⟨rfl, ok (two [d] d _ _ _ _ _ _ hw fun hu => ?_)⟩
    rw [h.reg (hu d (by simp)) hw]
    exact ⟨rfl, rfl, rfl⟩
  | xor32 d r =>
    have hw : d < 16 ∧ r < 16 := by simpa [Instr.wf] using hw
    rw [← Option.some.inj hf]
    refine ⟨rfl, ?_⟩
    split
    · next e =>
      cases e
      refine ok (two [] d _ _ _ _ _ _ hw.1 fun _ => ?_)
      simp
    · refine ok (two [d, r] d _ _ _ _ _ _ hw.1 fun hu => ?_)
      rw [h.reg (hu d (by simp)) hw.1, h.reg (hu r (by simp)) hw.2]
      exact ⟨rfl, rfl, rfl⟩
  | cmp r r' =>
    cases hf
    have hw : r < 16 ∧ r' < 16 := by simpa [Instr.wf] using hw
    refine ⟨rfl, ok (fl [r, r'] _ _ _ _ fun hu => ?_)⟩
    rw [h.reg (hu r (by simp)) hw.1, h.reg (hu r' (by simp)) hw.2]
    exact ⟨rfl, rfl⟩
  | cmpi r imm =>
    cases hf
    have hw : r < 16 := by simpa [Instr.wf] using hw
    refine ⟨rfl, ok (fl [r] _ _ _ _ fun hu => ?_)⟩
    rw [h.reg (hu r (by simp)) hw]
    exact ⟨rfl, rfl⟩
  | cmpi32 r imm =>
    cases hf
    have hw : r < 16 := by simpa [Instr.wf] using hw
    refine ⟨rfl, ok (fl [r] _ _ _ _ fun hu => ?_)⟩
    rw [h.reg (hu r (by simp)) hw]
    exact ⟨rfl, rfl⟩
  | push r =>
    obtain ⟨hu, rfl⟩ := guard hf
    have he : s.gpr rsp = s'.gpr rsp := h.reg (by simpa using hu) (by decide)
    refine ⟨by show some _ = some _; rw [he], ?_⟩
    show Both R (st64 K s.mem (s.gpr rsp - 8) _ >>= _) (st64 K s'.mem (s'.gpr rsp - 8) _ >>= _)
    rw [he]
    rcases st64_alike (K := K) (m := s.mem) (m' := s'.mem) (s'.gpr rsp - 8) (s.gpr r) (s'.gpr r) with ⟨e, h1, h2⟩ | ⟨u, v, h1, h2⟩
    · exact .inl ⟨e, by rw [h1]; rfl, by rw [h2]; rfl⟩
    · rw [h1, h2]
      refine ok (u := { s with gpr := upd s.gpr rsp (s'.gpr rsp - 8), mem := u })
        (v := { s' with gpr := upd s'.gpr rsp (s'.gpr rsp - 8), mem := v }) ⟨fun q hq hl => ?_, h.2⟩
      show upd _ _ _ _ = upd _ _ _ _
      by_cases hd : q = rsp
      · rw [hd, upd_same, upd_same]
      · rw [upd_other hd, upd_other hd, h.reg hq hl]
  | pop d =>
    obtain ⟨hu, rfl⟩ := guard hf
    have hw : d < 16 := by simpa [Instr.wf] using hw
    have he : s.gpr rsp = s'.gpr rsp := h.reg (by simpa using hu) (by decide)
    refine ⟨by show some _ = some _; rw [he], ?_⟩
    show Both _ (ld64 K s.mem (s.gpr rsp) >>= _) (ld64 K s'.mem (s'.gpr rsp) >>= _)
    rw [he]
    rcases ld64_alike (K := K) (m := s.mem) (m' := s'.mem) (s'.gpr rsp) with ⟨e, h1, h2⟩ | ⟨u, v, h1, h2⟩
    · exact .inl ⟨e, by rw [h1]; rfl, by rw [h2]; rfl⟩
    · rw [h1, h2]
      refine ok (u := { s with gpr := upd (upd s.gpr rsp (s'.gpr rsp + 8)) d u })
        (v := { s' with gpr := upd (upd s'.gpr rsp (s'.gpr rsp + 8)) d v })
        ⟨fun q hq hl => ?_, fun hq => h.2 (List.mem_filter.mp hq).1⟩
      obtain ⟨hq, hd⟩ := List.mem_filter.mp hq
      have hd : q ≠ d := by simpa using hd
      show upd _ _ _ _ = upd _ _ _ _
      rw [upd_other hd, upd_other hd]
      by_cases hr : q = rsp
      · rw [hr, upd_same, upd_same]
      · rw [upd_other hr, upd_other hr, h.reg hq hl]
  | cpuid =>
    cases hf
    refine ⟨rfl, ok (h.dep (fun hu r hr _ => ?_) (fun _ hr => absurd hr (by decide)) (fun r _ hr => ?_)
      fun _ => ⟨⟨rfl, rfl⟩, rfl, rfl⟩)⟩
    · have h1 := h.reg (hu rax (by simp)) (by decide)
      have h2 := h.reg (hu rcx (by simp)) (by decide)
      show upd _ _ _ _ = upd _ _ _ _
      rw [h1, h2]
      have hr : r = rax ∨ r = rbx ∨ r = rcx ∨ r = rdx := by simpa using hr
      rcases hr with rfl | rfl | rfl | rfl <;> rfl
    · have hr : r ≠ rax ∧ r ≠ rbx ∧ r ≠ rcx ∧ r ≠ rdx := by simpa using hr
      have : ∀ (g : Nat → Word) (a b c e : Word), upd (upd (upd (upd g rax a) rbx b) rcx c) rdx e r = g r := by
        intro g a b c e
        rw [upd_other hr.2.2.2, upd_other hr.2.2.1, upd_other hr.2.1, upd_other hr.1]
      exact ⟨this .., this ..⟩
  | xgetbv =>
    obtain ⟨hu, rfl⟩ := guard hf
    have he : s.gpr rcx = s'.gpr rcx := h.reg (by simpa using hu) (by decide)
    refine ⟨rfl, ?_⟩
    show Both _ (if ((K.cpuid 1 0).2.2.1.getLsbD 27 && low (s.gpr rcx) == 0) = true then _ else _)
      (if ((K.cpuid 1 0).2.2.1.getLsbD 27 && low (s'.gpr rcx) == 0) = true then _ else _)
    rw [he]
    split
    · refine ok (h.dep (u := []) (d := [rax, rdx]) (fun hu r hr _ => ?_) (fun _ hr => absurd hr (by decide)) (fun r _ hr => ?_)
        fun _ => ⟨⟨rfl, rfl⟩, rfl, rfl⟩)
      · have hr : r = rax ∨ r = rdx := by simpa using hr
        rcases hr with rfl | rfl <;> rfl
      · have hr : r ≠ rax ∧ r ≠ rdx := by simpa using hr
        have : ∀ (g : Nat → Word) (a b : Word), upd (upd g rax a) rdx b r = g r := by
          intro g a b
          rw [upd_other hr.2, upd_other hr.1]
        exact ⟨this .., this ..⟩
    · exact .inl ⟨_, rfl, rfl⟩

/-- Executions of analysed code from states that agree make the same observations, and both return or both do not. -/
theorem observe_flows {K : Machine} {addr : S → Nat} {prog : List (Instr L S)} {ann : L → List Nat}
    (hp : ∀ l, flows ann (ann l) (codeAt l prog) = true) : ∀ (f : Nat) (c : List (Instr L S)) (R : List Nat) (s s' : State),
    flows ann R c = true → EqOn R s s' → (observe K addr prog f c s).1 = (observe K addr prog f c s').1 ∧
      Alike (observe K addr prog f c s).2 (observe K addr prog f c s').2
  | 0, _, _, _, _, _, _ => ⟨rfl, .inl ⟨_, rfl, rfl⟩⟩
  | _ + 1, [], _, _, _, _, _ => ⟨rfl, .inl ⟨_, rfl, rfl⟩⟩
  | f + 1, i :: c, R, s, s', hc, h => by
    cases hi : i.plain with
    | true =>
      rw [flows_plain hi] at hc
      obtain ⟨hw, hc⟩ := Bool.and_eq_true_iff.mp hc
      rw [observe_plain hi, observe_plain hi]
      cases hf : flow R i with
      | none =>
        rw [hf] at hc
        cases hc
      | some R' =>
        rw [hf] at hc
        obtain ⟨ha, hb⟩ := step_flow (K := K) (addr := addr) hw hi hf h
        rw [ha]
        rcases hb with ⟨e, h1, h2⟩ | ⟨u, v, h1, h2, he⟩
        · rw [h1, h2]
          exact ⟨rfl, .inl ⟨e, rfl, rfl⟩⟩
        · rw [h1, h2]
          obtain ⟨ih, il⟩ := observe_flows hp f c R' u v hc he
          exact ⟨congrArg (List.cons _) ih, il⟩
    | false =>
      cases i with
      | label l =>
        obtain ⟨hs, hc⟩ := Bool.and_eq_true_iff.mp hc
        exact observe_flows hp f c _ s s' hc (h.mono hs)
      | jmp l =>
        obtain ⟨ih, il⟩ := observe_flows hp f _ _ s s' (hp l) (h.mono hc)
        exact ⟨congrArg (List.cons _) ih, il⟩
      | jcc cc l =>
        obtain ⟨hs, hc⟩ := Bool.and_eq_true_iff.mp hc
        obtain ⟨hr, hs⟩ := Bool.and_eq_true_iff.mp hs
        obtain ⟨h1, h2⟩ := h.2 (by simpa using hr)
        show _ :: (observe K addr prog f (if cc.holds s.cf s.zf then _ else _) s).1 =
          _ :: (observe K addr prog f (if cc.holds s'.cf s'.zf then _ else _) s').1 ∧
          Alike (observe K addr prog f (if cc.holds s.cf s.zf then _ else _) s).2
            (observe K addr prog f (if cc.holds s'.cf s'.zf then _ else _) s').2
        rw [h1, h2]
        split
        · obtain ⟨ih, il⟩ := observe_flows hp f _ _ s s' (hp l) (h.mono hs)
          exact ⟨congrArg (List.cons _) ih, il⟩
        · obtain ⟨ih, il⟩ := observe_flows hp f c R s s' hc h
          exact ⟨congrArg (List.cons _) ih, il⟩
      | ret =>
        have hr := h.reg (r := rsp) (by simpa using (show R.contains rsp = true from hc)) (by decide)
        refine ⟨?_, ?_⟩
        · show [(_, some (s.gpr rsp, 8))] = [(_, some (s'.gpr rsp, 8))]
          rw [hr]
        · show Alike (ld64 K s.mem (s.gpr rsp) >>= _) (ld64 K s'.mem (s'.gpr rsp) >>= _)
          rw [hr]
          exact .bind (ld64_alike _) fun u v => .inr ⟨_, _, rfl, rfl⟩
      | _ => cases hi

end

end X86

/-! ### The program -/

namespace Code
open X86

/-- The registers (`flags` is 16) that determine the observations from a label on. -/
def ann : Code.Label → List Nat
  | .avx2_supported => [1, 4]
  | .not_supported => [0, 1, 2, 3, 4, 16]
  | .reduce_array_asm => [4, 6, 7]
  | .loop0 => [0, 4, 6, 7]
  | .reduce_array_asm2 => [4, 6, 7]
  | .loop0b => [0, 4, 6, 7]
  | .reduce_array_twice_asm => [4, 6, 7]
  | .loop1 => [0, 4, 6, 7]
  | .reduce_array_twice_asm2 => [4, 6, 7]
  | .loop1b => [0, 4, 6, 7]
  | .correct_asm => [4, 6, 7]
  | .loop2 => [0, 4, 6, 7]
  | .shift_array_asm => [4, 6, 7]
  | .loop_shift => [0, 4, 6, 7]
  | .mul_reduce_array16_asm => [2, 4, 6, 7]
  | .loop3 => [0, 2, 4, 6, 7]
  | .mul_reduce_array16_asm2 => [2, 4, 6, 7]
  | .loop4 => [0, 2, 4, 6, 7]
  | .mul_reduce_array_asm => [1, 2, 4, 6, 7]
  | .loop5 => [0, 1, 2, 4, 6, 7]
  | .scalar_mul_reduce_array_asm => [4, 6, 7]
  | .loop6 => [0, 4, 6, 7]
  | .ntt_red_ct_rev2std_asm => [2, 4, 6, 7]
  | .ct_r2s_size8_loop => [0, 2, 4, 6, 7, 9]
  | .ct_r2s_size16_loop => [0, 2, 4, 6, 7, 9, 16]
  | .ct_r2s_size32_loop => [0, 2, 4, 6, 7, 9, 10, 11, 16]
  | .ct_r2s_loop_aux1 => [0, 2, 4, 6, 7, 9, 10, 11, 16]
  | .ct_r2s_inner_loop => [0, 1, 2, 4, 6, 7, 8, 9, 10, 11, 16]
  | .ct_r2s_done => [0, 2, 4, 6, 7, 9, 16]
  | .mulntt_red_ct_rev2std_asm => [2, 4, 6, 7]
  | .mct_r2s_size8_loop2 => [0, 2, 4, 6, 7, 9]
  | .ntt_red_ct_std2rev_asm => [2, 4, 6, 7]
  | .ct_s2r_loop1 => [0, 1, 2, 4, 6, 7, 8]
  | .ct_s2r_loop2 => [0, 1, 2, 4, 6, 7, 8, 16]
  | .ct_s2r_loop2_inner1 => [0, 1, 2, 4, 6, 7, 8, 9, 16]
  | .ct_s2r_loop2_aux => [0, 1, 2, 4, 6, 7, 8, 9, 16]
  | .ct_s2r_loop2_inner2 => [0, 1, 2, 4, 6, 7, 8, 9, 16]
  | .ct_s2r_finish => [0, 1, 2, 4, 6, 7, 8, 16]
  | .ct_s2r_finish_size4 => [0, 1, 2, 4, 6, 7, 8, 16]
  | .ct_s2r_finish_size2 => [0, 1, 2, 4, 6, 7, 8, 16]
  | .ct_s2r_finish_size1 => [0, 1, 2, 4, 6, 7, 8, 16]
  | .mulntt_red_ct_std2rev_asm => [2, 4, 6, 7]
  | .mct_s2r_loop => [2, 4, 6, 7, 8]
  | .mct_s2r_loop_aux => [0, 1, 2, 4, 6, 7, 8, 9]
  | .mct_s2r_loop_inner => [0, 1, 2, 4, 6, 7, 8, 9, 16]
  | .ntt_red_gs_rev2std_asm => [2, 4, 6, 7]
  | .gs_r2s_loop0 => [0, 1, 2, 4, 6, 7, 8, 9, 10, 16]
  | .gs_r2s_size16_loop => [0, 1, 2, 4, 6, 7, 8, 9, 10, 16]
  | .gs_r2s_size32_loop => [0, 1, 2, 4, 6, 7, 8, 9, 10, 11, 16]
  | .gs_r2s_size32_first_blocks => [0, 1, 2, 4, 6, 7, 8, 9, 10, 11, 16]
  | .gs_r2s_size32_other_blocks => [0, 1, 2, 4, 6, 7, 8, 9, 10, 11, 16]
  | .gs_r2s_size32_inner_loop => [0, 1, 2, 4, 6, 7, 8, 9, 10, 11, 16]
  | .gs_r2s_done => [0, 1, 2, 4, 6, 7, 8, 9, 10, 16]
  | .nttmul_red_gs_rev2std_asm => [2, 4, 6, 7]
  | .mgs_r2s_loop0 => [0, 1, 2, 4, 6, 7, 8, 9, 10, 16]
  | .mgs_r2s_size16_loop => [0, 1, 2, 4, 6, 7, 8, 9, 10, 16]
  | .mgs_r2s_size32_loop => [0, 1, 2, 4, 6, 7, 8, 9, 10, 11, 16]
  | .mgs_r2s_size32_blocks => [0, 1, 2, 4, 6, 7, 8, 9, 10, 11, 16]
  | .mgs_r2s_size32_inner_loop => [0, 1, 2, 4, 6, 7, 8, 9, 10, 11, 16]
  | .mgs_r2s_done => [0, 1, 2, 4, 6, 7, 8, 9, 10, 16]
  | .ntt_red_gs_std2rev_asm => [2, 4, 6, 7]
  | .gs_s2r_main => [2, 4, 6, 7, 11]
  | .gs_s2r_loop => [2, 4, 6, 7, 8, 9, 10, 11]
  | .gs_s2r_inner_loop => [0, 1, 2, 4, 6, 7, 8, 9, 10, 11]
  | .gs_s2r_finish_loop => [0, 1, 2, 4, 6, 7, 8, 9, 10, 11, 16]
  | .nttmul_red_gs_std2rev_asm => [2, 4, 6, 7]
  | .mgs_s2r_main => [2, 4, 6, 7, 11]
  | .mgs_s2r_loop => [2, 4, 6, 7, 8, 9, 10, 11]
  | .mgs_s2r_inner_loop => [0, 1, 2, 4, 6, 7, 8, 9, 10, 11]
  | .mgs_s2r_finish_loop => [0, 1, 2, 4, 6, 7, 8, 9, 10, 11, 16]

theorem flows_ann (l : Code.Label) : flows ann (ann l) (codeAt l Code.prog) = true := by
  cases l <;> decide +kernel

theorem observe_eq {K : Machine} {f : Nat} {l : Code.Label} {s s' : State} (h : EqOn (ann l) s s') :
    (observe K Code.addr Code.prog f (codeAt l Code.prog) s).1 = (observe K Code.addr Code.prog f (codeAt l Code.prog) s').1 ∧
    Alike (run K Code.addr Code.prog f (codeAt l Code.prog) s) (run K Code.addr Code.prog f (codeAt l Code.prog) s') := by
  rw [← observe_run, ← observe_run]
  exact observe_flows flows_ann f _ _ s s' (flows_ann l) h

end Code
