import Verif.Proofs.X86Threads
import Verif.Props.MachineTrace

/-
C78, continued: the accesses in the trace are the accesses of the instructions.
-/

namespace Props
open C X86

variable {L S : Type}

/-- The instruction writes to memory. -/
def writes : Instr L S → Bool
  | .store _ _ | .store128 _ _ | .push _ => true
  | _ => false

private theorem allowed_iff {r : Word → Bool} {a : Word} {k : Nat} :
    allowed r a k = true ↔ ∀ j < k, r (a + BitVec.ofNat 64 j) = true := ⟨allowed_inv k a, allowed_of k a⟩

private theorem ok_if {α β : Type} {c : Prop} [Decidable c] {x : α} {e : Err} {f : α → M β} :
    (∃ v, ((if c then .ok x else .error e : M α) >>= f) = .ok v) ↔ c ∧ ∃ v, f x = .ok v := by
  by_cases h : c
  · rw [if_pos h]; exact ⟨fun ⟨v, hv⟩ => ⟨h, v, hv⟩, fun ⟨_, v, hv⟩ => ⟨v, hv⟩⟩
  · rw [if_neg h]; exact ⟨fun ⟨v, hv⟩ => (by cases hv), fun ⟨h', _⟩ => absurd h' h⟩

private theorem ok_pure {α : Type} {x : α} : (∃ v, (pure x : M α) = .ok v) ↔ True := ⟨fun _ => trivial, fun _ => ⟨x, rfl⟩⟩

private theorem ok_ok {α : Type} {x : α} : (∃ v, (.ok x : M α) = .ok v) ↔ True := ⟨fun _ => trivial, fun _ => ⟨x, rfl⟩⟩

private theorem ok_bind {α β : Type} {u : M α} {f : α → β} : (∃ v, (u >>= fun x => (.ok (f x) : M β)) = .ok v) ↔ ∃ v, u = .ok v := by
  cases u with
  | error e => exact ⟨fun ⟨v, hv⟩ => (by cases hv), fun ⟨v, hv⟩ => (by cases hv)⟩
  | ok x => exact ⟨fun _ => ⟨x, rfl⟩, fun _ => ⟨_, rfl⟩⟩

/-- The bytes of several accesses. -/
private theorem allowed_add {r : Word → Bool} {a : Word} {j : Nat} (k : Nat) :
    allowed r a (j + k) = true ↔ allowed r a j = true ∧ allowed r (a + BitVec.ofNat 64 j) k = true := by
  simp only [allowed_iff, BitVec.add_assoc, ← BitVec.ofNat_add]
  constructor
  · exact fun h => ⟨fun i hi => h i (by omega), fun i hi => h (j + i) (by omega)⟩
  · intro ⟨h1, h2⟩ i hi
    by_cases h : i < j
    · exact h1 i h
    · have := h2 (i - j) (by omega)
      rwa [show j + (i - j) = i by omega] at this

private theorem split8 {r : Word → Bool} {a : Word} (k : Nat) : allowed r a (8 * k) = true ↔
    allowed r a k = true ∧ allowed r (a + BitVec.ofNat 64 k) k = true ∧ allowed r (a + BitVec.ofNat 64 (2 * k)) k = true ∧
    allowed r (a + BitVec.ofNat 64 (3 * k)) k = true ∧ allowed r (a + BitVec.ofNat 64 (4 * k)) k = true ∧
    allowed r (a + BitVec.ofNat 64 (5 * k)) k = true ∧ allowed r (a + BitVec.ofNat 64 (6 * k)) k = true ∧
    allowed r (a + BitVec.ofNat 64 (7 * k)) k = true := by
  rw [show 8 * k = 7 * k + k by omega, allowed_add, show 7 * k = 6 * k + k by omega, allowed_add, show 6 * k = 5 * k + k by omega, allowed_add,
    show 5 * k = 4 * k + k by omega, allowed_add, show 4 * k = 3 * k + k by omega, allowed_add, show 3 * k = 2 * k + k by omega, allowed_add,
    show 2 * k = k + k by omega, allowed_add]
  simp only [and_assoc]

private theorem split4 {r : Word → Bool} {a : Word} (k : Nat) : allowed r a (4 * k) = true ↔
    allowed r a k = true ∧ allowed r (a + BitVec.ofNat 64 k) k = true ∧ allowed r (a + BitVec.ofNat 64 (2 * k)) k = true ∧
    allowed r (a + BitVec.ofNat 64 (3 * k)) k = true := by
  rw [show 4 * k = 3 * k + k by omega, allowed_add, show 3 * k = 2 * k + k by omega, allowed_add, show 2 * k = k + k by omega, allowed_add]
  simp only [and_assoc]

/-- A load succeeds exactly when all bytes it reads can be read. -/
private theorem load_iff (K : Machine) (l : Load) (m : Memory) (a : Word) : (∃ v, l.exec K m a = .ok v) ↔ Readable K a l.width := by
  show _ ↔ ∀ i < _, _
  rw [← allowed_iff]
  cases l with
  | dqu =>
    simp only [Load.exec, ld32, ok_if, ok_pure, and_true]
    exact (split8 (a := a) 4).symm
  | sxdq =>
    simp only [Load.exec, ld32, ok_if, ok_pure, and_true]
    exact (split4 (a := a) 4).symm
  | sxwd =>
    simp only [Load.exec, ld16, ok_if, ok_pure, and_true]
    exact (split8 (a := a) 2).symm
  | sxwq =>
    simp only [Load.exec, ld16, ok_if, ok_pure, and_true]
    exact (split4 (a := a) 2).symm
  | sxwq128 =>
    simp only [Load.exec, ld16, ok_if, ok_pure, and_true]
    exact (allowed_add (a := a) (j := 2) 2).symm
  | bdcstw =>
    simp only [Load.exec, ld16, ok_if, ok_pure, and_true]
    rfl

private theorem stores_iff (K : Machine) : ∀ (l : List Int) (m : Memory) (a : Word),
    (∃ v, st32s K l m a = .ok v) ↔ Writable K a (4 * l.length)
  | [], m, a => ⟨fun _ _ h => absurd h (by simp), fun _ => ⟨m, rfl⟩⟩
  | x :: l, m, a => by
    simp only [st32s, st32, ok_if, stores_iff K l]
    show _ ∧ (∀ i < _, _) ↔ ∀ i < _, _
    rw [← allowed_iff, ← allowed_iff, show 4 * (x :: l).length = 4 + 4 * l.length by simp only [List.length_cons]; omega, allowed_add]
    rfl

/-- C78: the access recorded for an instruction is its access: the instruction succeeds exactly when all these bytes can be read (or
written, if it writes; and a constant must be at a multiple of 32). -/
theorem C78_access (K : Machine) (addr : S → Nat) (i : Instr L S) (hi : i ≠ .ret) (s : State) (A : Word) (k : Nat)
    (h : access K addr i s = some (A, k)) :
    (∃ s', step K addr i s = .ok s') ↔
      (if writes i then Writable K A k else Readable K A k) ∧ ((∃ d c, i = .const d c) → A.toNat % 32 = 0) := by
  have skip : ∀ {p q : Prop}, (¬ q) → (p ↔ p ∧ (q → A.toNat % 32 = 0)) := fun hq => ⟨fun hp => ⟨hp, fun h => absurd h hq⟩, fun hp => hp.1⟩
  cases i <;> simp only [access, Option.some.injEq, Prod.mk.injEq, reduceCtorEq] at h
  case load l d a =>
    obtain ⟨rfl, rfl⟩ := h
    rw [← skip (by rintro ⟨_, _, h⟩; cases h)]
    exact ok_bind.trans (load_iff K l s.mem _)
  case const d c =>
    obtain ⟨rfl, rfl⟩ := h
    simp only [step]
    by_cases h : (K.data + BitVec.ofNat 64 (addr c)).toNat % 32 = 0
    · rw [if_pos h]
      refine Iff.trans (ok_bind.trans (load_iff K .dqu s.mem _)) ⟨fun hr => ⟨hr, fun _ => h⟩, fun hr => hr.1⟩
    · rw [if_neg h]
      exact ⟨fun ⟨_, hv⟩ => (by cases hv), fun hr => absurd (hr.2 ⟨d, c, rfl⟩) h⟩
  case store a r =>
    obtain ⟨rfl, rfl⟩ := h
    rw [← skip (by rintro ⟨_, _, h⟩; cases h)]
    exact ok_bind.trans (stores_iff K _ _ _)
  case store128 a r =>
    obtain ⟨rfl, rfl⟩ := h
    rw [← skip (by rintro ⟨_, _, h⟩; cases h)]
    exact ok_bind.trans (stores_iff K _ _ _)
  case push r =>
    obtain ⟨rfl, rfl⟩ := h
    rw [← skip (by rintro ⟨_, _, h⟩; cases h)]
    refine Iff.trans (by simp only [step, st64, ok_if, ok_ok, and_true]) allowed_iff
  case pop d =>
    obtain ⟨rfl, rfl⟩ := h
    rw [← skip (by rintro ⟨_, _, h⟩; cases h)]
    refine Iff.trans (by simp only [step, ld64, ok_if, ok_ok, and_true]) allowed_iff
  case ret => exact absurd rfl hi

/-! ### What is not accessed -/

private theorem val_congr {m m' : Memory} : ∀ (k : Nat) (a : Word), (∀ j < k, m (a + BitVec.ofNat 64 j) = m' (a + BitVec.ofNat 64 j)) → val m a k = val m' a k
  | 0, _, _ => rfl
  | k + 1, a, h => by
    unfold val
    have h0 := h 0 (by omega)
    rw [show a + BitVec.ofNat 64 0 = a by simp] at h0
    rw [h0, val_congr k (a + 1) fun j hj => ?_]
    have := h (j + 1) (by omega)
    rwa [show a + BitVec.ofNat 64 (j + 1) = a + 1 + BitVec.ofNat 64 j by
      rw [Nat.add_comm, BitVec.ofNat_add, ← BitVec.add_assoc]; rfl] at this

/-- The two memories have the same bytes there. -/
def SameBytes (m m' : Memory) (A : Word) (k : Nat) : Prop := ∀ j < k, m (A + BitVec.ofNat 64 j) = m' (A + BitVec.ofNat 64 j)

private theorem SameBytes.part {m m' : Memory} {A : Word} {k : Nat} (h : SameBytes m m' A k) (o w : Nat) (hw : o + w ≤ k) :
    val m (A + BitVec.ofNat 64 o) w = val m' (A + BitVec.ofNat 64 o) w := by
  refine val_congr w _ fun j hj => ?_
  rw [BitVec.add_assoc, ← BitVec.ofNat_add]
  exact h (o + j) (by omega)

private theorem ld32_part {K : Machine} {m m' : Memory} {A : Word} {k : Nat} (h : SameBytes m m' A k) (o : Nat) (ho : o + 4 ≤ k) :
    ld32 K m (A + BitVec.ofNat 64 o) = ld32 K m' (A + BitVec.ofNat 64 o) := by
  unfold ld32 int32At
  rw [h.part o 4 ho]

private theorem ld16_part {K : Machine} {m m' : Memory} {A : Word} {k : Nat} (h : SameBytes m m' A k) (o : Nat) (ho : o + 2 ≤ k) :
    ld16 K m (A + BitVec.ofNat 64 o) = ld16 K m' (A + BitVec.ofNat 64 o) := by
  unfold ld16 int16At
  rw [h.part o 2 ho]

private theorem load_congr {K : Machine} {m m' : Memory} {A : Word} (l : Load) (h : SameBytes m m' A l.width) :
    l.exec K m A = l.exec K m' A := by
  have e0 : A = A + BitVec.ofNat 64 0 := by simp
  cases l with
  | dqu =>
    have hp := fun o ho => ld32_part (K := K) h o ho
    have h0 := hp 0 (by decide)
    rw [← e0] at h0
    unfold Load.exec
    simp only
    have q4 : ld32 K m (A + 4) = ld32 K m' (A + 4) := hp 4 (by decide)
    have q8 : ld32 K m (A + 8) = ld32 K m' (A + 8) := hp 8 (by decide)
    have q12 : ld32 K m (A + 12) = ld32 K m' (A + 12) := hp 12 (by decide)
    have q16 : ld32 K m (A + 16) = ld32 K m' (A + 16) := hp 16 (by decide)
    have q20 : ld32 K m (A + 20) = ld32 K m' (A + 20) := hp 20 (by decide)
    have q24 : ld32 K m (A + 24) = ld32 K m' (A + 24) := hp 24 (by decide)
    have q28 : ld32 K m (A + 28) = ld32 K m' (A + 28) := hp 28 (by decide)
    rw [h0, q4, q8, q12, q16, q20, q24, q28]
  | sxdq =>
    have hp := fun o ho => ld32_part (K := K) h o ho
    have h0 := hp 0 (by decide)
    rw [← e0] at h0
    unfold Load.exec
    simp only
    have q4 : ld32 K m (A + 4) = ld32 K m' (A + 4) := hp 4 (by decide)
    have q8 : ld32 K m (A + 8) = ld32 K m' (A + 8) := hp 8 (by decide)
    have q12 : ld32 K m (A + 12) = ld32 K m' (A + 12) := hp 12 (by decide)
    rw [h0, q4, q8, q12]
  | sxwd =>
    have hp := fun o ho => ld16_part (K := K) h o ho
    have h0 := hp 0 (by decide)
    rw [← e0] at h0
    unfold Load.exec
    simp only
    have q2 : ld16 K m (A + 2) = ld16 K m' (A + 2) := hp 2 (by decide)
    have q4 : ld16 K m (A + 4) = ld16 K m' (A + 4) := hp 4 (by decide)
    have q6 : ld16 K m (A + 6) = ld16 K m' (A + 6) := hp 6 (by decide)
    have q8 : ld16 K m (A + 8) = ld16 K m' (A + 8) := hp 8 (by decide)
    have q10 : ld16 K m (A + 10) = ld16 K m' (A + 10) := hp 10 (by decide)
    have q12 : ld16 K m (A + 12) = ld16 K m' (A + 12) := hp 12 (by decide)
    have q14 : ld16 K m (A + 14) = ld16 K m' (A + 14) := hp 14 (by decide)
    rw [h0, q2, q4, q6, q8, q10, q12, q14]
  | sxwq =>
    have hp := fun o ho => ld16_part (K := K) h o ho
    have h0 := hp 0 (by decide)
    rw [← e0] at h0
    unfold Load.exec
    simp only
    have q2 : ld16 K m (A + 2) = ld16 K m' (A + 2) := hp 2 (by decide)
    have q4 : ld16 K m (A + 4) = ld16 K m' (A + 4) := hp 4 (by decide)
    have q6 : ld16 K m (A + 6) = ld16 K m' (A + 6) := hp 6 (by decide)
    rw [h0, q2, q4, q6]
  | sxwq128 =>
    have hp := fun o ho => ld16_part (K := K) h o ho
    have h0 := hp 0 (by decide)
    rw [← e0] at h0
    unfold Load.exec
    simp only
    have q2 : ld16 K m (A + 2) = ld16 K m' (A + 2) := hp 2 (by decide)
    rw [h0, q2]
  | bdcstw =>
    have h0 := ld16_part (K := K) h 0 (by decide)
    rw [← e0] at h0
    unfold Load.exec
    simp only
    rw [h0]

private theorem put_out : ∀ (k : Nat) (m : Memory) (a : Word) (x : Nat) (b : Word), (∀ j < k, b ≠ a + BitVec.ofNat 64 j) → put m a x k b = m b
  | 0, _, _, _, _, _ => rfl
  | k + 1, m, a, x, b, h => by
    unfold put
    rw [put_out k _ _ _ b fun j hj => ?_]
    · exact if_neg (by simpa using h 0 (by omega))
    · have := h (j + 1) (by omega)
      rwa [show a + BitVec.ofNat 64 (j + 1) = a + 1 + BitVec.ofNat 64 j by
        rw [Nat.add_comm, BitVec.ofNat_add, ← BitVec.add_assoc]; rfl] at this

private theorem stores_out {K : Machine} : ∀ (l : List Int) (m m' : Memory) (a : Word), st32s K l m a = .ok m' → ∀ b,
    (∀ j < 4 * l.length, b ≠ a + BitVec.ofNat 64 j) → m' b = m b
  | [], m, m', a, h, b, _ => by cases h; rfl
  | x :: l, m, m', a, h, b, hb => by
    simp only [st32s, st32] at h
    split at h
    · rw [stores_out l _ m' (a + 4) h b fun j hj => ?_]
      · exact put_out 4 m a _ b fun j hj => hb j (by simp only [List.length_cons]; omega)
      · have := hb (4 + j) (by simp only [List.length_cons]; omega)
        rwa [BitVec.ofNat_add, ← BitVec.add_assoc] at this
    · cases h

/-- The bytes of an access; none if there is no access. -/
def accessed : Option (Word × Nat) → Word → Prop
  | none, _ => False
  | some (A, k), b => ∃ j < k, b = A + BitVec.ofNat 64 j

/-- C78: an instruction changes memory only where it writes, in the bytes of its access. -/
theorem C78_changes (K : Machine) (addr : S → Nat) (i : Instr L S) (s s' : State) (h : step K addr i s = .ok s') (b : Word)
    (hb : writes i = true → ¬ accessed (access K addr i s) b) : s'.mem b = s.mem b := by
  have out : ∀ {A k}, ¬ (∃ j < k, b = A + BitVec.ofNat 64 j) → ∀ j < k, b ≠ A + BitVec.ofNat 64 j := fun h j hj e => h ⟨j, hj, e⟩
  have bind_ok : ∀ {α : Type} {u : M α} {f : α → State}, (u >>= fun x => (.ok (f x) : M State)) = .ok s' → ∃ x, u = .ok x ∧ f x = s' := by
    intro α u f h
    cases u with
    | error e => cases h
    | ok x => cases h; exact ⟨x, rfl, rfl⟩
  cases i
  case load l d a => obtain ⟨x, -, rfl⟩ := bind_ok h; rfl
  case const d c =>
    simp only [step] at h
    split at h
    · obtain ⟨x, -, rfl⟩ := bind_ok h; rfl
    · cases h
  case store a r => obtain ⟨x, e, rfl⟩ := bind_ok h; exact stores_out _ _ _ _ e b (out (hb rfl))
  case store128 a r => obtain ⟨x, e, rfl⟩ := bind_ok h; exact stores_out _ _ _ _ e b (out (hb rfl))
  case push r =>
    obtain ⟨x, e, rfl⟩ := bind_ok h
    unfold st64 at e
    split at e
    · cases e; exact put_out 8 _ _ _ b (out (hb rfl))
    · cases e
  case pop d => obtain ⟨x, -, rfl⟩ := bind_ok h; rfl
  case xgetbv =>
    simp only [step] at h
    split at h
    · cases h; rfl
    · cases h
  all_goals cases h; rfl

/-- C78: an instruction that does not write depends on memory only through the bytes of its access: in another memory with the same bytes there
it gives the same registers and flags. -/
theorem C78_depends (K : Machine) (addr : S → Nat) (i : Instr L S) (s : State) (m : Memory) (hw : writes i = false)
    (hm : ∀ b, accessed (access K addr i s) b → m b = s.mem b) :
    step K addr i { s with mem := m } = (step K addr i s).map fun s' => { s' with mem := m } := by
  have same : ∀ {A k}, access K addr i s = some (A, k) → SameBytes m s.mem A k := fun e j hj => hm _ (e ▸ ⟨j, hj, rfl⟩)
  have mapb : ∀ {α : Type} {u : M α} {f g : α → State}, (∀ x, f x = { g x with mem := m }) →
      (u >>= fun x => (.ok (f x) : M State)) = (u >>= fun x => (.ok (g x) : M State)).map fun s' => { s' with mem := m } := by
    intro α u f g h
    cases u with
    | error e => rfl
    | ok x => exact congrArg Except.ok (h x)
  cases i
  case load l d a =>
    simp only [step]
    rw [load_congr l (same rfl)]
    exact mapb fun x => rfl
  case const d c =>
    simp only [step]
    split
    · rw [load_congr .dqu (same rfl)]
      exact mapb fun x => rfl
    · rfl
  case store a r => cases hw
  case store128 a r => cases hw
  case push r => cases hw
  case pop d =>
    simp only [step, ld64]
    have := (same rfl).part 0 8 (by decide)
    rw [show s.gpr rsp + BitVec.ofNat 64 0 = s.gpr rsp by simp] at this
    rw [this]
    exact mapb fun x => rfl
  case xgetbv =>
    simp only [step]
    split <;> rfl
  all_goals rfl

/-- `vpmovsxwd` reads 16 bytes. -/
example : access Sample.K Code.addr (.load .sxwd 0 (.at rdi 0) : Code.Instr) Sample.s = some (4096, 16) ∧
    (∃ s', step Sample.K Code.addr (.load .sxwd 0 (.at rdi 0) : Code.Instr) Sample.s = .ok s') :=
  ⟨rfl, (C78_access _ _ _ (by decide) _ _ _ rfl).mpr ⟨show Readable Sample.K 4096 16 by unfold Readable; decide +kernel, by rintro ⟨_, _, h⟩; cases h⟩⟩

end Props
