import Verif.Model.Src.NttAsm

/-
What is read from the text of src/ntt_asm.S is the program of `Verif/Model/Code.lean`, up to names, and runs like it.
-/

namespace X86
open C

variable {L S L' S' : Type}

/-- The instruction with other labels and constants. -/
def Instr.map (f : L → L') (g : S → S') : Instr L S → Instr L' S'
  | .label l => .label (f l)
  | .vec i => .vec i
  | .load l d a => .load l d a
  | .const d s => .const d (g s)
  | .store a s => .store a s
  | .store128 a s => .store128 a s
  | .vmovd d r => .vmovd d r
  | .mov d r => .mov d r
  | .movi d i => .movi d i
  | .lea d a => .lea d a
  | .add d r => .add d r
  | .addi d i => .addi d i
  | .shl d k => .shl d k
  | .shr d k => .shr d k
  | .cmp r r' => .cmp r r'
  | .cmpi r i => .cmpi r i
  | .jmp l => .jmp (f l)
  | .jcc c l => .jcc c (f l)
  | .ret => .ret
  | .movi32 d i => .movi32 d i
  | .andi32 d i => .andi32 d i
  | .xor32 d r => .xor32 d r
  | .cmpi32 r i => .cmpi32 r i
  | .push r => .push r
  | .pop d => .pop d
  | .cpuid => .cpuid
  | .xgetbv => .xgetbv

variable [DecidableEq L] [DecidableEq L'] {f : L → L'} {g : S → S'}

theorem codeAt_map (hf : ∀ l l', f l = f l' → l = l') (l : L) (c : List (Instr L S)) :
    codeAt (f l) (c.map (Instr.map f g)) = (codeAt l c).map (Instr.map f g) := by
  induction c with
  | nil => rfl
  | cons i c ih =>
    cases i with
    | label l' =>
      show (if f l = f l' then _ else _) = (if l = l' then c else codeAt l c).map _
      by_cases h : l = l'
      · rw [if_pos h, if_pos (by rw [h])]
      · rw [if_neg h, if_neg fun e => h (hf _ _ e), ih]
    | _ => exact ih

omit [DecidableEq L] [DecidableEq L'] in
theorem step_map {K : Machine} {addr : S → Nat} {addr' : S' → Nat} (ha : ∀ c, addr' (g c) = addr c) (i : Instr L S) (s : State) :
    step K addr' (i.map f g) s = step K addr i s := by
  cases i with
  | const d c => simp only [Instr.map, step, ha]
  | _ => rfl

theorem run_map {K : Machine} {addr : S → Nat} {addr' : S' → Nat} (hf : ∀ l l', f l = f l' → l = l') (ha : ∀ c, addr' (g c) = addr c)
    (prog : List (Instr L S)) (n : Nat) : ∀ (c : List (Instr L S)) (s : State),
    run K addr' (prog.map (Instr.map f g)) n (c.map (Instr.map f g)) s = run K addr prog n c s := by
  induction n with
  | zero => exact fun c s => by cases c <;> rfl
  | succ n ih =>
    intro c s
    cases c with
    | nil => rfl
    | cons i c =>
      have hs := step_map (K := K) (f := f) (g := g) ha i s
      cases i with
      | label l => exact ih c s
      | jmp l =>
        show run _ _ _ _ (codeAt (f l) _) _ = _
        rw [codeAt_map hf]
        exact ih _ s
      | jcc cc l =>
        show run _ _ _ _ (if _ then codeAt (f l) _ else _) _ = run _ _ _ _ (if _ then _ else _) _
        rw [codeAt_map hf]
        split
        · exact ih _ s
        · exact ih _ s
      | ret => rfl
      | _ =>
        show (step K addr' _ s >>= fun s => run _ _ _ n (c.map _) s) = (step K addr _ s >>= fun s => run _ _ _ n c s)
        rw [← hs]
        exact congrArg _ (funext fun s => ih c s)

end X86

namespace CLang.Src
open X86 AsmRead

/-- The contents of src/ntt_asm.S, from `Verif/Model/Code.lean`. -/
def ntt_asm : Asm where
  labels := consts.map fun c => (constName c, Code.addr c)
  longs := consts.flatMap fun c => place (Code.addr c) ((Code.longs c).map Int.toNat)
  globals := globals.map labelName
  code := Code.prog.map (Instr.map labelName constName)

/-- Comparison of lists, from the beginning. -/
def eqList {α : Type} [DecidableEq α] : List α → List α → Bool
  | [], [] => true
  | x :: l, y :: r => if x = y then eqList l r else false
  | _, _ => false

theorem eq_of_eqList {α : Type} [DecidableEq α] : ∀ {l r : List α}, eqList l r = true → l = r
  | [], [], _ => rfl
  | x :: l, y :: r, h => by
    unfold eqList at h
    split at h
    · next e => rw [e, eq_of_eqList h]
    · exact absurd h (by decide)

theorem read_all : (eqList (instrs false (items ntt_asm_text)) ntt_asm.code && eqList (positions false 0 (items ntt_asm_text)) ntt_asm.labels &&
    eqList (longs false 0 (items ntt_asm_text)) ntt_asm.longs && eqList (exports (items ntt_asm_text)) ntt_asm.globals &&
    wellFormed false (items ntt_asm_text)) = true := by decide +kernel

theorem ntt_asm_read : readAsm ntt_asm_text = some ntt_asm := by
  have h := read_all
  simp only [Bool.and_eq_true] at h
  obtain ⟨⟨⟨⟨h1, h2⟩, h3⟩, h4⟩, h5⟩ := h
  rw [readAsm, if_pos h5, eq_of_eqList h1, eq_of_eqList h2, eq_of_eqList h3, eq_of_eqList h4]

theorem labelName_inj (l l' : Code.Label) (h : labelName l = labelName l') : l = l' := by
  have key : ∀ l, look (labelName l) (labels.map fun l => (labelName l, l)) = some l := by
    intro l; cases l <;> decide +kernel
  have h1 := key l
  rw [h, key l'] at h1
  exact (Option.some.inj h1).symm

theorem addr_eq (c : Code.Const) : ntt_asm.addr (constName c) = Code.addr c := by cases c <;> decide +kernel

theorem mem_labels (l : Code.Label) : l ∈ labels := by cases l <;> decide

/-- The text runs like the program. -/
theorem ntt_asm_run (K : Machine) (l : Code.Label) (fuel : Nat) (s : X86.State) :
    run K ntt_asm.addr ntt_asm.code fuel (codeAt (labelName l) ntt_asm.code) s = run K Code.addr Code.prog fuel (codeAt l Code.prog) s := by
  show run _ _ (Code.prog.map _) _ (codeAt _ (Code.prog.map _)) _ = _
  rw [codeAt_map labelName_inj]
  exact run_map labelName_inj addr_eq _ _ _ _

theorem ntt_asm_longs (c : Code.Const) : ∀ j < 8, ∃ v : Nat, (Code.addr c + 4 * j, v) ∈ ntt_asm.longs ∧ (v : Int) = (Code.longs c).getD j 0 := by
  have key : ∀ j < 8, (Code.addr c + 4 * j, ((Code.longs c).getD j 0).toNat) ∈ ntt_asm.longs ∧ 0 ≤ (Code.longs c).getD j 0 := by
    cases c <;> decide +kernel
  exact fun j hj => ⟨_, (key j hj).1, Int.toNat_of_nonneg (key j hj).2⟩

end CLang.Src
