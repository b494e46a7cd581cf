import Verif.SpecCText
import Verif.Model.TableFiles
import Verif.Proofs.Wp

/-
Reading back generated text: composition lemmas for the tokenizer and the parser of SpecCText.
-/

namespace Spec.CText

/-- The tokenizer goes from `s` to `s'` on the text `t` and outputs `ts`. -/
def Lexes (s : State) (t : Text) (s' : State) (ts : List Tok) : Prop := lexFrom s t = (s', ts)

instance {s s' : State} {t : Text} {ts : List Tok} : Decidable (Lexes s t s' ts) :=
  inferInstanceAs (Decidable (_ = _))

theorem Lexes.nil {s : State} : Lexes s [] s [] := rfl

theorem Lexes.append {s s1 s2 : State} {a b : Text} {t1 t2 : List Tok} (h1 : Lexes s a s1 t1)
    (h2 : Lexes s1 b s2 t2) : Lexes s (a ++ b) s2 (t1 ++ t2) := by
  induction a generalizing s t1 with
  | nil =>
    obtain ⟨rfl, rfl⟩ : s = s1 ∧ [] = t1 := by simpa [Lexes, lexFrom] using h1
    exact h2
  | cons c cs ih =>
    obtain ⟨e1, e2⟩ : (lexFrom (step s c).1 cs).1 = s1 ∧
        (step s c).2 ++ (lexFrom (step s c).1 cs).2 = t1 := by
      simpa [Lexes, lexFrom] using h1
    have h := ih (s := (step s c).1) (t1 := (lexFrom (step s c).1 cs).2) (Prod.ext e1 rfl)
    unfold Lexes at h ⊢
    rw [List.cons_append, lexFrom, h, ← e2, List.append_assoc]

theorem Lexes.eq {s s' : State} {t : Text} {ts ts' : List Tok} (h : Lexes s t s' ts) (e : ts = ts') :
    Lexes s t s' ts' := e ▸ h

theorem lexes_word {w a : Text} (h : ∀ c ∈ w, wordChar c = true) : Lexes (.word a) w (.word (a ++ w)) [] := by
  induction w generalizing a with
  | nil => simp [Lexes, lexFrom]
  | cons c cs ih =>
    have h1 := ih (a := a ++ [c]) (fun x hx => h x (by simp [hx]))
    have h2 := h c (by simp)
    unfold Lexes at h1 ⊢
    simp [lexFrom, step, h2, h1]

theorem lexes_digits {w a : Text} (h : ∀ c ∈ w, c.isDigit = true) :
    Lexes (.number a) w (.number (a ++ w)) [] := by
  induction w generalizing a with
  | nil => simp [Lexes, lexFrom]
  | cons c cs ih =>
    have h1 := ih (a := a ++ [c]) (fun x hx => h x (by simp [hx]))
    have h2 := h c (by simp)
    unfold Lexes at h1 ⊢
    simp [lexFrom, step, h2, h1]

theorem lexes_comment {w : Text} {b : Bool} (h : ∀ c ∈ w, c ≠ '*') :
    Lexes (.comment b) w (.comment b) [] := by
  induction w with
  | nil => rfl
  | cons c cs ih =>
    have h1 := ih (fun x hx => h x (by simp [hx]))
    have h2 := h c (by simp)
    unfold Lexes at h1 ⊢
    simp [lexFrom, step, h2, h1]

theorem lexes_line {w a : Text} (h : ∀ c ∈ w, c ≠ '\n') : Lexes (.line a) w (.line (a ++ w)) [] := by
  induction w generalizing a with
  | nil => simp [Lexes, lexFrom]
  | cons c cs ih =>
    have h1 := ih (a := a ++ [c]) (fun x hx => h x (by simp [hx]))
    have h2 := h c (by simp)
    unfold Lexes at h1 ⊢
    simp [lexFrom, step, h2, h1]

theorem lexes_blanks {m : Nat} {b : Bool} : Lexes (.ready b) (List.replicate m ' ') (.ready b) [] := by
  induction m with
  | zero => rfl
  | succ m ih =>
    unfold Lexes at ih ⊢
    rw [List.replicate_succ, lexFrom]
    simp [step, fresh, ih]

/-- End of an identifier. -/
theorem lexes_endword {a cs : Text} {c : Char} {s : State} {ts : List Tok} (hc : wordChar c = false)
    (h : Lexes (.ready false) (c :: cs) s ts) : Lexes (.word a) (c :: cs) s (.ident a :: ts) := by
  unfold Lexes at h ⊢
  simp only [lexFrom, step, hc] at h ⊢
  rw [Prod.mk.injEq] at h ⊢
  simpa using h

theorem isDigit_wordChar {c : Char} (h : c.isDigit = true) : wordChar c = true := by
  simp [wordChar, h]

theorem dec_digit {n : Nat} : ∀ c ∈ decimal n, c.isDigit = true := fun _ hc =>
  Nat.isDigit_of_mem_toDigits (by omega) (by omega) hc

theorem dec_word {n : Nat} : ∀ c ∈ decimal n, wordChar c = true := fun c hc =>
  isDigit_wordChar (dec_digit c hc)

theorem dec_ne {n : Nat} {d : Char} (hd : d.isDigit = false) : ∀ c ∈ decimal n, c ≠ d := by
  intro c hc e
  have := dec_digit c hc
  rw [e, hd] at this
  cases this

theorem dec_ne_nil {n : Nat} : decimal n ≠ [] := Nat.toDigits_ne_nil

/-- Decimal notation has no leading zeros. -/
theorem dec_zero {n : Nat} (h : (decimal n).head? = some '0') : (decimal n).length = 1 := by
  rcases Nat.lt_or_ge n 10 with hn | hn
  · unfold decimal
    rw [Nat.toDigits_of_lt_base hn]
    rfl
  · exfalso
    have key : ∀ m, 1 ≤ m → (Nat.toDigits 10 m).head? ≠ some '0' := by
      intro m
      induction m using Nat.strongRecOn with
      | ind m ih =>
        intro hm
        rcases Nat.lt_or_ge m 10 with h1 | h1
        · rw [Nat.toDigits_of_lt_base h1]
          have : ∀ m : Fin 10, 1 ≤ m.1 → [m.1.digitChar].head? ≠ some '0' := by decide
          exact this ⟨m, h1⟩ hm
        · rw [Nat.toDigits_of_base_le (by omega) h1]
          have h2 := ih (m / 10) (by omega) (by omega)
          obtain ⟨c, cs, e⟩ := List.exists_cons_of_ne_nil (Nat.toDigits_ne_nil (n := m / 10) (b := 10))
          rw [e] at h2 ⊢
          exact h2
    exact key n (by omega) h

/-- A decimal constant. -/
theorem lexes_dec {n : Nat} {b : Bool} : Lexes (.ready b) (decimal n) (.number (decimal n)) [] := by
  obtain ⟨c, cs, e⟩ : ∃ c cs, decimal n = c :: cs := List.exists_cons_of_ne_nil dec_ne_nil
  have hd : ∀ x ∈ c :: cs, x.isDigit = true := e ▸ dec_digit
  have hc := hd c (by simp)
  have h1 : Lexes (.ready b) [c] (.number [c]) [] := by
    have e1 : c ≠ '\n' := by rintro rfl; revert hc; decide
    have e2 : c ≠ ' ' := by rintro rfl; revert hc; decide
    have e3 : c ≠ '#' := by rintro rfl; revert hc; decide
    have e4 : c ≠ '/' := by rintro rfl; revert hc; decide
    simp [Lexes, lexFrom, step, fresh, e1, e2, e3, e4, hc]
  have h2 := lexes_digits (a := [c]) (w := cs) (fun x hx => hd x (by simp [hx]))
  rw [e]
  exact h1.append h2

/-- End of a decimal constant. -/
theorem lexes_endnum {n : Nat} {cs : Text} {c : Char} {s : State} {ts : List Tok} (hc : wordChar c = false)
    (h : Lexes (.ready false) (c :: cs) s ts) :
    Lexes (.number (decimal n)) (c :: cs) s (.num n :: ts) := by
  have hd : c.isDigit = false := by
    cases e : c.isDigit
    · rfl
    · rw [isDigit_wordChar e] at hc; cases hc
  have h0 : ¬ ((decimal n).head? = some '0' ∧ (decimal n).length ≠ 1) := fun h => h.2 (dec_zero h.1)
  have hv : Nat.ofDigitChars 10 (decimal n) 0 = n := Nat.ofDigitChars_ten_toDigits
  unfold Lexes at h ⊢
  simp only [lexFrom, step, hc, hd, h0, hv] at h ⊢
  rw [Prod.mk.injEq] at h ⊢
  simpa using h

/-- `ts` is read as the items `is`. -/
def Parses (ts : List Tok) (is : List Item) : Prop := ∀ f, ts.length ≤ f → readItems f ts = some is

theorem Parses.nil : Parses [] [] := by
  intro f _
  cases f <;> rfl

theorem Parses.cons {h ts : List Tok} {i : Item} {is : List Item} (hi : readItem (h ++ ts) = some (i, ts))
    (h0 : h ≠ []) (hp : Parses ts is) : Parses (h ++ ts) (i :: is) := by
  intro f hf
  have hl : 0 < h.length := List.length_pos_iff.2 h0
  rw [List.length_append] at hf
  obtain ⟨f, rfl⟩ : ∃ g, f = g + 1 := ⟨f - 1, by omega⟩
  obtain ⟨c, cs, rfl⟩ := List.exists_cons_of_ne_nil h0
  show readItems (f + 1) (c :: (cs ++ ts)) = _
  rw [readItems]
  · show (readItem ((c :: cs) ++ ts)).bind _ = _
    rw [hi]
    show (readItems f ts).bind _ = _
    rw [hp f (by simp at hf; omega)]
    rfl
  · simp

theorem readC_of {t : Text} {ts : List Tok} {is : List Item} (h : Lexes (.ready true) t (.ready true) ts)
    (hp : Parses ts is) : readC t = some is := by
  unfold readC lex
  unfold Lexes at h
  rw [h]
  exact hp _ (Nat.le_refl _)

/-- A complete piece of a file: lines that add the items `is`. -/
def Piece (t : Text) (is : List Item) : Prop :=
  ∃ ts, Lexes (.ready true) t (.ready true) ts ∧ ∀ r js, Parses r js → Parses (ts ++ r) (is ++ js)

theorem Piece.append {t u : Text} {is js : List Item} (h1 : Piece t is) (h2 : Piece u js) :
    Piece (t ++ u) (is ++ js) := by
  obtain ⟨ts, l1, p1⟩ := h1
  obtain ⟨us, l2, p2⟩ := h2
  refine ⟨ts ++ us, l1.append l2, fun r ks hr => ?_⟩
  rw [List.append_assoc, List.append_assoc]
  exact p1 _ _ (p2 _ _ hr)

theorem Piece.read {t : Text} {is : List Item} (h : Piece t is) : readC t = some is := by
  obtain ⟨ts, l, p⟩ := h
  refine readC_of l ?_
  have := p [] [] Parses.nil
  simpa using this

/-- A piece without items. -/
theorem piece_blank {t : Text} (h : Lexes (.ready true) t (.ready true) []) : Piece t [] :=
  ⟨[], h, fun _ _ hr => hr⟩

/-- A piece with one item. -/
theorem piece_item {t : Text} {ts : List Tok} {i : Item} (h : Lexes (.ready true) t (.ready true) ts)
    (h0 : ts ≠ []) (hi : ∀ r, readItem (ts ++ r) = some (i, r)) : Piece t [i] :=
  ⟨ts, h, fun r _ hr => Parses.cons (hi r) h0 hr⟩

end Spec.CText
