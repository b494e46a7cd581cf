import Verif.Proofs.CText
import Verif.SpecTableFiles
import Verif.Proofs.MakeTables
import Verif.Proofs.MakeBitrev

/-
The text written by the table generators is read back as the tables of Model/Tables.lean.
-/

namespace TableFiles
open C Tables Spec Spec.CText

theorem pu32_eq {n : Nat} : pu32 n = decimal n := rfl

theorem pd32_nat {n : Nat} : pd32 n = pu32 n := by
  unfold pd32 pu32
  rw [if_neg (by omega)]
  rfl

/-! ### Lines -/

theorem lexes_endline {a cs : Text} {s : State} {ts : List Tok} (h : Lexes (.ready true) cs s ts) :
    Lexes (.line a) ('\n' :: cs) s (.directive a :: ts) := by
  unfold Lexes at h ⊢
  show ((lexFrom (.ready true) cs).1, [Tok.directive a] ++ (lexFrom (.ready true) cs).2) = _
  rw [h]
  rfl

theorem piece_directive {l cs : Text} (hl : ∀ c ∈ l, c ≠ '\n')
    (hc : Lexes (.ready true) cs (.ready true) []) : Piece ('#' :: (l ++ '\n' :: cs)) [.directive l] := by
  have h1 : Lexes (.ready true) c!"#" (.line []) [] := by decide +kernel
  have h2 := h1.append ((lexes_line (a := []) hl).append (lexes_endline hc))
  exact piece_item h2 (by simp) (fun r => rfl)

/-- Directives that contain the size. -/
theorem piece_directive_n {w1 w2 cs : Text} {n : Nat} (h1 : ∀ c ∈ w1, c ≠ '\n') (h2 : ∀ c ∈ w2, c ≠ '\n')
    (hc : Lexes (.ready true) cs (.ready true) []) :
    Piece ('#' :: (w1 ++ (pu32 n ++ (w2 ++ '\n' :: cs)))) [.directive (w1 ++ decimal n ++ w2)] := by
  have h := piece_directive (l := w1 ++ decimal n ++ w2) (cs := cs) (fun c hc => by
    simp only [List.mem_append] at hc
    rcases hc with (hc | hc) | hc
    · exact h1 c hc
    · exact dec_ne (by decide) c hc
    · exact h2 c hc) hc
  simpa [pu32_eq, List.append_assoc] using h

theorem piece_comment {what : Text} (h : ∀ c ∈ what, c ≠ '*') : Piece (print_comment what) [] := by
  unfold print_comment
  have h1 : Lexes (.ready true) c!"/*\n * " (.comment true) [] := by decide +kernel
  have h2 : Lexes (.comment true) c!"\n */\n" (.ready true) [] := by decide +kernel
  exact piece_blank ((h1.append (lexes_comment h)).append h2)

/-- Text within a comment. -/
theorem Lexes.skip {s : State} {a b : Text} (h1 : Lexes s a (.comment true) [])
    (h2 : Lexes (.comment true) b (.comment true) []) : Lexes s (a ++ b) (.comment true) [] :=
  h1.append h2

theorem Lexes.skip_dec {s : State} {a : Text} {n : Nat} (h1 : Lexes s a (.comment true) []) :
    Lexes s (a ++ pu32 n) (.comment true) [] :=
  h1.append (lexes_comment (dec_ne (by decide)))

theorem piece_header {q n psi phi inv_psi inv_phi inv_n : Nat} :
    Piece (print_header q n psi phi inv_psi inv_phi inv_n) [] := by
  unfold print_header
  refine piece_blank (Lexes.append (t1 := []) (t2 := []) (s1 := .comment true) ?_ (by decide +kernel))
  iterate 6
    refine Lexes.skip_dec (Lexes.skip ?_ (by decide +kernel))
  exact Lexes.skip_dec (by decide +kernel)

theorem piece_red_header {q k n psi phi inv_psi inv_phi inv_n inv_k : Nat} :
    Piece (print_red_header q k n psi phi inv_psi inv_phi inv_n inv_k) [] := by
  unfold print_red_header
  refine piece_blank (Lexes.append (t1 := []) (t2 := []) (s1 := .comment true) ?_ (by decide +kernel))
  iterate 8
    refine Lexes.skip_dec (Lexes.skip ?_ (by decide +kernel))
  exact Lexes.skip_dec (by decide +kernel)

/-! ### Declarations -/

/-- The identifier `w<n>_name`. -/
theorem lexes_name {w name : Text} {n : Nat} (hname : ∀ c ∈ name, wordChar c = true) :
    Lexes (.word w) (pu32 n ++ c!"_" ++ name) (.word (w ++ decimal n ++ c!"_" ++ name)) [] := by
  have h1 := lexes_word (a := w) (dec_word (n := n))
  have h2 := lexes_word (a := w ++ decimal n) (w := c!"_") (by decide)
  have h3 := lexes_word (a := w ++ decimal n ++ c!"_") hname
  exact (h1.append h2).append h3

theorem stored_int32 {v : Nat} (hv : v < 2147483648) : stored c!"int32_t" v = some (v : Int) := by
  unfold stored
  rw [if_neg (by decide), if_neg (by decide), if_pos rfl]
  exact congrArg some (by omega)

theorem piece_param {pre w name : Text} {n v : Nat}
    (hpre : Lexes (.ready true) pre (.word w) [.ident c!"static", .ident c!"const", .ident c!"int32_t"])
    (hname : ∀ c ∈ name, wordChar c = true) (hv : v < 2147483648) :
    Piece (pre ++ pu32 n ++ c!"_" ++ name ++ c!" = " ++ pu32 v ++ c!";\n")
      [.param c!"int32_t" (w ++ decimal n ++ c!"_" ++ name) v] := by
  have h1 := hpre.append (lexes_name (n := n) hname)
  have h2 : Lexes (.word (w ++ decimal n ++ c!"_" ++ name)) c!" = " (.ready false) _ :=
    lexes_endword (by decide) (ts := [.punct '=']) (by decide +kernel)
  have h3 := (h1.append h2).append (lexes_dec (n := v))
  have h4 := h3.append (lexes_endnum (n := v) (c := ';') (cs := c!"\n") (s := .ready true)
    (ts := [.punct ';']) (by decide) (by decide +kernel))
  simp only [← List.append_assoc] at h4
  refine piece_item h4 (by simp) (fun r => ?_)
  have e1 : ∀ X : List Tok, readItem ([.ident c!"static", .ident c!"const", .ident c!"int32_t",
      .ident (w ++ decimal n ++ c!"_" ++ name), .punct '=', .num v, .punct ';'] ++ X) =
      (do
        let v ← stored c!"int32_t" v
        pure (.param c!"int32_t" (w ++ decimal n ++ c!"_" ++ name) v, X)) := fun X => rfl
  have e2 := e1 r
  rw [stored_int32 hv] at e2
  exact e2

theorem piece_decl {pre w type name : Text} {n : Nat}
    (hpre : Lexes (.ready true) pre (.word w) [.ident c!"extern", .ident c!"const", .ident type])
    (hname : ∀ c ∈ name, wordChar c = true) :
    Piece (pre ++ pu32 n ++ c!"_" ++ name ++ c!"[" ++ pu32 n ++ c!"];\n")
      [.extern type (w ++ decimal n ++ c!"_" ++ name) [.num n]] := by
  have h1 := hpre.append (lexes_name (n := n) hname)
  have h2 : Lexes (.word (w ++ decimal n ++ c!"_" ++ name)) c!"[" (.ready false) _ :=
    lexes_endword (by decide) (ts := [.punct '[']) (by decide +kernel)
  have h3 := (h1.append h2).append (lexes_dec (n := n))
  have h4 := h3.append (lexes_endnum (n := n) (c := ']') (cs := c!";\n") (s := .ready true)
    (ts := [.punct ']', .punct ';']) (by decide) (by decide +kernel))
  simp only [← List.append_assoc] at h4
  exact piece_item h4 (by simp) (fun r => rfl)

/-! ### Tables -/

/-- Tokens of an entry of a table. -/
def numToks (v : Int) : List Tok :=
  if v < 0 then [.punct '-', .num v.natAbs, .punct ','] else [.num v.natAbs, .punct ',']

theorem lexes_pad {t : Text} {b : Bool} {s : State} {ts : List Tok}
    (h : Lexes (.ready b) t s ts) : Lexes (.ready b) (pad5 t) s ts := by
  unfold pad5
  exact lexes_blanks.append h

theorem lexes_pd32 {v : Int} {b : Bool} : ∃ b',
    Lexes (.ready b) (pd32 v) (.number (decimal v.natAbs)) (if v < 0 then [.punct '-'] else []) ∧
      b' = b := by
  refine ⟨b, ?_, rfl⟩
  unfold pd32
  split
  · have h1 : Lexes (.ready b) c!"-" (.ready false) [.punct '-'] := by cases b <;> decide +kernel
    exact (h1.append lexes_dec).eq (by simp)
  · exact lexes_dec

theorem lexes_entry {v : Int} {b : Bool} :
    Lexes (.ready b) (c!" " ++ pad5 (pd32 v) ++ c!",") (.ready false) (numToks v) := by
  have h0 : Lexes (.ready b) c!" " (.ready b) [] := by cases b <;> decide +kernel
  obtain ⟨_, h1, _⟩ := lexes_pd32 (v := v) (b := b)
  have h2 := (h0.append (lexes_pad h1)).append (lexes_endnum (n := v.natAbs) (c := ',') (cs := [])
    (s := .ready false) (ts := [.punct ',']) (by decide) (by decide +kernel))
  refine h2.eq ?_
  unfold numToks
  split <;> rfl

theorem run_printLoop {n : Nat} {entry : Nat → M Text} {v : Nat → Int} {t : Text} (hn : n < 4294967296)
    (he : ∀ i, i < n → entry i = .ok (pd32 (v i))) :
    ∃ t', printLoop n entry t = .ok (t ++ t') ∧
      Lexes (.ready true) t' (.ready true) (((List.range n).map v).flatMap numToks) := by
  have key : Wp NoErr (forUp 0 n 1 (fun i (st : Nat × Text) => do
      let (k, t) := st
      let t := if k = 0 then t ++ c!"   " else t
      let e ← entry i
      let t := t ++ c!" " ++ pad5 e ++ c!","
      let k := u32 (k + 1)
      if k = 8 then pure (0, t ++ c!"\n") else pure (k, t)) (0, t))
      (fun st => ∃ t' b, st.2 = t ++ t' ∧ (st.1 = 0 → b = true) ∧
        Lexes (.ready true) t' (.ready b) (((List.range n).map v).flatMap numToks)) := by
    refine wp_forUp1 (fun i st => st.1 < 8 ∧ ∃ t' b, st.2 = t ++ t' ∧ (st.1 = 0 → b = true) ∧
        Lexes (.ready true) t' (.ready b) (((List.range i).map v).flatMap numToks)) hn (by omega)
      ⟨by simp, [], true, by simp, fun _ => rfl, Lexes.nil⟩ ?_ (fun st h => h.2)
    rintro i ⟨k, u⟩ _ hi ⟨hk, t', b, ht, hb, hl⟩
    simp only at hk ht hb
    subst ht
    have hl2 : ∃ u', (if k = 0 then (t ++ t') ++ c!"   " else t ++ t') = t ++ u' ∧
        Lexes (.ready true) u' (.ready b) (((List.range i).map v).flatMap numToks) := by
      split
      · have h3 : Lexes (.ready b) c!"   " (.ready b) [] := by cases b <;> decide +kernel
        exact ⟨t' ++ c!"   ", by simp, (hl.append h3).eq (by simp)⟩
      · exact ⟨t', rfl, hl⟩
    obtain ⟨u', e1, hl2⟩ := hl2
    have hl3 := hl2.append (lexes_entry (v := v i) (b := b))
    have eT : ((List.range i).map v).flatMap numToks ++ numToks (v i) =
        ((List.range (i + 1)).map v).flatMap numToks := by
      rw [List.range_succ, List.map_append, List.flatMap_append]
      simp
    rw [eT] at hl3
    simp only [wp_bind]
    rw [he i hi, wp_ok]
    simp only [e1]
    have hu : u32 (k + 1) = k + 1 := Nat.mod_eq_of_lt (by omega)
    rw [hu]
    split
    · rw [wp_pure]
      refine ⟨by simp, u' ++ (c!" " ++ pad5 (pd32 (v i)) ++ c!",") ++ c!"\n", true, by simp,
        fun _ => rfl, (hl3.append (s2 := .ready true) (t2 := []) (by decide +kernel)).eq (by simp)⟩
    · rw [wp_pure]
      refine ⟨by simp only; omega, u' ++ (c!" " ++ pad5 (pd32 (v i)) ++ c!","), false, by simp,
        fun h => by simp at h, hl3⟩
  obtain ⟨⟨k, u⟩, e, t', b, hu, hb, hl⟩ := wp_total.1 key
  simp only at hu hb
  unfold printLoop
  rw [e]
  show ∃ t'', Except.ok (if k > 0 then u ++ c!"\n" else u) = .ok (t ++ t'') ∧ _
  rcases Nat.eq_zero_or_pos k with h0 | h0
  · obtain rfl := hb h0
    rw [if_neg (by omega), hu]
    exact ⟨t', rfl, hl⟩
  · rw [if_pos h0, hu]
    refine ⟨t' ++ c!"\n", by simp, (hl.append (s2 := .ready true) (t2 := []) ?_).eq (by simp)⟩
    cases b <;> decide +kernel

theorem readNums_eq {type : Text} {g : Int → Int} (hg : ∀ v, stored type v = some (g v)) (vs : List Int)
    (r : List Tok) :
    readNums type (vs.flatMap numToks ++ .punct '}' :: r) = some (vs.map g, r) := by
  induction vs with
  | nil => rfl
  | cons v vs ih =>
    rw [List.flatMap_cons, List.append_assoc]
    unfold numToks
    split
    · rename_i hv
      show (readNums type (vs.flatMap numToks ++ .punct '}' :: r)).bind _ = _
      rw [ih]
      show (stored type (-(v.natAbs : Int))).bind _ = _
      rw [show (-(v.natAbs : Int)) = v by omega, hg]
      rfl
    · rename_i hv
      show (readNums type (vs.flatMap numToks ++ .punct '}' :: r)).bind _ = _
      rw [ih]
      show (stored type (v.natAbs : Int)).bind _ = _
      rw [show ((v.natAbs : Int)) = v by omega, hg]
      rfl

/-- A table. -/
theorem piece_table {pre w type name : Text} {n : Nat} {entry : Nat → M Text} {v : Nat → Int} {g : Int → Int}
    (hn : n < 4294967296)
    (hpre : Lexes (.ready true) pre (.word w) [.ident c!"const", .ident type])
    (hname : ∀ c ∈ name, wordChar c = true) (he : ∀ i, i < n → entry i = .ok (pd32 (v i)))
    (hg : ∀ v, stored type v = some (g v)) :
    ∃ t, printLoop n entry
        (pre ++ pu32 n ++ c!"_" ++ name ++ c!"[" ++ pu32 n ++ c!"] = {\n") = .ok t ∧
      Piece (t ++ c!"};\n\n") [.array type (w ++ decimal n ++ c!"_" ++ name) (.num n)
        ((List.range n).map (fun i => g (v i)))] := by
  obtain ⟨t', e, hl⟩ := run_printLoop (t := pre ++ pu32 n ++ c!"_" ++ name ++ c!"[" ++ pu32 n ++
    c!"] = {\n") hn he
  refine ⟨_, e, ?_⟩
  have h1 := hpre.append (lexes_name (n := n) hname)
  have h2 : Lexes (.word (w ++ decimal n ++ c!"_" ++ name)) c!"[" (.ready false) _ :=
    lexes_endword (by decide) (ts := [.punct '[']) (by decide +kernel)
  have h3 := (h1.append h2).append (lexes_dec (n := n))
  have h4 := h3.append (lexes_endnum (n := n) (c := ']') (cs := c!" = {\n") (s := .ready true)
    (ts := [.punct ']', .punct '=', .punct '{']) (by decide) (by decide +kernel))
  have h5 : Lexes (.ready true) c!"};\n\n" (.ready true) [.punct '}', .punct ';'] := by decide +kernel
  have h6 := (h4.append hl).append h5
  simp only [← List.append_assoc] at h6
  refine piece_item h6 (by simp) (fun r => ?_)
  have hr := readNums_eq hg ((List.range n).map v) (.punct ';' :: r)
  have e1 : ∀ X : List Tok, readItem ([.ident c!"const", .ident type] ++ [] ++
      [.ident (w ++ decimal n ++ c!"_" ++ name), .punct '['] ++ [] ++
      [.num n, .punct ']', .punct '=', .punct '{'] ++ X) =
      (do
        let (vs, r) ← readNums type X
        match r with
        | .punct ';' :: r => if isDim (.num n) then
            some (.array type (w ++ decimal n ++ c!"_" ++ name) (.num n) vs, r) else none
        | _ => none) := fun X => rfl
  have e2 := e1 (((List.range n).map v).flatMap numToks ++ [.punct '}', .punct ';'] ++ r)
  simp only [List.append_assoc] at e2 ⊢
  rw [e2]
  simp only [List.cons_append, List.nil_append]
  rw [hr]
  simp [isDim]

/-! ### Sizes of the tables -/

theorem wp_any {α : Type} {m : M α} : Wp (fun _ => True) m (fun _ => True) := by
  cases m with
  | ok a => rw [wp_ok]; trivial
  | error e => rw [wp_error]; trivial

theorem wp_cfor_any {σ : Type} {cond : Nat → Bool} {next : Nat → Nat} {body : Nat → σ → M σ} (I : σ → Prop)
    (hb : ∀ i s, I s → Wp (fun _ => True) (body i s) I) {fuel i : Nat} {s : σ} (hs : I s) :
    Wp (fun _ => True) (cfor cond next body fuel i s) I := by
  induction fuel generalizing i s with
  | zero => exact wp_error.2 trivial
  | succ f ih =>
    rw [cfor]
    split
    · rw [wp_bind]
      exact (hb i s hs).mono fun s' h => ih h
    · exact wp_ok.2 hs

theorem wp_wr_any {a : Array Nat} {i x m : Nat} (ha : a.size = m) :
    Wp (fun _ => True) (wr a i x) (fun a' => a'.size = m) := by
  unfold wr
  split
  · exact wp_ok.2 (by simpa using ha)
  · exact wp_error.2 trivial

theorem power_table_size {a b : Array Nat} {n q x y : Nat} (h : build_power_table a n q x y = .ok b) :
    b.size = a.size := by
  have key : Wp (fun _ => True) (build_power_table a n q x y) (fun b => b.size = a.size) := by
    unfold build_power_table
    rw [wp_bind]
    refine (wp_cfor_any (fun st : Nat × Array Nat => st.2.size = a.size) ?_ rfl).mono
      fun st h => by rw [wp_pure]; exact h
    rintro i ⟨x, c⟩ hc
    simp only [wp_bind]
    exact (wp_wr_any hc).mono fun c' hc' => wp_any.mono fun z _ => by rw [wp_pure]; exact hc'
  rw [h, wp_ok] at key
  exact key

theorem build_table_size {a b : Array Nat} {n q x y : Nat} {ik : Option Nat}
    (h : build_table a n q x y ik = .ok b) : b.size = a.size := by
  have key : Wp (fun _ => True) (build_table a n q x y ik) (fun b => b.size = a.size) := by
    unfold build_table
    simp only [wp_bind]
    refine (wp_wr_any rfl).mono fun a1 h1 => ?_
    refine (wp_cfor_any (fun st : Nat × Array Nat => st.2.size = a.size) ?_ h1).mono
      fun st h => by rw [wp_pure]; exact h
    rintro t ⟨i, c⟩ hc
    simp only [wp_bind]
    refine wp_any.mono fun _ _ => wp_any.mono fun _ _ => wp_any.mono fun _ _ => wp_any.mono fun _ _ => ?_
    refine (wp_cfor_any (fun st : Nat × Nat × Array Nat => st.2.2.size = a.size) ?_ hc).mono
      fun st h => by rw [wp_pure]; exact h
    rintro j ⟨i, b, d⟩ hd
    simp only [wp_bind]
    exact wp_any.mono fun _ _ => (wp_wr_any hd).mono fun c' hc' => wp_any.mono fun z _ => by
      rw [wp_pure]; exact hc'
  rw [h, wp_ok] at key
  exact key

theorem build_rev_table_size {a b : Array Nat} {n q x y : Nat} {ik : Option Nat}
    (h : build_rev_table a n q x y ik = .ok b) : b.size = a.size := by
  have key : Wp (fun _ => True) (build_rev_table a n q x y ik) (fun b => b.size = a.size) := by
    unfold build_rev_table
    simp only [wp_bind]
    refine (wp_wr_any rfl).mono fun a1 h1 => ?_
    refine (wp_cfor_any (fun st : Nat × Array Nat => st.2.size = a.size) ?_ h1).mono
      fun st h => by rw [wp_pure]; exact h
    rintro t ⟨i, c⟩ hc
    simp only [wp_bind]
    refine wp_any.mono fun _ _ => wp_any.mono fun _ _ => wp_any.mono fun _ _ => wp_any.mono fun _ _ => ?_
    unfold buildRevInner forUp
    refine (wp_cfor_any (fun st : Nat × Array Nat => st.2.size = a.size) ?_ (by exact hc)).mono
      fun st h => by rw [wp_pure]; exact h
    rintro j ⟨b, d⟩ hd
    simp only [wp_bind]
    exact wp_any.mono fun _ _ => wp_any.mono fun _ _ => (wp_wr_any hd).mono fun c' hc' =>
      wp_any.mono fun z _ => by rw [wp_pure]; exact hc'
  rw [h, wp_ok] at key
  exact key

/-! ### make_tables -/

theorem bind_ok_inv {α β : Type} {x : M α} {f : α → M β} {b : β} (h : (x >>= f) = .ok b) :
    ∃ a, x = .ok a ∧ f a = .ok b := by
  cases x with
  | error e => cases h
  | ok a => exact ⟨a, rfl, h⟩

theorem stored_u16 (v : Int) : stored c!"uint16_t" v = some (v % 65536) := rfl

theorem stored_i16 (v : Int) : stored c!"int16_t" v = some (toI16 v) := rfl

/-- `print_table` writes the table. -/
theorem piece_print_table {name : Text} {a : Array Nat} {n : Nat} (hn : n < 4294967296) (ha : a.size = n)
    (hname : ∀ c ∈ name, wordChar c = true) :
    ∃ t, print_table name a n = .ok t ∧
      Piece t [.array c!"uint16_t" (c!"ntt" ++ decimal n ++ c!"_" ++ name) (.num n) (printU16 a).toList] := by
  obtain ⟨t, e, h⟩ := piece_table (pre := c!"const uint16_t ntt") (w := c!"ntt") (type := c!"uint16_t")
    (name := name) (n := n) (entry := fun i => do
      let x ← rd a i
      pure (pu32 x)) (v := fun i => ((a.getD i 0 : Nat) : Int)) hn (by decide +kernel) hname
    (fun i hi => by
      have : rd a i = .ok (a.getD i 0) := by
        unfold rd
        rw [Array.getElem?_eq_getElem (by omega)]
        simp [Array.getD, show i < a.size by omega]
      rw [this, pd32_nat]
      rfl) stored_u16
  refine ⟨t ++ c!"};\n\n", ?_, ?_⟩
  · unfold print_table
    dsimp only
    rw [e]
    rfl
  · have e2 : (printU16 a).toList = (List.range n).map (fun i => ((a.getD i 0 : Nat) : Int) % 65536) := by
      apply List.ext_getElem
      · simp [printU16, ha]
      · intro i h1 h2
        have hi : i < a.size := by simpa [printU16] using h1
        simp [printU16, Array.getD, hi]
    rw [e2]
    exact h

theorem print_tables_text {buf : Array Nat} {q n inv_n psi phi inv_psi inv_phi : Nat} {t : Nttables}
    (hn : n < 4294967296) (hb : buf.size = n)
    (h : Tables.print_tables buf q n inv_n psi phi inv_psi inv_phi = .ok t) :
    ∃ s, print_tables buf q n inv_n psi phi inv_psi inv_phi = .ok s ∧ Piece s (nttSource t) ∧ t.n = n ∧
      t.psi = psi ∧ t.omega = phi ∧ t.inv_psi = inv_psi ∧ t.inv_omega = inv_phi ∧ t.inv_n = inv_n := by
  unfold Tables.print_tables at h
  obtain ⟨t1, e1, h⟩ := bind_ok_inv h
  obtain ⟨t2, e2, h⟩ := bind_ok_inv h
  obtain ⟨t3, e3, h⟩ := bind_ok_inv h
  obtain ⟨t4, e4, h⟩ := bind_ok_inv h
  obtain ⟨t5, e5, h⟩ := bind_ok_inv h
  obtain ⟨t6, e6, h⟩ := bind_ok_inv h
  obtain ⟨t7, e7, h⟩ := bind_ok_inv h
  obtain ⟨t8, e8, h⟩ := bind_ok_inv h
  obtain ⟨t9, e9, h⟩ := bind_ok_inv h
  obtain ⟨t10, e10, h⟩ := bind_ok_inv h
  obtain ⟨t11, e11, h⟩ := bind_ok_inv h
  obtain ⟨t12, e12, h⟩ := bind_ok_inv h
  obtain rfl := Except.ok.inj h
  have s1 : t1.size = n := (power_table_size e1).trans hb
  have s2 : t2.size = n := (power_table_size e2).trans s1
  have s3 : t3.size = n := (build_rev_table_size e3).trans s2
  have s4 : t4.size = n := (power_table_size e4).trans s3
  have s5 : t5.size = n := (build_table_size e5).trans s4
  have s6 : t6.size = n := (build_rev_table_size e6).trans s5
  have s7 : t7.size = n := (build_table_size e7).trans s6
  have s8 : t8.size = n := (build_rev_table_size e8).trans s7
  have s9 : t9.size = n := (build_table_size e9).trans s8
  have s10 : t10.size = n := (build_rev_table_size e10).trans s9
  have s11 : t11.size = n := (build_table_size e11).trans s10
  have s12 : t12.size = n := (build_rev_table_size e12).trans s11
  obtain ⟨p1, f1, g1⟩ := piece_print_table (name := c!"psi_powers") hn s1 (by decide)
  obtain ⟨p2, f2, g2⟩ := piece_print_table (name := c!"inv_psi_powers") hn s2 (by decide)
  obtain ⟨p3, f3, g3⟩ := piece_print_table (name := c!"inv_psi_powers_rev") hn s3 (by decide)
  obtain ⟨p4, f4, g4⟩ := piece_print_table (name := c!"scaled_inv_psi_powers") hn s4 (by decide)
  obtain ⟨p5, f5, g5⟩ := piece_print_table (name := c!"omega_powers") hn s5 (by decide)
  obtain ⟨p6, f6, g6⟩ := piece_print_table (name := c!"omega_powers_rev") hn s6 (by decide)
  obtain ⟨p7, f7, g7⟩ := piece_print_table (name := c!"inv_omega_powers") hn s7 (by decide)
  obtain ⟨p8, f8, g8⟩ := piece_print_table (name := c!"inv_omega_powers_rev") hn s8 (by decide)
  obtain ⟨p9, f9, g9⟩ := piece_print_table (name := c!"mixed_powers") hn s9 (by decide)
  obtain ⟨p10, f10, g10⟩ := piece_print_table (name := c!"mixed_powers_rev") hn s10 (by decide)
  obtain ⟨p11, f11, g11⟩ := piece_print_table (name := c!"inv_mixed_powers") hn s11 (by decide)
  obtain ⟨p12, f12, g12⟩ := piece_print_table (name := c!"inv_mixed_powers_rev") hn s12 (by decide)
  have g0 := piece_header (q := q) (n := n) (psi := psi) (phi := phi) (inv_psi := inv_psi)
    (inv_phi := inv_phi) (inv_n := inv_n)
  have g0' := piece_directive_n (w1 := c!"include \"ntt") (w2 := c!"_tables.h\"") (cs := c!"\n") (n := n)
    (by decide) (by decide) (by decide +kernel)
  refine ⟨_, ?_, (((((((((((((g0.append g0').append g1).append g2).append g3).append g4).append g5).append g6).append g7).append g8).append g9).append g10).append g11).append g12),
    rfl, rfl, rfl, rfl, rfl, rfl⟩
  unfold print_tables
  simp only [e1, f1, e2, f2, e3, f3, e4, f4, e5, f5, e6, f6, e7, f7, e8, f8, e9, f9, e10, f10, e11, f11, e12, f12, bind, Except.bind, pure, Except.pure]
  simp only [List.append_assoc, List.cons_append, List.nil_append]

theorem piece_ntt_param {name : Text} {n v : Nat} (hname : ∀ c ∈ name, wordChar c = true) (hv : v < 12289) :
    Piece (print_param_def name n v) [.param c!"int32_t" (c!"ntt" ++ decimal n ++ c!"_" ++ name) v] :=
  piece_param (by decide +kernel) hname (by omega)

theorem piece_ntt_decl {name : Text} {n : Nat} (hname : ∀ c ∈ name, wordChar c = true) :
    Piece (print_table_decl name n) [.extern c!"uint16_t" (c!"ntt" ++ decimal n ++ c!"_" ++ name) [.num n]] :=
  piece_decl (by decide +kernel) hname

theorem piece_red_param {name : Text} {n v : Nat} (hname : ∀ c ∈ name, wordChar c = true) (hv : v < 12289) :
    Piece (print_red_param_def name n v) [.param c!"int32_t" (c!"ntt_red" ++ decimal n ++ c!"_" ++ name) v] :=
  piece_param (by decide +kernel) hname (by omega)

theorem piece_red_decl {name : Text} {n : Nat} (hname : ∀ c ∈ name, wordChar c = true) :
    Piece (print_red_table_decl name n) [.extern c!"int16_t" (c!"ntt_red" ++ decimal n ++ c!"_" ++ name) [.num n]] :=
  piece_decl (by decide +kernel) hname

theorem piece_ifndef {w : Text} {n : Nat} (hw : ∀ c ∈ w, c ≠ '\n') {w2 cs : Text} (hw2 : ∀ c ∈ w2, c ≠ '\n')
    (hcs : Lexes (.ready true) cs (.ready true) []) :
    Piece (('#' :: w) ++ pu32 n ++ (w2 ++ '\n' :: cs)) [.directive (w ++ decimal n ++ w2)] := by
  have h := piece_directive_n (n := n) hw hw2 hcs
  simpa [List.append_assoc] using h

theorem cast_piece {s s' : Text} {is is' : List Item} (h : Piece s is) (es : s = s') (ei : is = is') :
    Piece s' is' := es ▸ ei ▸ h

theorem piece_declarations {q : Nat} {t : Nttables} (h_psi : t.psi < 12289)
    (h_omega : t.omega < 12289)
    (h_inv_psi : t.inv_psi < 12289)
    (h_inv_omega : t.inv_omega < 12289)
    (h_inv_n : t.inv_n < 12289) :
    Piece (print_declarations q t.n t.psi t.omega t.inv_psi t.inv_omega t.inv_n) (nttHeader t) := by
  have g0 := piece_header (q := q) (n := t.n) (psi := t.psi) (phi := t.omega) (inv_psi := t.inv_psi)
    (inv_phi := t.inv_omega) (inv_n := t.inv_n)
  have g1 := piece_ifndef (n := t.n) (w := c!"ifndef __NTT") (w2 := c!"_TABLES_H") (cs := []) (by decide) (by decide)
    Lexes.nil
  have g2 := piece_ifndef (n := t.n) (w := c!"define __NTT") (w2 := c!"_TABLES_H") (cs := c!"\n") (by decide) (by decide)
    (by decide +kernel)
  have g3 := piece_directive (l := c!"include <stdint.h>") (cs := c!"\n") (by decide) (by decide +kernel)
  have g4 := piece_comment (what := c!"PARAMETERS") (by decide)
  have g5 := piece_ntt_param (n := t.n) (name := c!"psi") (by decide) h_psi
  have g6 := piece_ntt_param (n := t.n) (name := c!"omega") (by decide) h_omega
  have g7 := piece_ntt_param (n := t.n) (name := c!"inv_psi") (by decide) h_inv_psi
  have g8 := piece_ntt_param (n := t.n) (name := c!"inv_omega") (by decide) h_inv_omega
  have g9 := piece_ntt_param (n := t.n) (name := c!"inv_n") (by decide) h_inv_n
  have g10 := piece_blank (t := c!"\n") (by decide +kernel)
  have g11 := piece_comment (what := c!"POWERS OF PSI") (by decide)
  have g12 := piece_ntt_decl (n := t.n) (name := c!"psi_powers") (by decide)
  have g13 := piece_ntt_decl (n := t.n) (name := c!"inv_psi_powers") (by decide)
  have g14 := piece_ntt_decl (n := t.n) (name := c!"scaled_inv_psi_powers") (by decide)
  have g15 := piece_blank (t := c!"\n") (by decide +kernel)
  have g16 := piece_comment (what := c!"TABLES FOR NTT COMPUTATION") (by decide)
  have g17 := piece_ntt_decl (n := t.n) (name := c!"omega_powers") (by decide)
  have g18 := piece_ntt_decl (n := t.n) (name := c!"omega_powers_rev") (by decide)
  have g19 := piece_ntt_decl (n := t.n) (name := c!"inv_omega_powers") (by decide)
  have g20 := piece_ntt_decl (n := t.n) (name := c!"inv_omega_powers_rev") (by decide)
  have g21 := piece_ntt_decl (n := t.n) (name := c!"mixed_powers") (by decide)
  have g22 := piece_ntt_decl (n := t.n) (name := c!"mixed_powers_rev") (by decide)
  have g23 := piece_ntt_decl (n := t.n) (name := c!"inv_mixed_powers") (by decide)
  have g24 := piece_ntt_decl (n := t.n) (name := c!"inv_mixed_powers_rev") (by decide)
  have g25 := piece_blank (t := c!"\n") (by decide +kernel)
  have g26 := piece_ifndef (n := t.n) (w := c!"endif /* __NTT") (w2 := c!"_TABLES_H */") (cs := []) (by decide) (by decide)
    Lexes.nil
  have g := (((((((((((((((((((((((((g0.append g1).append g2).append g3).append g4).append g5).append g6).append g7).append g8).append g9).append g10).append g11).append g12).append g13).append g14).append g15).append g16).append g17).append g18).append g19).append g20).append g21).append g22).append g23).append g24).append g25).append g26
  have e2 : ∃ s, print_declarations q t.n t.psi t.omega t.inv_psi t.inv_omega t.inv_n = s ∧ Piece s (nttHeader t) := by
    refine ⟨_, ?_, cast_piece g rfl (by simp only [nttHeader, List.cons_append, List.nil_append, List.append_nil, List.append_assoc])⟩
    unfold print_declarations
    simp only [List.cons_append, List.nil_append, List.append_assoc]
  obtain ⟨s, e, h⟩ := e2
  rw [e]
  exact h

theorem piece_red_declarations {q k : Nat} {t : RedTables} (h_psi : t.psi < 12289)
    (h_omega : t.omega < 12289)
    (h_inv_psi : t.inv_psi < 12289)
    (h_inv_omega : t.inv_omega < 12289)
    (h_inv_n : t.inv_n < 12289)
    (h_inv_k : t.inv_k < 12289)
    (h_rescale8 : t.rescale8 < 12289)
    (h_rescale6 : t.rescale6 < 12289)
    (e8 : rescale_factor 8 t.inv_n t.inv_k q = .ok t.rescale8)
    (e6 : rescale_factor 6 t.inv_n t.inv_k q = .ok t.rescale6) :
    ∃ s, print_red_declarations q k t.n t.psi t.omega t.inv_psi t.inv_omega t.inv_n t.inv_k = .ok s ∧
      Piece s (redHeader t) := by
  have g0 := piece_red_header (q := q) (k := k) (n := t.n) (psi := t.psi) (phi := t.omega) (inv_psi := t.inv_psi)
    (inv_phi := t.inv_omega) (inv_n := t.inv_n) (inv_k := t.inv_k)
  have g1 := piece_ifndef (n := t.n) (w := c!"ifndef __NTT_RED") (w2 := c!"_TABLES_H") (cs := []) (by decide) (by decide)
    Lexes.nil
  have g2 := piece_ifndef (n := t.n) (w := c!"define __NTT_RED") (w2 := c!"_TABLES_H") (cs := c!"\n") (by decide) (by decide)
    (by decide +kernel)
  have g3 := piece_directive (l := c!"include <stdint.h>") (cs := c!"\n") (by decide) (by decide +kernel)
  have g4 := piece_comment (what := c!"PARAMETERS") (by decide)
  have g5 := piece_red_param (n := t.n) (name := c!"psi") (by decide) h_psi
  have g6 := piece_red_param (n := t.n) (name := c!"omega") (by decide) h_omega
  have g7 := piece_red_param (n := t.n) (name := c!"inv_psi") (by decide) h_inv_psi
  have g8 := piece_red_param (n := t.n) (name := c!"inv_omega") (by decide) h_inv_omega
  have g9 := piece_red_param (n := t.n) (name := c!"inv_n") (by decide) h_inv_n
  have g10 := piece_red_param (n := t.n) (name := c!"inv_k") (by decide) h_inv_k
  have g11 := piece_red_param (n := t.n) (name := c!"rescale8") (by decide) h_rescale8
  have g12 := piece_red_param (n := t.n) (name := c!"rescale6") (by decide) h_rescale6
  have g13 := piece_blank (t := c!"\n") (by decide +kernel)
  have g14 := piece_comment (what := c!"POWERS OF PSI") (by decide)
  have g15 := piece_red_decl (n := t.n) (name := c!"psi_powers") (by decide)
  have g16 := piece_red_decl (n := t.n) (name := c!"inv_psi_powers") (by decide)
  have g17 := piece_red_decl (n := t.n) (name := c!"scaled_inv_psi_powers") (by decide)
  have g18 := piece_red_decl (n := t.n) (name := c!"scaled_inv_psi_powers_var") (by decide)
  have g19 := piece_blank (t := c!"\n") (by decide +kernel)
  have g20 := piece_comment (what := c!"TABLES FOR NTT COMPUTATION") (by decide)
  have g21 := piece_red_decl (n := t.n) (name := c!"omega_powers") (by decide)
  have g22 := piece_red_decl (n := t.n) (name := c!"omega_powers_rev") (by decide)
  have g23 := piece_red_decl (n := t.n) (name := c!"inv_omega_powers") (by decide)
  have g24 := piece_red_decl (n := t.n) (name := c!"inv_omega_powers_rev") (by decide)
  have g25 := piece_red_decl (n := t.n) (name := c!"mixed_powers") (by decide)
  have g26 := piece_red_decl (n := t.n) (name := c!"mixed_powers_rev") (by decide)
  have g27 := piece_red_decl (n := t.n) (name := c!"inv_mixed_powers") (by decide)
  have g28 := piece_red_decl (n := t.n) (name := c!"inv_mixed_powers_rev") (by decide)
  have g29 := piece_blank (t := c!"\n") (by decide +kernel)
  have g30 := piece_ifndef (n := t.n) (w := c!"endif /* __NTT_RED") (w2 := c!"_TABLES_H */") (cs := []) (by decide) (by decide)
    Lexes.nil
  have g := (((((((((((((((((((((((((((((g0.append g1).append g2).append g3).append g4).append g5).append g6).append g7).append g8).append g9).append g10).append g11).append g12).append g13).append g14).append g15).append g16).append g17).append g18).append g19).append g20).append g21).append g22).append g23).append g24).append g25).append g26).append g27).append g28).append g29).append g30
  refine ⟨_, ?_, cast_piece g rfl (by simp only [redHeader, List.cons_append, List.nil_append, List.append_nil, List.append_assoc])⟩
  unfold print_red_declarations
  rw [e8, e6]
  simp only [bind, Except.bind, pure, Except.pure, List.cons_append, List.nil_append, List.append_nil, List.append_assoc]

/-- The entries written by `printI16` are the conversions to int16_t of values that reading and shifting
gives. -/
theorem printI16_entries {a : Array Nat} {n q : Nat} {p : Array Int} (hn : n < 4294967296)
    (e : printI16 a n q = .ok p) :
    p.size = n ∧ ∀ i, i < n → ∃ y, (do let x ← rd a i; shift x q) = .ok y ∧ p[i]? = some (toI16 y) := by
  have key : Wp (fun _ => True) (printI16 a n q) (fun p => p.size = n ∧ ∀ i, i < n → ∃ y,
      (do let x ← rd a i; shift x q) = .ok y ∧ p[i]? = some (toI16 y)) := by
    unfold printI16
    refine wp_forUp1 (fun i (p : Array Int) => p.size = i ∧ ∀ j, j < i → ∃ y,
      (do let x ← rd a j; shift x q) = .ok y ∧ p[j]? = some (toI16 y)) hn (Nat.zero_le _)
      ⟨rfl, fun j hj => absurd hj (Nat.not_lt_zero _)⟩ ?_ (fun p h => h)
    intro i r _ hi hI
    obtain ⟨h1, h2⟩ := hI
    cases hx : rd a i with
    | error er => rw [wp_bind]; exact wp_error.2 trivial
    | ok x =>
      rw [wp_bind, wp_ok, wp_bind]
      cases hy : shift x q with
      | error er => exact wp_error.2 trivial
      | ok y =>
        rw [wp_ok, wp_pure]
        refine ⟨by simp [h1], fun j hj => ?_⟩
        rcases Nat.lt_or_ge j i with h | h
        · obtain ⟨y', e1, e2⟩ := h2 j h
          exact ⟨y', e1, by rw [Array.getElem?_push_lt (by omega)]; rw [Array.getElem?_eq_getElem (by omega)] at e2; exact e2⟩
        · obtain rfl : j = i := by omega
          exact ⟨y, by simp [bind, Except.bind, hx, hy], by rw [← h1]; simp⟩
  rw [e] at key
  simpa only [wp_ok] using key

theorem piece_print_red_table {name : Text} {a : Array Nat} {n q : Nat} {p : Array Int} (hn : n < 4294967296)
    (e : printI16 a n q = .ok p) (hname : ∀ c ∈ name, wordChar c = true) :
    ∃ t, print_red_table name a n q = .ok t ∧
      Piece t [.array c!"int16_t" (c!"ntt_red" ++ decimal n ++ c!"_" ++ name) (.num n) p.toList] := by
  obtain ⟨hp, hy⟩ := printI16_entries hn e
  let v : Nat → Int := fun i => match (do let x ← rd a i; shift x q : M Int) with
    | .ok y => y
    | .error _ => 0
  obtain ⟨t, e, h⟩ := piece_table (pre := c!"const int16_t ntt_red") (w := c!"ntt_red") (type := c!"int16_t")
    (name := name) (n := n) (entry := fun i => do
      let x ← rd a i
      let y ← shift x q
      pure (pd32 y)) (v := v) hn (by decide +kernel) hname
    (fun i hi => by
      obtain ⟨y, h1, _⟩ := hy i hi
      have hv : v i = y := by
        show (match (do let x ← rd a i; shift x q : M Int) with
          | .ok y => y
          | .error _ => 0) = y
        rw [h1]
      rw [hv]
      cases hx : rd a i with
      | error er => simp [bind, Except.bind, hx] at h1
      | ok x =>
        simp only [bind, Except.bind, hx] at h1
        simp only [bind, Except.bind, h1, pure, Except.pure]) stored_i16
  refine ⟨t ++ c!"};\n\n", ?_, ?_⟩
  · unfold print_red_table
    dsimp only
    rw [e]
    rfl
  · have e2 : p.toList = (List.range n).map (fun i => toI16 (v i)) := by
      apply List.ext_getElem
      · simp [hp]
      · intro i h1 h2
        have hi : i < n := by simpa [hp] using h1
        obtain ⟨y, g1, g2⟩ := hy i hi
        have hv : v i = y := by
          show (match (do let x ← rd a i; shift x q : M Int) with
            | .ok y => y
            | .error _ => 0) = y
          rw [g1]
        rw [Array.getElem?_eq_getElem (by omega)] at g2
        simp only [List.getElem_map, List.getElem_range, hv, Array.getElem_toList]
        exact Option.some.inj g2
    rw [e2]
    exact h

end TableFiles
