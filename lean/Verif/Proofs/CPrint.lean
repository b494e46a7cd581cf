import Verif.Proofs.CGenTabRed
import Verif.Proofs.CGenRed
import Verif.Proofs.TableFilesMain
import Verif.SpecSourcePrint

/-
Execution of functions that print.
-/

namespace CLang
open C Spec Spec.CText TableFiles

/-! ### Texts -/

theorem codes_append (s t : Text) : codes (s ++ t) = codes s ++ codes t := by simp [codes]

theorem file_append (s t : Text) : (⟨(file s).ty, (file s).data ++ (codes t).toArray⟩ : Obj) = file (s ++ t) := by
  simp [file, codes_append]

theorem digits_eq (n : Nat) : digits n = codes (pu32 n) := rfl

theorem pad_eq (t : Text) : padTo 5 (codes t) = codes (pad5 t) := by
  unfold pad5 padTo
  rw [codes_append]
  congr 1
  · simp [codes]

theorem pad_zero (t : List Int) : padTo 0 t = t := by simp [padTo]

theorem cstring_eq {s : Text} (h : ∀ c ∈ s, c.toNat ≠ 0) : cstring (codes s ++ [0]) = .ok (codes s) := by
  induction s with
  | nil => rfl
  | cons c s ih =>
    have h1 := h c (by simp)
    show cstring ((c.toNat : Int) :: (codes s ++ [0])) = .ok ((c.toNat : Int) :: codes s)
    rw [cstring, if_neg (by omega), ih fun d hd => h d (by simp [hd])]
    rfl

/-- The format and the arguments make the text `s`. -/
def Fm (mem : Nat → Obj) (fmt : List Fmt) (vs : List Val) (s : Text) : Prop := format mem fmt vs = .ok (codes s)

variable {mem : Nat → Obj} {fs : List Fmt} {vs : List Val} {r : Text}

theorem Fm.nil : Fm mem [] [] [] := rfl

theorem Fm.lit {t : Nat} (s : Text) (h : bytes (Nat.log2 t + 1) t = codes s) (hr : Fm mem fs vs r) : Fm mem (.lit t :: fs) vs (s ++ r) := by
  unfold Fm at hr ⊢
  rw [format, hr, h, codes_append]
  rfl

theorem Fm.u {n : Nat} (hr : Fm mem fs vs r) : Fm mem (.u 0 :: fs) (.int .u32 (n : Int) :: vs) (pu32 n ++ r) := by
  unfold Fm at hr ⊢
  rw [format, hr, codes_append, ok_bind, pad_zero, Int.toNat_natCast, digits_eq]

theorem Fm.u5 {n : Nat} (hr : Fm mem fs vs r) : Fm mem (.u 5 :: fs) (.int .u32 (n : Int) :: vs) (pad5 (pu32 n) ++ r) := by
  unfold Fm at hr ⊢
  rw [format, hr, codes_append, ok_bind, Int.toNat_natCast, digits_eq, pad_eq]

theorem Fm.d5 {v : Int} (hr : Fm mem fs vs r) : Fm mem (.d 5 :: fs) (.int .i32 v :: vs) (pad5 (pd32 v) ++ r) := by
  unfold Fm at hr ⊢
  rw [format, hr, codes_append, ok_bind, ← pad_eq]
  unfold pd32
  split <;> rfl

theorem Fm.s {o : Nat} {s : Text} (ho : mem o = str s) (h : ∀ c ∈ s, c.toNat ≠ 0) (hr : Fm mem fs vs r) :
    Fm mem (.s :: fs) (.ptr o 0 1 :: vs) (s ++ r) := by
  unfold Fm at hr ⊢
  rw [format, ho]
  show (cstring (List.drop 0 (codes s ++ [0])) >>= _) = _
  rw [List.drop_zero, cstring_eq h, ok_bind, hr, ok_bind, codes_append]

/-! ### Statements -/

variable {P : Prog} {G : Name → Option Cell}

/-- From a call from outside to a call in an expression. -/
theorem Returns.ev {g : Name} {args : Expr} {st : State} {fn : Fun} {vs : List Val} {v : Val} {mem' : Nat → Obj} (hr : Returns P G g vs st.mem v mem')
    (ha : EvA P G args st vs) (hg : P.lookup g = some fn) (hp : fn.body.pure = true) : Ev P G (.call g args) st v := by
  obtain ⟨N, hN⟩ := ha
  obtain ⟨N', hN'⟩ := hr
  refine ⟨max N N' + 1, fun f hf => ?_⟩
  obtain ⟨k, rfl⟩ := Nat.exists_eq_add_of_le' (show 1 ≤ f by omega)
  have h := hN' k (by omega)
  unfold callValue at h
  rw [hg] at h
  simp only [bind_ok] at h
  obtain ⟨env, h1, r, h2, w, h3, h4⟩ := h
  cases h4
  rw [eval, hN k (by omega), ok_bind, hg]
  simp only [hp, if_true, h1, h2, h3, ok_bind]

/-- A global constant. -/
theorem Ev.literal {l : List (Name × Cell)} {x : Name} {c : Cell} {v : Val} (hx : look l x = none) (h : G x = some c) (hc : cellVal (some c) = .ok v) :
    Ev P G (.var x) (E l mem) v := by
  refine Ev.mk 1 fun f => ?_
  show cellVal ((look l x).or (G x)) = _
  rw [hx, h]
  exact hc

/-- The statement writes the text `s` into the file `f`; it does not change the variables `l` and the rest of the memory. -/
def Ap (P : Prog) (G : Name → Option Cell) (mem : Nat → Obj) (f : Nat) (l : List (Name × Cell)) (a : Stmt) (s : Text) : Prop :=
  ∀ t, Ex P G a (E l (setMem mem f (file t))) (E l (setMem mem f (file (t ++ s))))

/-- The same for a call. -/
def Pr (P : Prog) (G : Name → Option Cell) (mem : Nat → Obj) (f : Nat) (g : Name) (vs : List Val) (s : Text) : Prop :=
  ∀ t, Calls P G g vs (setMem mem f (file t)) (setMem mem f (file (t ++ s)))

variable {f : Nat} {l : List (Name × Cell)}

theorem Ap.skip : Ap P G mem f l .skip [] := fun t => by
  rw [List.append_nil]
  exact Ex.skip _

theorem Ap.seq {a b : Stmt} {s s' : Text} (ha : Ap P G mem f l a s) (hb : Ap P G mem f l b s') : Ap P G mem f l (.seq a b) (s ++ s') := fun t => by
  rw [← List.append_assoc]
  exact Ex.seq (ha t) (hb _)

theorem Ap.eq {a : Stmt} {s s' : Text} (ha : Ap P G mem f l a s) (h : s = s') : Ap P G mem f l a s' := h ▸ ha

/-- `fprintf` -/
theorem Ap.print {x : Name} {fmt : List Fmt} {args : Expr} {s : Text} (hx : look l x = some (.ptr f 0 1))
    (h : ∀ t, ∃ vs, EvA P G args (E l (setMem mem f (file t))) vs ∧ Fm (setMem mem f (file t)) fmt vs s) :
    Ap P G mem f l (.print (.var x) fmt args) s := fun t => by
  obtain ⟨vs, ⟨N, hN⟩, hf⟩ := h t
  obtain ⟨N', hN'⟩ := Ev.v (P := P) (G := G) (mem := setMem mem f (file t)) hx (cellVal_ptr f 0 1)
  refine ⟨max N N' + 1, fun k hk => ?_⟩
  obtain ⟨g, rfl⟩ := Nat.exists_eq_add_of_le' (show 1 ≤ k by omega)
  unfold Fm at hf
  rw [exec, hN' g (by omega), ok_bind, hN g (by omega), ok_bind]
  show (format (setMem mem f (file t)) fmt vs >>= _) = _
  rw [hf, ok_bind]
  show Except.ok (none, (⟨look l, setMem (setMem mem f (file t)) f ⟨(setMem mem f (file t) f).ty, (setMem mem f (file t) f).data ++ (codes s).toArray⟩⟩ : State)) = _
  rw [setMem_self, setMem_setMem, file_append]

/-- `fprintf` of a text. -/
theorem Ap.lit {x : Name} {n : Nat} (s : Text) (hx : look l x = some (.ptr f 0 1)) (h : bytes (Nat.log2 n + 1) n = codes s) :
    Ap P G mem f l (.print (.var x) [.lit n] .nil) s :=
  Ap.print hx fun t => ⟨[], EvA.nil _, by simpa using Fm.lit s h (Fm.nil (mem := setMem mem f (file t)))⟩

/-- A call. -/
theorem Ap.call {g : Name} {args : Expr} {vs : List Val} {s : Text} (h : Pr P G mem f g vs s)
    (ha : ∀ t, EvA P G args (E l (setMem mem f (file t))) vs) : Ap P G mem f l (.expr (.call g args)) s := fun t =>
  Ex.call (ha t) (h t)

theorem Ap.pr {g : Name} {vs : List Val} {s : Text} {fn : Fun} (hg : P.lookup g = some fn) (hb : bindParams fn.params vs = .ok (look l))
    (h : Ap P G mem f l fn.body s) : Pr P G mem f g vs s := fun t =>
  Calls.mk (st' := E l (setMem mem f (file (t ++ s)))) hg hb (h t)

theorem Pr.prints {g : Name} {vs : List Val} {s : Text} (h : Pr P G mem f g (.ptr f 0 1 :: vs) s) : Prints P G mem f g vs s := fun t ht => by
  have := h t
  rwa [setMem_eq mem f ht] at this

theorem Literals.get {s : Text} (h : Literals G mem f) (n : Name) (hs : Plain s) (hn : nameOf ('"' :: s) = n) :
    ∃ o, o ≠ f ∧ G n = some (.ptr o 0 1) ∧ mem o = str s := hn ▸ h s hs

theorem Plain.ne {s : Text} (h : Plain s) : ∀ c ∈ s, c.toNat ≠ 0 := fun c hc => by have := (h c hc).1; omega

theorem plain_word {s : Text} (h : ∀ c ∈ s, wordChar c = true) : ∀ c ∈ s, c.toNat ≠ 0 := fun c hc h0 => by
  have h1 := h c hc
  have h2 : c = Char.ofNat 0 := by rw [← Char.ofNat_toNat c, h0]
  rw [h2] at h1
  revert h1
  decide

/-- An element of an array of numbers. -/
theorem Ev.natAt {e i : Expr} {st : State} {o : Nat} {a : Array Nat} {t : Ty} {k v : Nat} (he : Ev P G e st (.ptr o 0 1))
    (hi : Ev P G i st (.int t (k : Nat))) (hm : st.mem o = nats .u32 a) (h : rd a k = .ok v) : Ev P G (.idx e i) st (.int .u32 (v : Nat)) := by
  refine Ev.idx he hi ?_
  rw [load_nat, hm]
  show (rd (a.map fun x : Nat => (x : Int)) k >>= fun v => Except.ok (Val.int .u32 v)) = _
  rw [rd_nats h, ok_bind]

theorem Ev.num {st : State} {n : Nat} (h : n ≤ 2147483647) : Ev P G (.num n) st (.int .i32 (n : Nat)) := by
  refine Ev.mk 1 fun f => ?_
  rw [eval, if_pos h]

end CLang
