import Verif.SpecSourceBounds
import Verif.Proofs.CRun

/-
Programs compiled with `-DNDEBUG`: what returns with assertions returns the same without.
-/

namespace CLang
open C

theorem Stmt.pure_release (s : Stmt) : s.release.pure = s.pure := by
  induction s <;> simp_all [Stmt.release, Stmt.pure]

theorem Stmt.addr_release (s : Stmt) : s.release.addr = s.addr := by
  induction s <;> simp_all [Stmt.release, Stmt.addr]

theorem lookup_release (P : Prog) (g : Name) : (release P).lookup g = (P.lookup g).map fun fn => { fn with body := fn.body.release } := by
  unfold release
  induction P with
  | nil => rfl
  | cons h P ih =>
    obtain ⟨x, fn⟩ := h
    simp only [List.map_cons, List.lookup_cons]
    cases g == x <;> simp [ih]

theorem withStack_release (fn : Fun) (sp : Nat) (env : Name → Option Cell) :
    withStack { fn with body := fn.body.release } sp env = withStack fn sp env := by
  simp [withStack, Stmt.addr_release]

theorem release_ok (P : Prog) (G : Name → Option Cell) : ∀ f,
    (∀ e st v, eval P G f e st = .ok v → eval (release P) G f e st = .ok v) ∧
    (∀ es st vs, evalArgs P G f es st = .ok vs → evalArgs (release P) G f es st = .ok vs) ∧
    ∀ s st r, exec P G f s st = .ok r → exec (release P) G f s.release st = .ok r := by
  intro f
  induction f with
  | zero => exact ⟨fun e st v h => by simp [eval] at h, fun e st v h => by simp [evalArgs] at h, fun e st v h => by simp [exec] at h⟩
  | succ f ih =>
    obtain ⟨ie, ia, ix⟩ := ih
    refine ⟨fun e st v h => ?_, fun es st vs h => ?_, fun s st r h => ?_⟩
    · cases e with
      | num n => simpa only [eval] using h
      | var x => simpa only [eval] using h
      | nil => simp [eval] at h
      | cons e es => simp [eval] at h
      | idx a i =>
        rw [eval, bind_ok] at h
        obtain ⟨p, h1, h⟩ := h
        rw [bind_ok] at h
        obtain ⟨k, h2, h⟩ := h
        rw [eval, ie _ _ _ h1, ok_bind, ie _ _ _ h2, ok_bind, h]
      | neg e =>
        rw [eval, bind_ok] at h
        obtain ⟨p, h1, h⟩ := h
        rw [eval, ie _ _ _ h1, ok_bind, h]
      | not e =>
        rw [eval, bind_ok] at h
        obtain ⟨p, h1, h⟩ := h
        rw [eval, ie _ _ _ h1, ok_bind, h]
      | bin o a b =>
        rw [eval, bind_ok] at h
        obtain ⟨p, h1, h⟩ := h
        rw [bind_ok] at h
        obtain ⟨k, h2, h⟩ := h
        rw [eval, ie _ _ _ h1, ok_bind, ie _ _ _ h2, ok_bind, h]
      | land a b =>
        rw [eval, bind_ok] at h
        obtain ⟨p, h1, h⟩ := h
        rw [bind_ok] at h
        obtain ⟨c, h2, h⟩ := h
        rw [eval, ie _ _ _ h1, ok_bind, h2, ok_bind]
        cases c with
        | false => exact h
        | true =>
          rw [if_pos rfl] at h ⊢
          rw [bind_ok] at h
          obtain ⟨q, h3, h⟩ := h
          rw [ie _ _ _ h3, ok_bind, h]
      | lor a b =>
        rw [eval, bind_ok] at h
        obtain ⟨p, h1, h⟩ := h
        rw [bind_ok] at h
        obtain ⟨c, h2, h⟩ := h
        rw [eval, ie _ _ _ h1, ok_bind, h2, ok_bind]
        cases c with
        | true => exact h
        | false =>
          rw [if_neg (by simp)] at h ⊢
          rw [bind_ok] at h
          obtain ⟨q, h3, h⟩ := h
          rw [ie _ _ _ h3, ok_bind, h]
      | cast t e =>
        rw [eval, bind_ok] at h
        obtain ⟨p, h1, h⟩ := h
        rw [eval, ie _ _ _ h1, ok_bind]
        exact h
      | cond c a b =>
        rw [eval, bind_ok] at h
        obtain ⟨p, h1, h⟩ := h
        rw [bind_ok] at h
        obtain ⟨t, h2, h⟩ := h
        rw [eval, ie _ _ _ h1, ok_bind, h2, ok_bind]
        cases t with
        | true => exact ie _ _ _ h
        | false => exact ie _ _ _ h
      | call g args =>
        rw [eval, bind_ok] at h
        obtain ⟨vs, h1, h⟩ := h
        rw [eval, ia _ _ _ h1, ok_bind, lookup_release]
        cases hg : P.lookup g with
        | none => rw [hg] at h; simp at h
        | some fn =>
          rw [hg] at h
          simp only [Option.map_some] at h ⊢
          rw [Stmt.pure_release]
          split at h
          · next hp =>
            rw [if_pos hp]
            rw [bind_ok] at h
            obtain ⟨env, h2, h⟩ := h
            rw [bind_ok] at h
            obtain ⟨r, h3, h⟩ := h
            rw [h2, ok_bind, ix _ _ _ h3, ok_bind, h]
          · simp at h
    · cases es with
      | nil => simpa only [evalArgs] using h
      | cons e es =>
        rw [evalArgs, bind_ok] at h
        obtain ⟨v, h1, h⟩ := h
        rw [bind_ok] at h
        obtain ⟨ws, h2, h⟩ := h
        rw [evalArgs, ie _ _ _ h1, ok_bind, ia _ _ _ h2, ok_bind, h]
      | _ => simp [evalArgs] at h
    · cases s with
      | skip => simpa only [exec, Stmt.release] using h
      | decl t x => simpa only [exec, Stmt.release] using h
      | brk => simpa only [exec, Stmt.release] using h
      | seq a b =>
        rw [exec, bind_ok] at h
        obtain ⟨⟨o, st'⟩, h1, h⟩ := h
        rw [Stmt.release, exec, ix _ _ _ h1, ok_bind]
        cases o with
        | none => exact ix _ _ _ h
        | some v => exact h
      | assign x e =>
        rw [exec, bind_ok] at h
        obtain ⟨v, h1, h⟩ := h
        show exec _ _ _ (.assign x e) _ = _
        rw [exec, ie _ _ _ h1, ok_bind, h]
      | store a i e =>
        rw [exec, bind_ok] at h
        obtain ⟨p, h1, h⟩ := h
        rw [bind_ok] at h
        obtain ⟨k, h2, h⟩ := h
        rw [bind_ok] at h
        obtain ⟨v, h3, h⟩ := h
        show exec _ _ _ (.store a i e) _ = _
        rw [exec, ie _ _ _ h1, ok_bind, ie _ _ _ h2, ok_bind, ie _ _ _ h3, ok_bind, h]
      | ite c a b =>
        rw [exec, bind_ok] at h
        obtain ⟨p, h1, h⟩ := h
        rw [bind_ok] at h
        obtain ⟨t, h2, h⟩ := h
        rw [Stmt.release, exec, ie _ _ _ h1, ok_bind, h2, ok_bind]
        cases t with
        | true => exact ix _ _ _ h
        | false => exact ix _ _ _ h
      | «while» c s =>
        rw [exec, bind_ok] at h
        obtain ⟨p, h1, h⟩ := h
        rw [bind_ok] at h
        obtain ⟨t, h2, h⟩ := h
        rw [Stmt.release, exec, ie _ _ _ h1, ok_bind, h2, ok_bind]
        cases t with
        | false => exact h
        | true =>
          rw [if_pos rfl] at h ⊢
          rw [bind_ok] at h
          obtain ⟨⟨o, st'⟩, h3, h⟩ := h
          rw [ix _ _ _ h3, ok_bind]
          cases o with
          | none => exact ix (.while c s) _ _ h
          | some v => cases v <;> exact h
      | doWhile s c =>
        rw [exec, bind_ok] at h
        obtain ⟨⟨o, st'⟩, h3, h⟩ := h
        rw [Stmt.release, exec, ix _ _ _ h3, ok_bind]
        cases o with
        | none =>
          simp only at h ⊢
          rw [bind_ok] at h
          obtain ⟨p, h1, h⟩ := h
          rw [bind_ok] at h
          obtain ⟨t, h2, h⟩ := h
          rw [ie _ _ _ h1, ok_bind, h2, ok_bind]
          cases t with
          | true => exact ix (.doWhile s c) _ _ h
          | false => exact h
        | some v => cases v <;> exact h
      | ret e =>
        rw [exec, bind_ok] at h
        obtain ⟨v, h1, h⟩ := h
        show exec _ _ _ (.ret e) _ = _
        rw [exec, ie _ _ _ h1, ok_bind, h]
      | expr e =>
        cases e with
        | call g args =>
          rw [exec, bind_ok] at h
          obtain ⟨vs, h1, h⟩ := h
          show exec _ _ _ (.expr (.call g args)) _ = _
          rw [exec, ia _ _ _ h1, ok_bind, lookup_release]
          cases hg : P.lookup g with
          | none => rw [hg] at h; simp at h
          | some fn =>
            rw [hg] at h
            simp only [Option.map_some] at h ⊢
            rw [bind_ok] at h
            obtain ⟨env, h2, h⟩ := h
            rw [bind_ok] at h
            obtain ⟨r, h3, h⟩ := h
            rw [h2, ok_bind, ix _ _ _ h3, ok_bind, h]
        | _ => simp [exec] at h
      | assert e =>
        rw [exec, bind_ok] at h
        obtain ⟨v, h1, h⟩ := h
        rw [bind_ok] at h
        obtain ⟨t, h2, h⟩ := h
        rw [bind_ok] at h
        obtain ⟨u, h3, h⟩ := h
        rw [Stmt.release, exec, h]
      | callAt x g args outs =>
        rw [exec, bind_ok] at h
        obtain ⟨vs, h1, h⟩ := h
        show exec _ _ _ (.callAt x g args outs) _ = _
        rw [exec, ia _ _ _ h1, ok_bind, lookup_release]
        cases hg : P.lookup g with
        | none => rw [hg] at h; simp at h
        | some fn =>
          rw [hg] at h
          simp only [Option.map_some] at h ⊢
          split at h
          · next sp a b h1 h2 =>
            cases h1
            rw [h2]
            simp only
            rw [bind_ok] at h
            obtain ⟨u, h3, h⟩ := h
            rw [bind_ok] at h
            obtain ⟨ps, h4, h⟩ := h
            rw [bind_ok] at h
            obtain ⟨env, h5, h⟩ := h
            rw [bind_ok] at h
            obtain ⟨q, h6, h⟩ := h
            rw [h3, ok_bind, h4, ok_bind, h5, ok_bind, withStack_release, ix _ _ _ h6, ok_bind, h]
          · simp at h
      | print e fmt args =>
        rw [exec, bind_ok] at h
        obtain ⟨p, h1, h⟩ := h
        rw [bind_ok] at h
        obtain ⟨vs, h2, h⟩ := h
        show exec _ _ _ (.print e fmt args) _ = _
        rw [exec, ie _ _ _ h1, ok_bind, ia _ _ _ h2, ok_bind, h]
      | alloc x t e =>
        rw [exec, bind_ok] at h
        obtain ⟨v, h1, h⟩ := h
        show exec _ _ _ (.alloc x t e) _ = _
        rw [exec, ie _ _ _ h1, ok_bind, h]
      | free x =>
        rw [exec] at h
        show exec _ _ _ (.free x) _ = _
        rw [exec, h]

theorem Returns.release {P : Prog} {G : Name → Option Cell} {g : Name} {vs : List Val} {mem mem' : Nat → Obj} {v : Val}
    (h : Returns P G g vs mem v mem') : Returns (release P) G g vs mem v mem' := by
  obtain ⟨N, hN⟩ := h
  refine ⟨N, fun f hf => ?_⟩
  have h := hN f hf
  unfold callValue at h ⊢
  rw [lookup_release]
  cases hg : P.lookup g with
  | none => rw [hg] at h; simp at h
  | some fn =>
    rw [hg] at h
    simp only [Option.map_some] at h ⊢
    rw [bind_ok] at h
    obtain ⟨env, h5, h⟩ := h
    rw [bind_ok] at h
    obtain ⟨q, h6, h⟩ := h
    rw [h5, ok_bind, (release_ok P G f).2.2 _ _ _ h6, ok_bind, h]

theorem ReturnsAt.release {P : Prog} {G : Name → Option Cell} {sp : Nat} {g : Name} {vs : List Val} {mem mem' : Nat → Obj} {v : Val}
    (h : ReturnsAt P G sp g vs mem v mem') : ReturnsAt (release P) G sp g vs mem v mem' := by
  obtain ⟨N, hN⟩ := h
  refine ⟨N, fun f hf => ?_⟩
  have h := hN f hf
  unfold callValueAt at h ⊢
  rw [lookup_release]
  cases hg : P.lookup g with
  | none => rw [hg] at h; simp at h
  | some fn =>
    rw [hg] at h
    simp only [Option.map_some] at h ⊢
    rw [bind_ok] at h
    obtain ⟨env, h5, h⟩ := h
    rw [bind_ok] at h
    obtain ⟨q, h6, h⟩ := h
    rw [h5, ok_bind, withStack_release, (release_ok P G f).2.2 _ _ _ h6, ok_bind, h]

theorem Calls.release {P : Prog} {G : Name → Option Cell} {g : Name} {vs : List Val} {mem mem' : Nat → Obj}
    (h : Calls P G g vs mem mem') : Calls (release P) G g vs mem mem' := by
  obtain ⟨N, hN⟩ := h
  refine ⟨N, fun f hf => ?_⟩
  have h := hN f hf
  unfold call at h ⊢
  rw [lookup_release]
  cases hg : P.lookup g with
  | none => rw [hg] at h; simp at h
  | some fn =>
    rw [hg] at h
    simp only [Option.map_some] at h ⊢
    rw [bind_ok] at h
    obtain ⟨env, h5, h⟩ := h
    rw [bind_ok] at h
    obtain ⟨q, h6, h⟩ := h
    rw [h5, ok_bind, (release_ok P G f).2.2 _ _ _ h6, ok_bind, h]

end CLang
