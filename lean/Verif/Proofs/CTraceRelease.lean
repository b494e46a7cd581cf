import Verif.SpecSourceTrace
import Verif.Proofs.CRelease

/-
Compiled with `-DNDEBUG`, a call that returns with assertions shows the same without.
-/

set_option linter.unusedSimpArgs false

namespace CLang
open C

theorem trace_release (P : Prog) (G : Name → Option Cell) : ∀ f,
    (∀ e st v, eval P G f e st = .ok v → traceE (release P) G f e st = traceE P G f e st) ∧
    (∀ es st vs, evalArgs P G f es st = .ok vs → traceA (release P) G f es st = traceA P G f es st) ∧
    ∀ s st r, exec P G f s st = .ok r → traceS (release P) G f s.release st = traceS P G f s st := by
  intro f
  induction f with
  | zero => exact ⟨fun e st v h => by simp [eval] at h, fun e st v h => by simp [evalArgs] at h, fun e st v h => by simp [exec] at h⟩
  | succ f ih =>
    obtain ⟨ie, ia, ix⟩ := ih
    obtain ⟨je, ja, jx⟩ := release_ok P G f
    refine ⟨fun e st v h => ?_, fun es st vs h => ?_, fun s st r h => ?_⟩
    · cases e with
      | num n => simp only [traceE]
      | var x => simp only [traceE]
      | nil => simp [eval] at h
      | cons e es => simp [eval] at h
      | idx a i =>
        rw [eval] at h
        rw [bind_ok] at h
        obtain ⟨p, h1, h⟩ := h
        have e1 := je _ _ _ h1
        have t1 := ie _ _ _ h1
        rw [bind_ok] at h
        obtain ⟨k, h2, h⟩ := h
        have e2 := je _ _ _ h2
        have t2 := ie _ _ _ h2
        simp only [traceE, e1, e2, t1, t2, h1, h2]
      | neg e =>
        rw [eval] at h
        rw [bind_ok] at h
        obtain ⟨p, h1, h⟩ := h
        have e1 := je _ _ _ h1
        have t1 := ie _ _ _ h1
        simp only [traceE, e1, t1, h1]
      | not e =>
        rw [eval] at h
        rw [bind_ok] at h
        obtain ⟨p, h1, h⟩ := h
        have e1 := je _ _ _ h1
        have t1 := ie _ _ _ h1
        simp only [traceE, e1, t1, h1]
      | bin o a b =>
        rw [eval] at h
        rw [bind_ok] at h
        obtain ⟨p, h1, h⟩ := h
        have e1 := je _ _ _ h1
        have t1 := ie _ _ _ h1
        rw [bind_ok] at h
        obtain ⟨k, h2, h⟩ := h
        have e2 := je _ _ _ h2
        have t2 := ie _ _ _ h2
        simp only [traceE, e1, e2, t1, t2, h1, h2]
      | land a b =>
        rw [eval] at h
        rw [bind_ok] at h
        obtain ⟨p, h1, h⟩ := h
        have e1 := je _ _ _ h1
        have t1 := ie _ _ _ h1
        rw [bind_ok] at h
        obtain ⟨c, h2, h⟩ := h
        cases c with
        | false => simp only [traceE, e1, t1, h1, ok_bind, h2]
        | true =>
          simp only [if_true] at h
          rw [bind_ok] at h
          obtain ⟨q, h3, h⟩ := h
          have e3 := je _ _ _ h3
          have t3 := ie _ _ _ h3
          simp only [traceE, e1, t1, h1, e3, t3, h3, ok_bind, h2]
      | lor a b =>
        rw [eval] at h
        rw [bind_ok] at h
        obtain ⟨p, h1, h⟩ := h
        have e1 := je _ _ _ h1
        have t1 := ie _ _ _ h1
        rw [bind_ok] at h
        obtain ⟨c, h2, h⟩ := h
        cases c with
        | true => simp only [traceE, e1, t1, h1, ok_bind, h2]
        | false =>
          simp only [Bool.false_eq_true, if_false] at h
          rw [bind_ok] at h
          obtain ⟨q, h3, h⟩ := h
          have e3 := je _ _ _ h3
          have t3 := ie _ _ _ h3
          simp only [traceE, e1, t1, h1, e3, t3, h3, ok_bind, h2]
      | cast t e =>
        rw [eval] at h
        rw [bind_ok] at h
        obtain ⟨p, h1, h⟩ := h
        have e1 := je _ _ _ h1
        have t1 := ie _ _ _ h1
        simp only [traceE, e1, t1, h1]
      | cond c a b =>
        rw [eval] at h
        rw [bind_ok] at h
        obtain ⟨p, h1, h⟩ := h
        have e1 := je _ _ _ h1
        have t1 := ie _ _ _ h1
        rw [bind_ok] at h
        obtain ⟨d, h2, h⟩ := h
        cases d with
        | true =>
          simp only [if_true] at h
          have t3 := ie _ _ _ h
          simp only [traceE, e1, t1, h1, ok_bind, h2, if_true, t3]
        | false =>
          simp only [Bool.false_eq_true, if_false] at h
          have t3 := ie _ _ _ h
          simp only [traceE, e1, t1, h1, ok_bind, h2, Bool.false_eq_true, if_false, t3]
      | call g args =>
        rw [eval] at h
        rw [bind_ok] at h
        obtain ⟨vs, h1, h⟩ := h
        have e1 := ja _ _ _ h1
        have t1 := ia _ _ _ h1
        cases hg : P.lookup g with
        | none => rw [hg] at h; simp at h
        | some fn =>
          have hr : (release P).lookup g = some { fn with body := fn.body.release } := by rw [lookup_release, hg]; rfl
          simp only [hg] at h
          split at h
          · rw [bind_ok] at h
            obtain ⟨env, h2, h⟩ := h
            rw [bind_ok] at h
            obtain ⟨q, h3, h⟩ := h
            have t3 := ix _ _ _ h3
            simp only [traceE, e1, t1, h1, hg, hr, h2, t3]
          · exact absurd h (by simp)
    · cases es with
      | nil => simp only [traceA]
      | cons e es =>
        rw [evalArgs] at h
        rw [bind_ok] at h
        obtain ⟨p, h1, h⟩ := h
        have e1 := je _ _ _ h1
        have t1 := ie _ _ _ h1
        rw [bind_ok] at h
        obtain ⟨k, h2, h⟩ := h
        have e2 := ja _ _ _ h2
        have t2 := ia _ _ _ h2
        simp only [traceA, e1, e2, t1, t2, h1, h2]
      | _ => simp [evalArgs] at h
    · cases s with
      | skip => simp only [Stmt.release, traceS]
      | decl t x => simp only [Stmt.release, traceS]
      | brk => simp only [Stmt.release, traceS]
      | free x => simp only [Stmt.release, traceS]
      | assert e => simp only [Stmt.release, traceS]
      | seq a b =>
        rw [exec] at h
        rw [bind_ok] at h
        obtain ⟨⟨x, s1⟩, h1, h⟩ := h
        have e1 := jx _ _ _ h1
        have t1 := ix _ _ _ h1
        cases x with
        | none =>
          have t2 := ix _ _ _ h
          simp only [Stmt.release, traceS, e1, t1, h1, t2]
        | some y => simp only [Stmt.release, traceS, e1, t1, h1]
      | assign x e =>
        rw [exec] at h
        rw [bind_ok] at h
        obtain ⟨p, h1, h⟩ := h
        have e1 := je _ _ _ h1
        have t1 := ie _ _ _ h1
        simp only [Stmt.release, traceS, e1, t1, h1]
      | store a i e =>
        rw [exec] at h
        rw [bind_ok] at h
        obtain ⟨p, h1, h⟩ := h
        have e1 := je _ _ _ h1
        have t1 := ie _ _ _ h1
        rw [bind_ok] at h
        obtain ⟨k, h2, h⟩ := h
        have e2 := je _ _ _ h2
        have t2 := ie _ _ _ h2
        rw [bind_ok] at h
        obtain ⟨v, h3, h⟩ := h
        have e3 := je _ _ _ h3
        have t3 := ie _ _ _ h3
        simp only [Stmt.release, traceS, e1, e2, e3, t1, t2, t3, h1, h2, h3]
      | ite c a b =>
        rw [exec] at h
        rw [bind_ok] at h
        obtain ⟨p, h1, h⟩ := h
        have e1 := je _ _ _ h1
        have t1 := ie _ _ _ h1
        rw [bind_ok] at h
        obtain ⟨d, h2, h⟩ := h
        cases d with
        | true =>
          simp only [if_true] at h
          have t3 := ix _ _ _ h
          simp only [Stmt.release, traceS, e1, t1, h1, ok_bind, h2, if_true, t3]
        | false =>
          simp only [Bool.false_eq_true, if_false] at h
          have t3 := ix _ _ _ h
          simp only [Stmt.release, traceS, e1, t1, h1, ok_bind, h2, Bool.false_eq_true, if_false, t3]
      | «while» c s =>
        rw [exec] at h
        rw [bind_ok] at h
        obtain ⟨p, h1, h⟩ := h
        have e1 := je _ _ _ h1
        have t1 := ie _ _ _ h1
        rw [bind_ok] at h
        obtain ⟨d, h2, h⟩ := h
        cases d with
        | false => simp only [Stmt.release, traceS, e1, t1, h1, ok_bind, h2]
        | true =>
          simp only [if_true] at h
          rw [bind_ok] at h
          obtain ⟨⟨x, s1⟩, h3, h⟩ := h
          have e3 := jx _ _ _ h3
          have t3 := ix _ _ _ h3
          cases x with
          | none =>
            have t4 := ix _ _ _ h
            simp only [Stmt.release] at t4
            simp only [Stmt.release, traceS, e1, t1, h1, ok_bind, h2, e3, t3, h3, t4]
          | some y => simp only [Stmt.release, traceS, e1, t1, h1, ok_bind, h2, e3, t3, h3]
      | doWhile s c =>
        rw [exec] at h
        rw [bind_ok] at h
        obtain ⟨⟨x, s1⟩, h3, h⟩ := h
        have e3 := jx _ _ _ h3
        have t3 := ix _ _ _ h3
        cases x with
        | some y => simp only [Stmt.release, traceS, e3, t3, h3]
        | none =>
          simp only at h
          rw [bind_ok] at h
          obtain ⟨p, h1, h⟩ := h
          have e1 := je _ _ _ h1
          have t1 := ie _ _ _ h1
          rw [bind_ok] at h
          obtain ⟨d, h2, h⟩ := h
          cases d with
          | false => simp only [Stmt.release, traceS, e3, t3, h3, e1, t1, h1, ok_bind, h2]
          | true =>
            simp only [if_true] at h
            have t4 := ix _ _ _ h
            simp only [Stmt.release] at t4
            simp only [Stmt.release, traceS, e3, t3, h3, e1, t1, h1, ok_bind, h2, t4]
      | ret e =>
        rw [exec] at h
        rw [bind_ok] at h
        obtain ⟨p, h1, h⟩ := h
        have e1 := je _ _ _ h1
        have t1 := ie _ _ _ h1
        simp only [Stmt.release, traceS, e1, t1, h1]
      | expr e =>
        cases e with
        | call g args =>
          rw [exec] at h
          rw [bind_ok] at h
          obtain ⟨vs, h1, h⟩ := h
          have e1 := ja _ _ _ h1
          have t1 := ia _ _ _ h1
          cases hg : P.lookup g with
          | none => rw [hg] at h; simp at h
          | some fn =>
            have hr : (release P).lookup g = some { fn with body := fn.body.release } := by rw [lookup_release, hg]; rfl
            simp only [hg] at h
            rw [bind_ok] at h
            obtain ⟨env, h2, h⟩ := h
            rw [bind_ok] at h
            obtain ⟨q, h3, h⟩ := h
            have t3 := ix _ _ _ h3
            simp only [Stmt.release, traceS, e1, t1, h1, hg, hr, h2, t3]
        | _ => simp [exec] at h
      | callAt x g args outs =>
        rw [exec] at h
        rw [bind_ok] at h
        obtain ⟨vs, h1, h⟩ := h
        have e1 := ja _ _ _ h1
        have t1 := ia _ _ _ h1
        cases hg : P.lookup g with
        | none => rw [hg] at h; simp at h
        | some fn =>
          have hr : (release P).lookup g = some { fn with body := fn.body.release } := by rw [lookup_release, hg]; rfl
          simp only [hg] at h
          split at h
          · rename_i sp o0 w0 h0 hx
            cases h0
            rw [bind_ok] at h
            obtain ⟨u, h6, h⟩ := h
            rw [bind_ok] at h
            obtain ⟨ps, h5, h⟩ := h
            rw [bind_ok] at h
            obtain ⟨env, h2, h⟩ := h
            rw [bind_ok] at h
            obtain ⟨q, h3, h⟩ := h
            have t3 := ix _ _ _ h3
            simp only [Stmt.release, traceS, e1, t1, h1, hg, hr, hx, h5, h2, withStack_release, t3]
          · exact absurd h (by simp)
      | print e fmt args =>
        rw [exec] at h
        rw [bind_ok] at h
        obtain ⟨p, h1, h⟩ := h
        have e1 := je _ _ _ h1
        have t1 := ie _ _ _ h1
        rw [bind_ok] at h
        obtain ⟨k, h2, h⟩ := h
        have e2 := ja _ _ _ h2
        have t2 := ia _ _ _ h2
        simp only [Stmt.release, traceS, e1, e2, t1, t2, h1, h2]
      | alloc x t e =>
        rw [exec] at h
        rw [bind_ok] at h
        obtain ⟨p, h1, h⟩ := h
        have e1 := je _ _ _ h1
        have t1 := ie _ _ _ h1
        simp only [Stmt.release, traceS, e1, t1, h1]

theorem callTrace_release {P : Prog} {G : Name → Option Cell} {g : Name} {vs : List Val} {mem mem' : Nat → Obj} {f : Nat} (h : call P G f g vs mem = .ok mem') :
    callTrace (release P) G f g vs mem = callTrace P G f g vs mem := by
  cases hg : P.lookup g with
  | none => simp [call, hg] at h
  | some fn =>
    have hr : (release P).lookup g = some { fn with body := fn.body.release } := by rw [lookup_release, hg]; rfl
    simp only [call, hg] at h
    rw [bind_ok] at h
    obtain ⟨env, h1, h⟩ := h
    rw [bind_ok] at h
    obtain ⟨q, h2, h⟩ := h
    have t := (trace_release P G f).2.2 _ _ _ h2
    simp only [callTrace, hg, hr, h1, t]

end CLang
