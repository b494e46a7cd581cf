import Verif.SpecSourceTrace
import Verif.Proofs.CRun

/-
More fuel does not change what a run that returns shows.
-/

set_option linter.unusedSimpArgs false

namespace CLang
open C

theorem trace_more (P : Prog) (G : Name → Option Cell) : ∀ f,
    (∀ e st v, eval P G f e st = .ok v → eval P G (f + 1) e st = .ok v ∧ traceE P G (f + 1) e st = traceE P G f e st) ∧
    (∀ es st vs, evalArgs P G f es st = .ok vs → evalArgs P G (f + 1) es st = .ok vs ∧ traceA P G (f + 1) es st = traceA P G f es st) ∧
    ∀ s st r, exec P G f s st = .ok r → exec P G (f + 1) s st = .ok r ∧ traceS P G (f + 1) s st = traceS P G f s st := by
  intro f
  induction f with
  | zero => exact ⟨fun e st v h => by simp [eval] at h, fun e st v h => by simp [evalArgs] at h, fun e st v h => by simp [exec] at h⟩
  | succ f ih =>
    obtain ⟨ie, ia, ix⟩ := ih
    refine ⟨fun e st v h => ?_, fun es st vs h => ?_, fun s st r h => ?_⟩
    · cases e with
      | num n => simp only [eval] at h ⊢; exact ⟨h, by rw [traceE, traceE] <;> simp⟩
      | var x => simp only [eval] at h ⊢; exact ⟨h, by rw [traceE, traceE] <;> simp⟩
      | nil => simp [eval] at h
      | cons e es => simp [eval] at h
      | idx a i =>
        rw [eval] at h
        rw [bind_ok] at h
        obtain ⟨p, h1, h⟩ := h
        obtain ⟨e1, t1⟩ := ie _ _ _ h1
        rw [bind_ok] at h
        obtain ⟨k, h2, h⟩ := h
        obtain ⟨e2, t2⟩ := ie _ _ _ h2
        refine ⟨?_, ?_⟩
        · rw [eval]; simp only [e1, e2, ok_bind]; exact h
        · rw [traceE]; simp only [e1, e2, t1, t2]; rw [traceE]; try simp only [h1, h2]
      | neg e =>
        rw [eval] at h
        rw [bind_ok] at h
        obtain ⟨p, h1, h⟩ := h
        obtain ⟨e1, t1⟩ := ie _ _ _ h1
        refine ⟨?_, ?_⟩
        · rw [eval]; simp only [e1, ok_bind]; exact h
        · rw [traceE]; simp only [e1, t1]; rw [traceE]; try simp only [h1]
      | not e =>
        rw [eval] at h
        rw [bind_ok] at h
        obtain ⟨p, h1, h⟩ := h
        obtain ⟨e1, t1⟩ := ie _ _ _ h1
        refine ⟨?_, ?_⟩
        · rw [eval]; simp only [e1, ok_bind]; exact h
        · rw [traceE]; simp only [e1, t1]; rw [traceE]; try simp only [h1]
      | bin o a b =>
        rw [eval] at h
        rw [bind_ok] at h
        obtain ⟨p, h1, h⟩ := h
        obtain ⟨e1, t1⟩ := ie _ _ _ h1
        rw [bind_ok] at h
        obtain ⟨k, h2, h⟩ := h
        obtain ⟨e2, t2⟩ := ie _ _ _ h2
        refine ⟨?_, ?_⟩
        · rw [eval]; simp only [e1, e2, ok_bind]; exact h
        · rw [traceE]; simp only [e1, e2, t1, t2]; rw [traceE]; try simp only [h1, h2]
      | land a b =>
        rw [eval] at h
        rw [bind_ok] at h
        obtain ⟨p, h1, h⟩ := h
        obtain ⟨e1, t1⟩ := ie _ _ _ h1
        rw [bind_ok] at h
        obtain ⟨c, h2, h⟩ := h
        cases c with
        | false =>
          refine ⟨?_, ?_⟩
          · rw [eval]; simp only [e1, ok_bind, h2]; exact h
          · rw [traceE]; simp only [e1, t1, ok_bind, h2]; rw [traceE]; simp only [h1, ok_bind, h2]
        | true =>
          simp only [if_true] at h
          rw [bind_ok] at h
          obtain ⟨q, h3, h⟩ := h
          obtain ⟨e3, t3⟩ := ie _ _ _ h3
          rw [bind_ok] at h
          obtain ⟨d, h4, h⟩ := h
          refine ⟨?_, ?_⟩
          · rw [eval]; simp only [e1, e3, ok_bind, h2, h4, if_true]; exact h
          · rw [traceE]; simp only [e1, t1, e3, t3, ok_bind, h2, h4]; rw [traceE]; simp only [h1, h3, ok_bind, h2, h4]
      | lor a b =>
        rw [eval] at h
        rw [bind_ok] at h
        obtain ⟨p, h1, h⟩ := h
        obtain ⟨e1, t1⟩ := ie _ _ _ h1
        rw [bind_ok] at h
        obtain ⟨c, h2, h⟩ := h
        cases c with
        | true =>
          refine ⟨?_, ?_⟩
          · rw [eval]; simp only [e1, ok_bind, h2]; exact h
          · rw [traceE]; simp only [e1, t1, ok_bind, h2]; rw [traceE]; simp only [h1, ok_bind, h2]
        | false =>
          simp only [Bool.false_eq_true, if_false] at h
          rw [bind_ok] at h
          obtain ⟨q, h3, h⟩ := h
          obtain ⟨e3, t3⟩ := ie _ _ _ h3
          rw [bind_ok] at h
          obtain ⟨d, h4, h⟩ := h
          refine ⟨?_, ?_⟩
          · rw [eval]; simp only [e1, e3, ok_bind, h2, h4, Bool.false_eq_true, if_false]; exact h
          · rw [traceE]; simp only [e1, t1, e3, t3, ok_bind, h2, h4]; rw [traceE]; simp only [h1, h3, ok_bind, h2, h4]
      | cast t e =>
        rw [eval] at h
        rw [bind_ok] at h
        obtain ⟨p, h1, h⟩ := h
        obtain ⟨e1, t1⟩ := ie _ _ _ h1
        refine ⟨?_, ?_⟩
        · rw [eval]; simp only [e1, ok_bind]; exact h
        · rw [traceE]; simp only [e1, t1]; rw [traceE]; try simp only [h1]
      | cond c a b =>
        rw [eval] at h
        rw [bind_ok] at h
        obtain ⟨p, h1, h⟩ := h
        obtain ⟨e1, t1⟩ := ie _ _ _ h1
        rw [bind_ok] at h
        obtain ⟨d, h2, h⟩ := h
        cases d with
        | true =>
          simp only [if_true] at h
          obtain ⟨e3, t3⟩ := ie _ _ _ h
          refine ⟨?_, ?_⟩
          · rw [eval]; simp only [e1, ok_bind, h2, if_true]; exact e3
          · rw [traceE]; simp only [e1, t1, ok_bind, h2, if_true, t3]; rw [traceE]; simp only [h1, ok_bind, h2, if_true]
        | false =>
          simp only [Bool.false_eq_true, if_false] at h
          obtain ⟨e3, t3⟩ := ie _ _ _ h
          refine ⟨?_, ?_⟩
          · rw [eval]; simp only [e1, ok_bind, h2, Bool.false_eq_true, if_false]; exact e3
          · rw [traceE]; simp only [e1, t1, ok_bind, h2, Bool.false_eq_true, if_false, t3]; rw [traceE]; simp only [h1, ok_bind, h2, Bool.false_eq_true, if_false]
      | call g args =>
        rw [eval] at h
        rw [bind_ok] at h
        obtain ⟨vs, h1, h⟩ := h
        obtain ⟨e1, t1⟩ := ia _ _ _ h1
        cases hg : P.lookup g with
        | none => rw [hg] at h; simp at h
        | some fn =>
          simp only [hg] at h
          split at h
          · rename_i hp
            rw [bind_ok] at h
            obtain ⟨env, h2, h⟩ := h
            rw [bind_ok] at h
            obtain ⟨q, h3, h⟩ := h
            obtain ⟨e3, t3⟩ := ix _ _ _ h3
            refine ⟨?_, ?_⟩
            · rw [eval]; simp only [e1, ok_bind, hg, hp, if_true, h2, e3]; exact h
            · rw [traceE]; simp only [e1, t1, hg, h2, t3]; rw [traceE]; simp only [h1, hg, h2]
          · exact absurd h (by simp)
    · cases es with
      | nil => simp only [evalArgs] at h ⊢; exact ⟨h, by rw [traceA, traceA] <;> simp⟩
      | cons e es =>
        rw [evalArgs] at h
        rw [bind_ok] at h
        obtain ⟨p, h1, h⟩ := h
        obtain ⟨e1, t1⟩ := ie _ _ _ h1
        rw [bind_ok] at h
        obtain ⟨k, h2, h⟩ := h
        obtain ⟨e2, t2⟩ := ia _ _ _ h2
        refine ⟨?_, ?_⟩
        · rw [evalArgs]; simp only [e1, e2, ok_bind]; exact h
        · rw [traceA]; simp only [e1, e2, t1, t2]; rw [traceA]; try simp only [h1, h2]
      | _ => simp [evalArgs] at h
    · cases s with
      | skip => simp only [exec] at h ⊢; exact ⟨h, by rw [traceS, traceS] <;> simp⟩
      | decl t x => simp only [exec] at h ⊢; exact ⟨h, by rw [traceS, traceS] <;> simp⟩
      | brk => simp only [exec] at h ⊢; exact ⟨h, by rw [traceS, traceS] <;> simp⟩
      | free x => simp only [exec] at h ⊢; exact ⟨h, by rw [traceS, traceS] <;> simp⟩
      | seq a b =>
        rw [exec] at h
        rw [bind_ok] at h
        obtain ⟨⟨x, s1⟩, h1, h⟩ := h
        obtain ⟨e1, t1⟩ := ix _ _ _ h1
        cases x with
        | none =>
          obtain ⟨e2, t2⟩ := ix _ _ _ h
          refine ⟨?_, ?_⟩
          · rw [exec]; simp only [e1, ok_bind]; exact e2
          · rw [traceS]; simp only [e1, t1, t2]; rw [traceS]; simp only [h1]
        | some y =>
          refine ⟨?_, ?_⟩
          · rw [exec]; simp only [e1, ok_bind]; exact h
          · rw [traceS]; simp only [e1, t1]; rw [traceS]; simp only [h1]
      | assign x e =>
        rw [exec] at h
        rw [bind_ok] at h
        obtain ⟨p, h1, h⟩ := h
        obtain ⟨e1, t1⟩ := ie _ _ _ h1
        refine ⟨?_, ?_⟩
        · rw [exec]; simp only [e1, ok_bind]; exact h
        · rw [traceS]; simp only [e1, t1]; rw [traceS]; try simp only [h1]
      | store a i e =>
        rw [exec] at h
        rw [bind_ok] at h
        obtain ⟨p, h1, h⟩ := h
        obtain ⟨e1, t1⟩ := ie _ _ _ h1
        rw [bind_ok] at h
        obtain ⟨k, h2, h⟩ := h
        obtain ⟨e2, t2⟩ := ie _ _ _ h2
        rw [bind_ok] at h
        obtain ⟨v, h3, h⟩ := h
        obtain ⟨e3, t3⟩ := ie _ _ _ h3
        refine ⟨?_, ?_⟩
        · rw [exec]; simp only [e1, e2, e3, ok_bind]; exact h
        · rw [traceS]; simp only [e1, e2, e3, t1, t2, t3]; rw [traceS]; try simp only [h1, h2, h3]
      | ite c a b =>
        rw [exec] at h
        rw [bind_ok] at h
        obtain ⟨p, h1, h⟩ := h
        obtain ⟨e1, t1⟩ := ie _ _ _ h1
        rw [bind_ok] at h
        obtain ⟨d, h2, h⟩ := h
        cases d with
        | true =>
          simp only [if_true] at h
          obtain ⟨e3, t3⟩ := ix _ _ _ h
          refine ⟨?_, ?_⟩
          · rw [exec]; simp only [e1, ok_bind, h2, if_true]; exact e3
          · rw [traceS]; simp only [e1, t1, ok_bind, h2, if_true, t3]; rw [traceS]; simp only [h1, ok_bind, h2, if_true]
        | false =>
          simp only [Bool.false_eq_true, if_false] at h
          obtain ⟨e3, t3⟩ := ix _ _ _ h
          refine ⟨?_, ?_⟩
          · rw [exec]; simp only [e1, ok_bind, h2, Bool.false_eq_true, if_false]; exact e3
          · rw [traceS]; simp only [e1, t1, ok_bind, h2, Bool.false_eq_true, if_false, t3]; rw [traceS]; simp only [h1, ok_bind, h2, Bool.false_eq_true, if_false]
      | «while» c s =>
        rw [exec] at h
        rw [bind_ok] at h
        obtain ⟨p, h1, h⟩ := h
        obtain ⟨e1, t1⟩ := ie _ _ _ h1
        rw [bind_ok] at h
        obtain ⟨d, h2, h⟩ := h
        cases d with
        | false =>
          refine ⟨?_, ?_⟩
          · rw [exec]; simp only [e1, ok_bind, h2]; exact h
          · rw [traceS]; simp only [e1, t1, ok_bind, h2]; rw [traceS]; simp only [h1, ok_bind, h2]
        | true =>
          simp only [if_true] at h
          rw [bind_ok] at h
          obtain ⟨⟨x, s1⟩, h3, h⟩ := h
          obtain ⟨e3, t3⟩ := ix _ _ _ h3
          cases x with
          | none =>
            obtain ⟨e4, t4⟩ := ix _ _ _ h
            refine ⟨?_, ?_⟩
            · rw [exec]; simp only [e1, ok_bind, h2, if_true, e3]; exact e4
            · rw [traceS]; simp only [e1, t1, ok_bind, h2, e3, t3, t4]; rw [traceS]; simp only [h1, ok_bind, h2, h3]
          | some y =>
            refine ⟨?_, ?_⟩
            · rw [exec]; simp only [e1, ok_bind, h2, if_true, e3]; cases y <;> exact h
            · rw [traceS]; simp only [e1, t1, ok_bind, h2, e3, t3]; rw [traceS]; simp only [h1, ok_bind, h2, h3]
      | doWhile s c =>
        rw [exec] at h
        rw [bind_ok] at h
        obtain ⟨⟨x, s1⟩, h3, h⟩ := h
        obtain ⟨e3, t3⟩ := ix _ _ _ h3
        cases x with
        | some y =>
          refine ⟨?_, ?_⟩
          · rw [exec]; simp only [ok_bind, e3]; cases y <;> exact h
          · rw [traceS]; simp only [e3, t3]; rw [traceS]; simp only [h3]
        | none =>
          simp only at h
          rw [bind_ok] at h
          obtain ⟨p, h1, h⟩ := h
          obtain ⟨e1, t1⟩ := ie _ _ _ h1
          rw [bind_ok] at h
          obtain ⟨d, h2, h⟩ := h
          cases d with
          | false =>
            refine ⟨?_, ?_⟩
            · rw [exec]; simp only [e3, e1, ok_bind, h2]; exact h
            · rw [traceS]; simp only [e3, t3, e1, t1, ok_bind, h2]; rw [traceS]; simp only [h3, h1, ok_bind, h2]
          | true =>
            simp only [if_true] at h
            obtain ⟨e4, t4⟩ := ix _ _ _ h
            refine ⟨?_, ?_⟩
            · rw [exec]; simp only [e3, e1, ok_bind, h2, if_true]; exact e4
            · rw [traceS]; simp only [e3, t3, e1, t1, ok_bind, h2, t4]; rw [traceS]; simp only [h3, h1, ok_bind, h2]
      | ret e =>
        rw [exec] at h
        rw [bind_ok] at h
        obtain ⟨p, h1, h⟩ := h
        obtain ⟨e1, t1⟩ := ie _ _ _ h1
        refine ⟨?_, ?_⟩
        · rw [exec]; simp only [e1, ok_bind]; exact h
        · rw [traceS]; simp only [e1, t1]; rw [traceS]; try simp only [h1]
      | expr e =>
        cases e with
        | call g args =>
          rw [exec] at h
          rw [bind_ok] at h
          obtain ⟨vs, h1, h⟩ := h
          obtain ⟨e1, t1⟩ := ia _ _ _ h1
          cases hg : P.lookup g with
          | none => rw [hg] at h; simp at h
          | some fn =>
            simp only [hg] at h
            rw [bind_ok] at h
            obtain ⟨env, h2, h⟩ := h
            rw [bind_ok] at h
            obtain ⟨q, h3, h⟩ := h
            obtain ⟨e3, t3⟩ := ix _ _ _ h3
            refine ⟨?_, ?_⟩
            · rw [exec]; simp only [e1, ok_bind, hg, h2, e3]; exact h
            · rw [traceS]; simp only [e1, t1, hg, h2, t3]; rw [traceS]; simp only [h1, hg, h2]
        | _ => simp [exec] at h
      | assert e =>
        rw [exec] at h
        rw [bind_ok] at h
        obtain ⟨p, h1, h⟩ := h
        obtain ⟨e1, t1⟩ := ie _ _ _ h1
        refine ⟨?_, ?_⟩
        · rw [exec]; simp only [e1, ok_bind]; exact h
        · rw [traceS, traceS] <;> simp
      | callAt x g args outs =>
        rw [exec] at h
        rw [bind_ok] at h
        obtain ⟨vs, h1, h⟩ := h
        obtain ⟨e1, t1⟩ := ia _ _ _ h1
        cases hg : P.lookup g with
        | none => rw [hg] at h; simp at h
        | some fn =>
          simp only [hg] at h
          split at h
          · rename_i sp o0 w0 h0 hx
            cases h0
            rw [bind_ok] at h
            obtain ⟨u, h6, h⟩ := h
            rw [bind_ok] at h
            obtain ⟨ps, h5, h⟩ := h
            rw [bind_ok] at h
            obtain ⟨env, h2, h⟩ := h
            rw [bind_ok] at h
            obtain ⟨q, h3, h⟩ := h
            obtain ⟨e3, t3⟩ := ix _ _ _ h3
            refine ⟨?_, ?_⟩
            · rw [exec]; simp only [e1, ok_bind, hg, hx, h6, h5, h2, e3]; exact h
            · rw [traceS]; simp only [e1, t1, hg, hx, h5, h2, t3]; rw [traceS]; simp only [h1, hg, hx, h5, h2]
          · exact absurd h (by simp)
      | print e fmt args =>
        rw [exec] at h
        rw [bind_ok] at h
        obtain ⟨p, h1, h⟩ := h
        obtain ⟨e1, t1⟩ := ie _ _ _ h1
        rw [bind_ok] at h
        obtain ⟨k, h2, h⟩ := h
        obtain ⟨e2, t2⟩ := ia _ _ _ h2
        refine ⟨?_, ?_⟩
        · rw [exec]; simp only [e1, e2, ok_bind]; exact h
        · rw [traceS]; simp only [e1, e2, t1, t2]; rw [traceS]; try simp only [h1, h2]
      | alloc x t e =>
        rw [exec] at h
        rw [bind_ok] at h
        obtain ⟨p, h1, h⟩ := h
        obtain ⟨e1, t1⟩ := ie _ _ _ h1
        refine ⟨?_, ?_⟩
        · rw [exec]; simp only [e1, ok_bind]; exact h
        · rw [traceS]; simp only [e1, t1]; rw [traceS]; try simp only [h1]

/-- A call that returns shows the same with more fuel. -/
theorem callTrace_more {P : Prog} {G : Name → Option Cell} {g : Name} {vs : List Val} {mem mem' : Nat → Obj} {f : Nat} (h : call P G f g vs mem = .ok mem') :
    call P G (f + 1) g vs mem = .ok mem' ∧ callTrace P G (f + 1) g vs mem = callTrace P G f g vs mem := by
  cases hg : P.lookup g with
  | none => simp [call, hg] at h
  | some fn =>
    simp only [call, hg] at h
    rw [bind_ok] at h
    obtain ⟨env, h1, h⟩ := h
    rw [bind_ok] at h
    obtain ⟨q, h2, h⟩ := h
    obtain ⟨e, t⟩ := (trace_more P G f).2.2 _ _ _ h2
    simp only [call, callTrace, hg, h1, ok_bind, e, t]
    exact ⟨h, trivial⟩

theorem callTrace_le {P : Prog} {G : Name → Option Cell} {g : Name} {vs : List Val} {mem mem' : Nat → Obj} {f : Nat} (h : call P G f g vs mem = .ok mem') :
    ∀ k, call P G (f + k) g vs mem = .ok mem' ∧ callTrace P G (f + k) g vs mem = callTrace P G f g vs mem
  | 0 => ⟨h, rfl⟩
  | k + 1 => by
    obtain ⟨a, b⟩ := callTrace_le h k
    obtain ⟨c, d⟩ := callTrace_more a
    exact ⟨c, d.trans b⟩

end CLang
