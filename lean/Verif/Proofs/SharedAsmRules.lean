import Verif.Model.SharedAsm
import Verif.Proofs.SharedMul
import Verif.Proofs.AsmPolyProducts

/-
The accesses and loops of the assembly functions on references, and `mul_reduce_array_asm`, whose destination can
be one of its operands.
-/

namespace Shared
open C Avx TraceAsm

variable {S W : Ref → Prop} {μ : Mem} {γ δ G : Type}

/-! ### loads -/

theorem Sim.mem32 {p : Ref} {u : Array Int} {r i : Nat}
    (h : Sim S W μ (Same μ) (C.rd u (r / 4 + i)) (prd p (r / 4 + i))) :
    Sim S W μ (Same μ) (Avx.mem32 u r i) (pmem32 p r i) := by
  unfold Avx.mem32 pmem32
  split
  · exact h
  · exact rfl

theorem Sim.mem16 {p : Ref} {u : Array Int} {r i : Nat}
    (h : Sim S W μ (Same μ) (C.rd u (r / 2 + i)) (prd p (r / 2 + i))) :
    Sim S W μ (Same μ) (Avx.mem16 u r i) (pmem16 p r i) := by
  unfold Avx.mem16 pmem16
  split
  · exact h
  · exact rfl

/-- A load of 8 elements. -/
theorem Sim.loadAny {p : Ref} {u : Array Int} {r : Nat}
    (h : ∀ i, Sim S W μ (Same μ) (C.rd u (r / 4 + i)) (prd p (r / 4 + i))) :
    Sim S W μ (Same μ) (plain.load u r) (shared.load p r) := by
  show Sim S W μ (Same μ) (Avx.load u r) (pload p r)
  unfold Avx.load pload
  iterate 8 refine Sim.val (Sim.mem32 (h _)) fun _ => ?_
  exact Sim.pure ⟨rfl, rfl⟩

variable {h : Ref} {v : Array Int}

theorem Sim.aload (hW : W h) (r : Nat) :
    Sim S W (upd μ h v) (Same (upd μ h v)) (plain.load v r) (shared.load h r) :=
  Sim.loadAny fun _ => Sim.rd hW _

theorem Sim.aload_sxdq (hW : W h) (r : Nat) :
    Sim S W (upd μ h v) (Same (upd μ h v)) (plain.load_sxdq v r) (shared.load_sxdq h r) := by
  show Sim S W _ _ (Avx.load_sxdq v r) (pload_sxdq h r)
  unfold Avx.load_sxdq pload_sxdq
  iterate 4 refine Sim.val (Sim.mem32 (Sim.rd hW _)) fun _ => ?_
  exact Sim.pure ⟨rfl, rfl⟩

variable {p : Ref}

theorem Sim.pload_sxwd (hp : S p) (hne : p ≠ h) (r : Nat) :
    Sim S W (upd μ h v) (Same (upd μ h v)) (plain.load_sxwd (μ p) r) (shared.load_sxwd p r) := by
  show Sim S W _ _ (Avx.load_sxwd (μ p) r) (Shared.pload_sxwd p r)
  unfold Avx.load_sxwd Shared.pload_sxwd
  iterate 8 refine Sim.val (Sim.mem16 (Sim.rdRo hp hne _)) fun _ => ?_
  exact Sim.pure ⟨rfl, rfl⟩

theorem Sim.pload_sxwq (hp : S p) (hne : p ≠ h) (r : Nat) :
    Sim S W (upd μ h v) (Same (upd μ h v)) (plain.load_sxwq (μ p) r) (shared.load_sxwq p r) := by
  show Sim S W _ _ (Avx.load_sxwq (μ p) r) (Shared.pload_sxwq p r)
  unfold Avx.load_sxwq Shared.pload_sxwq
  iterate 4 refine Sim.val (Sim.mem16 (Sim.rdRo hp hne _)) fun _ => ?_
  exact Sim.pure ⟨rfl, rfl⟩

theorem Sim.pload_sxwq128 (hp : S p) (hne : p ≠ h) (r : Nat) :
    Sim S W (upd μ h v) (Same (upd μ h v)) (plain.load_sxwq128 (μ p) r) (shared.load_sxwq128 p r) := by
  show Sim S W _ _ (Avx.load_sxwq128 (μ p) r) (Shared.pload_sxwq128 p r)
  unfold Avx.load_sxwq128 Shared.pload_sxwq128
  iterate 2 refine Sim.val (Sim.mem16 (Sim.rdRo hp hne _)) fun _ => ?_
  exact Sim.pure ⟨rfl, rfl⟩

theorem Sim.pload_bdcstw (hp : S p) (hne : p ≠ h) (r : Nat) :
    Sim S W (upd μ h v) (Same (upd μ h v)) (plain.load_bdcstw (μ p) r) (shared.load_bdcstw p r) := by
  show Sim S W _ _ (Avx.load_bdcstw (μ p) r) (Shared.pload_bdcstw p r)
  unfold Avx.load_bdcstw Shared.pload_bdcstw
  refine Sim.val (Sim.mem16 (Sim.rdRo hp hne _)) fun _ => ?_
  exact Sim.pure ⟨rfl, rfl⟩

/-! ### stores -/

theorem Sim.putList (hW : W h) (l : List Int) : ∀ (v : Array Int) (s : Nat),
    Sim S W (upd μ h v) (Post μ h) (Avx.putList l v s) (pputList l h s) := by
  induction l with
  | nil => intro v s; exact Sim.pure ⟨rfl, rfl⟩
  | cons x l ih =>
    intro v s
    unfold Avx.putList pputList
    exact Sim.next (Sim.wr hW _ _) fun v => ih v _

theorem Sim.astore (hW : W h) (r : Nat) (x : V8) :
    Sim S W (upd μ h v) (Post μ h) (plain.store v r x) (shared.store h r x) := by
  show Sim S W _ _ (Avx.store v r x) (pstore h r x)
  unfold Avx.store pstore
  split
  · exact Sim.putList hW _ _ _
  · exact rfl

theorem Sim.astore128 (hW : W h) (r : Nat) (x : V8) :
    Sim S W (upd μ h v) (Post μ h) (plain.store128 v r x) (shared.store128 h r x) := by
  show Sim S W _ _ (Avx.store128 v r x) (pstore128 h r x)
  unfold Avx.store128 pstore128
  split
  · exact Sim.putList hW _ _ _
  · exact rfl

/-! ### control -/

/-- State of a loop: an array and registers. -/
abbrev PostS (μ : Mem) (h : Ref) (s : Array Int × G) (s' : Ref × G) (μ' : Mem) : Prop :=
  s' = (h, s.2) ∧ μ' = upd μ h s.1

/-- State of a loop, and whether the jump is taken. -/
abbrev PostSB (μ : Mem) (h : Ref) (s : (Array Int × G) × Bool) (s' : (Ref × G) × Bool) (μ' : Mem) : Prop :=
  s' = ((h, s.1.2), s.2) ∧ μ' = upd μ h s.1.1

theorem Sim.jloopI {σ τ : Type} {I Q : σ → τ → Mem → Prop} {body : σ → M (σ × Bool)} {body' : τ → Prog (τ × Bool)}
    (hb : ∀ s s' μ, I s s' μ → Sim S W μ (fun r r' m => r'.2 = r.2 ∧ (r.2 = true → I r.1 r'.1 m) ∧
      (r.2 = false → Q r.1 r'.1 m)) (body s) (body' s')) :
    ∀ (fuel : Nat) (s : σ) (s' : τ) (μ : Mem), I s s' μ →
      Sim S W μ Q (plain.jloop body fuel s) (shared.jloop body' fuel s') := by
  show ∀ (fuel : Nat) (s : σ) (s' : τ) (μ : Mem), I s s' μ →
      Sim S W μ Q (Avx.jloop body fuel s) (pjloop body' fuel s')
  intro fuel
  induction fuel with
  | zero => intro s s' μ _; exact rfl
  | succ fuel ih =>
    intro s s' μ h
    unfold Avx.jloop pjloop
    refine Sim.bind (hb s s' μ h) ?_
    rintro ⟨r, t⟩ ⟨r', t'⟩ m ⟨e, h1, h2⟩
    dsimp only at e h1 h2 ⊢
    subst e
    cases t' with
    | true => exact ih _ _ _ (h1 rfl)
    | false => exact Sim.pure (h2 rfl)

theorem Sim.jloop {body : Array Int × G → M ((Array Int × G) × Bool)}
    {body' : Ref × G → Prog ((Ref × G) × Bool)} {fuel : Nat} {g : G}
    (hb : ∀ v g, Sim S W (upd μ h v) (PostSB μ h) (body (v, g)) (body' (h, g))) :
    Sim S W (upd μ h v) (PostS μ h) (plain.jloop body fuel (v, g)) (shared.jloop body' fuel (h, g)) := by
  refine Sim.jloopI (I := PostS μ h) ?_ _ _ _ _ ⟨rfl, rfl⟩
  rintro ⟨v, g⟩ s' m ⟨rfl, rfl⟩
  refine (hb v g).mono ?_
  rintro ⟨s, t⟩ ⟨s', t'⟩ m ⟨e, rfl⟩
  injection e with e1 e2
  dsimp only at e1 e2 ⊢
  exact ⟨e2, fun _ => ⟨e1, rfl⟩, fun _ => ⟨e1, rfl⟩⟩

/-- Bind after a loop. -/
theorem Sim.nextS {R : γ → δ → Mem → Prop} {x : M (Array Int × G)} {y : Prog (Ref × G)}
    {f : Array Int × G → M γ} {f' : Ref × G → Prog δ} (hx : Sim S W (upd μ h v) (PostS μ h) x y)
    (hf : ∀ v g, Sim S W (upd μ h v) R (f (v, g)) (f' (h, g))) :
    Sim S W (upd μ h v) R (x >>= f) (y >>= f') :=
  Sim.bind hx (by rintro ⟨v, g⟩ b μ' ⟨rfl, rfl⟩; exact hf v g)

theorem Sim.branch {Q : γ → δ → Mem → Prop} (c : Prop) [Decidable c] {x y : M γ} {x' y' : Prog δ}
    (h : Sim S W μ Q x x') (h' : Sim S W μ Q y y') :
    Sim S W μ Q (plain.branch c x y) (shared.branch c x' y') := Sim.ite h h'

theorem Sim.letv {α β : Type} {Q : γ → δ → Mem → Prop} {a : α} {b : β} {f : α → M γ} {g : β → Prog δ}
    (h : Sim S W μ Q (f a) (g b)) : Sim S W μ Q (Pure.pure a >>= f) (Pure.pure b >>= g) := h

/-! ### `mul_reduce_array_asm` -/

theorem half_write {c r : Ref} {n i : Nat} {f : Array Int} {m : Mem} (hWc : W c) (H : Half μ c n i f r m)
    (hi : i < n) (z : Int) : Sim S W m (Half μ c n (i + 1)) (C.wr f i z) (pwr r i z) := by
  obtain ⟨rfl, hin, x, rfl, hx, hf, hlo, hhi⟩ := H
  unfold Sim pwr
  have hw : C.wr f i z = .ok (f.setIfInBounds i z) := by unfold C.wr; rw [if_pos (by omega)]
  have hw' : C.wr x i z = .ok (x.setIfInBounds i z) := by unfold C.wr; rw [if_pos (by omega)]
  rw [hw]
  dsimp only
  rw [runT, upd_at, hw']
  refine ⟨r, upd μ r (x.setIfInBounds i z), [⟨r, i, true⟩], ?_, ⟨rfl, by omega, _, rfl, ?_, ?_, ?_, ?_⟩, ?_⟩
  · dsimp only
    rw [runT, upd_upd]
  · rw [Array.size_setIfInBounds, hx]
  · rw [Array.size_setIfInBounds, hf]
  · intro j hj
    rw [Array.getElem?_setIfInBounds, Array.getElem?_setIfInBounds, hf, hx]
    split
    · rfl
    · next hne => exact hlo j (by omega)
  · intro j hj
    rw [Array.getElem?_setIfInBounds, if_neg (by omega)]
    exact hhi j (by omega)
  · intro ev hev
    rw [List.mem_singleton] at hev
    subst hev
    exact Or.inr hWc

theorem half_put {c : Ref} {n : Nat} (hWc : W c) (l : List Int) : ∀ {i : Nat} {f : Array Int} {r : Ref} {m : Mem},
    Half μ c n i f r m → i + l.length ≤ n →
    Sim S W m (Half μ c n (i + l.length)) (Avx.putList l f i) (pputList l r i) := by
  induction l with
  | nil => intro i f r m H _; exact Sim.pure H
  | cons x l ih =>
    intro i f r m H hi
    rw [List.length_cons] at hi ⊢
    unfold Avx.putList pputList
    refine Sim.bind (half_write hWc H (by omega) x) ?_
    intro f' r' m' H'
    have := ih H' (by omega)
    rwa [show i + 1 + l.length = i + (l.length + 1) by omega] at this

theorem Sim.loadHalf {a c : Ref} (hW : W a) {x : Array Int} {i r : Nat} (hr : r = 4 * i)
    (hhi : ∀ j, i ≤ j → x[j]? = (μ c)[j]?) :
    Sim S W (upd μ c x) (Same (upd μ c x)) (plain.load (μ a) r) (shared.load a r) := by
  refine Sim.loadAny fun t => ?_
  refine Sim.rdEq (Or.inr hW) ?_
  by_cases h : a = c
  · subst h
    rw [upd_at]
    exact rd_congr (hhi _ (by omega)).symm
  · rw [upd_ne _ _ h]

theorem half_store {c r : Ref} {n i o : Nat} {f : Array Int} {m : Mem} (hWc : W c) (ho : o = 4 * i)
    (H : Half μ c n i f r m) (hi : i + 8 ≤ n) (z : V8) :
    Sim S W m (Half μ c n (i + 8)) (plain.store f o z) (shared.store r o z) := by
  show Sim S W _ _ (Avx.store f o z) (pstore r o z)
  unfold Avx.store pstore
  subst ho
  rw [if_pos (by omega), if_pos (by omega), show 4 * i / 4 = i by omega]
  exact half_put hWc [_, _, _, _, _, _, _, _] H hi

theorem mul_reduce_array_asm_sim {a b c : Ref} (hWa : W a) (hWb : W b) (hWc : W c) {n : Nat} (hn : 8 ∣ n) (h0 : 0 < n)
    {va vb vc : Array Int} (ea : μ a = va) (eb : μ b = vb) (hvc : vc.size = n) (hc : (μ c).size = n) :
    Sim S W μ (Post μ c) (AsmPoly.mul_reduce_array_asm plain vc n va vb)
      (AsmPoly.mul_reduce_array_asm shared c n a b) := by
  subst ea eb
  unfold AsmPoly.mul_reduce_array_asm
  iterate 7 refine Sim.letv ?_
  refine Sim.bind (Q := fun s s' m => s'.1 = c ∧ m = upd μ c s.1)
    (Sim.jloopI (I := fun s s' m => ∃ i, 8 * i + 8 ≤ n ∧ s.2 = (32 * i, 32 * i, 32 * i) ∧ s'.2 = s.2 ∧
      Half μ c n (8 * i) s.1 s'.1 m) ?_ _ _ _ _ ?_) ?_
  · rintro ⟨f, rax, rdx, rcx⟩ ⟨r, g'⟩ m ⟨i, hi, e, e', H⟩
    dsimp only at e e' H
    subst e'
    injection e with e1 e
    injection e with e2 e3
    subst e1 e2 e3
    obtain ⟨rfl, hin, x, rfl, hx⟩ := H
    unfold AsmPoly.loop5
    iterate 4 refine Sim.letv ?_
    dsimp only
    refine Sim.val (Sim.loadHalf hWa (i := 8 * i) (by omega) hx.2.2.2) fun _ => ?_
    refine Sim.val (Sim.loadHalf hWb (i := 8 * i) (by omega) hx.2.2.2) fun _ => ?_
    refine Sim.letv ?_
    refine Sim.bind (half_store hWc (i := 8 * i) (by omega) ⟨rfl, hin, x, rfl, hx⟩ hi _) ?_
    intro f' r' m' H'
    iterate 3 refine Sim.letv ?_
    refine Sim.pure ⟨rfl, ?_, ?_⟩
    · intro ht
      have ht : 32 * i + 32 < 0 + 4 * n := of_decide_eq_true ht
      obtain ⟨t, rfl⟩ := hn
      exact ⟨i + 1, by omega, rfl, rfl, by rw [show 8 * (i + 1) = 8 * i + 8 by omega]; exact H'⟩
    · intro ht
      have ht : ¬ 32 * i + 32 < 0 + 4 * n := of_decide_eq_false ht
      obtain ⟨rfl, hin', y, rfl, hy, hf, hlo, hhi⟩ := H'
      refine ⟨rfl, ?_⟩
      dsimp only
      congr 1
      refine Array.ext_getElem? fun j => ?_
      by_cases hj : j < 8 * i + 8
      · exact hlo j hj
      · rw [Array.getElem?_eq_none (by omega), Array.getElem?_eq_none (by omega)]
  · exact ⟨0, by obtain ⟨t, rfl⟩ := hn; omega, rfl, rfl, rfl, Nat.zero_le _, μ c, (upd_self _ _).symm, hc, hvc,
      fun j hj => absurd hj (Nat.not_lt_zero _), fun j _ => rfl⟩
  · rintro s s' m ⟨h1, h2⟩
    exact Sim.pure ⟨h1, h2⟩

end Shared
