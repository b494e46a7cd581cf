import Verif.Proofs.AbsLoops
import Verif.Proofs.NttRed
import Verif.Proofs.RedBoundsNtt

/-
Soundness of the abstract transforms, for any wiring (`Wiring.lean`) and both butterflies.
-/

namespace NttRedInterval
open C NTT Intervals

variable {τ : Type}

theorem wp_self {α : Type} {m : M α} : Wp (fun _ => True) m (fun r => m = .ok r) := by
  cases h : m with
  | ok r => exact wp_ok.2 rfl
  | error e => exact wp_error.2 trivial

/-- Operation of the abstract Cooley-Tukey butterfly on a pair. -/
def opCt (dbg : Bool) (mul : τ → Ivl → M Ivl) (o : Option τ) (Y Z : Ivl) : M (Ivl × Ivl) := do
  let R ← (match o with
    | none => pure Z
    | some w => mul w Z)
  let v ← sub dbg Y R
  let u ← add dbg Y R
  pure (u, v)

/-- Operation of the abstract Gentleman-Sande butterfly on a pair. -/
def opGs (dbg : Bool) (mul : τ → Ivl → M Ivl) (o : Option τ) (Y Z : Ivl) : M (Ivl × Ivl) := do
  let D ← sub dbg Y Z
  let v ← (match o with
    | none => pure D
    | some w => mul w D)
  let u ← add dbg Y Z
  pure (u, v)

section
variable {dbg : Bool} {mul : τ → Ivl → M Ivl} {s k : Nat} {c : Array Ivl} {Y Z : Ivl}

theorem absCt_op (o : Option τ) (hY : c[s]? = some Y) (hZ : c[k]? = some Z) :
    Wp (fun _ => True) (bfo (absBf0 dbg) (fun w => absCt dbg (mul w)) o s k c)
      (fun c' => ∃ U W, opCt dbg mul o Y Z = .ok (U, W) ∧
        c' = (c.setIfInBounds k W).setIfInBounds s U) := by
  cases o with
  | none =>
    simp only [bfo]
    unfold absBf0
    simp only [wp_bind]
    refine wp_rd_some hZ (wp_rd_some hY (wp_self.mono fun v hv => wp_wr (getElem?_lt hZ)
      (wp_self.mono fun u hu => wp_wr (by simpa using getElem?_lt hY) ⟨u, v, ?_, rfl⟩)))
    simp only [opCt, pure_bind, hv, hu]
    rfl
  | some w =>
    simp only [bfo]
    unfold absCt
    simp only [wp_bind]
    refine wp_rd_some hZ (wp_rd_some hY (wp_self.mono fun r hr => wp_self.mono fun v hv =>
      wp_wr (getElem?_lt hZ)
      (wp_self.mono fun u hu => wp_wr (by simpa using getElem?_lt hY) ⟨u, v, ?_, rfl⟩)))
    have e : ∀ {α β : Type} (x : α) (f : α → M β), (Except.ok x >>= f : M β) = f x :=
      fun _ _ => rfl
    simp only [opCt, hr, e, hv, hu]
    rfl

theorem absGs_op (o : Option τ) (hY : c[s]? = some Y) (hZ : c[k]? = some Z) :
    Wp (fun _ => True) (bfo (absBf0 dbg) (fun w => absGs dbg (mul w)) o s k c)
      (fun c' => ∃ U W, opGs dbg mul o Y Z = .ok (U, W) ∧
        c' = (c.setIfInBounds k W).setIfInBounds s U) := by
  have e : ∀ {α β : Type} (x : α) (f : α → M β), (Except.ok x >>= f : M β) = f x :=
    fun _ _ => rfl
  cases o with
  | none =>
    simp only [bfo]
    unfold absBf0
    simp only [wp_bind]
    refine wp_rd_some hZ (wp_rd_some hY (wp_self.mono fun v hv => wp_wr (getElem?_lt hZ)
      (wp_self.mono fun u hu => wp_wr (by simpa using getElem?_lt hY) ⟨u, v, ?_, rfl⟩)))
    simp only [opGs, hv, e, pure_bind, hu]
    rfl
  | some w =>
    simp only [bfo]
    unfold absGs
    simp only [wp_bind]
    refine wp_rd_some hZ (wp_rd_some hY (wp_self.mono fun r hr => wp_self.mono fun v hv =>
      wp_wr (getElem?_lt hZ)
      (wp_self.mono fun u hu => wp_wr (by simpa using getElem?_lt hY) ⟨u, v, ?_, rfl⟩)))
    simp only [opGs, hr, e, hv, hu]
    rfl

end

/-! ### Inversion -/

theorem sub_ok {dbg : Bool} {a b r : Ivl} (ha : a.min ≤ a.max) (hb : b.min ≤ b.max)
    (h : sub dbg a b = .ok r) : r = ⟨a.min - b.max, a.max - b.min⟩ := by
  have key := wp_sub (E := fun _ => True) (dbg := dbg) (P := fun r => r = _) ha hb
    (Or.inl trivial) rfl
  rw [h, wp_ok] at key
  exact key

theorem add_ok {dbg : Bool} {a b r : Ivl} (ha : a.min ≤ a.max) (hb : b.min ≤ b.max)
    (h : add dbg a b = .ok r) : r = ⟨a.min + b.min, a.max + b.max⟩ := by
  have key := wp_add (E := fun _ => True) (dbg := dbg) (P := fun r => r = _) ha hb
    (Or.inl trivial) rfl
  rw [h, wp_ok] at key
  exact key

/-- The abstract multiplication of `X` by `oA` is sound for the concrete multiplication by `oC`. -/
def MulSound (mul : τ → Ivl → M Ivl) (oA : Option τ) (oC : Option Int) (X : Ivl) : Prop :=
  (oA = none ∧ oC = none) ∨ ∃ W w, oA = some W ∧ oC = some w ∧
    ∀ R, mul W X = .ok R → R.min ≤ R.max ∧ ∀ x, x ∈ X → Spec.red (x * w) ∈ R

theorem bind_ok {α β : Type} {m : M α} {f : α → M β} {r : β} (h : (m >>= f) = .ok r) :
    ∃ x, m = .ok x ∧ f x = .ok r := by
  cases m with
  | ok x => exact ⟨x, rfl, h⟩
  | error e => cases h

section
variable {dbg : Bool} {mul : τ → Ivl → M Ivl} {oA : Option τ} {oC : Option Int} {Y Z U W : Ivl}

theorem opCt_inv (h : opCt dbg mul oA Y Z = .ok (U, W)) (hY : Y.min ≤ Y.max) (hZ : Z.min ≤ Z.max)
    (hm : MulSound mul oA oC Z) :
    ∃ R : Ivl, R.min ≤ R.max ∧ U = ⟨Y.min + R.min, Y.max + R.max⟩ ∧
      W = ⟨Y.min - R.max, Y.max - R.min⟩ ∧
      ((oC = none ∧ R = Z) ∨ ∃ w, oC = some w ∧ ∀ x, x ∈ Z → Spec.red (x * w) ∈ R) := by
  unfold opCt at h
  obtain ⟨R, h1, h⟩ := bind_ok h
  obtain ⟨v, h2, h⟩ := bind_ok h
  obtain ⟨u, h3, h⟩ := bind_ok h
  injection h with h
  injection h with e1 e2
  subst e1 e2
  rcases hm with ⟨rfl, rfl⟩ | ⟨w, w', rfl, rfl, hs⟩
  · injection h1 with h1
    subst h1
    exact ⟨Z, hZ, add_ok hY hZ h3, sub_ok hY hZ h2, Or.inl ⟨rfl, rfl⟩⟩
  · obtain ⟨hR, hs⟩ := hs R h1
    exact ⟨R, hR, add_ok hY hR h3, sub_ok hY hR h2, Or.inr ⟨w', rfl, hs⟩⟩

theorem opGs_inv (h : opGs dbg mul oA Y Z = .ok (U, W)) (hY : Y.min ≤ Y.max) (hZ : Z.min ≤ Z.max)
    (hm : MulSound mul oA oC ⟨Y.min - Z.max, Y.max - Z.min⟩) :
    W.min ≤ W.max ∧ U = ⟨Y.min + Z.min, Y.max + Z.max⟩ ∧
      ((oC = none ∧ W = ⟨Y.min - Z.max, Y.max - Z.min⟩) ∨
        ∃ w, oC = some w ∧ ∀ x y, x ∈ Y → y ∈ Z → Spec.red ((x - y) * w) ∈ W) := by
  unfold opGs at h
  obtain ⟨D, h1, h⟩ := bind_ok h
  obtain ⟨v, h2, h⟩ := bind_ok h
  obtain ⟨u, h3, h⟩ := bind_ok h
  injection h with h
  injection h with e1 e2
  subst e1 e2
  have hD := sub_ok hY hZ h1
  subst hD
  rcases hm with ⟨rfl, rfl⟩ | ⟨w, w', rfl, rfl, hs⟩
  · injection h2 with h2
    subst h2
    exact ⟨by simp only; omega, add_ok hY hZ h3, Or.inl ⟨rfl, rfl⟩⟩
  · obtain ⟨hR, hs⟩ := hs _ h2
    refine ⟨hR, add_ok hY hZ h3, Or.inr ⟨w', rfl, fun x y hx hy => hs _ ?_⟩⟩
    rw [mem_iff] at hx hy ⊢
    simp only
    omega

end

/-! ### Concrete butterflies -/

/-- The interval is within `[-L, L]`. -/
def Within (L : Int) (X : Ivl) : Prop := -L ≤ X.min ∧ X.max ≤ L

theorem red_range {z : Int} (h1 : -2147471362 ≤ Spec.red z) (h2 : Spec.red z ≤ 2147471362) :
    -8796042698752 ≤ z ∧ z ≤ 8796093022207 := by
  unfold Spec.red at h1 h2
  omega

theorem wp_mul_red {E : Err → Prop} {x y : Int} {P : Int → Prop}
    (hB : (∀ e, E e) ∨ (-8796042698752 ≤ x * y ∧ x * y ≤ 8796093022207))
    (h : P (Spec.red (x * y))) : Wp E (NttRed.mul_red x y) P := by
  by_cases hb : -8796042698752 ≤ x * y ∧ x * y ≤ 8796093022207
  · exact NttRed.wp_of_eq (NttRed.mul_red_eq hb.1 hb.2) h
  · have hE : ∀ e, E e := hB.resolve_right hb
    by_cases h2 : 8796093022208 ≤ x * y ∧ x * y ≤ 8796093026303
    · rw [NttRed.mul_red_overflow h2.1 h2.2]
      exact wp_error.2 (hE _)
    · unfold NttRed.mul_red
      generalize x * y = z at *
      by_cases h64 : I64 z
      · rw [NttRed.i64_ok h64]
        have : (decide (-8796042698752 ≤ z) && decide (z ≤ 8796093026303)) = false := by
          simp; omega
        show Wp E (cassert _ >>= _) _
        rw [this]
        exact wp_error.2 (hE _)
      · rw [wp_bind]
        unfold i64
        rw [if_neg h64]
        exact wp_error.2 (hE _)

theorem wp_i32' {E : Err → Prop} {x : Int} {P : Int → Prop} (hB : (∀ e, E e) ∨ I32 x) (h : P x) :
    Wp E (i32 x) P := by
  by_cases hx : I32 x
  · exact wp_i32 hx h
  · unfold i32
    rw [if_neg hx]
    exact wp_error.2 (hB.resolve_right hx _)

section
variable {E : Err → Prop} {s k : Nat} {c : Array Int} {x y : Int}

theorem ctC (hsk : s ≠ k) (oC : Option Int) (hx : c[s]? = some x) (hy : c[k]? = some y) {r : Int}
    (hr : (oC = none ∧ r = y) ∨ ∃ w, oC = some w ∧ r = Spec.red (y * w))
    (hB : (∀ e, E e) ∨ ((-2147471362 ≤ x + r ∧ x + r ≤ 2147471362) ∧
      (-2147471362 ≤ x - r ∧ x - r ≤ 2147471362))) :
    Wp E (bfo NttRed.bf0 NttRed.ctBf oC s k c)
      (fun c' => c' = (c.setIfInBounds k (x - r)).setIfInBounds s (x + r)) := by
  rcases hr with ⟨rfl, rfl⟩ | ⟨w, rfl, rfl⟩
  · simp only [bfo]
    unfold NttRed.bf0
    simp only [wp_bind]
    exact wp_rd_some hy (wp_rd_some hx (wp_i32' (hB.imp_right fun h => ⟨by omega, by omega⟩)
      (wp_wr (getElem?_lt hy) (wp_rd_some (Ntt.get_set_ne hsk hx)
      (wp_i32' (hB.imp_right fun h => ⟨by omega, by omega⟩)
      (wp_wr (by simpa using getElem?_lt hx) rfl))))))
  · simp only [bfo]
    unfold NttRed.ctBf
    simp only [wp_bind]
    exact wp_rd_some hy (wp_mul_red (hB.imp_right fun h => red_range (by omega) (by omega))
      (wp_rd_some hx (wp_i32' (hB.imp_right fun h => ⟨by omega, by omega⟩)
      (wp_wr (getElem?_lt hy) (wp_rd_some (Ntt.get_set_ne hsk hx)
      (wp_i32' (hB.imp_right fun h => ⟨by omega, by omega⟩)
      (wp_wr (by simpa using getElem?_lt hx) rfl)))))))

theorem gsC (hsk : s ≠ k) (oC : Option Int) (hx : c[s]? = some x) (hy : c[k]? = some y) {v : Int}
    (hv : (oC = none ∧ v = x - y) ∨ ∃ w, oC = some w ∧ v = Spec.red ((x - y) * w))
    (hB : (∀ e, E e) ∨ (I32 (x - y) ∧ I32 (x + y) ∧ -2147471362 ≤ v ∧ v ≤ 2147471362)) :
    Wp E (bfo NttRed.bf0 NttRed.gsBf oC s k c)
      (fun c' => c' = (c.setIfInBounds k v).setIfInBounds s (x + y)) := by
  rcases hv with ⟨rfl, rfl⟩ | ⟨w, rfl, rfl⟩
  · simp only [bfo]
    unfold NttRed.bf0
    simp only [wp_bind]
    exact wp_rd_some hy (wp_rd_some hx (wp_i32' (hB.imp_right fun h => h.1)
      (wp_wr (getElem?_lt hy) (wp_rd_some (Ntt.get_set_ne hsk hx)
      (wp_i32' (hB.imp_right fun h => h.2.1)
      (wp_wr (by simpa using getElem?_lt hx) rfl))))))
  · simp only [bfo]
    unfold NttRed.gsBf
    simp only [wp_bind]
    exact wp_rd_some hy (wp_rd_some hx (wp_i32' (hB.imp_right fun h => h.1)
      (wp_mul_red (hB.imp_right fun h => red_range h.2.2.1 h.2.2.2)
      (wp_wr (getElem?_lt hy) (wp_rd_some (Ntt.get_set_ne hsk hx)
      (wp_i32' (hB.imp_right fun h => h.2.1)
      (wp_wr (by simpa using getElem?_lt hx) rfl)))))))

end

/-! ### Rounds -/

section
variable {E : Err → Prop} {dbg : Bool} {mul : τ → Ivl → M Ivl} {n K : Nat} {h B : Nat → Nat}
  {OA : Nat → Nat → Nat → Option τ} {OC : Nat → Nat → Nat → Option Int} {A : Array Ivl}

/-- The concrete elements are in the intervals of the abstract run. -/
def InVal (h : Nat → Nat) (O : Nat → Nat → Nat → Option τ)
    (op : Option τ → Ivl → Ivl → M (Ivl × Ivl)) (A : Array Ivl) (m i : Nat) (x : Int) : Prop :=
  ∃ X, Val h O op A m i X ∧ X.min ≤ X.max ∧ x ∈ X

theorem absCt_round (m : Nat) :
    RoundSpec (fun _ => True) n (h m) (B m) (OA m) (absBf0 dbg) (fun w => absCt dbg (mul w))
      (Val h OA (opCt dbg mul) A m) (Val h OA (opCt dbg mul) A (m + 1)) := by
  intro b j _ hj
  exact Val.bf hj fun c Y Z _ hY hZ => absCt_op _ hY hZ

theorem absGs_round (m : Nat) :
    RoundSpec (fun _ => True) n (h m) (B m) (OA m) (absBf0 dbg) (fun w => absGs dbg (mul w))
      (Val h OA (opGs dbg mul) A m) (Val h OA (opGs dbg mul) A (m + 1)) := by
  intro b j _ hj
  exact Val.bf hj fun c Y Z _ hY hZ => absGs_op _ hY hZ

theorem ct_round {m : Nat} (hn : n = 2 * h m * B m)
    (hex : ∀ i, i < n → ∃ X, Val h OA (opCt dbg mul) A (m + 1) i X)
    (hB : (∀ e, E e) ∨ ∀ i X, Val h OA (opCt dbg mul) A (m + 1) i X → Within 2147471362 X)
    (hm : ∀ b j Z, b < B m → j < h m → Val h OA (opCt dbg mul) A m (2 * h m * b + j + h m) Z →
      Z.min ≤ Z.max → MulSound mul (OA m b j) (OC m b j) Z) :
    RoundSpec E n (h m) (B m) (OC m) NttRed.bf0 NttRed.ctBf
      (InVal h OA (opCt dbg mul) A m) (InVal h OA (opCt dbg mul) A (m + 1)) := by
  rintro b j hb hj c x y hc hx hy ⟨Y, hY, hY1, hxY⟩ ⟨Z, hZ, hZ1, hyZ⟩
  have hlt : 2 * h m * b + j < n := by have := getElem?_lt hx; omega
  obtain ⟨U, hU⟩ := hex _ hlt
  obtain ⟨W, ho, hW⟩ := Val.step hj hY hZ hU
  obtain ⟨R, hR, eU, eW, hc2⟩ := opCt_inv ho hY1 hZ1 (hm b j Z hb hj hZ hZ1)
  have key : ∃ r, ((OC m b j = none ∧ r = y) ∨ ∃ w, OC m b j = some w ∧ r = Spec.red (y * w)) ∧
      r ∈ R := by
    rcases hc2 with ⟨h0, rfl⟩ | ⟨w, h0, hs⟩
    · exact ⟨y, Or.inl ⟨h0, rfl⟩, hyZ⟩
    · exact ⟨_, Or.inr ⟨w, h0, rfl⟩, hs y hyZ⟩
  obtain ⟨r, hr, hrR⟩ := key
  rw [mem_iff] at hrR hxY
  have hu : x + r ∈ U := by rw [eU, mem_iff]; simp only; omega
  have hw : x - r ∈ W := by rw [eW, mem_iff]; simp only; omega
  refine (ctC (by omega) _ hx hy hr (hB.imp_right fun hB => ?_)).mono ?_
  · have b1 := hB _ _ hU
    have b2 := hB _ _ hW
    unfold Within at b1 b2
    rw [mem_iff] at hu hw
    omega
  · rintro c' rfl
    exact ⟨_, _, rfl, ⟨U, hU, by rw [eU]; simp only; omega, hu⟩,
      ⟨W, hW, by rw [eW]; simp only; omega, hw⟩⟩

theorem gs_round {m : Nat} (hn : n = 2 * h m * B m)
    (hex : ∀ i, i < n → ∃ X, Val h OA (opGs dbg mul) A (m + 1) i X)
    (hB : (∀ e, E e) ∨ ((∀ i X, Val h OA (opGs dbg mul) A m i X → Within 1073741823 X) ∧
      ∀ i X, Val h OA (opGs dbg mul) A (m + 1) i X → Within 2147471362 X))
    (hm : ∀ b j Y Z, b < B m → j < h m → Val h OA (opGs dbg mul) A m (2 * h m * b + j) Y →
      Val h OA (opGs dbg mul) A m (2 * h m * b + j + h m) Z → Y.min ≤ Y.max → Z.min ≤ Z.max →
      MulSound mul (OA m b j) (OC m b j) ⟨Y.min - Z.max, Y.max - Z.min⟩) :
    RoundSpec E n (h m) (B m) (OC m) NttRed.bf0 NttRed.gsBf
      (InVal h OA (opGs dbg mul) A m) (InVal h OA (opGs dbg mul) A (m + 1)) := by
  rintro b j hb hj c x y hc hx hy ⟨Y, hY, hY1, hxY⟩ ⟨Z, hZ, hZ1, hyZ⟩
  have hlt : 2 * h m * b + j < n := by have := getElem?_lt hx; omega
  obtain ⟨U, hU⟩ := hex _ hlt
  obtain ⟨W, ho, hW⟩ := Val.step hj hY hZ hU
  obtain ⟨hW1, eU, hc2⟩ := opGs_inv ho hY1 hZ1 (hm b j Y Z hb hj hY hZ hY1 hZ1)
  have key : ∃ v, ((OC m b j = none ∧ v = x - y) ∨
      ∃ w, OC m b j = some w ∧ v = Spec.red ((x - y) * w)) ∧ v ∈ W := by
    rcases hc2 with ⟨h0, e⟩ | ⟨w, h0, hs⟩
    · refine ⟨x - y, Or.inl ⟨h0, rfl⟩, ?_⟩
      rw [mem_iff] at hxY hyZ
      rw [e, mem_iff]; simp only; omega
    · exact ⟨_, Or.inr ⟨w, h0, rfl⟩, hs x y hxY hyZ⟩
  obtain ⟨v, hv, hvW⟩ := key
  rw [mem_iff] at hxY hyZ
  have hu : x + y ∈ U := by rw [eU, mem_iff]; simp only; omega
  refine (gsC (by omega) _ hx hy hv (hB.imp_right fun hB => ?_)).mono ?_
  · have b1 := hB.1 _ _ hY
    have b2 := hB.1 _ _ hZ
    have b3 := hB.2 _ _ hW
    unfold Within at b1 b2 b3
    rw [mem_iff] at hvW
    exact ⟨⟨by omega, by omega⟩, ⟨by omega, by omega⟩, by omega, by omega⟩
  · rintro c' rfl
    exact ⟨_, _, rfl, ⟨U, hU, by rw [eU]; simp only; omega, hu⟩, ⟨W, hW, hW1, hvW⟩⟩

end

/-! ### Reading the result of an abstract run -/

section
variable {op : Option τ → Ivl → Ivl → M (Ivl × Ivl)} {k : Nat} {h : Nat → Nat}
  {OA : Nat → Nat → Nat → Option τ} {A A' : Array Ivl} {log : List Shown}

/-- Every value of round `m` is displayed. -/
theorem shown_val (hl : Logged (2 ^ k) (Val h OA op A) (k + 1) log) {m i : Nat} (hm : m ≤ k)
    (hi : i < 2 ^ k) : ∃ sh X, log[m]? = some sh ∧ sh.a[i]? = some X ∧ Val h OA op A m i X := by
  have h1 : m < log.length := by rw [hl.1]; omega
  have h2 : log[m]? = some log[m] := List.getElem?_eq_getElem h1
  have h3 := hl.2 m _ h2
  have h4 : i < log[m].a.size := by rw [h3.1]; exact hi
  exact ⟨_, _, h2, Array.getElem?_eq_getElem h4, h3.2 i _ (Array.getElem?_eq_getElem h4)⟩

theorem Val.lt {m i : Nat} {X : Ivl} (hA : A.size = 2 ^ k) (hv : Val h OA op A m i X) :
    i < 2 ^ k := by
  induction m generalizing i X with
  | zero => unfold Val at hv; have := getElem?_lt hv; omega
  | succ m ih =>
    obtain ⟨b, j, Y, Z, U, W, _, hY, hZ, _, hi⟩ := hv
    rcases hi with ⟨rfl, _⟩ | ⟨rfl, _⟩
    · exact ih hY
    · exact ih hZ

/-- A property of all displayed intervals holds for all the values. -/
theorem shown_all (hA : A.size = 2 ^ k) (hl : Logged (2 ^ k) (Val h OA op A) (k + 1) log)
    {Q : Ivl → Prop} (hQ : ∀ sh, sh ∈ log → ∀ (i : Nat) (X : Ivl), sh.a[i]? = some X → Q X)
    {m i : Nat} {X : Ivl} (hm : m ≤ k) (hv : Val h OA op A m i X) : Q X := by
  obtain ⟨sh, Y, h1, h2, h3⟩ := shown_val hl hm (Val.lt hA hv)
  rw [hv.unique h3]
  exact hQ sh (List.mem_of_getElem? h1) i Y h2

theorem inVal_zero {a : Array Int} (hA : A.size = 2 ^ k) (hv : ValidArray A) (hi : Inside a A) :
    PW (2 ^ k) (InVal h OA op A 0) a := by
  refine ⟨by rw [hi.1, hA], fun i x hx => ?_⟩
  have hlt : i < A.size := by rw [← hi.1]; exact getElem?_lt hx
  have e : A[i]? = some A[i] := Array.getElem?_eq_getElem hlt
  exact ⟨A[i], e, (hv i _ e).2.2, hi.2 i x _ hx e⟩

theorem inVal_done {a' : Array Int} (hr : PW (2 ^ k) (Val h OA op A k) A')
    (ha : PW (2 ^ k) (InVal h OA op A k) a') : Inside a' A' := by
  refine ⟨by rw [ha.1, hr.1], fun i x X hx hX => ?_⟩
  obtain ⟨Y, hY, _, hm⟩ := ha.2 i x hx
  rw [(hr.2 i X hX).unique hY]
  exact hm

end

/-! ### Runs -/

section
variable {E : Err → Prop} {dbg : Bool} {mul : τ → Ivl → M Ivl} {k : Nat} {h B : Nat → Nat}
  {OA : Nat → Nat → Nat → Option τ} {OC : Nat → Nat → Nat → Option Int} {A A' : Array Ivl}
  {log : List Shown} {a : Array Int} {run : M (Array Int)}

/-- What the transforms satisfy (from `Proofs/Skeleton.lean`). -/
def Runs (E : Err → Prop) (k : Nat) (h B : Nat → Nat) (O : Nat → Nat → Nat → Option Int)
    (bf : Int → Nat → Nat → Array Int → M (Array Int)) (a : Array Int) (run : M (Array Int)) :
    Prop :=
  ∀ P : Nat → Nat → Int → Prop,
    (∀ m, m < k → RoundSpec E (2 ^ k) (h m) (B m) (O m) NttRed.bf0 bf (P m) (P (m + 1))) →
    PW (2 ^ k) (P 0) a → Wp E run (PW (2 ^ k) (P k))

/-- All displayed intervals satisfy `Q`. -/
def ShownAll (Q : Ivl → Prop) (log : List Shown) : Prop :=
  ∀ sh, sh ∈ log → ∀ (i : Nat) (X : Ivl), sh.a[i]? = some X → Q X

theorem ct_sound (hA : A.size = 2 ^ k) (hv : ValidArray A) (hi : Inside a A)
    (hr : PW (2 ^ k) (Val h OA (opCt dbg mul) A k) A')
    (hl : Logged (2 ^ k) (Val h OA (opCt dbg mul) A) (k + 1) log)
    (hn : ∀ m, m < k → 2 ^ k = 2 * h m * B m)
    (hB : (∀ e, E e) ∨ ShownAll (Within 2147471362) log)
    (hm : ∀ m b j Z, m < k → b < B m → j < h m →
      Val h OA (opCt dbg mul) A m (2 * h m * b + j + h m) Z →
      Z.min ≤ Z.max → MulSound mul (OA m b j) (OC m b j) Z)
    (hrun : Runs E k h B OC NttRed.ctBf a run) : Wp E run (fun a' => Inside a' A') := by
  refine (hrun (InVal h OA (opCt dbg mul) A) (fun m hmk => ?_) (inVal_zero hA hv hi)).mono
    fun a' ha' => inVal_done hr ha'
  refine ct_round (hn m hmk) (fun i hi => ?_) (hB.imp_right fun hB i X hX => ?_)
    (fun b j Z hb hj => hm m b j Z hmk hb hj)
  · obtain ⟨_, X, _, _, hX⟩ := shown_val hl (m := m + 1) (by omega) hi
    exact ⟨X, hX⟩
  · exact shown_all hA hl hB (by omega) hX

theorem gs_sound (hA : A.size = 2 ^ k) (hv : ValidArray A) (hi : Inside a A)
    (hr : PW (2 ^ k) (Val h OA (opGs dbg mul) A k) A')
    (hl : Logged (2 ^ k) (Val h OA (opGs dbg mul) A) (k + 1) log)
    (hn : ∀ m, m < k → 2 ^ k = 2 * h m * B m)
    (hB : (∀ e, E e) ∨ ShownAll (Within 1073741823) log)
    (hm : ∀ m b j Y Z, m < k → b < B m → j < h m →
      Val h OA (opGs dbg mul) A m (2 * h m * b + j) Y →
      Val h OA (opGs dbg mul) A m (2 * h m * b + j + h m) Z → Y.min ≤ Y.max → Z.min ≤ Z.max →
      MulSound mul (OA m b j) (OC m b j) ⟨Y.min - Z.max, Y.max - Z.min⟩)
    (hrun : Runs E k h B OC NttRed.gsBf a run) : Wp E run (fun a' => Inside a' A') := by
  refine (hrun (InVal h OA (opGs dbg mul) A) (fun m hmk => ?_) (inVal_zero hA hv hi)).mono
    fun a' ha' => inVal_done hr ha'
  refine gs_round (hn m hmk) (fun i hi => ?_) (hB.imp_right fun hB => ⟨fun i X hX => ?_,
    fun i X hX => ?_⟩) (fun b j Y Z hb hj => hm m b j Y Z hmk hb hj)
  · obtain ⟨_, X, _, _, hX⟩ := shown_val hl (m := m + 1) (by omega) hi
    exact ⟨X, hX⟩
  · exact shown_all hA hl hB (by omega) hX
  · have := shown_all hA hl hB (by omega) hX
    unfold Within at this ⊢
    omega

end

end NttRedInterval
