import Verif.Proofs.RedBounds
import Verif.Proofs.Skeleton
import Verif.Proofs.NttRed

/-
Proofs about `ntt_ct_bounds` and `ntt_gs_bounds` (src/red_bounds.c) and the transforms of
src/ntt_red.c that they are about.
-/

namespace RedBounds
open C NTT
open NttRed (wp_of_eq)
open Spec (ctSet gsSet Entries Chain Table16)

theorem ctSet_mem {b v : Int} {W : Int → Prop} :
    v ∈ ctSet b W ↔ ∃ w, W w ∧ v ∈ ctSet b (fun u => u = w) := by
  constructor
  · rintro ⟨x, y, w, hx, hy, hw, h⟩
    exact ⟨w, hw, x, y, w, hx, hy, rfl, h⟩
  · rintro ⟨w, hw, x, y, _, hx, hy, rfl, h⟩
    exact ⟨x, y, _, hx, hy, hw, h⟩

theorem gsSet_mem {b v : Int} {W : Int → Prop} :
    v ∈ gsSet b W ↔ ∃ w, W w ∧ v ∈ gsSet b (fun u => u = w) := by
  constructor
  · rintro ⟨x, y, w, hx, hy, hw, h⟩
    exact ⟨w, hw, x, y, w, hx, hy, rfl, h⟩
  · rintro ⟨w, hw, x, y, _, hx, hy, rfl, h⟩
    exact ⟨x, y, _, hx, hy, hw, h⟩


section
variable {S : Int → (Int → Prop) → Set Int} {f : Int → Int → M Int} {p : Array Int}
  (hS : ∀ b v W, v ∈ S b W ↔ ∃ w, W w ∧ v ∈ S b (fun u => u = w))
  (hpos : ∀ b v W, v ∈ S b W → 0 ≤ v)
  (hf : ∀ b w r, 0 ≤ b → -32768 ≤ w → w ≤ 32767 → f b w = .ok r →
    IsGreatest (S b (fun u => u = w)) r)
  (hp : ∀ (i : Nat) (w : Int), p[i]? = some w → -32768 ≤ w ∧ w ≤ 32767)
include hS hpos hf hp

omit hpos hf hp in
theorem greatest_union {b c d : Int} {W : Int → Prop} {w : Int} (h1 : IsGreatest (S b W) c)
    (h2 : IsGreatest (S b (fun u => u = w)) d) :
    IsGreatest (S b (fun u => W u ∨ u = w)) (if d > c then d else c) := by
  have hd : ∀ v, v ∈ S b (fun u => W u ∨ u = w) → v ∈ S b W ∨ v ∈ S b (fun u => u = w) := by
    intro v hv
    obtain ⟨u, hu, hv'⟩ := (hS _ _ _).1 hv
    rcases hu with hu | rfl
    · exact Or.inl ((hS _ _ _).2 ⟨u, hu, hv'⟩)
    · exact Or.inr hv'
  constructor
  · split
    · exact (hS _ _ _).2 ⟨w, Or.inr rfl, h2.1⟩
    · obtain ⟨u, hu, hv⟩ := (hS _ _ _).1 h1.1
      exact (hS _ _ _).2 ⟨u, Or.inl hu, hv⟩
  · intro v hv
    rcases hd v hv with h | h
    · have := h1.2 h
      split <;> omega
    · have := h2.2 h
      split <;> omega

/-- Invariant of the outer loop after `m` rounds; `T m` is the `t` of round `m`. -/
def BInv (S : Int → (Int → Prop) → Set Int) (p : Array Int) (T : Nat → Nat) (b0 : Int) (sz m : Nat)
    (st : Nat × Int × Array Int) : Prop :=
  st.1 = m ∧ m < st.2.2.size ∧ st.2.2.size = sz ∧ st.2.1 = Spec.elt st.2.2 m ∧
  Spec.elt st.2.2 0 = b0 ∧ 0 ≤ st.2.1 ∧
  ∀ j, j < m → IsGreatest (S (Spec.elt st.2.2 j) (Entries p (T j) (T j)))
    (Spec.elt st.2.2 (j + 1))

theorem boundsRound_ok {T : Nat → Nat} {b0 : Int} {sz m : Nat} {st : Nat × Int × Array Int}
    (hm : m < 31) (ht0 : 0 < T m) (ht : T m ≤ 2147483647) (h : BInv S p T b0 sz m st) :
    Wp (fun _ => True) (boundsRound f p (T m) st) (BInv S p T b0 sz (m + 1)) := by
  obtain ⟨k, b, bound⟩ := st
  obtain ⟨h1, h2, h3, h4, h5, h6, h7⟩ := h
  dsimp only at h1 h2 h3 h4 h5 h6 h7
  subst h1
  unfold boundsRound
  simp only [wp_bind]
  have hrd : ∀ i, Wp (fun _ => True) (rd p i) (fun w => p[i]? = some w) := by
    intro i
    refine wp_tol fun r hr => ?_
    unfold rd at hr
    split at hr
    · next x hx => rw [hx]; injection hr with hr; rw [hr]
    · cases hr
  refine (hrd _).mono fun w hw => ?_
  have hw16 := hp _ _ hw
  refine Wp.mono (P := fun c => IsGreatest (S b (fun u => u = w)) c)
    (wp_tol fun r hr => hf b w r h6 hw16.1 hw16.2 hr) fun c hc => ?_
  refine wp_forUp1 (fun j c => IsGreatest (S b (Entries p (T k) j)) c) (by omega) (by omega) ?_ ?_ ?_
  · have e : Entries p (T k) 1 = fun u => u = w := by
      funext u
      refine propext ⟨?_, ?_⟩
      · rintro ⟨i, hi, hu⟩
        have : i = 0 := by omega
        subst this
        rw [Nat.add_zero, hw] at hu
        injection hu with hu; exact hu.symm
      · rintro rfl
        exact ⟨0, by omega, hw⟩
    rw [e]; exact hc
  · intro j c hj1 hj2 hc
    have hu : u32 (T k + j) = T k + j := by unfold u32; omega
    simp only [wp_bind, hu]
    refine (hrd _).mono fun w' hw' => ?_
    have hw16' := hp _ _ hw'
    refine Wp.mono (P := fun c => IsGreatest (S b (fun u => u = w')) c)
      (wp_tol fun r hr => hf b w' r h6 hw16'.1 hw16'.2 hr) fun d hd => ?_
    rw [wp_pure]
    have e : Entries p (T k) (j + 1) = fun u => Entries p (T k) j u ∨ u = w' := by
      funext u
      refine propext ⟨?_, ?_⟩
      · rintro ⟨i, hi, hv⟩
        by_cases hij : i = j
        · subst hij
          rw [hw'] at hv
          injection hv with hv; exact Or.inr hv.symm
        · exact Or.inl ⟨i, by omega, hv⟩
      · rintro (⟨i, hi, hu⟩ | rfl)
        · exact ⟨i, by omega, hu⟩
        · exact ⟨j, by omega, hw'⟩
    rw [e]
    exact greatest_union hS hc hd
  · intro c hc
    have hk : u32 (k + 1) = k + 1 := by unfold u32; omega
    rw [hk]
    unfold wr
    split
    · next hlt =>
      simp only [wp_ok, wp_pure]
      have e : ∀ j, Spec.elt (bound.setIfInBounds (k + 1) c) j =
          if j = k + 1 then c else Spec.elt bound j := by
        intro j
        unfold Spec.elt
        simp only [Array.getD_eq_getD_getElem?, Array.getElem?_setIfInBounds]
        by_cases hj : j = k + 1
        · subst hj; simp [hlt]
        · rw [if_neg (fun h => hj h.symm), if_neg hj]
      refine ⟨rfl, by simpa using hlt, by simpa using h3, ?_, ?_, hpos _ _ _ hc.1, ?_⟩
      · dsimp only; rw [e, if_pos rfl]
      · dsimp only; rw [e, if_neg (by omega), h5]
      · intro j hj
        dsimp only
        rw [e, e, if_neg (by omega)]
        by_cases hjk : j = k
        · subst hjk
          rw [if_pos rfl, ← h4]
          exact hc
        · rw [if_neg (by omega)]
          exact h7 j (by omega)
    · rw [wp_error]; trivial

end

theorem binv_init {S : Int → (Int → Prop) → Set Int} {p : Array Int} {T : Nat → Nat} {b0 : Int}
    {bound : Array Int} (hb : 0 ≤ b0) (h : 0 < bound.size) :
    BInv S p T b0 bound.size 0 (0, b0, bound.setIfInBounds 0 b0) := by
  have e : Spec.elt (bound.setIfInBounds 0 b0) 0 = b0 := by
    unfold Spec.elt
    simp [Array.getD_eq_getD_getElem?, h]
  exact ⟨rfl, by simpa using h, by simp, e.symm, e, hb, fun j hj => by omega⟩

theorem binv_done {S : Int → (Int → Prop) → Set Int} {p : Array Int} {T : Nat → Nat} {b0 : Int}
    {sz k : Nat} {st : Nat × Int × Array Int} (h : BInv S p T b0 sz k st) :
    (k < st.2.2.size ∧ st.2.2.size = sz) ∧ st.2.1 = Spec.elt st.2.2 k ∧
      Chain S p T k b0 (Spec.elt st.2.2) :=
  ⟨⟨h.2.1, h.2.2.1⟩, h.2.2.2.1, h.2.2.2.2.1, h.2.2.2.2.2.2⟩

theorem ct_fixed_ok {dbg : Bool} (b w r : Int) (hb : 0 ≤ b) (h1 : -32768 ≤ w) (h2 : w ≤ 32767)
    (h : ct_bound_fixed dbg b w = .ok r) : IsGreatest (ctSet b (fun u => u = w)) r := by
  by_cases hw : w = 0
  · exfalso
    subst hw
    have key : Wp (fun _ => True) (ct_bound_fixed dbg b 0) (fun _ => False) := by
      unfold ct_bound_fixed
      rw [wp_bind]
      refine wp_dassert_pure (by simpa using hb) ?_
      rw [wp_bind]
      refine wp_i64f (Or.inl trivial) ?_
      rw [min_red_mul_zero (by omega), wp_bind, wp_error]
      trivial
    exact wp_tol_ok key h
  · exact wp_tol_ok (wp_ct_bound_fixed (E := fun _ => True) hw ⟨by omega, by omega⟩ hb
      (Or.inl trivial)) h

theorem gs_fixed_ok {dbg : Bool} (b w r : Int) (hb : 0 ≤ b) (h1 : -32768 ≤ w) (h2 : w ≤ 32767)
    (h : gs_bound_fixed dbg b w = .ok r) : IsGreatest (gsSet b (fun u => u = w)) r := by
  by_cases hw : w = 0
  · exfalso
    subst hw
    have key : Wp (fun _ => True) (gs_bound_fixed dbg b 0) (fun _ => False) := by
      unfold gs_bound_fixed
      rw [wp_bind]
      refine wp_dassert_pure (by simpa using hb) ?_
      rw [wp_bind]
      refine wp_i64f (Or.inl trivial) ?_
      rw [wp_bind]
      refine wp_i64f (Or.inl trivial) ?_
      rw [min_red_mul_zero (by omega), wp_bind, wp_error]
      trivial
    exact wp_tol_ok key h
  · exact wp_tol_ok (wp_gs_bound_fixed (E := fun _ => True) hw ⟨by omega, by omega⟩ hb
      (Or.inl trivial)) h

theorem ctSet_nonneg (b v : Int) (W : Int → Prop) (h : v ∈ ctSet b W) : 0 ≤ v := by
  obtain ⟨x, y, w, _, _, _, h | h⟩ := h <;> rw [h] <;> exact abs_nonneg _

theorem gsSet_nonneg (b v : Int) (W : Int → Prop) (h : v ∈ gsSet b W) : 0 ≤ v := by
  obtain ⟨x, y, w, _, _, _, h | h⟩ := h <;> rw [h] <;> exact abs_nonneg _

theorem pow_le31 {m : Nat} (h : m < 31) : 2 ^ m ≤ 2147483647 := by
  have : 2 ^ m ≤ 2 ^ 30 := Nat.pow_le_pow_right (by omega) (by omega)
  omega

theorem ntt_ct_bounds_ok {dbg : Bool} {b0 : Int} {k : Nat} {p bound : Array Int} (hk : k ≤ 31)
    (hb : 0 ≤ b0) (hp : Table16 p) {B : Int} {bound' : Array Int}
    (h : ntt_ct_bounds dbg b0 (2 ^ k) p bound = .ok (B, bound')) :
    (k < bound'.size ∧ bound'.size = bound.size) ∧ B = Spec.elt bound' k ∧
      Chain ctSet p (fun m => 2 ^ m) k b0 (Spec.elt bound') := by
  refine wp_tol_ok (P := fun r => (k < r.2.size ∧ r.2.size = bound.size) ∧ r.1 = Spec.elt r.2 k ∧
      Chain ctSet p (fun m => 2 ^ m) k b0 (Spec.elt r.2)) ?_ h
  unfold ntt_ct_bounds
  rw [wp_bind]
  unfold wr
  split
  · next hs =>
    rw [wp_ok, wp_bind]
    refine wp_forShl (fun m st => BInv ctSet p (fun m => 2 ^ m) b0 bound.size m st) hk
      (binv_init hb hs) ?_ ?_
    · intro m st hm hst
      exact boundsRound_ok (S := ctSet) (m := m) (fun _ _ _ => ctSet_mem) ctSet_nonneg ct_fixed_ok hp
        (T := fun m => 2 ^ m) (by omega) (Nat.two_pow_pos m) (pow_le31 (by omega)) hst
    · intro st hst
      rw [wp_pure]
      exact binv_done hst
  · rw [wp_error]; trivial

theorem ntt_gs_bounds_ok {dbg : Bool} {b0 : Int} {k : Nat} {p bound : Array Int} (hk : k ≤ 31)
    (hb : 0 ≤ b0) (hp : Table16 p) {B : Int} {bound' : Array Int}
    (h : ntt_gs_bounds dbg b0 (2 ^ k) p bound = .ok (B, bound')) :
    (k < bound'.size ∧ bound'.size = bound.size) ∧ B = Spec.elt bound' k ∧
      Chain gsSet p (fun m => 2 ^ (k - 1 - m)) k b0 (Spec.elt bound') := by
  refine wp_tol_ok (P := fun r => (k < r.2.size ∧ r.2.size = bound.size) ∧ r.1 = Spec.elt r.2 k ∧
      Chain gsSet p (fun m => 2 ^ (k - 1 - m)) k b0 (Spec.elt r.2)) ?_ h
  unfold ntt_gs_bounds
  rw [wp_bind]
  unfold wr
  split
  · next hs =>
    rw [wp_ok, wp_bind]
    refine wp_forShr (fun m st => BInv gsSet p (fun m => 2 ^ (k - 1 - m)) b0 bound.size m st) hk
      (binv_init hb hs) ?_ ?_
    · intro m st hm hst
      exact boundsRound_ok (S := gsSet) (m := m) (fun _ _ _ => gsSet_mem) gsSet_nonneg gs_fixed_ok hp
        (T := fun m => 2 ^ (k - 1 - m)) (by omega) (Nat.two_pow_pos _) (pow_le31 (by omega)) hst
    · intro st hst
      rw [wp_pure]
      exact binv_done hst
  · rw [wp_error]; trivial

/-! ### the transforms -/

theorem chain_mono_ct {p : Array Int} {T : Nat → Nat} {k : Nat} {b0 : Int} {B : Nat → Int}
    (h0 : 0 ≤ b0) (h : Chain ctSet p T k b0 B) : ∀ m, m ≤ k → 0 ≤ B m ∧ B m ≤ B k := by
  have hpos : ∀ m, m ≤ k → 0 ≤ B m := by
    intro m hm
    cases m with
    | zero => rw [h.1]; exact h0
    | succ m => exact ctSet_nonneg _ _ _ (h.2 m (by omega)).1
  have hstep : ∀ m, m < k → B m ≤ B (m + 1) := by
    intro m hm
    obtain ⟨⟨x, y, w, hx, hy, hw, _⟩, hub⟩ := h.2 m hm
    have hb := hpos m (by omega)
    have := hub (a := |B m + Spec.red (w * 0)|) ⟨B m, 0, w, by rw [abs_of_nonneg hb],
      by simpa using hb, hw, Or.inl rfl⟩
    rw [red_zero, add_zero, abs_of_nonneg hb] at this
    exact this
  intro m hm
  refine ⟨hpos m hm, ?_⟩
  obtain ⟨d, rfl⟩ : ∃ d, k = m + d := ⟨k - m, by omega⟩
  clear hm
  induction d with
  | zero => exact le_refl _
  | succ d ih =>
    have : Chain ctSet p T (m + d) b0 B := ⟨h.1, fun j hj => h.2 j (by omega)⟩
    exact le_trans (ih this (fun j hj => hpos j (by omega)) (fun j hj => hstep j (by omega)))
      (hstep (m + d) (by omega))

theorem chain_mono_gs {p : Array Int} {T : Nat → Nat} {k : Nat} {b0 : Int} {B : Nat → Int}
    (h0 : 0 ≤ b0) (h : Chain gsSet p T k b0 B) :
    ∀ m, m < k → 0 ≤ B m ∧ 2 * B m ≤ B (m + 1) ∧ B (m + 1) ≤ B k := by
  have hpos : ∀ m, m ≤ k → 0 ≤ B m := by
    intro m hm
    cases m with
    | zero => rw [h.1]; exact h0
    | succ m => exact gsSet_nonneg _ _ _ (h.2 m (by omega)).1
  have hstep : ∀ m, m < k → 2 * B m ≤ B (m + 1) := by
    intro m hm
    obtain ⟨⟨x, y, w, hx, hy, hw, _⟩, hub⟩ := h.2 m hm
    have hb := hpos m (by omega)
    have hbb : |B m| ≤ B m := by rw [abs_of_nonneg hb]
    have := hub (a := |B m + B m|) ⟨B m, B m, w, hbb, hbb, hw, Or.inl rfl⟩
    rw [abs_of_nonneg (by omega)] at this
    omega
  have hmono : ∀ d m, m + d ≤ k → B m ≤ B (m + d) := by
    intro d
    induction d with
    | zero => intro m _; exact le_refl _
    | succ d ih =>
      intro m hm
      have h1 := ih m (by omega)
      have h2 := hstep (m + d) (by omega)
      have h3 := hpos (m + d) (by omega)
      have e : m + (d + 1) = m + d + 1 := by omega
      rw [e]
      omega
  intro m hm
  refine ⟨hpos m (by omega), hstep m hm, ?_⟩
  have := hmono (k - (m + 1)) (m + 1) (by omega)
  rwa [show m + 1 + (k - (m + 1)) = k by omega] at this

section bf
variable {E : Err → Prop} {n s k : Nat} {b b' w : Int}

theorem ctBf_bound (hsk : s ≠ k) (h31 : b' ≤ 2147483647) (hS : b * |w| ≤ 8796042698752)
    (hub : ∀ v, v ∈ ctSet b (fun u => u = w) → v ≤ b') :
    BfSpec E (NttRed.ctBf w s k) n s k (fun _ x => |x| ≤ b) (fun _ x => |x| ≤ b') := by
  intro a x y ha hx hy hbx hby
  have h1 := hub _ ⟨x, y, w, hbx, hby, rfl, Or.inl rfl⟩
  have h2 := hub _ ⟨x, y, w, hbx, hby, rfl, Or.inr rfl⟩
  have h3 : |y * w| ≤ 8796042698752 := by
    rw [abs_mul]
    exact le_trans (Int.mul_le_mul_of_nonneg_right hby (abs_nonneg w)) hS
  rw [mul_comm w y] at h1 h2
  have h1' := abs_le.1 h1
  have h2' := abs_le.1 h2
  rw [abs_le] at h3
  unfold NttRed.ctBf
  simp only [wp_bind]
  exact wp_rd_some hy (wp_of_eq (NttRed.mul_red_eq (by omega) (by omega)) (wp_rd_some hx
    (wp_i32 ⟨by omega, by omega⟩
    (wp_wr (getElem?_lt hy) (wp_rd_some (Ntt.get_set_ne hsk hx) (wp_i32 ⟨by omega, by omega⟩
    (wp_wr (by simpa using getElem?_lt hx) ⟨_, _, rfl, h1, h2⟩)))))))

theorem bf0_bound (hsk : s ≠ k) (h31 : b' ≤ 2147483647) (hub : 2 * b ≤ b') :
    BfSpec E (NttRed.bf0 s k) n s k (fun _ x => |x| ≤ b) (fun _ x => |x| ≤ b') := by
  intro a x y ha hx hy hbx hby
  rw [abs_le] at hbx hby
  unfold NttRed.bf0
  simp only [wp_bind]
  refine wp_rd_some hy (wp_rd_some hx
    (wp_i32 ⟨by omega, by omega⟩
    (wp_wr (getElem?_lt hy) (wp_rd_some (Ntt.get_set_ne hsk hx) (wp_i32 ⟨by omega, by omega⟩
    (wp_wr (by simpa using getElem?_lt hx) ⟨_, _, rfl, ?_, ?_⟩))))))
  · rw [abs_le]; omega
  · rw [abs_le]; omega

theorem gsBf_bound (hsk : s ≠ k) (h31 : b' ≤ 2147483647) (hS : 2 * b * |w| ≤ 8796042698752)
    (h2b : 2 * b ≤ b') (hub : ∀ v, v ∈ gsSet b (fun u => u = w) → v ≤ b') :
    BfSpec E (NttRed.gsBf w s k) n s k (fun _ x => |x| ≤ b) (fun _ x => |x| ≤ b') := by
  intro a x y ha hx hy hbx hby
  have h1 := hub _ ⟨x, y, w, hbx, hby, rfl, Or.inl rfl⟩
  have h2 := hub _ ⟨x, y, w, hbx, hby, rfl, Or.inr rfl⟩
  rw [abs_le] at hbx hby
  have h3 : |(x - y) * w| ≤ 8796042698752 := by
    rw [abs_mul]
    refine le_trans (Int.mul_le_mul_of_nonneg_right ?_ (abs_nonneg w)) hS
    rw [abs_le]; omega
  rw [mul_comm w (x - y)] at h2
  have h1' := abs_le.1 h1
  rw [abs_le] at h3
  unfold NttRed.gsBf
  simp only [wp_bind]
  exact wp_rd_some hy (wp_rd_some hx (wp_i32 ⟨by omega, by omega⟩
    (wp_of_eq (NttRed.mul_red_eq (by omega) (by omega))
    (wp_wr (getElem?_lt hy) (wp_rd_some (Ntt.get_set_ne hsk hx) (wp_i32 ⟨by omega, by omega⟩
    (wp_wr (by simpa using getElem?_lt hx) ⟨_, _, rfl, h1, h2⟩)))))))

end bf

end RedBounds

namespace RedBounds
open C NTT
open Spec (ctSet gsSet Entries Chain Table16 InRange elt)

section runs
variable {dbg : Bool} {b0 B : Int} {k : Nat} {p bound bound' a : Array Int} (hk : k ≤ 31)
  (hb : 0 ≤ b0) (hp : Table16 p) (ha : a.size = 2 ^ k) (hr : InRange (-b0) b0 a)
  (hps : 2 ^ k ≤ p.size) (h31 : B ≤ 2147483647)
  (hprod : ∀ (i : Nat) (w : Int), p[i]? = some w → B * |w| ≤ 8796042698752)

/-- The bound after `m` rounds. -/
def Rd (bound' : Array Int) (m : Nat) (_ : Nat) (x : Int) : Prop := |x| ≤ elt bound' m

theorem pw_rd0 (ha : a.size = 2 ^ k) (hr : InRange (-b0) b0 a) (h0 : elt bound' 0 = b0) :
    PW (2 ^ k) (Rd bound' 0) a := by
  refine ⟨ha, fun i x hx => ?_⟩
  have := hr i (getElem?_lt hx)
  unfold Rd
  rw [h0]
  simp only [elt, Array.getD_eq_getD_getElem?, hx, Option.getD_some] at this
  exact abs_le.2 this

theorem inRange_rd {B : Int} {a : Array Int} (h : PW (2 ^ k) (Rd bound' k) a)
    (hB : B = elt bound' k) : InRange (-B) B a := by
  intro i hi
  have h1 : a[i]? = some a[i] := Array.getElem?_eq_getElem hi
  have h2 := h.2 i _ h1
  unfold Rd at h2
  simp only [elt, Array.getD_eq_getD_getElem?, h1, Option.getD_some]
  rw [hB]
  exact abs_le.1 h2

include hk hb hp ha hr hps h31 hprod in
theorem ct_run (h : ntt_ct_bounds dbg b0 (2 ^ k) p bound = .ok (B, bound'))
    {f : M (Array Int)}
    (hf : (∀ (m : Nat) (w : Int) (j : Nat), m < k → j < 2 ^ m → p[2 ^ m + j]? = some w →
        ∀ s t : Nat, s ≠ t → BfSpec NoErr (NttRed.ctBf w s t) (2 ^ k) s t (Rd bound' m) (Rd bound' (m + 1))) →
      PW (2 ^ k) (Rd bound' 0) a → Wp NoErr f (PW (2 ^ k) (Rd bound' k))) :
    ∃ a', f = .ok a' ∧ a'.size = 2 ^ k ∧ InRange (-B) B a' := by
  obtain ⟨_, hB, hch⟩ := ntt_ct_bounds_ok hk hb hp h
  have hmono := chain_mono_ct hb hch
  suffices hbf : _ by
    obtain ⟨a', e, ha'⟩ := wp_total.1 (hf hbf (pw_rd0 ha hr hch.1))
    exact ⟨a', e, ha'.1, inRange_rd ha' hB⟩
  intro m w j hm hj hw s t hst
  have h1 := hmono m (by omega)
  have h2 := hmono (m + 1) (by omega)
  refine ctBf_bound hst (by omega) ?_ (fun v hv => ?_)
  · refine le_trans (Int.mul_le_mul_of_nonneg_right (b := B) (by omega) (abs_nonneg w))
      (hprod _ _ hw)
  · exact (hch.2 m hm).2 (ctSet_mem.2 ⟨w, ⟨j, hj, hw⟩, hv⟩)

include hk hb hp h31 in
theorem ct_run0 (h : ntt_ct_bounds dbg b0 (2 ^ k) p bound = .ok (B, bound'))
    (hone : ∀ m, m < k → p[2 ^ m]? = some (-4096)) {m s t : Nat} (hm : m < k) (hst : s ≠ t) :
    BfSpec NoErr (NttRed.bf0 s t) (2 ^ k) s t (Rd bound' m) (Rd bound' (m + 1)) := by
  obtain ⟨_, hB, hch⟩ := ntt_ct_bounds_ok hk hb hp h
  have hmono := chain_mono_ct hb hch
  have h1 := hmono m (by omega)
  have h2 := hmono (m + 1) (by omega)
  refine bf0_bound hst (by omega) ?_
  have hbb : |elt bound' m| ≤ elt bound' m := by rw [abs_of_nonneg h1.1]
  have hub := (hch.2 m hm).2
  have := hub (a := |elt bound' m + Spec.red (-4096 * elt bound' m)|)
    ⟨_, _, -4096, hbb, hbb, ⟨0, Nat.two_pow_pos m, hone m hm⟩, Or.inl rfl⟩
  have e : Spec.red (-4096 * elt bound' m) = elt bound' m := by unfold Spec.red; omega
  rw [e, abs_of_nonneg (by omega)] at this
  omega

include hk hb hp ha hr hps h31 hprod in
theorem gs_run (h : ntt_gs_bounds dbg b0 (2 ^ k) p bound = .ok (B, bound'))
    {f : M (Array Int)}
    (hf : (∀ (m : Nat) (w : Int) (j : Nat), m < k → j < 2 ^ (k - 1 - m) →
        p[2 ^ (k - 1 - m) + j]? = some w →
        ∀ s t : Nat, s ≠ t → BfSpec NoErr (NttRed.gsBf w s t) (2 ^ k) s t (Rd bound' m) (Rd bound' (m + 1))) →
      (∀ m, m < k → ∀ s t : Nat, s ≠ t →
        BfSpec NoErr (NttRed.bf0 s t) (2 ^ k) s t (Rd bound' m) (Rd bound' (m + 1))) →
      PW (2 ^ k) (Rd bound' 0) a → Wp NoErr f (PW (2 ^ k) (Rd bound' k))) :
    ∃ a', f = .ok a' ∧ a'.size = 2 ^ k ∧ InRange (-B) B a' := by
  obtain ⟨_, hB, hch⟩ := ntt_gs_bounds_ok hk hb hp h
  have hmono := chain_mono_gs hb hch
  suffices hbf : _ ∧ _ by
    obtain ⟨a', e, ha'⟩ := wp_total.1 (hf hbf.1 hbf.2 (pw_rd0 ha hr hch.1))
    exact ⟨a', e, ha'.1, inRange_rd ha' hB⟩
  constructor
  · intro m w j hm hj hw s t hst
    have h1 := hmono m (by omega)
    refine gsBf_bound hst (by omega) ?_ h1.2.1 (fun v hv => ?_)
    · refine le_trans (Int.mul_le_mul_of_nonneg_right (b := B) (by omega) (abs_nonneg w))
        (hprod _ _ hw)
    · exact (hch.2 m hm).2 (gsSet_mem.2 ⟨w, ⟨j, hj, hw⟩, hv⟩)
  · intro m hm s t hst
    have h1 := hmono m (by omega)
    exact bf0_bound hst (by omega) h1.2.1

end runs

end RedBounds

namespace RedBounds
open C NTT
open Spec (ctSet gsSet Entries Chain Table16 InRange elt RedMulFits)

/-! ### the bounds functions return -/

section total
variable {f : Int → Int → M Int} {p : Array Int} {β : Nat → Int} {n : Nat}
  (hf : ∀ b w, 0 ≤ b → b ≤ 1099511627776 → w ≠ 0 → |w| ≤ 6144 →
    Wp NoErr (f b w) (fun r => 0 ≤ r ∧ r ≤ 3 * b + 12288))
  (hp : ∀ i, 0 < i → i < n → ∃ w, p[i]? = some w ∧ w ≠ 0 ∧ |w| ≤ 6144)
include hf hp

/-- Invariant of the outer loop. -/
def TInv (b0 : Int) (sz m : Nat) (st : Nat × Int × Array Int) : Prop :=
  st.1 = m ∧ st.2.2.size = sz ∧ 0 ≤ st.2.1 ∧ st.2.1 ≤ 3 ^ m * (b0 + 6144) - 6144

theorem boundsRound_total {b0 : Int} {sz m t : Nat} {st : Nat × Int × Array Int} (hm : m < 31)
    (ht0 : 0 < t) (ht : 2 * t ≤ n) (hn : n ≤ 2147483648) (hsz : m + 1 < sz)
    (hB : (3 : Int) ^ m * (b0 + 6144) ≤ 1099511627776)
    (h : TInv b0 sz m st) :
    Wp NoErr (boundsRound f p t st) (TInv b0 sz (m + 1)) := by
  obtain ⟨k, b, bound⟩ := st
  obtain ⟨h1, h2, h3, h4⟩ := h
  dsimp only at h1 h2 h3 h4
  subst h1
  unfold boundsRound
  simp only [wp_bind]
  obtain ⟨w, hw, hw0, hw1⟩ := hp t ht0 (by omega)
  refine wp_rd_some hw ?_
  refine (hf b w h3 (by omega) hw0 hw1).mono fun c hc => ?_
  refine wp_forUp1 (fun j c => 0 ≤ c ∧ c ≤ 3 * b + 12288) (by omega) (by omega) hc ?_ ?_
  · intro j c hj1 hj2 hc
    have hu : u32 (t + j) = t + j := by unfold u32; omega
    simp only [wp_bind, hu]
    obtain ⟨w, hw, hw0, hw1⟩ := hp (t + j) (by omega) (by omega)
    refine wp_rd_some hw ?_
    refine (hf b w h3 (by omega) hw0 hw1).mono fun d hd => ?_
    rw [wp_pure]
    split <;> omega
  · intro c hc
    have hk : u32 (k + 1) = k + 1 := by unfold u32; omega
    rw [hk]
    refine wp_wr (by omega) ?_
    rw [wp_pure]
    refine ⟨rfl, by simpa using h2, hc.1, ?_⟩
    dsimp only
    rw [pow_succ]
    have : (3 : Int) ^ k * 3 * (b0 + 6144) = 3 * (3 ^ k * (b0 + 6144)) := by ring
    rw [this]
    omega

end total

theorem redMulFits_small {c w : Int} (hc : 0 ≤ c) (hc2 : c ≤ 2199023255552) (hw : |w| ≤ 6144) :
    RedMulFits (-c) c w := by
  have h0 := abs_nonneg w
  have h1 : |w| * (c + 1) ≤ 6144 * (2199023255552 + 1) :=
    mul_le_mul hw (by omega) (by omega) (by omega)
  unfold RedMulFits
  rw [abs_neg, abs_of_nonneg hc]
  omega

theorem red_small {b w y : Int} (hw : |w| ≤ 6144) (hy : |y| ≤ b) :
    2 * |Spec.red (w * y)| ≤ 3 * b + 24574 := by
  have h1 := abs_mul_le hy hw
  have : |Spec.red (w * y)| ≤ 3 * b / 2 + 12286 := by
    unfold Spec.red
    rw [abs_le]
    omega
  omega

theorem ct_fixed_total {dbg : Bool} (b w : Int) (hb : 0 ≤ b) (hb2 : b ≤ 1099511627776) (hw : w ≠ 0)
    (hw2 : |w| ≤ 6144) :
    Wp NoErr (ct_bound_fixed dbg b w) (fun r => 0 ≤ r ∧ r ≤ 3 * b + 12288) := by
  have hw3 := abs_le.1 hw2
  refine (wp_ct_bound_fixed hw ⟨by omega, by omega⟩ hb
    (Or.inr ⟨redMulFits_small hb (by omega) hw2, by omega⟩)).mono ?_
  intro r hr
  refine ⟨ctSet_nonneg _ _ _ hr.1, ?_⟩
  obtain ⟨x, y, u, hx, hy, rfl, h⟩ := hr.1
  have := red_small hw2 hy
  have h1 := abs_add_le x (Spec.red (u * y))
  have h2 := abs_sub x (Spec.red (u * y))
  rcases h with h | h <;> rw [h] <;> omega

theorem gs_fixed_total {dbg : Bool} (b w : Int) (hb : 0 ≤ b) (hb2 : b ≤ 1099511627776) (hw : w ≠ 0)
    (hw2 : |w| ≤ 6144) :
    Wp NoErr (gs_bound_fixed dbg b w) (fun r => 0 ≤ r ∧ r ≤ 3 * b + 12288) := by
  have hw3 := abs_le.1 hw2
  refine (wp_gs_bound_fixed hw ⟨by omega, by omega⟩ hb
    (Or.inr ⟨by
      have := redMulFits_small (c := 2 * b) (by omega) (by omega) hw2
      rwa [← neg_mul] at this, by omega⟩)).mono ?_
  intro r hr
  refine ⟨gsSet_nonneg _ _ _ hr.1, ?_⟩
  obtain ⟨x, y, u, hx, hy, rfl, h⟩ := hr.1
  rw [abs_le] at hx hy
  have hd : |x - y| ≤ 2 * b := abs_le.2 ⟨by omega, by omega⟩
  have := red_small hw2 hd
  have h1 : |x + y| ≤ 2 * b := abs_le.2 ⟨by omega, by omega⟩
  rcases h with h | h <;> rw [h] <;> omega

section
variable {dbg : Bool} {b0 : Int} {k : Nat} {p bound : Array Int} (hk : k ≤ 31)
  (hb : 0 ≤ b0) (hB : (3 : Int) ^ k * (b0 + 6144) ≤ 1099511627776)
  (hp : ∀ i, 0 < i → i < 2 ^ k → ∃ w, p[i]? = some w ∧ w ≠ 0 ∧ |w| ≤ 6144)
  (hs : k < bound.size)
include hk hb hB hp hs

omit hk hp hs in
theorem pow3_le {m : Nat} (hm : m ≤ k) : (3 : Int) ^ m * (b0 + 6144) ≤ 1099511627776 := by
  refine le_trans (Int.mul_le_mul_of_nonneg_right ?_ (by omega)) hB
  exact pow_le_pow_right₀ (by norm_num) hm

theorem ntt_ct_bounds_total : ∃ r, ntt_ct_bounds dbg b0 (2 ^ k) p bound = .ok r := by
  suffices h : Wp NoErr (ntt_ct_bounds dbg b0 (2 ^ k) p bound) (fun _ => True) by
    obtain ⟨r, e, _⟩ := wp_total.1 h; exact ⟨r, e⟩
  unfold ntt_ct_bounds
  rw [wp_bind]
  refine wp_wr (by omega) ?_
  rw [wp_bind]
  refine wp_forShl (fun m st => TInv b0 bound.size m st) hk
    ⟨rfl, by simp, hb, by dsimp only; rw [pow_zero]; omega⟩ ?_ (fun _ _ => wp_pure.2 trivial)
  intro m st hm hst
  refine boundsRound_total ct_fixed_total hp (by omega) (Nat.two_pow_pos m) ?_ (pow31 hk) (by omega)
    (pow3_le hb hB (by omega)) hst
  rw [← Nat.pow_succ']; exact Nat.pow_le_pow_right (by omega) hm

theorem ntt_gs_bounds_total : ∃ r, ntt_gs_bounds dbg b0 (2 ^ k) p bound = .ok r := by
  suffices h : Wp NoErr (ntt_gs_bounds dbg b0 (2 ^ k) p bound) (fun _ => True) by
    obtain ⟨r, e, _⟩ := wp_total.1 h; exact ⟨r, e⟩
  unfold ntt_gs_bounds
  rw [wp_bind]
  refine wp_wr (by omega) ?_
  rw [wp_bind]
  refine wp_forShr (fun m st => TInv b0 bound.size m st) hk
    ⟨rfl, by simp, hb, by dsimp only; rw [pow_zero]; omega⟩ ?_ (fun _ _ => wp_pure.2 trivial)
  intro m st hm hst
  refine boundsRound_total gs_fixed_total hp (by omega) (Nat.two_pow_pos _) ?_ (pow31 hk) (by omega)
    (pow3_le hb hB (by omega)) hst
  rw [← Nat.pow_succ']; exact Nat.pow_le_pow_right (by omega) (by omega)

end

end RedBounds
