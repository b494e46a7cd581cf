import Verif.Proofs.TestRedBounds

/-
Certificates for the sequences of bounds of src/notes.txt:348-609: the greatest `red(w * y)` for `|w| <= W`, `|y| <= C` is checked by
looking at the few factors and arguments near the end of the intervals where the maximum can be.
-/

namespace NotesBounds
open C Spec RedBounds TestRedBounds
open TestRed (Line)

/-- `4096 * red(-(w * z))`. -/
def val (w z : Nat) : Nat := w * z + (4096 - w * z % 4096) % 4096 * 12289

theorem red_neg (w z : Nat) : 4096 * Spec.red (-((w * z : Nat) : Int)) = (val w z : Int) := by
  unfold Spec.red val
  generalize w * z = N
  omega

/-- No `z' ≤ z` gives a value of `T` or more; `h` is the greatest contribution of a remainder. -/
def zs (T w h : Nat) : Nat → Nat → Bool
  | 0, _ => false
  | _ + 1, 0 => decide (0 < T)
  | f + 1, z + 1 => if w * (z + 1) + h < T then true else decide (val w (z + 1) < T) && zs T w h f z

theorem val_le (w z : Nat) : val w z ≤ w * z + (4096 - Nat.gcd w 4096) * 12289 := by
  unfold val
  have hg : Nat.gcd w 4096 ∣ (4096 - w * z % 4096) % 4096 := by
    have h1 : Nat.gcd w 4096 ∣ 4096 := Nat.gcd_dvd_right _ _
    have h2 : Nat.gcd w 4096 ∣ w * z := Dvd.dvd.mul_right (Nat.gcd_dvd_left _ _) _
    exact (Nat.dvd_mod_iff h1).2 (Nat.dvd_sub h1 ((Nat.dvd_mod_iff h1).2 h2))
  obtain ⟨c, hc⟩ := hg
  obtain ⟨d, hd⟩ := Nat.gcd_dvd_right w 4096
  have hlt : (4096 - w * z % 4096) % 4096 < 4096 := Nat.mod_lt _ (by norm_num)
  have hcd : c < d := by
    by_contra h
    have := Nat.mul_le_mul_left (Nat.gcd w 4096) (Nat.le_of_not_lt h)
    omega
  have : Nat.gcd w 4096 * (c + 1) ≤ Nat.gcd w 4096 * d := Nat.mul_le_mul_left _ hcd
  rw [Nat.mul_add, Nat.mul_one] at this
  have : (4096 - w * z % 4096) % 4096 ≤ 4096 - Nat.gcd w 4096 := by omega
  exact Nat.add_le_add_left (Nat.mul_le_mul_right _ this) _

theorem zs_sound {T w : Nat} : ∀ {f z : Nat}, zs T w ((4096 - Nat.gcd w 4096) * 12289) f z = true →
    ∀ z' ≤ z, val w z' < T
  | 0, _, h => by simp [zs] at h
  | _ + 1, 0, h => by
    intro z' hz
    obtain rfl : z' = 0 := by omega
    have : 0 < T := by simpa [zs] using h
    simpa [val] using this
  | f + 1, z + 1, h => by
    intro z' hz
    unfold zs at h
    split at h
    · rename_i hlt
      have h1 := val_le w z'
      have h2 : w * z' ≤ w * (z + 1) := Nat.mul_le_mul_left _ hz
      omega
    · rw [Bool.and_eq_true, decide_eq_true_eq] at h
      rcases Nat.lt_or_ge z z' with h1 | h1
      · obtain rfl : z' = z + 1 := by omega
        exact h.1
      · exact zs_sound h.2 z' h1

/-- No `w' ≤ w`, `z ≤ C` give a value of `T` or more. -/
def ws (T C : Nat) : Nat → Nat → Bool
  | 0, _ => false
  | _ + 1, 0 => decide (0 < T)
  | f + 1, w + 1 => if (w + 1) * C + 50323455 < T then true else
      zs T (w + 1) ((4096 - Nat.gcd (w + 1) 4096) * 12289) 10000 C && ws T C f w

theorem ws_sound {T C : Nat} : ∀ {f w : Nat}, ws T C f w = true → ∀ w' ≤ w, ∀ z ≤ C, val w' z < T
  | 0, _, h => by simp [ws] at h
  | _ + 1, 0, h => by
    intro w' hw z _
    obtain rfl : w' = 0 := by omega
    have : 0 < T := by simpa [ws] using h
    simpa [val] using this
  | f + 1, w + 1, h => by
    intro w' hw z hz
    unfold ws at h
    split at h
    · rename_i hlt
      have h1 : w' * z ≤ (w + 1) * C := Nat.mul_le_mul hw hz
      unfold val
      omega
    · rw [Bool.and_eq_true] at h
      rcases Nat.lt_or_ge w w' with h1 | h1
      · obtain rfl : w' = w + 1 := by omega
        exact zs_sound h.1 z hz
      · exact ws_sound h.2 w' h1 z hz

/-- `M` is the greatest `|red(w * y)|` for `|w| ≤ W` and `|y| ≤ C`, reached at `w` and `-z`. -/
def best (W C M w z : Nat) : Bool :=
  ws (4096 * (M + 1)) C 1000 W && decide (W * C < 4096 * (M + 1) ∧ 12285 ≤ M ∧ w ≤ W ∧ z ≤ C ∧ val w z = 4096 * M)

theorem best_red {W C M w z : Nat} (h : best W C M w z = true) : Spec.red (w * -z) = M ∧ w ≤ W ∧ z ≤ C ∧
    ∀ w' y : Int, |w'| ≤ W → |y| ≤ C → |Spec.red (w' * y)| ≤ M := by
  unfold best at h
  rw [Bool.and_eq_true, decide_eq_true_eq] at h
  obtain ⟨h1, h2, h3, h4, h5, h6⟩ := h
  refine ⟨?_, h4, h5, fun w' y hw hy => ?_⟩
  · have := red_neg w z
    rw [h6] at this
    have e : (w : Int) * -z = -((w * z : Nat) : Int) := by push_cast; ring
    rw [e]
    omega
  · rw [abs_le] at hw hy
    have hN : w'.natAbs * y.natAbs ≤ W * C := Nat.mul_le_mul (by omega) (by omega)
    have e : (w' * y).natAbs = w'.natAbs * y.natAbs := Int.natAbs_mul _ _
    rcases lt_or_ge (w' * y) 0 with hneg | hpos
    · have hv := ws_sound h1 w'.natAbs (by omega) y.natAbs (by omega)
      have hr := red_neg w'.natAbs y.natAbs
      have e2 : w' * y = -((w'.natAbs * y.natAbs : Nat) : Int) := by omega
      rw [e2]
      have : (0 : Int) ≤ val w'.natAbs y.natAbs := Int.natCast_nonneg _
      rw [abs_le]
      omega
    · generalize w'.natAbs * y.natAbs = N at *
      generalize w' * y = P at *
      unfold Spec.red
      rw [abs_le]
      omega

theorem best_ct {W b M w z : Nat} {P : Int → Prop} (hP : ∀ w, P w → |w| ≤ W) (hP' : ∀ w : Nat, w ≤ W → P w)
    (h : best W b M w z = true) : IsGreatest (ctSet b P) ((b + M : Nat) : Int) := by
  obtain ⟨h1, h2, h3, h4⟩ := best_red h
  refine ⟨⟨b, -z, w, by rw [abs_le]; omega, by rw [abs_le]; omega, hP' w h2, Or.inl ?_⟩, ?_⟩
  · rw [h1, abs_of_nonneg (by omega)]; push_cast; rfl
  · rintro v ⟨x, y, w', hx, hy, hw, hv⟩
    have := h4 w' y (hP w' hw) hy
    rw [abs_le] at this hx
    rcases hv with rfl | rfl <;> rw [abs_le] <;> omega

theorem best_gs {W b M w z : Nat} {P : Int → Prop} (hP : ∀ w, P w → |w| ≤ W) (hP' : ∀ w : Nat, w ≤ W → P w)
    (h : best W (2 * b) M w z = true) (hM : 2 * b ≤ M) : IsGreatest (gsSet b P) (M : Int) := by
  obtain ⟨h1, h2, h3, h4⟩ := best_red h
  refine ⟨⟨-(z / 2 : Nat), (z - z / 2 : Nat), w, by rw [abs_le]; omega, by rw [abs_le]; omega, hP' w h2, Or.inr ?_⟩, ?_⟩
  · have e : (-((z / 2 : Nat) : Int) - ((z - z / 2 : Nat) : Int)) = -z := by omega
    rw [e, h1, abs_of_nonneg (by omega)]
  · rintro v ⟨x, y, w', hx, hy, hw, hv⟩
    rw [abs_le] at hx hy
    have := h4 w' (x - y) (hP w' hw) (by rw [abs_le]; push_cast; omega)
    rcases hv with rfl | rfl
    · rw [abs_le]; omega
    · exact this

/-- The certificate of a line: greatest reduction with a place where it is reached; with a reduction of the bounds, a place where
the bound without reduction is too large, and the bound after the reduction. -/
inductive Cert where
  | round (M w z : Nat)
  | reduced (w z r M w' z' : Nat)

/-- The bound on the operands of `red(w * _)` and the next bound. -/
def arg (gs : Bool) (b : Nat) : Nat := if gs then 2 * b else b
def next (gs : Bool) (b M : Nat) : Nat := if gs then M else b + M

/-- What is added to `4096 * red(w * _)`. -/
def base (gs : Bool) (b : Nat) : Nat := if gs then 0 else 4096 * b

def ok (gs : Bool) (W b M w z : Nat) : Bool :=
  best W (arg gs b) M w z && decide (next gs b M ≤ 2147483647 ∧ (gs = true → 2 * b ≤ M))

/-- The lines a list of certificates proves. -/
def run (gs : Bool) (W : Nat) : Nat → Nat → List Cert → Option (List Line)
  | _, _, [] => some []
  | i, b, .round M w z :: cs =>
    if ok gs W b M w z then (run gs W (i + 1) (next gs b M) cs).map (Line.bound i (b : Int) :: ·) else none
  | i, b, .reduced w z r M w' z' :: cs =>
    if decide (w ≤ W ∧ z ≤ arg gs b ∧ b ≤ 2147483647 ∧ 4096 * 2147483648 ≤ val w z + base gs b) &&
        decide (max_abs_red false (b : Int) = .ok (r : Int)) && ok gs W r M w' z' then
      (run gs W (i + 1) (next gs r M) cs).map (fun l => Line.bound i (b : Int) :: Line.reduction (r : Int) :: l)
    else none

/-- The absolute values after a round. -/
def S (gs : Bool) (low high b : Int) : Set Int :=
  if gs then gsSet b (fun w => low ≤ w ∧ w ≤ high) else ctSet b (fun w => low ≤ w ∧ w ≤ high)

/-- The function that computes the bounds. -/
def F (gs : Bool) (low high b : Int) : M Int := if gs then gs_bound false b low high else ct_bound false b low high

theorem boundFun (gs : Bool) {low high : Int} (hlh : low ≤ high) (hl : -12288 ≤ low) (hh : high ≤ 12288) :
    BoundFun (S gs low high) (F gs low high) := by
  cases gs
  · exact ct_fun hlh hl hh
  · exact gs_fun hlh hl hh

theorem ok_greatest {gs : Bool} {low : Int} {W b M w z : Nat} (hl : -W ≤ low) (hl0 : low ≤ 0) (h : ok gs W b M w z = true) :
    IsGreatest (S gs low W b) (next gs b M : Nat) ∧ ((next gs b M : Nat) : Int) ≤ 2147483647 := by
  unfold ok at h
  rw [Bool.and_eq_true, decide_eq_true_eq] at h
  obtain ⟨h1, h2, h3⟩ := h
  have hP : ∀ w : Int, low ≤ w ∧ w ≤ W → |w| ≤ W := fun w hw => by rw [abs_le]; omega
  have hP' : ∀ w : Nat, w ≤ W → low ≤ (w : Int) ∧ (w : Int) ≤ W := fun w hw => by omega
  refine ⟨?_, by omega⟩
  cases gs
  · exact best_ct hP hP' h1
  · exact best_gs hP hP' h1 (h3 rfl)

theorem run_sound {gs : Bool} {low : Int} {W : Nat} (hl : -W ≤ low) (hl0 : low ≤ 0) (hl' : -12288 ≤ low) (hW : W ≤ 12288) :
    ∀ {cs : List Cert} {i b : Nat} {l : List Line}, run gs W i b cs = some l →
      BestLines (S gs low W) cs.length i b l
  | [], i, b, l, h => by
    simp only [run, Option.some.injEq] at h
    subst h
    exact .done i b
  | .round M w z :: cs, i, b, l, h => by
    unfold run at h
    split at h
    · rename_i hok
      rw [Option.map_eq_some_iff] at h
      obtain ⟨l', e, rfl⟩ := h
      obtain ⟨g1, g2⟩ := ok_greatest hl hl0 hok
      exact .round _ _ _ _ _ g1 g2 (run_sound hl hl0 hl' hW e)
    · simp at h
  | .reduced w z r M w' z' :: cs, i, b, l, h => by
    unfold run at h
    split at h
    · rename_i hok
      rw [Option.map_eq_some_iff] at h
      obtain ⟨l', e, rfl⟩ := h
      rw [Bool.and_eq_true, Bool.and_eq_true, decide_eq_true_eq, decide_eq_true_eq] at hok
      obtain ⟨⟨⟨k1, k2, k3, k4⟩, k5⟩, k6⟩ := hok
      obtain ⟨g1, g2⟩ := ok_greatest hl hl0 k6
      obtain ⟨r', er, hr, -⟩ := max_abs_red_eq false (b := (b : Int)) (by omega) (by omega)
      rw [k5, Except.ok.injEq] at er
      subst er
      obtain ⟨c, -, hc⟩ := (boundFun gs (low := low) (high := W) (by omega) hl' (by omega)).eq b (by omega) (by omega)
      refine .reduced _ _ _ c _ _ _ hc ?_ hr g1 g2 (run_sound hl hl0 hl' hW e)
      have hv := red_neg w z
      have ew : ((w * z : Nat) : Int) = w * z := by push_cast; rfl
      cases gs
      · have hm : |(b : Int) + Spec.red (w * -z)| ∈ S false low W b :=
          ⟨b, -z, w, by rw [abs_le]; omega, by simp only [arg, Bool.false_eq_true, if_false] at k2; rw [abs_le]; omega, by omega, Or.inl rfl⟩
        have := hc.2 hm
        have e2 : (w : Int) * -z = -((w * z : Nat) : Int) := by push_cast; ring
        rw [e2] at this
        have := le_trans (le_abs_self _) this
        simp only [base, Bool.false_eq_true, if_false] at k4
        omega
      · simp only [arg, if_true] at k2
        have e3 : (-((z / 2 : Nat) : Int) - ((z - z / 2 : Nat) : Int)) = -z := by omega
        have hm : |Spec.red (w * -z)| ∈ S true low W b :=
          ⟨-(z / 2 : Nat), (z - z / 2 : Nat), w, by rw [abs_le]; omega, by rw [abs_le]; omega, by omega, Or.inr (by rw [e3])⟩
        have := hc.2 hm
        have e2 : (w : Int) * -z = -((w * z : Nat) : Int) := by push_cast; ring
        rw [e2] at this
        have := le_trans (le_abs_self _) this
        simp only [base, if_true] at k4
        omega
    · simp at h

/-- The lines are determined by the first bound. -/
theorem bestLines_unique {T : Int → Set Int} {n i : Nat} {b : Int} {l l' : List Line} (h : BestLines T n i b l)
    (h' : BestLines T n i b l') : l = l' := by
  induction h generalizing l' with
  | done i b => cases h'; rfl
  | round n i b b' l g1 g2 _ ih =>
    cases h' with
    | round _ _ _ c l2 k1 k2 k3 =>
      obtain rfl := g1.unique k1
      rw [ih k3]
    | reduced _ _ _ c r c' l2 k1 k2 =>
      have := g1.unique k1
      omega
  | reduced n i b c r b' l g1 g2 g3 g4 g5 _ ih =>
    cases h' with
    | round _ _ _ c l2 k1 k2 k3 =>
      have := g1.unique k1
      omega
    | reduced _ _ _ c r c' l2 k1 k2 k3 k4 k5 k6 =>
      obtain rfl := g3.unique k3
      obtain rfl := g4.unique k4
      rw [ih k6]

theorem iteration_run {gs : Bool} {low : Int} {W b : Nat} (hl : -W ≤ low) (hl0 : low ≤ 0) (hW : W ≤ 12288)
    (hb : b ≤ 2147483647) {cs : List Cert} {l : List Line} (hn : cs.length = 20) (h : run gs W 0 b cs = some l) :
    iteration false (F gs low W) b = .ok l := by
  obtain ⟨l', e, h'⟩ := iteration_eq (boundFun gs (low := low) (high := W) (by omega) (by omega) (by omega)) false (b := (b : Int))
    (by omega) (by omega)
  have := run_sound (low := low) hl hl0 (by omega) hW h
  rw [hn] at this
  rw [e, bestLines_unique h' this]

end NotesBounds
