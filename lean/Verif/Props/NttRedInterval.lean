import Verif.Proofs.AbsMul

/-
C33: the abstract transforms of src/ntt_red_interval.c are sound for the transforms of src/ntt_red.c.
C44: what their warnings say about overflows.
C45: the variants `abstract2_*`, whose table is a table of intervals.
-/

namespace Props
open C NTT Intervals NttRedInterval
open Spec (Table16)

section
variable (dbg : Bool) (k : Nat) (p a : Array Int) (A A' : Array Ivl) (log : List Shown)
  (hk : k ≤ 31) (hA : A.size = 2 ^ k) (hv : ValidArray A) (hin : Inside a A)
  (hp : 2 ^ k ≤ p.size) (h16 : Table16 p)
include hk hA hv hin hp h16

/-- Soundness of `abstract_ntt_red_ct_rev2std`: if `a` is in `A` and all displayed intervals are within
`2147471362` of 0 then `ntt_red_ct_rev2std` does not overflow and its result is in the abstract result;
without this condition, its result is in the abstract result whenever it returns. -/
theorem C33_ntt_red_ct_rev2std (h : abstract_ntt_red_ct_rev2std dbg A (2 ^ k) p = .ok (A', log)) :
    (ShownWithin 2147471362 log →
      ∃ a', NttRed.ntt_red_ct_rev2std a (2 ^ k) p = .ok a' ∧ Inside a' A') ∧
    (∀ a', NttRed.ntt_red_ct_rev2std a (2 ^ k) p = .ok a' → Inside a' A') := by
  have key := ctRev_abs (dbg := dbg) (mul := red_scale dbg) hk hp hA
  unfold abstract_ntt_red_ct_rev2std at h
  rw [h, wp_ok] at key
  constructor
  · intro hw
    exact wp_total.1 (ct_sound hA hv hin key.1 key.2 (fun m hm => pow_split hm) (Or.inr hw)
      (fun m b j Z _ _ _ _ hZ => mulSound_scale hZ fun w hw => optA_16 h16 hw)
      (ctRev_runs hk hp))
  · intro a' ha'
    have key2 := ct_sound (E := fun _ => True) hA hv hin key.1 key.2 (fun m hm => pow_split hm)
      (Or.inl fun _ => trivial)
      (fun m b j Z _ _ _ _ hZ => mulSound_scale hZ fun w hw => optA_16 h16 hw)
      (ctRev_runs hk hp)
    rw [ha', wp_ok] at key2
    exact key2

/-- Soundness of `abstract_mulntt_red_ct_rev2std`: if `a` is in `A` and all displayed intervals are within
`2147471362` of 0 then `mulntt_red_ct_rev2std` does not overflow and its result is in the abstract result;
without this condition, its result is in the abstract result whenever it returns. -/
theorem C33_mulntt_red_ct_rev2std (h : abstract_mulntt_red_ct_rev2std dbg A (2 ^ k) p = .ok (A', log)) :
    (ShownWithin 2147471362 log →
      ∃ a', NttRed.mulntt_red_ct_rev2std a (2 ^ k) p = .ok a' ∧ Inside a' A') ∧
    (∀ a', NttRed.mulntt_red_ct_rev2std a (2 ^ k) p = .ok a' → Inside a' A') := by
  have key := mulCtRev_abs (dbg := dbg) (mul := red_scale dbg) hk hp hA
  unfold abstract_mulntt_red_ct_rev2std at h
  rw [h, wp_ok] at key
  constructor
  · intro hw
    exact wp_total.1 (ct_sound hA hv hin key.1 key.2 (fun m hm => pow_split hm) (Or.inr hw)
      (fun m b j Z _ _ _ _ hZ => mulSound_scale hZ fun w hw => optA_16 h16 hw)
      (mulCtRev_runs hk hp))
  · intro a' ha'
    have key2 := ct_sound (E := fun _ => True) hA hv hin key.1 key.2 (fun m hm => pow_split hm)
      (Or.inl fun _ => trivial)
      (fun m b j Z _ _ _ _ hZ => mulSound_scale hZ fun w hw => optA_16 h16 hw)
      (mulCtRev_runs hk hp)
    rw [ha', wp_ok] at key2
    exact key2

/-- Soundness of `abstract_ntt_red_ct_std2rev`: if `a` is in `A` and all displayed intervals are within
`2147471362` of 0 then `ntt_red_ct_std2rev` does not overflow and its result is in the abstract result;
without this condition, its result is in the abstract result whenever it returns. -/
theorem C33_ntt_red_ct_std2rev (h : abstract_ntt_red_ct_std2rev dbg A (2 ^ k) p = .ok (A', log)) :
    (ShownWithin 2147471362 log →
      ∃ a', NttRed.ntt_red_ct_std2rev a (2 ^ k) p = .ok a' ∧ Inside a' A') ∧
    (∀ a', NttRed.ntt_red_ct_std2rev a (2 ^ k) p = .ok a' → Inside a' A') := by
  have key := ctStd_abs (dbg := dbg) (mul := red_scale dbg) hk hp hA
  unfold abstract_ntt_red_ct_std2rev at h
  rw [h, wp_ok] at key
  constructor
  · intro hw
    exact wp_total.1 (ct_sound hA hv hin key.1 key.2 (fun m hm => pow_split' hm) (Or.inr hw)
      (fun m b j Z _ _ _ _ hZ => mulSound_scale hZ fun w hw => optB_16 h16 hw)
      (ctStd_runs hk hp))
  · intro a' ha'
    have key2 := ct_sound (E := fun _ => True) hA hv hin key.1 key.2 (fun m hm => pow_split' hm)
      (Or.inl fun _ => trivial)
      (fun m b j Z _ _ _ _ hZ => mulSound_scale hZ fun w hw => optB_16 h16 hw)
      (ctStd_runs hk hp)
    rw [ha', wp_ok] at key2
    exact key2

/-- Soundness of `abstract_mulntt_red_ct_std2rev`: if `a` is in `A` and all displayed intervals are within
`2147471362` of 0 then `mulntt_red_ct_std2rev` does not overflow and its result is in the abstract result;
without this condition, its result is in the abstract result whenever it returns. -/
theorem C33_mulntt_red_ct_std2rev (h : abstract_mulntt_red_ct_std2rev dbg A (2 ^ k) p = .ok (A', log)) :
    (ShownWithin 2147471362 log →
      ∃ a', NttRed.mulntt_red_ct_std2rev a (2 ^ k) p = .ok a' ∧ Inside a' A') ∧
    (∀ a', NttRed.mulntt_red_ct_std2rev a (2 ^ k) p = .ok a' → Inside a' A') := by
  have key := mulCtStd_abs (dbg := dbg) (mul := red_scale dbg) hk hp hA
  unfold abstract_mulntt_red_ct_std2rev at h
  rw [h, wp_ok] at key
  constructor
  · intro hw
    exact wp_total.1 (ct_sound hA hv hin key.1 key.2 (fun m hm => pow_split' hm) (Or.inr hw)
      (fun m b j Z _ _ _ _ hZ => mulSound_scale hZ fun w hw => optB_16 h16 hw)
      (mulCtStd_runs hk hp))
  · intro a' ha'
    have key2 := ct_sound (E := fun _ => True) hA hv hin key.1 key.2 (fun m hm => pow_split' hm)
      (Or.inl fun _ => trivial)
      (fun m b j Z _ _ _ _ hZ => mulSound_scale hZ fun w hw => optB_16 h16 hw)
      (mulCtStd_runs hk hp)
    rw [ha', wp_ok] at key2
    exact key2

/-- Soundness of `abstract_ntt_red_gs_rev2std`: if `a` is in `A` and all displayed intervals are within
`1073741823` of 0 then `ntt_red_gs_rev2std` does not overflow and its result is in the abstract result;
without this condition, its result is in the abstract result whenever it returns. -/
theorem C33_ntt_red_gs_rev2std (h : abstract_ntt_red_gs_rev2std dbg A (2 ^ k) p = .ok (A', log)) :
    (ShownWithin 1073741823 log →
      ∃ a', NttRed.ntt_red_gs_rev2std a (2 ^ k) p = .ok a' ∧ Inside a' A') ∧
    (∀ a', NttRed.ntt_red_gs_rev2std a (2 ^ k) p = .ok a' → Inside a' A') := by
  have key := gsRev_abs (dbg := dbg) (mul := red_scale dbg) hk hp hA
  unfold abstract_ntt_red_gs_rev2std at h
  rw [h, wp_ok] at key
  constructor
  · intro hw
    exact wp_total.1 (gs_sound hA hv hin key.1 key.2 (fun m hm => pow_split hm) (Or.inr hw)
      (fun m b j Y Z _ _ _ _ _ hY hZ => mulSound_scale (by simp only; omega) fun w hw => optB_16 h16 hw)
      (gsRev_runs hk hp))
  · intro a' ha'
    have key2 := gs_sound (E := fun _ => True) hA hv hin key.1 key.2 (fun m hm => pow_split hm)
      (Or.inl fun _ => trivial)
      (fun m b j Y Z _ _ _ _ _ hY hZ => mulSound_scale (by simp only; omega) fun w hw => optB_16 h16 hw)
      (gsRev_runs hk hp)
    rw [ha', wp_ok] at key2
    exact key2

/-- Soundness of `abstract_nttmul_red_gs_rev2std`: if `a` is in `A` and all displayed intervals are within
`1073741823` of 0 then `nttmul_red_gs_rev2std` does not overflow and its result is in the abstract result;
without this condition, its result is in the abstract result whenever it returns. -/
theorem C33_nttmul_red_gs_rev2std (h : abstract_nttmul_red_gs_rev2std dbg A (2 ^ k) p = .ok (A', log)) :
    (ShownWithin 1073741823 log →
      ∃ a', NttRed.nttmul_red_gs_rev2std a (2 ^ k) p = .ok a' ∧ Inside a' A') ∧
    (∀ a', NttRed.nttmul_red_gs_rev2std a (2 ^ k) p = .ok a' → Inside a' A') := by
  have key := gsMulRev_abs (dbg := dbg) (mul := red_scale dbg) hk hp hA
  unfold abstract_nttmul_red_gs_rev2std at h
  rw [h, wp_ok] at key
  constructor
  · intro hw
    exact wp_total.1 (gs_sound hA hv hin key.1 key.2 (fun m hm => pow_split hm) (Or.inr hw)
      (fun m b j Y Z _ _ _ _ _ hY hZ => mulSound_scale (by simp only; omega) fun w hw => optB_16 h16 hw)
      (gsMulRev_runs hk hp))
  · intro a' ha'
    have key2 := gs_sound (E := fun _ => True) hA hv hin key.1 key.2 (fun m hm => pow_split hm)
      (Or.inl fun _ => trivial)
      (fun m b j Y Z _ _ _ _ _ hY hZ => mulSound_scale (by simp only; omega) fun w hw => optB_16 h16 hw)
      (gsMulRev_runs hk hp)
    rw [ha', wp_ok] at key2
    exact key2

/-- Soundness of `abstract_ntt_red_gs_std2rev`: if `a` is in `A` and all displayed intervals are within
`1073741823` of 0 then `ntt_red_gs_std2rev` does not overflow and its result is in the abstract result;
without this condition, its result is in the abstract result whenever it returns. -/
theorem C33_ntt_red_gs_std2rev (h : abstract_ntt_red_gs_std2rev dbg A (2 ^ k) p = .ok (A', log)) :
    (ShownWithin 1073741823 log →
      ∃ a', NttRed.ntt_red_gs_std2rev a (2 ^ k) p = .ok a' ∧ Inside a' A') ∧
    (∀ a', NttRed.ntt_red_gs_std2rev a (2 ^ k) p = .ok a' → Inside a' A') := by
  have key := gsStd_abs (dbg := dbg) (mul := red_scale dbg) hk hp hA
  unfold abstract_ntt_red_gs_std2rev at h
  rw [h, wp_ok] at key
  constructor
  · intro hw
    exact wp_total.1 (gs_sound hA hv hin key.1 key.2 (fun m hm => pow_split' hm) (Or.inr hw)
      (fun m b j Y Z _ _ _ _ _ hY hZ => mulSound_scale (by simp only; omega) fun w hw => optA_16 h16 hw)
      (gsStd_runs hk hp))
  · intro a' ha'
    have key2 := gs_sound (E := fun _ => True) hA hv hin key.1 key.2 (fun m hm => pow_split' hm)
      (Or.inl fun _ => trivial)
      (fun m b j Y Z _ _ _ _ _ hY hZ => mulSound_scale (by simp only; omega) fun w hw => optA_16 h16 hw)
      (gsStd_runs hk hp)
    rw [ha', wp_ok] at key2
    exact key2

/-- Soundness of `abstract_nttmul_red_gs_std2rev`: if `a` is in `A` and all displayed intervals are within
`1073741823` of 0 then `nttmul_red_gs_std2rev` does not overflow and its result is in the abstract result;
without this condition, its result is in the abstract result whenever it returns. -/
theorem C33_nttmul_red_gs_std2rev (h : abstract_nttmul_red_gs_std2rev dbg A (2 ^ k) p = .ok (A', log)) :
    (ShownWithin 1073741823 log →
      ∃ a', NttRed.nttmul_red_gs_std2rev a (2 ^ k) p = .ok a' ∧ Inside a' A') ∧
    (∀ a', NttRed.nttmul_red_gs_std2rev a (2 ^ k) p = .ok a' → Inside a' A') := by
  have key := gsMulStd_abs (dbg := dbg) (mul := red_scale dbg) hk hp hA
  unfold abstract_nttmul_red_gs_std2rev at h
  rw [h, wp_ok] at key
  constructor
  · intro hw
    exact wp_total.1 (gs_sound hA hv hin key.1 key.2 (fun m hm => pow_split' hm) (Or.inr hw)
      (fun m b j Y Z _ _ _ _ _ hY hZ => mulSound_scale (by simp only; omega) fun w hw => optA_16 h16 hw)
      (gsMulStd_runs hk hp))
  · intro a' ha'
    have key2 := gs_sound (E := fun _ => True) hA hv hin key.1 key.2 (fun m hm => pow_split' hm)
      (Or.inl fun _ => trivial)
      (fun m b j Y Z _ _ _ _ _ hY hZ => mulSound_scale (by simp only; omega) fun w hw => optA_16 h16 hw)
      (gsMulStd_runs hk hp)
    rw [ha', wp_ok] at key2
    exact key2

end

section
variable (dbg : Bool) (k : Nat) (p a : Array Int) (P A A' : Array Ivl) (log : List Shown)
  (hk : k ≤ 31) (hA : A.size = 2 ^ k) (hv : ValidArray A) (hin : Inside a A)
  (hp : 2 ^ k ≤ P.size) (hP : ValidArray P) (hpP : Inside p P)
  (hPup : ∀ (i : Nat) (W : Ivl), P[i]? = some W → LeansUp W)
include hk hA hv hin hp hP hpP hPup

/-- Soundness of `abstract2_ntt_red_ct_rev2std` when the table intervals lean up and the multiplied
elements lean up. -/
theorem C45_ntt_red_ct_rev2std_partial (h : abstract2_ntt_red_ct_rev2std dbg A (2 ^ k) P = .ok (A', log))
    (hw : ShownWithin 2147471362 log) (hup : ShownLeanUp (fun m => 2 ^ m) log) :
    ∃ a', NttRed.ntt_red_ct_rev2std a (2 ^ k) p = .ok a' ∧ Inside a' A' := by
  have key := ctRev_abs (dbg := dbg) (mul := fun w x => red_mul dbg x w) hk hp hA
  unfold abstract2_ntt_red_ct_rev2std at h
  rw [h, wp_ok] at key
  exact wp_total.1 (ct_sound hA hv hin key.1 key.2 (fun m hm => pow_split hm) (Or.inr hw)
    (fun m b j Z hm _ hj hZ hZ1 => by
      have b1 := shown_all hA key.2 hw (Nat.le_of_lt hm) hZ
      have b2 := shown_leanUp hA key.2 hup hm hj hZ
      exact mulSound_mul ⟨⟨by omega, by omega⟩, ⟨by omega, by omega⟩, hZ1⟩ b2 hP hPup
        (optA_in hpP _ _ _))
    (ctRev_runs hk (by rw [hpP.1]; exact hp)))

/-- Soundness of `abstract2_mulntt_red_ct_rev2std` when the table intervals lean up and the multiplied
elements lean up. -/
theorem C45_mulntt_red_ct_rev2std_partial (h : abstract2_mulntt_red_ct_rev2std dbg A (2 ^ k) P = .ok (A', log))
    (hw : ShownWithin 2147471362 log) (hup : ShownLeanUp (fun m => 2 ^ m) log) :
    ∃ a', NttRed.mulntt_red_ct_rev2std a (2 ^ k) p = .ok a' ∧ Inside a' A' := by
  have key := mulCtRev_abs (dbg := dbg) (mul := fun w x => red_mul dbg x w) hk hp hA
  unfold abstract2_mulntt_red_ct_rev2std at h
  rw [h, wp_ok] at key
  exact wp_total.1 (ct_sound hA hv hin key.1 key.2 (fun m hm => pow_split hm) (Or.inr hw)
    (fun m b j Z hm _ hj hZ hZ1 => by
      have b1 := shown_all hA key.2 hw (Nat.le_of_lt hm) hZ
      have b2 := shown_leanUp hA key.2 hup hm hj hZ
      exact mulSound_mul ⟨⟨by omega, by omega⟩, ⟨by omega, by omega⟩, hZ1⟩ b2 hP hPup
        (optA_in hpP _ _ _))
    (mulCtRev_runs hk (by rw [hpP.1]; exact hp)))

/-- Soundness of `abstract2_ntt_red_ct_std2rev` when the table intervals lean up and the multiplied
elements lean up. -/
theorem C45_ntt_red_ct_std2rev_partial (h : abstract2_ntt_red_ct_std2rev dbg A (2 ^ k) P = .ok (A', log))
    (hw : ShownWithin 2147471362 log) (hup : ShownLeanUp (fun m => 2 ^ (k - 1 - m)) log) :
    ∃ a', NttRed.ntt_red_ct_std2rev a (2 ^ k) p = .ok a' ∧ Inside a' A' := by
  have key := ctStd_abs (dbg := dbg) (mul := fun w x => red_mul dbg x w) hk hp hA
  unfold abstract2_ntt_red_ct_std2rev at h
  rw [h, wp_ok] at key
  exact wp_total.1 (ct_sound hA hv hin key.1 key.2 (fun m hm => pow_split' hm) (Or.inr hw)
    (fun m b j Z hm _ hj hZ hZ1 => by
      have b1 := shown_all hA key.2 hw (Nat.le_of_lt hm) hZ
      have b2 := shown_leanUp hA key.2 hup hm hj hZ
      exact mulSound_mul ⟨⟨by omega, by omega⟩, ⟨by omega, by omega⟩, hZ1⟩ b2 hP hPup
        (optB_in hpP _ _ _))
    (ctStd_runs hk (by rw [hpP.1]; exact hp)))

/-- Soundness of `abstract2_mulntt_red_ct_std2rev` when the table intervals lean up and the multiplied
elements lean up. -/
theorem C45_mulntt_red_ct_std2rev_partial (h : abstract2_mulntt_red_ct_std2rev dbg A (2 ^ k) P = .ok (A', log))
    (hw : ShownWithin 2147471362 log) (hup : ShownLeanUp (fun m => 2 ^ (k - 1 - m)) log) :
    ∃ a', NttRed.mulntt_red_ct_std2rev a (2 ^ k) p = .ok a' ∧ Inside a' A' := by
  have key := mulCtStd_abs (dbg := dbg) (mul := fun w x => red_mul dbg x w) hk hp hA
  unfold abstract2_mulntt_red_ct_std2rev at h
  rw [h, wp_ok] at key
  exact wp_total.1 (ct_sound hA hv hin key.1 key.2 (fun m hm => pow_split' hm) (Or.inr hw)
    (fun m b j Z hm _ hj hZ hZ1 => by
      have b1 := shown_all hA key.2 hw (Nat.le_of_lt hm) hZ
      have b2 := shown_leanUp hA key.2 hup hm hj hZ
      exact mulSound_mul ⟨⟨by omega, by omega⟩, ⟨by omega, by omega⟩, hZ1⟩ b2 hP hPup
        (optB_in hpP _ _ _))
    (mulCtStd_runs hk (by rw [hpP.1]; exact hp)))

/-- Soundness of `abstract2_ntt_red_gs_rev2std` when the table intervals lean up and the displayed intervals are centered as `ShownCentered` says. -/
theorem C45_ntt_red_gs_rev2std_partial (h : abstract2_ntt_red_gs_rev2std dbg A (2 ^ k) P = .ok (A', log))
    (hw : ShownWithin 1073741823 log) (hc : ShownCentered (fun m => 2 ^ m) log) :
    ∃ a', NttRed.ntt_red_gs_rev2std a (2 ^ k) p = .ok a' ∧ Inside a' A' := by
  have key := gsRev_abs (dbg := dbg) (mul := fun w x => red_mul dbg x w) hk hp hA
  unfold abstract2_ntt_red_gs_rev2std at h
  rw [h, wp_ok] at key
  exact wp_total.1 (gs_sound hA hv hin key.1 key.2 (fun m hm => pow_split hm) (Or.inr hw)
    (fun m b j Y Z hm hb hj hY hZ hY1 hZ1 => by
      have b1 := shown_all hA key.2 hw (Nat.le_of_lt hm) hY
      have b2 := shown_all hA key.2 hw (Nat.le_of_lt hm) hZ
      have b3 := shown_centered hA key.2 hc hm hj hY hZ
      exact mulSound_mul ⟨⟨by simp only; omega, by simp only; omega⟩,
        ⟨by simp only; omega, by simp only; omega⟩, by simp only; omega⟩
        (by unfold LeansUp; simp only; omega) hP hPup (optB_in hpP _ _ _))
    (gsRev_runs hk (by rw [hpP.1]; exact hp)))

/-- Soundness of `abstract2_nttmul_red_gs_rev2std` when the table intervals lean up and the displayed intervals are centered as `ShownCentered` says. -/
theorem C45_nttmul_red_gs_rev2std_partial (h : abstract2_nttmul_red_gs_rev2std dbg A (2 ^ k) P = .ok (A', log))
    (hw : ShownWithin 1073741823 log) (hc : ShownCentered (fun m => 2 ^ m) log) :
    ∃ a', NttRed.nttmul_red_gs_rev2std a (2 ^ k) p = .ok a' ∧ Inside a' A' := by
  have key := gsMulRev_abs (dbg := dbg) (mul := fun w x => red_mul dbg x w) hk hp hA
  unfold abstract2_nttmul_red_gs_rev2std at h
  rw [h, wp_ok] at key
  exact wp_total.1 (gs_sound hA hv hin key.1 key.2 (fun m hm => pow_split hm) (Or.inr hw)
    (fun m b j Y Z hm hb hj hY hZ hY1 hZ1 => by
      have b1 := shown_all hA key.2 hw (Nat.le_of_lt hm) hY
      have b2 := shown_all hA key.2 hw (Nat.le_of_lt hm) hZ
      have b3 := shown_centered hA key.2 hc hm hj hY hZ
      exact mulSound_mul ⟨⟨by simp only; omega, by simp only; omega⟩,
        ⟨by simp only; omega, by simp only; omega⟩, by simp only; omega⟩
        (by unfold LeansUp; simp only; omega) hP hPup (optB_in hpP _ _ _))
    (gsMulRev_runs hk (by rw [hpP.1]; exact hp)))

/-- Soundness of `abstract2_ntt_red_gs_std2rev` when the table intervals lean up and the displayed intervals are centered as `ShownCentered` says. -/
theorem C45_ntt_red_gs_std2rev_partial (h : abstract2_ntt_red_gs_std2rev dbg A (2 ^ k) P = .ok (A', log))
    (hw : ShownWithin 1073741823 log) (hc : ShownCentered (fun m => 2 ^ (k - 1 - m)) log) :
    ∃ a', NttRed.ntt_red_gs_std2rev a (2 ^ k) p = .ok a' ∧ Inside a' A' := by
  have key := gsStd_abs (dbg := dbg) (mul := fun w x => red_mul dbg x w) hk hp hA
  unfold abstract2_ntt_red_gs_std2rev at h
  rw [h, wp_ok] at key
  exact wp_total.1 (gs_sound hA hv hin key.1 key.2 (fun m hm => pow_split' hm) (Or.inr hw)
    (fun m b j Y Z hm hb hj hY hZ hY1 hZ1 => by
      have b1 := shown_all hA key.2 hw (Nat.le_of_lt hm) hY
      have b2 := shown_all hA key.2 hw (Nat.le_of_lt hm) hZ
      have b3 := shown_centered hA key.2 hc hm hj hY hZ
      exact mulSound_mul ⟨⟨by simp only; omega, by simp only; omega⟩,
        ⟨by simp only; omega, by simp only; omega⟩, by simp only; omega⟩
        (by unfold LeansUp; simp only; omega) hP hPup (optA_in hpP _ _ _))
    (gsStd_runs hk (by rw [hpP.1]; exact hp)))

/-- Soundness of `abstract2_nttmul_red_gs_std2rev` when the table intervals lean up and the displayed intervals are centered as `ShownCentered` says. -/
theorem C45_nttmul_red_gs_std2rev_partial (h : abstract2_nttmul_red_gs_std2rev dbg A (2 ^ k) P = .ok (A', log))
    (hw : ShownWithin 1073741823 log) (hc : ShownCentered (fun m => 2 ^ (k - 1 - m)) log) :
    ∃ a', NttRed.nttmul_red_gs_std2rev a (2 ^ k) p = .ok a' ∧ Inside a' A' := by
  have key := gsMulStd_abs (dbg := dbg) (mul := fun w x => red_mul dbg x w) hk hp hA
  unfold abstract2_nttmul_red_gs_std2rev at h
  rw [h, wp_ok] at key
  exact wp_total.1 (gs_sound hA hv hin key.1 key.2 (fun m hm => pow_split' hm) (Or.inr hw)
    (fun m b j Y Z hm hb hj hY hZ hY1 hZ1 => by
      have b1 := shown_all hA key.2 hw (Nat.le_of_lt hm) hY
      have b2 := shown_all hA key.2 hw (Nat.le_of_lt hm) hZ
      have b3 := shown_centered hA key.2 hc hm hj hY hZ
      exact mulSound_mul ⟨⟨by simp only; omega, by simp only; omega⟩,
        ⟨by simp only; omega, by simp only; omega⟩, by simp only; omega⟩
        (by unfold LeansUp; simp only; omega) hP hPup (optA_in hpP _ _ _))
    (gsMulStd_runs hk (by rw [hpP.1]; exact hp)))

end

/-! ### The warnings -/

/-- A run of the abstract Cooley-Tukey transform without any warning does not exclude an overflow in
the concrete transform (the product is in the range `mul_red` asserts). -/
theorem C44_ct_no_warning_overflow (dbg : Bool) :
    ∃ a A p A' log, ValidArray A ∧ Inside a A ∧ Table16 p ∧
      abstract_mulntt_red_ct_rev2std dbg A 2 p = .ok (A', log) ∧ NoWarning log ∧
      NttRed.mulntt_red_ct_rev2std a 2 p = .error .overflow := by
  refine ⟨#[0, 2145911936], #[⟨0, 0⟩, ⟨2145911936, 2145911936⟩], #[0, 4099], _, _, ?_, ?_, ?_,
    (by cases dbg <;> decide +kernel :
      abstract_mulntt_red_ct_rev2std dbg #[⟨0, 0⟩, ⟨2145911936, 2145911936⟩] 2 #[0, 4099] =
        .ok (#[⟨-2147473280, -2147473280⟩, ⟨2147473280, 2147473280⟩],
          [⟨#[⟨0, 0⟩, ⟨2145911936, 2145911936⟩], []⟩,
           ⟨#[⟨-2147473280, -2147473280⟩, ⟨2147473280, 2147473280⟩], []⟩])), ?_,
    by decide +kernel⟩
  · exact validArray_of (by decide)
  · exact inside_of rfl (by decide)
  · exact table16_of (by decide)
  · unfold NoWarning; decide

/-- The same for the Gentleman-Sande transform: the difference `a[s] - a[k]` overflows and is never
displayed. -/
theorem C44_gs_no_warning_overflow (dbg : Bool) :
    ∃ a A p A' log, ValidArray A ∧ Inside a A ∧ Table16 p ∧
      abstract_nttmul_red_gs_std2rev dbg A 2 p = .ok (A', log) ∧ NoWarning log ∧
      NttRed.nttmul_red_gs_std2rev a 2 p = .error .overflow := by
  refine ⟨#[1073741824, -1073741824], #[⟨1073741824, 1073741824⟩, ⟨-1073741824, -1073741824⟩],
    #[0, 1], _, _, ?_, ?_, ?_,
    (by cases dbg <;> decide +kernel :
      abstract_nttmul_red_gs_std2rev dbg #[⟨1073741824, 1073741824⟩, ⟨-1073741824, -1073741824⟩] 2
        #[0, 1] = .ok (#[⟨0, 0⟩, ⟨-524288, -524288⟩],
          [⟨#[⟨1073741824, 1073741824⟩, ⟨-1073741824, -1073741824⟩], []⟩,
           ⟨#[⟨0, 0⟩, ⟨-524288, -524288⟩], []⟩])), ?_,
    by decide +kernel⟩
  · exact validArray_of (by decide)
  · exact inside_of rfl (by decide)
  · exact table16_of (by decide)
  · unfold NoWarning; decide

/-! ### The variants with a table of intervals are not sound in general -/

theorem C45_ct_unsound (dbg : Bool) :
    ∃ a p a' A P A' log, ValidArray A ∧ ValidArray P ∧ Inside a A ∧ Inside p P ∧
      abstract2_mulntt_red_ct_rev2std dbg A 2 P = .ok (A', log) ∧
      NttRed.mulntt_red_ct_rev2std a 2 p = .ok a' ∧ ¬ Inside a' A' := by
  refine ⟨#[0, -6827], #[1, 3], #[12291, -12291], #[⟨0, 0⟩, ⟨-8193, 0⟩], #[⟨1, 1⟩, ⟨3, 4⟩],
    #[⟨0, 12285⟩, ⟨-12285, 0⟩], [⟨#[⟨0, 0⟩, ⟨-8193, 0⟩], []⟩, ⟨#[⟨0, 12285⟩, ⟨-12285, 0⟩], []⟩],
    validArray_of (by decide), validArray_of (by decide), inside_of rfl (by decide),
    inside_of rfl (by decide), by cases dbg <;> decide +kernel, by decide +kernel, fun h => ?_⟩
  have := h.2 0 12291 ⟨0, 12285⟩ rfl rfl
  revert this
  decide

theorem C45_gs_unsound (dbg : Bool) :
    ∃ a p a' A P A' log, ValidArray A ∧ ValidArray P ∧ Inside a A ∧ Inside p P ∧
      abstract2_nttmul_red_gs_std2rev dbg A 2 P = .ok (A', log) ∧
      NttRed.nttmul_red_gs_std2rev a 2 p = .ok a' ∧ ¬ Inside a' A' := by
  refine ⟨#[-6827, 0], #[1, 3], #[-6827, 12291], #[⟨-8193, 0⟩, ⟨0, 0⟩], #[⟨1, 1⟩, ⟨3, 4⟩],
    #[⟨-8193, 0⟩, ⟨0, 12285⟩], [⟨#[⟨-8193, 0⟩, ⟨0, 0⟩], []⟩, ⟨#[⟨-8193, 0⟩, ⟨0, 12285⟩], []⟩],
    validArray_of (by decide), validArray_of (by decide), inside_of rfl (by decide),
    inside_of rfl (by decide), by cases dbg <;> decide +kernel, by decide +kernel, fun h => ?_⟩
  have := h.2 1 12291 ⟨0, 12285⟩ rfl rfl
  revert this
  decide

/-! ### Concrete cases that meet the hypotheses -/

example : ∃ A' log, abstract_ntt_red_ct_rev2std true
      #[⟨-6144, 6144⟩, ⟨0, 12288⟩, ⟨5, 7⟩, ⟨-3, -3⟩] 4 #[1, 1, 1, -1479] = .ok (A', log) ∧
    ShownWithin 2147471362 log ∧ ValidArray #[⟨-6144, 6144⟩, ⟨0, 12288⟩, ⟨5, 7⟩, ⟨-3, -3⟩] ∧
    Inside #[-6144, 12288, 6, -3] #[⟨-6144, 6144⟩, ⟨0, 12288⟩, ⟨5, 7⟩, ⟨-3, -3⟩] ∧
    Table16 #[1, 1, 1, -1479] := by
  refine ⟨_, _, (by decide +kernel : _ = Except.ok (#[⟨-6142, 18436⟩, ⟨-17061, 15367⟩,
    ⟨-6148, 18430⟩, ⟨-27655, 4773⟩], [
    ⟨#[⟨-6144, 6144⟩, ⟨0, 12288⟩, ⟨5, 7⟩, ⟨-3, -3⟩], []⟩,
    ⟨#[⟨-6144, 18432⟩, ⟨-18432, 6144⟩, ⟨2, 4⟩, ⟨8, 10⟩], []⟩,
    ⟨#[⟨-6142, 18436⟩, ⟨-17061, 15367⟩, ⟨-6148, 18430⟩, ⟨-27655, 4773⟩], []⟩])),
    shownWithin_of (by decide +kernel), validArray_of (by decide), inside_of rfl (by decide),
    table16_of (by decide)⟩

/-- Whether a run returns and its displays are within `L`. -/
def okWithin (L : Int) (r : M (Array Ivl × List Shown)) : Bool :=
  match r with
  | .ok (_, log) => log.all fun sh => sh.a.all fun X => decide (-L ≤ X.min ∧ X.max ≤ L)
  | .error _ => false

theorem okWithin_spec {L : Int} {r : M (Array Ivl × List Shown)} (h : okWithin L r = true) :
    ∃ A' log, r = .ok (A', log) ∧ ShownWithin L log := by
  match r, h with
  | .ok (A', log), h => exact ⟨A', log, rfl, shownWithin_of h⟩

example : ∃ A' log, abstract_nttmul_red_gs_rev2std true
      #[⟨-6144, 6144⟩, ⟨0, 12288⟩, ⟨5, 7⟩, ⟨-3, -3⟩] 4 #[1, 7, 11, -1479] = .ok (A', log) ∧
    ShownWithin 1073741823 log := okWithin_spec (by decide +kernel)

/-- Whether the displays of a run satisfy a condition on each pair of a round. -/
def okPairs (h : Nat → Nat) (c : Ivl → Ivl → Bool) (r : M (Array Ivl × List Shown)) : Bool :=
  match r with
  | .ok (_, log) => (List.range (log.length - 1)).all fun m => match log[m]? with
    | none => true
    | some sh => (List.range sh.a.size).all fun i => match sh.a[i]?, sh.a[i + h m]? with
      | some X, some Y => decide ((i / h m) % 2 ≠ 0) || c X Y
      | _, _ => true
  | .error _ => false

/-- A two-round Cooley-Tukey case of C45: the multiplied elements lean up. -/
example : okWithin 2147471362 (abstract2_mulntt_red_ct_rev2std false
      #[⟨-6144, 6144⟩, ⟨0, 12288⟩, ⟨0, 40000⟩, ⟨-6144, 6144⟩] 4
      #[⟨1, 1⟩, ⟨-2, 2⟩, ⟨-2, 3⟩, ⟨-3, 5⟩]) = true ∧
    okPairs (fun m => 2 ^ m) (fun _ Y => decide (-Y.max ≤ Y.min))
      (abstract2_mulntt_red_ct_rev2std false
      #[⟨-6144, 6144⟩, ⟨0, 12288⟩, ⟨0, 40000⟩, ⟨-6144, 6144⟩] 4
      #[⟨1, 1⟩, ⟨-2, 2⟩, ⟨-2, 3⟩, ⟨-3, 5⟩]) = true := by decide +kernel

/-- A two-round Gentleman-Sande case of C45. -/
example : okWithin 1073741823 (abstract2_nttmul_red_gs_std2rev false
      #[⟨-6144, 6144⟩, ⟨-6144, 6144⟩, ⟨-6144, 6144⟩, ⟨-6144, 6144⟩] 4
      #[⟨-1, 1⟩, ⟨-2, 2⟩, ⟨-3, 5⟩, ⟨-2, 2⟩]) = true ∧
    okPairs (fun m => 2 ^ (2 - 1 - m)) (fun X Y => decide (Y.min + Y.max ≤ X.min + X.max))
      (abstract2_nttmul_red_gs_std2rev false
      #[⟨-6144, 6144⟩, ⟨-6144, 6144⟩, ⟨-6144, 6144⟩, ⟨-6144, 6144⟩] 4
      #[⟨-1, 1⟩, ⟨-2, 2⟩, ⟨-3, 5⟩, ⟨-2, 2⟩]) = true := by decide +kernel

end Props
