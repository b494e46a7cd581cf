import Verif.Proofs.RedBoundsNtt

/-
Growth of the coefficients in the transforms of src/ntt_red.c for arbitrary tables with entries in
[-6144, 6144].
-/

namespace AnyTable
open C NTT RedBounds
open Spec (InRange elt ctSet gsSet)

/-- Bounds on the coefficients after `m` Cooley-Tukey rounds. -/
def ctB : Nat → Int
  | 0 => 21499
  | m + 1 => (5 * ctB m + 24575) / 2

/-- Bounds on the coefficients after `m` Gentleman-Sande rounds. -/
def gsB : Nat → Int
  | 0 => 21499
  | m + 1 => 3 * gsB m + 12287

theorem ctB_ok : ∀ m, m < 12 → 0 ≤ ctB m ∧ ctB m * 6144 ≤ 8796042698752 ∧ ctB (m + 1) ≤ 2147483647 := by
  decide

theorem gsB_ok : ∀ m, m < 10 → 0 ≤ gsB m ∧ 2 * gsB m * 6144 ≤ 8796042698752 ∧
    gsB (m + 1) ≤ 2147483647 := by
  decide

theorem ctB_end : ∀ m, m < 13 → ctB m ≤ 2147483647 := by decide
theorem gsB_end : ∀ m, m < 11 → gsB m ≤ 2147483647 := by decide

variable {E : Err → Prop} {n s t m : Nat} {w : Int}

theorem prod_le {w y b : Int} (hw : |w| ≤ 6144) (hy : |y| ≤ b) (hb : 0 ≤ b) :
    |w * y| ≤ 6144 * b := by
  rw [abs_mul]
  exact Int.mul_le_mul hw hy (abs_nonneg y) (by omega)

theorem ct_ok (hm : m < 12) (hw : |w| ≤ 6144) (hst : s ≠ t) :
    BfSpec E (NttRed.ctBf w s t) n s t (fun _ x => |x| ≤ ctB m) (fun _ x => |x| ≤ ctB (m + 1)) := by
  obtain ⟨h0, h1, h2⟩ := ctB_ok m hm
  refine ctBf_bound hst h2 ?_ ?_
  · exact le_trans (Int.mul_le_mul_of_nonneg_left hw h0) h1
  · rintro v ⟨x, y, u, hx, hy, rfl, h⟩
    have hp := prod_le hw hy h0
    rw [abs_le] at hp hx
    have : v ≤ (5 * ctB m + 24575) / 2 := by
      rcases h with rfl | rfl
      · rw [abs_le]; unfold Spec.red; omega
      · rw [abs_le]; unfold Spec.red; omega
    exact this

theorem gs_ok (hm : m < 10) (hw : |w| ≤ 6144) (hst : s ≠ t) :
    BfSpec E (NttRed.gsBf w s t) n s t (fun _ x => |x| ≤ gsB m) (fun _ x => |x| ≤ gsB (m + 1)) := by
  obtain ⟨h0, h1, h2⟩ := gsB_ok m hm
  have e : gsB (m + 1) = 3 * gsB m + 12287 := rfl
  refine gsBf_bound hst h2 ?_ (by omega) ?_
  · exact le_trans (Int.mul_le_mul_of_nonneg_left hw (by omega)) h1
  · rintro v ⟨x, y, u, hx, hy, rfl, h⟩
    have hxy : |x - y| ≤ 2 * gsB m := by
      rw [abs_le] at hx hy ⊢; omega
    have hp := prod_le hw hxy (by omega)
    rw [abs_le] at hp hx hy
    rcases h with rfl | rfl
    · rw [abs_le]; omega
    · rw [abs_le]; unfold Spec.red; omega

theorem bf0_ct (hm : m < 12) (hst : s ≠ t) :
    BfSpec E (NttRed.bf0 s t) n s t (fun _ x => |x| ≤ ctB m) (fun _ x => |x| ≤ ctB (m + 1)) := by
  obtain ⟨h0, h1, h2⟩ := ctB_ok m hm
  have e : ctB (m + 1) = (5 * ctB m + 24575) / 2 := rfl
  exact bf0_bound hst h2 (by omega)

theorem bf0_gs (hm : m < 10) (hst : s ≠ t) :
    BfSpec E (NttRed.bf0 s t) n s t (fun _ x => |x| ≤ gsB m) (fun _ x => |x| ≤ gsB (m + 1)) := by
  obtain ⟨h0, h1, h2⟩ := gsB_ok m hm
  have e : gsB (m + 1) = 3 * gsB m + 12287 := rfl
  exact bf0_bound hst h2 (by omega)

theorem pw_init {k : Nat} {a : Array Int} {b : Int} (ha : a.size = 2 ^ k)
    (hr : InRange (-b) b a) : PW (2 ^ k) (fun _ x => |x| ≤ b) a := by
  refine ⟨ha, fun i x hx => ?_⟩
  have := hr i (getElem?_lt hx)
  simp only [elt, Array.getD_eq_getD_getElem?, hx, Option.getD_some] at this
  exact abs_le.2 this

theorem finish {k : Nat} {f : M (Array Int)} {b : Int}
    (h : Wp NoErr f (PW (2 ^ k) (fun _ x => |x| ≤ b))) :
    ∃ a', f = .ok a' ∧ a'.size = 2 ^ k ∧ InRange (-b) b a' := by
  obtain ⟨a', e, h⟩ := wp_total.1 h
  refine ⟨a', e, h.1, fun i hi => ?_⟩
  have h1 : a'[i]? = some a'[i] := Array.getElem?_eq_getElem hi
  have h2 := h.2 i _ h1
  simp only [elt, Array.getD_eq_getD_getElem?, h1, Option.getD_some]
  exact abs_le.1 h2

end AnyTable
