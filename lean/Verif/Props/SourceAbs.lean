import Verif.Proofs.CTestRedBounds
import Verif.Proofs.CRelease

/-
C96: `max_abs_red` of src/test_red_bounds.c, executed from the text of src/test_red_bounds.c and src/red_bounds.c.
-/

namespace Props
open C Spec CLang CLang.Src

/-- The functions of src/test_red_bounds.c and src/red_bounds.c, as read from the text of the files.  (Both files have a static function
`red`, the text of which is the same.) -/
def absText : Prog := readSome test_red_bounds_text ++ readSome red_bounds_text

/-- C96: `max_abs_red(b)` returns the greatest magnitude of `red x` for `|x| ≤ b`, for every `b ≥ 0` of type `int64_t`, with and without
assertions.  The memory is not changed. -/
theorem C96_max_abs_red (G : Name → Option Cell) (sp : Nat) (mem : Nat → Obj) (b : Int) (t : Ty) (h0 : 0 ≤ b) (hb : b ≤ 9223372036854775807) :
    ∃ r : Int, ReturnsAt absText G sp n!"max_abs_red" [.int t b] mem (.int .i64 r) mem ∧
      ReturnsAt (release absText) G sp n!"max_abs_red" [.int t b] mem (.int .i64 r) mem ∧
      (∃ x, |x| ≤ b ∧ |Spec.red x| = r) ∧ ∀ x, |x| ≤ b → |Spec.red x| ≤ r := by
  have hI : I64 b := by unfold I64; omega
  have hnb : I64 (-b) := by unfold I64; omega
  unfold absText
  rw [test_red_bounds_read, red_bounds_read]
  obtain ⟨r, m, x, y, st', e1, e2, hrt, hst⟩ := Tb.max_abs_red_rt (P := test_red_bounds ++ red_bounds) (G := G) (mem := mem) (sp := sp)
    rfl rfl rfl h0 hI
  obtain ⟨r', x', e1', hx, hrx, hmin⟩ := C28_min_red true (-b) b hnb hI (by omega)
  obtain ⟨m', y', e2', hy, hmy, hmax⟩ := C28_max_red true (-b) b hnb hI (by omega)
  rw [e1] at e1'; rw [e2] at e2'
  cases e1'; cases e2'
  have hmin' : ∀ z, -b ≤ z → z ≤ b → r ≤ Spec.red z := fun z h h' => hmin.2 ⟨z, h, h', rfl⟩
  have hmax' : ∀ z, -b ≤ z → z ≤ b → Spec.red z ≤ m := fun z h h' => hmax.2 ⟨z, h, h', rfl⟩
  have hr := Tb.red_rng51 (x := x) (by unfold I64; omega)
  have hm := Tb.red_rng51 (x := y) (by unfold I64; omega)
  rw [← hrx] at hr; rw [← hmy] at hm
  have hr0 : r ≤ 0 := hmin' 0 (by omega) (by omega)
  have hm0 : 0 ≤ m := hmax' 0 (by omega) (by omega)
  have hret := RedB.ReturnsAt.mk (P := test_red_bounds ++ red_bounds) (g := n!"max_abs_red") (mem := mem) (sp := sp) rfl rfl
    (RedB.bind1 (t := t) hI) (by rw [setEnv_look]; exact hrt) (RedB.result64 (v := Max.max (-r) m) (by unfold I64; omega))
  rw [hst] at hret
  refine ⟨_, hret, hret.release, ?_, fun z hz => ?_⟩
  · by_cases h : m ≤ -r
    · exact ⟨x, abs_le.2 ⟨hx.1, hx.2⟩, by rw [max_eq_left h, ← hrx, abs_of_nonpos hr0]⟩
    · exact ⟨y, abs_le.2 ⟨hy.1, hy.2⟩, by rw [max_eq_right (by omega), ← hmy, abs_of_nonneg hm0]⟩
  · rw [abs_le] at hz ⊢
    have := hmin' z hz.1 hz.2
    have := hmax' z hz.1 hz.2
    omega

/-- Concrete calls: the first bound of test_red_bounds and the greatest argument. -/
example : (callValueAt absText (fun _ => none) 10 200 n!"max_abs_red" [.int .i32 12288] fun _ => ⟨.i64, #[0]⟩).map (·.1) = .ok (.int .i64 12288) ∧
    (callValueAt absText (fun _ => none) 10 200 n!"max_abs_red" [.int .i64 9223372036854775807] fun _ => ⟨.i64, #[0]⟩).map (·.1) =
      .ok (.int .i64 2251799813697533) := by
  unfold absText
  rw [test_red_bounds_read, red_bounds_read]
  decide +kernel

end Props
