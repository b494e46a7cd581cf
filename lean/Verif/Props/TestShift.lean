import Verif.Model.TestShift
import Verif.Proofs.NttRed
import Verif.Proofs.AsmElem
import Mathlib.Tactic.Ring

/-
C80: shifts of negative numbers and masks, and what src/test_shift.c prints.
-/

namespace Props
open C TestShift

/-- A right shift of an `int32_t` by `k` rounds the quotient by `2^k` down, also for negative numbers. -/
theorem C80_shift (x : Int) (k : Nat) : sar x k * 2 ^ k ≤ x ∧ x < (sar x k + 1) * 2 ^ k := by
  unfold sar
  have hp : (0 : Int) < 2 ^ k := by positivity
  have e : ((2 ^ k : Nat) : Int) = 2 ^ k := by push_cast; rfl
  rw [e]
  have h1 := Int.mul_ediv_add_emod x (2 ^ k)
  have h2 := Int.emod_nonneg x hp.ne'
  have h3 := Int.emod_lt_of_pos x hp
  constructor <;> nlinarith

private theorem land_zero (q : Int) : land32 0 q = 0 := by
  unfold land32 toI32
  have : toU32 0 = 0 := by decide
  rw [this, Nat.zero_and]
  decide

private theorem land_neg (q : Int) (h0 : 0 ≤ q) (h1 : q ≤ 2147483647) : land32 (-1) q = q := by
  unfold land32
  have e1 : toU32 (-1) = 2 ^ 32 - 1 := by decide
  have e2 : toU32 q = q.toNat := by unfold toU32; omega
  rw [e1, e2, Nat.and_comm, Nat.and_two_pow_sub_one_eq_mod, Nat.mod_eq_of_lt (by omega)]
  unfold toI32
  show ((q.toNat : Int) + 2147483648) % 4294967296 - 2147483648 = q
  omega

/-- The idiom `(x >> k) & q` is `q` for negative and 0 for other numbers, for all `x` with `-2^k ≤ x < 2^k`; for `k = 31`, that is for
every `int32_t`. -/
theorem C80_mask (x q : Int) (k : Nat) (hx : -2 ^ k ≤ x ∧ x < 2 ^ k) (h0 : 0 ≤ q) (h1 : q ≤ 2147483647) :
    land32 (sar x k) q = if x < 0 then q else 0 := by
  obtain ⟨g1, g2⟩ := C80_shift x k
  have hp : (0 : Int) < 2 ^ k := by positivity
  split
  · have : sar x k = -1 := by
      apply le_antisymm
      · by_contra h
        have : 0 ≤ sar x k := by omega
        nlinarith
      · by_contra h
        have : sar x k + 1 ≤ -1 := by omega
        nlinarith
    rw [this]
    exact land_neg q h0 h1
  · have : sar x k = 0 := by
      apply le_antisymm
      · by_contra h
        have : 1 ≤ sar x k := by omega
        nlinarith
      · by_contra h
        have : sar x k + 1 ≤ 0 := by omega
        nlinarith
    rw [this]
    exact land_zero q

/-- The range cannot be extended: at `2^k` the mask is not 0 (for an odd `q`), at `-2^k - 1` it is not `q` (for an odd `q`). -/
theorem C80_mask_range : land32 (sar 2048 11) 12289 = 1 ∧ land32 (sar (-2049) 11) 12289 = 12288 := by decide

/-- `sub_mod` of ntt.c is the conditional expression of its comment (src/ntt.c:71), for all operands in [0, Q-1]. -/
theorem C80_sub_mod (x y : Int) (hx : 0 ≤ x ∧ x ≤ 12288) (hy : 0 ≤ y ∧ y ≤ 12288) :
    Ntt.sub_mod x y = .ok (if x - y < 0 then x - y + 12289 else x - y) := by
  unfold Ntt.sub_mod
  rw [NttRed.i32_ok ⟨by omega, by omega⟩, NttRed.ok_bind, show Ntt.Q = 12289 from rfl,
    C80_mask _ 12289 14 (by omega) (by omega) (by omega)]
  split
  · exact NttRed.i32_ok ⟨by omega, by omega⟩
  · rw [add_zero]; exact NttRed.i32_ok ⟨by omega, by omega⟩

/-- `add_mod` of ntt.c is the conditional expression of its comment (src/ntt.c:77-78), for all operands in [0, Q-1]. -/
theorem C80_add_mod (x y : Int) (hx : 0 ≤ x ∧ x ≤ 12288) (hy : 0 ≤ y ∧ y ≤ 12288) :
    Ntt.add_mod x y = .ok (if x + y - 12289 ≥ 0 then x + y - 12289 else x + y) := by
  unfold Ntt.add_mod
  rw [show Ntt.Q = 12289 from rfl, NttRed.i32_ok ⟨by omega, by omega⟩, NttRed.ok_bind, NttRed.i32_ok ⟨by omega, by omega⟩,
    NttRed.ok_bind, C80_mask _ 12289 14 (by omega) (by omega) (by omega)]
  split
  · rw [if_neg (by omega), NttRed.i32_ok ⟨by omega, by omega⟩]; congr 1; omega
  · rw [if_pos (by omega), NttRed.i32_ok ⟨by omega, by omega⟩]; congr 1; omega

/-- "shift by 14 is enough" (src/ntt.c:73), and no smaller shift is: for differences of numbers in [0, Q-1] the mask is right with a
shift by `k ≤ 31` exactly if `k ≥ 14`. -/
theorem C80_fourteen (k : Nat) (hk : k ≤ 31) :
    (∀ x y : Int, 0 ≤ x ∧ x ≤ 12288 → 0 ≤ y ∧ y ≤ 12288 →
      x - y + land32 (sar (x - y) k) 12289 = if x - y < 0 then x - y + 12289 else x - y) ↔ 14 ≤ k := by
  constructor
  · intro h
    by_contra hlt
    have hk' : k < 14 := by omega
    have hr : ∀ k < 14, (0 : Int) ≤ 2 ^ k ∧ (2 : Int) ^ k ≤ 12288 := by decide
    have h1 := h (2 ^ k) 0 (hr k hk') (by omega)
    revert h1
    clear h hk hlt hr
    revert k
    decide
  · intro h x y hx hy
    have hp : (2 : Int) ^ 14 ≤ 2 ^ k := by
      have := Nat.pow_le_pow_right (show 0 < 2 by omega) h
      exact_mod_cast this
    rw [C80_mask _ 12289 k (by omega) (by omega) (by omega)]
    split <;> omega

/-- `correct` of ntt_red.c is the `#else` branch of its source (src/ntt_red.c:161-165) for all arrays of numbers in [-65536, 65535];
it is called with numbers in [-Q, 2Q). -/
theorem C80_correct (a : Array Int) (n : Nat) (hn : n < 4294967296) (ha : a.size = n)
    (hr : ∀ (i : Nat) x, a[i]? = some x → -65536 ≤ x ∧ x ≤ 65535) :
    ∃ b, NttRed.correct a n = .ok b ∧ b.size = n ∧
      ∀ (i : Nat) x, a[i]? = some x → b[i]? = some (if x < 0 then x + 12289 else if x ≥ 12289 then x - 12289 else x) := by
  have he : ∀ i, i < n → a[i]? = some (Spec.elt a i) := fun i hi => NTT.some_elt (by omega)
  obtain ⟨b, e, hs, hb⟩ := Asm.c_correct hn ha (fun i hi => hr i _ (he i hi))
  refine ⟨b, e, hs, fun i x hx => ?_⟩
  have hi : i < n := by
    rw [← ha]
    exact (Array.getElem?_eq_some_iff.1 hx).1
  have h1 := he i hi
  rw [hx] at h1
  have h1 := Option.some.inj h1
  have h2 := hr i x hx
  rw [NTT.some_elt (show i < b.size by omega), hb i hi]
  dsimp only
  rw [← h1, Asm.corRaw_eq (by unfold I32; omega)]
  congr 1

/-- The range cannot be extended: next to it the compiled branch gives other results than the `#else` branch (-53248 and 53247). -/
theorem C80_correct_range : NttRed.correct #[-65537] 1 = .ok #[-53250] ∧ NttRed.correct #[65536] 1 = .ok #[53248] := by
  decide

/-- What a line of the output says. -/
def ShiftLineOK : Line → Prop
  | .shift31 x r => r = if x < 0 then -1 else 0
  | .shift11 x r => r * 2048 ≤ x ∧ x < (r + 1) * 2048
  | .and31 x q r => r = if x < 0 then q else 0
  | .and11 x q r => r = if x < 0 then q else 0

/-- The lines for `i`: for the results `r`, some numbers. -/
def shiftLines (i : Int) (l : List Line) : Prop :=
  ∃ r0 r1 r2 r3 r4 r5 r6 r7 : Int, l = [.shift31 i r0, .shift11 i r1, .shift31 (-i) r2, .shift11 (-i) r3, .and31 i 12289 r4,
    .and11 i 12289 r5, .and31 (-i) 12289 r6, .and11 (-i) 12289 r7]

private def body (i : Nat) : List Line :=
  print_shift i ++ print_shift (-(i : Int)) ++ print_shift_and i 12289 ++ print_shift_and (-(i : Int)) 12289

private theorem ok_shift (x : Int) (h : -1003 < x ∧ x < 1003) : ∀ l ∈ print_shift x ++ print_shift_and x 12289, ShiftLineOK l := by
  intro l hl
  simp only [print_shift, print_shift_and, List.cons_append, List.nil_append, List.mem_cons, List.not_mem_nil, or_false] at hl
  rcases hl with rfl | rfl | rfl | rfl
  · show sar x 31 = _
    unfold sar
    split <;> omega
  · exact C80_shift x 11
  · exact C80_mask x 12289 31 (by omega) (by decide) (by decide)
  · exact C80_mask x 12289 11 (by omega) (by decide) (by decide)

private theorem body_ok (i : Nat) (hi : i < 1003) : shiftLines i (body i) ∧ ∀ x ∈ body i, ShiftLineOK x := by
  refine ⟨⟨sar i 31, sar i 11, sar (-(i : Int)) 31, sar (-(i : Int)) 11, land32 (sar i 31) 12289, land32 (sar i 11) 12289,
    land32 (sar (-(i : Int)) 31) 12289, land32 (sar (-(i : Int)) 11) 12289, ?_⟩, ?_⟩
  · simp only [body, print_shift, print_shift_and, List.cons_append, List.nil_append]
  · intro x hx
    have h1 := ok_shift i (by omega)
    have h2 := ok_shift (-i) (by omega)
    simp only [body, List.mem_append] at hx
    rcases hx with ((hx | hx) | hx) | hx
    · exact h1 x (List.mem_append_left _ hx)
    · exact h2 x (List.mem_append_left _ hx)
    · exact h1 x (List.mem_append_right _ hx)
    · exact h2 x (List.mem_append_right _ hx)

private theorem wp_main : Wp NoErr TestShift.main (fun l => l = ((List.range 1003).map body).flatten) := by
  unfold TestShift.main
  refine wp_forUp1 (fun i l => l = ((List.range i).map body).flatten) (by norm_num) (by norm_num) ?_ ?_ ?_
  · rw [List.range_zero, List.map_nil, List.flatten_nil]
  · intro i l _ hi hl
    rw [hl, NttRed.i32_ok ⟨by omega, by omega⟩, NttRed.ok_bind, wp_pure, List.range_succ, List.map_append, List.flatten_append,
      List.map_cons, List.map_nil, List.flatten_cons, List.flatten_nil, List.append_nil]
    simp only [body, List.append_assoc]
  · intro l hl; exact hl

private theorem parts (N : Nat) (hN : N = 1003) : ((List.range N).map body).length = 1003 ∧
    ∀ (i : Nat) l, ((List.range N).map body)[i]? = some l → shiftLines i l ∧ ∀ x ∈ l, ShiftLineOK x := by
  refine ⟨by rw [List.length_map, List.length_range, hN], fun i l hl => ?_⟩
  rw [List.getElem?_map, Option.map_eq_some_iff] at hl
  obtain ⟨j, hj, e⟩ := hl
  rw [List.getElem?_eq_some_iff] at hj
  obtain ⟨h, e'⟩ := hj
  rw [List.length_range] at h
  rw [List.getElem_range] at e'
  subst e' e
  exact body_ok i (by omega)

/-- The program prints, for `i = 0, ..., 1002` in this order, eight lines for `i` and `-i`, and all of them are right. -/
theorem C80_test_shift : ∃ L : List (List Line), TestShift.main = .ok L.flatten ∧ L.length = 1003 ∧
    ∀ (i : Nat) l, L[i]? = some l → shiftLines i l ∧ ∀ x ∈ l, ShiftLineOK x := by
  obtain ⟨l, e, h⟩ := wp_total.1 wp_main
  obtain ⟨N, hN⟩ : ∃ N, N = 1003 := ⟨_, rfl⟩
  rw [← hN] at h
  subst h
  exact ⟨_, e, parts N hN⟩

/-- Non-vacuity: the extreme numbers of type `int32_t`. -/
example : land32 (sar (-2147483648) 31) 12289 = 12289 ∧ land32 (sar 2147483647 31) 12289 = 0 ∧
    (-2 ^ 31 : Int) ≤ -2147483648 ∧ (2147483647 : Int) < 2 ^ 31 := by decide

end Props
