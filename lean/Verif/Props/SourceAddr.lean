import Verif.Proofs.CRedAddr
import Verif.Props.SourceBounds

/-
C89: the functions of src/red_bounds.c that take addresses of their variables, executed from their text.
-/

namespace Props
open C Spec CLang CLang.Src

/-- The functions of src/red_bounds.c, as read from the text; calls of functions that store through pointers are statements. -/
def boundsText : Prog := direct (readSome red_bounds_text)

theorem boundsText_eq : boundsText = direct red_bounds := by rw [boundsText, red_bounds_read]

theorem bounds_funs : RedB.Funs2 (direct red_bounds) := ⟨⟨rfl, rfl, rfl, rfl, rfl, rfl⟩, rfl, rfl⟩

theorem fits_I64 {a b low high : Int} (hlh : low ≤ high) (hl : low ≠ 0) (hfit : ∀ w, low ≤ w → w ≤ high → RedMulFits a b w) : I64 a ∧ I64 b := by
  obtain ⟨h1, h2, _⟩ := fits_range hl (hfit low le_rfl hlh)
  exact ⟨h1, h2⟩

/-- `max_red_mul_interval(a, b, low, high, &m, &mw)`, as written in src/red_bounds.c, returns an upper bound of `red(w * x)` for `a ≤ x ≤ b` and
`low ≤ w ≤ high`, when `-b ≤ a` and the products fit in 64 bits: zero or a value at the stored numbers.  Only the two variables change. -/
theorem C89_max_red_mul_interval (a b low high : Int) (t : Ty) (ha : I64 a) (hb : I64 b) (hab : a ≤ b) (hsym : -b ≤ a) (hlh : low ≤ high) (hl : I64 low) (hh : I64 high)
    (hfit : ∀ w, low ≤ w → w ≤ high → RedMulFits a b w) (G : Name → Option Cell) (mem : Nat → Obj) (om ow sp : Nat) (z1 z2 : Int)
    (hm : mem om = ⟨.i64, #[z1]⟩) (hw : mem ow = ⟨.i64, #[z2]⟩) (hne : om ≠ ow) (_ : om < sp) (_ : ow < sp) :
    ∃ r m mw, ReturnsAt boundsText G sp n!"max_red_mul_interval" [.int t a, .int t b, .int t low, .int t high, .ptr om 0 1, .ptr ow 0 1] mem
        (.int .i64 r) (setMem (setMem mem om ⟨.i64, #[m]⟩) ow ⟨.i64, #[mw]⟩) ∧
      (∀ w x, low ≤ w → w ≤ high → a ≤ x → x ≤ b → red (w * x) ≤ r) ∧
      (r = 0 ∨ (a ≤ m ∧ m ≤ b) ∧ (low ≤ mw ∧ mw ≤ high) ∧ r = red (mw * m)) := by
  rw [boundsText_eq]
  obtain ⟨s, e, h1, h2⟩ := C30_max_red_mul_interval true a b low high hab hsym hlh hl hh hfit
  exact ⟨s.r, s.x, s.w, (RedB.max_red_mul_interval_returns bounds_funs rfl ha hb hl hh hm hw hne e).2.2.2, h1, h2⟩

/-- `min_red_mul_interval(a, b, low, high, &m, &wm)`, as written in src/red_bounds.c, the same for the lower bound, when `low` and `high` are not zero. -/
theorem C89_min_red_mul_interval (a b low high : Int) (t : Ty) (hab : a ≤ b) (hsym : -b ≤ a) (hlh : low ≤ high) (hl : I64 low) (hh : I64 high)
    (hl0 : low ≠ 0) (hh0 : high ≠ 0) (hfit : ∀ w, low ≤ w → w ≤ high → RedMulFits a b w) (G : Name → Option Cell) (mem : Nat → Obj) (om ow sp : Nat) (z1 z2 : Int)
    (hm : mem om = ⟨.i64, #[z1]⟩) (hw : mem ow = ⟨.i64, #[z2]⟩) (hne : om ≠ ow) (_ : om < sp) (_ : ow < sp) :
    ∃ r m wm, ReturnsAt boundsText G sp n!"min_red_mul_interval" [.int t a, .int t b, .int t low, .int t high, .ptr om 0 1, .ptr ow 0 1] mem
        (.int .i64 r) (setMem (setMem mem om ⟨.i64, #[m]⟩) ow ⟨.i64, #[wm]⟩) ∧
      (∀ w x, low ≤ w → w ≤ high → a ≤ x → x ≤ b → r ≤ red (w * x)) ∧
      (r = 0 ∨ (a ≤ m ∧ m ≤ b) ∧ (low ≤ wm ∧ wm ≤ high) ∧ r = red (wm * m)) := by
  rw [boundsText_eq]
  obtain ⟨ha, hb⟩ := fits_I64 hlh hl0 hfit
  obtain ⟨s, e, h1, h2⟩ := C30_min_red_mul_interval true a b low high hab hsym hlh hl hh hfit (Or.inr ⟨hl0, hh0⟩)
  exact ⟨s.r, s.x, s.w, (RedB.min_red_mul_interval_returns bounds_funs rfl ha hb hl hh hm hw hne e).2.2.2, h1, h2⟩

/-- `ct_bound(b, low, high)`, as written in src/red_bounds.c, returns the largest absolute value of the results of a Cooley-Tukey butterfly whose
operands are bounded by `b` and whose multiplier is between `low` and `high`; the memory does not change. -/
theorem C89_ct_bound (b low high : Int) (t : Ty) (hb : 0 ≤ b) (hb62 : b ≤ 4611686018427387904) (hlh : low ≤ high) (hl : I64 low) (hh : I64 high)
    (hl0 : low ≠ 0) (hh0 : high ≠ 0) (hfit : ∀ w, low ≤ w → w ≤ high → RedMulFits (-b) b w) :
    ∃ r, (∀ G mem sp, ReturnsAt boundsText G sp n!"ct_bound" [.int t b, .int t low, .int t high] mem (.int .i64 r) mem) ∧
      IsGreatest (ctSet b fun w => low ≤ w ∧ w ≤ high) r := by
  rw [boundsText_eq]
  obtain ⟨r, e, h⟩ := C31_ct_bound true b low high hb hb62 hlh hl hh hfit (Or.inr ⟨hl0, hh0⟩)
  exact ⟨r, fun G mem sp => (RedB.ct_bound_returns bounds_funs rfl rfl rfl ⟨by omega, by omega⟩ hl hh e).2, h⟩

/-- `gs_bound(b, low, high)`, as written in src/red_bounds.c, the same for a Gentleman-Sande butterfly. -/
theorem C89_gs_bound (b low high : Int) (t : Ty) (hb : 0 ≤ b) (hb62 : b < 4611686018427387904) (hlh : low ≤ high) (hl : I64 low) (hh : I64 high)
    (hl0 : low ≠ 0) (hh0 : high ≠ 0) (hfit : ∀ w, low ≤ w → w ≤ high → RedMulFits (-2 * b) (2 * b) w) :
    ∃ r, (∀ G mem sp, ReturnsAt boundsText G sp n!"gs_bound" [.int t b, .int t low, .int t high] mem (.int .i64 r) mem) ∧
      IsGreatest (gsSet b fun w => low ≤ w ∧ w ≤ high) r := by
  rw [boundsText_eq]
  obtain ⟨r, e, h⟩ := C31_gs_bound true b low high hb hb62 hlh hl hh hfit (Or.inr ⟨hl0, hh0⟩)
  exact ⟨r, fun G mem sp => (RedB.gs_bound_returns bounds_funs rfl rfl rfl ⟨by omega, by omega⟩ hl hh e).2, h⟩

/-- `ct_bound_fixed(b, w)`, as written in src/red_bounds.c: the same as `ct_bound` for one multiplier. -/
theorem C89_ct_bound_fixed (b w : Int) (t : Ty) (hb : 0 ≤ b) (hb62 : b ≤ 4611686018427387904) (hw : w ≠ 0) (hfit : RedMulFits (-b) b w) :
    ∃ r, (∀ G mem sp, ReturnsAt boundsText G sp n!"ct_bound_fixed" [.int t b, .int t w] mem (.int .i64 r) mem) ∧ IsGreatest (ctSet b fun w' => w' = w) r := by
  rw [boundsText_eq]
  obtain ⟨r, e, h⟩ := C31_ct_bound_fixed true b w hb hb62 hw hfit
  refine ⟨r, fun G mem sp => (RedB.ct_bound_fixed_returns bounds_funs rfl ⟨by omega, by omega⟩ (fits_range hw hfit).2.2 e).2, ?_⟩
  convert h using 1
  ext v
  constructor
  · rintro ⟨x, y, _, hx, hy, rfl, hv⟩; exact ⟨x, y, hx, hy, hv⟩
  · rintro ⟨x, y, hx, hy, hv⟩; exact ⟨x, y, w, hx, hy, rfl, hv⟩

/-- `gs_bound_fixed(b, w)`, as written in src/red_bounds.c: the same as `gs_bound` for one multiplier. -/
theorem C89_gs_bound_fixed (b w : Int) (t : Ty) (hb : 0 ≤ b) (hb62 : b < 4611686018427387904) (hw : w ≠ 0) (hfit : RedMulFits (-2 * b) (2 * b) w) :
    ∃ r, (∀ G mem sp, ReturnsAt boundsText G sp n!"gs_bound_fixed" [.int t b, .int t w] mem (.int .i64 r) mem) ∧ IsGreatest (gsSet b fun w' => w' = w) r := by
  rw [boundsText_eq]
  obtain ⟨r, e, h⟩ := C31_gs_bound_fixed true b w hb hb62 hw hfit
  refine ⟨r, fun G mem sp => (RedB.gs_bound_fixed_returns bounds_funs rfl ⟨by omega, by omega⟩ (fits_range hw hfit).2.2 e).2, ?_⟩
  convert h using 1
  ext v
  constructor
  · rintro ⟨x, y, _, hx, hy, rfl, hv⟩; exact ⟨x, y, hx, hy, hv⟩
  · rintro ⟨x, y, hx, hy, hv⟩; exact ⟨x, y, w, hx, hy, rfl, hv⟩

theorem b0_range (b0 : Int) (k : Nat) (hb : 0 ≤ b0) (hB : (3 : Int) ^ k * (b0 + 6144) ≤ 1099511627776) : I64 b0 := by
  have h3 : (1 : Int) ≤ 3 ^ k := one_le_pow₀ (by decide)
  have : b0 + 6144 ≤ (3 : Int) ^ k * (b0 + 6144) := by nlinarith
  exact ⟨by omega, by omega⟩

section
variable (b0 : Int) (k : Nat) (p bound : Array Int) (t : Ty) (hk : k ≤ 31) (hb : 0 ≤ b0) (hB : (3 : Int) ^ k * (b0 + 6144) ≤ 1099511627776) (hp : Table16 p)
  (hp' : ∀ i, 0 < i → i < 2 ^ k → ∃ w, p[i]? = some w ∧ w ≠ 0 ∧ |w| ≤ 6144) (hs : k < bound.size) (G : Name → Option Cell) (mem : Nat → Obj) (op ob sp : Nat)
  (hop : mem op = ⟨.i16, p⟩) (hob : mem ob = ⟨.i64, bound⟩)
include hk hb hB hp hp' hs hop hob

/-- `ntt_ct_bounds(b0, n, p, bound)`, as written in src/red_bounds.c, for `n = 2^k` and a table of nonzero elements of at most 6144 in absolute value: entry `m + 1` of
the array is the largest absolute value of the results of round `m` for operands bounded by entry `m`, the last is returned.  Only the array changes. -/
theorem C89_ntt_ct_bounds (_ : op < sp) (_ : ob < sp) :
    ∃ B bound', ReturnsAt boundsText G sp n!"ntt_ct_bounds" [.int t b0, .int t ((2 ^ k : Nat) : Int), .ptr op 0 1, .ptr ob 0 1] mem (.int .i64 B) (setMem mem ob ⟨.i64, bound'⟩) ∧
      bound'.size = bound.size ∧ B = elt bound' k ∧ Chain ctSet p (fun m => 2 ^ m) k b0 (elt bound') := by
  rw [boundsText_eq]
  obtain ⟨⟨B, bound'⟩, h⟩ := (C41_returns true b0 k p bound hk hb hB hp' hs).1
  obtain ⟨h1, h2, h3, h4⟩ := C41_ntt_ct_bounds true b0 k p bound B bound' hk hb hp h
  have hn : 2 ^ k < 4294967296 := lt_of_le_of_lt (Nat.pow_le_pow_right (by decide) hk) (by decide)
  exact ⟨B, bound', RedB.nttct_returns bounds_funs rfl rfl hop hob hp hn (b0_range b0 k hb hB) h, h1, h2, h3, h4⟩

/-- `ntt_gs_bounds(b0, n, p, bound)`, as written in src/red_bounds.c: the same for Gentleman-Sande. -/
theorem C89_ntt_gs_bounds (_ : op < sp) (_ : ob < sp) :
    ∃ B bound', ReturnsAt boundsText G sp n!"ntt_gs_bounds" [.int t b0, .int t ((2 ^ k : Nat) : Int), .ptr op 0 1, .ptr ob 0 1] mem (.int .i64 B) (setMem mem ob ⟨.i64, bound'⟩) ∧
      bound'.size = bound.size ∧ B = elt bound' k ∧ Chain gsSet p (fun m => 2 ^ (k - 1 - m)) k b0 (elt bound') := by
  rw [boundsText_eq]
  obtain ⟨⟨B, bound'⟩, h⟩ := (C41_returns true b0 k p bound hk hb hB hp' hs).2
  obtain ⟨h1, h2, h3, h4⟩ := C42_ntt_gs_bounds true b0 k p bound B bound' hk hb hp h
  have hn : 2 ^ k < 4294967296 := lt_of_le_of_lt (Nat.pow_le_pow_right (by decide) hk) (by decide)
  exact ⟨B, bound', RedB.nttgs_returns bounds_funs rfl rfl hop hob hp hn (b0_range b0 k hb hB) h, h1, h2, h3, h4⟩

end

/-! The hypotheses can be met, and the functions can be executed: some results. -/

example : ∀ w, -20 ≤ w → w ≤ 30 → RedMulFits (-5000) 5000 w := by
  intro w h1 h2
  have : |w| ≤ 30 := abs_le.2 ⟨by omega, by omega⟩
  unfold RedMulFits
  norm_num
  omega
example : (3 : Int) ^ 3 * (21499 + 6144) ≤ 1099511627776 ∧ Table16 #[0, -4096, -4096, -1, -4096, 5444, -1, -723] ∧
    ∀ i, 0 < i → i < 2 ^ 3 → ∃ w, (#[0, -4096, -4096, -1, -4096, 5444, -1, -723] : Array Int)[i]? = some w ∧ w ≠ 0 ∧ |w| ≤ 6144 := by
  refine ⟨by decide, ?_, ?_⟩
  · intro i w h
    have : ∀ w ∈ (#[0, -4096, -4096, -1, -4096, 5444, -1, -723] : Array Int), -32768 ≤ w ∧ w ≤ 32767 := by decide
    exact this w (Array.mem_of_getElem? h)
  · intro i h1 h2
    have : ∀ i, i < 8 → 0 < i → (#[0, -4096, -4096, -1, -4096, 5444, -1, -723] : Array Int)[i]? = some (elt #[0, -4096, -4096, -1, -4096, 5444, -1, -723] i) ∧
      elt #[0, -4096, -4096, -1, -4096, 5444, -1, -723] i ≠ 0 ∧ |elt #[0, -4096, -4096, -1, -4096, 5444, -1, -723] i| ≤ 6144 := by decide
    exact ⟨_, this i h2 h1⟩
example : (callValueAt boundsText (fun _ => none) 10 500 n!"ct_bound" [.int .i64 5000, .int .i64 (-2), .int .i64 3] fun _ => ⟨.i64, #[77]⟩).map
    (fun r => (r.1, (r.2 3).data, (r.2 10).data)) = .ok (.int .i64 17288, #[77], #[77]) := by
  rw [boundsText_eq]; decide +kernel
example : (callValueAt boundsText (fun _ => none) 10 500 n!"ntt_ct_bounds" [.int .i64 21499, .int .i32 4, .ptr 3 0 1, .ptr 4 0 1]
    fun o => if o = 3 then ⟨.i16, #[0, -4096, -4096, -1]⟩ else ⟨.i64, #[7, 7, 7, 7]⟩).map
    (fun r => (r.1, (r.2 4).data, (r.2 5).data)) = .ok (.int .i64 85996, #[21499, 42998, 85996, 7], #[7, 7, 7, 7]) := by
  rw [boundsText_eq]; decide +kernel

end Props
