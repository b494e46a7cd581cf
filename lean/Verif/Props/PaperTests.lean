import Verif.Model.PaperTests
import Verif.Proofs.AbsBounds
import Verif.Proofs.Params
import Verif.Props.AnyTable
import Verif.Props.Products
import Verif.Props.NttRedInterval
import Verif.Props.Warnings

/-
C54: the interval analysis of the transforms returns, shows no warning, and is conclusive.  In
particular this holds of the programs of src/tests_in_paper.

The bounds on the displayed intervals are the bounds of C46 on the elements of the arrays:
`AnyTable.ctB` (21499, then `(5 B + 24575) / 2` at each round) and `AnyTable.gsB` (21499, then
`3 B + 12287`).
-/

namespace Props
open C NTT Spec Intervals NttRedInterval AnyTable

/-- What holds after a run of an abstract transform. -/
theorem bounded_no_warning {k : Nat} {B : Nat → Int} {A' : Array Ivl} {log : List Shown}
    (hB : ∀ m, m < k + 1 → B m ≤ 2147483647) (hb : Bounded k B (A', log)) (hw : WarnsExactly (2 ^ k) log) :
    log.length = k + 1 ∧ NoWarning log ∧ ShownBounds B log := by
  obtain ⟨_, hl, hs⟩ := hb
  have sb : ShownBounds B log := fun m sh h i X hX => (hs m sh h).2 i X hX
  refine ⟨hl, fun sh hsh => ?_, sb⟩
  rw [List.eq_nil_iff_forall_not_mem]
  intro i hi
  obtain ⟨_, X, hX, hn⟩ := (hw sh hsh i).1 hi
  obtain ⟨m, hm, e⟩ := List.getElem_of_mem hsh
  have e' : log[m]? = some sh := by rw [← e]; exact List.getElem?_eq_getElem hm
  have hx := sb m sh e' i X hX
  simp only at hl
  have := hB m (by omega)
  apply hn
  omega

section
variable {k : Nat} {A : Array Ivl} {p : Array Int}

theorem within_valid (hI : IvlsWithin 21499 A) : ValidArray A := by
  intro i X h
  obtain ⟨h1, h2, h3⟩ := hI i X h
  exact ⟨⟨by omega, by omega⟩, ⟨by omega, by omega⟩, h2⟩

theorem nonzero_mulIn {dbg : Bool} (hp : NonzeroTable (2 ^ k) p) :
    ∀ i w, 0 < i → i < 2 ^ k → p[i]? = some w → MulIn (red_scale dbg w) := by
  intro i w h0 h1 h
  obtain ⟨hr, hz⟩ := hp.2 i w h
  exact mulIn_scale (hz h0 h1) (abs_le.2 ⟨by omega, by omega⟩)

theorem nonzero_16 (hp : NonzeroTable (2 ^ k) p) : Table16 p := by
  intro i w h
  obtain ⟨hr, _⟩ := hp.2 i w h
  omega

theorem nonzero_any (hp : NonzeroTable (2 ^ k) p) : AnyTable16 (2 ^ k) p :=
  ⟨hp.1, fun i w h => by obtain ⟨hr, _⟩ := hp.2 i w h; exact abs_le.2 ⟨by omega, by omega⟩⟩

theorem inside_range (hI : IvlsWithin 21499 A) {a : Array Int} (ha : Inside a A) :
    InRange (-21499) 21499 a := by
  intro i hi
  have e : a[i]? = some a[i] := Array.getElem?_eq_getElem hi
  have hi' : i < A.size := by rw [← ha.1]; exact hi
  have e' : A[i]? = some A[i] := Array.getElem?_eq_getElem hi'
  obtain ⟨h1, h2, h3⟩ := hI i _ e'
  have := ha.2 i _ _ e e'
  rw [mem_iff] at this
  have : elt a i = a[i] := by simp [elt, e]
  omega

/-- The conclusion of an analysis: it returns after `k` rounds, without a warning and with displayed
intervals within the bounds `B`; and for all arrays `a` in `A`, the transform returns and its result is in
the displayed result. -/
def Conclusive (k : Nat) (B : Nat → Int) (A : Array Ivl) (analysis : M (Array Ivl × List Shown))
    (transform : Array Int → M (Array Int)) : Prop :=
  ∃ A' log, analysis = .ok (A', log) ∧ log.length = k + 1 ∧ NoWarning log ∧ ShownBounds B log ∧
    ∀ a, Inside a A → ∃ a', transform a = .ok a' ∧ Inside a' A'

theorem conclusive {B : Nat → Int} {L : Int} {analysis : M (Array Ivl × List Shown)}
    {transform : Array Int → Nat → Array Int → M (Array Int)}
    (hB : ∀ m, m < k + 1 → B m ≤ 2147483647) (hA : A.size = 2 ^ k) (hI : IvlsWithin 21499 A)
    (hp : NonzeroTable (2 ^ k) p) (hw : Wp NoErr analysis (Bounded k B))
    (hwarn : ∀ A' log, analysis = .ok (A', log) → WarnsExactly (2 ^ k) log)
    (hn : NeverFails transform k L)
    (hs : ∀ a A' log, Inside a A → analysis = .ok (A', log) →
      ∀ a', transform a (2 ^ k) p = .ok a' → Inside a' A') :
    Conclusive k B A analysis (fun a => transform a (2 ^ k) p) := by
  obtain ⟨⟨A', log⟩, e, hb⟩ := wp_total.1 hw
  obtain ⟨h1, h2, h3⟩ := bounded_no_warning hB hb (hwarn A' log e)
  refine ⟨A', log, e, h1, h2, h3, fun a ha => ?_⟩
  obtain ⟨a', e', _⟩ := hn a p (ha.1.trans hA) (inside_range hI ha) (nonzero_any hp)
  exact ⟨a', e', hs a A' log ha e a' e'⟩

theorem pow_lt32 (hk : k ≤ 31) : 2 ^ k < 2 ^ 32 := Nat.pow_lt_pow_right (by omega) (by omega)

/-- The analyses of the Cooley-Tukey transforms, for all sizes up to `2^12`, all arrays of intervals within
21499 of 0 and all tables of non-zero twiddle factors in `[-6144, 6144]`. -/
theorem C54_ct (dbg : Bool) (hk : k ≤ 12) (hA : A.size = 2 ^ k) (hI : IvlsWithin 21499 A)
    (hp : NonzeroTable (2 ^ k) p) :
    ∀ f ∈ [(abstract_ntt_red_ct_rev2std, NttRed.ntt_red_ct_rev2std),
      (abstract_mulntt_red_ct_rev2std, NttRed.mulntt_red_ct_rev2std),
      (abstract_ntt_red_ct_std2rev, NttRed.ntt_red_ct_std2rev),
      (abstract_mulntt_red_ct_std2rev, NttRed.mulntt_red_ct_std2rev)],
    Conclusive k ctB A (f.1 dbg A (2 ^ k) p) (fun a => f.2 a (2 ^ k) p) := by
  intro f hf
  have hk31 : k ≤ 31 := by omega
  have hB : ∀ m, m < k + 1 → ctB m ≤ 2147483647 := fun m hm => ctB_end m (by omega)
  have hm := nonzero_mulIn (dbg := dbg) hp
  have hv := within_valid hI
  have h16 := nonzero_16 hp
  have warn := C44_warnings_exact dbg A (2 ^ k) (pow_lt32 hk31) p
  simp only [List.mem_cons, List.not_mem_nil, or_false] at hf
  rcases hf with rfl | rfl | rfl | rfl
  · exact conclusive hB hA hI hp (ctRev_in hp.1 hm hA hI hk)
      (fun A' log e => (warn (abstract_ntt_red_ct_rev2std dbg A (2 ^ k) p) (by simp) A' log e).1) (ntt_red_ct_rev2std_any hk)
      (fun a A' log ha e => (C33_ntt_red_ct_rev2std dbg k p a A A' log hk31 hA hv ha hp.1 h16 e).2)
  · exact conclusive hB hA hI hp (mulCtRev_in hp.1 hm hA hI hk)
      (fun A' log e => (warn (abstract_mulntt_red_ct_rev2std dbg A (2 ^ k) p) (by simp) A' log e).1) (mulntt_red_ct_rev2std_any hk)
      (fun a A' log ha e => (C33_mulntt_red_ct_rev2std dbg k p a A A' log hk31 hA hv ha hp.1 h16 e).2)
  · exact conclusive hB hA hI hp (ctStd_in hp.1 hm hA hI hk)
      (fun A' log e => (warn (abstract_ntt_red_ct_std2rev dbg A (2 ^ k) p) (by simp) A' log e).1) (ntt_red_ct_std2rev_any hk)
      (fun a A' log ha e => (C33_ntt_red_ct_std2rev dbg k p a A A' log hk31 hA hv ha hp.1 h16 e).2)
  · exact conclusive hB hA hI hp (mulCtStd_in hp.1 hm hA hI hk)
      (fun A' log e => (warn (abstract_mulntt_red_ct_std2rev dbg A (2 ^ k) p) (by simp) A' log e).1) (mulntt_red_ct_std2rev_any hk)
      (fun a A' log ha e => (C33_mulntt_red_ct_std2rev dbg k p a A A' log hk31 hA hv ha hp.1 h16 e).2)

/-- The analyses of the Gentleman-Sande transforms, for all sizes up to `2^10`. -/
theorem C54_gs (dbg : Bool) (hk : k ≤ 10) (hA : A.size = 2 ^ k) (hI : IvlsWithin 21499 A)
    (hp : NonzeroTable (2 ^ k) p) :
    ∀ f ∈ [(abstract_ntt_red_gs_rev2std, NttRed.ntt_red_gs_rev2std),
      (abstract_nttmul_red_gs_rev2std, NttRed.nttmul_red_gs_rev2std),
      (abstract_ntt_red_gs_std2rev, NttRed.ntt_red_gs_std2rev),
      (abstract_nttmul_red_gs_std2rev, NttRed.nttmul_red_gs_std2rev)],
    Conclusive k gsB A (f.1 dbg A (2 ^ k) p) (fun a => f.2 a (2 ^ k) p) := by
  intro f hf
  have hk31 : k ≤ 31 := by omega
  have hB : ∀ m, m < k + 1 → gsB m ≤ 2147483647 := fun m hm => gsB_end m (by omega)
  have hm := nonzero_mulIn (dbg := dbg) hp
  have hv := within_valid hI
  have h16 := nonzero_16 hp
  have warn := C44_warnings_exact dbg A (2 ^ k) (pow_lt32 hk31) p
  simp only [List.mem_cons, List.not_mem_nil, or_false] at hf
  rcases hf with rfl | rfl | rfl | rfl
  · exact conclusive hB hA hI hp (gsRev_in hp.1 hm hA hI hk)
      (fun A' log e => (warn (abstract_ntt_red_gs_rev2std dbg A (2 ^ k) p) (by simp) A' log e).1) (ntt_red_gs_rev2std_any hk)
      (fun a A' log ha e => (C33_ntt_red_gs_rev2std dbg k p a A A' log hk31 hA hv ha hp.1 h16 e).2)
  · exact conclusive hB hA hI hp (gsMulRev_in hp.1 hm hA hI hk)
      (fun A' log e => (warn (abstract_nttmul_red_gs_rev2std dbg A (2 ^ k) p) (by simp) A' log e).1) (nttmul_red_gs_rev2std_any hk)
      (fun a A' log ha e => (C33_nttmul_red_gs_rev2std dbg k p a A A' log hk31 hA hv ha hp.1 h16 e).2)
  · exact conclusive hB hA hI hp (gsStd_in hp.1 hm hA hI hk)
      (fun A' log e => (warn (abstract_ntt_red_gs_std2rev dbg A (2 ^ k) p) (by simp) A' log e).1) (ntt_red_gs_std2rev_any hk)
      (fun a A' log ha e => (C33_ntt_red_gs_std2rev dbg k p a A A' log hk31 hA hv ha hp.1 h16 e).2)
  · exact conclusive hB hA hI hp (gsMulStd_in hp.1 hm hA hI hk)
      (fun A' log e => (warn (abstract_nttmul_red_gs_std2rev dbg A (2 ^ k) p) (by simp) A' log e).1) (nttmul_red_gs_std2rev_any hk)
      (fun a A' log ha e => (C33_nttmul_red_gs_std2rev dbg k p a A A' log hk31 hA hv ha hp.1 h16 e).2)

end

section
variable {k : Nat} {A P : Array Ivl}

/-- An analysis returns after `k` rounds, without a warning and with displayed intervals within the bounds
`B`. -/
def Quiet (k : Nat) (B : Nat → Int) (analysis : M (Array Ivl × List Shown)) : Prop :=
  ∃ A' log, analysis = .ok (A', log) ∧ log.length = k + 1 ∧ NoWarning log ∧ ShownBounds B log

theorem quiet {B : Nat → Int} {analysis : M (Array Ivl × List Shown)}
    (hB : ∀ m, m < k + 1 → B m ≤ 2147483647) (hw : Wp NoErr analysis (Bounded k B))
    (hwarn : ∀ A' log, analysis = .ok (A', log) → WarnsExactly (2 ^ k) log) : Quiet k B analysis := by
  obtain ⟨⟨A', log⟩, e, hb⟩ := wp_total.1 hw
  exact ⟨A', log, e, bounded_no_warning hB hb (hwarn A' log e)⟩

/-- The Cooley-Tukey analyses with tables of intervals, compiled with NDEBUG (src/Makefile): for all tables
of intervals within `[-6144, 6144]` they return and show no warning.  (Their results are not sound: C45.) -/
theorem C54_ct_intervals (hk : k ≤ 12) (hA : A.size = 2 ^ k) (hI : IvlsWithin 21499 A)
    (hp : 2 ^ k ≤ P.size) (hP : IvlsWithin 6144 P) :
    ∀ f ∈ [abstract2_ntt_red_ct_rev2std, abstract2_mulntt_red_ct_rev2std, abstract2_ntt_red_ct_std2rev,
      abstract2_mulntt_red_ct_std2rev], Quiet k ctB (f false A (2 ^ k) P) := by
  intro f hf
  have hk31 : k ≤ 31 := by omega
  have hB : ∀ m, m < k + 1 → ctB m ≤ 2147483647 := fun m hm => ctB_end m (by omega)
  have hm : ∀ i w, 0 < i → i < 2 ^ k → P[i]? = some w → MulIn (fun x => red_mul false x w) :=
    fun i w _ _ h => mulIn_mul (hP i w h)
  have warn := C44_warnings2_exact false A (2 ^ k) (pow_lt32 hk31) P
  simp only [List.mem_cons, List.not_mem_nil, or_false] at hf
  rcases hf with rfl | rfl | rfl | rfl
  · exact quiet hB (ctRev_in hp hm hA hI hk)
      (fun A' log e => (warn (abstract2_ntt_red_ct_rev2std false A (2 ^ k) P) (by simp) A' log e).1)
  · exact quiet hB (mulCtRev_in hp hm hA hI hk)
      (fun A' log e => (warn (abstract2_mulntt_red_ct_rev2std false A (2 ^ k) P) (by simp) A' log e).1)
  · exact quiet hB (ctStd_in hp hm hA hI hk)
      (fun A' log e => (warn (abstract2_ntt_red_ct_std2rev false A (2 ^ k) P) (by simp) A' log e).1)
  · exact quiet hB (mulCtStd_in hp hm hA hI hk)
      (fun A' log e => (warn (abstract2_mulntt_red_ct_std2rev false A (2 ^ k) P) (by simp) A' log e).1)

/-- The same for the Gentleman-Sande analyses with tables of intervals. -/
theorem C54_gs_intervals (hk : k ≤ 10) (hA : A.size = 2 ^ k) (hI : IvlsWithin 21499 A)
    (hp : 2 ^ k ≤ P.size) (hP : IvlsWithin 6144 P) :
    ∀ f ∈ [abstract2_ntt_red_gs_rev2std, abstract2_nttmul_red_gs_rev2std, abstract2_ntt_red_gs_std2rev,
      abstract2_nttmul_red_gs_std2rev], Quiet k gsB (f false A (2 ^ k) P) := by
  intro f hf
  have hk31 : k ≤ 31 := by omega
  have hB : ∀ m, m < k + 1 → gsB m ≤ 2147483647 := fun m hm => gsB_end m (by omega)
  have hm : ∀ i w, 0 < i → i < 2 ^ k → P[i]? = some w → MulIn (fun x => red_mul false x w) :=
    fun i w _ _ h => mulIn_mul (hP i w h)
  have warn := C44_warnings2_exact false A (2 ^ k) (pow_lt32 hk31) P
  simp only [List.mem_cons, List.not_mem_nil, or_false] at hf
  rcases hf with rfl | rfl | rfl | rfl
  · exact quiet hB (gsRev_in hp hm hA hI hk)
      (fun A' log e => (warn (abstract2_ntt_red_gs_rev2std false A (2 ^ k) P) (by simp) A' log e).1)
  · exact quiet hB (gsMulRev_in hp hm hA hI hk)
      (fun A' log e => (warn (abstract2_nttmul_red_gs_rev2std false A (2 ^ k) P) (by simp) A' log e).1)
  · exact quiet hB (gsStd_in hp hm hA hI hk)
      (fun A' log e => (warn (abstract2_ntt_red_gs_std2rev false A (2 ^ k) P) (by simp) A' log e).1)
  · exact quiet hB (gsMulStd_in hp hm hA hI hk)
      (fun A' log e => (warn (abstract2_nttmul_red_gs_std2rev false A (2 ^ k) P) (by simp) A' log e).1)

end

/-! ### The programs of src/tests_in_paper -/

section
open PaperTests Tables

theorem wp_fill {E : Err → Prop} {dbg : Bool} {lo hi : Int} {a : Array Ivl} (hlh : lo ≤ hi)
    (ha : a.size = 1024) :
    Wp E (fill dbg lo hi a) (fun b => b.size = 1024 ∧ ∀ (i : Nat) (X : Ivl), b[i]? = some X → X = ⟨lo, hi⟩) := by
  unfold fill
  refine wp_forUp1 (fun j (b : Array Ivl) => b.size = 1024 ∧
    ∀ (i : Nat) (X : Ivl), i < j → b[i]? = some X → X = ⟨lo, hi⟩) (by omega) (Nat.zero_le _)
    ⟨ha, fun i X h => absurd h (Nat.not_lt_zero i)⟩ ?_ ?_
  · rintro j b _ hj ⟨hs, hb⟩
    rw [wp_bind]
    unfold interval
    rw [if_neg (by omega)]
    refine wp_make hlh ?_
    refine wp_wr (by omega) ⟨by simp [hs], fun i X hi h => ?_⟩
    rw [Array.getElem?_setIfInBounds] at h
    split at h
    · split at h
      · injection h with h; exact h.symm
      · cases h
    · exact hb i X (by omega) h
  · rintro b ⟨hs, hb⟩
    refine ⟨hs, fun i X h => hb i X ?_ h⟩
    have := getElem?_lt h
    omega

theorem std_nonzero {k : Nat} {ω : Zq} {p : Array Int} (hω : ω ≠ 0) (h : StdTable 3 1 ω (-6144) 6144 k p)
    (hr : p.size = 2 ^ k ∧ InRange (-6144) 6144 p) : NonzeroTable (2 ^ k) p := by
  refine ⟨h.1, fun i w hw => ?_⟩
  have hi := getElem?_lt hw
  have ew : elt p i = w := by simp [elt, hw]
  refine ⟨by rw [← ew]; exact hr.2 i hi, fun h0 h1 hz => ?_⟩
  obtain ⟨m, j, hm, hj, rfl⟩ : ∃ m j, m < k ∧ j < 2 ^ m ∧ i = 2 ^ m + j := by
    refine ⟨Nat.log 2 i, i - 2 ^ Nat.log 2 i, ?_, ?_, ?_⟩
    · exact Nat.log_lt_of_lt_pow (by omega) h1
    · have := Nat.lt_pow_succ_log_self (b := 2) (by omega) i
      rw [pow_succ] at this
      have := Nat.pow_log_le_self 2 (x := i) (by omega)
      omega
    · have := Nat.pow_log_le_self 2 (x := i) (by omega)
      omega
  have e := (h.2 m j hm hj).2
  rw [coeff, ew, hz, Int.cast_zero, mul_zero, one_pow, one_mul] at e
  exact pow_ne_zero _ (pow_ne_zero _ hω) e.symm

theorem rev_nonzero {k : Nat} {ω : Zq} {p : Array Int} (hω : ω ≠ 0) (h : RevTable 3 1 ω (-6144) 6144 k p)
    (hr : p.size = 2 ^ k ∧ InRange (-6144) 6144 p) : NonzeroTable (2 ^ k) p := by
  refine ⟨h.1, fun i w hw => ?_⟩
  have hi := getElem?_lt hw
  have ew : elt p i = w := by simp [elt, hw]
  refine ⟨by rw [← ew]; exact hr.2 i hi, fun h0 h1 hz => ?_⟩
  obtain ⟨m, j, hm, hj, rfl⟩ : ∃ m j, m < k ∧ j < 2 ^ m ∧ i = 2 ^ m + j := by
    refine ⟨Nat.log 2 i, i - 2 ^ Nat.log 2 i, ?_, ?_, ?_⟩
    · exact Nat.log_lt_of_lt_pow (by omega) h1
    · have := Nat.lt_pow_succ_log_self (b := 2) (by omega) i
      rw [pow_succ] at this
      have := Nat.pow_log_le_self 2 (x := i) (by omega)
      omega
    · have := Nat.pow_log_le_self 2 (x := i) (by omega)
      omega
  have e := (h.2 m j hm hj).2
  rw [coeff, ew, hz, Int.cast_zero, mul_zero, one_pow, one_mul] at e
  exact pow_ne_zero _ (pow_ne_zero _ hω) e.symm

/-- A program that analyses `transform`: it returns after displaying 11 arrays without a warning, and
`transform` maps all arrays of 1024 elements in `[0, Q-1]` to arrays in the last array displayed. -/
def Analyses (program : M (List Shown)) (transform : Array Int → M (Array Int)) : Prop :=
  ∃ log last, program = .ok log ∧ log.length = 11 ∧ NoWarning log ∧ log.getLast? = some last ∧
    ∀ a : Array Int, a.size = 1024 → Reduced a → ∃ a', transform a = .ok a' ∧ Inside a' last.a

theorem analyses {dbg : Bool} {B : Nat → Int} {a : Array Ivl} {analysis : Array Ivl → M (Array Ivl × List Shown)}
    {transform : Array Int → M (Array Int)} (ha : a.size = 1024)
    (h : ∀ A, A.size = 2 ^ 10 → IvlsWithin 21499 A → Conclusive 10 B A (analysis A) transform ∧
      ∀ A' log, analysis A = .ok (A', log) → (log.getLast?).map Shown.a = some A') :
    Analyses (do
      let A ← fill dbg 0 (12289 - 1) a
      let r ← analysis A
      pure r.2) transform := by
  obtain ⟨A, e, hs, hA⟩ := wp_total.1 (wp_fill (dbg := dbg) (lo := 0) (hi := 12289 - 1) (by omega) ha)
  obtain ⟨⟨A', log, e', hl, hw, _, ht⟩, hlast⟩ := h A hs (fun i X hX => by
    have := hA i X hX
    subst this
    simp only
    omega)
  have hlast := hlast A' log e'
  cases hlog : log.getLast? with
  | none => rw [hlog] at hlast; cases hlast
  | some last =>
    rw [hlog, Option.map_some] at hlast
    injection hlast with hlast
    refine ⟨log, last, ?_, hl, hw, hlog, fun x hx hr => ?_⟩
    · simp only [e, e', bind, Except.bind, pure, Except.pure]
    · rw [hlast]
      refine ht x ⟨hx.trans hs.symm, fun i v X hv hX => ?_⟩
      have := hA i X hX
      subst this
      rw [mem_iff]
      have := hr i (getElem?_lt hv)
      rw [show elt x i = v by simp [elt, hv]] at this
      simp only
      omega

variable {buf : Nat → Array Nat} {t : RedTables}

/-- The six programs that analyse a transform with its generated table, in both build modes. -/
theorem C54_programs (hbuf : ∀ n, (buf n).size = n) (ht : make_red_tables buf 1024 1014 = .ok t) (dbg : Bool)
    (a : Array Ivl) (ha : a.size = 1024) :
    Analyses (test_intt_red1024 dbg t a)
      (fun x => NttRed.ntt_red_ct_std2rev x 1024 t.inv_omega_powers_rev) ∧
    Analyses (test_intt_red1024b dbg t a)
      (fun x => NttRed.ntt_red_ct_rev2std x 1024 t.inv_omega_powers) ∧
    Analyses (test_ntt_red1024 dbg t a)
      (fun x => NttRed.ntt_red_ct_std2rev x 1024 t.omega_powers_rev) ∧
    Analyses (test_ntt_red1024b dbg t a)
      (fun x => NttRed.ntt_red_ct_rev2std x 1024 t.omega_powers) ∧
    Analyses (test_ntt_red1024e dbg t a)
      (fun x => NttRed.ntt_red_gs_std2rev x 1024 t.omega_powers) ∧
    Analyses (test_ntt_red1024f dbg t a)
      (fun x => NttRed.ntt_red_gs_rev2std x 1024 t.omega_powers_rev) := by
  have hg : GoodParams 10 1024 1014 := libraryParams_good (10, 1024, 1014) (by simp [libraryParams])
  obtain ⟨t', e, hok⟩ := red_tables_ok hg hbuf
  have : t' = t := Except.ok.inj (e.symm.trans ht)
  subst this
  have hψ0 : ((1014 : Int) : Zq) ≠ 0 := by
    intro h0
    have h1 := good_psi hg
    rw [h0, zero_pow (Nat.two_pow_pos 10).ne'] at h1
    exact zero_ne_one (neg_eq_zero.1 h1.symm).symm
  have hω : (((1014 : Int) : Zq) ^ 2) ≠ 0 := pow_ne_zero _ hψ0
  have hω' : (((1014 : Int) : Zq) ^ 2)⁻¹ ≠ 0 := inv_ne_zero hω
  have n1 := std_nonzero hω hok.omega_powers (hok.entries _ (by simp))
  have n2 := rev_nonzero hω hok.omega_powers_rev (hok.entries _ (by simp))
  have n3 := std_nonzero hω' hok.inv_omega_powers (hok.entries _ (by simp))
  have n4 := rev_nonzero hω' hok.inv_omega_powers_rev (hok.entries _ (by simp))
  have warn := fun (A : Array Ivl) (p : Array Int) => C44_warnings_exact dbg A 1024 (by norm_num) p
  refine ⟨analyses ha fun A hA hI => ⟨C54_ct dbg (by omega) hA hI n4
      (abstract_ntt_red_ct_std2rev, NttRed.ntt_red_ct_std2rev) (by simp), fun A' log e =>
        (warn A t'.inv_omega_powers_rev (abstract_ntt_red_ct_std2rev dbg A 1024 t'.inv_omega_powers_rev) (by simp) A' log e).2.2⟩,
    analyses ha fun A hA hI => ⟨C54_ct dbg (by omega) hA hI n3
      (abstract_ntt_red_ct_rev2std, NttRed.ntt_red_ct_rev2std) (by simp), fun A' log e =>
        (warn A t'.inv_omega_powers (abstract_ntt_red_ct_rev2std dbg A 1024 t'.inv_omega_powers) (by simp) A' log e).2.2⟩,
    analyses ha fun A hA hI => ⟨C54_ct dbg (by omega) hA hI n2
      (abstract_ntt_red_ct_std2rev, NttRed.ntt_red_ct_std2rev) (by simp), fun A' log e =>
        (warn A t'.omega_powers_rev (abstract_ntt_red_ct_std2rev dbg A 1024 t'.omega_powers_rev) (by simp) A' log e).2.2⟩,
    analyses ha fun A hA hI => ⟨C54_ct dbg (by omega) hA hI n1
      (abstract_ntt_red_ct_rev2std, NttRed.ntt_red_ct_rev2std) (by simp), fun A' log e =>
        (warn A t'.omega_powers (abstract_ntt_red_ct_rev2std dbg A 1024 t'.omega_powers) (by simp) A' log e).2.2⟩,
    analyses ha fun A hA hI => ⟨C54_gs dbg (by omega) hA hI n1
      (abstract_ntt_red_gs_std2rev, NttRed.ntt_red_gs_std2rev) (by simp), fun A' log e =>
        (warn A t'.omega_powers (abstract_ntt_red_gs_std2rev dbg A 1024 t'.omega_powers) (by simp) A' log e).2.2⟩,
    analyses ha fun A hA hI => ⟨C54_gs dbg (by omega) hA hI n2
      (abstract_ntt_red_gs_rev2std, NttRed.ntt_red_gs_rev2std) (by simp), fun A' log e =>
        (warn A t'.omega_powers_rev (abstract_ntt_red_gs_rev2std dbg A 1024 t'.omega_powers_rev) (by simp) A' log e).2.2⟩⟩

/-- The two programs with a table of intervals, compiled with NDEBUG: they return after displaying 11 arrays
without a warning. -/
theorem C54_programs_intervals (a p : Array Ivl) (ha : a.size = 1024) (hp : p.size = 1024) :
    ∀ program ∈ [test_ntt_red1024c false a p, test_ntt_red1024d false a p],
      ∃ log, program = .ok log ∧ log.length = 11 ∧ NoWarning log ∧ ShownBounds ctB log := by
  obtain ⟨A, e, hs, hA⟩ := wp_total.1 (wp_fill (dbg := false) (lo := 0) (hi := 12289 - 1) (by omega) ha)
  obtain ⟨P, eP, hsP, hP⟩ := wp_total.1 (wp_fill (dbg := false) (lo := -6144) (hi := (12289 - 1) / 2)
    (by omega) hp)
  have hI : IvlsWithin 21499 A := fun i X hX => by
    have := hA i X hX
    subst this
    simp only
    omega
  have hIP : IvlsWithin 6144 P := fun i X hX => by
    have := hP i X hX
    subst this
    simp only
    omega
  have key := C54_ct_intervals (k := 10) (by omega) hs hI (le_of_eq hsP.symm) hIP
  have hdiv : cdiv (-(12289 - 1)) 2 = .ok (-6144) := rfl
  intro program hprog
  simp only [List.mem_cons, List.not_mem_nil, or_false] at hprog
  rcases hprog with rfl | rfl
  · obtain ⟨A', log, h1, h2⟩ := key abstract2_ntt_red_ct_std2rev (by simp)
    refine ⟨log, ?_, h2⟩
    have h1 : abstract2_ntt_red_ct_std2rev false A 1024 P = .ok (A', log) := h1
    simp only [test_ntt_red1024c, e, hdiv, eP, h1, bind, Except.bind, pure, Except.pure]
  · obtain ⟨A', log, h1, h2⟩ := key abstract2_ntt_red_ct_rev2std (by simp)
    refine ⟨log, ?_, h2⟩
    have h1 : abstract2_ntt_red_ct_rev2std false A 1024 P = .ok (A', log) := h1
    simp only [test_ntt_red1024d, e, hdiv, eP, h1, bind, Except.bind, pure, Except.pure]

end

/-! ### Concrete cases -/

example : IvlsWithin 21499 #[⟨-21499, 21499⟩, ⟨0, 12288⟩, ⟨5, 5⟩, ⟨-3, 2⟩] ∧
    NonzeroTable (2 ^ 2) #[0, 6144, -6144, 17] := by
  constructor
  · intro i X h
    rcases i with _ | _ | _ | _ | i <;> simp at h <;> subst h <;> decide
  · refine ⟨by decide, fun i w h => ?_⟩
    rcases i with _ | _ | _ | _ | i <;> simp at h <;> subst h <;> simp

/-- The last bounds for size 1024. -/
example : ctB 10 = 283144017 ∧ gsB 10 = 1632255839 := by decide

/-- The tables of the programs exist. -/
example : ∃ t, Tables.make_red_tables someBuf 1024 1014 = .ok t ∧ ∃ log,
    PaperTests.test_ntt_red1024 true t (Array.replicate 1024 ⟨0, 0⟩) = .ok log ∧ NoWarning log := by
  obtain ⟨t, e, _⟩ := red_tables_ok (libraryParams_good (10, 1024, 1014) (by simp [libraryParams])) someBuf_size
  obtain ⟨log, _, h, _, h2, _⟩ := (C54_programs someBuf_size e true (Array.replicate 1024 ⟨0, 0⟩) (by simp)).2.2.1
  exact ⟨t, e, log, h, h2⟩

/-- The intervals shown by test_ntt_red1024c.c and test_ntt_red1024d.c are not sound: with inputs in
`[0, Q-1]` and twiddle factors in `[-6144, 6144]`, the analysis of the first three rounds gives
`[-107491, 101360]` for an element that can be 107458.  (The programs have `[-6144, 6144]` also for the twiddle
factor of index 5, which is not used for this element.) -/
theorem C45_paper_unsound :
    ∃ a p a' A', Reduced a ∧ a.size = 8 ∧ Inside p ((Array.replicate 8 ⟨-6144, 6144⟩).set! 5 ⟨1, 1⟩) ∧
      (abstract2_ntt_red_ct_rev2std false (Array.replicate 8 ⟨0, 12288⟩) 8
        ((Array.replicate 8 ⟨-6144, 6144⟩).set! 5 ⟨1, 1⟩)).map Prod.fst = .ok A' ∧
      NttRed.ntt_red_ct_rev2std a 8 p = .ok a' ∧ ¬ Inside a' A' := by
  refine ⟨#[12288, 0, 12288, 0, 0, 12288, 0, 12286], #[6144, 6144, 6144, 6143, 6144, 1, 6144, 6143],
    #[49150, -34, -3, 107458, 2, -12248, 3, -46024],
    #[⟨0, 98304⟩, ⟨-30730, 55290⟩, ⟨-61440, 73714⟩, ⟨-107491, 101360⟩, ⟨-49152, 49152⟩, ⟨-43013, 43007⟩,
      ⟨-73714, 61440⟩, ⟨-113637, 95214⟩], ?_, rfl, inside_of rfl (by decide), by decide +kernel,
    by decide +kernel, fun h => ?_⟩
  · intro i hi
    have hi : i < 8 := hi
    interval_cases i <;> decide
  · have := h.2 3 107458 ⟨-107491, 101360⟩ rfl rfl
    revert this
    decide

end Props
