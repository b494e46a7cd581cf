import Verif.Model.TestNtt
import Verif.SpecTestNtt
import Verif.Proofs.TestRuns
import Verif.Proofs.TestSpeed
import Verif.Proofs.TestTableChecks

/-
Lemmas about the programs that test the size-independent functions (src/test_ntt.c).
-/

namespace TestNtt
open C Spec NTT TestProg TestTables

theorem size_localArray (w : World) (n k : Nat) : (localArray w n k).size = n := by simp [localArray]

theorem run_set_poly {n j : Nat} (hn : n < 4294967296) (hj : j < n) {a : Array Int}
    (ha : a.size = n) : ∃ a', set_poly a j n = .ok a' ∧ IsMono n j a' := by
  obtain ⟨b, e, s, v⟩ := run_fill hn ha (fun _ => 0) (body := fun i a => wr a i 0)
    (fun i a hi hs => wr_ok (by omega))
  refine ⟨b.setIfInBounds j 1, ?_, by simp [s], fun i hi => ?_⟩
  · unfold set_poly
    rw [e, ok_bind]
    exact wr_ok (by omega)
  · rw [elt_set (by omega), v i hi]

theorem isMono_unique {n j : Nat} {a b : Array Int} (ha : IsMono n j a) (hb : IsMono n j b) : a = b := by
  apply Array.ext_getElem?
  intro i
  have h1 := ha.1
  have h2 := hb.1
  by_cases hi : i < n
  · rw [some_elt (by omega), some_elt (by omega), ha.2 i hi, hb.2 i hi]
  · rw [Array.getElem?_eq_none (by omega), Array.getElem?_eq_none (by omega)]

theorem opp_mod {n j : Nat} (hj : j < n) : opp n j = (n - j) % n := by
  unfold opp
  split
  · next h => subst h; simp
  · rw [Nat.mod_eq_of_lt (by omega)]

/-! ### What passing the tests means -/

section
variable {n : Nat} {f g : Array Int → M (Array Int)}

theorem wp_self {α : Type} {m : M α} : Wp (fun _ => True) m (fun x => m = .ok x) := by
  cases m with
  | ok x => exact wp_ok.2 rfl
  | error e => exact wp_error.2 True.intro

theorem wp_abort {α : Type} {P : α → Prop} : Wp (fun _ => True) (Except.error Err.abort : M α) P :=
  wp_error.2 True.intro

theorem of_wp {α : Type} {m : M α} {P : α → Prop} {E : Err → Prop} (h : Wp E m P) {x : α} (e : m = .ok x) : P x := by
  rw [e, wp_ok] at h; exact h

theorem wp_test_simple_poly (hn : n < 2147483648) (hf : KeepsArrays n f) {om : Int} (hom : 0 ≤ om ∧ om ≤ 12288)
    {j : Nat} (hj : j < n) {a : Array Int} (ha : a.size = n) :
    Wp (fun _ => True) (test_simple_poly n f om j a) (fun a' => a'.size = n ∧
      ∃ x y z, IsMono n j x ∧ f x = .ok y ∧ Reduced y ∧ (∀ i, i < n → coeff y i = ntt n (om : Zq) (mono j) i) ∧
        f y = .ok z ∧ ∀ i, i < n → elt z i = if i = (n - j) % n then (n : Int) else 0) := by
  obtain ⟨x, ex, hx⟩ := run_set_poly (n := n) (by omega) hj ha
  unfold test_simple_poly
  rw [ex, ok_bind, wp_bind]
  refine wp_self.mono fun y ey => ?_
  have hy := hf x y hx.1 ey
  obtain ⟨b, eb, hb⟩ := run_check_ntt_simple (by omega) hj hy.1 hom
  rw [eb, ok_bind]
  cases b with
  | false => exact wp_abort
  | true =>
    obtain ⟨h1, h2⟩ := hb.1 rfl
    simp only [Bool.not_true, Bool.false_eq_true, if_false]
    rw [wp_bind]
    refine wp_self.mono fun z ez => ?_
    have hz := hf y z hy.1 ez
    obtain ⟨b, eb, hb⟩ := run_check_ntt_ntt_simple (by omega) hj hz.1 hz.2
    rw [eb, ok_bind]
    cases b with
    | false => exact wp_abort
    | true =>
      have h3 := hb.1 rfl
      rw [opp_mod hj] at h3
      simp only [Bool.not_true, Bool.false_eq_true, if_false]
      rw [wp_pure]
      exact ⟨hz.1, x, y, z, hx, ey, h1, h2, ez, h3⟩

theorem test_simple_polys_means (hn : n < 2147483648) (hf : KeepsArrays n f) {om : Int} (hom : 0 ≤ om ∧ om ≤ 12288)
    {w : World} {k k' : Nat} (h : test_simple_polys w n f om k = .ok k') : TwiceOnMonomials n om f := by
  refine of_wp (E := fun _ => True) (P := fun _ => TwiceOnMonomials n om f) ?_ h
  unfold test_simple_polys
  rw [wp_bind]
  refine wp_forUp1 (fun i (a : Array Int) => a.size = n ∧ ∀ j, j < i → ∃ x y z, IsMono n j x ∧ f x = .ok y ∧ Reduced y ∧
    (∀ i, i < n → coeff y i = ntt n (om : Zq) (mono j) i) ∧ f y = .ok z ∧
      ∀ i, i < n → elt z i = if i = (n - j) % n then (n : Int) else 0) (by omega) (Nat.zero_le _)
    ⟨size_localArray .., fun j hj => absurd hj (Nat.not_lt_zero _)⟩ ?_ fun a h => ?_
  · rintro i a - hi ⟨hs, hv⟩
    refine (wp_test_simple_poly hn hf hom hi hs).mono fun a' h => ⟨h.1, fun j hj => ?_⟩
    by_cases hji : j = i
    · rw [hji]; exact h.2
    · exact hv j (by omega)
  · rw [wp_pure]; exact h.2

theorem run_clear {n : Nat} (hn : n < 4294967296) {s : Array Int × Array Int} (h1 : s.1.size = n) (h2 : s.2.size = n) :
    ∃ s', forUp 0 n 1 (fun i (s : Array Int × Array Int) => do
      let a ← wr s.1 i 0
      let b ← wr s.2 i 0
      pure (a, b)) s = .ok s' ∧ (s'.1.size = n ∧ ∀ i, i < n → elt s'.1 i = 0) ∧ s'.2.size = n ∧ ∀ i, i < n → elt s'.2 i = 0 := by
  refine wp_total.1 (wp_forUp1 (fun i (s : Array Int × Array Int) => (s.1.size = n ∧ ∀ l, l < i → elt s.1 l = 0) ∧
    s.2.size = n ∧ ∀ l, l < i → elt s.2 l = 0) hn (Nat.zero_le _)
    ⟨⟨h1, fun l hl => absurd hl (Nat.not_lt_zero _)⟩, h2, fun l hl => absurd hl (Nat.not_lt_zero _)⟩ ?_ fun s h => h)
  rintro i ⟨a, b⟩ - hi ⟨⟨ha, va⟩, hb, vb⟩
  simp only at ha va hb vb
  simp only
  rw [wr_ok (by omega), ok_bind, wr_ok (by omega), ok_bind, wp_pure]
  refine ⟨⟨by simpa using ha, fun l hl => ?_⟩, by simpa using hb, fun l hl => ?_⟩
  · rw [elt_set (by omega)]; split
    · rfl
    · exact va l (by omega)
  · rw [elt_set (by omega)]; split
    · rfl
    · exact vb l (by omega)

theorem isMono_set {n j : Nat} {a : Array Int} (hj : j < n) (hs : a.size = n) (hv : ∀ i, i < n → elt a i = 0) :
    wr a j 1 = .ok (a.setIfInBounds j 1) ∧ IsMono n j (a.setIfInBounds j 1) :=
  ⟨wr_ok (by omega), by simpa using hs, fun i hi => by rw [elt_set (by omega), hv i hi]⟩

theorem wp_cross_check_poly (hn : n < 4294967296) (hf : KeepsArrays n f) (hg : KeepsArrays n g) {j : Nat} (hj : j < n)
    {s : Array Int × Array Int} (h1 : s.1.size = n) (h2 : s.2.size = n) :
    Wp (fun _ => True) (cross_check_poly n f g j s) (fun s' => (s'.1.size = n ∧ s'.2.size = n) ∧
      ∃ x y z, IsMono n j x ∧ f x = .ok y ∧ g x = .ok y ∧ f y = .ok z ∧ g y = .ok z) := by
  obtain ⟨s', e, ⟨ha, va⟩, hb, vb⟩ := run_clear hn h1 h2
  obtain ⟨ea, ma⟩ := isMono_set hj ha va
  obtain ⟨eb, mb⟩ := isMono_set hj hb vb
  unfold cross_check_poly
  rw [e, ok_bind, ea, ok_bind, eb, ok_bind, isMono_unique mb ma]
  generalize s'.1.setIfInBounds j 1 = x at ma
  rw [wp_bind]
  refine wp_self.mono fun y ey => ?_
  have hy := hf x y ma.1 ey
  rw [wp_bind]
  refine wp_self.mono fun y' ey' => ?_
  have hy' := hg x y' ma.1 ey'
  obtain ⟨b, eb, hb⟩ := run_equal_arrays hn hy.1 hy'.1
  rw [eb, ok_bind]
  cases b with
  | false => exact wp_abort
  | true =>
    have h1 := hb.1 rfl
    subst h1
    simp only [Bool.not_true, Bool.false_eq_true, if_false]
    rw [wp_bind]
    refine wp_self.mono fun z ez => ?_
    have hz := hf y z hy.1 ez
    rw [wp_bind]
    refine wp_self.mono fun z' ez' => ?_
    have hz' := hg y z' hy.1 ez'
    obtain ⟨b, eb, hb⟩ := run_equal_arrays hn hz.1 hz'.1
    rw [eb, ok_bind]
    cases b with
    | false => exact wp_abort
    | true =>
      have h2 := hb.1 rfl
      subst h2
      simp only [Bool.not_true, Bool.false_eq_true, if_false]
      rw [wp_pure]
      exact ⟨⟨hz.1, hz.1⟩, x, y, z, ma, ey, ey', ez, ez'⟩

theorem cross_check_means (hn : n < 4294967296) (hf : KeepsArrays n f) (hg : KeepsArrays n g)
    {w : World} {k k' : Nat} (h : cross_check w n f g k = .ok k') : SameOnMonomials n f g := by
  refine of_wp (E := fun _ => True) (P := fun _ => SameOnMonomials n f g) ?_ h
  unfold cross_check
  rw [wp_bind]
  refine wp_forUp1 (fun i (s : Array Int × Array Int) => (s.1.size = n ∧ s.2.size = n) ∧
    ∀ j, j < i → ∃ x y z, IsMono n j x ∧ f x = .ok y ∧ g x = .ok y ∧ f y = .ok z ∧ g y = .ok z) hn (Nat.zero_le _)
    ⟨⟨size_localArray .., size_localArray ..⟩, fun j hj => absurd hj (Nat.not_lt_zero _)⟩ ?_ fun a h => ?_
  · rintro i s - hi ⟨hs, hv⟩
    refine (wp_cross_check_poly hn hf hg hi hs.1 hs.2).mono fun s' h => ⟨h.1, fun j hj => ?_⟩
    by_cases hji : j = i
    · rw [hji]; exact h.2
    · exact hv j (by omega)
  · rw [wp_pure]; exact h.2

end

/-! ### The tests pass -/

section
variable {k : Nat} {f g : Array Int → M (Array Int)}

theorem pow_lt {k : Nat} (hk : k ≤ 13) : 2 ^ k ≤ 8192 := by
  have := Nat.pow_le_pow_right (show 0 < 2 by decide) hk; omega

theorem run_test_simple_poly {ω : Zq} (hk : k ≤ 13) (hω : PrimRoot (2 ^ k) ω) (hf : Std2Std k ω 1 1 f)
    {om : Int} (hom : 0 ≤ om ∧ om ≤ 12288) (homv : (om : Zq) = ω) {j : Nat} (hj : j < 2 ^ k) {a : Array Int}
    (ha : a.size = 2 ^ k) : ∃ a', test_simple_poly (2 ^ k) f om j a = .ok a' ∧ a'.size = 2 ^ k := by
  have hlt := pow_lt hk
  have h1 : ω ^ 2 ^ k = 1 := by have := pow_orderOf_eq_one ω; rwa [show orderOf ω = 2 ^ k from hω] at this
  have hinv : ω * ω⁻¹ = 1 := mul_inv_cancel₀ (fun h => by
    rw [h, zero_pow (by have := Nat.two_pow_pos k; omega)] at h1; exact absurd h1 (by decide))
  obtain ⟨x, ex, hx⟩ := run_set_poly (n := 2 ^ k) (by omega) hj ha
  obtain ⟨y, ey, sy, ry, vy⟩ := hf x hx.1 hx.reduced
  obtain ⟨b, eb, hb⟩ := run_check_ntt_simple (by omega) hj sy hom
  obtain ⟨z, ez, sz, rz, vz⟩ := hf y sy ry
  obtain ⟨b', eb', hb'⟩ := run_check_ntt_ntt_simple (by omega) hj sz (fun i hi => by
    have := rz i (by omega); constructor <;> omega)
  have vy' : ∀ i, i < 2 ^ k → coeff y i = ntt (2 ^ k) ω (mono j) i := fun i hi => by
    rw [vy i hi, scaledNtt_one, TestProg.ntt_congr (hx.coeff) i]
  have hbt : b = true := hb.2 ⟨ry, fun i hi => by rw [homv]; exact vy' i hi⟩
  have hbt' : b' = true := hb'.2 fun i hi => by
    have hv := vz i hi
    rw [scaledNtt_one, TestProg.ntt_congr vy' i, ntt_twice (primRoot_half hω) hinv h1 _ hi] at hv
    have hr := rz i (by omega)
    have := opp_iff hi hj
    unfold mono at hv
    unfold coeff at hv
    split at hv
    · next h =>
      rw [if_pos (this.1 h)]
      have : (elt z i : Zq) = (((2 ^ k : Nat) : Int) : Zq) := by rw [hv, mul_one]; push_cast; rfl
      have := elt_eq_emod hr this
      omega
    · next h =>
      rw [if_neg (fun h' => h (this.2 h'))]
      have : (elt z i : Zq) = ((0 : Int) : Zq) := by rw [hv, mul_zero]; simp
      have := elt_eq_emod hr this
      omega
  refine ⟨z, ?_, sz⟩
  unfold test_simple_poly
  rw [ex, ok_bind, ey, ok_bind, eb, hbt, ok_bind]
  simp only [Bool.not_true, Bool.false_eq_true, if_false]
  rw [ez, ok_bind, eb', hbt', ok_bind]
  rfl

theorem run_test_simple_polys {ω : Zq} (hk : k ≤ 13) (hω : PrimRoot (2 ^ k) ω) (hf : Std2Std k ω 1 1 f)
    {om : Int} (hom : 0 ≤ om ∧ om ≤ 12288) (homv : (om : Zq) = ω) (w : World) (e : Nat) :
    test_simple_polys w (2 ^ k) f om e = .ok (e + 1) := by
  have hlt := pow_lt hk
  obtain ⟨a, h, -⟩ := wp_total.1 (wp_forUp1 (E := NoErr) (lo := 0) (hi := 2 ^ k) (body := test_simple_poly (2 ^ k) f om)
    (s := localArray w (2 ^ k) e) (P := fun a => a.size = 2 ^ k) (fun _ (a : Array Int) => a.size = 2 ^ k)
    (by omega) (Nat.zero_le _) (size_localArray ..) (fun i a _ hi ha => by
      obtain ⟨a', h1, h2⟩ := run_test_simple_poly hk hω hf hom homv hi ha
      rw [h1, wp_ok]; exact h2) fun _ h => h)
  unfold test_simple_polys
  rw [h]; rfl

/-- `f` and `g` give the same canonical result on every canonical array. -/
def Agree (k : Nat) (f g : Array Int → M (Array Int)) : Prop :=
  ∀ a : Array Int, a.size = 2 ^ k → Reduced a → ∃ a', f a = .ok a' ∧ g a = .ok a' ∧ a'.size = 2 ^ k ∧ Reduced a'

theorem run_cross_check (hk : k ≤ 13) (h : Agree k f g) (w : World) (e : Nat) :
    cross_check w (2 ^ k) f g e = .ok (e + 2) := by
  have hlt := pow_lt hk
  obtain ⟨a, h, -⟩ := wp_total.1 (wp_forUp1 (E := NoErr) (lo := 0) (hi := 2 ^ k) (body := cross_check_poly (2 ^ k) f g)
    (s := (localArray w (2 ^ k) e, localArray w (2 ^ k) (e + 1))) (P := fun s => s.1.size = 2 ^ k ∧ s.2.size = 2 ^ k)
    (fun _ (s : Array Int × Array Int) => s.1.size = 2 ^ k ∧ s.2.size = 2 ^ k)
    (by omega) (Nat.zero_le _) ⟨size_localArray .., size_localArray ..⟩ (fun i s _ hi hs => by
      obtain ⟨s', e1, ⟨ha, va⟩, hb, vb⟩ := run_clear (by omega) hs.1 hs.2
      obtain ⟨ea, ma⟩ := isMono_set hi ha va
      obtain ⟨eb, mb⟩ := isMono_set hi hb vb
      obtain ⟨y, y1, y2, y3, y4⟩ := h _ ma.1 ma.reduced
      obtain ⟨z, z1, z2, z3, z4⟩ := h y y3 y4
      obtain ⟨b, e2, hb⟩ := run_equal_arrays (n := 2 ^ k) (by omega) y3 y3
      obtain ⟨b', e3, hb'⟩ := run_equal_arrays (n := 2 ^ k) (by omega) z3 z3
      unfold cross_check_poly
      rw [e1, ok_bind, ea, ok_bind, eb, ok_bind, isMono_unique mb ma, y1, ok_bind, y2, ok_bind, e2, ok_bind, hb.2 rfl]
      simp only [Bool.not_true, Bool.false_eq_true, if_false]
      rw [z1, ok_bind, z2, ok_bind, e3, ok_bind, hb'.2 rfl]
      simp only [Bool.not_true, Bool.false_eq_true, if_false]
      rw [wp_pure]
      exact ⟨z3, z3⟩) fun _ h => h)
  unfold cross_check
  rw [h]; rfl

/-- Functions that compute the same thing on canonical arrays agree. -/
theorem agree_of {V : (Nat → Zq) → Nat → Zq}
    (hf : ∀ a : Array Int, a.size = 2 ^ k → Reduced a → ∃ a', f a = .ok a' ∧ a'.size = 2 ^ k ∧ Reduced a' ∧
      ∀ i, i < 2 ^ k → coeff a' i = V (coeff a) i)
    (hg : ∀ a : Array Int, a.size = 2 ^ k → Reduced a → ∃ a', g a = .ok a' ∧ a'.size = 2 ^ k ∧ Reduced a' ∧
      ∀ i, i < 2 ^ k → coeff a' i = V (coeff a) i) : Agree k f g := by
  intro a ha hr
  obtain ⟨y, y1, y2, y3, y4⟩ := hf a ha hr
  obtain ⟨z, z1, z2, z3, z4⟩ := hg a ha hr
  have : y = z := reduced_ext (by omega) y3 z3 fun i hi => by rw [y4 i (by omega), z4 i (by omega)]
  subst this
  exact ⟨y, y1, z1, y2, y3⟩

/-- `f` maps canonical arrays to canonical arrays. -/
def Stable (k : Nat) (f : Array Int → M (Array Int)) : Prop :=
  ∀ a : Array Int, (a.size = 2 ^ k ∧ Reduced a) → ∃ a', f a = .ok a' ∧ a'.size = 2 ^ k ∧ Reduced a'

theorem Std2Std.stable {ω pre post : Zq} (h : Std2Std k ω pre post f) : Stable k f := fun a ha => by
  obtain ⟨a', h1, h2, h3, -⟩ := h a ha.1 ha.2
  exact ⟨a', h1, h2, h3⟩

theorem rev2std_stable {ω pre post : Zq} (h : Rev2Std k ω pre post 0 12288 0 12288 f) : Stable k f := fun a ha => by
  obtain ⟨a', h1, h2, h3, -⟩ := h a ha.1 ha.2
  exact ⟨a', h1, h2, h3⟩

theorem std2rev_stable {ω pre post : Zq} (h : Std2Rev k ω pre post 0 12288 0 12288 f) : Stable k f := fun a ha => by
  obtain ⟨a', h1, h2, h3, -⟩ := h a ha.1 ha.2
  exact ⟨a', h1, h2, h3⟩

theorem wp_speed_test (hk : k ≤ 13) (hf : Stable k f) {w : World} (hw : ∀ i, w.cycles i < 2 ^ 64) {m : Nat} {s : Speed}
    (hs : Good w m s) : Wp NoErr (speed_test w (2 ^ k) f s) (Good w (m + 1)) := by
  have hlt := pow_lt hk
  unfold speed_test
  obtain ⟨a, e, ha⟩ := run_iota (n := 2 ^ k) (by omega) (size_localArray w (2 ^ k) s.k)
  rw [decide_eq_true (show 2 ^ k ≤ 12289 by omega)]
  show Wp NoErr (iota (2 ^ k) (localArray w (2 ^ k) s.k) >>= _) _
  rw [e, ok_bind]
  refine wp_measure_good (I := fun a : Array Int => a.size = 2 ^ k ∧ Reduced a) hw hf ⟨ha.1, fun i hi => ?_⟩ hs 1
  have := ha.2 i (by have := ha.1; omega)
  have := ha.1
  omega

end

/-! ### Sequences of tests -/

theorem run_list {α : Type} {F : Nat → α → M Nat} {l : List α} (h : ∀ t ∈ l, ∀ k, ∃ k', F k t = .ok k') (k : Nat) :
    ∃ k', l.foldlM F k = .ok k' := by
  induction l generalizing k with
  | nil => exact ⟨k, rfl⟩
  | cons t l ih =>
    obtain ⟨k1, e⟩ := h t (List.mem_cons_self ..) k
    rw [List.foldlM_cons, e, ok_bind]
    exact ih (fun t ht => h t (List.mem_cons_of_mem _ ht)) k1

theorem wp_speed_list {α : Type} {w : World} {F : Speed → α → M Speed} {l : List α}
    (h : ∀ t ∈ l, ∀ m s, Good w m s → Wp NoErr (F s t) (Good w (m + 1))) {m : Nat} {s : Speed} (hs : Good w m s) :
    Wp NoErr (l.foldlM F s) (Good w (m + l.length)) := by
  induction l generalizing m s with
  | nil => exact wp_ok.2 hs
  | cons t l ih =>
    rw [List.foldlM_cons, wp_bind]
    refine (h t (List.mem_cons_self ..) m s hs).mono fun s hs => ?_
    rw [List.length_cons, show m + (l.length + 1) = m + 1 + l.length by omega]
    exact ih (fun t ht => h t (List.mem_cons_of_mem _ ht)) hs

theorem good_init (w : World) (k : Nat) : Good w 0 ⟨Array.replicate NTESTS 0, k, []⟩ :=
  ⟨Array.size_replicate, [], rfl, List.Pairwise.nil, List.Forall₂.nil, fun k hk => absurd hk (by simp)⟩

theorem Good.measured {w : World} {m : Nat} {s : Speed} (h : Good w m s) : Measured w m s.shown := by
  obtain ⟨-, ks, h1, h2, h3, -⟩ := h
  exact ⟨ks, h1, h2, h3⟩

end TestNtt
