import Verif.Model.Harness
import Verif.Proofs.NttRed
import Verif.Proofs.AnyTable

/-
Refinement: what the transforms of src/ntt_red.c return, those of the verification harnesses return too.
-/

namespace Harness
open C NTT

/-- `m'` returns whatever `m` returns. -/
def Le {α : Type} (m m' : M α) : Prop := ∀ r, m = .ok r → m' = .ok r

variable {α β σ τ : Type}

theorem Le.rfl {m : M α} : Le m m := fun _ h => h

theorem Le.bind {m m' : M α} {f f' : α → M β} (h : Le m m') (hf : ∀ x, Le (f x) (f' x)) :
    Le (m >>= f) (m' >>= f') := by
  intro r e
  cases hm : m with
  | error x => rw [hm] at e; cases e
  | ok x =>
    rw [hm] at e
    rw [h x hm]
    exact hf x r e

theorem Le.cfor {cond : Nat → Bool} {next : Nat → Nat} {body body' : Nat → σ → M σ}
    (h : ∀ i s, Le (body i s) (body' i s)) (fuel : Nat) :
    ∀ i s, Le (C.cfor cond next body fuel i s) (C.cfor cond next body' fuel i s) := by
  induction fuel with
  | zero => exact fun i s => Le.rfl
  | succ fuel ih =>
    intro i s
    unfold C.cfor
    split
    · exact (h i s).bind fun s => ih _ s
    · exact Le.rfl

theorem Le.forUp {lo hi step : Nat} {body body' : Nat → σ → M σ}
    (h : ∀ i s, Le (body i s) (body' i s)) (s : σ) : Le (forUp lo hi step body s) (forUp lo hi step body' s) :=
  Le.cfor h _ _ _

theorem Le.forShl {lo hi : Nat} {body body' : Nat → σ → M σ}
    (h : ∀ i s, Le (body i s) (body' i s)) (s : σ) : Le (forShl lo hi body s) (forShl lo hi body' s) :=
  Le.cfor h _ _ _

theorem Le.forShr {hi : Nat} {body body' : Nat → σ → M σ}
    (h : ∀ i s, Le (body i s) (body' i s)) (s : σ) : Le (forShr hi body s) (forShr hi body' s) :=
  Le.cfor h _ _ _

section
variable {bf0 : Nat → Nat → Array α → M (Array α)} {bf bf' : τ → Nat → Nat → Array α → M (Array α)}
  (h : ∀ w s k a, Le (bf w s k a) (bf' w s k a)) (n : Nat) (p : Array τ) (a : Array α)
include h

theorem le_roundA (t : Nat) (a : Array α) : Le (roundA bf0 bf n p t a) (roundA bf0 bf' n p t a) :=
  Le.rfl.bind fun _ => Le.forUp (fun _ _ => Le.rfl.bind fun _ => Le.forUp (fun _ _ => h _ _ _ _) _) _

theorem le_roundBCt (t d : Nat) (a : Array α) : Le (roundBCt bf0 bf p t d a) (roundBCt bf0 bf' p t d a) :=
  Le.rfl.bind fun _ => (Le.forUp (fun _ _ => Le.rfl.bind fun _ =>
    (Le.forUp (fun _ _ => h _ _ _ _) _).bind fun _ => Le.rfl) _).bind fun _ => Le.rfl

theorem le_roundBGs (t d : Nat) (a : Array α) : Le (roundBGs bf0 bf p t d a) (roundBGs bf0 bf' p t d a) :=
  Le.rfl.bind fun _ => (Le.forUp (fun _ _ => Le.rfl.bind fun _ =>
    (Le.forUp (fun _ _ => h _ _ _ _) _).bind fun _ => Le.rfl) _).bind fun _ => Le.rfl

theorem le_ctRev2std : Le (ctRev2std bf0 bf a n p) (ctRev2std bf0 bf' a n p) :=
  Le.forShl (fun _ _ => le_roundA h _ _ _ _) _

theorem le_ctStd2rev : Le (ctStd2rev bf0 bf a n p) (ctStd2rev bf0 bf' a n p) :=
  (Le.forShl (fun _ _ => (le_roundBCt h _ _ _ _).bind fun _ => Le.rfl) _).bind fun _ => Le.rfl

theorem le_gsRev2std : Le (gsRev2std bf0 bf a n p) (gsRev2std bf0 bf' a n p) :=
  (Le.forShl (fun _ _ => (le_roundBGs h _ _ _ _).bind fun _ => Le.rfl) _).bind fun _ => Le.rfl

theorem le_gsStd2rev : Le (gsStd2rev bf0 bf a n p) (gsStd2rev bf0 bf' a n p) :=
  Le.forShr (fun _ _ => le_roundA h _ _ _ _) _

end

/-- The build of the Makefile: the assertions to be proved are enabled, and the intrinsic, if it is used,
computes the reduction. -/
def Build.Good (B : Build) : Prop :=
  B.safe = true ∧ ∀ f, B.intr = some f →
    ∀ z, -8796042698752 ≤ z → z ≤ 8796093026303 → f z = .ok (Spec.red z)

variable {B : Build}

theorem le_mul_red (hB : B.Good) (x y : Int) : Le (NttRed.mul_red x y) (mul_red B x y) := by
  intro r e
  have hr := e
  unfold NttRed.mul_red at e
  unfold mul_red
  cases hz : i64 (x * y) with
  | error _ => rw [hz] at e; cases e
  | ok z =>
    have hzz : z = x * y := by
      unfold i64 at hz
      split at hz
      · exact (Except.ok.inj hz).symm
      · cases hz
    rw [hz] at e
    change (cassert _ >>= _) = _ at e
    show (cassert _ >>= _) = _
    by_cases h1 : -8796042698752 ≤ z
    · by_cases h2 : z ≤ 8796093026303
      · simp only [h1, h2, hB.1, decide_true, Bool.and_true, if_true] at e ⊢
        have hc : cassert true = .ok () := rfl
        rw [hc, NttRed.ok_bind] at e
        rw [hc, NttRed.ok_bind, NttRed.ok_bind]
        cases hi : B.intr with
        | none => exact e
        | some f =>
          have h3 : z ≤ 8796093022207 := by
            by_contra h3
            rw [NttRed.mul_red_overflow (by omega) (by omega)] at hr
            cases hr
          rw [NttRed.mul_red_eq (by omega) (by omega)] at hr
          rw [← hr, ← hzz]
          exact hB.2 f hi z h1 h2
      · simp only [h1, h2, decide_true, decide_false, Bool.and_false] at e
        cases e
    · simp only [h1, decide_false, Bool.false_and] at e
      cases e

theorem le_ctBf (hB : B.Good) (w : Int) (s k : Nat) (a : Array Int) : Le (NttRed.ctBf w s k a) (ctBf B w s k a) :=
  Le.rfl.bind fun _ => (le_mul_red hB _ _).bind fun _ => Le.rfl

theorem le_gsBf (hB : B.Good) (w : Int) (s k : Nat) (a : Array Int) : Le (NttRed.gsBf w s k a) (gsBf B w s k a) :=
  Le.rfl.bind fun _ => Le.rfl.bind fun _ => Le.rfl.bind fun _ => (le_mul_red hB _ _).bind fun _ => Le.rfl

theorem le_ntt_red_ct_rev2std (hB : B.Good) (a : Array Int) (n : Nat) (p : Array Int) :
    Le (NttRed.ntt_red_ct_rev2std a n p) (ntt_red_ct_rev2std B a n p) := le_ctRev2std (le_ctBf hB) _ _ _

theorem le_ntt_red_ct_std2rev (hB : B.Good) (a : Array Int) (n : Nat) (p : Array Int) :
    Le (NttRed.ntt_red_ct_std2rev a n p) (ntt_red_ct_std2rev B a n p) := le_ctStd2rev (le_ctBf hB) _ _ _

theorem le_ntt_red_gs_rev2std (hB : B.Good) (a : Array Int) (n : Nat) (p : Array Int) :
    Le (NttRed.ntt_red_gs_rev2std a n p) (ntt_red_gs_rev2std B a n p) := le_gsRev2std (le_gsBf hB) _ _ _

theorem le_ntt_red_gs_std2rev (hB : B.Good) (a : Array Int) (n : Nat) (p : Array Int) :
    Le (NttRed.ntt_red_gs_std2rev a n p) (ntt_red_gs_std2rev B a n p) := le_gsStd2rev (le_gsBf hB) _ _ _

theorem i64_mul {x y : Int} (hx : I32 x) (hy : I32 y) : I64 (x * y) := by
  unfold I32 at hx hy
  have h : |x * y| ≤ 2147483648 * 2147483648 := by
    rw [abs_mul]
    exact mul_le_mul (abs_le.2 ⟨by omega, by omega⟩) (abs_le.2 ⟨by omega, by omega⟩) (abs_nonneg _) (by norm_num)
  have := abs_le.1 h
  unfold I64
  omega

/-! ### The assumptions -/

theorem assume_run {nd : Nat → Int} {conv : Int → Int} {n : Nat} (hn : n < 4294967296) {lb ub : Int}
    {a : Array Int} (ha : a.size = n) :
    ∃ s, assume_forall nd conv n lb ub a = .ok s ∧
      ((∃ i, i < n ∧ ¬ (lb ≤ nd i ∧ nd i < ub)) → s = none) ∧
      ((∀ i, i < n → lb ≤ nd i ∧ nd i < ub) →
        ∃ b, s = some b ∧ b.size = n ∧ ∀ i, i < n → b[i]? = some (conv (nd i))) := by
  have key : Wp NoErr (assume_forall nd conv n lb ub a) (fun s =>
      ((∃ i, i < n ∧ ¬ (lb ≤ nd i ∧ nd i < ub)) → s = none) ∧
      ((∀ i, i < n → lb ≤ nd i ∧ nd i < ub) →
        ∃ b, s = some b ∧ b.size = n ∧ ∀ i, i < n → b[i]? = some (conv (nd i)))) := by
    unfold assume_forall
    refine wp_forUp1 (fun i s =>
      ((∃ j, j < i ∧ ¬ (lb ≤ nd j ∧ nd j < ub)) ∧ s = none) ∨
      ((∀ j, j < i → lb ≤ nd j ∧ nd j < ub) ∧
        ∃ b, s = some b ∧ b.size = n ∧ ∀ j, j < i → b[j]? = some (conv (nd j))))
      hn (Nat.zero_le _) ?_ ?_ ?_
    · exact Or.inr ⟨fun j h => absurd h (Nat.not_lt_zero j), a, rfl, ha, fun j h => absurd h (Nat.not_lt_zero j)⟩
    · rintro i s - hi (⟨⟨j, hj, hb⟩, rfl⟩ | ⟨hg, b, rfl, hs, hv⟩)
      · exact wp_ok.2 (Or.inl ⟨⟨j, by omega, hb⟩, rfl⟩)
      · show Wp NoErr (if nd i ≥ lb then _ else _) _
        split
        · rename_i h1
          split
          · rename_i h2
            rw [wp_bind]
            refine wp_wr (by omega) (wp_ok.2 (Or.inr ⟨fun j hj => ?_, _, rfl, by rw [Array.size_setIfInBounds]; exact hs,
              fun j hj => ?_⟩))
            · rcases Nat.lt_succ_iff_lt_or_eq.1 hj with hj | rfl
              · exact hg j hj
              · exact ⟨h1, h2⟩
            · rw [Array.getElem?_setIfInBounds]
              rcases Nat.lt_succ_iff_lt_or_eq.1 hj with hj | rfl
              · rw [if_neg (by omega)]; exact hv j hj
              · rw [if_pos rfl, if_pos (by omega)]
          · rename_i h2
            exact wp_ok.2 (Or.inl ⟨⟨i, by omega, fun h => h2 h.2⟩, rfl⟩)
        · rename_i h1
          exact wp_ok.2 (Or.inl ⟨⟨i, by omega, fun h => h1 h.1⟩, rfl⟩)
    · rintro s (⟨⟨j, hj, hb⟩, rfl⟩ | ⟨hg, b, rfl, hs, hv⟩)
      · exact ⟨fun _ => rfl, fun h => absurd (h j hj) hb⟩
      · exact ⟨fun ⟨j, hj, hb⟩ => absurd (hg j hj) hb, fun _ => ⟨b, rfl, hs, hv⟩⟩
  exact wp_total.1 key

theorem array_eq {n : Nat} {a b : Array Int} (ha : a.size = n) (hb : b.size = n)
    (h : ∀ i, i < n → b[i]? = some (Spec.elt a i)) : b = a := by
  apply Array.ext_getElem?
  intro i
  by_cases hi : i < n
  · rw [h i hi, Spec.elt, Array.getD_eq_getD_getElem?, Array.getElem?_eq_getElem (by omega), Option.getD_some]
  · rw [Array.getElem?_eq_none (by omega), Array.getElem?_eq_none (by omega)]

/-- A harness with a fixed table: what it does, from what the transform does. -/
theorem run_spec {f : Array Int → Nat → Array Int → M (Array Int)} {p : Array Int} (nd : Nat → Int) :
    ((∃ i, i < 1024 ∧ ¬ (0 ≤ nd i ∧ nd i < 12289)) → run f p nd = .ok none) ∧
    (∀ a : Array Int, a.size = 1024 → (∀ i, i < 1024 → nd i = Spec.elt a i ∧ 0 ≤ nd i ∧ nd i < 12289) →
      ∀ a', f a 1024 p = .ok a' → run f p nd = .ok (some a')) := by
  obtain ⟨s, e, h1, h2⟩ := assume_run (nd := nd) (conv := id) (n := 1024) (lb := 0) (ub := 12289) (by norm_num)
    (a := Array.replicate 1024 0) Array.size_replicate
  unfold run
  constructor
  · intro h
    rw [e, h1 h]
    rfl
  · intro a ha hg a' e'
    obtain ⟨b, rfl, hs, hv⟩ := h2 fun i hi => (hg i hi).2
    have : b = a := array_eq ha hs fun i hi => by rw [hv i hi, id, (hg i hi).1]
    subst this
    rw [e]
    show (f b 1024 p >>= _) = _
    rw [e']
    rfl

theorem toI16_id {x : Int} (h1 : -6144 ≤ x) (h2 : x < 6144) : Tables.toI16 x = x := by
  unfold Tables.toI16
  omega

/-- A harness with an arbitrary table. -/
theorem run_table_spec {f : Array Int → Nat → Array Int → M (Array Int)} (nd : Nat → Int) :
    (((∃ i, i < 1024 ∧ ¬ (0 ≤ nd i ∧ nd i < 12289)) ∨ (∃ i, i < 1024 ∧ ¬ (-6144 ≤ nd (1024 + i) ∧ nd (1024 + i) < 6144))) →
      run_table f nd = .ok none) ∧
    (∀ a p : Array Int, a.size = 1024 → p.size = 1024 →
      (∀ i, i < 1024 → nd i = Spec.elt a i ∧ 0 ≤ nd i ∧ nd i < 12289) →
      (∀ i, i < 1024 → nd (1024 + i) = Spec.elt p i ∧ -6144 ≤ nd (1024 + i) ∧ nd (1024 + i) < 6144) →
      ∀ a', f a 1024 p = .ok a' → run_table f nd = .ok (some a')) := by
  obtain ⟨s, e, h1, h2⟩ := assume_run (nd := nd) (conv := id) (n := 1024) (lb := 0) (ub := 12289) (by norm_num)
    (a := Array.replicate 1024 0) Array.size_replicate
  obtain ⟨s', e', h1', h2'⟩ := assume_run (nd := fun i => nd (1024 + i)) (conv := Tables.toI16) (n := 1024) (lb := -6144)
    (ub := 6144) (by norm_num) (a := Array.replicate 1024 0) Array.size_replicate
  unfold run_table
  constructor
  · intro h
    by_cases h0 : ∃ i, i < 1024 ∧ ¬ (0 ≤ nd i ∧ nd i < 12289)
    · rw [e, h1 h0]
      rfl
    · have hp := h.resolve_left h0
      obtain ⟨b, rfl, -, -⟩ := h2 fun i hi => by
        by_contra hc
        exact h0 ⟨i, hi, hc⟩
      rw [e]
      show (assume_forall _ _ _ _ _ _ >>= _) = _
      rw [e', h1' hp]
      rfl
  · intro a p ha hp hg hgp a' e''
    obtain ⟨b, rfl, hs, hv⟩ := h2 fun i hi => (hg i hi).2
    have : b = a := array_eq ha hs fun i hi => by rw [hv i hi, id, (hg i hi).1]
    subst this
    obtain ⟨b', rfl, hs', hv'⟩ := h2' fun i hi => (hgp i hi).2
    have : b' = p := array_eq hp hs' fun i hi => by
      rw [hv' i hi, toI16_id (hgp i hi).2.1 (hgp i hi).2.2, (hgp i hi).1]
    subst this
    rw [e]
    show (assume_forall _ _ _ _ _ _ >>= _) = _
    rw [e']
    show (f b 1024 b' >>= _) = _
    rw [e'']
    rfl

end Harness
