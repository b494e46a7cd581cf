import Verif.Proofs.TestRuns

/-
What a successful run of the tests says about the functions tested.
-/

namespace TestProg
open C Spec NTT

theorem bind_ok {α β : Type} {m : M α} {f : α → M β} {b : β} (h : (m >>= f) = .ok b) :
    ∃ a, m = .ok a ∧ f a = .ok b := by
  cases m with
  | ok a => exact ⟨a, rfl, h⟩
  | error e => exact absurd h (by intro h; cases h)

/-- Any error is tolerated. -/
def AnyErr : Err → Prop := fun _ => True

theorem wp_any {α : Type} {m : M α} {P : α → Prop} : Wp AnyErr m P ↔ ∀ a, m = .ok a → P a := by
  cases m with
  | ok a =>
    rw [wp_ok]
    exact ⟨fun h b hb => by cases hb; exact h, fun h => h a rfl⟩
  | error e =>
    rw [wp_error]
    exact ⟨fun _ a h => (by cases h), fun _ => trivial⟩

/-- The states of a loop that returns. -/
theorem forUp_states {σ : Type} {n : Nat} (hn : n < 4294967296) {body : Nat → σ → M σ} {s s' : σ}
    (h : forUp 0 n 1 body s = .ok s') :
    ∃ S : Nat → σ, S 0 = s ∧ S n = s' ∧ ∀ i, i < n → body i (S i) = .ok (S (i + 1)) := by
  have key : ∀ fuel i s, i ≤ n → cfor (fun i => decide (i < n)) (fun i => u32 (i + 1)) body fuel i s = .ok s' →
      ∃ S : Nat → σ, S i = s ∧ S n = s' ∧ ∀ l, i ≤ l → l < n → body l (S l) = .ok (S (l + 1)) := by
    intro fuel
    induction fuel with
    | zero => intro i s _ h; cases h
    | succ fuel ih =>
      intro i s hi h
      unfold cfor at h
      by_cases hin : i < n
      · rw [decide_eq_true hin, if_pos rfl] at h
        obtain ⟨s1, e1, h⟩ := bind_ok h
        have hu : u32 (i + 1) = i + 1 := by unfold u32; omega
        rw [hu] at h
        obtain ⟨S, h1, h2, h3⟩ := ih (i + 1) s1 (by omega) h
        refine ⟨fun l => if l = i then s else S l, by simp, ?_, fun l hl hl' => ?_⟩
        · simp only; rw [if_neg (by omega), h2]
        · simp only
          by_cases hli : l = i
          · subst hli; rw [if_pos rfl, if_neg (by omega), h1]; exact e1
          · rw [if_neg hli, if_neg (by omega)]; exact h3 l (by omega) hl'
      · rw [decide_eq_false hin] at h
        have : i = n := by omega
        subst this
        have hs : s = s' := Except.ok.inj h
        exact ⟨fun _ => s, rfl, hs, fun l h1 h2 => by omega⟩
  obtain ⟨S, h1, h2, h3⟩ := key (n + 1) 0 s (Nat.zero_le _) h
  exact ⟨S, h1, h2, fun i hi => h3 i (Nat.zero_le _) hi⟩

theorem add_q_coeff {n : Nat} (hn : n < 4294967296) {a a' : Array Int} (ha : a.size = n)
    (h : add_q a n = .ok a') : a'.size = n ∧ ∀ i, i < n → coeff a' i = coeff a i := by
  refine wp_any.1 (wp_forUp1 (fun i b => b.size = n ∧ ∀ l, l < n → coeff b l = coeff a l) hn
    (Nat.zero_le _) ⟨ha, fun _ _ => rfl⟩ ?_ fun s h => h) a' h
  rintro i b - hi ⟨hs, hv⟩
  rw [wp_bind]
  refine wp_rd_some (some_elt (by omega)) ?_
  split
  · rw [wp_bind]
    refine wp_i32_tol trivial (wp_wr (by omega) ⟨by simp [hs], fun l hl => ?_⟩)
    rw [← hv l hl]
    unfold coeff
    rw [elt_set (by omega)]
    split
    · next h => subst h; push_cast; rw [show (12289 : Zq) = 0 by decide, add_zero]
    · rfl
  · rw [wp_pure]; exact ⟨hs, hv⟩

/-- `X^j` is not changed by `shift_array`. -/
theorem shift_mono {n j : Nat} (hn : n < 4294967296) {a : Array Int} (h : IsMono n j a) :
    NttRed.shift_array a n = .ok a := by
  obtain ⟨a', e, s, v⟩ := NttRed.run_shift_array hn h.1 (fun i hi => by
    have := h.reduced i (by have := h.1; omega); constructor <;> omega)
  rw [e]; congr 1
  apply Array.ext_getElem?
  intro i
  by_cases hi : i < n
  · rw [some_elt (by omega), some_elt (by have := h.1; omega), v i hi, h.2 i hi]
    split <;> rfl
  · rw [Array.getElem?_eq_none (by omega), Array.getElem?_eq_none (by have := h.1; omega)]

theorem shuffle_mono {k j : Nat} (hk : k ≤ 31) (hj : j < 2 ^ k) {a : Array Int}
    (h : IsMono (2 ^ k) j a) :
    ∃ a', Ntt.bitrev_shuffle a (2 ^ k) = .ok a' ∧ IsMono (2 ^ k) (rev k j) a' := by
  obtain ⟨a', e, s, v⟩ := run_shuffle hk h.1
  refine ⟨a', e, s, fun i hi => ?_⟩
  rw [v i hi, h.2 _ (rev_lt k i)]
  have : rev k i = j ↔ i = rev k j :=
    ⟨fun h => by rw [← h, rev_rev k i hi], fun h => by rw [h, rev_rev k j hj]⟩
  simp only [this]

/-- What the tests say about a transform: on every monomial. -/
theorem polys_detect {k : Nat} (hk : k ≤ 30) {L : Lib} {w : World} (hw : WorldOK (2 ^ k) w)
    (hn : L.n = 2 ^ k) (hsh : ∀ a : Array Int, a.size = 2 ^ k →
      Ntt.shuffle_with_table a L.bitrev L.npairs = Ntt.bitrev_shuffle a (2 ^ k))
    {f : Array Int → M (Array Int)} (hf : ∀ a a', a.size = 2 ^ k → f a = .ok a' → a'.size = 2 ^ k)
    {om : Int} (hom : 0 ≤ om ∧ om ≤ 12288) {std2rev : Bool} {c c' : Nat}
    (h : test_simple_polys L w f om std2rev c = .ok c') {j : Nat} (hj : j < 2 ^ k) :
    ∃ x y, IsMono (2 ^ k) (if std2rev then j else rev k j) x ∧ f x = .ok y ∧
      ∀ i, i < 2 ^ k → coeff y (if std2rev then rev k i else i) = ntt (2 ^ k) (om : Zq) (mono j) i := by
  have hlt : 2 ^ k < 2147483648 := by
    have := Nat.pow_le_pow_right (show 0 < 2 by decide) hk; omega
  unfold test_simple_polys at h
  obtain ⟨s, h, -⟩ := bind_ok h
  rw [hn] at h
  obtain ⟨S, S0, -, hS⟩ := forUp_states (by omega) h
  -- sizes
  have apply_size : ∀ a a1 : Array Int, a.size = 2 ^ k → apply_ntt L a f std2rev = .ok a1 → a1.size = 2 ^ k := by
    intro a a1 ha e
    have shuf : ∀ b b' : Array Int, b.size = 2 ^ k → Ntt.shuffle_with_table b L.bitrev L.npairs = .ok b' →
        b'.size = 2 ^ k := by
      intro b b' hb e
      obtain ⟨b2, e2, s2, -⟩ := run_shuffle (by omega) hb
      rw [hsh b hb, e2] at e
      cases e; exact s2
    have norm : ∀ b b' : Array Int, b.size = 2 ^ k → NttRed.normalize b L.n = .ok b' → b'.size = 2 ^ k := by
      intro b b' hb e
      obtain ⟨b2, e2, s2, -⟩ := run_norm (n := 2 ^ k) (by omega) hb
      rw [hn, e2] at e
      cases e; exact s2
    have shft : ∀ b b' : Array Int, b.size = 2 ^ k → NttRed.shift_array b L.n = .ok b' → b'.size = 2 ^ k := by
      intro b b' hb e
      rw [hn] at e
      refine wp_any.1 (wp_forUp1 (fun i b => b.size = 2 ^ k) (by omega)
        (Nat.zero_le _) hb ?_ fun s h => h) b' e
      rintro i b - hi hs
      refine wp_any.2 fun b3 e3 => ?_
      obtain ⟨x, -, e3⟩ := bind_ok e3
      obtain ⟨y, -, e3⟩ := bind_ok e3
      unfold wr at e3
      split at e3
      · cases e3; simp [hs]
      · cases e3
    unfold apply_ntt at e
    cases hv : L.variant <;> rw [hv] at e <;> cases std2rev <;>
      simp only [Bool.false_eq_true, if_false, if_true] at e
    · obtain ⟨b, e1, e⟩ := bind_ok e
      exact hf b a1 (shuf a b ha e1) e
    · obtain ⟨b, e1, e⟩ := bind_ok e
      exact shuf b a1 (hf a b ha e1) e
    · obtain ⟨b, e1, e⟩ := bind_ok e
      exact hf b a1 (shuf a b ha e1) e
    · obtain ⟨b, e1, e⟩ := bind_ok e
      exact shuf b a1 (hf a b ha e1) e
    · obtain ⟨b, e1, e⟩ := bind_ok e
      obtain ⟨d, e2, e⟩ := bind_ok e
      obtain ⟨g, e3, e⟩ := bind_ok e
      exact norm g a1 (hf d g (shuf b d (shft a b ha e1) e2) e3) e
    · obtain ⟨b, e1, e⟩ := bind_ok e
      obtain ⟨d, e2, e⟩ := bind_ok e
      obtain ⟨g, e3, e⟩ := bind_ok e
      exact norm g a1 (shuf d g (hf b d (shft a b ha e1) e2) e3) e
  have fix_size : ∀ a a1 : Array Int, a.size = 2 ^ k → fixSigns L a = .ok a1 →
      a1.size = 2 ^ k ∧ ∀ i, i < 2 ^ k → coeff a1 i = coeff a i := by
    intro a a1 ha e
    unfold fixSigns at e
    cases hv : L.variant <;> rw [hv] at e
    · simp only [hn] at e; exact add_q_coeff (by omega) ha e
    · cases e; exact ⟨ha, fun _ _ => rfl⟩
    · cases e; exact ⟨ha, fun _ _ => rfl⟩
  have simple : ∀ (i : Nat) (a : Array Int), i < 2 ^ k → a.size = 2 ^ k → ∃ b, simple_poly a i L.n = .ok b ∧ IsMono (2 ^ k) i b :=
    fun i a hi ha => by rw [hn]; exact run_simple_poly (by omega) hi ha
  have size : ∀ i, i ≤ 2 ^ k → (S i).size = 2 ^ k := by
    intro i
    induction i with
    | zero => intro _; rw [S0]; exact hw.junk c
    | succ i ih =>
      intro hi
      have e := hS i (by omega)
      unfold test_simple_poly at e
      obtain ⟨m, em, hm⟩ := simple i (S i) (by omega) (ih (by omega))
      rw [em, ok_bind] at e
      obtain ⟨a1, e1, e⟩ := bind_ok e
      obtain ⟨a2, e2, e⟩ := bind_ok e
      obtain ⟨b1, eb1, e⟩ := bind_ok e
      cases b1 with
      | false => cases e
      | true =>
        simp only [Bool.not_true, Bool.false_eq_true, if_false] at e
        obtain ⟨a3, e3, e⟩ := bind_ok e
        obtain ⟨a4, e4, e⟩ := bind_ok e
        obtain ⟨b2, eb2, e⟩ := bind_ok e
        cases b2 with
        | false => cases e
        | true =>
          have s1 := apply_size _ _ hm.1 e1
          have s2 := (fix_size _ _ s1 e2).1
          have s3 := apply_size _ _ s2 e3
          have s4 := (fix_size _ _ s3 e4).1
          simp only [Bool.not_true, Bool.false_eq_true, if_false] at e
          cases e
          exact s4
  have e := hS j hj
  unfold test_simple_poly at e
  obtain ⟨m, em, hm⟩ := simple j (S j) hj (size j (by omega))
  rw [em, ok_bind] at e
  obtain ⟨a1, e1, e⟩ := bind_ok e
  obtain ⟨a2, e2, e⟩ := bind_ok e
  obtain ⟨b1, eb1, e⟩ := bind_ok e
  cases b1 with
  | false => cases e
  | true =>
    have s1 := apply_size _ _ hm.1 e1
    obtain ⟨s2, v2⟩ := fix_size _ _ s1 e2
    obtain ⟨t, et, ht⟩ := run_check_ntt_simple (n := 2 ^ k) (k := j) (by omega) hj s2 hom
    rw [hn, et] at eb1
    cases eb1
    have hfin := (ht.1 rfl).2
    have hfin : ∀ i, i < 2 ^ k → coeff a1 i = ntt (2 ^ k) (om : Zq) (mono j) i :=
      fun i hi => by rw [← v2 i hi]; exact hfin i hi
    -- undo the shuffle
    have before : ∀ y z : Array Int, y.size = 2 ^ k → Ntt.shuffle_with_table y L.bitrev L.npairs = .ok z →
        (∀ i, i < 2 ^ k → coeff z i = ntt (2 ^ k) (om : Zq) (mono j) i) →
        ∀ i, i < 2 ^ k → coeff y (rev k i) = ntt (2 ^ k) (om : Zq) (mono j) i := by
      intro y z hy ey hz i hi
      obtain ⟨z', e2, s2, vz⟩ := run_shuffle (k := k) (by omega) hy
      rw [hsh y hy, e2] at ey
      cases ey
      rw [← hz i hi]
      unfold coeff
      rw [vz i hi]
    obtain ⟨m', em', hm'⟩ := shuffle_mono (k := k) (by omega) hj hm
    have norm : ∀ b : Array Int, b.size = 2 ^ k → NttRed.normalize b L.n = .ok a1 →
        ∀ i, i < 2 ^ k → coeff b i = ntt (2 ^ k) (om : Zq) (mono j) i := by
      intro b hb eb i hi
      obtain ⟨b2, e2, s2, -, vb⟩ := run_norm (n := 2 ^ k) (by omega) hb
      rw [hn, e2] at eb
      cases eb
      rw [← vb i hi, hfin i hi]
    have sm := shift_mono (n := 2 ^ k) (by omega) hm
    unfold apply_ntt at e1
    cases hv : L.variant <;> rw [hv] at e1 <;> cases std2rev <;>
      simp only [Bool.false_eq_true, if_false, if_true] at e1 ⊢
    · rw [hsh m hm.1, em', ok_bind] at e1
      exact ⟨m', a1, hm', e1, hfin⟩
    · obtain ⟨y, ey, e1⟩ := bind_ok e1
      exact ⟨m, y, hm, ey, before y a1 (hf m y hm.1 ey) e1 hfin⟩
    · rw [hsh m hm.1, em', ok_bind] at e1
      exact ⟨m', a1, hm', e1, hfin⟩
    · obtain ⟨y, ey, e1⟩ := bind_ok e1
      exact ⟨m, y, hm, ey, before y a1 (hf m y hm.1 ey) e1 hfin⟩
    · rw [hn, sm, ok_bind, hsh m hm.1, em', ok_bind] at e1
      obtain ⟨y, ey, e1⟩ := bind_ok e1
      exact ⟨m', y, hm', ey, norm y (hf m' y hm'.1 ey) (by rw [hn]; exact e1)⟩
    · rw [hn, sm, ok_bind] at e1
      obtain ⟨y, ey, e1⟩ := bind_ok e1
      obtain ⟨z, ez, e1⟩ := bind_ok e1
      have sy := hf m y hm.1 ey
      have sz : z.size = 2 ^ k := by
        obtain ⟨z', e2, s2, -⟩ := run_shuffle (k := k) (by omega) sy
        rw [hsh y sy, e2] at ez
        cases ez; exact s2
      exact ⟨m, y, hm, ey, before y z sy ez (norm z sz (by rw [hn]; exact e1))⟩

/-- What the tests say about a product: on all pairs of monomials. -/
theorem products_detect {k : Nat} (hk : k ≤ 30) {L : Lib} {w : World} (hw : WorldOK (2 ^ k) w)
    (hn : L.n = 2 ^ k)
    {f : Array Int → Array Int → Array Int → M (Array Int × Array Int × Array Int)}
    (hf : ∀ c a b c' a' b', c.size = 2 ^ k → a.size = 2 ^ k → b.size = 2 ^ k →
      f c a b = .ok (c', a', b') → c'.size = 2 ^ k) {c c' : Nat}
    (h : test_simple_products L w f c = .ok c') {i j : Nat} (hi : i < 2 ^ k) (hj : j < 2 ^ k) :
    ∃ d x y d' x' y', d.size = 2 ^ k ∧ IsMono (2 ^ k) i x ∧ IsMono (2 ^ k) j y ∧
      f d x y = .ok (d', x', y') ∧
      ∀ l, l < 2 ^ k → coeff d' l = negacyclic (2 ^ k) (mono i) (mono j) l := by
  have hlt : 2 ^ k < 2147483648 := by
    have := Nat.pow_le_pow_right (show 0 < 2 by decide) hk; omega
  unfold test_simple_products at h
  rw [hn] at h
  obtain ⟨S, -, -, hS⟩ := forUp_states (by omega) h
  obtain ⟨T, -, -, hT⟩ := forUp_states (by omega) (hS i hi)
  have e := hT j hj
  unfold test_simple_product at e
  obtain ⟨x, ex, hx⟩ := run_simple_poly (n := 2 ^ k) (by omega) hi (hw.junk (T j))
  obtain ⟨y, ey, hy⟩ := run_simple_poly (n := 2 ^ k) (by omega) hj (hw.junk (T j + 1))
  rw [hn, ex, ok_bind, ey, ok_bind] at e
  obtain ⟨⟨d', x', y'⟩, ef, e⟩ := bind_ok e
  obtain ⟨d2, ed, e⟩ := bind_ok e
  obtain ⟨b, eb, e⟩ := bind_ok e
  have sd := hf _ x y d' x' y' (hw.junk _) hx.1 hy.1 ef
  have hd2 : d2.size = 2 ^ k ∧ ∀ l, l < 2 ^ k → coeff d2 l = coeff d' l := by
    unfold fixSigns at ed
    cases hv : L.variant <;> rw [hv] at ed
    · simp only [hn] at ed; exact add_q_coeff (by omega) sd ed
    · cases ed; exact ⟨sd, fun _ _ => rfl⟩
    · cases ed; exact ⟨sd, fun _ _ => rfl⟩
  cases b with
  | false => cases e
  | true =>
    obtain ⟨t, et, ht⟩ := run_equal_simple_poly (n := 2 ^ k) hlt hi hj hd2.1
    rw [et] at eb
    cases eb
    exact ⟨_, x, y, d', x', y', hw.junk _, hx, hy, ef, fun l hl => by
      rw [← hd2.2 l hl]; exact (ht.1 rfl).2 l hl⟩

theorem sum_mono {n : Nat} (A : Nat → Zq) (F : Nat → Zq) {j : Nat} (hj : j < n)
    (h : ∀ l, l < n → A l = mono j l) : ∑ l ∈ Finset.range n, F l * A l = F j := by
  rw [Finset.sum_eq_single j]
  · rw [h j hj]; simp [mono]
  · intro b hb hbj; rw [h b (Finset.mem_range.1 hb)]; simp [mono, hbj]
  · intro h; exact absurd (Finset.mem_range.2 hj) h

end TestProg
