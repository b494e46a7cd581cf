import Verif.Proofs.TestDetect

/-
What the 1000 round trips of the test programs say, and what a complete run of the tests says.
-/

namespace TestProg
open C Spec NTT

theorem tmod_coeff (z : Int) : ((z.tmod 12289 : Int) : Zq) = (z : Zq) := by
  rw [zq_eq_iff]
  have := Int.mul_tdiv_add_tmod z 12289
  omega

/-- A loop that replaces each element by one with a given residue, when it returns. -/
theorem loop_coeff {n : Nat} (hn : n < 4294967296) {body : Nat → Array Int → M (Array Int)} {F : Zq → Zq}
    (hb : ∀ i a a', i < n → a.size = n → body i a = .ok a' → ∃ y, a' = a.setIfInBounds i y ∧ (y : Zq) = F (coeff a i))
    {a a' : Array Int} (ha : a.size = n) (h : forUp 0 n 1 body a = .ok a') :
    a'.size = n ∧ ∀ i, i < n → coeff a' i = F (coeff a i) := by
  refine (wp_any (P := fun a' => a'.size = n ∧ ∀ i, i < n → coeff a' i = F (coeff a i))).1 (wp_forUp1
    (fun i b => b.size = n ∧ ∀ l, l < n → coeff b l = if l < i then F (coeff a l) else coeff a l) hn (Nat.zero_le _) ⟨ha, fun _ _ => by rw [if_neg (Nat.not_lt_zero _)]⟩ ?_ fun s h => ⟨h.1, fun l hl => by
      rw [h.2 l hl, if_pos hl]⟩) a' h
  rintro i b - hi ⟨hs, hv⟩
  refine wp_any.2 fun b' e => ?_
  obtain ⟨y, rfl, hy⟩ := hb i b b' hi hs e
  refine ⟨by simp [hs], fun l hl => ?_⟩
  have h1 : coeff (b.setIfInBounds i y) l = if l = i then (y : Zq) else coeff b l := by
    unfold coeff; rw [elt_set (by omega)]; split <;> rfl
  rw [h1, hv l hl]
  by_cases hli : l = i
  · subst hli
    rw [if_pos rfl, hy, if_pos (by omega), hv l hl, if_neg (by omega)]
  · rw [if_neg hli]
    by_cases h2 : l < i
    · rw [if_pos h2, if_pos (by omega)]
    · rw [if_neg h2, if_neg (by omega)]

theorem wr_eq {a a' : Array Int} {i : Nat} {x : Int} (h : wr a i x = .ok a') : a' = a.setIfInBounds i x := by
  unfold wr at h
  split at h
  · exact (Except.ok.inj h).symm
  · cases h

theorem i32_eq {x y : Int} (h : i32 x = .ok y) : y = x := by
  unfold i32 at h
  split at h
  · exact (Except.ok.inj h).symm
  · cases h

theorem rd_coeff {n : Nat} {a : Array Int} (ha : a.size = n) {i : Nat} (hi : i < n) {x : Int} (h : rd a i = .ok x) :
    (x : Zq) = coeff a i := by
  unfold rd at h
  rw [some_elt (by omega)] at h
  cases h; rfl

theorem scalar_coeff {n : Nat} (hn : n < 4294967296) {c : Int} (hc : 0 ≤ c ∧ c ≤ 12288) {a a' : Array Int}
    (ha : a.size = n) (hr : Reduced a)
    (h : Ntt.scalar_mul_array a n c = .ok a') : a'.size = n ∧ ∀ i, i < n → coeff a' i = coeff a i * (c : Zq) := by
  obtain ⟨b, e, s, -, v⟩ := Ntt.run_scalar_mul_array hn ha hr hc
  rw [e] at h
  cases h
  exact ⟨s, v⟩

theorem scalar_naive_coeff {n : Nat} (hn : n < 4294967296) {c : Int} {a a' : Array Int} (ha : a.size = n)
    (h : Naive.scalar_mul_array a n c 12289 = .ok a') :
    a'.size = n ∧ ∀ i, i < n → coeff a' i = coeff a i * (c : Zq) := by
  refine loop_coeff hn (F := fun x => x * (c : Zq)) (fun i a a' hi hs e => ?_) ha h
  obtain ⟨x, ex, e⟩ := bind_ok e
  obtain ⟨z, ez, e⟩ := bind_ok e
  obtain ⟨y, ey, e⟩ := bind_ok e
  refine ⟨_, wr_eq e, ?_⟩
  have : y = z.tmod 12289 := by
    unfold crem at ey
    rw [if_neg (by decide)] at ey
    exact (Except.ok.inj ey).symm
  rw [this, tmod_coeff, i32_eq ez, Int.cast_mul, rd_coeff hs hi ex]

theorem shift_coeff {n : Nat} (hn : n < 4294967296) {a a' : Array Int} (ha : a.size = n)
    (h : NttRed.shift_array a n = .ok a') : a'.size = n ∧ ∀ i, i < n → coeff a' i = coeff a i := by
  refine loop_coeff hn (F := fun x => x) (fun i a a' hi hs e => ?_) ha h
  obtain ⟨x, ex, e⟩ := bind_ok e
  obtain ⟨y, ey, e⟩ := bind_ok e
  refine ⟨_, wr_eq e, ?_⟩
  split at ey
  · rw [i32_eq ey, ← rd_coeff hs hi ex, zq_eq_iff]; omega
  · cases ey; exact rd_coeff hs hi ex

/-- The polynomial drawn at event `k`. -/
theorem random_poly_val {n : Nat} (hn : n < 4294967296) {w : World} (hw : WorldOK n w) {a : Array Int}
    (ha : a.size = n) (k : Nat) :
    ∃ a', random_poly w a n k = .ok (a', k + n) ∧ a'.size = n ∧
      ∀ i, i < n → elt a' i = ((w.random (k + i) % 12289 : Nat) : Int) := by
  obtain ⟨⟨a', k'⟩, e, h1, h2, rfl⟩ := wp_total.1 (wp_forUp1 (E := NoErr) (lo := 0) (hi := n)
    (body := fun i (s : Array Int × Nat) => do
      let x ← random_coeff w s.2
      let a ← wr s.1 i x.1
      pure (a, x.2)) (s := (a, k))
    (fun i s => s.1.size = n ∧ (∀ l, l < i → elt s.1 l = ((w.random (k + l) % 12289 : Nat) : Int)) ∧ s.2 = k + i) hn
    (Nat.zero_le _) ⟨ha, fun l hl => absurd hl (Nat.not_lt_zero _), rfl⟩ (by
      rintro i ⟨a, k'⟩ - hi ⟨hs, hv, rfl⟩
      have ex : random_coeff w (k + i) = .ok (((w.random (k + i) % 12289 : Nat) : Int), k + i + 1) := by
        obtain ⟨x, ex, -⟩ := run_random_coeff hw (k + i)
        have h1 : Int.tmod (w.random (k + i) : Int) 12289 = ((w.random (k + i) % 12289 : Nat) : Int) := by
          rw [Int.tmod_eq_emod_of_nonneg (by omega)]; omega
        have h2 : toI32 ((w.random (k + i) % 12289 : Nat) : Int) = ((w.random (k + i) % 12289 : Nat) : Int) := by
          unfold toI32; omega
        unfold random_coeff at ex ⊢
        unfold crem at ex ⊢
        rw [if_neg (by decide), ok_bind, h1, h2] at ex ⊢
        obtain ⟨u, eu, ex⟩ := bind_ok ex
        simp only [eu]
        rfl
      simp only at hs
      rw [wp_bind]
      refine NttRed.wp_of_eq ex ?_
      rw [wp_bind]
      refine wp_wr (show i < a.size by omega) ?_
      rw [wp_pure]
      refine ⟨by simp [hs], fun l hl => ?_, by simp only; omega⟩
      simp only at hv ⊢
      rw [elt_set (by omega)]
      by_cases hli : l = i
      · rw [if_pos hli, hli]
      · rw [if_neg hli]; exact hv l (by omega))
    (P := fun s => s.1.size = n ∧ (∀ l, l < n → elt s.1 l = ((w.random (k + l) % 12289 : Nat) : Int)) ∧ s.2 = k + n)
    fun s h => h)
  exact ⟨a', e, h1, h2⟩

section
variable {k : Nat} (hk : k ≤ 30) {L : Lib} {w : World} (hw : WorldOK (2 ^ k) w) (hn : L.n = 2 ^ k)
  {fwd inv : Array Int → M (Array Int)}
  (hf : ∀ a a', a.size = 2 ^ k → fwd a = .ok a' → a'.size = 2 ^ k)
  (hi : ∀ a a', a.size = 2 ^ k → inv a = .ok a' → a'.size = 2 ^ k)
  (hx : L.variant = .exact → ∀ a a', a.size = 2 ^ k → inv a = .ok a' → Reduced a')
  (hc : 0 ≤ L.inv_n ∧ L.inv_n < 12289)
include hk hn hf hi hx hc

theorem inverse_detect {a b : Array Int} (ha : a.size = 2 ^ k) (hb : b.size = 2 ^ k)
    (h : check_inverse L a b fwd inv = .ok ()) :
    ∃ x y y' z, SameClass (2 ^ k) x a ∧ fwd x = .ok y ∧ SameClass (2 ^ k) y' y ∧ inv y' = .ok z ∧
      ∀ i, i < 2 ^ k → coeff z i * (L.inv_n : Zq) = coeff a i := by
  have hlt : 2 ^ k < 2147483648 := by
    have := Nat.pow_le_pow_right (show 0 < 2 by decide) hk; omega
  unfold check_inverse at h
  rw [hn] at h
  obtain ⟨b1, e1, h⟩ := bind_ok h
  obtain ⟨b2, e2, h⟩ := bind_ok h
  obtain ⟨e, ee, h⟩ := bind_ok h
  have hb1 : b1 = a := by
    obtain ⟨b', eb, sb, vb⟩ := run_fill (n := 2 ^ k) (by omega) hb (fun i => elt a i)
      (body := fun i b => do let x ← rd a i; wr b i x) (fun i b hi hs => by
        have : rd a i = .ok (elt a i) := by unfold rd; rw [some_elt (by omega)]
        rw [this, ok_bind]; exact wr_ok (by omega))
    rw [eb] at e1
    cases e1
    apply Array.ext_getElem?
    intro i
    by_cases hi : i < 2 ^ k
    · rw [some_elt (by omega), some_elt (by omega), vb i hi]
    · rw [Array.getElem?_eq_none (by omega), Array.getElem?_eq_none (by omega)]
  subst hb1
  have fin : b2.size = 2 ^ k → b1 = b2 := by
    intro hs
    obtain ⟨r, er, hr⟩ := run_equal_arrays (n := 2 ^ k) (by omega) ha hs
    have hre : r = e := Except.ok.inj (er.symm.trans ee)
    subst hre
    cases r with
    | true => exact hr.1 rfl
    | false => cases h
  have norm : ∀ {u v : Array Int}, u.size = 2 ^ k → NttRed.normalize u (2 ^ k) = .ok v →
      SameClass (2 ^ k) v u ∧ Reduced v := by
    intro u v hu e
    obtain ⟨v', e2, s2, r2, c2⟩ := run_norm (n := 2 ^ k) (by omega) hu
    rw [e2] at e
    cases e
    exact ⟨⟨s2, c2⟩, r2⟩
  have shft : ∀ {c : Bool} {u v : Array Int}, u.size = 2 ^ k → shiftIf L c u = .ok v → SameClass (2 ^ k) v u := by
    intro c u v hu e
    unfold shiftIf at e
    cases c with
    | false => cases e; exact ⟨hu, fun _ _ => rfl⟩
    | true => rw [if_pos rfl, hn] at e; exact shift_coeff (by omega) hu e
  cases hv : L.variant <;> rw [hv] at e2 <;> simp only at e2
  · obtain ⟨y, ey, e2⟩ := bind_ok e2
    obtain ⟨z, ez, e2⟩ := bind_ok e2
    obtain ⟨u, eu, e2⟩ := bind_ok e2
    have sz := hi y z (hf b1 y ha ey) ez
    obtain ⟨su, cu⟩ := scalar_naive_coeff (by omega) sz eu
    obtain ⟨sv, cv⟩ := add_q_coeff (by omega) su e2
    have := fin sv
    refine ⟨b1, y, y, z, ⟨ha, fun _ _ => rfl⟩, ey, ⟨hf b1 y ha ey, fun _ _ => rfl⟩, ez, fun i hi => ?_⟩
    rw [← cu i hi, ← cv i hi, this]
  · obtain ⟨y, ey, e2⟩ := bind_ok e2
    obtain ⟨z, ez, e2⟩ := bind_ok e2
    have sz := hi y z (hf b1 y ha ey) ez
    obtain ⟨su, cu⟩ := scalar_coeff (by omega) ⟨hc.1, by omega⟩ sz (hx hv y z (hf b1 y ha ey) ez) e2
    have := fin su
    refine ⟨b1, y, y, z, ⟨ha, fun _ _ => rfl⟩, ey, ⟨hf b1 y ha ey, fun _ _ => rfl⟩, ez, fun i hi => ?_⟩
    rw [← cu i hi, this]
  · obtain ⟨x, ex, e2⟩ := bind_ok e2
    obtain ⟨y, ey, e2⟩ := bind_ok e2
    obtain ⟨y1, ey1, e2⟩ := bind_ok e2
    obtain ⟨y2, ey2, e2⟩ := bind_ok e2
    obtain ⟨z, ez, e2⟩ := bind_ok e2
    obtain ⟨z1, ez1, e2⟩ := bind_ok e2
    have hx := shft ha ex
    have sy := hf x y hx.1 ey
    have hy1 := (norm sy ey1).1
    have hy2 := shft hy1.1 ey2
    have sz := hi y2 z hy2.1 ez
    obtain ⟨hz1, rz1⟩ := norm sz ez1
    obtain ⟨su, cu⟩ := scalar_coeff (by omega) ⟨hc.1, by omega⟩ hz1.1 rz1 e2
    have := fin su
    refine ⟨x, y, y2, z, hx, ey, ⟨hy2.1, fun i hi => by rw [hy2.2 i hi, hy1.2 i hi]⟩, ez, fun i hi => ?_⟩
    rw [← hz1.2 i hi, ← cu i hi, this]

include hw in
theorem trips_detect {c c' : Nat} (h : test_forward_inverse L w fwd inv c = .ok c') :
    ∃ p : Nat → Nat, (∀ i, p i + 2 ^ k < p (i + 1)) ∧ ∀ i, i < 1000 → RoundTrip k w fwd inv L.inv_n (p i) := by
  have hlt : 2 ^ k < 2147483648 := by
    have := Nat.pow_le_pow_right (show 0 < 2 by decide) hk; omega
  unfold test_forward_inverse at h
  obtain ⟨s, h, -⟩ := bind_ok h
  rw [hn] at h
  obtain ⟨S, S0, -, hS⟩ := forUp_states (by omega) h
  have step : ∀ i, i ≤ 1000 → (S i).1.size = 2 ^ k ∧ (S i).2 = c + 1 + i * (2 ^ k + 1) := by
    intro i
    induction i with
    | zero => intro _; rw [S0]; exact ⟨hw.junk c, by simp⟩
    | succ i ih =>
      intro hi'
      obtain ⟨s1, s2⟩ := ih (by omega)
      have e := hS i (by omega)
      obtain ⟨a, ea, sa, -⟩ := random_poly_val (n := 2 ^ k) (by omega) hw s1 (S i).2
      rw [ea, ok_bind] at e
      obtain ⟨u, -, e⟩ := bind_ok e
      have := Except.ok.inj e
      rw [← this]
      refine ⟨sa, ?_⟩
      simp only
      rw [s2]; ring
  refine ⟨fun i => c + 1 + i * (2 ^ k + 1), fun i => by simp only; ring_nf; omega, fun i hi' => ?_⟩
  obtain ⟨s1, s2⟩ := step i (by omega)
  have e := hS i hi'
  obtain ⟨a, ea, sa, va⟩ := random_poly_val (n := 2 ^ k) (by omega) hw s1 (S i).2
  rw [ea, ok_bind] at e
  obtain ⟨u, eu, -⟩ := bind_ok e
  obtain ⟨x, y, y', z, h1, h2, h3, h4, h5⟩ := inverse_detect hk hn hf hi hx hc sa (hw.junk _) eu
  have cl : ∀ l, l < 2 ^ k → coeff a l = ((w.random (c + 1 + i * (2 ^ k + 1) + l) : Nat) : Zq) := by
    intro l hl
    unfold coeff
    rw [va l hl, s2, Int.cast_natCast, ZMod.natCast_mod]
  refine ⟨x, y, y', z, h1.1, fun l hl => ?_, h2, fun l hl => h3.2 l hl, h4, fun l hl => ?_⟩
  · rw [h1.2 l hl]; exact cl l hl
  · rw [h5 l hl]; exact cl l hl

end
end TestProg
