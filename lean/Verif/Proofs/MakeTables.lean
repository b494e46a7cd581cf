import Verif.Proofs.Tables
import Verif.SpecTables

/-
Proofs about the main programs of the table generators.
-/

namespace Tables
open C Spec NTT

theorem nat_pow_one {x i : Nat} : x ^ i % 12289 = 1 ↔ (x : Zq) ^ i = 1 := by
  have := ZMod.natCast_eq_natCast_iff' (x ^ i) 1 12289
  push_cast at this
  rw [this]

theorem nat_pow_neg {x i : Nat} : x ^ i % 12289 = 12289 - 1 ↔ (x : Zq) ^ i = -1 := by
  have h := ZMod.natCast_eq_natCast_iff' (x ^ i) 12288 12289
  push_cast at h
  rw [show (12288 : Zq) = -1 by decide] at h
  rw [h]

theorem inv_of_mul {x y : Nat} (h : x * y % 12289 = 1) : (y : Zq) = (x : Zq)⁻¹ := by
  have h1 := (ZMod.natCast_eq_natCast_iff' (x * y) 1 12289).2 h
  push_cast at h1
  exact eq_inv_of_mul_eq_one_right h1

theorem wp_inverseOrExit {E : Err → Prop} {x : Nat} (hx : 1 ≤ x) (hxq : x * 12289 < 2147483648)
    (hg : Nat.gcd x 12289 = 1) :
    Wp E (inverseOrExit x 12289) (fun y => y < 12289 ∧ (y : Zq) = (x : Zq)⁻¹) := by
  unfold inverseOrExit
  rw [wp_bind]
  refine (wp_inverse hx (by norm_num) hxq).mono ?_
  rintro r (⟨_, y, hy, rfl, h⟩ | ⟨h, _⟩)
  · exact wp_ok.2 ⟨hy, inv_of_mul h⟩
  · exact absurd hg h

theorem prime_q : Nat.Prime 12289 := by norm_num

theorem gcd_lt {x : Nat} (h1 : 1 ≤ x) (h2 : x < 12289) : Nat.gcd x 12289 = 1 := by
  rw [Nat.gcd_comm]
  exact (Nat.Prime.coprime_iff_not_dvd prime_q).2 (fun h => by have := Nat.le_of_dvd (by omega) h; omega)

theorem k_le_16 {k : Nat} (h : (2 : Int) ^ k < 100000) : k ≤ 16 := by
  by_contra hc
  have : (2 : Int) ^ 17 ≤ 2 ^ k := pow_le_pow_right₀ (by norm_num) (by omega)
  norm_num at this
  omega

/-- The checks of `main` succeed on good parameters. -/
theorem wp_checkArgs {E : Err → Prop} {k : Nat} {xn xpsi : Int} (h : GoodParams k xn xpsi) :
    Wp E (checkArgs 12289 xn xpsi) (fun r => ∃ psi : Nat, xpsi = psi ∧
      r = (2 ^ k, psi, psi * psi % 12289)) := by
  obtain ⟨hk1, rfl, hn, hp1, hp2, hpsi⟩ := h
  have hk := k_le_16 hn
  obtain ⟨psi, rfl⟩ := Int.eq_ofNat_of_zero_le (show 0 ≤ xpsi by omega)
  have hnn : (1 : Int) < 2 ^ k := one_lt_pow₀ (by norm_num) (by omega)
  have hpsi' : (psi : Zq) ^ 2 ^ k = -1 := by simpa using hpsi
  have hpl : psi < 12289 := by omega
  have hkp : 2 ^ k < 4294967296 := by
    have : 2 ^ k ≤ 2 ^ 16 := Nat.pow_le_pow_right (by omega) hk
    norm_num at this; omega
  unfold checkArgs
  rw [if_neg (by omega), if_neg (by omega)]
  have e : ((2 : Int) ^ k).toNat = 2 ^ k := by
    have : ((2 : Int) ^ k) = ((2 ^ k : Nat) : Int) := by push_cast; rfl
    rw [this, Int.toNat_natCast]
  simp only [e, wp_bind, logtwo_pow (show k ≤ 31 by omega), wp_ok]
  rw [if_neg (by push_cast; omega)]
  simp only [Int.toNat_natCast, wp_bind]
  refine (wp_power (by norm_num) (by norm_num) (by omega) hkp).mono ?_
  rintro i rfl
  rw [if_neg (by rw [ne_eq, not_not]; exact nat_pow_neg.2 hpsi')]
  simp only [wp_bind]
  rw [u32_mul (by omega) (by omega)]
  refine wp_urem (by norm_num) ?_
  have hphi : ((psi * psi % 12289 : Nat) : Zq) = (psi : Zq) ^ 2 := by
    rw [cast_mod]; push_cast; ring
  have hphil : psi * psi % 12289 < 12289 := Nat.mod_lt _ (by norm_num)
  refine (wp_is_primitive_root hkp (Nat.two_pow_pos k) (by norm_num) (by norm_num) (by omega)).mono ?_
  intro b hb
  have hω : 0 < k → ((psi : Zq) ^ 2) ^ 2 ^ (k - 1) = -1 := by
    intro _
    rw [← pow_mul, ← Nat.pow_succ', show (k - 1).succ = k by omega]
    exact hpsi'
  have hbt : b = true := by
    rw [hb]
    refine ⟨nat_pow_one.2 ?_, fun i h1 h2 h3 => ?_⟩
    · rw [hphi]
      exact pow_full hω (by omega)
    · rw [nat_pow_one, hphi] at h3
      exact pow_ne_one two_ne_zero_Zq hω h1 h2 h3
  refine wp_cassert hbt (wp_pure.2 ⟨psi, rfl, rfl⟩)

/-- The checks fail, by `exit(EXIT_FAILURE)`, on all other parameters. -/
theorem checkArgs_abort {xn xpsi : Int} (h : ∀ k, ¬ GoodParams k xn xpsi) :
    checkArgs 12289 xn xpsi = .error .abort := by
  unfold checkArgs
  split
  · rfl
  · split
    · rfl
    · next h1 h2 =>
      obtain ⟨n, rfl⟩ := Int.eq_ofNat_of_zero_le (show 0 ≤ xn by omega)
      simp only [Int.toNat_natCast]
      by_cases hp : ∃ k, n = 2 ^ k
      · obtain ⟨k, rfl⟩ := hp
        have hk : k ≤ 16 := k_le_16 (by push_cast at h2; omega)
        have hk1 : 1 ≤ k := by
          rcases Nat.eq_zero_or_pos k with h0 | h0
          · subst h0; simp at h1
          · exact h0
        rw [logtwo_pow (by omega)]
        show (if xpsi ≤ 1 ∨ xpsi ≥ (12289 : Nat) then _ else _) = _
        split
        · rfl
        · next h3 =>
          push_cast at h3
          obtain ⟨psi, rfl⟩ := Int.eq_ofNat_of_zero_le (show 0 ≤ xpsi by omega)
          have hkp : 2 ^ k < 4294967296 := by
            have : 2 ^ k ≤ 2 ^ 16 := Nat.pow_le_pow_right (by omega) hk
            norm_num at this; omega
          simp only [Int.toNat_natCast]
          rw [power_eq (by norm_num) (by norm_num) (by omega) hkp]
          show (if psi ^ 2 ^ k % 12289 ≠ 12289 - 1 then _ else _) = _
          split
          · rfl
          · next h4 =>
            exfalso
            rw [ne_eq, not_not, nat_pow_neg] at h4
            refine h k ⟨hk1, by push_cast; rfl, by omega, by omega, by omega, ?_⟩
            simpa using h4
      · have hp' : ∀ k, n ≠ 2 ^ k := fun k hk => hp ⟨k, hk⟩
        rw [logtwo_none (by omega) (by omega) hp']
        rfl

theorem wp_find_k {E : Err → Prop} {P : Nat → Prop} (h : P 3) : Wp E (find_k 12289) P := by
  have : find_k 12289 = .ok 3 := by rfl
  rw [this]; exact wp_ok.2 h

theorem wp_rescale {E : Err → Prop} {e inv_n inv_k : Nat} (he : e < 100) (hn : inv_n < 12289)
    (hk : inv_k < 12289) :
    Wp E (rescale_factor e inv_n inv_k 12289)
      (fun r => r < 12289 ∧ (r : Zq) = (inv_k : Zq) ^ e * inv_n) := by
  unfold rescale_factor
  rw [wp_bind]
  refine (wp_power (by norm_num) (by norm_num) (by omega) (by omega)).mono ?_
  rintro s rfl
  have hs : inv_k ^ e % 12289 < 12289 := Nat.mod_lt _ (by norm_num)
  rw [u32_mul (by omega) (by omega)]
  refine wp_urem (by norm_num) ⟨Nat.mod_lt _ (by norm_num), ?_⟩
  rw [cast_mod]; push_cast; rw [cast_mod]; push_cast; rfl

theorem wp_tbl_pow {E : Err → Prop} {a : Array Nat} {n x y : Nat} (hn : n < 4294967296)
    (ha : a.size = n) (hx : x < 12289) (hy : y < 12289) {P : Array Nat → Prop}
    (h : ∀ r, r.size = n → (∀ (i v : Nat), r[i]? = some v → v < 12289) →
      (∀ {lo hi κ s p}, Printed lo hi r p → κ * x = ((s : Nat) : Zq) → PowTable κ s y lo hi n p) → P r) :
    Wp E (build_power_table a n 12289 x y) P := by
  refine (wp_build_power_table hn ha (by norm_num) (by norm_num) hx (by omega)).mono ?_
  rintro r ⟨h1, h2⟩
  refine h r h1 ?_ (fun hp hκ => powTable_of h1 h2 hp hκ)
  intro i v hv
  have hi := getElem?_lt hv
  rw [h2 i (by omega)] at hv
  injection hv with hv
  rw [← hv]; exact Nat.mod_lt _ (by norm_num)

theorem wp_tbl_std {E : Err → Prop} {a : Array Nat} {k x y : Nat} {ik : Option Nat} (hk : k ≤ 31)
    (ha : a.size = 2 ^ k) (hx : x < 12289) (hy : y < 12289) (hik : ∀ s, ik = some s → s < 12289)
    {P : Array Nat → Prop}
    (h : ∀ r, r.size = 2 ^ k → (∀ (i v : Nat), r[i]? = some v → v < 12289) →
      (∀ {lo hi κ p}, Printed lo hi r p → κ * ((scale ik : Nat) : Zq) = 1 →
        StdTable κ x y lo hi k p) → P r) :
    Wp E (build_table a (2 ^ k) 12289 x y ik) P := by
  refine (wp_build_table hk ha (by norm_num) (by norm_num) (by omega) (by omega)
    (fun s hs => by have := hik s hs; omega)).mono ?_
  rintro r ⟨h1, h2, h3⟩
  exact h r h1 (entries_lt h1 h2 h3) (fun hp hκ => stdTable_of h1 h3 hp hκ)

theorem wp_tbl_rev {E : Err → Prop} {a : Array Nat} {k x y : Nat} {ik : Option Nat} (hk : k ≤ 31)
    (ha : a.size = 2 ^ k) (hx : x < 12289) (hy : y < 12289) (hik : ∀ s, ik = some s → s < 12289)
    {P : Array Nat → Prop}
    (h : ∀ r, r.size = 2 ^ k → (∀ (i v : Nat), r[i]? = some v → v < 12289) →
      (∀ {lo hi κ p}, Printed lo hi r p → κ * ((scale ik : Nat) : Zq) = 1 →
        RevTable κ x y lo hi k p) → P r) :
    Wp E (build_rev_table a (2 ^ k) 12289 x y ik) P := by
  refine (wp_build_rev_table hk ha (by norm_num) (by norm_num) (by omega) (by omega)
    (fun s hs => by have := hik s hs; omega)).mono ?_
  rintro r ⟨h1, h2, h3⟩
  exact h r h1 (entries_lt h1 h2 h3) (fun hp hκ => revTable_of h1 h3 hp hκ)

/-- Facts about the parameters computed by both generators. -/
structure Params (k : Nat) (ψ : Zq) (psi phi inv_psi inv_phi inv_n : Nat) : Prop where
  k16 : k ≤ 16
  psi : (psi : Zq) = ψ ∧ psi < 12289
  phi : (phi : Zq) = ψ ^ 2 ∧ phi < 12289
  inv_psi : (inv_psi : Zq) = ψ⁻¹ ∧ inv_psi < 12289
  inv_phi : (inv_phi : Zq) = (ψ ^ 2)⁻¹ ∧ inv_phi < 12289
  inv_n : (inv_n : Zq) = (2 ^ k : Zq)⁻¹ ∧ inv_n < 12289

theorem printed_entries {lo hi : Int} {r : Array Nat} {p : Array Int} {n : Nat} (h : Printed lo hi r p)
    (hs : r.size = n) (hb : ∀ (i v : Nat), r[i]? = some v → v < 12289) : p.size = n ∧ InRange lo hi p := by
  refine ⟨h.1.trans hs, fun i hi => ?_⟩
  have hi' : i < r.size := by rw [← h.1]; exact hi
  have e : r[i]? = some r[i] := Array.getElem?_eq_getElem hi'
  exact (h.2 i _ e (hb i _ e)).1

theorem wp_print_tables {E : Err → Prop} {k : Nat} {ψ : Zq} {psi phi inv_psi inv_phi inv_n : Nat}
    (hP : Params k ψ psi phi inv_psi inv_phi inv_n) {buf : Array Nat} (hb : buf.size = 2 ^ k) :
    Wp E (print_tables buf 12289 (2 ^ k) inv_n psi phi inv_psi inv_phi) (TablesOK k ψ) := by
  obtain ⟨hk, ⟨e1, l1⟩, ⟨e2, l2⟩, ⟨e3, l3⟩, ⟨e4, l4⟩, ⟨e5, l5⟩⟩ := hP
  have hn : 2 ^ k < 4294967296 := by
    have : 2 ^ k ≤ 2 ^ 16 := Nat.pow_le_pow_right (by omega) hk
    norm_num at this; omega
  have hk31 : k ≤ 31 := by omega
  have h1 : 1 < 12289 := by norm_num
  have hnone : ∀ s, (none : Option Nat) = some s → s < 12289 := by simp
  unfold print_tables
  simp only [wp_bind]
  refine wp_tbl_pow hn hb h1 l1 fun t1 s1 b1 f1 => ?_
  refine wp_tbl_pow hn s1 h1 l3 fun t2 s2 b2 f2 => ?_
  refine wp_tbl_rev hk31 s2 h1 l3 hnone fun t3 s3 b3 f3 => ?_
  refine wp_tbl_pow hn s3 l5 l3 fun t4 s4 b4 f4 => ?_
  refine wp_tbl_std hk31 s4 h1 l2 hnone fun t5 s5 b5 f5 => ?_
  refine wp_tbl_rev hk31 s5 h1 l2 hnone fun t6 s6 b6 f6 => ?_
  refine wp_tbl_std hk31 s6 h1 l4 hnone fun t7 s7 b7 f7 => ?_
  refine wp_tbl_rev hk31 s7 h1 l4 hnone fun t8 s8 b8 f8 => ?_
  refine wp_tbl_std hk31 s8 l1 l2 hnone fun t9 s9 b9 f9 => ?_
  refine wp_tbl_rev hk31 s9 l1 l2 hnone fun t10 s10 b10 f10 => ?_
  refine wp_tbl_std hk31 s10 l3 l4 hnone fun t11 s11 b11 f11 => ?_
  refine wp_tbl_rev hk31 s11 l3 l4 hnone fun t12 s12 b12 f12 => ?_
  have one : (1 : Zq) * ((scale none : Nat) : Zq) = 1 := by simp [scale]
  have g1 := f1 (κ := 1) (s := 1) (printU16_spec t1) (by simp)
  have g2 := f2 (κ := 1) (s := 1) (printU16_spec t2) (by simp)
  have g3 := f3 (printU16_spec t3) one
  have g4 := f4 (κ := 1) (s := inv_n) (printU16_spec t4) (by simp)
  have g5 := f5 (printU16_spec t5) one
  have g6 := f6 (printU16_spec t6) one
  have g7 := f7 (printU16_spec t7) one
  have g8 := f8 (printU16_spec t8) one
  have g9 := f9 (printU16_spec t9) one
  have g10 := f10 (printU16_spec t10) one
  have g11 := f11 (printU16_spec t11) one
  have g12 := f12 (printU16_spec t12) one
  simp only [e1, e2, e3, e4, e5, Nat.cast_one] at g1 g2 g3 g4 g5 g6 g7 g8 g9 g10 g11 g12
  exact wp_pure.2 ⟨rfl, ⟨e1, l1⟩, ⟨e2, l2⟩, ⟨e3, l3⟩, ⟨e4, l4⟩, ⟨e5, l5⟩,
    g1, g2, g3, g4, g5, g6, g7, g8, g9, g10, g11, g12, by
      simp only [List.forall_mem_cons, List.not_mem_nil, false_implies, implies_true, and_true]
      exact ⟨printed_entries (printU16_spec t1) s1 b1,
        printed_entries (printU16_spec t2) s2 b2,
        printed_entries (printU16_spec t3) s3 b3,
        printed_entries (printU16_spec t4) s4 b4,
        printed_entries (printU16_spec t5) s5 b5,
        printed_entries (printU16_spec t6) s6 b6,
        printed_entries (printU16_spec t7) s7 b7,
        printed_entries (printU16_spec t8) s8 b8,
        printed_entries (printU16_spec t9) s9 b9,
        printed_entries (printU16_spec t10) s10 b10,
        printed_entries (printU16_spec t11) s11 b11,
        printed_entries (printU16_spec t12) s12 b12⟩⟩

theorem wp_params {E : Err → Prop} {α : Type} {k : Nat} {xn xpsi : Int}
    (h : GoodParams k xn xpsi) {f : Nat → Nat → Nat → Nat → Nat → Nat → M α} {P : α → Prop}
    (hf : ∀ psi phi inv_psi inv_phi inv_n,
      Params k (xpsi : Zq) psi phi inv_psi inv_phi inv_n →
      Wp E (f (2 ^ k) psi phi inv_psi inv_phi inv_n) P) :
    Wp E (do
      let (n, psi, phi) ← checkArgs 12289 xn xpsi
      let inv_psi ← inverseOrExit psi 12289
      let inv_phi ← inverseOrExit phi 12289
      let inv_n ← inverseOrExit n 12289
      f n psi phi inv_psi inv_phi inv_n) P := by
  rw [wp_bind]
  refine (wp_checkArgs h).mono ?_
  rintro _ ⟨psi, rfl, rfl⟩
  obtain ⟨hk1, rfl, hn, hp1, hp2, hpsi⟩ := h
  have hk := k_le_16 hn
  have hpn : (psi : Zq) ≠ 0 := by
    intro h0
    have : ((psi : Int) : Zq) = 0 := by simpa using h0
    rw [this, zero_pow (by have := Nat.two_pow_pos k; omega)] at hpsi
    exact absurd hpsi (by decide)
  have hphi : ((psi * psi % 12289 : Nat) : Zq) = (psi : Zq) ^ 2 := by
    rw [cast_mod]; push_cast; ring
  have hphil : psi * psi % 12289 < 12289 := Nat.mod_lt _ (by norm_num)
  have hphi1 : 1 ≤ psi * psi % 12289 := by
    rcases Nat.eq_zero_or_pos (psi * psi % 12289) with h0 | h0
    · rw [h0] at hphi
      exact absurd hphi.symm (by simpa using hpn)
    · exact h0
  have h2k : 2 ^ k ≤ 65536 := by
    have : 2 ^ k ≤ 2 ^ 16 := Nat.pow_le_pow_right (by omega) hk
    norm_num at this; omega
  simp only [wp_bind]
  refine (wp_inverseOrExit (by omega) (by omega) (gcd_lt (by omega) (by omega))).mono ?_
  rintro ipsi ⟨l3, e3⟩
  refine (wp_inverseOrExit hphi1 (by omega) (gcd_lt hphi1 hphil)).mono ?_
  rintro iphi ⟨l4, e4⟩
  refine (wp_inverseOrExit (Nat.two_pow_pos k) (by omega) (Nat.Coprime.pow_left k (by decide))).mono ?_
  rintro inv_n ⟨l5, e5⟩
  refine hf psi _ ipsi iphi inv_n ⟨hk, ⟨by simp, by omega⟩, ⟨by rw [hphi]; simp, hphil⟩,
    ⟨by rw [e3]; simp, l3⟩, ⟨by rw [e4, hphi]; simp, l4⟩, ⟨by rw [e5]; push_cast; rfl, l5⟩⟩

theorem wp_make_tables {E : Err → Prop} {k : Nat} {xn xpsi : Int} (h : GoodParams k xn xpsi)
    {buf : Nat → Array Nat} (hb : ∀ n, (buf n).size = n) :
    Wp E (make_tables buf xn xpsi) (TablesOK k (xpsi : Zq)) :=
  wp_params h (f := fun n psi phi inv_psi inv_phi inv_n =>
    print_tables (buf n) 12289 n inv_n psi phi inv_psi inv_phi)
    (fun _ _ _ _ _ hP => wp_print_tables hP (hb _))

theorem make_tables_abort {xn xpsi : Int} (h : ∀ k, ¬ GoodParams k xn xpsi)
    (buf : Nat → Array Nat) : make_tables buf xn xpsi = .error .abort := by
  unfold make_tables
  simp only [checkArgs_abort h]
  rfl

theorem wp_printI16 {E : Err → Prop} {r : Array Nat} {n : Nat} (hs : r.size = n)
    (hn : n < 4294967296) (hlt : ∀ (i v : Nat), r[i]? = some v → v < 12289) {P : Array Int → Prop}
    (h : ∀ p, Printed (-6144) 6144 r p → P p) : Wp E (printI16 r n 12289) P := by
  subst hs
  exact (printI16_spec hn hlt).mono h

theorem wp_print_red_tables {E : Err → Prop} {k : Nat} {ψ : Zq}
    {psi phi inv_psi inv_phi inv_n inv_k : Nat}
    (hP : Params k ψ psi phi inv_psi inv_phi inv_n) (hik : (inv_k : Zq) = 3⁻¹ ∧ inv_k < 12289)
    {buf : Array Nat} (hb : buf.size = 2 ^ k) :
    Wp E (print_red_tables buf 12289 (2 ^ k) inv_n psi phi inv_psi inv_phi inv_k)
      (RedTablesOK k ψ) := by
  obtain ⟨hk, ⟨e1, l1⟩, ⟨e2, l2⟩, ⟨e3, l3⟩, ⟨e4, l4⟩, ⟨e5, l5⟩⟩ := hP
  obtain ⟨e6, l6⟩ := hik
  have hn : 2 ^ k < 4294967296 := by
    have : 2 ^ k ≤ 2 ^ 16 := Nat.pow_le_pow_right (by omega) hk
    norm_num at this; omega
  have hk31 : k ≤ 31 := by omega
  have h1 : 1 < 12289 := by norm_num
  have hsome : ∀ s, some inv_k = some s → s < 12289 := by
    intro s hs; injection hs with hs; omega
  unfold print_red_tables
  simp only [wp_bind]
  refine (wp_rescale (by norm_num) l5 l6).mono ?_
  rintro r8 ⟨l8, e8⟩
  refine (wp_rescale (by norm_num) l5 l6).mono ?_
  rintro r6 ⟨l7, e7⟩
  refine wp_tbl_pow hn hb l6 l1 fun t1 s1 b1 f1 => wp_printI16 s1 hn b1 fun p1 c1 => ?_
  refine wp_tbl_rev hk31 s1 h1 l1 hsome fun t2 s2 b2 f2 => wp_printI16 s2 hn b2 fun p2 c2 => ?_
  refine wp_tbl_pow hn s2 l6 l3 fun t3 s3 b3 f3 => wp_printI16 s3 hn b3 fun p3 c3 => ?_
  refine wp_tbl_pow hn s3 l8 l3 fun t4 s4 b4 f4 => wp_printI16 s4 hn b4 fun p4 c4 => ?_
  refine wp_tbl_pow hn s4 l7 l3 fun t5 s5 b5 f5 => wp_printI16 s5 hn b5 fun p5 c5 => ?_
  refine wp_tbl_std hk31 s5 h1 l2 hsome fun t6 s6 b6 f6 => wp_printI16 s6 hn b6 fun p6 c6 => ?_
  refine wp_tbl_rev hk31 s6 h1 l2 hsome fun t7 s7 b7 f7 => wp_printI16 s7 hn b7 fun p7 c7 => ?_
  refine wp_tbl_std hk31 s7 h1 l4 hsome fun t8 s8 b8 f8 => wp_printI16 s8 hn b8 fun p8 c8 => ?_
  refine wp_tbl_rev hk31 s8 h1 l4 hsome fun t9 s9 b9 f9 => wp_printI16 s9 hn b9 fun p9 c9 => ?_
  refine wp_tbl_std hk31 s9 l1 l2 hsome fun t10 s10 b10 f10 => wp_printI16 s10 hn b10 fun p10 c10 => ?_
  refine wp_tbl_rev hk31 s10 l1 l2 hsome fun t11 s11 b11 f11 => wp_printI16 s11 hn b11 fun p11 c11 => ?_
  refine wp_tbl_std hk31 s11 l3 l4 hsome fun t12 s12 b12 f12 => wp_printI16 s12 hn b12 fun p12 c12 => ?_
  refine wp_tbl_rev hk31 s12 l3 l4 hsome fun t13 s13 b13 f13 => wp_printI16 s13 hn b13 fun p13 c13 => ?_
  have h3 : (3 : Zq) ≠ 0 := by decide
  have three : (3 : Zq) * ((scale (some inv_k) : Nat) : Zq) = 1 := by
    simp only [scale, Option.getD_some, e6]
    exact mul_inv_cancel₀ h3
  have three' : (3 : Zq) * (inv_k : Zq) = ((1 : Nat) : Zq) := by
    rw [e6, Nat.cast_one]; exact mul_inv_cancel₀ h3
  have e8' : (r8 : Zq) = (3 ^ 8 * 2 ^ k : Zq)⁻¹ := by
    rw [e8, e6, e5, mul_inv, inv_pow]
  have e7' : (r6 : Zq) = (3 ^ 6 * 2 ^ k : Zq)⁻¹ := by
    rw [e7, e6, e5, mul_inv, inv_pow]
  have g1 := f1 c1 three'
  have g2 := f2 c2 three
  have g3 := f3 c3 three'
  have g4 := f4 (κ := 1) (s := r8) c4 (by simp)
  have g5 := f5 (κ := 1) (s := r6) c5 (by simp)
  have g6 := f6 c6 three
  have g7 := f7 c7 three
  have g8 := f8 c8 three
  have g9 := f9 c9 three
  have g10 := f10 c10 three
  have g11 := f11 c11 three
  have g12 := f12 c12 three
  have g13 := f13 c13 three
  simp only [e1, e2, e3, e4, e5, e8', e7', Nat.cast_one] at g1 g2 g3 g4 g5 g6 g7 g8 g9 g10 g11 g12 g13
  exact wp_pure.2 ⟨rfl, ⟨e1, l1⟩, ⟨e2, l2⟩, ⟨e3, l3⟩, ⟨e4, l4⟩, ⟨e5, l5⟩, ⟨e6, l6⟩, ⟨e8', l8⟩,
    ⟨e7', l7⟩, g1, g2, g3, g4, g5, g6, g7, g8, g9, g10, g11, g12, g13, by
      simp only [List.forall_mem_cons, List.not_mem_nil, false_implies, implies_true, and_true]
      exact ⟨printed_entries c1 s1 b1,
        printed_entries c2 s2 b2,
        printed_entries c3 s3 b3,
        printed_entries c4 s4 b4,
        printed_entries c5 s5 b5,
        printed_entries c6 s6 b6,
        printed_entries c7 s7 b7,
        printed_entries c8 s8 b8,
        printed_entries c9 s9 b9,
        printed_entries c10 s10 b10,
        printed_entries c11 s11 b11,
        printed_entries c12 s12 b12,
        printed_entries c13 s13 b13⟩⟩

theorem wp_make_red_tables {E : Err → Prop} {k : Nat} {xn xpsi : Int} (h : GoodParams k xn xpsi)
    {buf : Nat → Array Nat} (hb : ∀ n, (buf n).size = n) :
    Wp E (make_red_tables buf xn xpsi) (RedTablesOK k (xpsi : Zq)) := by
  unfold make_red_tables
  simp only
  rw [wp_bind]
  refine wp_find_k ?_
  rw [if_neg (by norm_num)]
  refine wp_params h (f := fun n psi phi inv_psi inv_phi inv_n => do
    let inv_k ← inverseOrExit 3 12289
    print_red_tables (buf n) 12289 n inv_n psi phi inv_psi inv_phi inv_k) ?_
  intro psi phi inv_psi inv_phi inv_n hP
  rw [wp_bind]
  refine (wp_inverseOrExit (by norm_num) (by norm_num) (by decide)).mono ?_
  rintro inv_k ⟨l, e⟩
  exact wp_print_red_tables hP ⟨by simpa using e, l⟩ (hb _)

theorem make_red_tables_abort {xn xpsi : Int} (h : ∀ k, ¬ GoodParams k xn xpsi)
    (buf : Nat → Array Nat) : make_red_tables buf xn xpsi = .error .abort := by
  unfold make_red_tables
  have : find_k 12289 = .ok 3 := by rfl
  simp only [checkArgs_abort h, this]
  rfl

end Tables
